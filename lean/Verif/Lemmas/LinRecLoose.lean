import Verif.Lemmas.LinRecWindow

/-! # `run_loose_linrec_machine` -/

namespace BB.PyRec

/-- A blank tape twice in the same state. -/
theorem recurs_blank {p : Prog} {a b : Nat} {c d : Cfg} (hab : a < b)
    (hc : runFor p a initCfg = some c) (hd : runFor p b initCfg = some d)
    (hq : d.state = c.state) (h1 : c.Blank) (h2 : d.Blank) : RecursFrom p a (b - a) := by
  have hrun : runFor p (b - a) c = some d := by
    rw [show b = a + (b - a) by omega, runFor_add, hc] at hd
    exact hd
  exact recursFrom_of_cells (k := d.pos - c.pos) (fun _ => True) (by omega) hc hrun
    (fun _ _ _ _ => trivial) hq (by omega) (fun x _ => (h2 _).trans (h1 _).symm) (fun _ _ => trivial)

/-- One step of the loops: the end is a change of slot, and none is passed over. -/
theorem step_starts {p : Prog} {q q' : State} {t : HeadTape} {shift : Bool} {c : Color} {T : Nat}
    (ht : t.tape.Canonical) (hr : runFor p T initCfg = some (t.tape.cfg q t.head))
    (hp : p (q, t.tape.scan) = some (c, shift, q'))
    (he : ¬ ((q == q') && t.tape.atEdge shift) = true) :
    Chg p (T + (headStep t shift c (q == q')).2) ∧
    ∀ n per t0, RecursFrom p n per → n + 1 ≤ t0 → Chg p t0 → T < t0 + per →
      T + (headStep t shift c (q == q')).2 ≤ t0 + per := by
  have hF := headStep_facts (skip := q == q') ht hp (Or.inr rfl)
  obtain ⟨f1, f2, _⟩ := headStep_slots (t := t) ht hp
  generalize hst : headStep t shift c (q == q') = st at hF f1 f2
  obtain ⟨t', k⟩ := st
  simp only at hF f1 f2 ⊢
  have hk := hF.pos
  have hslot : ∀ m, m < k → ∃ d, runFor p (T + m) initCfg = some d ∧ d.slot = (q, t.tape.scan) := by
    intro m hm
    obtain ⟨d, d1, d2⟩ := f1 m hm
    exact ⟨d, runFor_trans hr d1, d2⟩
  constructor
  · rcases f2 with f2 | ⟨_, g2, g3⟩
    · obtain ⟨d, d1, d2⟩ := hslot (k - 1) (by omega)
      rw [show T + (k - 1) = T + k - 1 by omega] at d1
      exact ⟨by omega, d, _, d1, runFor_trans hr hF.run, by rw [d2]; exact f2⟩
    · exact absurd (by simp [g2, g3]) he
  · intro n per t0 hrec hn hchg hlt
    generalize t.tape.scan = sc at hslot
    by_contra hcon
    obtain ⟨f, hf⟩ := hrec.neverHalts.run
    obtain ⟨kk, e⟩ := hrec.fn hf
    have hsl : ∀ t, T ≤ t → t < T + k → (f t).slot = (q, sc) := by
      intro t h1 h2
      obtain ⟨d, d1, d2⟩ := hslot (t - T) (by omega)
      rw [show T + (t - T) = t by omega, hf] at d1
      cases d1
      exact d2
    have c1 := hchg.fn hf
    have d1 := (e t0 (by omega)).1
    have d2 := (e (t0 - 1) (by omega)).1
    rw [show t0 - 1 + per = t0 + per - 1 by omega] at d2
    apply c1
    rw [← d1, ← d2, hsl _ (by omega) (by omega), hsl _ (by omega) (by omega)]

/-- At the top of the loop. -/
structure TopInv (p : Prog) (cycle : Nat) (s : LooseState) : Prop where
  canon : s.tape.tape.Canonical
  run : runFor p s.step initCfg = some (s.tape.tape.cfg s.state s.tape.head)
  blanks : BlanksExact p s.blanks s.step
  chg : Chg p s.step
  cyc : cycle ≤ s.step
  win : s.step < s.stepsReset → ∃ t0, s.stepsReset = 2 * t0 ∧ Chg p t0 ∧
    Win p t0 s.initTape s.initState s.step s.tape s.state s.leftmost s.rightmost

/-- After the beginning of the outer loop. -/
structure MidInv (p : Prog) (cycle t0 : Nat) (s : LooseState) : Prop where
  blanks : BlanksExact p s.blanks s.step
  chg : Chg p s.step
  cyc : cycle ≤ s.step
  reset : s.stepsReset = 2 * t0
  lt : s.step < 2 * t0
  chg0 : Chg p t0
  win : Win p t0 s.initTape s.initState s.step s.tape s.state s.leftmost s.rightmost

theorem TopInv.mid {p : Prog} {cycle : Nat} {s : LooseState} (h : TopInv p cycle s) :
    ∃ t0, MidInv p cycle t0 (if s.step < s.stepsReset then s else s.rebase) ∧
      (s.step < s.stepsReset → s.stepsReset = 2 * t0) ∧
      (¬ s.step < s.stepsReset → t0 = s.step) := by
  split
  · rename_i hlt
    obtain ⟨t0, h1, h2, h3⟩ := h.win hlt
    exact ⟨t0, ⟨h.blanks, h.chg, h.cyc, h1, by omega, h2, h3⟩, fun _ => h1, fun h' => absurd hlt h'⟩
  · rename_i hlt
    have h1 := h.chg.1
    exact ⟨s.step, ⟨h.blanks, h.chg, h.cyc, rfl, by simp only [LooseState.rebase]; omega, h.chg,
      Win.start h.canon h.run⟩, fun h' => absurd h' hlt, fun _ => rfl⟩

/-- What the machine reports. -/
structure LooseSpec (p : Prog) (lim : Nat) (r : MachineResult) : Prop where
  kinds : r.result = .undfnd ∨ r.result = .spnout ∨ r.result = .infrul ∨ r.result = .xlimit
  undfnd : r.result = .undfnd → ∃ slot, r.lastSlot = some slot ∧ HaltsAt p initCfg r.steps slot
  spnout : r.result = .spnout → RecursFrom p r.steps 1
  infrul : r.result = .infrul → ∃ n, n < r.steps ∧ RecursFrom p n (r.steps - n)
  xlimit : r.result = .xlimit → lim ≤ r.steps ∧ r.cycles = lim
  run : (runFor p r.steps initCfg).isSome
  blanks : BlanksExact p r.blanks r.steps
  cyc : r.cycles ≤ lim
  slot : r.result ≠ .undfnd → r.lastSlot = none

/-- The body of the loop after the beginning of the outer loop. -/
def looseBody (comp : Prog) (fuel cycle : Nat) (s : LooseState) : MachineResult :=
    match comp (s.state, s.tape.tape.scan) with
    | none => s.result .undfnd cycle (some (s.state, s.tape.tape.scan))
    | some (color, shift, nextState) =>
      let same := s.state == nextState
      if same && s.tape.tape.atEdge shift then s.result .spnout cycle none
      else
        let (tape, stepped) := headStep s.tape shift color same
        let s : LooseState := { s with state := nextState, step := s.step + stepped, tape := tape }
        let isBlank := color == 0 && tape.tape.blank
        if isBlank && (s.blanks.lookup nextState).isSome then s.result .infrul (cycle + 1) none
        else
          let s := if isBlank then { s with blanks := (nextState, s.step) :: s.blanks } else s
          if isBlank && nextState == 0 then s.result .infrul (cycle + 1) none
          else
            let s := s.extend
            if s.recurs then s.result .infrul (cycle + 1) none
            else looseLoop comp fuel (cycle + 1) s

theorem looseLoop_succ (comp : Prog) (fuel cycle : Nat) (s : LooseState) :
    looseLoop comp (fuel + 1) cycle s
      = looseBody comp fuel cycle (if s.step < s.stepsReset then s else s.rebase) := by
  rw [looseLoop]; rfl

/-- The state after a step. -/
def LooseState.next (s : LooseState) (t' : HeadTape) (k : Nat) (q' : State) (b : Bool) : LooseState :=
  { s with state := q', step := s.step + k, tape := t',
           blanks := if b then (q', s.step + k) :: s.blanks else s.blanks,
           leftmost := (ext s.leftmost s.rightmost t'.head).1,
           rightmost := (ext s.leftmost s.rightmost t'.head).2 }

theorem looseBody_eq {p : Prog} {fuel cycle : Nat} {s : LooseState} {color : Color} {shift : Bool}
    {q' : State} (hp : p (s.state, s.tape.tape.scan) = some (color, shift, q'))
    (he : ¬ ((s.state == q') && s.tape.tape.atEdge shift) = true) {t' : HeadTape} {k : Nat}
    (hst : headStep s.tape shift color (s.state == q') = (t', k)) :
    looseBody p fuel cycle s =
      if (color == 0 && t'.tape.blank && (s.blanks.lookup q').isSome) = true then
        ⟨.infrul, s.step + k, cycle + 1, 0, 0, s.blanks, none⟩
      else if (color == 0 && t'.tape.blank && q' == 0) = true then
        (s.next t' k q' (color == 0 && t'.tape.blank)).result .infrul (cycle + 1) none
      else if (s.next t' k q' (color == 0 && t'.tape.blank)).recurs = true then
        (s.next t' k q' (color == 0 && t'.tape.blank)).result .infrul (cycle + 1) none
      else looseLoop p fuel (cycle + 1) (s.next t' k q' (color == 0 && t'.tape.blank)) := by
  unfold looseBody
  rw [hp]
  simp only [he, Bool.false_eq_true, if_false, hst]
  obtain ⟨state, step, tape, blanks, reset, lm, rm, is, it⟩ := s
  simp only [LooseState.result, LooseState.extend, LooseState.next, ext]
  cases hb : (color == 0 && t'.tape.blank) <;>
    by_cases h1 : t'.head < lm <;> by_cases h2 : rm < t'.head <;>
    simp [h1, h2]

theorem MidInv.next {p : Prog} {cycle t0 : Nat} {s : LooseState} (h : MidInv p cycle t0 s)
    {color : Color} {shift : Bool} {q' : State}
    (hp : p (s.state, s.tape.tape.scan) = some (color, shift, q'))
    (he : ¬ ((s.state == q') && s.tape.tape.atEdge shift) = true) {t' : HeadTape} {k : Nat}
    (hst : headStep s.tape shift color (s.state == q') = (t', k)) :
    1 ≤ k ∧ Win p t0 s.initTape s.initState (s.step + k) t' q' (ext s.leftmost s.rightmost t'.head).1
        (ext s.leftmost s.rightmost t'.head).2 ∧
    Chg p (s.step + k) ∧
    (∀ n per, RecursFrom p n per → n + 1 ≤ t0 → s.step < t0 + per → s.step + k ≤ t0 + per) ∧
    (t'.tape.blank = true → color = 0) ∧
    (t'.tape.blank = false → BlanksExact p s.blanks (s.step + k)) ∧
    (t'.tape.blank = true → (s.blanks.lookup q').isSome → BlanksExact p s.blanks (s.step + k)) ∧
    (t'.tape.blank = true → ¬ (s.blanks.lookup q').isSome →
      BlanksExact p ((q', s.step + k) :: s.blanks) (s.step + k)) := by
  have hw := h.win
  have hF := headStep_facts (skip := s.state == q') hw.canon hp (Or.inr rfl)
  obtain ⟨g1, g2⟩ := step_starts hw.canon hw.run hp he
  rw [hst] at hF g1 g2
  simp only at hF g1 g2
  obtain ⟨b1, b2, b3⟩ := blanksExact_advance h.blanks hw.run hF.pos hF.canon hF.run hF.mid
  refine ⟨hF.pos, hw.advance hF, g1, fun n per hr hn hlt => g2 n per t0 hr hn h.chg0 hlt, ?_,
    b1, b2, b3⟩
  intro hb
  by_contra hc
  rw [hF.blank hc] at hb
  cases hb

theorem MidInv.top {p : Prog} {cycle t0 : Nat} {s : LooseState} (h : MidInv p cycle t0 s)
    {color : Color} {shift : Bool} {q' : State}
    (hp : p (s.state, s.tape.tape.scan) = some (color, shift, q'))
    (he : ¬ ((s.state == q') && s.tape.tape.atEdge shift) = true) {t' : HeadTape} {k : Nat}
    (hst : headStep s.tape shift color (s.state == q') = (t', k))
    (hb : ¬ (color == 0 && t'.tape.blank && (s.blanks.lookup q').isSome) = true) :
    TopInv p (cycle + 1) (s.next t' k q' (color == 0 && t'.tape.blank)) ∧
      Win p t0 s.initTape s.initState (s.step + k) t' q' (ext s.leftmost s.rightmost t'.head).1
        (ext s.leftmost s.rightmost t'.head).2 := by
  obtain ⟨h1, h2, h3, _, h5, h6, _, h8⟩ := h.next hp he hst
  have hc := h.cyc
  refine ⟨⟨h2.canon, h2.run, ?_, h3, by simp only [LooseState.next]; omega, fun _ =>
    ⟨t0, h.reset, h.chg0, h2⟩⟩, h2⟩
  simp only [LooseState.next]
  by_cases hbl : t'.tape.blank = true
  · have := h5 hbl
    subst this
    simp only [hbl, beq_self_eq_true, Bool.and_self, Bool.true_and, if_true] at hb ⊢
    exact h8 hbl hb
  · have hbl : t'.tape.blank = false := by simpa using hbl
    simp only [hbl, Bool.and_false, Bool.false_eq_true, if_false]
    exact h6 hbl

theorem recurs_iff {p : Prog} {t0 T : Nat} {ref cur : HeadTape} {q0 q : State} {lm rm : Int}
    (h : Win p t0 ref q0 T cur q lm rm) (hlt : t0 < T) :
    (q == q0 && cur.tape.scan == ref.tape.scan && alignsWith cur ref lm rm) = true ↔
      RecursFrom p t0 (T - t0) := by
  have h0 := h.bound t0 _ (Nat.le_refl _) h.le h.run0
  simp only [Tape.cfg] at h0
  simp only [Bool.and_eq_true, beq_iff_eq]
  constructor
  · rintro ⟨⟨h1, h2⟩, h3⟩
    exact h.sound hlt h1 ((pyAligns_iff h0.1 h0.2 h.canon h.canon0 h2).mp h3)
  · intro hr
    obtain ⟨h1, h2, h3, _⟩ := h.complete hlt hr
    exact ⟨⟨h1, h2⟩, (pyAligns_iff h0.1 h0.2 h.canon h.canon0 h2).mpr h3⟩

theorem looseLoop_spec (p : Prog) (fuel cycle : Nat) (s : LooseState) (h : TopInv p cycle s) :
    LooseSpec p (cycle + fuel) (looseLoop p fuel cycle s) := by
  induction fuel generalizing cycle s with
  | zero =>
    rw [looseLoop]
    exact ⟨by simp [LooseState.result], by simp [LooseState.result], by simp [LooseState.result],
      by simp [LooseState.result], fun _ => ⟨h.cyc, rfl⟩, by simp [LooseState.result, h.run], h.blanks,
      Nat.le_refl _, fun _ => rfl⟩
  | succ fuel ih =>
    rw [looseLoop_succ]
    obtain ⟨t0, hm, _, _⟩ := h.mid
    generalize (if s.step < s.stepsReset then s else s.rebase) = s at hm
    have hw := hm.win
    cases hp : p (s.state, s.tape.tape.scan) with
    | none =>
      simp only [looseBody, hp]
      refine ⟨by simp [LooseState.result], fun _ => ⟨_, rfl, _, hw.run, cfg_slot .., hp⟩,
        by simp [LooseState.result], by simp [LooseState.result], by simp [LooseState.result],
        by simp [LooseState.result, hw.run], hm.blanks, by simp [LooseState.result],
        by simp [LooseState.result]⟩
    | some i =>
      obtain ⟨color, shift, q'⟩ := i
      by_cases he : ((s.state == q') && s.tape.tape.atEdge shift) = true
      · simp only [looseBody, hp, he, if_true]
        refine ⟨by simp [LooseState.result], by simp [LooseState.result], fun _ => ?_,
          by simp [LooseState.result], by simp [LooseState.result],
          by simp [LooseState.result, hw.run], hm.blanks, by simp [LooseState.result],
          by simp [LooseState.result]⟩
        simp only [Bool.and_eq_true, beq_iff_eq] at he
        obtain ⟨rfl, he⟩ := he
        exact recurs_edge hw.canon hp he hw.run
      · obtain ⟨t', k, hst⟩ : ∃ t' k, headStep s.tape shift color (s.state == q') = (t', k) :=
          ⟨_, _, rfl⟩
        rw [looseBody_eq hp he hst]
        obtain ⟨h1, h2, h3, _, h5, h6, h7, h8⟩ := hm.next hp he hst
        have hle := hw.le
        have hrun := h2.run
        by_cases hb : (color == 0 && t'.tape.blank && (s.blanks.lookup q').isSome) = true
        · rw [if_pos hb]
          simp only [Bool.and_eq_true, beq_iff_eq] at hb
          obtain ⟨⟨_, hb1⟩, hb2⟩ := hb
          refine ⟨by simp, by simp, by simp, fun _ => ?_, by simp, by simp [hrun], h7 hb1 hb2,
            by simp, by simp⟩
          obtain ⟨n, hn⟩ := Option.isSome_iff_exists.mp hb2
          obtain ⟨⟨_, ⟨d, d1, d2, d3⟩, _⟩, hn2⟩ := (hm.blanks q' n).mp hn
          have hlt : n < s.step + k := by omega
          refine ⟨n, hlt, recurs_blank hlt d1 hrun (by rw [d2]; rfl) d3
            ((h2.canon.blank_iff _).mp hb1)⟩
        · rw [if_neg hb]
          obtain ⟨ht, _⟩ := hm.top hp he hst hb
          have base : (∃ n, n < s.step + k ∧ RecursFrom p n (s.step + k - n)) →
              LooseSpec p (cycle + (fuel + 1))
                ((s.next t' k q' (color == 0 && t'.tape.blank)).result .infrul (cycle + 1) none) := by
            intro hx
            exact ⟨by simp [LooseState.result], by simp [LooseState.result],
              by simp [LooseState.result], fun _ => hx, by simp [LooseState.result],
              by simp [LooseState.result, LooseState.next, hrun], ht.blanks,
              by simp [LooseState.result], by simp [LooseState.result]⟩
          by_cases hz : (color == 0 && t'.tape.blank && q' == 0) = true
          · rw [if_pos hz]
            simp only [Bool.and_eq_true, beq_iff_eq] at hz
            obtain ⟨⟨_, hz1⟩, hz2⟩ := hz
            refine base ⟨0, by omega, ?_⟩
            exact recurs_blank (by omega) (c := initCfg) rfl hrun (by rw [hz2]; rfl)
              (fun x => rfl) ((h2.canon.blank_iff _).mp hz1)
          · rw [if_neg hz]
            by_cases hrc : (s.next t' k q' (color == 0 && t'.tape.blank)).recurs = true
            · rw [if_pos hrc]
              exact base ⟨t0, by omega, (recurs_iff h2 (by omega)).mp hrc⟩
            · rw [if_neg hrc]
              have := ih (cycle + 1) _ ht
              rwa [show cycle + 1 + fuel = cycle + (fuel + 1) by omega] at this

/-- A recurrence is found in time. -/
theorem looseLoop_complete (p : Prog) {n per : Nat} (hr : RecursFrom p n per) (fuel cycle : Nat)
    (s : LooseState) (h : TopInv p cycle s) (t0 : Nat)
    (h0 : if s.step < s.stepsReset then s.stepsReset = 2 * t0 else t0 = s.step)
    (hf : if max (n + 1) per ≤ t0 then s.step < t0 + per ∧ t0 + per ≤ fuel + s.step
      else 2 * max (n + 1) per + per ≤ fuel + s.step) :
    (looseLoop p fuel cycle s).result ≠ .xlimit := by
  induction fuel generalizing cycle s t0 with
  | zero =>
    exfalso
    split at hf
    · omega
    · rename_i hbad
      split at h0 <;> omega
  | succ fuel ih =>
    rw [looseLoop_succ]
    obtain ⟨t0', hm, e1, e2⟩ := h.mid
    obtain rfl : t0' = t0 := by
      split at h0
      · have := e1 ‹_›; omega
      · have := e2 ‹_›; omega
    have hstep : (if s.step < s.stepsReset then s else s.rebase).step = s.step := by
      split <;> rfl
    rw [← hstep] at hf
    clear h0 e1 e2 h
    generalize (if s.step < s.stepsReset then s else s.rebase) = s at hm hf
    clear hstep
    have hw := hm.win
    cases hp : p (s.state, s.tape.tape.scan) with
    | none => simp [looseBody, hp, LooseState.result]
    | some i =>
      obtain ⟨color, shift, q'⟩ := i
      by_cases he : ((s.state == q') && s.tape.tape.atEdge shift) = true
      · simp [looseBody, hp, he, LooseState.result]
      · obtain ⟨t', k, hst⟩ : ∃ t' k, headStep s.tape shift color (s.state == q') = (t', k) :=
          ⟨_, _, rfl⟩
        rw [looseBody_eq hp he hst]
        obtain ⟨h1, h2, h3, h4, _⟩ := hm.next hp he hst
        by_cases hb : (color == 0 && t'.tape.blank && (s.blanks.lookup q').isSome) = true
        · rw [if_pos hb]; simp
        · rw [if_neg hb]
          obtain ⟨ht, _⟩ := hm.top hp he hst hb
          by_cases hz : (color == 0 && t'.tape.blank && q' == 0) = true
          · rw [if_pos hz]; simp [LooseState.result]
          · rw [if_neg hz]
            by_cases hrc : (s.next t' k q' (color == 0 && t'.tape.blank)).recurs = true
            · rw [if_pos hrc]; simp [LooseState.result]
            · rw [if_neg hrc]
              have hreset := hm.reset
              have hlt := hm.lt
              have hle := hw.le
              have hno : ¬ RecursFrom p t0' (s.step + k - t0') := fun hx =>
                hrc ((recurs_iff h2 (by omega)).mpr hx)
              have es : (s.next t' k q' (color == 0 && t'.tape.blank)).step = s.step + k := rfl
              have er : (s.next t' k q' (color == 0 && t'.tape.blank)).stepsReset = 2 * t0' := hreset
              by_cases hgood : max (n + 1) per ≤ t0'
              · rw [if_pos hgood] at hf
                have h5 := h4 n per hr (by omega) hf.1
                have h6 : s.step + k ≠ t0' + per := by
                  intro h6
                  rw [h6, Nat.add_sub_cancel_left] at hno
                  exact hno (hr.mono (by omega))
                refine ih (cycle + 1) _ ht t0' ?_ ?_
                · rw [es, er, if_pos (by omega)]
                · rw [if_pos hgood, es]; omega
              · rw [if_neg hgood] at hf
                by_cases hnew : s.step + k < 2 * t0'
                · refine ih (cycle + 1) _ ht t0' ?_ ?_
                  · rw [es, er, if_pos hnew]
                  · rw [if_neg hgood, es]; omega
                · refine ih (cycle + 1) _ ht (s.step + k) ?_ ?_
                  · rw [es, er, if_neg hnew]
                  · have := hr.1
                    split
                    · rw [es]; omega
                    · rw [es]; omega

theorem TopInv.start {p : Prog} (h : p (0, 0) = some (1, true, 1)) : TopInv p 1 .start := by
  have hfull := Rs.step_full (p := p) (q := 0) (q' := 1) (t := Tape.init) (shift := true) (c := 1)
    Tape.canonical_init h (by decide) 0
  have hc : (HeadTape.initStepped).tape = (Rs.step Tape.init true 1 false).1 := by decide
  have hcan : HeadTape.initStepped.tape.Canonical := by rw [hc]; exact hfull.2.1
  have hrun : runFor p 1 initCfg = some (HeadTape.initStepped.tape.cfg 1 HeadTape.initStepped.head) := by
    rw [initCfg_eq]; exact hfull.2.2.1
  refine ⟨hcan, hrun, ?_, ⟨Nat.le_refl _, _, _, rfl, hrun, ?_⟩, Nat.le_refl _, ?_⟩
  · obtain ⟨b1, _, _⟩ := blanksExact_advance (qinv_init p).blanks (pos := 0) (k := 1)
      (t := Tape.init) (q := 0) (by show runFor p 0 initCfg = _; rw [initCfg_eq]; rfl) (Nat.le_refl _)
      hcan (by rw [← initCfg_eq]; exact hrun) (by intro m h1 h2; omega)
    exact b1 (by decide)
  · rw [cfg_slot]
    intro h'
    exact absurd (congrArg Prod.fst h') (by decide)
  · intro h'
    simp [LooseState.start] at h'

end BB.PyRec
