import Verif.Lemmas.LinRecLoose

/-! # `quick_term_or_rec` finds every recurrence -/

namespace BB.PyRec

/-! ## Counting blocks -/

/-- How often neighbouring cells differ among the first `n`. -/
def chgs (f : Nat → Color) (n : Nat) : Nat :=
  (List.range n).countP fun i => f i != f (i + 1)

theorem chgs_succ (f : Nat → Color) (n : Nat) :
    chgs f (n + 1) = chgs f n + if f n = f (n + 1) then 0 else 1 := by
  simp only [chgs, List.range_succ, List.countP_append, List.countP_singleton]
  by_cases h : f n = f (n + 1) <;> simp [h]

theorem chgs_add (f : Nat → Color) (a b : Nat) :
    chgs f (a + b) = chgs f a + chgs (fun i => f (a + i)) b := by
  induction b with
  | zero => simp [chgs]
  | succ b ih => rw [← Nat.add_assoc, chgs_succ, ih, chgs_succ, Nat.add_assoc]; rfl

theorem chgs_congr {f g : Nat → Color} {n : Nat} (h : ∀ i, i ≤ n → f i = g i) :
    chgs f n = chgs g n := by
  induction n with
  | zero => rfl
  | succ n ih =>
    rw [chgs_succ, chgs_succ, ih fun i hi => h i (by omega), h n (by omega), h (n + 1) (by omega)]

theorem chgs_pos {f : Nat → Color} {n : Nat} (h : f 0 ≠ f n) : 1 ≤ chgs f n := by
  induction n with
  | zero => exact absurd rfl h
  | succ n ih =>
    rw [chgs_succ]
    by_cases h1 : f n = f (n + 1)
    · have := ih (by rwa [h1]); omega
    · rw [if_neg h1]; omega

/-- Cells inserted do not lessen the number of changes. -/
theorem chgs_insert {f g : Nat → Color} {d k : Nat} (h1 : ∀ i, i < d → f i = g i)
    (h2 : ∀ i, d ≤ i → g (i + k) = f i) (m : Nat) : chgs f (d + m) ≤ chgs g (d + k + m) := by
  rw [chgs_add, chgs_add]
  have hfar : chgs (fun i => f (d + i)) m = chgs (fun i => g (d + k + i)) m :=
    chgs_congr fun i _ => by rw [← h2 (d + i) (by omega)]; congr 1; omega
  rw [hfar]
  have hnear : chgs f d ≤ chgs g (d + k) := by
    cases d with
    | zero => simp [chgs]
    | succ d =>
      rw [chgs_succ, show d + 1 + k = d + (k + 1) by omega, chgs_add,
        chgs_congr (f := f) (g := g) fun i hi => h1 i (by omega)]
      by_cases hd : f d = f (d + 1)
      · rw [if_pos hd]; omega
      · rw [if_neg hd]
        have := chgs_pos (f := fun i => g (d + i)) (n := k + 1) (by
          simp only [Nat.add_zero]
          rw [← h1 d (by omega), show d + (k + 1) = d + 1 + k by omega, h2 (d + 1) (by omega)]
          exact hd)
        omega
  omega

theorem chgs_const {f : Nat → Color} {n : Nat} (h : ∀ i, i ≤ n → f i = f 0) : chgs f n = 0 := by
  induction n with
  | zero => rfl
  | succ n ih =>
    rw [chgs_succ, ih fun i hi => h i (by omega), h n (by omega), h (n + 1) (by omega)]
    simp

/-- A canonical span has as many blocks as its half tape has changes. -/
theorem chgs_canon {s : List Block} (hs : Canon s) (m : Nat) :
    chgs (half s) ((unroll s).length + m) = s.length := by
  induction s with
  | nil =>
    rw [half_nil]
    exact chgs_const (fun _ _ => rfl)
  | cons b s ih =>
    have hb : 1 ≤ b.count := hs.posCounts b (by simp)
    rw [unroll_cons, List.length_append, List.length_replicate, Nat.add_assoc, chgs_add]
    have h2 : (fun i => half (b :: s) (b.count + i)) = half s := by
      funext i
      rw [half_cons, hrep_apply, if_neg (by omega)]
      congr 1; omega
    rw [h2, ih hs.tail, List.length_cons, Nat.add_comm]
    congr 1
    obtain ⟨n, hn⟩ : ∃ n, b.count = n + 1 := ⟨b.count - 1, by omega⟩
    have hin : ∀ i, i < b.count → half (b :: s) i = b.color := by
      intro i hi
      rw [half_cons, hrep_apply, if_pos hi]
    have hout : half (b :: s) b.count ≠ b.color := hs.half_head
    rw [hn, chgs_succ, chgs_const (fun i hi => by rw [hin i (by omega), hin 0 (by omega)]),
      hin n (by omega), ← hn, if_neg (fun h => hout h.symm)]

/-- Inserting cells into a half tape does not lessen the number of blocks. -/
theorem length_insert {s u : List Block} (hs : Canon s) (hu : Canon u) {d k : Nat}
    (h1 : ∀ i, i < d → half s i = half u i) (h2 : ∀ i, d ≤ i → half u (i + k) = half s i) :
    s.length ≤ u.length := by
  have := chgs_insert h1 h2 ((unroll s).length + (unroll u).length)
  rw [show d + ((unroll s).length + (unroll u).length) = (unroll s).length + (d + (unroll u).length) by
      omega, chgs_canon hs,
    show d + k + ((unroll s).length + (unroll u).length)
      = (unroll u).length + (d + k + (unroll s).length) by omega, chgs_canon hu] at this
  exact this

/-! ## The comparison in Rust -/

theorem rsAligns_complete {p : Prog} {t0 T : Nat} {ref cur : HeadTape} {q0 q : State} {lm rm : Int}
    (h : Win p t0 ref q0 T cur q lm rm) (hlt : t0 < T) (hr : RecursFrom p t0 (T - t0)) :
    cur.alignsWith ref lm rm = true := by
  obtain ⟨_, hs, hsame, hout⟩ := h.complete hlt hr
  have h0 := h.bound t0 _ (Nat.le_refl _) h.le h.run0
  simp only [Tape.cfg] at h0
  have hc := h.canon
  have hc0 := h.canon0
  unfold HeadTape.alignsWith
  rw [if_neg (by simp [hs])]
  simp only
  by_cases h1 : 0 < cur.head - ref.head
  · obtain ⟨a1, a2⟩ := (same_right h0.1 hc hc0 hs).mp (hsame.right h1)
    rw [if_pos h1, getSlice_left _ _ h0.1, getSlice_left _ _ (by omega),
      show cur.head - (lm + (cur.head - ref.head)) = ref.head - lm by omega]
    have hlen : ref.tape.lspan.length ≤ cur.tape.lspan.length := by
      refine length_insert hc0.l hc.l (d := (ref.head - lm).toNat) (k := (cur.head - ref.head).toNat)
        a1 ?_
      intro i hi
      have := hout (ref.head - 1 - i) (by omega)
      rw [Tape.cells_left] at this
      rw [← this, ← Tape.cells_left _ cur.head]
      congr 1
      omega
    simp only [Bool.and_eq_true, beq_iff_eq, decide_eq_true_eq, ge_iff_le]
    exact ⟨⟨⟨by rw [a2], hlen⟩, a2.symm⟩, (slices_iff hc0.r hc.r).mpr ⟨a1, a2⟩⟩
  · rw [if_neg h1]
    by_cases h2 : cur.head - ref.head < 0
    · obtain ⟨a1, a2⟩ := (same_left h0.2 hc hc0 hs).mp (hsame.left h2)
      rw [if_pos h2, getSlice_right _ _ h0.2, getSlice_right _ _ (by omega),
        show rm + (cur.head - ref.head) - cur.head = rm - ref.head by omega]
      have hlen : ref.tape.rspan.length ≤ cur.tape.rspan.length := by
        refine length_insert hc0.r hc.r (d := (rm - ref.head).toNat)
          (k := (ref.head - cur.head).toNat) a1 ?_
        intro i hi
        have := hout (ref.head + 1 + i) (by omega)
        rw [Tape.cells_right] at this
        rw [← this, ← Tape.cells_right _ cur.head]
        congr 1
        omega
      simp only [Bool.and_eq_true, beq_iff_eq, decide_eq_true_eq, ge_iff_le]
      exact ⟨⟨⟨by rw [a2], hlen⟩, a2.symm⟩, (slices_iff hc0.l hc.l).mpr ⟨a1, a2⟩⟩
    · have h3 : cur.head - ref.head = 0 := by omega
      have := (same_zero hc hc0 h3).mp (hsame.zero h3)
      rw [if_neg h2, this]
      simp

theorem rsAligns_same {t prev : HeadTape} {lm rm : Int} (h : t.alignsWith prev lm rm = true)
    (hlm : lm ≤ prev.head) (hrm : prev.head ≤ rm) (ht : t.tape.Canonical)
    (hp : prev.tape.Canonical) : Same t prev lm rm := by
  unfold HeadTape.alignsWith at h
  by_cases hs : (t.tape.scan != prev.tape.scan) = true
  · simp [hs] at h
  rw [if_neg hs] at h
  have hs : t.tape.scan = prev.tape.scan := by simpa using hs
  simp only at h
  refine ⟨fun h1 => ?_, fun h1 => ?_, fun h1 => ?_⟩
  · rw [if_pos h1, getSlice_left _ _ hlm, getSlice_left _ _ (by omega),
      show t.head - (lm + (t.head - prev.head)) = prev.head - lm by omega] at h
    simp only [Bool.and_eq_true, beq_iff_eq] at h
    exact (same_right hlm ht hp hs).mpr ((slices_iff hp.r ht.r).mp h.2)
  · rw [if_neg (by omega), if_pos h1, getSlice_right _ _ hrm, getSlice_right _ _ (by omega),
      show rm + (t.head - prev.head) - t.head = rm - prev.head by omega] at h
    simp only [Bool.and_eq_true, beq_iff_eq] at h
    exact (same_left hrm ht hp hs).mpr ((slices_iff hp.l ht.l).mp h.2)
  · rw [if_neg (by omega), if_neg (by omega)] at h
    simp only [Bool.and_eq_true, beq_iff_eq] at h
    apply (same_zero ht hp h1).mpr
    obtain ⟨th, tl, ts, tr⟩ := t
    obtain ⟨ph, pl, ps, pr⟩ := prev
    simp only at h h1 hs
    obtain ⟨⟨_, ha⟩, hb⟩ := h
    rw [ha, hb, hs, show th = ph by omega]

/-! ## The loop -/

/-- At the top of the loop; `c0` is the cycle at which the reference was taken. -/
structure RInv (p : Prog) (cycle c0 t0 : Nat) (T : Nat) (s : LState) : Prop where
  win : Win p t0 s.refTape s.refState T s.tape s.state s.leftmost s.rightmost
  chg : Chg p T
  chg0 : Chg p t0
  cyc : cycle ≤ T
  cyc0 : c0 ≤ t0
  reset : cycle + s.reset = 2 * c0

theorem RInv.rebase {p : Prog} {cycle c0 t0 T : Nat} {s : LState} (h : RInv p cycle c0 t0 T s)
    (hpos : 1 ≤ cycle) :
    ∃ c1 t1, RInv p cycle c1 t1 T (s.rebase cycle) ∧ 1 ≤ (s.rebase cycle).reset ∧
      (s.rebase cycle).state = s.state ∧ (s.rebase cycle).tape = s.tape ∧
      (1 ≤ s.reset → c1 = c0 ∧ t1 = t0) ∧ (s.reset = 0 → c1 = cycle ∧ t1 = T) := by
  unfold LState.rebase
  by_cases h0 : s.reset = 0
  · rw [if_pos (by simpa using h0)]
    refine ⟨cycle, T, ⟨Win.start h.win.canon h.win.run, h.chg, h.chg, h.cyc, h.cyc, by simp only; omega⟩,
      hpos, rfl, rfl, fun h' => by omega, fun _ => ⟨rfl, rfl⟩⟩
  · rw [if_neg (by simpa using h0)]
    exact ⟨c0, t0, h, by omega, rfl, rfl, fun _ => ⟨rfl, rfl⟩, fun h' => absurd h' h0⟩

theorem headStep_eq {t : HeadTape} (ht : t.tape.Canonical) (shift : Bool) (color : Color) (skip : Bool) :
    t.step shift color skip = (headStep t shift color skip).1 := by
  have hpy := py_step_eq_rs_step t.tape ht.l.posCounts ht.r.posCounts shift color skip
  simp only [HeadTape.step, headStep, hpy]

theorem advance_eq (s : LState) (color : Color) (shift : Bool) (q' : State) (same : Bool) :
    s.advance color shift q' same =
      ⟨q', s.tape.step shift color same, s.refState, s.refTape,
        (ext s.leftmost s.rightmost (s.tape.step shift color same).head).1,
        (ext s.leftmost s.rightmost (s.tape.step shift color same).head).2, s.reset - 1⟩ := by
  unfold LState.advance ext
  simp only

theorem RInv.advance_sweep {p : Prog} {cycle c0 t0 T : Nat} {s : LState} (h : RInv p cycle c0 t0 T s)
    (hres : 1 ≤ s.reset) {color : Color} {shift : Bool} {q' : State}
    (hp : p (s.state, s.tape.tape.scan) = some (color, shift, q'))
    (he : ¬ ((s.state == q') && s.tape.tape.atEdge shift) = true) :
    ∃ k, 1 ≤ k ∧ RInv p (cycle + 1) c0 t0 (T + k) (s.advance color shift q' (s.state == q')) ∧
      (∀ n per, RecursFrom p n per → n + 1 ≤ t0 → T < t0 + per → T + k ≤ t0 + per) ∧
      ∀ j, 1 ≤ j → j < k → Keep p (T + j) := by
  have hw := h.win
  have hF := headStep_facts (skip := s.state == q') hw.canon hp (Or.inr rfl)
  obtain ⟨g1, g2⟩ := step_starts hw.canon hw.run hp he
  obtain ⟨f1, -, -⟩ := headStep_slots (t := s.tape) hw.canon hp
  rw [advance_eq, headStep_eq hw.canon]
  generalize headStep s.tape shift color (s.state == q') = st at hF g1 g2 f1
  obtain ⟨t', k⟩ := st
  simp only at hF g1 g2 f1 ⊢
  have hk := hF.pos
  have hc := h.cyc
  have hr := h.reset
  refine ⟨k, hk, ⟨hw.advance hF, g1, h.chg0, by omega, h.cyc0, by simp only; omega⟩,
    fun n per a b c => g2 n per t0 a b h.chg0 c, fun j h1 h2 => ?_⟩
  obtain ⟨c, c1, c2⟩ := f1 (j - 1) (by omega)
  obtain ⟨d, d1, d2⟩ := f1 j h2
  refine ⟨by omega, c, d, ?_, runFor_trans hw.run d1, by rw [d2, c2]⟩
  have := runFor_trans hw.run c1
  rwa [show T + (j - 1) = T + j - 1 by omega] at this

theorem RInv.advance {p : Prog} {cycle c0 t0 T : Nat} {s : LState} (h : RInv p cycle c0 t0 T s)
    (hres : 1 ≤ s.reset) {color : Color} {shift : Bool} {q' : State}
    (hp : p (s.state, s.tape.tape.scan) = some (color, shift, q'))
    (he : ¬ ((s.state == q') && s.tape.tape.atEdge shift) = true) :
    ∃ k, 1 ≤ k ∧ RInv p (cycle + 1) c0 t0 (T + k) (s.advance color shift q' (s.state == q')) ∧
      ∀ n per, RecursFrom p n per → n + 1 ≤ t0 → T < t0 + per → T + k ≤ t0 + per := by
  obtain ⟨k, h1, h2, h3, -⟩ := h.advance_sweep hres hp he
  exact ⟨k, h1, h2, h3⟩

/-- What a positive answer means. -/
theorem recLoop_recurs {p : Prog} (fuel cycle c0 t0 T : Nat) (s : LState) (hpos : 1 ≤ cycle)
    (hs : RInv p cycle c0 t0 T s) (h : recLoop p false fuel cycle s = true) :
    ∃ n per, RecursFrom p n per := by
  induction fuel generalizing cycle c0 t0 T s with
  | zero => simp [recLoop] at h
  | succ fuel ih =>
    rw [recLoop] at h
    cases hp : p (s.state, s.tape.tape.scan) with
    | none => simp [hp] at h
    | some i =>
      obtain ⟨color, shift, q'⟩ := i
      simp only [hp] at h
      by_cases he : ((s.state == q') && s.tape.tape.atEdge shift) = true
      · simp only [Bool.and_eq_true, beq_iff_eq] at he
        obtain ⟨rfl, he⟩ := he
        exact ⟨T, 1, recurs_edge hs.win.canon hp he hs.win.run⟩
      · simp only [he, Bool.false_eq_true, if_false] at h
        obtain ⟨c1, t1, hr1, hr2, hr3, hr4, _⟩ := hs.rebase hpos
        rw [← hr3, ← hr4] at hp he
        rw [← hr3] at h
        obtain ⟨k, hk, ha, _⟩ := hr1.advance hr2 hp he
        generalize (s.rebase cycle).advance color shift q' ((s.rebase cycle).state == q') = v at *
        by_cases hal : (v.state == v.refState
            && v.tape.alignsWith v.refTape v.leftmost v.rightmost) = true
        · simp only [Bool.and_eq_true, beq_iff_eq] at hal
          have hw := ha.win
          have hle := hr1.win.le
          have h0 := hw.bound t1 _ (Nat.le_refl _) hw.le hw.run0
          simp only [Tape.cfg] at h0
          exact ⟨t1, _, hw.sound (by omega) hal.1
            (rsAligns_same hal.2 h0.1 h0.2 hw.canon hw.canon0)⟩
        · simp only [hal, Bool.false_eq_true, if_false] at h
          exact ih (cycle + 1) c1 t1 (T + k) v (by omega) ha h

/-- A recurrence is found in time. -/
theorem recLoop_complete {p : Prog} {n per : Nat} (hr : RecursFrom p n per) (dropHalt : Bool)
    (fuel cycle c0 t0 T : Nat) (s : LState) (hpos : 1 ≤ cycle) (hs : RInv p cycle c0 t0 T s)
    (hf : if s.reset ≠ 0 ∧ max (n + 1) per ≤ c0 then
        T < t0 + per ∧ t0 + per ≤ T + s.reset ∧ t0 + per ≤ fuel + T
      else (c0 < max (n + 1) per ∧ 2 * max (n + 1) per + per ≤ fuel + cycle)) :
    recLoop p dropHalt fuel cycle s = true := by
  induction fuel generalizing cycle c0 t0 T s with
  | zero =>
    exfalso
    have := hs.reset
    have := hs.cyc
    have := hr.1
    split at hf <;> omega
  | succ fuel ih =>
    have hnh := neverHalts_iff_not_haltsAt.mp hr.neverHalts
    rw [recLoop]
    cases hp : p (s.state, s.tape.tape.scan) with
    | none => exact absurd ⟨T, _, _, hs.win.run, cfg_slot .., hp⟩ hnh
    | some i =>
      obtain ⟨color, shift, q'⟩ := i
      simp only
      by_cases he : ((s.state == q') && s.tape.tape.atEdge shift) = true
      · simp only [he, if_true]
      · simp only [he, Bool.false_eq_true, if_false]
        obtain ⟨c1, t1, hr1, hr2, hr3, hr4, hr5, hr6⟩ := hs.rebase hpos
        rw [← hr3, ← hr4] at hp he
        rw [← hr3]
        obtain ⟨k, hk, ha, hstop⟩ := hr1.advance hr2 hp he
        have hres : ((s.rebase cycle).advance color shift q' ((s.rebase cycle).state == q')).reset
            = (s.rebase cycle).reset - 1 := by rw [advance_eq]
        have e0 := hs.reset
        have e1 := hr1.reset
        have e2 := hr1.cyc
        have e3 := hr1.cyc0
        have e4 := hr1.win.le
        have hper := hr.1
        generalize (s.rebase cycle).advance color shift q' ((s.rebase cycle).state == q') = v at *
        generalize (s.rebase cycle).reset = rr at *
        by_cases hal : (v.state == v.refState
            && v.tape.alignsWith v.refTape v.leftmost v.rightmost) = true
        · simp only [hal, if_true]
        · simp only [hal, Bool.false_eq_true, if_false]
          have hno : ¬ RecursFrom p t1 (T + k - t1) := by
            intro hx
            apply hal
            have hw := ha.win
            obtain ⟨a, _⟩ := hw.complete (by omega) hx
            simp only [Bool.and_eq_true, beq_iff_eq]
            exact ⟨a, rsAligns_complete hw (by omega) hx⟩
          refine ih (cycle + 1) c1 t1 (T + k) v (by omega) ha ?_
          by_cases hgood : max (n + 1) per ≤ c1
          · -- the reference is late enough
            have hT : T < t1 + per ∧ t1 + per ≤ T + rr ∧ t1 + per ≤ fuel + 1 + T := by
              by_cases h0 : s.reset = 0
              · obtain ⟨rfl, rfl⟩ := hr6 h0
                rw [if_neg (by omega)] at hf
                omega
              · obtain ⟨rfl, rfl⟩ := hr5 (by omega)
                rw [if_pos ⟨h0, hgood⟩] at hf
                omega
            have h5 := hstop n per hr (by omega) hT.1
            have h6 : T + k ≠ t1 + per := by
              intro h6
              rw [h6, Nat.add_sub_cancel_left] at hno
              exact hno (hr.mono (by omega))
            rw [if_pos ⟨by omega, hgood⟩]
            omega
          · rw [if_neg (fun h => hgood h.2)]
            by_cases h0 : s.reset = 0
            · rw [if_neg (by omega)] at hf
              omega
            · obtain ⟨rfl, rfl⟩ := hr5 (by omega)
              rw [if_neg (fun h => hgood h.2)] at hf
              omega

theorem RInv.start {p : Prog} (h : p (0, 0) = some (1, true, 1)) :
    RInv p 1 1 1 1 ⟨1, .initStepped, 1, .initStepped, HeadTape.initStepped.head,
      HeadTape.initStepped.head, 1⟩ := by
  have := TopInv.start h
  exact ⟨Win.start this.canon this.run, this.chg, this.chg, Nat.le_refl _, Nat.le_refl _, rfl⟩

end BB.PyRec
