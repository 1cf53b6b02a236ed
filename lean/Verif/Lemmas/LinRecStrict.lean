import Verif.Lemmas.LinRecHist

/-! # The strict recurrence checker: the loop -/

namespace BB.PyRec

theorem cfg_slot (t : Tape) (q : State) (pos : Int) : (t.cfg q pos).slot = (q, t.scan) := by
  simp [Cfg.slot, Tape.cfg, t.cells_pos]

/-- The slots during one step with skipping: the same one throughout, then another, unless the
head is at the edge and stays in the same state. -/
theorem headStep_slots {p : Prog} {q q' : State} {t : HeadTape} {shift : Bool} {c : Color}
    (ht : t.tape.Canonical) (hp : p (q, t.tape.scan) = some (c, shift, q')) :
    (∀ m, m < (headStep t shift c (q == q')).2 → ∃ d,
      runFor p m (t.tape.cfg q t.head) = some d ∧ d.slot = (q, t.tape.scan)) ∧
    (((headStep t shift c (q == q')).1.tape.cfg q' (headStep t shift c (q == q')).1.head).slot
        ≠ (q, t.tape.scan) ∨
      ((headStep t shift c (q == q')).2 = 1 ∧ q = q' ∧ t.tape.atEdge shift = true)) ∧
    (1 < (headStep t shift c (q == q')).2 → q = q') := by
  have hF := headStep_facts (skip := q == q') ht hp (Or.inr rfl)
  have hpy := py_step_eq_rs_step t.tape ht.l.posCounts ht.r.posCounts shift c (q == q')
  have hk : (headStep t shift c (q == q')).2 = (Rs.step t.tape shift c (q == q')).2 := by
    simp only [headStep, hpy]
  have hzero : ∀ m, m < 1 → ∃ d, runFor p m (t.tape.cfg q t.head) = some d ∧
      d.slot = (q, t.tape.scan) := by
    intro m hm
    obtain rfl : m = 0 := by omega
    exact ⟨_, rfl, cfg_slot ..⟩
  by_cases hq : q = q'
  · subst hq
    rw [beq_self_eq_true] at hF hk ⊢
    by_cases he : t.tape.atEdge shift = true
    · have h1 : (headStep t shift c true).2 = 1 := by
        rw [hk]
        cases shift
        · have : t.tape.lspan = [] := by simp [Tape.atEdge] at he; exact he.2
          simp [Rs.step, this, Rs.pull]
        · have : t.tape.rspan = [] := by simp [Tape.atEdge] at he; exact he.2
          simp [Rs.step, this, Rs.pull]
      refine ⟨?_, Or.inr ⟨h1, rfl, he⟩, fun _ => rfl⟩
      rw [h1]
      exact hzero
    · obtain ⟨k1, k2⟩ := (Rs.step_stepped ht shift c true t.head).2 rfl he
      rw [← hk] at k1 k2
      have hpos := hF.pos
      obtain ⟨n, hn⟩ : ∃ n, (headStep t shift c true).2 = n + 1 :=
        ⟨_, (Nat.sub_add_cancel hpos).symm⟩
      have hmid := sweep_mid hp n (t.tape.cfg q t.head) rfl (fun k hk => k1 k (by omega))
      have d0 : ∀ x : Int, x + disp shift 0 = x := fun x => by cases shift <;> simp [disp]
      refine ⟨fun m hm => ?_, Or.inl ?_, fun _ => rfl⟩
      · obtain ⟨d, a1, a2, a3, a4⟩ := hmid m (by omega)
        refine ⟨d, a1, ?_⟩
        have := a4 0
        rw [d0, Nat.add_zero] at this
        have h3 := k1 m hm
        simp only [Cfg.slot, a2, this, Tape.cfg]
        rw [h3]
      · obtain ⟨d, a1, a2, a3, a4⟩ := hmid (headStep t shift c true).2 (by omega)
        rw [hF.run] at a1
        cases a1
        have := a4 0
        rw [d0, Nat.add_zero] at this
        intro hs
        have hs2 := congrArg Prod.snd hs
        simp only [Cfg.slot] at hs2
        rw [this] at hs2
        exact k2 hs2
  · have hb : (q == q') = false := by simpa using hq
    rw [hb] at hF hk ⊢
    have h1 : (headStep t shift c false).2 = 1 := by
      rw [hk]; exact (Rs.step_stepped ht shift c false 0).1 rfl
    refine ⟨by rw [h1]; exact hzero, Or.inl ?_, by omega⟩
    rw [cfg_slot]
    intro h
    exact hq (congrArg Prod.fst h).symm

/-- At the edge in the same state, the run recurs at once. -/
theorem recurs_edge {p : Prog} {q : State} {t : Tape} {shift : Bool} {c : Color} {n : Nat}
    {pos : Int} (ht : t.Canonical) (hp : p (q, t.scan) = some (c, shift, q))
    (he : t.atEdge shift = true) (hr : runFor p n initCfg = some (t.cfg q pos)) :
    RecursFrom p n 1 := by
  have hp' : p (t.cfg q pos).slot = some (c, shift, q) := by rw [cfg_slot]; exact hp
  have hrun : runFor p 1 (t.cfg q pos) = some ((t.cfg q pos).exec (c, shift, q)) := by
    rw [runFor_one, step_some hp']
  have hm : ∀ A : Int → Prop, A pos →
      ∀ m, m < 1 → ∀ e, runFor p m (t.cfg q pos) = some e → A e.pos := by
    intro A hA m hm e hme
    obtain rfl : m = 0 := by omega
    simp only [runFor, Option.some.injEq] at hme
    subst hme
    exact hA
  cases shift
  · have hz := (ht.atEdge_left_iff pos).mp he
    refine recursFrom_of_cells (k := -1) (fun x => x ≤ pos) (by omega) hr hrun
      (hm (fun x => x ≤ pos) (Int.le_refl _)) rfl ?_ (fun x hx => ?_) (fun x hx => by omega)
    · simp [Cfg.exec, Tape.cfg]; omega
    · have hne : ¬ x + -1 = (t.cfg q pos).pos := by show ¬ x + -1 = pos; omega
      simp only [Cfg.exec, hne, if_false]
      exact (hz _ (by omega)).trans (hz _ (by omega)).symm
  · have hz := (ht.atEdge_right_iff pos).mp he
    refine recursFrom_of_cells (k := 1) (fun x => pos ≤ x) (by omega) hr hrun
      (hm (fun x => pos ≤ x) (Int.le_refl _)) rfl ?_ (fun x hx => ?_) (fun x hx => by omega)
    · simp [Cfg.exec, Tape.cfg]
    · have hne : ¬ x + 1 = (t.cfg q pos).pos := by show ¬ x + 1 = pos; omega
      simp only [Cfg.exec, hne, if_false]
      exact (hz _ (by omega)).trans (hz _ (by omega)).symm

/-- The slot at move `t` differs from the one before. -/
def Chg (p : Prog) (t : Nat) : Prop :=
  1 ≤ t ∧ ∃ c d, runFor p (t - 1) initCfg = some c ∧ runFor p t initCfg = some d ∧ d.slot ≠ c.slot

/-- The slot at move `t` is the one before. -/
def Keep (p : Prog) (t : Nat) : Prop :=
  1 ≤ t ∧ ∃ c d, runFor p (t - 1) initCfg = some c ∧ runFor p t initCfg = some d ∧ d.slot = c.slot

/-- Step `t` is listed under a slot. -/
def Rec (h : History) (t : Nat) : Prop := ∃ sl, (sl, t) ∈ h.slots

/-- Places at the recorded steps bound the places in between. -/
def Cov (p : Prog) (h : History) (t T : Nat) : Prop :=
  ∀ m c, t ≤ m → m ≤ T → runFor p m initCfg = some c →
    ∃ i j x y, t ≤ i ∧ t ≤ j ∧ h.positions[i]? = some x ∧ h.positions[j]? = some y ∧
      x ≤ c.pos ∧ c.pos ≤ y

/-- What does not depend on where in the body we are; `T` is the last step recorded or skipped. -/
structure Core (p : Prog) (cr cycle : Nat) (s : SState) : Prop where
  canon : s.tape.tape.Canonical
  run : runFor p s.step initCfg = some (s.tape.tape.cfg s.state s.tape.head)
  blanks : BlanksExact p s.blanks s.step
  hist : HInv p s.hist
  slotok : ∀ sl t, (sl, t) ∈ s.hist.slots → cr ≤ t ∧ (s.hist.tapes.lookup t).isSome ∧
    ∃ c, runFor p t initCfg = some c ∧ c.slot = sl
  nope : ∀ a b, Rec s.hist a → Rec s.hist b → a < b → ¬ RecursFrom p a (b - a)
  rec1 : ∀ t, Rec s.hist t ∨ t = s.step → t = 0 ∨ Chg p t ∨
    (RecursFrom p (t - 1) 1 ∧ (cr ≤ t - 1 → Rec s.hist (t - 1)))
  rec2 : ∀ t, cr ≤ t → t < s.step → ¬ Rec s.hist t →
    Keep p t ∧ ∃ t1, t < t1 ∧ t1 ≤ s.step ∧ Chg p t1
  prog : ∀ N, cr ≤ N → (s.step < N ∧ cycle ≤ s.step) ∨
    ∃ t, N ≤ t ∧ (t = s.step ∨ Rec s.hist t) ∧ t ≤ s.step ∧ t + cycle ≤ s.step + N

/-- At the top of the loop. -/
structure SInv (p : Prog) (cr cycle : Nat) (s : SState) : Prop extends Core p cr cycle s where
  before : ∀ t, Rec s.hist t → t < s.step
  cov : ∀ t, Rec s.hist t → t < s.hist.positions.length ∧
    Cov p s.hist t (s.hist.positions.length - 1)
  shape : (s.hist.positions = [] ∧ s.hist.slots = [] ∧ s.hist.states = [] ∧
      ∀ m c, cr ≤ m → m ≤ s.step → runFor p m initCfg = some c → c.state = s.state) ∨
    ∃ L x, s.hist.positions.length = L + 1 ∧ s.hist.states.length = L + 1 ∧
      s.hist.positions[L]? = some x ∧ L < s.step ∧ cr ≤ L ∧
      ∀ m c, L < m → m ≤ s.step → runFor p m initCfg = some c →
        min x s.tape.head ≤ c.pos ∧ c.pos ≤ max x s.tape.head ∧ c.state = s.state
  states : ∀ (i : Nat) (q : State), s.hist.states[i]? = some q →
    (cr ≤ i → InStateAt p q i) ∧ ∃ m, cr ≤ m ∧ InStateAt p q m

/-- Before the move. -/
structure MInv (p : Prog) (cr cycle : Nat) (s : SState) : Prop extends Core p cr cycle s where
  before : ∀ t, Rec s.hist t → t ≤ s.step
  cov : ∀ t, Rec s.hist t → Cov p s.hist t s.step
  cur : cr ≤ s.step → Rec s.hist s.step
  shape : (s.hist.positions = [] ∧ s.hist.slots = [] ∧ s.hist.states = [] ∧ s.step < cr) ∨
    (s.hist.positions.length = s.step + 1 ∧ s.hist.states.length = s.step + 1 ∧
      s.hist.positions[s.step]? = some s.tape.head ∧ cr ≤ s.step)
  states : ∀ (i : Nat) (q : State), s.hist.states[i]? = some q →
    (cr ≤ i → InStateAt p q i) ∧ ∃ m, cr ≤ m ∧ InStateAt p q m

theorem SInv.start (p : Prog) (cr : Nat) : SInv p cr 0 .start where
  canon := Tape.canonical_init
  run := by
    show runFor p 0 initCfg = _
    rw [initCfg_eq]; rfl
  blanks := (qinv_init p).blanks
  hist := HInv.empty p
  slotok := by simp [SState.start, History.empty]
  nope := by simp [SState.start, History.empty, Rec]
  rec1 := by
    rintro t (⟨sl, h⟩ | h)
    · simp [SState.start, History.empty] at h
    · exact Or.inl h
  rec2 := by intro t _ h; simp [SState.start] at h
  prog := by
    intro N _
    by_cases h : N = 0
    · exact Or.inr ⟨0, by omega, Or.inl rfl, by simp [SState.start], by simp [SState.start]⟩
    · exact Or.inl ⟨by simp [SState.start]; omega, by simp⟩
  before := by rintro t ⟨sl, h⟩; simp [SState.start, History.empty] at h
  cov := by rintro t ⟨sl, h⟩; simp [SState.start, History.empty] at h
  shape := by
    refine Or.inl ⟨rfl, rfl, rfl, fun m c _ hm hc => ?_⟩
    obtain rfl : m = 0 := by simpa [SState.start] using hm
    simp only [runFor, Option.some.injEq] at hc
    subst hc
    rfl
  states := by intro i q h; simp [SState.start, History.empty] at h

/-- Below `check_rec` nothing is recorded. -/
theorem SInv.skip {p : Prog} {cr cycle : Nat} {s : SState} (h : SInv p cr cycle s)
    (hlt : s.step < cr) : MInv p cr cycle s where
  toCore := h.toCore
  before := fun t ht => Nat.le_of_lt (h.before t ht)
  cov := by
    rintro t ⟨sl, ht⟩
    have := (h.slotok sl t ht).1
    have := h.before t ⟨sl, ht⟩
    omega
  cur := fun hc => by omega
  shape := by
    rcases h.shape with ⟨a, b, c, _⟩ | ⟨L, x, _, _, _, h1, h2, _⟩
    · exact Or.inl ⟨a, b, c, hlt⟩
    · omega
  states := h.states

/-- The entries made before the check. -/
theorem SInv.record {p : Prog} {cr cycle : Nat} {s : SState} (h : SInv p cr cycle s)
    (hge : cr ≤ s.step) :
    HInv p s.record ∧ s.record.slots = s.hist.slots ∧
    s.record.positions.length = s.step + 1 ∧ s.record.states.length = s.step + 1 ∧
    s.record.positions[s.step]? = some s.tape.head ∧
    (s.record.tapes.lookup s.step).isSome ∧
    (∀ t, (s.hist.tapes.lookup t).isSome → (s.record.tapes.lookup t).isSome) ∧
    (∀ t, Rec s.hist t ∨ t = s.step → Cov p s.record t s.step) ∧
    (∀ (i : Nat) (q : State), s.record.states[i]? = some q →
      (cr ≤ i → InStateAt p q i) ∧ ∃ m, cr ≤ m ∧ InStateAt p q m) := by
  have hlen : s.hist.positions.length ≤ s.step := by
    rcases h.shape with ⟨a, _⟩ | ⟨L, x, a, _, _, h1, _⟩
    · rw [a]; simp
    · omega
  have hlen' : s.hist.states.length ≤ s.step := by
    rcases h.shape with ⟨_, _, a, _⟩ | ⟨L, x, _, a, _, h1, _⟩
    · rw [a]; simp
    · omega
  have hh : HInv p (s.hist.addState s.step s.state) := h.hist.congr rfl rfl
  obtain ⟨a1, a2, a3, a4⟩ := addTape_positions (s.hist.addState s.step s.state) s.step s.tape hlen
  have hrec : s.record = (s.hist.addState s.step s.state).addTape s.step s.tape := rfl
  rw [← hrec] at a1 a2 a3 a4
  have hcur : Cov p s.record s.step s.step := by
    intro m c h1 h2 hc
    obtain rfl : m = s.step := by omega
    rw [h.run] at hc
    cases hc
    exact ⟨s.step, s.step, _, _, Nat.le_refl _, Nat.le_refl _, a4, a4, Int.le_refl _, Int.le_refl _⟩
  refine ⟨hh.addTape h.canon h.run hlen, rfl, a1, ?_, a4, ?_, ?_, ?_, ?_⟩
  · simp [hrec, History.addTape, History.addState]; omega
  · simp [hrec, History.addTape]
  · intro t ht
    simp only [hrec, History.addTape, List.lookup_cons]
    split
    · rfl
    · exact ht
  · rintro t (ht | rfl)
    · intro m c h1 h2 hc
      obtain ⟨b1, b2⟩ := h.cov t ht
      have lift : ∀ m c, t ≤ m → m ≤ s.hist.positions.length - 1 → runFor p m initCfg = some c →
          ∃ i j x y, t ≤ i ∧ t ≤ j ∧ s.record.positions[i]? = some x ∧
            s.record.positions[j]? = some y ∧ x ≤ c.pos ∧ c.pos ≤ y := by
        intro m c h1 h2 hc
        obtain ⟨i, j, x, y, c1, c2, c3, c4, c5⟩ := b2 m c h1 h2 hc
        exact ⟨i, j, x, y, c1, c2, a2 _ _ c3, a2 _ _ c4, c5⟩
      rcases h.shape with ⟨a, _⟩ | ⟨L, x, d1, _, d2, d3, d4, d5⟩
      · rw [a] at b1; simp at b1
      · by_cases hm : m ≤ L
        · exact lift m c h1 (by omega) hc
        · obtain ⟨e1, e2, _⟩ := d5 m c (by omega) h2 hc
          have x1 := a2 _ _ d2
          by_cases hx : x ≤ s.tape.head
          · exact ⟨L, s.step, _, _, by omega, by have := h.before t ht; omega, x1, a4,
              by omega, by omega⟩
          · exact ⟨s.step, L, _, _, by have := h.before t ht; omega, by omega, a4, x1,
              by omega, by omega⟩
    · exact hcur
  · intro i q hi
    simp only [hrec, History.addTape, History.addState] at hi
    by_cases hl : i < s.hist.states.length
    · rw [List.append_assoc, List.getElem?_append_left hl] at hi
      exact h.states i q hi
    · rw [List.append_assoc, List.getElem?_append_right (by omega), ← List.replicate_succ',
        List.getElem?_replicate] at hi
      split at hi
      · simp at hi
        subst hi
        have hi' : i ≤ s.step := by omega
        refine ⟨fun hcr => ?_, s.step, hge, _, h.run, rfl⟩
        have hsome := runFor_isSome_of_le (p := p) (c := initCfg) hi' (by rw [h.run]; rfl)
        obtain ⟨c, hc⟩ := Option.isSome_iff_exists.mp hsome
        refine ⟨c, hc, ?_⟩
        rcases h.shape with ⟨_, _, _, a⟩ | ⟨L, x, _, d1, _, d3, d4, d5⟩
        · exact a i c hcr hi' hc
        · exact (d5 i c (by omega) hi' hc).2.2
      · simp at hi

/-! ## The check -/

theorem checkLoop_spec (h : History) (T : Nat) (l : List Nat)
    (hdef : ∀ a ∈ l, ∃ r, h.verify a T = some r) :
    ∃ r, h.checkLoop T l = some r ∧
      (∀ res, r = some res → ∃ a ∈ l, h.verify a T = some (some res)) ∧
      (r = none → ∀ a ∈ l, h.verify a T = some none) := by
  induction l with
  | nil => exact ⟨none, rfl, by simp, by simp⟩
  | cons a l ih =>
    obtain ⟨r, hr⟩ := hdef a (by simp)
    rw [History.checkLoop, hr]
    cases r with
    | some res =>
      exact ⟨some res, rfl, fun res' e => ⟨a, by simp, by rw [hr, e]⟩, by simp⟩
    | none =>
      obtain ⟨r, h1, h2, h3⟩ := ih fun b hb => hdef b (by simp [hb])
      refine ⟨r, h1, fun res e => ?_, fun e b hb => ?_⟩
      · obtain ⟨b, hb, hb'⟩ := h2 res e
        exact ⟨b, by simp [hb], hb'⟩
      · rcases List.mem_cons.mp hb with rfl | hb
        · exact hr
        · exact h3 e b hb

theorem RecursFrom.slot {p : Prog} {n per : Nat} (h : RecursFrom p n per) {t : Nat} (ht : n ≤ t)
    {c d : Cfg} (hc : runFor p t initCfg = some c) (hd : runFor p (t + per) initCfg = some d) :
    d.slot = c.slot := by
  obtain ⟨_, k, hk⟩ := h
  obtain ⟨c', d', h1, h2, h3, _⟩ := hk t ht
  rw [hc] at h1; rw [hd] at h2
  cases h1; cases h2
  exact h3

theorem SInv.check {p : Prog} {cr cycle : Nat} {s : SState} (h : SInv p cr cycle s)
    (hge : cr ≤ s.step) :
    ∃ r, s.record.checkRec s.step s.slot = some r ∧
      (∀ res, r = some res → ∃ a, Rec s.hist a ∧ a < s.step ∧ res = (a, s.step - a) ∧
        RecursFrom p a (s.step - a)) ∧
      (r = none → ∀ a, Rec s.hist a → ¬ RecursFrom p a (s.step - a)) := by
  obtain ⟨r1, r2, _, _, _, r6, r7, r8, _⟩ := h.record hge
  have hmem : ∀ a, a ∈ ((s.record.slots.filter fun e => e.1 == s.slot).map Prod.snd) ↔
      (s.slot, a) ∈ s.hist.slots := by
    intro a
    rw [r2]
    simp only [List.mem_map, List.mem_filter, beq_iff_eq]
    constructor
    · rintro ⟨⟨sl, b⟩, ⟨h1, h2⟩, h3⟩
      simp only at h2 h3
      subst h2; subst h3
      exact h1
    · intro h1
      exact ⟨(s.slot, a), ⟨h1, rfl⟩, rfl⟩
  have hlk : ∀ sl a, (sl, a) ∈ s.hist.slots → (s.record.tapes.lookup a).isSome := fun sl a ha =>
    r7 a (h.slotok sl a ha).2.1
  obtain ⟨r, c1, c2, c3⟩ := checkLoop_spec s.record s.step
    ((s.record.slots.filter fun e => e.1 == s.slot).map Prod.snd) (by
      intro a ha
      obtain ⟨_, _, _, _, _, _, _, _, _, _, _, _, _, _, _, hv⟩ :=
        verify_eq r1 (hlk _ a ((hmem a).mp ha)) r6
      exact ⟨_, hv⟩)
  refine ⟨r, c1, fun res e => ?_, fun e a ha hrec => ?_⟩
  · obtain ⟨a, ha, hv⟩ := c2 res e
    have ha' := (hmem a).mp ha
    have hlt := h.before a ⟨_, ha'⟩
    obtain ⟨_, _, c, hc1, hc2⟩ := h.slotok _ a ha'
    have := verify_sound r1 hlt (hlk _ a ha') r6 hv
      ⟨s.state, ⟨c, hc1, congrArg Prod.fst hc2⟩, _, h.run, rfl⟩
      (fun m c h1 h2 hc => r8 a (Or.inl ⟨_, ha'⟩) m c h1 (by omega) hc)
    exact ⟨a, ⟨_, ha'⟩, hlt, this⟩
  · obtain ⟨sl, ha'⟩ := ha
    have hlt := h.before a ⟨_, ha'⟩
    obtain ⟨_, _, c, hc1, hc2⟩ := h.slotok _ a ha'
    have hsl : s.slot = sl := by
      have := RecursFrom.slot hrec (Nat.le_refl _) hc1
        (by rw [show a + (s.step - a) = s.step by omega]; exact h.run)
      rw [cfg_slot, hc2] at this
      exact this
    subst hsl
    have h1 := c3 e a ((hmem a).mpr ha')
    have h2 := verify_complete r1 hlt (hlk _ a ha') r6 hrec
    rw [h1] at h2
    simp at h2

/-- After a check that found nothing. -/
theorem SInv.toM {p : Prog} {cr cycle : Nat} {s : SState} (h : SInv p cr cycle s)
    (hge : cr ≤ s.step) (hno : ∀ a, Rec s.hist a → ¬ RecursFrom p a (s.step - a)) :
    MInv p cr cycle { s with hist := s.record.addSlot s.step s.slot } := by
  obtain ⟨r1, r2, r3, r4, r5, r6, r7, r8, r9⟩ := h.record hge
  have hmem : ∀ t, Rec (s.record.addSlot s.step s.slot) t ↔ Rec s.hist t ∨ t = s.step := by
    intro t
    simp only [Rec, History.addSlot, r2, List.mem_append, List.mem_singleton, Prod.mk.injEq]
    constructor
    · rintro ⟨sl, h | ⟨_, h⟩⟩
      · exact Or.inl ⟨sl, h⟩
      · exact Or.inr h
    · rintro (⟨sl, h⟩ | h)
      · exact ⟨sl, Or.inl h⟩
      · exact ⟨s.slot, Or.inr ⟨rfl, h⟩⟩
  have hcur : (s.tape.tape.cfg s.state s.tape.head).slot = s.slot := cfg_slot ..
  refine ⟨⟨h.canon, h.run, h.blanks, r1.congr rfl rfl, ?_, ?_, ?_, ?_, ?_⟩, ?_, ?_, ?_,
    Or.inr ⟨r3, r4, r5, hge⟩, r9⟩
  · intro sl t ht
    simp only [History.addSlot, r2, List.mem_append, List.mem_singleton, Prod.mk.injEq] at ht
    rcases ht with ht | ⟨rfl, rfl⟩
    · obtain ⟨h1, h2, h3⟩ := h.slotok sl t ht
      exact ⟨h1, r7 t h2, h3⟩
    · exact ⟨hge, r6, _, h.run, hcur⟩
  · intro a b ha hb hab
    rcases (hmem a).mp ha with ha | rfl
    · rcases (hmem b).mp hb with hb | rfl
      · exact h.nope a b ha hb hab
      · exact hno a ha
    · rcases (hmem b).mp hb with hb | rfl
      · have := h.before b hb; omega
      · omega
  · intro t ht
    have : Rec s.hist t ∨ t = s.step := by
      rcases ht with ht | ht
      · exact (hmem t).mp ht
      · exact Or.inr ht
    rcases h.rec1 t this with h1 | h1 | ⟨h1, h2⟩
    · exact Or.inl h1
    · exact Or.inr (Or.inl h1)
    · exact Or.inr (Or.inr ⟨h1, fun hc => (hmem _).mpr (Or.inl (h2 hc))⟩)
  · intro t h1 h2 h3
    exact h.rec2 t h1 h2 fun h4 => h3 ((hmem t).mpr (Or.inl h4))
  · intro N hN
    rcases h.prog N hN with h1 | ⟨t, h1, h2, h3⟩
    · exact Or.inl h1
    · refine Or.inr ⟨t, h1, ?_, h3⟩
      rcases h2 with h2 | h2
      · exact Or.inl h2
      · exact Or.inr ((hmem t).mpr (Or.inl h2))
  · intro t ht
    rcases (hmem t).mp ht with ht | rfl
    · exact Nat.le_of_lt (h.before t ht)
    · exact Nat.le_refl _
  · intro t ht
    exact r8 t ((hmem t).mp ht)
  · intro _
    exact (hmem _).mpr (Or.inr rfl)

/-- The move. -/
theorem MInv.move {p : Prog} {cr cycle : Nat} {s : SState} (h : MInv p cr cycle s)
    {color : Color} {shift : Bool} {q' : State} (hp : p s.slot = some (color, shift, q')) :
    SInv p cr (cycle + 1) (s.advance (s.state == q') color shift q') := by
  have hF := headStep_facts (skip := s.state == q') h.canon hp (Or.inr rfl)
  obtain ⟨f1, f2, f3⟩ := headStep_slots (t := s.tape) h.canon hp
  obtain ⟨step, state, tape, hist, blanks⟩ := s
  simp only [SState.slot] at hp
  simp only at hF f1 f2 f3
  generalize hst : headStep tape shift color (state == q') = st at hF f1 f2 f3
  obtain ⟨t', k⟩ := st
  simp only at hF f1 f2 f3
  have hadv : SState.advance ⟨step, state, tape, hist, blanks⟩ (state == q') color shift q'
      = ⟨step + k, q', t', hist, if color == 0 && t'.tape.blank && (blanks.lookup q').isNone then
        (q', step + k) :: blanks else blanks⟩ := by
    simp only [SState.advance, hst]
  rw [hadv]
  have hrun0 : runFor p step initCfg = some (tape.tape.cfg state tape.head) := h.run
  have hrun : runFor p (step + k) initCfg = some (t'.tape.cfg q' t'.head) :=
    runFor_trans hrun0 hF.run
  have hk := hF.pos
  have hbl : BlanksExact p blanks step := h.blanks
  -- the slots on the way
  have hslot : ∀ m, m < k → ∃ d, runFor p (step + m) initCfg = some d ∧
      d.slot = (state, tape.tape.scan) := by
    intro m hm
    obtain ⟨d, d1, d2⟩ := f1 m hm
    exact ⟨d, runFor_trans hrun0 d1, d2⟩
  have hend : Chg p (step + k) ∨ (k = 1 ∧ RecursFrom p step 1) := by
    rcases f2 with f2 | ⟨g1, g2, g3⟩
    · left
      obtain ⟨d, d1, d2⟩ := hslot (k - 1) (by omega)
      rw [show step + (k - 1) = step + k - 1 by omega] at d1
      exact ⟨by omega, d, _, d1, hrun, by rw [d2]; exact f2⟩
    · right
      subst g2
      exact ⟨g1, recurs_edge h.canon hp g3 hrun0⟩
  have hstate : ∀ m cf, step < m → m ≤ step + k → runFor p m initCfg = some cf →
      cf.state = q' := by
    intro m cf h1 h2 hc
    by_cases hm : m = step + k
    · subst hm
      rw [hrun] at hc
      cases hc
      rfl
    · obtain ⟨d, d1, d2⟩ := hslot (m - step) (by omega)
      rw [show step + (m - step) = m by omega, hc] at d1
      cases d1
      have := congrArg Prod.fst d2
      simp only [Cfg.slot] at this
      rw [this]
      exact f3 (by omega)
  refine ⟨⟨hF.canon, hrun, ?_, h.hist, h.slotok, h.nope, ?_, ?_, ?_⟩, ?_, ?_, ?_, h.states⟩
  · obtain ⟨b1, b2, b3⟩ := blanksExact_advance hbl hrun0 hk hF.canon hF.run hF.mid
    simp only
    by_cases hb : t'.tape.blank = true
    · have hc : color = 0 := by
        by_contra hc
        rw [hF.blank hc] at hb
        cases hb
      subst hc
      simp only [hb, beq_self_eq_true, Bool.and_self, Bool.true_and]
      by_cases hl : (blanks.lookup q').isSome = true
      · have : (blanks.lookup q').isNone = false := by
          rw [Option.isNone_eq_false_iff]; exact hl
        rw [this]
        exact b2 hb hl
      · have : (blanks.lookup q').isNone = true := by
          rw [Option.isNone_iff_eq_none]; exact Option.not_isSome_iff_eq_none.mp hl
        rw [this]
        exact b3 hb hl
    · have hb : t'.tape.blank = false := by simpa using hb
      simp only [hb, Bool.and_false, Bool.false_and, Bool.false_eq_true, if_false]
      exact b1 hb
  · rintro t (ht | rfl)
    · exact h.rec1 t (Or.inl ht)
    · rcases hend with he | ⟨he1, he2⟩
      · exact Or.inr (Or.inl he)
      · refine Or.inr (Or.inr ?_)
        simp only [he1, Nat.add_sub_cancel]
        exact ⟨he2, fun hc => h.cur hc⟩
  · intro t h1 h2 h3
    simp only at h2 h3 ⊢
    by_cases ht : t < step
    · obtain ⟨g1, t1, g2, g3, g4⟩ := h.rec2 t h1 ht h3
      exact ⟨g1, t1, g2, by simp only at g3; omega, g4⟩
    · have hne : t ≠ step := by
        rintro rfl
        exact h3 (h.cur h1)
      have hk2 : 1 < k := by omega
      refine ⟨?_, step + k, h2, Nat.le_refl _, ?_⟩
      · obtain ⟨c, c1, c2⟩ := hslot (t - 1 - step) (by omega)
        obtain ⟨d, d1, d2⟩ := hslot (t - step) (by omega)
        rw [show step + (t - 1 - step) = t - 1 by omega] at c1
        rw [show step + (t - step) = t by omega] at d1
        exact ⟨by omega, c, d, c1, d1, by rw [c2, d2]⟩
      · rcases hend with he | ⟨he, _⟩
        · exact he
        · omega
  · intro N hN
    simp only
    rcases h.prog N hN with ⟨h1, h2⟩ | ⟨t, h1, h2, h3, h4⟩
    · simp only at h1 h2
      by_cases hs : step + k < N
      · exact Or.inl ⟨hs, by omega⟩
      · exact Or.inr ⟨step + k, by omega, Or.inl rfl, Nat.le_refl _, by omega⟩
    · simp only at h2 h3 h4
      refine Or.inr ⟨t, h1, Or.inr ?_, by omega, by omega⟩
      rcases h2 with rfl | h2
      · exact h.cur (by simp only; omega)
      · exact h2
  · intro t ht
    have := h.before t ht
    simp only at this ⊢
    omega
  · intro t ht
    rcases h.shape with ⟨_, a, _⟩ | ⟨a, _⟩
    · obtain ⟨sl, ht⟩ := ht
      simp only at a ht
      rw [a] at ht
      simp at ht
    · simp only at a ⊢
      have h1 := h.before t ht
      have h2 := h.cov t ht
      simp only at h1 h2
      rw [a, Nat.add_sub_cancel]
      exact ⟨by omega, h2⟩
  · rcases h.shape with ⟨a, b, c, d⟩ | ⟨a, b, c, d⟩
    · left
      simp only at a b c d ⊢
      refine ⟨a, b, c, fun m cf h1 h2 hc => ?_⟩
      exact hstate m cf (by omega) h2 hc
    · right
      simp only at a b c d ⊢
      refine ⟨step, tape.head, a, b, c, by omega, d, ?_⟩
      intro m cf h1 h2 hc
      obtain ⟨e, e1, e2⟩ := hF.at_ (m - step) (by omega)
      have he := runFor_trans hrun0 e1
      rw [show step + (m - step) = m by omega, hc] at he
      cases he
      have hh := hF.head
      refine ⟨?_, ?_, ?_⟩
      · rw [e2, hh]; cases shift <;> simp [disp]; omega
      · rw [e2, hh]; cases shift <;> simp [disp]; omega
      · exact hstate m cf h1 h2 hc

end BB.PyRec
