import Verif.Lemmas.LinRecPy

/-! # The Python recurrence checkers: what a history says -/

namespace BB.PyRec

/-- What is true of a history whatever steps were recorded. -/
structure HInv (p : Prog) (h : History) : Prop where
  tape : ∀ t P, h.tapes.lookup t = some P → ∃ (u : HeadTape) (q : State), u.tape.Canonical ∧
    runFor p t initCfg = some (u.tape.cfg q u.head) ∧ P = PtrTape.fromHead u ∧
    h.positions[t]? = some u.head
  real : ∀ t P, h.tapes.lookup t = some P → ∀ i x, t ≤ i → h.positions[i]? = some x →
    ∃ m c, t ≤ m ∧ runFor p m initCfg = some c ∧ c.pos = x

theorem HInv.empty (p : Prog) : HInv p .empty :=
  ⟨fun t P h => by simp [History.empty] at h, fun t P h => by simp [History.empty] at h⟩

theorem addTape_positions (h : History) (T : Nat) (u : HeadTape) (hT : h.positions.length ≤ T) :
    (h.addTape T u).positions.length = T + 1 ∧
    (∀ (i : Nat) (x : Int), h.positions[i]? = some x → (h.addTape T u).positions[i]? = some x) ∧
    (∀ (i : Nat) (x : Int), (h.addTape T u).positions[i]? = some x →
      h.positions[i]? = some x ∨ (h.positions.length ≤ i ∧ i ≤ T ∧ x = u.head)) ∧
    (h.addTape T u).positions[T]? = some u.head := by
  simp only [History.addTape]
  refine ⟨by simp; omega, fun i x hi => ?_, fun i x hi => ?_, ?_⟩
  · obtain ⟨hl, _⟩ := List.getElem?_eq_some_iff.mp hi
    rw [List.append_assoc, List.getElem?_append_left hl, hi]
  · by_cases hl : i < h.positions.length
    · rw [List.append_assoc, List.getElem?_append_left hl] at hi
      exact Or.inl hi
    · right
      rw [List.append_assoc, List.getElem?_append_right (by omega), ← List.replicate_succ',
        List.getElem?_replicate] at hi
      split at hi
      · simp at hi; exact ⟨by omega, by omega, hi.symm⟩
      · simp at hi
  · rw [List.append_assoc, List.getElem?_append_right hT, ← List.replicate_succ',
      List.getElem?_replicate, if_pos (by omega)]

theorem HInv.addTape {p : Prog} {h : History} (hh : HInv p h) {T : Nat} {u : HeadTape} {q : State}
    (hc : u.tape.Canonical) (hr : runFor p T initCfg = some (u.tape.cfg q u.head))
    (hT : h.positions.length ≤ T) : HInv p (h.addTape T u) := by
  obtain ⟨_, a2, a3, a4⟩ := addTape_positions h T u hT
  have hlk : ∀ t P, (h.addTape T u).tapes.lookup t = some P →
      (t = T ∧ P = PtrTape.fromHead u) ∨ (t ≠ T ∧ h.tapes.lookup t = some P) := by
    intro t P hl
    simp only [History.addTape, List.lookup_cons] at hl
    by_cases ht : t = T
    · subst ht; simp at hl; exact Or.inl ⟨rfl, hl.symm⟩
    · rw [beq_false_of_ne ht] at hl; exact Or.inr ⟨ht, hl⟩
  constructor
  · intro t P hl
    rcases hlk t P hl with ⟨rfl, rfl⟩ | ⟨_, hl⟩
    · exact ⟨u, q, hc, hr, rfl, a4⟩
    · obtain ⟨v, q', h1, h2, h3, h4⟩ := hh.tape t P hl
      exact ⟨v, q', h1, h2, h3, a2 _ _ h4⟩
  · intro t P hl i x hi hx
    rcases hlk t P hl with ⟨rfl, rfl⟩ | ⟨_, hl⟩
    · refine ⟨t, _, Nat.le_refl _, hr, ?_⟩
      rcases a3 i x hx with hx | ⟨_, _, rfl⟩
      · obtain ⟨hl', _⟩ := List.getElem?_eq_some_iff.mp hx
        omega
      · rfl
    · rcases a3 i x hx with hx | ⟨_, _, rfl⟩
      · exact hh.real t P hl i x hi hx
      · obtain ⟨v, q', h1, h2, h3, h4⟩ := hh.tape t P hl
        obtain ⟨hl', _⟩ := List.getElem?_eq_some_iff.mp h4
        exact ⟨T, _, by omega, hr, rfl⟩

theorem HInv.congr {p : Prog} {h h' : History} (hh : HInv p h) (ht : h'.tapes = h.tapes)
    (hp : h'.positions = h.positions) : HInv p h' :=
  ⟨fun t P => by rw [ht, hp]; exact hh.tape t P, fun t P => by rw [ht, hp]; exact hh.real t P⟩

/-! ## `verify_lin_rec` -/

theorem min_spec {l : List Int} {x : Int} (hx : x ∈ l) :
    ∃ m, l.min? = some m ∧ m ∈ l ∧ ∀ y ∈ l, m ≤ y := by
  cases h : l.min? with
  | none => rw [List.min?_eq_none_iff] at h; rw [h] at hx; simp at hx
  | some m =>
    have := List.min?_eq_some_iff.mp h
    exact ⟨m, rfl, this.1, this.2⟩

theorem max_spec {l : List Int} {x : Int} (hx : x ∈ l) :
    ∃ m, l.max? = some m ∧ m ∈ l ∧ ∀ y ∈ l, y ≤ m := by
  cases h : l.max? with
  | none => rw [List.max?_eq_none_iff] at h; rw [h] at hx; simp at hx
  | some m =>
    have := List.max?_eq_some_iff.mp h
    exact ⟨m, rfl, this.1, this.2⟩

theorem mem_drop_iff {l : List Int} {a : Nat} {x : Int} :
    x ∈ l.drop a ↔ ∃ i, a ≤ i ∧ l[i]? = some x := by
  rw [List.mem_iff_getElem?]
  constructor
  · rintro ⟨i, hi⟩
    rw [List.getElem?_drop] at hi
    exact ⟨a + i, by omega, hi⟩
  · rintro ⟨i, hi, hx⟩
    exact ⟨i - a, by rw [List.getElem?_drop, show a + (i - a) = i by omega, hx]⟩

/-- `verify_lin_rec` on recorded steps. -/
theorem verify_eq {p : Prog} {h : History} (hh : HInv p h) {a b : Nat}
    (ha : (h.tapes.lookup a).isSome) (hb : (h.tapes.lookup b).isSome) :
    ∃ (u v : HeadTape) (q r : State) (lm rm : Int), u.tape.Canonical ∧ v.tape.Canonical ∧
      runFor p a initCfg = some (u.tape.cfg q u.head) ∧
      runFor p b initCfg = some (v.tape.cfg r v.head) ∧
      (∃ i, a ≤ i ∧ h.positions[i]? = some lm) ∧ (∃ i, a ≤ i ∧ h.positions[i]? = some rm) ∧
      (∀ i x, a ≤ i → h.positions[i]? = some x → lm ≤ x ∧ x ≤ rm) ∧
      lm ≤ u.head ∧ u.head ≤ rm ∧
      h.verify a b = some (if (PtrTape.fromHead v).aligns (PtrTape.fromHead u) (v.head - u.head)
        lm rm = true then some (a, b - a) else none) := by
  obtain ⟨P, hP⟩ := Option.isSome_iff_exists.mp ha
  obtain ⟨Q, hQ⟩ := Option.isSome_iff_exists.mp hb
  obtain ⟨u, q, u1, u2, u3, u4⟩ := hh.tape a P hP
  obtain ⟨v, r, v1, v2, v3, v4⟩ := hh.tape b Q hQ
  have hm : u.head ∈ h.positions.drop a := mem_drop_iff.mpr ⟨a, Nat.le_refl _, u4⟩
  obtain ⟨lm, l1, l2, l3⟩ := min_spec hm
  obtain ⟨rm, r1, r2, r3⟩ := max_spec hm
  refine ⟨u, v, q, r, lm, rm, u1, v1, u2, v2, mem_drop_iff.mp l2, mem_drop_iff.mp r2, ?_, l3 _ hm,
    r3 _ hm, ?_⟩
  · intro i x hi hx
    have := mem_drop_iff.mpr ⟨i, hi, hx⟩
    exact ⟨l3 x this, r3 x this⟩
  · simp only [History.verify, hP, hQ, u4, v4, l1, r1, u3, v3, Option.bind_eq_bind,
      Option.bind_some, Option.pure_def]

theorem verify_sound {p : Prog} {h : History} (hh : HInv p h) {a b : Nat} (hab : a < b)
    (ha : (h.tapes.lookup a).isSome) (hb : (h.tapes.lookup b).isSome)
    {res : Nat × Nat} (hv : h.verify a b = some (some res))
    (hst : ∃ q, InStateAt p q a ∧ InStateAt p q b)
    (hcov : ∀ m c, a ≤ m → m < b → runFor p m initCfg = some c →
      ∃ i j x y, a ≤ i ∧ a ≤ j ∧ h.positions[i]? = some x ∧ h.positions[j]? = some y ∧
        x ≤ c.pos ∧ c.pos ≤ y) :
    res = (a, b - a) ∧ RecursFrom p a (b - a) := by
  obtain ⟨u, v, q, r, lm, rm, u1, v1, u2, v2, _, _, hbd, hl, hr, hve⟩ := verify_eq hh ha hb
  rw [hve] at hv
  split at hv
  case isFalse => simp at hv
  rename_i hal
  simp only [Option.some.injEq] at hv
  refine ⟨hv.symm, ?_⟩
  rw [aligns_iff v u lm rm hl hr] at hal
  have hqr : r = q := by
    obtain ⟨s, ⟨c, hc1, hc2⟩, d, hd1, hd2⟩ := hst
    rw [u2] at hc1; rw [v2] at hd1
    cases hc1; cases hd1
    exact hd2.trans hc2.symm
  have hrun : runFor p (b - a) (u.tape.cfg q u.head) = some (v.tape.cfg r v.head) := by
    have := v2
    rw [show b = a + (b - a) by omega, runFor_add, u2] at this
    exact this
  have hin : ∀ m, m < b - a → ∀ e, runFor p m (u.tape.cfg q u.head) = some e →
      lm ≤ e.pos ∧ e.pos ≤ rm := by
    intro m hm e he
    obtain ⟨i, j, x, y, h1, h2, h3, h4, h5, h6⟩ := hcov (a + m) e (by omega) (by omega)
      (runFor_trans u2 he)
    have := hbd i x h1 h3
    have := hbd j y h2 h4
    omega
  have hpos : (v.tape.cfg r v.head).pos = (u.tape.cfg q u.head).pos + (v.head - u.head) := by
    simp only [Tape.cfg]; omega
  rcases Int.lt_trichotomy (v.head - u.head) 0 with h0 | h0 | h0
  · exact recursFrom_of_cells (fun x => x ≤ rm) (by omega) u2 hrun
      (fun m hm e he => (hin m hm e he).2) hqr hpos ((hal.2.1 h0).2) (fun x hx => by omega)
  · exact recursFrom_of_cells (fun x => lm ≤ x ∧ x ≤ rm) (by omega) u2 hrun
      (fun m hm e he => hin m hm e he) hqr hpos (fun x hx => hal.2.2 h0 x hx.1 hx.2)
      (fun x hx => by rw [h0]; simpa using hx)
  · exact recursFrom_of_cells (fun x => lm ≤ x) (by omega) u2 hrun
      (fun m hm e he => (hin m hm e he).1) hqr hpos ((hal.1 h0).2) (fun x hx => by omega)

theorem verify_complete {p : Prog} {h : History} (hh : HInv p h) {a b : Nat} (hab : a < b)
    (ha : (h.tapes.lookup a).isSome) (hb : (h.tapes.lookup b).isSome)
    (hr : RecursFrom p a (b - a)) : h.verify a b = some (some (a, b - a)) := by
  obtain ⟨u, v, q, r, lm, rm, u1, v1, u2, v2, ⟨i, hi, hi'⟩, ⟨j, hj, hj'⟩, _, hl, hrm, hve⟩ :=
    verify_eq hh ha hb
  rw [hve, if_pos]
  rw [aligns_iff v u lm rm hl hrm]
  obtain ⟨f, hf⟩ := hr.neverHalts.run
  obtain ⟨k, hk⟩ := hr.fn hf
  have hfa : f a = u.tape.cfg q u.head := by
    have := hf a; rw [u2] at this; simpa using this.symm
  have hfb : f b = v.tape.cfg r v.head := by
    have := hf b; rw [v2] at this; simpa using this.symm
  have hk0 : v.head - u.head = k := by
    have := (hk a (Nat.le_refl _)).2
    rw [show a + (b - a) = b by omega, hfa, hfb] at this
    simp only [Tape.cfg] at this
    omega
  have hcell : ∀ x, (∃ t, a ≤ t ∧ (f t).pos = x) →
      v.tape.cells v.head (x + (v.head - u.head)) = u.tape.cells u.head x := by
    intro x hx
    have := recurs_cell hf hk x hx
    rw [show a + (b - a) = b by omega, hfa, hfb] at this
    rw [hk0]
    exact this
  obtain ⟨P, hP⟩ := Option.isSome_iff_exists.mp ha
  obtain ⟨m1, c1, hm1, hc1, hp1⟩ := hh.real a P hP i lm hi hi'
  obtain ⟨m2, c2, hm2, hc2, hp2⟩ := hh.real a P hP j rm hj hj'
  have e1 : (f m1).pos = lm := by
    have := hf m1; rw [hc1] at this; simp at this; rw [← this, hp1]
  have e2 : (f m2).pos = rm := by
    have := hf m2; rw [hc2] at this; simp at this; rw [← this, hp2]
  refine ⟨fun h0 => ?_, fun h0 => ?_, fun h0 x hx hx' => ?_⟩
  · have hall : ∀ x, lm ≤ x → v.tape.cells v.head (x + (v.head - u.head))
        = u.tape.cells u.head x := fun x hx =>
      hcell x (recurs_visits_right hf hk (by omega) m1 hm1 x (by omega))
    refine ⟨?_, hall⟩
    have : v.tape.rspan = u.tape.rspan := by
      apply v1.r.half_inj u1.r
      funext i
      have := hall (u.head + 1 + i) (by omega)
      rw [show u.head + 1 + (i : Int) + (v.head - u.head) = v.head + 1 + i by omega,
        Tape.cells_right, Tape.cells_right] at this
      exact this
    rw [this]
  · have hall : ∀ x, x ≤ rm → v.tape.cells v.head (x + (v.head - u.head))
        = u.tape.cells u.head x := fun x hx =>
      hcell x (recurs_visits_left hf hk (by omega) m2 hm2 x (by omega))
    refine ⟨?_, hall⟩
    have : v.tape.lspan = u.tape.lspan := by
      apply v1.l.half_inj u1.l
      funext i
      have := hall (u.head - 1 - i) (by omega)
      rw [show u.head - 1 - (i : Int) + (v.head - u.head) = v.head - 1 - i by omega,
        Tape.cells_left, Tape.cells_left] at this
      exact this
    rw [this]
  · exact hcell x (walk_between (f := fun t => (f t).pos) (run_pos hf) a m1 m2 hm1 hm2 x
      (by simp only [e1]; exact hx) (by simp only [e2]; exact hx'))

end BB.PyRec
