import Verif.Lemmas.LinRecLoop

/-!
# A stretch of a run compared with its beginning

Common to `run_loose_linrec_machine` (Python) and `quick_term_or_rec` (Rust).
-/

namespace BB.PyRec

/-- The cells of `t` are those of `prev`, moved along: on the side of the extreme, or all. -/
structure Same (t prev : HeadTape) (lm rm : Int) : Prop where
  right : 0 < t.head - prev.head → ∀ x, lm ≤ x →
    t.tape.cells t.head (x + (t.head - prev.head)) = prev.tape.cells prev.head x
  left : t.head - prev.head < 0 → ∀ x, x ≤ rm →
    t.tape.cells t.head (x + (t.head - prev.head)) = prev.tape.cells prev.head x
  zero : t.head - prev.head = 0 → ∀ x,
    t.tape.cells t.head (x + (t.head - prev.head)) = prev.tape.cells prev.head x

/-- A stretch of the run: from move `t0` (tape `ref`) to move `T` (tape `cur`), with the extremes of the
head. -/
structure Win (p : Prog) (t0 : Nat) (ref : HeadTape) (q0 : State) (T : Nat) (cur : HeadTape) (q : State)
    (lm rm : Int) : Prop where
  canon0 : ref.tape.Canonical
  run0 : runFor p t0 initCfg = some (ref.tape.cfg q0 ref.head)
  canon : cur.tape.Canonical
  run : runFor p T initCfg = some (cur.tape.cfg q cur.head)
  le : t0 ≤ T
  bound : ∀ m c, t0 ≤ m → m ≤ T → runFor p m initCfg = some c → lm ≤ c.pos ∧ c.pos ≤ rm
  lmReal : ∃ m c, t0 ≤ m ∧ m ≤ T ∧ runFor p m initCfg = some c ∧ c.pos = lm
  rmReal : ∃ m c, t0 ≤ m ∧ m ≤ T ∧ runFor p m initCfg = some c ∧ c.pos = rm

theorem Win.start {p : Prog} {T : Nat} {cur : HeadTape} {q : State} (hc : cur.tape.Canonical)
    (hr : runFor p T initCfg = some (cur.tape.cfg q cur.head)) :
    Win p T cur q T cur q cur.head cur.head where
  canon0 := hc
  run0 := hr
  canon := hc
  run := hr
  le := Nat.le_refl _
  bound := by
    intro m c h1 h2 h
    obtain rfl : m = T := by omega
    rw [hr] at h; cases h
    exact ⟨Int.le_refl _, Int.le_refl _⟩
  lmReal := ⟨T, _, Nat.le_refl _, Nat.le_refl _, hr, rfl⟩
  rmReal := ⟨T, _, Nat.le_refl _, Nat.le_refl _, hr, rfl⟩

/-- The extremes after the head has come to `x`. -/
def ext (lm rm x : Int) : Int × Int :=
  if x < lm then (x, rm) else if rm < x then (lm, x) else (lm, rm)

theorem Win.advance {p : Prog} {t0 T : Nat} {ref cur t' : HeadTape} {q0 q q' : State} {lm rm : Int}
    (h : Win p t0 ref q0 T cur q lm rm) {shift : Bool} {c : Color} {k : Nat}
    (hF : StepFacts p q q' cur shift c t' k) :
    Win p t0 ref q0 (T + k) t' q' (ext lm rm t'.head).1 (ext lm rm t'.head).2 := by
  have hrun : runFor p (T + k) initCfg = some (t'.tape.cfg q' t'.head) := runFor_trans h.run hF.run
  have hcur := h.bound T _ h.le (Nat.le_refl _) h.run
  simp only [Tape.cfg] at hcur
  have hle := h.le
  refine ⟨h.canon0, h.run0, hF.canon, hrun, by omega, ?_, ?_, ?_⟩
  · intro m c h1 h2 hm
    have hall : min lm t'.head ≤ c.pos ∧ c.pos ≤ max rm t'.head := by
      by_cases hmT : m ≤ T
      · have := h.bound m c h1 hmT hm; omega
      · obtain ⟨d, d1, d2⟩ := hF.at_ (m - T) (by omega)
        have hd := runFor_trans h.run d1
        rw [show T + (m - T) = m by omega, hm] at hd
        cases hd
        rw [d2, hF.head]
        cases shift <;> simp [disp] <;> omega
    unfold ext
    split
    · simp only; omega
    · split <;> simp only <;> omega
  · obtain ⟨m, c, a1, a2, a3, a4⟩ := h.lmReal
    unfold ext
    split
    · exact ⟨T + k, _, by omega, Nat.le_refl _, hrun, rfl⟩
    · split <;> exact ⟨m, c, a1, by omega, a3, a4⟩
  · obtain ⟨m, c, a1, a2, a3, a4⟩ := h.rmReal
    unfold ext
    split
    · exact ⟨m, c, a1, by omega, a3, a4⟩
    · split
      · exact ⟨T + k, _, by omega, Nat.le_refl _, hrun, rfl⟩
      · exact ⟨m, c, a1, by omega, a3, a4⟩

/-- Equal windows mean a recurrence. -/
theorem Win.sound {p : Prog} {t0 T : Nat} {ref cur : HeadTape} {q0 q : State} {lm rm : Int}
    (h : Win p t0 ref q0 T cur q lm rm) (hlt : t0 < T) (hq : q = q0) (hs : Same cur ref lm rm) :
    RecursFrom p t0 (T - t0) := by
  have hrun : runFor p (T - t0) (ref.tape.cfg q0 ref.head) = some (cur.tape.cfg q cur.head) := by
    have := h.run
    rw [show T = t0 + (T - t0) by omega, runFor_add, h.run0] at this
    exact this
  have hin : ∀ m, m < T - t0 → ∀ e, runFor p m (ref.tape.cfg q0 ref.head) = some e →
      lm ≤ e.pos ∧ e.pos ≤ rm := by
    intro m hm e he
    exact h.bound (t0 + m) e (by omega) (by omega) (runFor_trans h.run0 he)
  have hpos : (cur.tape.cfg q cur.head).pos = (ref.tape.cfg q0 ref.head).pos
      + (cur.head - ref.head) := by
    simp only [Tape.cfg]; omega
  rcases Int.lt_trichotomy (cur.head - ref.head) 0 with h0 | h0 | h0
  · exact recursFrom_of_cells (fun x => x ≤ rm) (by omega) h.run0 hrun
      (fun m hm e he => (hin m hm e he).2) hq hpos (hs.left h0) (fun x hx => by omega)
  · exact recursFrom_of_cells (fun _ => True) (by omega) h.run0 hrun
      (fun m hm e he => trivial) hq hpos (fun x _ => hs.zero h0 x) (fun x hx => trivial)
  · exact recursFrom_of_cells (fun x => lm ≤ x) (by omega) h.run0 hrun
      (fun m hm e he => (hin m hm e he).1) hq hpos (hs.right h0) (fun x hx => by omega)

/-- A recurrence shows in the windows; and what was not visited is as it was. -/
theorem Win.complete {p : Prog} {t0 T : Nat} {ref cur : HeadTape} {q0 q : State} {lm rm : Int}
    (h : Win p t0 ref q0 T cur q lm rm) (hlt : t0 < T) (hr : RecursFrom p t0 (T - t0)) :
    q = q0 ∧ cur.tape.scan = ref.tape.scan ∧ Same cur ref lm rm ∧
    ∀ x, x < lm ∨ rm < x → cur.tape.cells cur.head x = ref.tape.cells ref.head x := by
  obtain ⟨f, hf⟩ := hr.neverHalts.run
  obtain ⟨k, hk⟩ := hr.fn hf
  have hT : t0 + (T - t0) = T := by omega
  have hfa : f t0 = ref.tape.cfg q0 ref.head := by
    have := hf t0; rw [h.run0] at this; simpa using this.symm
  have hfb : f T = cur.tape.cfg q cur.head := by
    have := hf T; rw [h.run] at this; simpa using this.symm
  have hsl := (hk t0 (Nat.le_refl _)).1
  rw [hT, hfa, hfb, cfg_slot, cfg_slot] at hsl
  have hk0 : cur.head - ref.head = k := by
    have := (hk t0 (Nat.le_refl _)).2
    rw [hT, hfa, hfb] at this
    simp only [Tape.cfg] at this
    omega
  have hcell : ∀ x, (∃ t, t0 ≤ t ∧ (f t).pos = x) →
      cur.tape.cells cur.head (x + (cur.head - ref.head)) = ref.tape.cells ref.head x := by
    intro x hx
    have := recurs_cell hf hk x hx
    rw [hT, hfa, hfb] at this
    rw [hk0]
    exact this
  obtain ⟨m1, c1, hm1, _, hc1, hp1⟩ := h.lmReal
  obtain ⟨m2, c2, hm2, _, hc2, hp2⟩ := h.rmReal
  have e1 : (f m1).pos = lm := by
    have := hf m1; rw [hc1] at this; simp at this; rw [← this, hp1]
  have e2 : (f m2).pos = rm := by
    have := hf m2; rw [hc2] at this; simp at this; rw [← this, hp2]
  have hout : ∀ x, x < lm ∨ rm < x → cur.tape.cells cur.head x = ref.tape.cells ref.head x := by
    intro x hx
    have := run_cell hf x t0 (T - t0) (by
      intro t h1 h2 he
      have := h.bound t (f t) h1 (by omega) (hf t)
      omega)
    rw [hT, hfa, hfb] at this
    exact this
  refine ⟨congrArg Prod.fst hsl, congrArg Prod.snd hsl, ⟨fun h0 x hx => ?_, fun h0 x hx => ?_,
    fun h0 x => ?_⟩, hout⟩
  · exact hcell x (recurs_visits_right hf hk (by omega) m1 hm1 x (by omega))
  · exact hcell x (recurs_visits_left hf hk (by omega) m2 hm2 x (by omega))
  · by_cases hx : x < lm ∨ rm < x
    · rw [h0, Int.add_zero]; exact hout x hx
    · exact hcell x (walk_between (f := fun t => (f t).pos) (run_pos hf) t0 m1 m2 hm1 hm2 x
        (by simp only [e1]; omega) (by simp only [e2]; omega))

/-! ## The comparison as the code makes it -/

theorem slices_iff {s u : List Block} {n : Nat} {f g : List Block} (hf : Canon f) (hg : Canon g) :
    HeadTape.sliceNear s n ++ HeadTape.sliceFar f = HeadTape.sliceNear u n ++ HeadTape.sliceFar g ↔
      (∀ i, i < n → half s i = half u i) ∧ f = g := by
  constructor
  · intro h
    obtain ⟨h1, h2⟩ := List.append_inj h (by simp [sliceNear_eq])
    rw [sliceNear_eq, sliceNear_eq] at h1
    refine ⟨fun i hi => ?_, hf.half_inj hg ?_⟩
    · have := congrArg (fun l => l[i]?) h1
      simpa [hi] using this
    · funext i
      exact congrArg (fun l => List.getD l i 0) h2
  · rintro ⟨h1, rfl⟩
    rw [sliceNear_eq, sliceNear_eq]
    congr 1
    apply List.map_congr_left
    intro i hi
    exact h1 i (by simpa using hi)

theorem cells_at (t : HeadTape) (x : Int) : t.tape.cells t.head x =
    if x = t.head then t.tape.scan
    else if t.head < x then half t.tape.rspan (x - t.head - 1).toNat
    else half t.tape.lspan (t.head - x - 1).toNat := rfl

/-- Cells to the right of an extreme, as spans. -/
theorem same_right {t prev : HeadTape} {lm : Int} (hlm : lm ≤ prev.head) (ht : t.tape.Canonical)
    (hp : prev.tape.Canonical) (hs : t.tape.scan = prev.tape.scan) :
    (∀ x, lm ≤ x → t.tape.cells t.head (x + (t.head - prev.head)) = prev.tape.cells prev.head x) ↔
      (∀ i : Nat, i < (prev.head - lm).toNat → half prev.tape.lspan i = half t.tape.lspan i) ∧
        prev.tape.rspan = t.tape.rspan := by
  constructor
  · intro h
    refine ⟨fun i hi => ?_, hp.r.half_inj ht.r ?_⟩
    · have := h (prev.head - 1 - i) (by omega)
      rw [show prev.head - 1 - (i : Int) + (t.head - prev.head) = t.head - 1 - i by omega,
        Tape.cells_left, Tape.cells_left] at this
      exact this.symm
    · funext i
      have := h (prev.head + 1 + i) (by omega)
      rw [show prev.head + 1 + (i : Int) + (t.head - prev.head) = t.head + 1 + i by omega,
        Tape.cells_right, Tape.cells_right] at this
      exact this.symm
  · rintro ⟨h1, h2⟩ x hx
    rw [cells_at, cells_at]
    by_cases e : x = prev.head
    · rw [if_pos (by omega), if_pos e, hs]
    · rw [if_neg (by omega), if_neg e]
      by_cases e' : prev.head < x
      · rw [if_pos (by omega), if_pos e', h2]
        congr 1; omega
      · rw [if_neg (by omega), if_neg e', h1 _ (by omega)]
        congr 1; omega

/-- Cells to the left of an extreme, as spans. -/
theorem same_left {t prev : HeadTape} {rm : Int} (hrm : prev.head ≤ rm) (ht : t.tape.Canonical)
    (hp : prev.tape.Canonical) (hs : t.tape.scan = prev.tape.scan) :
    (∀ x, x ≤ rm → t.tape.cells t.head (x + (t.head - prev.head)) = prev.tape.cells prev.head x) ↔
      (∀ i : Nat, i < (rm - prev.head).toNat → half prev.tape.rspan i = half t.tape.rspan i) ∧
        prev.tape.lspan = t.tape.lspan := by
  constructor
  · intro h
    refine ⟨fun i hi => ?_, hp.l.half_inj ht.l ?_⟩
    · have := h (prev.head + 1 + i) (by omega)
      rw [show prev.head + 1 + (i : Int) + (t.head - prev.head) = t.head + 1 + i by omega,
        Tape.cells_right, Tape.cells_right] at this
      exact this.symm
    · funext i
      have := h (prev.head - 1 - i) (by omega)
      rw [show prev.head - 1 - (i : Int) + (t.head - prev.head) = t.head - 1 - i by omega,
        Tape.cells_left, Tape.cells_left] at this
      exact this.symm
  · rintro ⟨h1, h2⟩ x hx
    rw [cells_at, cells_at]
    by_cases e : x = prev.head
    · rw [if_pos (by omega), if_pos e, hs]
    · rw [if_neg (by omega), if_neg e]
      by_cases e' : prev.head < x
      · rw [if_pos (by omega), if_pos e', h1 _ (by omega)]
        congr 1; omega
      · rw [if_neg (by omega), if_neg e', h2]
        congr 1; omega

theorem same_zero {t prev : HeadTape} (ht : t.tape.Canonical) (hp : prev.tape.Canonical)
    (h0 : t.head - prev.head = 0) :
    (∀ x, t.tape.cells t.head (x + (t.head - prev.head)) = prev.tape.cells prev.head x) ↔ t = prev := by
  have hh : t.head = prev.head := by omega
  constructor
  · intro h
    have hc : ∀ x, t.tape.cells t.head x = prev.tape.cells t.head x := by
      intro x
      have := h x
      rw [h0, Int.add_zero, ← hh] at this
      exact this
    have h1 : t.tape.lspan = prev.tape.lspan := by
      apply ht.l.half_inj hp.l
      funext i
      rw [← Tape.cells_left _ t.head, ← Tape.cells_left _ t.head]; exact hc _
    have h2 : t.tape.rspan = prev.tape.rspan := by
      apply ht.r.half_inj hp.r
      funext i
      rw [← Tape.cells_right _ t.head, ← Tape.cells_right _ t.head]; exact hc _
    have h3 : t.tape.scan = prev.tape.scan := by
      rw [← t.tape.cells_pos t.head, ← prev.tape.cells_pos t.head]; exact hc _
    obtain ⟨th, tl, ts, tr⟩ := t
    obtain ⟨ph, pl, ps, pr⟩ := prev
    simp only at hh h1 h2 h3
    rw [hh, h1, h2, h3]
  · rintro rfl x
    simp

theorem getSlice_left (t : HeadTape) (a : Int) (h : a ≤ t.head) :
    t.getSlice a true = HeadTape.sliceNear t.tape.lspan (t.head - a).toNat
      ++ HeadTape.sliceFar t.tape.rspan := by
  simp only [HeadTape.getSlice, if_true]
  by_cases h0 : t.head - a > 0
  · rw [if_pos h0]
  · rw [if_neg h0, show (t.head - a).toNat = 0 by omega, sliceNear_eq]
    rfl

theorem getSlice_right (t : HeadTape) (a : Int) (h : t.head ≤ a) :
    t.getSlice a false = HeadTape.sliceNear t.tape.rspan (a - t.head).toNat
      ++ HeadTape.sliceFar t.tape.lspan := by
  simp only [HeadTape.getSlice, Bool.false_eq_true, if_false]
  by_cases h0 : a - t.head > 0
  · rw [if_pos h0]
  · rw [if_neg h0, show (a - t.head).toNat = 0 by omega, sliceNear_eq]
    rfl

/-- `aligns_with` of test/lin_rec.py compares cells. -/
theorem pyAligns_iff {t prev : HeadTape} {lm rm : Int} (hlm : lm ≤ prev.head) (hrm : prev.head ≤ rm)
    (ht : t.tape.Canonical) (hp : prev.tape.Canonical) (hs : t.tape.scan = prev.tape.scan) :
    alignsWith t prev lm rm = true ↔ Same t prev lm rm := by
  unfold alignsWith
  simp only
  by_cases h1 : 0 < t.head - prev.head
  · rw [if_pos h1, beq_iff_eq, getSlice_left _ _ hlm, getSlice_left _ _ (by omega),
      show t.head - (lm + (t.head - prev.head)) = prev.head - lm by omega, slices_iff hp.r ht.r,
      ← same_right hlm ht hp hs]
    exact ⟨fun h => ⟨fun _ => h, fun h2 => by omega, fun h2 => by omega⟩, fun h => h.right h1⟩
  · rw [if_neg h1]
    by_cases h2 : t.head - prev.head < 0
    · rw [if_pos h2, beq_iff_eq, getSlice_right _ _ hrm, getSlice_right _ _ (by omega),
        show rm + (t.head - prev.head) - t.head = rm - prev.head by omega, slices_iff hp.l ht.l,
        ← same_left hrm ht hp hs]
      exact ⟨fun h => ⟨fun h3 => by omega, fun _ => h, fun h3 => by omega⟩, fun h => h.left h2⟩
    · have h0 : t.head - prev.head = 0 := by omega
      rw [if_neg h2, beq_iff_eq, ← same_zero ht hp h0]
      exact ⟨fun h => ⟨fun h3 => by omega, fun h3 => by omega, fun _ => h⟩, fun h => h.zero h0⟩

end BB.PyRec
