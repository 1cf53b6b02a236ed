import Verif.Model.Blocks
import Verif.Lemmas.Quick

/-! # The choice of a block size -/

namespace BB

/-! ## Following the machine -/

theorem unrollLoop_add (p : Prog) : ∀ (m n : Nat) (c : State × Tape),
    unrollLoop p (m + n) c = (unrollLoop p m c).bind (unrollLoop p n)
  | 0, n, c => by simp [unrollLoop]
  | m + 1, n, c => by
    rw [Nat.succ_add_eq_add_succ, Nat.add_succ]
    simp only [unrollLoop]
    split
    · rfl
    · exact unrollLoop_add p m n _

theorem unrollLoop_le {p : Prog} {m n : Nat} {c d : State × Tape} (h : m ≤ n)
    (hn : unrollLoop p n c = some d) : ∃ e, unrollLoop p m c = some e := by
  obtain ⟨k, rfl⟩ := Nat.exists_eq_add_of_le h
  rw [unrollLoop_add] at hn
  obtain ⟨e, he, -⟩ := Option.bind_eq_some_iff.1 hn
  exact ⟨e, he⟩

theorem measureLoop_spec {p : Prog} : ∀ (n : Nat) {m : BlockMeasure} {r : Nat},
    unrollLoop p m.steps (0, .init) = some (m.state, m.tape) → m.maxBlocksStep ≤ m.steps →
    measureLoop p n m = some r → ∃ c, unrollLoop p r (0, .init) = some c := by
  intro n
  induction n with
  | zero =>
    intro m r h1 h2 h
    cases h
    exact unrollLoop_le h2 h1
  | succ n ih =>
    intro m r h1 h2 h
    simp only [measureLoop] at h
    split at h
    · cases h
    · next color shift q hp =>
      split at h
      · cases h
      · refine ih ?_ ?_ h
        · have e : ({ m.step shift color (m.state == q) with state := q } : BlockMeasure).steps
              = m.steps + 1 := by
            simp only [BlockMeasure.step]
            split <;> rfl
          have e2 : (m.step shift color (m.state == q)).tape
              = (Rs.step m.tape shift color (m.state == q)).1 := by
            simp only [BlockMeasure.step]
            split <;> rfl
          rw [e, unrollLoop_add, h1, Option.bind_some]
          simp only [unrollLoop, hp, e2]
        · simp only [BlockMeasure.step]
          split
          · exact Nat.le_refl _
          · exact Nat.le_trans h2 (Nat.le_succ _)

theorem unrollLoop_run {p : Prog} : ∀ (n : Nat) {q : State} {t : Tape},
    unrollLoop p n (0, .init) = some (q, t) →
    t.Canonical ∧ ∃ m pos, runFor p m initCfg = some (t.cfg q pos) := by
  intro n
  induction n with
  | zero =>
    intro q t h
    cases h
    exact ⟨Tape.canonical_init, 0, 0, by rw [initCfg_eq]; rfl⟩
  | succ n ih =>
    intro q t h
    rw [unrollLoop_add] at h
    obtain ⟨⟨q', t'⟩, h1, h2⟩ := Option.bind_eq_some_iff.1 h
    obtain ⟨hc, m, pos, hm⟩ := ih h1
    simp only [unrollLoop] at h2
    split at h2
    · cases h2
    · next color shift r hp =>
      cases h2
      refine ⟨hc.rsStep _ _ _, ?_⟩
      obtain ⟨-, hr⟩ := Rs.step_run hc.l.posCounts hc.r.posCounts hp
        (skip := q' == q) (fun hs => by simpa using Eq.symm (by simpa using hs)) pos
      exact ⟨_, _, runFor_trans hm hr⟩

/-! ## The size -/

/-- The number of places `0, k, 2k, …`, less than `length - 2k`, at which a piece of length `k` is
followed by an equal piece. -/
def repeats (tape : List Color) (k : Nat) : Nat :=
  ((List.range ((tape.length - 2 * k + k - 1) / k)).filter fun j =>
    decide ((tape.drop (j * k)).take k = (tape.drop (j * k + k)).take k)).length

theorem foldlM_compr {tape : List Color} {k : Nat} : ∀ (l : List Nat) (size : Nat),
    (∀ j ∈ l, j * k + 2 * k ≤ tape.length) → k * l.length ≤ size →
    (l.map (· * k)).foldlM (comprBody tape k) size = some (size - k * (l.filter fun j =>
      decide ((tape.drop (j * k)).take k = (tape.drop (j * k + k)).take k)).length)
  | [], size, _, _ => by simp
  | j :: l, size, h, hs => by
    have hj := h j List.mem_cons_self
    rw [List.map_cons, List.foldlM_cons]
    have s1 : slice tape (j * k) (j * k + k) = some ((tape.drop (j * k)).take k) := by
      rw [slice, if_pos ⟨by omega, by omega⟩, show j * k + k - j * k = k by omega]
    have s2 : slice tape (j * k + k) (j * k + 2 * k) = some ((tape.drop (j * k + k)).take k) := by
      rw [slice, if_pos ⟨by omega, by omega⟩, show j * k + 2 * k - (j * k + k) = k by omega]
    rw [List.length_cons, Nat.mul_succ] at hs
    simp only [comprBody, s1, s2]
    by_cases he : (tape.drop (j * k)).take k = (tape.drop (j * k + k)).take k
    · rw [if_pos he, if_pos (by omega), List.filter_cons_of_pos (by simpa using he)]
      show List.foldlM _ _ _ = _
      rw [foldlM_compr l (size - k) (fun i hi => h i (List.mem_cons_of_mem _ hi)) (by omega),
        List.length_cons, Nat.mul_succ, Nat.sub_sub, Nat.add_comm k]
    · rw [if_neg he, List.filter_cons_of_neg (by simpa using he)]
      show List.foldlM _ _ _ = _
      rw [foldlM_compr l size (fun i hi => h i (List.mem_cons_of_mem _ hi)) (by omega)]

theorem comprEff_eq {tape : List Color} {k : Nat} (hk : 1 ≤ k) (hl : 2 * k ≤ tape.length) :
    comprEff tape k = some (tape.length - k * repeats tape k) := by
  rw [comprEff, if_neg (by omega)]
  have hmul : k * ((tape.length - 2 * k + k - 1) / k) ≤ tape.length - 2 * k + k - 1 :=
    Nat.mul_div_le _ _
  refine foldlM_compr _ _ (fun j hj => ?_) ?_
  · have hj' := List.mem_range.1 hj
    have : k * (j + 1) ≤ k * ((tape.length - 2 * k + k - 1) / k) := Nat.mul_le_mul_left k hj'
    rw [Nat.mul_succ, Nat.mul_comm] at this
    omega
  · rw [List.length_range]
    omega

/-- The loop of `opt_block` finds the first best size. -/
theorem foldlM_opt {tape : List Color} {f : Nat → Nat} : ∀ (n a : Nat) (acc : Nat × Nat),
    (∀ k, a ≤ k → k < a + n → comprEff tape k = some (f k)) →
    ∃ r, (List.range' a n).foldlM (optBody tape) acc = some r ∧
      ((r = acc ∧ ∀ k, a ≤ k → k < a + n → acc.2 ≤ f k) ∨
        (a ≤ r.1 ∧ r.1 < a + n ∧ r.2 = f r.1 ∧ f r.1 < acc.2 ∧
          (∀ k, a ≤ k → k < a + n → f r.1 ≤ f k) ∧ ∀ k, a ≤ k → k < r.1 → f r.1 < f k))
  | 0, a, acc, _ => ⟨acc, rfl, .inl ⟨rfl, fun k h1 h2 => by omega⟩⟩
  | n + 1, a, acc, h => by
    rw [List.range'_succ, List.foldlM_cons]
    have ha := h a (Nat.le_refl a) (by omega)
    simp only [optBody, ha, Option.map_some]
    show ∃ r, List.foldlM _ _ _ = some r ∧ _
    obtain ⟨r, hr, hcase⟩ := foldlM_opt n (a + 1) (if f a < acc.2 then (a, f a) else acc)
      (fun k h1 h2 => h k (by omega) (by omega))
    refine ⟨r, hr, ?_⟩
    by_cases hlt : f a < acc.2
    · rw [if_pos hlt] at hcase
      rcases hcase with ⟨rfl, hall⟩ | ⟨h1, h2, h3, h4, h5, h6⟩
      · right
        refine ⟨Nat.le_refl a, by simp only; omega, rfl, hlt, fun k h1 h2 => ?_,
          fun k h1 h2 => by simp only at h2; omega⟩
        by_cases hk : k = a
        · rw [hk]
        · exact hall k (by omega) (by omega)
      · right
        simp only at h4
        refine ⟨by omega, by omega, h3, by omega, fun k k1 k2 => ?_, fun k k1 k2 => ?_⟩
        · by_cases hk : k = a
          · rw [hk]; omega
          · exact h5 k (by omega) (by omega)
        · by_cases hk : k = a
          · rw [hk]; omega
          · exact h6 k (by omega) (by omega)
    · rw [if_neg hlt] at hcase
      rcases hcase with ⟨rfl, hall⟩ | ⟨h1, h2, h3, h4, h5, h6⟩
      · left
        refine ⟨rfl, fun k k1 k2 => ?_⟩
        by_cases hk : k = a
        · rw [hk]; omega
        · exact hall k (by omega) (by omega)
      · right
        refine ⟨by omega, by omega, h3, h4, fun k k1 k2 => ?_, fun k k1 k2 => ?_⟩
        · by_cases hk : k = a
          · rw [hk]; omega
          · exact h5 k (by omega) (by omega)
        · by_cases hk : k = a
          · rw [hk]; omega
          · exact h6 k (by omega) (by omega)

/-! ## The unrolled tape -/

theorem unrollSpan_eq (s : List Block) : unrollSpan s = unroll s := by
  induction s with
  | nil => rfl
  | cons b s ih => rw [unroll_cons, ← ih]; rfl

/-- The unrolled tape is the tape of the configuration, without blanks beyond it. -/
theorem unrolled_cells (t : Tape) (pos : Int) : ∃ a : Int, ∀ x,
    t.cells pos x = if a ≤ x then t.unrolled.getD (x - a).toNat 0 else 0 := by
  refine ⟨pos - (unroll t.lspan).length, fun x => ?_⟩
  simp only [Tape.unrolled, unrollSpan_eq]
  rcases Int.lt_trichotomy x pos with h | rfl | h
  · obtain ⟨n, rfl⟩ : ∃ n : Nat, x = pos - 1 - n := ⟨(pos - 1 - x).toNat, by omega⟩
    rw [Tape.cells_left, half]
    by_cases hn : n < (unroll t.lspan).length
    · rw [if_pos (by omega), List.append_assoc, List.getD_eq_getElem?_getD,
        List.getD_eq_getElem?_getD, List.getElem?_append_left (by simp; omega),
        List.getElem?_reverse (by omega)]
      congr 2
      omega
    · rw [if_neg (by omega), List.getD_eq_getElem?_getD, List.getElem?_eq_none (by omega)]
      rfl
  · rw [Tape.cells_pos, if_pos (by omega), List.append_assoc, List.getD_eq_getElem?_getD,
      List.getElem?_append_right (by simp), List.length_reverse,
      show (x - (x - ((unroll t.lspan).length : Int))).toNat - (unroll t.lspan).length = 0 by omega]
    rfl
  · obtain ⟨n, rfl⟩ : ∃ n : Nat, x = pos + 1 + n := ⟨(x - pos - 1).toNat, by omega⟩
    rw [Tape.cells_right, half, if_pos (by omega), List.getD_eq_getElem?_getD,
      List.getD_eq_getElem?_getD, List.getElem?_append_right (by simp; omega)]
    congr 2
    simp
    omega

end BB
