import Verif.Lemmas.NormalFormRun
import Verif.Lemmas.Parse
import Verif.Model.Reduce

/-! # What `is_normal` decides -/

namespace BB

open Norm

theorem showState_inj {a b : State} (ha : a < 68) (hb : b < 68) (h : showState a = showState b) :
    a = b := by
  rw [← readState_showState a (by nf_omega), ← readState_showState b (by nf_omega), h]

theorem instrs_flatten (rows : List (List (Option Instr))) (S C : Nat) (hS : rows.length = S)
    (hC : ∀ row ∈ rows, row.length = C) :
    rows.flatten = (gridSlots S C).map (Norm.ofRows rows).getitem := by
  have e : rows = (List.range S).map fun s => (List.range C).map fun c =>
      (Norm.ofRows rows).getitem (s, c) := by
    apply List.ext_getElem
    · simp [hS]
    · intro s h1 h2
      apply List.ext_getElem
      · simp [hC _ (List.getElem_mem h1)]
      · intro c h3 h4
        simp [getitem_ofRows, gridGet, h1, h3]
  conv_lhs => rw [e]
  rw [gridSlots, List.map_flatMap, List.flatten_eq_flatMap, List.flatMap_map]
  congr 1
  funext s
  simp [Function.comp_def]

theorem idxOf_le_of_getElem {l : List Char} {c : Char} {x : Nat} (hx : x < l.length)
    (h : l[x] = c) : l.idxOf c ≤ x := by
  by_contra hn
  have hlt : x < l.idxOf c := by omega
  have := List.not_of_lt_findIdx hlt
  simp [h] at this

/-- `is_normal` answers whether the states are first mentioned in their order. -/
theorem isNormal_iff (rows : List (List (Option Instr))) (S C : Nat) (hS : rows.length = S)
    (hC : ∀ row ∈ rows, row.length = C) (hS68 : S ≤ 68)
    (hb : ∀ s i, (Norm.ofRows rows).getitem s = some i → i.2.2 < S) :
    (arrowsOf rows).isNormal = true ↔ InOrderTo (Norm.ofRows rows).getitem S := by
  set p := (Norm.ofRows rows).getitem with hp
  have hd : (Norm.ofRows rows).Dense S C := dense_ofRows rows S C hS hC
  have hstr : (arrowsOf rows).str
      = (gridSlots S C).map fun s => showStateOpt ((p s).map fun i => i.2.2) := by
    have e : (arrowsOf rows).flatten = rows.flatten.map fun i => i.map fun j => j.2.2 := by
      rw [arrowsOf, List.map_flatten]
    rw [Arrows.str, e, instrs_flatten rows S C hS hC, List.map_map, List.map_map]
    rfl
  have hlen : (arrowsOf rows).length = S := by simp [arrowsOf, hS]
  set L := (arrowsOf rows).str with hL
  have hLlen : L.length = (gridSlots S C).length := by rw [hstr]; simp
  -- what stands at an index
  have hat : ∀ x (hx : x < L.length), L[x] = showStateOpt ((p ((gridSlots S C)[x]'(by
      rw [← hLlen]; exact hx))).map fun i => i.2.2) := by
    intro x hx
    simp [hstr]
  have hshow : ∀ (x : Nat) (hx : x < L.length) (k : Nat), k < S → L[x] = showState k →
      ∃ i, p ((gridSlots S C)[x]'(by rw [← hLlen]; exact hx)) = some i ∧ i.2.2 = k := by
    intro x hx k hk hk'
    rw [hat x hx] at hk'
    cases hpx : p ((gridSlots S C)[x]'(by rw [← hLlen]; exact hx)) with
    | none =>
      rw [hpx] at hk'
      simp only [Option.map_none, showStateOpt] at hk'
      have := readState_showState k (by nf_omega)
      rw [← hk'] at this
      have h2 : readState '.' = 237 := by decide
      rw [h2] at this
      nf_omega
    | some i =>
      rw [hpx] at hk'
      have hi := hb _ i hpx
      exact ⟨i, rfl, showState_inj (by nf_omega) (by nf_omega) hk'⟩
  have hpair := gridSlots_sorted S C
  have hbefore : ∀ x y (hx : x < (gridSlots S C).length) (hy : y < (gridSlots S C).length), x < y →
      SlotBefore (gridSlots S C)[x] (gridSlots S C)[y] :=
    fun x y hx hy hxy => (List.pairwise_iff_getElem.1 hpair) x y hx hy hxy
  have hindex : ∀ s i, p s = some i → ∃ x, ∃ hx : x < (gridSlots S C).length,
      (gridSlots S C)[x] = s := by
    intro s i hs
    exact List.getElem_of_mem (hd.mem_of_getitem hs)
  have hlt : ∀ x y (hx : x < (gridSlots S C).length) (hy : y < (gridSlots S C).length),
      SlotBefore (gridSlots S C)[x] (gridSlots S C)[y] → x < y := by
    intro x y hx hy hxy
    by_contra hn
    rcases Nat.lt_or_eq_of_le (Nat.le_of_not_lt hn) with h | h
    · exact SlotBefore.asymm hxy (hbefore y x hy hx h)
    · subst h
      exact SlotBefore.asymm hxy hxy
  have hidx : ∀ k (s : Slot) (i : Instr) x (hx : x < (gridSlots S C).length), p s = some i →
      i.2.2 = k → (gridSlots S C)[x] = s → L.idxOf (showState k) ≤ x := by
    intro k s i x hx hs hi hxs
    apply idxOf_le_of_getElem (by rw [hLlen]; exact hx)
    rw [hat x (by rw [hLlen]; exact hx)]
    rw [hxs, hs, ← hi]
    rfl
  have htail : (List.range S).tail = List.range' 1 (S - 1) := by
    cases S with
    | zero => rfl
    | succ S => simp [List.range_eq_range', List.range'_succ]
  have hsortiff : ∀ l : List Nat, (l == l.insertionSort (· ≤ ·)) = true ↔
      l.Pairwise (· ≤ ·) := by
    intro l
    rw [beq_iff_eq]
    constructor
    · intro h
      rw [h]
      exact List.pairwise_insertionSort (· ≤ ·) l
    · intro h
      exact h.insertionSort_eq.symm
  have hiff : (arrowsOf rows).isNormal = true ↔
      (∀ k, 0 < k → k < S → showState k ∈ L) ∧
        ∀ j k, 0 < j → j < k → k < S → L.idxOf (showState j) ≤ L.idxOf (showState k) := by
    have hmemr : ∀ x, x ∈ List.range' 1 (S - 1) ↔ 0 < x ∧ x < S := by
      intro x
      rw [List.mem_range'_1]
      omega
    simp only [Arrows.isNormal, hlen, ← hL, htail]
    by_cases hany : (List.range' 1 (S - 1)).any (fun s => !L.contains (showState s)) = true
    · rw [if_pos hany]
      simp only [Bool.false_eq_true, false_iff]
      rintro ⟨h, -⟩
      obtain ⟨x, hx, hx'⟩ := List.any_eq_true.1 hany
      have := (hmemr x).1 hx
      have := h x this.1 this.2
      simp [this] at hx'
    · rw [if_neg hany, hsortiff, List.pairwise_map]
      have hall : ∀ k, 0 < k → k < S → showState k ∈ L := by
        intro k h1 h2
        by_contra hn
        apply hany
        rw [List.any_eq_true]
        exact ⟨k, (hmemr k).2 ⟨h1, h2⟩, by simp [hn]⟩
      constructor
      · intro h
        refine ⟨hall, ?_⟩
        intro j k h1 h2 h3
        have := List.pairwise_iff_getElem.1 h (j - 1) (k - 1) (by simp; omega) (by simp; omega)
          (by omega)
        simp only [List.getElem_range', Nat.one_mul] at this
        rwa [show 1 + (j - 1) = j by omega, show 1 + (k - 1) = k by omega] at this
      · rintro ⟨-, h⟩
        rw [List.pairwise_iff_getElem]
        intro a b ha hb hab
        simp only [List.length_range'] at ha hb
        simp only [List.getElem_range', Nat.one_mul]
        exact h _ _ (by omega) (by omega) (by omega)
  rw [hiff]
  constructor
  · rintro ⟨h1, h2⟩ k hk hkS
    have hm := h1 k hk hkS
    have hx : L.idxOf (showState k) < L.length := List.idxOf_lt_length_iff.2 hm
    obtain ⟨i, hi, hik⟩ := hshow _ hx k hkS (List.getElem_idxOf hx)
    refine ⟨_, i, hi, hik, ?_⟩
    intro s' i' hb' hi'
    obtain ⟨y, hy, rfl⟩ := hindex s' i' hi'
    have hyx := hlt _ _ hy (by rw [← hLlen]; exact hx) hb'
    have := hidx i'.2.2 _ i' y hy hi' rfl rfl
    by_contra hn
    rcases Nat.lt_or_eq_of_le (Nat.le_of_not_lt hn) with h | h
    · have := h2 k i'.2.2 hk h (hb _ _ hi')
      omega
    · rw [h] at hyx
      omega
  · intro h
    constructor
    · intro k hk hkS
      obtain ⟨s, i, hs, hi, -⟩ := h k hk hkS
      obtain ⟨x, hx, rfl⟩ := hindex s i hs
      have hx' : x < L.length := by rw [hLlen]; exact hx
      have : L[x] = showState k := by
        rw [hat x hx', hs, ← hi]
        rfl
      rw [← this]
      exact List.getElem_mem hx'
    · intro j k hj hjk hkS
      obtain ⟨s, i, hs, hi, hfirst⟩ := h j hj (by omega)
      obtain ⟨y, hy, rfl⟩ := hindex s i hs
      have h1 := hidx j _ i y hy hs hi rfl
      by_cases hx : L.idxOf (showState k) < L.length
      · obtain ⟨i', hi', hik'⟩ := hshow _ hx k hkS (List.getElem_idxOf hx)
        by_contra hn
        have hlt' : L.idxOf (showState k) < y := by omega
        have := hfirst _ i' (hbefore _ _ (by rw [← hLlen]; exact hx) hy hlt') hi'
        nf_omega
      · have : y < L.length := by rw [hLlen]; exact hy
        omega

end BB
