import Verif.Lemmas.NormalOrder
import Verif.Props.Normalize
import Mathlib.Data.Finset.Card

/-!
# C49: `normalize` as a normal form

`prog == normalize(prog)` and `Graph(prog).is_normal` are what the tests ask of listed programs;
two programs that differ only by names should have one normal form.  This holds for programs of two
or three colours whose states can all be reached along instructions; it fails otherwise.
-/

namespace BB

open Norm

/-- A program of `S` states and `C` colours in which every colour and every row has an instruction,
the first instruction prints a mark, and every state can be reached from the first. -/
structure Whole (p : Prog) (S C : Nat) : Prop where
  inside : ∀ s, ¬ (s.1 < S ∧ s.2 < C) → p s = none
  below : ∀ s i, p s = some i → i.1 < C ∧ i.2.2 < S
  rows : ∀ s, s < S → ∃ c, c < C ∧ (p (s, c)).isSome
  cols : ∀ c, c < C → ∃ s, s < S ∧ (p (s, c)).isSome
  start : ∃ i, p (0, 0) = some i ∧ i.1 ≠ 0
  reached : ∀ k, k < S → Relation.ReflTransGen p.Goes 0 k

theorem Whole.used {p : Prog} {S C : Nat} (h : Whole p S C) : Used p S C where
  target := by
    intro s hs h0
    rcases Relation.ReflTransGen.cases_tail (h.reached s hs) with h1 | ⟨u, -, c, i, h2, h3⟩
    · exact absurd h1 h0
    · exact ⟨(u, c), i, h2, h3⟩
  rows := h.rows
  cols := h.cols
  start := h.start

/-- An injective map of the numbers below `n` to themselves reaches all of them. -/
theorem surj_of_inj {n : Nat} {σ : Nat → Nat} (hi : Function.Injective σ)
    (hm : ∀ x, x < n → σ x < n) (y : Nat) (hy : y < n) : ∃ x, x < n ∧ σ x = y := by
  have h := Finset.eq_of_subset_of_card_le (s := (Finset.range n).image σ) (t := Finset.range n)
    (by
      intro z hz
      obtain ⟨x, hx, rfl⟩ := Finset.mem_image.1 hz
      exact Finset.mem_range.2 (hm x (Finset.mem_range.1 hx)))
    (by rw [Finset.card_image_of_injective _ hi])
  have : y ∈ (Finset.range n).image σ := by rw [h]; exact Finset.mem_range.2 hy
  obtain ⟨x, hx, rfl⟩ := Finset.mem_image.1 this
  exact ⟨x, Finset.mem_range.1 hx, rfl⟩

theorem Whole.same {p p' : Prog} {S C : Nat} (h : Whole p S C)
    (hin : ∀ s, ¬ (s.1 < S ∧ s.2 < C) → p' s = none) (hs : SameUpTo p p') : Whole p' S C := by
  obtain ⟨σ, τ, m, hσ, hτ, hσ0, hτ0, hr⟩ := hs
  have hdef : ∀ s c, (p (s, c)).isSome → σ s < S ∧ τ c < C := by
    intro s c hp
    by_contra hn
    have := hr s c
    rw [hin (σ s, τ c) hn] at this
    obtain ⟨i, hi⟩ := Option.isSome_iff_exists.1 hp
    rw [hi] at this
    simp at this
  have hσS : ∀ s, s < S → σ s < S := fun s hs => by
    obtain ⟨c, -, hi⟩ := h.rows s hs
    exact (hdef s c hi).1
  have hτC : ∀ c, c < C → τ c < C := fun c hc => by
    obtain ⟨s, -, hi⟩ := h.cols c hc
    exact (hdef s c hi).2
  refine ⟨hin, ?_, ?_, ?_, ?_, AllReached.rename h.reached hr hσ0 (surj_of_inj hσ.1 hσS)⟩
  · rintro ⟨s, c⟩ i hi
    obtain ⟨s, rfl⟩ := hσ.2 s
    obtain ⟨c, rfl⟩ := hτ.2 c
    have := hr s c
    rw [hi] at this
    cases hp : p (s, c) with
    | none => rw [hp] at this; simp at this
    | some j =>
      rw [hp] at this
      simp only [Option.map_some, Option.some.injEq] at this
      subst this
      have := h.below _ _ hp
      exact ⟨hτC _ this.1, hσS _ this.2⟩
  · intro s hs
    obtain ⟨s, hs', rfl⟩ := surj_of_inj hσ.1 hσS s hs
    obtain ⟨c, hc, hi⟩ := h.rows s hs'
    exact ⟨τ c, hτC c hc, by rw [hr]; simpa using hi⟩
  · intro c hc
    obtain ⟨c, hc', rfl⟩ := surj_of_inj hτ.1 hτC c hc
    obtain ⟨s, hs, hi⟩ := h.cols c hc'
    exact ⟨σ s, hσS s hs, by rw [hr]; simpa using hi⟩
  · obtain ⟨i, h1, h2⟩ := h.start
    have := hr 0 0
    rw [hσ0, hτ0, h1] at this
    refine ⟨_, this, ?_⟩
    simp only
    intro hz
    exact h2 (hτ.1 (hz.trans hτ0.symm))

theorem SameUpTo.symm {p p' : Prog} (h : SameUpTo p p') : SameUpTo p' p := by
  obtain ⟨σ, τ, m, hσ, hτ, hσ0, hτ0, hr⟩ := h
  obtain ⟨σ', h1, h2⟩ := Function.bijective_iff_has_inverse.1 hσ
  obtain ⟨τ', h3, h4⟩ := Function.bijective_iff_has_inverse.1 hτ
  refine ⟨σ', τ', m, Function.bijective_iff_has_inverse.2 ⟨σ, h2, h1⟩,
    Function.bijective_iff_has_inverse.2 ⟨τ, h4, h3⟩, ?_, ?_, ?_⟩
  · conv_lhs => rw [← hσ0]
    exact h1 0
  · conv_lhs => rw [← hτ0]
    exact h3 0
  · intro s c
    have := hr (σ' s) (τ' c)
    rw [h2, h4] at this
    rw [this, Option.map_map]
    cases p (σ' s, τ' c) with
    | none => rfl
    | some i =>
      obtain ⟨a, b, q⟩ := i
      simp only [Option.map_some, Function.comp_apply, Option.some.injEq, Prod.mk.injEq]
      refine ⟨(h3 a).symm, ?_, (h1 q).symm⟩
      cases b <;> cases m <;> rfl

/-- The table the constructor makes of the text of a program. -/
theorem Whole.full {t : Table} {S C : Nat} (h : Whole t.get? S C) :
    let n := Norm.ofRows ((List.range S).map fun st => (List.range C).map fun co => t.get? (st, co))
    n.Full S C ∧ n.getitem = t.get? := by
  intro n
  have hd : n.Dense S C := by
    apply Norm.dense_ofRows
    · simp
    · intro row hrow
      obtain ⟨s, -, rfl⟩ := List.mem_map.1 hrow
      simp
  have hget : n.getitem = t.get? := by
    funext ⟨s, c⟩
    by_cases hr : s < S ∧ c < C
    · simp only [n, Norm.getitem_ofRows, gridGet, List.getElem?_map,
        List.getElem?_range hr.1, Option.map_some, Option.bind_some, List.getElem?_range hr.2,
        Option.join_some]
    · rw [hd.getitem_none hr, h.inside _ hr]
  exact ⟨⟨hd, by rw [hget]; exact h.used, by rw [hget]; exact h.below,
    by rw [hget]; exact h.reached⟩, hget⟩

theorem Full.grid {n : Norm} {S C : Nat} (hS : 1 ≤ S) (hS' : S ≤ 68) (hC : C ≤ 10)
    (h : n.Full S C) : GridOk n.toRows S C := by
  obtain ⟨i, hi, hi0⟩ := h.used.start
  have hC0 := (h.below _ _ hi).1
  refine ⟨h.dense.toRows_length.1, h.dense.toRows_length.2, hS, by nf_omega, ?_⟩
  intro row hrow i hi'
  obtain ⟨e, he, rfl⟩ := List.mem_map.1 hrow
  obtain ⟨f, hf, hfi⟩ := List.mem_map.1 hi'
  have : ((e.1, f.1), i) ∈ n.usedInstrSlots := by
    simp only [Norm.usedInstrSlots, List.mem_flatMap, List.mem_filterMap]
    exact ⟨e, he, f, hf, by rw [hfi]; rfl⟩
  have := h.below _ _ ((h.dense.mem_used _ _).1 this)
  exact instrOk_of_lt (by nf_omega) (by nf_omega)

theorem Whole.text {t : Table} {S C : Nat} (hS : 1 ≤ S) (hS' : S ≤ 68) (hC : C ≤ 3)
    (ht : t.Sorted) (h : Whole t.get? S C) :
    ∃ n' : Norm, normalizeStr (t.show (some (S, C))) = some n'.repr ∧ n'.Full S C ∧
      SameUpTo t.get? n'.getitem ∧ Canonical n'.getitem S := by
  obtain ⟨hf, hget⟩ := h.full
  obtain ⟨n', h1, h2, h3, h4⟩ := hf.normalize hC hS
  refine ⟨n', ?_, h2, by rw [← hget]; exact h3, h4⟩
  have hC1 : 1 ≤ C := by
    obtain ⟨i, hi, -⟩ := h.start
    have := (h.below _ _ hi).1
    nf_omega
  simp only [normalizeStr]
  rw [C27_python_rows t S C hS hC1 (by
    rintro ⟨s, i⟩ he
    have := h.below s i (Table.get?_of_mem ht he)
    exact ⟨Nat.lt_of_lt_of_le this.1 (by omega), Nat.lt_of_lt_of_le this.2 hS'⟩),
    Option.bind_some, h1]
  rfl

/-- **C49, one normal form, the part that holds.**  For programs of at most three colours whose
states are all reached: whatever renaming of states (keeping A) and colours (keeping the blank) and
whatever mirroring takes one program to the other, `normalize` returns the same text for both. -/
theorem C49_canonical_partial (t t' : Table) (S C : Nat) (hS : 1 ≤ S) (hS' : S ≤ 68) (hC : C ≤ 3)
    (ht : t.Sorted) (ht' : t'.Sorted) (h : Whole t.get? S C)
    (hin : ∀ s, ¬ (s.1 < S ∧ s.2 < C) → t'.get? s = none) (hs : SameUpTo t.get? t'.get?) :
    ∃ s, normalizeStr (t.show (some (S, C))) = some s ∧
      normalizeStr (t'.show (some (S, C))) = some s := by
  have h' : Whole t'.get? S C := h.same hin hs
  obtain ⟨n, a1, a2, a3, a4⟩ := h.text hS hS' hC ht
  obtain ⟨n', b1, b2, b3, b4⟩ := h'.text hS hS' hC ht'
  refine ⟨n.repr, a1, ?_⟩
  rw [b1]
  have hsame : SameUpTo n.getitem n'.getitem := (a3.symm.trans hs).trans b3
  have := a4.unique hC a2.dense.inside b2.dense.inside a2.used a2.below a2.reached b4 hsame
  rw [a2.dense.ext b2.dense this.symm]

/-- **C49, the normal form is normal, the part that holds.**  Under the same conditions the text
returned is a fixed point of `normalize`, its states are first mentioned in their order
(`Graph(...).is_normal`), and its first instruction prints 1 and moves right. -/
theorem C49_normal_partial (t : Table) (S C : Nat) (hS : 1 ≤ S) (hS' : S ≤ 68) (hC : C ≤ 3)
    (ht : t.Sorted) (h : Whole t.get? S C) :
    ∃ s rows, normalizeStr (t.show (some (S, C))) = some s ∧ normalizeStr s = some s ∧
      parseRows s = some rows ∧ (arrowsOf rows).isNormal = true ∧
      ∃ q, (Norm.ofRows rows).getitem (0, 0) = some (1, true, q) := by
  obtain ⟨n, a1, a2, a3, a4⟩ := h.text hS hS' hC ht
  have hp : parseRows n.repr = some n.toRows := by
    rw [Norm.repr_eq]
    exact parseRows_render _ S C (Full.grid hS hS' (by omega) a2)
  refine ⟨n.repr, n.toRows, a1, ?_, hp, ?_, ?_⟩
  · obtain ⟨n', b1, b2, b3, b4⟩ := a2.normalize hC hS
    simp only [normalizeStr]
    rw [hp, Option.bind_some, a2.dense.ofRows_toRows, b1]
    have := a4.unique hC a2.dense.inside b2.dense.inside a2.used a2.below a2.reached b4 b3
    rw [a2.dense.ext b2.dense this.symm]
    rfl
  · rw [isNormal_iff n.toRows S C a2.dense.toRows_length.1 a2.dense.toRows_length.2 hS']
    · rw [a2.dense.ofRows_toRows]
      exact a4.order
    · rw [a2.dense.ofRows_toRows]
      exact fun s i hi => (a2.below s i hi).2
  · rw [a2.dense.ofRows_toRows]
    exact a4.first

/-- **C49, `normalize_states`,** for any number of colours: if all states are reached, the call
succeeds within its rounds and leaves the states in order of mention; only names change. -/
theorem C49_states (n : Norm) (S C : Nat) (h : n.Dense S C)
    (hbelow : ∀ s i, n.getitem s = some i → i.1 < C ∧ i.2.2 < S)
    (hre : ∀ k, k < S → Relation.ReflTransGen (Prog.Goes n.getitem) 0 k) (hS' : S ≤ 68) :
    ∃ n' σ, n.normalizeStates = some n' ∧ Function.Bijective σ ∧ σ 0 = 0 ∧
      Renames n.getitem n'.getitem σ id false ∧ (arrowsOf n'.toRows).isNormal = true := by
  obtain ⟨n', σ, h1, h2, h3, h4, -, h5, h6, h7, h8⟩ := normalizeStates_order n h hbelow hre
  refine ⟨n', σ, h1, h3, h4, h5, ?_⟩
  rw [isNormal_iff n'.toRows S C h2.toRows_length.1 h2.toRows_length.2 hS']
  · rw [h2.ofRows_toRows]
    exact h8
  · rw [h2.ofRows_toRows]
    exact fun s i hi => (h6 s i hi).2

/-! ## Cases -/

/-- The three-state champion with B and C exchanged, mirrored: "1LC 1RC  1LA 1LB  1RA 1LB". -/
def bb3m : Table := [((0, 0), (1, false, 2)), ((0, 1), (1, true, 2)), ((1, 0), (1, false, 0)),
  ((1, 1), (1, false, 1)), ((2, 0), (1, true, 0)), ((2, 1), (1, false, 1))]

theorem C49_whole_case : Whole bb3m.get? 3 2 where
  inside := by
    rintro ⟨s, c⟩ h
    rw [Table.get?_eq_none]
    intro e he heq
    have hall : ∀ e ∈ bb3m, e.1.1 < 3 ∧ e.1.2 < 2 := by decide
    have := hall e he
    rw [heq] at this
    exact h this
  below := by
    intro s i hi
    have := Table.get?_mem hi
    have : ∀ e ∈ bb3m, e.2.1 < 2 ∧ e.2.2.2 < 3 := by decide
    exact this (s, i) (Table.get?_mem hi)
  rows := by
    intro s hs
    have : s = 0 ∨ s = 1 ∨ s = 2 := by omega
    rcases this with rfl | rfl | rfl <;> exact ⟨0, by omega, rfl⟩
  cols := by
    intro c hc
    have : c = 0 ∨ c = 1 := by omega
    rcases this with rfl | rfl <;> exact ⟨0, by omega, rfl⟩
  start := ⟨_, rfl, by decide⟩
  reached := by
    have h2 : Prog.Goes bb3m.get? 0 2 := ⟨0, _, rfl, rfl⟩
    have h1 : Prog.Goes bb3m.get? 2 1 := ⟨1, _, rfl, rfl⟩
    intro k hk
    have : k = 0 ∨ k = 1 ∨ k = 2 := by omega
    rcases this with rfl | rfl | rfl
    · exact .refl
    · exact (Relation.ReflTransGen.single h2).tail h1
    · exact .single h2

theorem C49_case : normalizeStr "1LC 1RC  1LA 1LB  1RA 1LB".toList
    = some "1RB 1LB  1LA 1RC  1RA 1RC".toList ∧
    normalizeStr "1RB 1LB  1LA 1RC  1RA 1RC".toList
      = some "1RB 1LB  1LA 1RC  1RA 1RC".toList := by decide +kernel

/-! ## Where it fails -/

/-- The 2-state 4-colour program "1RA 0LB 3LA 2LB  1LB 0LA 3LB 0RA" and the same with the colours
2 and 3 exchanged. -/
def fourA : Table := [((0, 0), (1, true, 0)), ((0, 1), (0, false, 1)), ((0, 2), (3, false, 0)),
  ((0, 3), (2, false, 1)), ((1, 0), (1, false, 1)), ((1, 1), (0, false, 0)),
  ((1, 2), (3, false, 1)), ((1, 3), (0, true, 0))]

def fourB : Table := [((0, 0), (1, true, 0)), ((0, 1), (0, false, 1)), ((0, 2), (3, false, 1)),
  ((0, 3), (2, false, 0)), ((1, 0), (1, false, 1)), ((1, 1), (0, false, 0)),
  ((1, 2), (0, true, 0)), ((1, 3), (2, false, 1))]

theorem four_same : SameUpTo fourA.get? fourB.get? := by
  refine ⟨id, Norm.swapNat 2 3, false, Function.bijective_id, Norm.swapNat_bijective 2 3, rfl, rfl,
    ?_⟩
  intro s c
  by_cases h : s < 2 ∧ c < 4
  · have hs : s = 0 ∨ s = 1 := by omega
    have hc : c = 0 ∨ c = 1 ∨ c = 2 ∨ c = 3 := by omega
    rcases hs with rfl | rfl <;> rcases hc with rfl | rfl | rfl | rfl <;> decide
  · have hA : fourA.get? (s, c) = none := by
      rw [Table.get?_eq_none]
      intro e he heq
      have hall : ∀ e ∈ fourA, e.1.1 < 2 ∧ e.1.2 < 4 := by decide
      have := hall e he
      rw [heq] at this
      exact h this
    have hB : fourB.get? (id s, Norm.swapNat 2 3 c) = none := by
      rw [Table.get?_eq_none]
      intro e he heq
      have hall : ∀ e ∈ fourB, e.1.1 < 2 ∧ e.1.2 < 4 := by decide
      have he' := hall e he
      rw [heq] at he'
      apply h
      refine ⟨he'.1, ?_⟩
      have h4 : Norm.swapNat 2 3 c < 4 := he'.2
      simp only [Norm.swapNat] at h4
      by_contra hn
      split at h4
      · omega
      · split at h4 <;> nf_omega
    rw [hA, hB]
    rfl

/-- **C49 fails for four colours: two normal forms.**  The two programs are the same up to the names
of two colours, every state and colour is used, and `normalize` returns each of them unchanged. -/
theorem C49_violation_colors :
    SameUpTo fourA.get? fourB.get? ∧
    normalizeStr (fourA.show (some (2, 4))) = some (fourA.show (some (2, 4))) ∧
    normalizeStr (fourB.show (some (2, 4))) = some (fourB.show (some (2, 4))) ∧
    fourA.show (some (2, 4)) = "1RA 0LB 3LA 2LB  1LB 0LA 3LB 0RA".toList ∧
    fourB.show (some (2, 4)) = "1RA 0LB 3LB 2LA  1LB 0LA 0RA 2LB".toList :=
  ⟨four_same, by decide +kernel, by decide +kernel, by decide +kernel, by decide +kernel⟩

/-- **C49 fails for four colours: the result need not be in order of mention,** although all states
are reached. -/
theorem C49_violation_order :
    ∃ s rows, normalizeStr
        "1RC 0LA 3LB 2RD  2RD 1LB 3LB 0RC  ... ... 0LB 2RA  3RA 1LC 1RC 2RB".toList = some s ∧
      parseRows s = some rows ∧ (arrowsOf rows).isNormal = false :=
  ⟨"1RB 0LA 3LD 2RC  ... ... 0LD 2RA  3RA 1LB 1RB 2RD  2RC 1LD 3LD 0RB".toList, _,
    by decide +kernel, rfl, by decide +kernel⟩

/-- **C49 fails when a state is not reached: the result changes when it is normalised again,** and
is not in order of mention. -/
theorem C49_violation_unreached :
    ∃ s rows, normalizeStr "1RA 1RA ...  2RC 0LC 1RB  1LB 0RA ...".toList = some s ∧
      parseRows s = some rows ∧ (arrowsOf rows).isNormal = false ∧ normalizeStr s ≠ some s :=
  ⟨"1RA 1RA ...  1LC 0RA ...  2RB 0LB 1RC".toList, _, by decide +kernel, rfl, by decide +kernel,
    by decide +kernel⟩

/-- **C49 fails when a colour other than the last has no instruction: `KeyError`.** -/
theorem C49_raises : normalizeStr "1RB ... 2RB  0LB ... ...".toList = none := by decide +kernel

end BB
