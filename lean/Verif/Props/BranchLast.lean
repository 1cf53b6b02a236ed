import Verif.Model.BranchLast
import Verif.Props.Parse
import Mathlib.Data.List.Nodup

/-!
# C74: filling in the last slot
-/

namespace BB
namespace Branch

/-- Slots and instructions within `S` states and `C` colours. -/
def Within (t : Table) (S C : Nat) : Prop :=
  ∀ e ∈ t, (e.1.1 < S ∧ e.1.2 < C) ∧ (e.2.1 < C ∧ e.2.2.2 < S)

/-- `u` is `t` with an instruction at every slot. -/
structure Completion (S C : Nat) (t u : Table) : Prop where
  sorted : u.Sorted
  within : Within u S C
  full : ∀ st < S, ∀ co < C, u.get? (st, co) ≠ none
  keeps : ∀ s i, t.get? s = some i → u.get? s = some i

theorem mem_slots (a b : Nat) (s : Slot) : s ∈ slots a b ↔ s.1 < a ∧ s.2 < b := by
  obtain ⟨st, co⟩ := s
  simp only [slots, List.mem_flatMap, List.mem_map, List.mem_range]
  constructor
  · rintro ⟨x, hx, y, hy, h⟩
    cases h
    exact ⟨hx, hy⟩
  · rintro ⟨h1, h2⟩
    exact ⟨st, h1, co, h2, rfl⟩

theorem mem_instrs (S C : Nat) (i : Instr) : i ∈ instrs S C ↔ i.1 < C ∧ i.2.2 < S := by
  obtain ⟨c, sh, s⟩ := i
  simp only [instrs, List.mem_flatMap, List.mem_map, List.mem_range]
  constructor
  · rintro ⟨x, hx, y, -, z, hz, h⟩
    cases h
    exact ⟨hx, hz⟩
  · rintro ⟨h1, h2⟩
    exact ⟨c, h1, sh, by cases sh <;> decide, s, h2, rfl⟩

theorem instrs_nodup (S C : Nat) : (instrs S C).Nodup := by
  unfold instrs
  rw [List.nodup_flatMap]
  refine ⟨?_, ?_⟩
  · intro c _
    rw [List.nodup_flatMap]
    refine ⟨?_, ?_⟩
    · intro sh _
      exact List.nodup_range.map (fun a b h => by simpa using h)
    · simp only [List.pairwise_cons, List.mem_singleton, List.not_mem_nil, false_implies, implies_true,
        List.Pairwise.nil, and_true, forall_eq, Function.onFun, List.disjoint_left]
      intro i hi hi'
      obtain ⟨a, -, rfl⟩ := List.mem_map.1 hi
      obtain ⟨b, -, h⟩ := List.mem_map.1 hi'
      simp at h
  · refine List.Pairwise.imp_of_mem ?_ List.nodup_range
    intro c c' _ _ hne
    simp only [Function.onFun, List.disjoint_left]
    intro i hi hi'
    obtain ⟨sh, -, hi⟩ := List.mem_flatMap.1 hi
    obtain ⟨a, -, rfl⟩ := List.mem_map.1 hi
    obtain ⟨sh', -, hi'⟩ := List.mem_flatMap.1 hi'
    obtain ⟨b, -, h⟩ := List.mem_map.1 hi'
    simp only [Prod.mk.injEq] at h
    exact hne h.1.symm

theorem instrs_length (S C : Nat) : (instrs S C).length = 2 * S * C := by
  unfold instrs
  rw [List.length_flatMap]
  simp only [List.flatMap_cons, List.flatMap_nil, List.append_nil, List.length_append, List.length_map,
    List.length_range, List.map_const', List.sum_replicate_nat]
  rw [Nat.mul_comm, ← Nat.two_mul]

/-- The parameters of a table that uses its last state and its last colour. -/
theorem defaultParams_eq {t : Table} {S C : Nat} (hS : 2 ≤ S) (hC : 2 ≤ C) (hw : Within t S C)
    (hl : t.get? (S - 1, C - 1) ≠ none) : defaultParams t = (S, C) := by
  have key : ∀ (t : Table) (m : Nat × Nat), m.1 < S → m.2 < C → Within t S C →
      let f := t.foldl (fun (m : Nat × Nat) e =>
        (max (max m.1 e.1.1) e.2.2.2, max (max m.2 e.1.2) e.2.1)) m
      f.1 < S ∧ f.2 < C := by
    intro t
    induction t with
    | nil => intro m h1 h2 _; exact ⟨h1, h2⟩
    | cons e t ih =>
      intro m h1 h2 h
      have he := h e (List.mem_cons_self ..)
      refine ih _ ?_ ?_ (fun x hx => h x (List.mem_cons_of_mem _ hx))
      · exact Nat.max_lt.2 ⟨Nat.max_lt.2 ⟨h1, he.1.1⟩, he.2.2⟩
      · exact Nat.max_lt.2 ⟨Nat.max_lt.2 ⟨h2, he.1.2⟩, he.2.1⟩
  obtain ⟨h1, h2⟩ := key t (1, 1) (by simp only; omega) (by simp only; omega) hw
  obtain ⟨-, -, h3⟩ := defaultParams_bound t
  cases hg : t.get? (S - 1, C - 1) with
  | none => exact absurd hg hl
  | some i =>
    obtain ⟨h4, h5⟩ := h3 _ (Table.get?_mem hg)
    have h6 : S - 1 < (defaultParams t).1 := h4
    have h7 : C - 1 < (defaultParams t).2 := h5
    simp only [defaultParams] at h6 h7 ⊢
    refine Prod.ext ?_ ?_
    · simp only; omega
    · simp only; omega

theorem insert_within {t : Table} {S C : Nat} {s : Slot} {i : Instr} (h : Within t S C)
    (hs : s.1 < S ∧ s.2 < C) (hi : i.1 < C ∧ i.2.2 < S) : Within (t.insert s i) S C := by
  intro e he
  rcases Table.mem_insert he with rfl | he
  · exact ⟨hs, hi⟩
  · exact h e he

theorem filter_open {t : Table} {S C : Nat} {s : Slot} (hs : s.1 < S ∧ s.2 < C)
    (hopen : ∀ st < S, ∀ co < C, t.get? (st, co) = none ↔ (st, co) = s) :
    (slots S C).filter (fun x => (t.get? x).isNone) = [s] := by
  have h1 : ∀ x ∈ slots S C, (t.get? x).isNone = (x == s) := by
    intro x hx
    have hx := (mem_slots S C x).1 hx
    have := hopen x.1 hx.1 x.2 hx.2
    rw [Bool.eq_iff_iff, Option.isNone_iff_eq_none, beq_iff_eq]
    exact this
  rw [List.filter_congr h1]
  have hnd : (slots S C).Nodup := by
    unfold slots
    rw [List.nodup_flatMap]
    refine ⟨fun a _ => List.nodup_range.map (fun x y h => by simpa using h), ?_⟩
    refine List.Pairwise.imp_of_mem ?_ List.nodup_range
    intro a b _ _ hne
    simp only [Function.onFun, List.disjoint_left]
    intro x hx hx'
    obtain ⟨c, -, rfl⟩ := List.mem_map.1 hx
    obtain ⟨c', -, h⟩ := List.mem_map.1 hx'
    simp only [Prod.mk.injEq] at h
    exact hne h.1.symm
  rw [List.filter_beq, hnd.count, if_pos ((mem_slots S C s).2 hs)]
  rfl

theorem branchLast_eq {t : Table} {S C : Nat} {s : Slot} (ht : t.Sorted) (hS : 2 ≤ S ∧ S ≤ 26)
    (hC : 2 ≤ C ∧ C ≤ 10) (hw : Within t S C) (hs : s.1 < S ∧ s.2 < C)
    (hopen : ∀ st < S, ∀ co < C, t.get? (st, co) = none ↔ (st, co) = s) :
    branchLast (t.show (some (S, C)))
      = some ((instrs S C).map fun i => (t.insert s i).show (some (S, C))) := by
  have hi : ∀ e ∈ t, e.2.1 < 10 ∧ e.2.2.2 < 68 := fun e he =>
    ⟨Nat.lt_of_lt_of_le (hw e he).2.1 hC.2,
      Nat.lt_of_lt_of_le (hw e he).2.2 (Nat.le_trans hS.2 (by decide))⟩
  have h1 := C27_compile_show t S C ht (by omega) (by omega) (fun e he => (hw e he).1) hi
  have h2 : parseRows (t.show (some (S, C))) = some (t.grid S C) := by
    have hg := grid_ok t S C (by omega) (by omega) (fun e he => instrOk_of_lt (hi e he).1 (hi e he).2)
    have := parseRows_render _ S C hg
    rwa [render_grid] at this
  have h3 : (t.grid S C).head? = some ((List.range C).map fun co => t.get? (0, co)) := by
    obtain ⟨S', rfl⟩ : ∃ S', S = S' + 1 := ⟨S - 1, by omega⟩
    simp [Table.grid, List.range_succ_eq_map]
  unfold branchLast
  rw [h1, Option.bind_some, h2, Option.bind_some, h3, Option.bind_some]
  have h4 : (t.grid S C).length = S := by simp [Table.grid]
  rw [h4, List.length_map, List.length_range, filter_open hs hopen]
  simp only [Option.some.injEq]
  refine List.map_congr_left fun i hi' => ?_
  have hi' := (mem_instrs S C i).1 hi'
  have hp : defaultParams (t.insert s i) = (S, C) := by
    refine defaultParams_eq hS.1 hC.1 (insert_within hw hs hi') ?_
    rw [Table.get?_insert _ _ _ _ ht]
    split
    · simp
    · rename_i hne
      intro hn
      exact hne ((hopen (S - 1) (by omega) (C - 1) (by omega)).1 hn)
  simp only [Table.show, Option.getD_none, Option.getD_some, hp]

/-- **C74.**  For a program with one open slot the branches are the texts of its completions. -/
theorem C74_branches (t : Table) (S C : Nat) (s : Slot) (ht : t.Sorted) (hS : 2 ≤ S ∧ S ≤ 26)
    (hC : 2 ≤ C ∧ C ≤ 10) (hw : Within t S C) (hs : s.1 < S ∧ s.2 < C)
    (hopen : ∀ st < S, ∀ co < C, t.get? (st, co) = none ↔ (st, co) = s) :
    ∃ l, branchLast (t.show (some (S, C))) = some l ∧ l.length = 2 * S * C ∧ l.Nodup ∧
      ∀ p, p ∈ l ↔ ∃ u, Completion S C t u ∧ p = u.show (some (S, C)) := by
  refine ⟨_, branchLast_eq ht hS hC hw hs hopen, by simp [instrs_length], ?_, ?_⟩
  · refine List.Nodup.map_on ?_ (instrs_nodup S C)
    intro i hi j hj h
    have key : ∀ i ∈ instrs S C, fromStr ((t.insert s i).show (some (S, C))) = some (t.insert s i) := by
      intro i hi
      have hw' := insert_within hw hs ((mem_instrs S C i).1 hi)
      exact C27_compile_show _ S C (ht.insert s i) (by omega) (by omega) (fun e he => (hw' e he).1)
        (fun e he => ⟨Nat.lt_of_lt_of_le (hw' e he).2.1 hC.2,
          Nat.lt_of_lt_of_le (hw' e he).2.2 (Nat.le_trans hS.2 (by decide))⟩)
    have h1 := key i hi
    rw [h, key j hj] at h1
    have h2 := Option.some.inj h1
    have h3 : (t.insert s j).get? s = (t.insert s i).get? s := by rw [h2]
    rw [Table.get?_insert _ _ _ _ ht, Table.get?_insert _ _ _ _ ht, if_pos rfl, if_pos rfl] at h3
    exact (Option.some.inj h3).symm
  · intro p
    rw [List.mem_map]
    have hns : t.get? s = none := (hopen s.1 hs.1 s.2 hs.2).2 rfl
    constructor
    · rintro ⟨i, hi, rfl⟩
      refine ⟨t.insert s i, ⟨ht.insert s i, insert_within hw hs ((mem_instrs S C i).1 hi), ?_, ?_⟩, rfl⟩
      · intro st hst co hco
        rw [Table.get?_insert _ _ _ _ ht]
        split
        · simp
        · rename_i hne
          exact fun hn => hne ((hopen st hst co hco).1 hn)
      · intro x i' hx
        rw [Table.get?_insert _ _ _ _ ht]
        split
        · rename_i he
          rw [he, hns] at hx
          cases hx
        · exact hx
    · rintro ⟨u, hu, rfl⟩
      cases hg : u.get? s with
      | none => exact absurd hg (hu.full s.1 hs.1 s.2 hs.2)
      | some i =>
        refine ⟨i, (mem_instrs S C i).2 (hu.within _ (Table.get?_mem hg)).2, ?_⟩
        have : t.insert s i = u := by
          refine Table.ext (ht.insert s i) hu.sorted ?_
          intro x
          rw [Table.get?_insert _ _ _ _ ht]
          split
          · rename_i he
            rw [he, hg]
          · rename_i hne
            cases hx : t.get? x with
            | some j => exact (hu.keeps x j hx).symm
            | none =>
              cases hx' : u.get? x with
              | none => rfl
              | some j =>
                have hb := (hu.within _ (Table.get?_mem hx')).1
                exact absurd ((hopen x.1 hb.1 x.2 hb.2).1 hx) hne
        rw [this]

/-- **C74, otherwise.**  If the number of open slots is not one, the assertion fails. -/
theorem C74_fails (t : Table) (S C : Nat) (ht : t.Sorted) (hS : 1 ≤ S ∧ S ≤ 26) (hC : 1 ≤ C ∧ C ≤ 10)
    (hw : Within t S C)
    (hopen : ¬ ∃ s : Slot, (s.1 < S ∧ s.2 < C) ∧
      ∀ st < S, ∀ co < C, t.get? (st, co) = none ↔ (st, co) = s) :
    branchLast (t.show (some (S, C))) = none := by
  have hi : ∀ e ∈ t, e.2.1 < 10 ∧ e.2.2.2 < 68 := fun e he =>
    ⟨Nat.lt_of_lt_of_le (hw e he).2.1 hC.2,
      Nat.lt_of_lt_of_le (hw e he).2.2 (Nat.le_trans hS.2 (by decide))⟩
  have h1 := C27_compile_show t S C ht hS.1 hC.1 (fun e he => (hw e he).1) hi
  have h2 : parseRows (t.show (some (S, C))) = some (t.grid S C) := by
    have hg := grid_ok t S C (by omega) (by omega) (fun e he => instrOk_of_lt (hi e he).1 (hi e he).2)
    have := parseRows_render _ S C hg
    rwa [render_grid] at this
  have h3 : (t.grid S C).head? = some ((List.range C).map fun co => t.get? (0, co)) := by
    obtain ⟨S', rfl⟩ : ∃ S', S = S' + 1 := ⟨S - 1, by omega⟩
    simp [Table.grid, List.range_succ_eq_map]
  have h4 : (t.grid S C).length = S := by simp [Table.grid]
  unfold branchLast
  rw [h1, Option.bind_some, h2, Option.bind_some, h3, Option.bind_some, h4, List.length_map,
    List.length_range]
  split
  · rename_i s hs
    have key : ∀ x, x ∈ [s] ↔ (x.1 < S ∧ x.2 < C) ∧ t.get? x = none := by
      intro x
      rw [← hs, List.mem_filter, mem_slots, Option.isNone_iff_eq_none]
    refine absurd ⟨s, ((key s).1 (List.mem_singleton.2 rfl)).1, ?_⟩ hopen
    intro st hst co hco
    exact ⟨fun h => List.mem_singleton.1 ((key (st, co)).2 ⟨⟨hst, hco⟩, h⟩),
      fun h => ((key (st, co)).1 (List.mem_singleton.2 h)).2⟩
  · rfl

/-- A program with one open slot: eight branches, and the first one. -/
theorem C74_example :
    (branchLast "1RB 1LA  0LA ...\n".toList).map List.length = some 8 ∧
    (branchLast "1RB 1LA  0LA ...\n".toList).bind List.head? = some "1RB 1LA  0LA 0RA".toList := by
  decide +kernel

/-- Without an open slot, or with two, the assertion fails. -/
theorem C74_assert :
    branchLast "1RB 1LA  0LA 1RB".toList = none ∧ branchLast "1RB ...  0LA ...".toList = none := by
  decide +kernel

end Branch
end BB
