import Verif.Lemmas.Expand
import Verif.Props.Parse

/-!
# C70: the compact notation
-/

namespace BB
namespace Expand

/-- How a slot without instruction may be written: three dashes, or a move to the state `Z`. -/
def Halting (e : List Char) : Prop :=
  e = ['-', '-', '-'] ∨
  ∃ d s, e = [d, s, 'Z'] ∧ (48 ≤ d.toNat ∧ d.toNat ≤ 57) ∧ (s = 'L' ∨ s = 'R')

/-- The compact notation of a program: rows separated by underscores, entries of three characters
next to each other, `halt` at the slots without instruction. -/
def compact (t : Table) (S C : Nat) (halt : Slot → List Char) : List Char :=
  joinWith ['_'] ((List.range S).map fun st =>
    ((List.range C).map fun co =>
      match t.get? (st, co) with
      | some i => [Char.ofNat (48 + i.1), if i.2.1 then 'R' else 'L', Char.ofNat (65 + i.2.2)]
      | none => halt (st, co)).flatten)

theorem halting_entry {e : List Char} (h : Halting e) :
    CompactEntry e ∧ entry e = ['.', '.', '.'] := by
  rcases h with rfl | ⟨d, s, rfl, hd, hs⟩
  · exact ⟨⟨rfl, by decide⟩, by decide⟩
  · refine ⟨⟨rfl, ?_⟩, ?_⟩
    · intro c hc
      simp only [List.mem_cons, List.not_mem_nil, or_false] at hc
      rcases hc with rfl | rfl | rfl
      · have hk : ∀ n, 48 ≤ n → n ≤ 57 → pySpace (Char.ofNat n) = false ∧ Char.ofNat n ≠ '_' := by
          intro n h1 h2
          have : ∀ m < 10, pySpace (Char.ofNat (48 + m)) = false ∧ Char.ofNat (48 + m) ≠ '_' := by
            decide
          obtain ⟨m, rfl⟩ := Nat.exists_eq_add_of_le h1
          exact this m (by omega)
        have := hk c.toNat hd.1 hd.2
        rwa [Char.ofNat_toNat] at this
      · rcases hs with rfl | rfl <;> decide
      · decide
    · simp [entry]

theorem defined_entry {i : Instr} (h1 : i.1 < 10) (h2 : i.2.2 < 25) :
    CompactEntry [Char.ofNat (48 + i.1), if i.2.1 then 'R' else 'L', Char.ofNat (65 + i.2.2)] ∧
    entry [Char.ofNat (48 + i.1), if i.2.1 then 'R' else 'L', Char.ofNat (65 + i.2.2)]
      = showInstr (some i) := by
  have hd : ∀ n < 10, (pySpace (Char.ofNat (48 + n)) = false ∧ Char.ofNat (48 + n) ≠ '_') ∧
      Char.ofNat (48 + n) ≠ 'Z' ∧ Char.ofNat (48 + n) ≠ '-' := by decide
  have hs : ∀ n < 25, (pySpace (Char.ofNat (65 + n)) = false ∧ Char.ofNat (65 + n) ≠ '_') ∧
      (Char.ofNat (65 + n) ≠ 'Z' ∧ Char.ofNat (65 + n) ≠ '-') ∧
      Char.ofNat (65 + n) = showState n := by decide
  have a := hd _ h1
  have b := hs _ h2
  have hj : ∀ sh : Bool, (pySpace (if sh then 'R' else 'L') = false ∧ (if sh then 'R' else 'L') ≠ '_') ∧
      (if sh then 'R' else 'L') ≠ 'Z' ∧ (if sh then 'R' else 'L') ≠ '-' := by decide
  have c := hj i.2.1
  refine ⟨⟨rfl, ?_⟩, ?_⟩
  · intro x hx
    simp only [List.mem_cons, List.not_mem_nil, or_false] at hx
    rcases hx with rfl | rfl | rfl
    · exact a.1
    · exact c.1
    · exact b.1
  · rw [showInstr_some i (instrOk_of_lt h1 (Nat.lt_trans h2 (by decide))), ← b.2.2]
    unfold entry
    rw [if_neg]
    simp only [Bool.or_eq_true, List.contains_iff_mem, List.mem_cons, List.not_mem_nil, or_false,
      not_or]
    exact ⟨⟨a.2.1.symm, c.2.1.symm, b.2.1.1.symm⟩, ⟨a.2.2.symm, c.2.2.symm, b.2.1.2.symm⟩⟩

/-- **C70.**  The compact notation of a program with at most 25 states, with a line end or other
space but blanks after it, is turned into the project's notation of the same program. -/
theorem C70_expand_partial (t : Table) (S C : Nat) (halt : Slot → List Char) (w : List Char)
    (hS : 1 ≤ S) (hi : ∀ e ∈ t, e.2.1 < 10 ∧ e.2.2.2 < 25) (hh : ∀ s, Halting (halt s))
    (hw : ∀ c ∈ w, pySpace c = true ∧ c ≠ ' ') :
    expand (compact t S C halt ++ w) = some (t.show (some (S, C))) := by
  have key : ∀ st co, CompactEntry
      (match t.get? (st, co) with
      | some i => [Char.ofNat (48 + i.1), if i.2.1 then 'R' else 'L', Char.ofNat (65 + i.2.2)]
      | none => halt (st, co)) ∧
      entry (match t.get? (st, co) with
      | some i => [Char.ofNat (48 + i.1), if i.2.1 then 'R' else 'L', Char.ofNat (65 + i.2.2)]
      | none => halt (st, co)) = showInstr (t.get? (st, co)) := by
    intro st co
    cases hg : t.get? (st, co) with
    | none => exact halting_entry (hh _)
    | some i =>
      have := hi _ (Table.get?_mem hg)
      exact defined_entry this.1 this.2
  have h := expand_rows ((List.range S).map fun st => (List.range C).map fun co =>
      match t.get? (st, co) with
      | some i => [Char.ofNat (48 + i.1), if i.2.1 then 'R' else 'L', Char.ofNat (65 + i.2.2)]
      | none => halt (st, co)) w
    (by simp; omega)
    (by
      intro row hrow e he
      obtain ⟨st, -, rfl⟩ := List.mem_map.1 hrow
      obtain ⟨co, -, rfl⟩ := List.mem_map.1 he
      exact (key st co).1) hw
  rw [List.map_map, List.map_map] at h
  unfold compact
  refine Eq.trans h ?_
  simp only [Table.show, Option.getD_some, Option.some.injEq]
  congr 1
  refine List.map_congr_left fun st _ => ?_
  simp only [Function.comp, List.map_map]
  congr 1
  exact List.map_congr_left fun co _ => (key st co).2

/-- **C70, the machine.**  What `tcompile` reads from the result is the program. -/
theorem C70_machine_partial (t : Table) (S C : Nat) (halt : Slot → List Char) (w : List Char)
    (ht : t.Sorted) (hS : 1 ≤ S) (hC : 1 ≤ C) (hin : ∀ e ∈ t, e.1.1 < S ∧ e.1.2 < C)
    (hi : ∀ e ∈ t, e.2.1 < 10 ∧ e.2.2.2 < 25) (hh : ∀ s, Halting (halt s))
    (hw : ∀ c ∈ w, pySpace c = true ∧ c ≠ ' ') :
    (expand (compact t S C halt ++ w)).bind fromStr = some t := by
  rw [C70_expand_partial t S C halt w hS hi hh hw]
  exact C27_compile_show t S C ht hS hC hin
    (fun e he => ⟨(hi e he).1, Nat.lt_trans (hi e he).2 (by decide)⟩)

/-- Two programs of `/repo/test/prog_data.py` `EXPAND`, the first with a line end. -/
theorem C70_example :
    expand "1RB2RA1LC_2LC1RB2RB_---2LA1LA\n".toList
      = some "1RB 2RA 1LC  2LC 1RB 2RB  ... 2LA 1LA".toList ∧
    expand "1RB3LB1RZ2RA_2LC3RB1LC2RA_3RB1LB3LC2RC".toList
      = some "1RB 3LB ... 2RA  2LC 3RB 1LC 2RA  3RB 1LB 3LC 2RC".toList := by decide +kernel

/-- A program of 26 states in which every state goes to the next. -/
def ring26 : Table := (List.range 26).map fun s => ((s, 0), (1, true, (s + 1) % 26))

/-- A text that is not of the compact notation: a rest of a row is kept. -/
theorem C70_rest : expand "1RB0L_1RA".toList = some "1RB 0L  1RA".toList := by decide +kernel

/-- **C70, not for 26 states.**  A move to the 26th state is taken for a halt: the program read is
another one. -/
theorem C70_z_violation :
    (expand (compact ring26 26 1 fun _ => ['-', '-', '-'])).bind fromStr
      = some (ring26.filter fun e => e.1.1 ≠ 24) ∧
    ring26.filter (fun e => e.1.1 ≠ 24) ≠ ring26 := by decide +kernel

end Expand
end BB
