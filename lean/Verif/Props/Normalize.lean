import Verif.Lemmas.InstrSeq
import Verif.Props.Parse

/-!
# C30, C31, C33, C42: the normaliser, `instr_seq`, `tree_norm`

Programs are given as tables inside `S` rows of `C` entries (`Norm.Dense`), which is what the
constructor makes of the text of such a program.
-/

namespace BB

/-! ## C30 -/

/-- **C30, `swap_states`.**  For any two states of the table the call succeeds, and the new program
runs in lock-step with the old one from every configuration, the two names exchanged. -/
theorem C30_swap_states (n : Norm) (S C a b : Nat) (h : n.Dense S C) (ha : a < S) (hb : b < S) :
    ∃ n', n.swapStates a b = some n' ∧ n'.Dense S C ∧
      (∀ k c, runFor n'.getitem k (c.rename (Norm.swapNat a b) id false)
        = (runFor n.getitem k c).map fun d => d.rename (Norm.swapNat a b) id false) ∧
      (a ≠ 0 → b ≠ 0 → ∀ k, (∃ s, HaltsAt n.getitem initCfg k s) ↔
        ∃ s, HaltsAt n'.getitem initCfg k s) := by
  obtain ⟨n', h1, h2, h3⟩ := h.swapStates ha hb
  refine ⟨n', h1, h2, fun k c => runFor_rename h3 k c, fun ha0 hb0 k => ?_⟩
  exact SameUpTo.halts ⟨_, _, _, Norm.swapNat_bijective a b, Function.bijective_id,
    Norm.swapNat_zero ha0 hb0, rfl, h3⟩ k

/-- **C30, `swap_colors`.** -/
theorem C30_swap_colors (n : Norm) (S C a b : Nat) (h : n.Dense S C) (ha : a < C) (hb : b < C) :
    ∃ n', n.swapColors a b = some n' ∧ n'.Dense S C ∧
      (∀ k c, runFor n'.getitem k (c.rename id (Norm.swapNat a b) false)
        = (runFor n.getitem k c).map fun d => d.rename id (Norm.swapNat a b) false) ∧
      (a ≠ 0 → b ≠ 0 → ∀ k, (∃ s, HaltsAt n.getitem initCfg k s) ↔
        ∃ s, HaltsAt n'.getitem initCfg k s) := by
  obtain ⟨n', h1, h2, h3⟩ := h.swapColors ha hb
  refine ⟨n', h1, h2, fun k c => runFor_rename h3 k c, fun ha0 hb0 k => ?_⟩
  exact SameUpTo.halts ⟨_, _, _, Function.bijective_id, Norm.swapNat_bijective a b, rfl,
    Norm.swapNat_zero ha0 hb0, h3⟩ k

/-- **C30, `normalize_directions`.**  With A0 defined the call succeeds; the first instruction then
moves right, and the program runs on the mirrored tape (or the same one) in lock-step. -/
theorem C30_directions (n : Norm) (S C : Nat) (h : n.Dense S C) (i : Instr)
    (hi : n.getitem (0, 0) = some i) :
    ∃ n' m, n.normalizeDirections = some n' ∧ n'.Dense S C ∧
      n'.getitem (0, 0) = some (i.1, true, i.2.2) ∧
      (∀ k c, runFor n'.getitem k (c.rename id id m)
        = (runFor n.getitem k c).map fun d => d.rename id id m) ∧
      (∀ k s, HaltsAt n.getitem initCfg k s ↔ HaltsAt n'.getitem initCfg k s) := by
  obtain ⟨n', h1, h2, h3⟩ := h.directions hi
  refine ⟨n', !i.2.1, h1, h2, ?_, fun k c => runFor_rename h3 k c, fun k s => ?_⟩
  · have := h3 0 0
    rw [hi] at this
    simp only [id, Option.map_some] at this
    rw [this]
    cases i.2.1 <;> rfl
  · have hh := h3.halts rfl rfl k
    constructor
    · exact fun hs => hh.1 s.1 s.2 hs
    · intro hs
      obtain ⟨s', hs'⟩ := hh.2 ⟨s, hs⟩
      have := hh.1 s'.1 s'.2 hs'
      have := (this.unique hs).2
      simp only [id] at this
      rw [← this]
      exact hs'

/-- What the renamed instructions are: `swap_states` exchanges the rows and the targets, nothing
else. -/
theorem C30_swap_states_table (n n' : Norm) (S C a b : Nat) (h : n.Dense S C) (ha : a < S)
    (hb : b < S) (hs : n.swapStates a b = some n') (s c : Nat) :
    n'.getitem (Norm.swapNat a b s, c)
      = (n.getitem (s, c)).map fun i => (i.1, i.2.1, Norm.swapNat a b i.2.2) := by
  obtain ⟨m, h1, -, h3⟩ := h.swapStates ha hb
  rw [hs] at h1
  cases h1
  simpa using h3 s c

/-- The text of a rectangular program makes a dense table. -/
theorem C30_dense (rows : List (List (Option Instr))) (C : Nat)
    (hC : ∀ row ∈ rows, row.length = C) : (Norm.ofRows rows).Dense rows.length C :=
  Norm.dense_ofRows rows _ C rfl hC

/-! ## C31 -/

/-- **C31, the part that holds.**  When nothing in the program is unused — every state but the
first is the target of an instruction, every state and colour has an instruction, A0 prints a mark
— `normalize` returns the text of a program that is the original up to names (start state and blank
keep theirs) and up to mirroring; in particular it halts when, and after as many steps as, the
original does. -/
theorem C31_normalize_partial (t : Table) (S C : Nat) (hS : 1 ≤ S) (hC : 1 ≤ C)
    (hS' : S ≤ 68) (hC' : C ≤ 10) (hin : ∀ e ∈ t, e.1.1 < S ∧ e.1.2 < C)
    (hi : ∀ e ∈ t, e.2.1 < 10 ∧ e.2.2.2 < 68) (hu : Used t.get? S C) :
    ∃ s' t', normalizeStr (t.show (some (S, C))) = some s' ∧ fromStr s' = some t' ∧
      SameUpTo t.get? t'.get? ∧
      ∀ k, (∃ s, HaltsAt t.get? initCfg k s) ↔ ∃ s, HaltsAt t'.get? initCfg k s := by
  let rows := (List.range S).map fun st => (List.range C).map fun co => t.get? (st, co)
  let n := Norm.ofRows rows
  have hd : n.Dense S C := by
    apply Norm.dense_ofRows
    · simp [rows]
    · intro row hrow
      obtain ⟨s, -, rfl⟩ := List.mem_map.1 hrow
      simp
  have hget : n.getitem = t.get? := by
    funext ⟨s, c⟩
    by_cases hr : s < S ∧ c < C
    · simp only [n, rows, Norm.getitem_ofRows, gridGet, List.getElem?_map,
        List.getElem?_range hr.1, Option.map_some, Option.bind_some, List.getElem?_range hr.2,
        Option.join_some]
    · rw [hd.getitem_none hr]
      symm
      rw [Table.get?_eq_none]
      rintro e he heq
      have := hin e he
      rw [heq] at this
      exact hr this
  have hgood : n.Good S C := ⟨hd, by rw [hget]; exact hu⟩
  obtain ⟨n', h1, h2, h3, h4⟩ := Norm.normalize_spec (by omega) (by omega) hgood
  have hbelow : Below n'.getitem 10 68 := h4 10 68 hC' hS' (by
    rw [hget]
    intro s i hs
    exact hi _ (Table.get?_mem hs))
  have hg : GridOk n'.toRows S C := by
    refine ⟨h2.dense.toRows_length.1, h2.dense.toRows_length.2, hS, hC, ?_⟩
    intro row hrow i hi'
    obtain ⟨e, he, rfl⟩ := List.mem_map.1 hrow
    obtain ⟨f, hf, hfi⟩ := List.mem_map.1 hi'
    have : ((e.1, f.1), i) ∈ n'.usedInstrSlots := by
      simp only [Norm.usedInstrSlots, List.mem_flatMap, List.mem_filterMap]
      exact ⟨e, he, f, hf, by rw [hfi]; rfl⟩
    have := hbelow _ _ ((h2.dense.mem_used _ _).1 this)
    exact instrOk_of_lt this.1 this.2
  have hfs : fromStr n'.repr = some (gridEntries 0 n'.toRows) := by
    rw [Norm.repr_eq]
    simp only [fromStr]
    rw [trimWs_render _ S C hg, parseRows_render _ S C hg, Option.map_some,
      Table.collect_sorted _ (gridEntries_sorted _ _)]
  have hget' : Table.get? (gridEntries 0 n'.toRows) = n'.getitem := by
    funext ⟨s, c⟩
    rw [get?_gridEntries, ← Norm.getitem_ofRows, h2.dense.ofRows_toRows]
  refine ⟨n'.repr, gridEntries 0 n'.toRows, ?_, hfs, ?_, fun k => ?_⟩
  · simp only [normalizeStr]
    rw [C27_python_rows t S C hS hC hi, Option.bind_some, h1]
    rfl
  · rw [hget', ← hget]
    exact h3
  · rw [hget', ← hget]
    exact h3.halts k

/-- The hypothesis is met by "1RB 1LB  1LA 1RC  1RA 1RC". -/
theorem C31_example : Used (Table.get? [((0, 0), (1, true, 1)), ((0, 1), (1, false, 1)),
    ((1, 0), (1, false, 0)), ((1, 1), (1, true, 2)), ((2, 0), (1, true, 0)),
    ((2, 1), (1, true, 2))]) 3 2 where
  target := by
    intro s hs h0
    have : s = 1 ∨ s = 2 := by omega
    rcases this with rfl | rfl
    · exact ⟨(0, 0), (1, true, 1), rfl, rfl⟩
    · exact ⟨(1, 1), (1, true, 2), rfl, rfl⟩
  rows := by
    intro s hs
    have : s = 0 ∨ s = 1 ∨ s = 2 := by omega
    rcases this with rfl | rfl | rfl <;> exact ⟨0, by omega, rfl⟩
  cols := by
    intro c hc
    have : c = 0 ∨ c = 1 := by omega
    rcases this with rfl | rfl <;> exact ⟨0, by omega, rfl⟩
  start := ⟨_, rfl, by decide⟩

/-- **C31 fails: rows without instructions are cut.**  The program halts after one step, the
normalised one after three: row C moves up and takes the place of row B. -/
theorem C31_violation_cut :
    ∃ t t' : Table, fromStr "1RB 1RC  ... ...  1LA 1RB".toList = some t ∧
      normalizeStr "1RB 1RC  ... ...  1LA 1RB".toList = some "1RB 1RC  1LA 1RB".toList ∧
      fromStr "1RB 1RC  1LA 1RB".toList = some t' ∧
      HaltsAt t.get? initCfg 1 (1, 0) ∧ HaltsAt t'.get? initCfg 3 (2, 1) ∧
      ¬ ∃ s, HaltsAt t'.get? initCfg 1 s := by
  have h3 : HaltsAt (Table.get? [((0, 0), (1, true, 1)), ((0, 1), (1, true, 2)),
      ((1, 0), (1, false, 0)), ((1, 1), (1, true, 1))]) initCfg 3 (2, 1) := ⟨_, rfl, rfl, rfl⟩
  refine ⟨[((0, 0), (1, true, 1)), ((0, 1), (1, true, 2)), ((2, 0), (1, false, 0)),
    ((2, 1), (1, true, 1))], [((0, 0), (1, true, 1)), ((0, 1), (1, true, 2)),
    ((1, 0), (1, false, 0)), ((1, 1), (1, true, 1))], by decide +kernel, by decide +kernel,
    by decide +kernel, ⟨_, rfl, rfl, rfl⟩, h3, ?_⟩
  rintro ⟨s, hs⟩
  have := (h3.unique hs).1
  omega

/-- **C31 fails: `cinch` moves the start state.**  The program halts after three steps, the
normalised one after two. -/
theorem C31_violation_cinch :
    ∃ t t' : Table, fromStr "0RB 1LB  1LA ...".toList = some t ∧
      normalizeStr "0RB 1LB  1LA ...".toList = some "1RB ...  0LA 1RA".toList ∧
      fromStr "1RB ...  0LA 1RA".toList = some t' ∧
      HaltsAt t.get? initCfg 3 (1, 1) ∧ HaltsAt t'.get? initCfg 2 (0, 1) ∧
      ¬ ∃ s, HaltsAt t'.get? initCfg 3 s := by
  have h2 : HaltsAt (Table.get? [((0, 0), (1, true, 1)), ((1, 0), (0, false, 0)),
      ((1, 1), (1, true, 0))]) initCfg 2 (0, 1) := ⟨_, rfl, rfl, rfl⟩
  refine ⟨[((0, 0), (0, true, 1)), ((0, 1), (1, false, 1)), ((1, 0), (1, false, 0))],
    [((0, 0), (1, true, 1)), ((1, 0), (0, false, 0)), ((1, 1), (1, true, 0))],
    by decide +kernel, by decide +kernel, by decide +kernel, ⟨_, rfl, rfl, rfl⟩, h2, ?_⟩
  rintro ⟨s, hs⟩
  have := (h2.unique hs).1
  omega

/-- **C31 fails: an undefined A0 raises** (`normalize_directions` unpacks `None`). -/
theorem C31_raises : normalizeStr "... 1RB  0LA 0LB".toList = none := by decide +kernel

/-! ## C33 -/

/-- The program with the single instruction A0 = 1RB. -/
def onlyA0 : Prog := fun s => if s = (0, 0) then some (1, true, 1) else none

/-- **C33.**  For a program of `S` rows and `C` columns with A0 = 1RB, `instr_seq` returns; its
first program is A0 = 1RB alone; each of its programs is part of the given one, and stops from
blank tape at the given step in the given slot; each program is the one before plus the
instruction the given program has for the slot before. -/
theorem C33_instr_seq (lim : Nat) (program : Norm) (S C : Nat) (hd : program.Dense S C)
    (hS : 0 < S) (hC : 0 < C) (h0 : program.getitem (0, 0) = some (1, true, 1)) :
    ∃ l, instrSeq lim program = some l ∧
      (∀ e, l[0]? = some e → e.1.getitem = onlyA0) ∧
      (∀ e ∈ l, SubProg e.1.getitem program.getitem ∧
        HaltsAt e.1.getitem initCfg e.2.1 e.2.2) ∧
      (∀ j a b, l[j]? = some a → l[j + 1]? = some b →
        ∃ i, program.getitem a.2.2 = some i ∧ b.1.getitem = Prog.with a.1.getitem a.2.2 i) := by
  have hinit : (Norm.init S C).getitem = onlyA0 := by
    funext s
    exact Norm.getitem_init hS hC s
  have hr := instrSeqLoop_spec (lim := lim) hd (S * C - 1) (Norm.init S C) (Norm.dense_init S C)
  refine ⟨instrSeqLoop lim program (S * C - 1) (Norm.init S C), ?_, ?_, ?_, ?_⟩
  · simp [instrSeq, hd.numColors hS, hd.numStates]
  · intro e he
    rw [hinit] at hr
    cases hl : instrSeqLoop lim program (S * C - 1) (Norm.init S C) with
    | nil => rw [hl] at he; simp at he
    | cons f rest =>
      rw [hl] at he hr
      simp only [List.getElem?_cons_zero, Option.some.injEq] at he
      subst he
      exact hr.1
  · intro e he
    obtain ⟨h1, -, h3⟩ := hr.head (by
      rw [hinit]
      intro s i hs
      simp only [onlyA0] at hs
      split at hs
      · cases hs
        subst_vars
        exact h0
      · cases hs) (e.1.getitem, e.2) (List.mem_map.2 ⟨e, he, rfl⟩)
    exact ⟨h1, h3⟩
  · intro j a b ha hb
    have := hr.next j (a.1.getitem, a.2) (b.1.getitem, b.2) (by simp [ha]) (by simp [hb])
    exact this

/-- **C33, what the numbers are.**  The step of an entry is the one at which the given program
itself comes to that slot, and no earlier moment of its run is in that slot. -/
theorem C33_first_use (lim : Nat) (program : Norm) (S C : Nat) (hd : program.Dense S C)
    (hS : 0 < S) (hC : 0 < C) (h0 : program.getitem (0, 0) = some (1, true, 1))
    (l : List (Norm × Nat × Slot)) (hl : instrSeq lim program = some l)
    (e : Norm × Nat × Slot) (he : e ∈ l) :
    (∃ d, runFor program.getitem e.2.1 initCfg = some d ∧ d.slot = e.2.2) ∧
    ∀ m d, m < e.2.1 → runFor program.getitem m initCfg = some d → d.slot ≠ e.2.2 := by
  obtain ⟨l', h1, -, h2, -⟩ := C33_instr_seq lim program S C hd hS hC h0
  rw [hl] at h1
  cases h1
  obtain ⟨hsub, c, hc1, hc2, hc3⟩ := h2 e he
  refine ⟨⟨c, runFor_sub hsub _ _ _ hc1, hc2⟩, ?_⟩
  intro m d hm hd' hslot
  obtain ⟨d', hd''⟩ := Option.isSome_iff_exists.1
    (runFor_isSome_of_le (show m + 1 ≤ e.2.1 by omega) (by rw [hc1]; rfl))
  rw [runFor_succ'] at hd''
  cases hr : runFor e.1.getitem m initCfg with
  | none => rw [hr] at hd''; simp at hd''
  | some f =>
    rw [hr] at hd''
    have := runFor_sub hsub _ _ _ hr
    rw [hd'] at this
    cases this
    simp only [Option.bind_some, step] at hd''
    rw [hslot, hc3] at hd''
    simp at hd''

/-- **C33, when the list ends.**  It ends with a slot the given program has no instruction for, or
when all slots but one are filled in, or when the program so far does not stop (within the limit).
-/
theorem C33_end (lim : Nat) (program : Norm) (S C : Nat) (hd : program.Dense S C)
    (hS : 0 < S) :
    ∃ l, instrSeq lim program = some l ∧
      Replays lim program.getitem (S * C - 1) (Norm.init S C).getitem
        (l.map fun e => (e.1.getitem, e.2)) :=
  ⟨instrSeqLoop lim program (S * C - 1) (Norm.init S C),
    by simp [instrSeq, hd.numColors hS, hd.numStates],
    instrSeqLoop_spec hd _ _ (Norm.dense_init S C)⟩

/-- The two-state champion: three instructions are filled in, at steps 1, 2 and 5. -/
theorem C33_example :
    (instrSeq 1000 (Norm.ofRows [[some (1, true, 1), some (1, false, 1)],
      [some (1, false, 0), none]])).map (·.map (·.2))
      = some [(1, (1, 0)), (2, (0, 1)), (5, (1, 1))] := by decide +kernel

/-! ## C42 -/

/-- **C42.**  Whenever `tree_norm` returns, its result is the given program up to names of states
and colours, with start state and blank keeping theirs: it halts exactly when, and after as many
steps as, the given one. -/
theorem C42_tree_norm (n n' : Norm) (S C : Nat) (h : n.Dense S C) (hS : 0 < S)
    (hr : treeNorm n = some n') :
    n'.Dense S C ∧ SameUpTo n.getitem n'.getitem ∧
      ∀ k, (∃ s, HaltsAt n.getitem initCfg k s) ↔ ∃ s, HaltsAt n'.getitem initCfg k s := by
  obtain ⟨h1, h2⟩ := Norm.treeNormLoop_spec hS 1000 n n' 0 Tape.init 1 1 h (by omega) (by omega) hr
  exact ⟨h1, h2, fun k => h2.halts k⟩

/-- `tree_norm` at work: states B and C are exchanged. -/
theorem C42_example :
    (treeNorm (Norm.ofRows [[some (1, true, 2), some (1, false, 2)],
      [some (1, false, 0), some (1, true, 1)], [some (1, false, 1), some (0, true, 0)]])).map
        Norm.repr
      = some "1RB 1LB  1LC 0RA  1LA 1RC".toList := by decide +kernel

end BB
