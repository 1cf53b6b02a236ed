import Verif.Lemmas.Parse

/-!
# C27: parse / show round trips
-/

namespace BB

theorem instrOk_of_lt {i : Instr} (h1 : i.1 < 10) (h2 : i.2.2 < 68) : InstrOk i := by
  have h : ∀ s < 68, isWs (showState s) = false ∧ showState s ≠ '.' := by decide +kernel
  exact ⟨h1, Nat.lt_trans h2 (by decide), (h _ h2).1, (h _ h2).2⟩

/-- **C27, program to text to program.**  A table (as a `BTreeMap` is one) with slots inside
`S` states and `C` colours, printing at most colour 9 and going at most to state 67, is what
`tcompile` reads from the text shown for it. -/
theorem C27_compile_show (t : Table) (S C : Nat) (ht : t.Sorted) (hS : 1 ≤ S) (hC : 1 ≤ C)
    (hin : ∀ e ∈ t, e.1.1 < S ∧ e.1.2 < C) (hi : ∀ e ∈ t, e.2.1 < 10 ∧ e.2.2.2 < 68) :
    fromStr (t.show (some (S, C))) = some t := by
  have hg := grid_ok t S C hS hC (fun e he => instrOk_of_lt (hi e he).1 (hi e he).2)
  rw [← render_grid]
  simp only [fromStr]
  rw [trimWs_render _ S C hg, parseRows_render _ S C hg, Option.map_some,
    Table.collect_sorted _ (gridEntries_sorted _ _), grid_entries t S C ht hin]

/-- **C27, with the parameters left out.** -/
theorem C27_compile_show_default (t : Table) (ht : t.Sorted)
    (hi : ∀ e ∈ t, e.2.1 < 10 ∧ e.2.2.2 < 68) :
    fromStr (t.show none) = some t := by
  obtain ⟨h1, h2, h3⟩ := defaultParams_bound t
  have : t.show none = t.show (some ((defaultParams t).1, (defaultParams t).2)) := rfl
  rw [this]
  exact C27_compile_show t _ _ ht (by omega) (by omega) h3 hi

/-- An entry of a well-formed program text. -/
def EntryOk (e : List Char) : Prop :=
  e = ['.', '.', '.'] ∨
  ∃ d s q, e = [d, s, q] ∧ (48 ≤ d.toNat ∧ d.toNat ≤ 57) ∧ (s = 'L' ∨ s = 'R') ∧
    (65 ≤ q.toNat ∧ q.toNat ≤ 90)

/-- What a well-formed entry says. -/
def entryMeaning (e : List Char) : Option Instr :=
  match e with
  | [d, s, q] => if d = '.' then none else some (d.toNat - 48, s == 'R', q.toNat - 65)
  | _ => none

/-- Rows separated by two spaces, entries by one. -/
def layout (rows : List (List (List Char))) : List Char :=
  joinWith [' ', ' '] (rows.map (joinWith [' ']))

theorem char_ofNat_toNat (c : Char) : Char.ofNat c.toNat = c := Char.ofNat_toNat c

theorem entry_show (e : List Char) (h : EntryOk e) :
    showInstr (entryMeaning e) = e ∧ ∀ i, entryMeaning e = some i → InstrOk i := by
  rcases h with rfl | ⟨d, s, q, rfl, hd, hs, hq⟩
  · exact ⟨by decide, by intro i hi; simp [entryMeaning] at hi⟩
  · have hdot : d ≠ '.' := by
      rintro rfl
      exact absurd hd.1 (by decide)
    have hok : InstrOk (d.toNat - 48, s == 'R', q.toNat - 65) := by
      refine instrOk_of_lt ?_ ?_
      · show d.toNat - 48 < 10
        omega
      · show q.toNat - 65 < 68
        omega
    simp only [entryMeaning, hdot, if_false]
    refine ⟨?_, fun i hi => (Option.some.inj hi) ▸ hok⟩
    rw [showInstr_some _ hok]
    have e1 : Char.ofNat (48 + (d.toNat - 48)) = d := by
      have : 48 + (d.toNat - 48) = d.toNat := by omega
      rw [this, char_ofNat_toNat]
    have e2 : showState (q.toNat - 65) = q := by
      have : ((q.toNat - 65) % 256 + 65) % 256 = q.toNat := by omega
      simp only [showState]
      rw [this, char_ofNat_toNat]
    have e3 : (if (s == 'R') = true then 'R' else 'L') = s := by
      rcases hs with rfl | rfl <;> decide
    simp only [e1, e2, e3]

/-- **C27, text to program to text.**  `tcompile` reads a well-formed text of `S` rows of `C`
entries without panicking, each slot gets what its entry says, and showing the result gives the
text back. -/
theorem C27_show_compile (rows : List (List (List Char))) (S C : Nat) (hS : 1 ≤ S) (hC : 1 ≤ C)
    (hr : rows.length = S) (hc : ∀ row ∈ rows, row.length = C)
    (he : ∀ row ∈ rows, ∀ e ∈ row, EntryOk e) :
    ∃ t : Table, fromStr (layout rows) = some t ∧
      (∀ (st co : Nat) (hst : st < rows.length) (hco : co < rows[st].length),
        t.get? (st, co) = entryMeaning (rows[st][co])) ∧
      t.show (some (S, C)) = layout rows := by
  let g := rows.map fun row => row.map entryMeaning
  have hg : GridOk g S C := by
    refine ⟨by simp [g, hr], ?_, hS, hC, ?_⟩
    · intro row hrow
      obtain ⟨r, hr', rfl⟩ := List.mem_map.1 hrow
      simpa using hc r hr'
    · intro row hrow i hi
      obtain ⟨r, hr', rfl⟩ := List.mem_map.1 hrow
      obtain ⟨e, he', h⟩ := List.mem_map.1 hi
      exact (entry_show e (he r hr' e he')).2 i h
  have hrender : renderGrid g = layout rows := by
    simp only [renderGrid, layout, g, List.map_map]
    congr 1
    apply List.map_congr_left
    intro row hrow
    simp only [Function.comp_def, List.map_map]
    congr 1
    conv => rhs; rw [← List.map_id row]
    apply List.map_congr_left
    intro e he'
    exact (entry_show e (he row hrow e he')).1
  refine ⟨gridEntries 0 g, ?_, ?_, ?_⟩
  · rw [← hrender]
    simp only [fromStr]
    rw [trimWs_render _ S C hg, parseRows_render _ S C hg, Option.map_some,
      Table.collect_sorted _ (gridEntries_sorted _ _)]
  · intro st co hst hco
    rw [get?_gridEntries, gridGet_eq g st co (by simpa [g] using hst) (by simpa [g] using hco)]
    simp [g]
  · rw [← hrender, show_gridEntries g S C hg]

/-- **C27, the Python reader** (`tools.parse`, used by the graph, normaliser and C tools) reads
from a shown program exactly the grid of its instructions. -/
theorem C27_python_rows (t : Table) (S C : Nat) (hS : 1 ≤ S) (hC : 1 ≤ C)
    (hi : ∀ e ∈ t, e.2.1 < 10 ∧ e.2.2.2 < 68) :
    parseRows (t.show (some (S, C))) =
      some ((List.range S).map fun st => (List.range C).map fun co => t.get? (st, co)) := by
  have hg := grid_ok t S C hS hC (fun e he => instrOk_of_lt (hi e he).1 (hi e he).2)
  rw [← render_grid, parseRows_render _ S C hg]
  rfl

/-- **C27, slots.** -/
theorem C27_slot (s : Slot) (h1 : s.1 < 256) (h2 : s.2 < 10) : readSlot (showSlot s) = some s := by
  obtain ⟨st, co⟩ := s
  simp only [showSlot]
  rw [toDigits_lt_ten co h2]
  simp only [readSlot, readColor_digit co h2, Option.map_some]
  rw [readState_showState st h1]

/-- **The bounds of C27 are the right ones: colours.**  Colour 10 is shown with two characters
and read back as colour 1, left, state 17. -/
theorem C27_color_limit :
    fromStr (Table.show [((0, 0), (10, true, 1))] (some (1, 1)))
      = some [((0, 0), (1, false, 17))] := by
  decide +kernel

/-- **The bounds of C27 are the right ones: states.**  State 68 is shown as U+0085, which `trim`
removes at the end of the text; reading the rest panics. -/
theorem C27_state_limit :
    fromStr (Table.show [((0, 0), (1, true, 68))] (some (1, 1))) = none := by
  decide +kernel

/-- A concrete case: text to program and back. -/
example : fromStr "1RB 1LB  1LA ...".toList
    = some [((0, 0), (1, true, 1)), ((0, 1), (1, false, 1)), ((1, 0), (1, false, 0))] := by
  decide +kernel

example : (fromStr "1RB 1LB  1LA ...".toList).map (fun t => t.show (some (2, 2)))
    = some "1RB 1LB  1LA ...".toList := by
  decide +kernel

end BB
