import Verif.Lemmas.Dot
import Verif.Props.Parse

/-!
# C69: graph drawings

The text that `make_dot` gives, read by the DOT reader of `Spec/Dot.lean`.
-/

namespace BB
namespace Dot

/-- The name of a state. -/
def letter (s : State) : Char := Char.ofNat (65 + s)

/-- The colours of the arrows. -/
def paint : Nat → String
  | 0 => "blue"
  | 1 => "red"
  | 2 => "forestgreen"
  | 3 => "purple"
  | 4 => "goldenrod"
  | 5 => "black"
  | 6 => "brown"
  | 7 => "deeppink"
  | _ => ""

/-- An arrow of the drawing, for the instruction at a slot. -/
def arrow (s : Slot) (i : Instr) : Stmt :=
  .edge [letter s.1] [letter i.2.2] "color".toList (' ' :: (paint s.2).toList)

/-- The title of the drawing. -/
def title (prog : List Char) : List Stmt :=
  if prog.length < 50 then
    [.attr "labelloc".toList "t".toList, .attr "label".toList prog,
      .attr "fontname".toList "courier".toList]
  else []

/-- A state whose name may stand in a DOT text: a letter, or the underscore of `1R_`. -/
def Named (s : State) : Prop := s < 26 ∨ s = 30

theorem named_id {s : State} (h : Named s) :
    isIdChar (showState s) = true ∧ showState s = letter s := by
  have h1 : ∀ s < 26, isIdChar (showState s) = true ∧ showState s = letter s := by decide
  rcases h with h | rfl
  · exact h1 s h
  · decide

theorem paint_eq {c : Nat} (h : c < 8) : (COLORS[c]?).getD [] = (paint c).toList := by
  have h1 : ∀ c < 8, (COLORS[c]?).getD [] = (paint c).toList := by decide
  exact h1 c h

/-- **C69, any text.**  If the program has an instruction only in the first eight columns, and its
states have names, the drawing is a DOT text with the title and one arrow for every instruction, in
the order of the slots; the text may end in a newline, as it does in `dump_graphs.py`. -/
theorem C69_text_partial (prog : List Char) (rows : List (List (Option Instr)))
    (hp : parseRows prog = some rows) (h1 : '"' ∉ prog) (h2 : '\\' ∉ prog)
    (hc : ∀ e ∈ gridEntries 0 rows, e.1.2 < 8)
    (hn : ∀ e ∈ gridEntries 0 rows, e.1.1 < 26 ∧ Named e.2.2.2) :
    ∃ text, makeDot prog = some text ∧
      read text = some (title prog ++ (gridEntries 0 rows).map fun e => arrow e.1 e.2) := by
  obtain ⟨text, h3, h4⟩ := read_makeDot prog rows hp h1 h2 hc
    (fun e he => ⟨(named_id (.inl (hn e he).1)).1, (named_id (hn e he).2).1⟩)
  refine ⟨text, h3, ?_⟩
  rw [h4]
  congr 2
  refine List.map_congr_left fun e he => ?_
  simp only [edgeStmt, arrowOf, arrow]
  rw [paint_eq (hc e he), (named_id (.inl (hn e he).1)).2, (named_id (hn e he).2).2]

theorem instrOk_named {i : Instr} (h1 : i.1 < 10) (h2 : Named i.2.2) : InstrOk i := by
  refine instrOk_of_lt h1 ?_
  rcases h2 with h | h
  · exact Nat.lt_trans h (by decide)
  · rw [h]; decide

/-- The characters of a program text are neither quotes nor backslashes. -/
theorem show_clean (t : Table) (S C : Nat) (hi : ∀ e ∈ t, e.2.1 < 10 ∧ Named e.2.2.2) :
    ∀ c ∈ t.show (some (S, C)), c ≠ '"' ∧ c ≠ '\\' := by
  have hj : ∀ (sep : List Char) (l : List (List Char)), (∀ c ∈ sep, c ≠ '"' ∧ c ≠ '\\') →
      (∀ r ∈ l, ∀ c ∈ r, c ≠ '"' ∧ c ≠ '\\') → ∀ c ∈ joinWith sep l, c ≠ '"' ∧ c ≠ '\\' := by
    intro sep l hs
    induction l with
    | nil => intro _ c hc; cases hc
    | cons r l ih =>
      intro hl c hc
      cases l with
      | nil => exact hl r (List.mem_cons_self ..) c hc
      | cons r' l =>
        simp only [joinWith, List.mem_append] at hc
        rcases hc with (hc | hc) | hc
        · exact hl r (List.mem_cons_self ..) c hc
        · exact hs c hc
        · exact ih (fun x hx => hl x (List.mem_cons_of_mem _ hx)) c hc
  simp only [Table.show, Option.getD_some]
  refine hj _ _ (by decide) ?_
  intro r hr
  obtain ⟨st, -, rfl⟩ := List.mem_map.1 hr
  refine hj _ _ (by decide) ?_
  intro r hr
  obtain ⟨co, -, rfl⟩ := List.mem_map.1 hr
  cases hg : t.get? (st, co) with
  | none => decide
  | some i =>
    have := hi _ (Table.get?_mem hg)
    rw [showInstr_some i (instrOk_named this.1 this.2)]
    have hd : ∀ n < 10, Char.ofNat (48 + n) ≠ '"' ∧ Char.ofNat (48 + n) ≠ '\\' := by decide
    have hs : ∀ s < 26, showState s ≠ '"' ∧ showState s ≠ '\\' := by decide
    intro c hc
    simp only [List.mem_cons, List.not_mem_nil, or_false] at hc
    rcases hc with rfl | rfl | rfl
    · exact hd _ this.1
    · cases i.2.1 <;> decide
    · rcases this.2 with h | h
      · exact hs _ h
      · simp only at h
        rw [h]; decide

/-- **C69.**  The drawing of a program with at most 26 states and 8 colours has exactly one arrow for
every instruction. -/
theorem C69_arrows_partial (t : Table) (S C : Nat) (ht : t.Sorted) (hS : 1 ≤ S ∧ S ≤ 26)
    (hC : 1 ≤ C ∧ C ≤ 8) (hin : ∀ e ∈ t, e.1.1 < S ∧ e.1.2 < C)
    (hi : ∀ e ∈ t, e.2.1 < 10 ∧ Named e.2.2.2) :
    ∃ text, makeDot (t.show (some (S, C))) = some text ∧
      read text = some (title (t.show (some (S, C))) ++ t.map fun e => arrow e.1 e.2) := by
  have hg := grid_ok t S C hS.1 hC.1 (fun e he => instrOk_named (hi e he).1 (hi e he).2)
  have hp := parseRows_render _ S C hg
  rw [render_grid] at hp
  have hent := grid_entries t S C ht hin
  have := C69_text_partial (t.show (some (S, C))) (t.grid S C) hp
    (fun h => (show_clean t S C hi _ h).1 rfl) (fun h => (show_clean t S C hi _ h).2 rfl)
    (by rw [hent]; exact fun e he => Nat.lt_of_lt_of_le (hin e he).2 hC.2)
    (by rw [hent]; exact fun e he => ⟨Nat.lt_of_lt_of_le (hin e he).1 hS.2, (hi e he).2⟩)
  rwa [hent] at this

theorem letter_inj {a b : State} (ha : Named a) (hb : Named b) (h : letter a = letter b) : a = b := by
  have h1 : ∀ a < 31, ∀ b < 31, letter a = letter b → a = b := by decide
  have h2 : ∀ s, Named s → s < 31 := by
    intro s h
    rcases h with h | h
    · exact Nat.lt_trans h (by decide)
    · rw [h]; decide
  exact h1 a (h2 a ha) b (h2 b hb) h

theorem paint_inj {a b : Nat} (ha : a < 8) (hb : b < 8)
    (h : (paint a).toList = (paint b).toList) : a = b := by
  have h1 : ∀ a < 8, ∀ b < 8, (paint a).toList = (paint b).toList → a = b := by decide
  exact h1 a ha b hb h

/-- **C69, what can be seen.**  An arrow from one state to another in the paint of a colour is in the
drawing exactly if the machine goes from the one to the other on that colour. -/
theorem C69_seen_partial (t : Table) (S C : Nat) (ht : t.Sorted) (hS : 1 ≤ S ∧ S ≤ 26)
    (hC : 1 ≤ C ∧ C ≤ 8) (hin : ∀ e ∈ t, e.1.1 < S ∧ e.1.2 < C)
    (hi : ∀ e ∈ t, e.2.1 < 10 ∧ Named e.2.2.2) :
    ∃ text sts, makeDot (t.show (some (S, C))) = some text ∧ read text = some sts ∧
      ∀ st co tr, st < 26 → co < 8 → Named tr →
        (Stmt.edge [letter st] [letter tr] "color".toList (' ' :: (paint co).toList) ∈ sts ↔
          ∃ c sh, t.get? (st, co) = some (c, sh, tr)) := by
  obtain ⟨text, h1, h2⟩ := C69_arrows_partial t S C ht hS hC hin hi
  refine ⟨text, _, h1, h2, ?_⟩
  intro st co tr hst hco htr
  rw [List.mem_append]
  constructor
  · rintro (h | h)
    · unfold title at h
      split at h <;> simp at h
    · obtain ⟨⟨⟨st', co'⟩, ⟨c, sh, tr'⟩⟩, he, heq⟩ := List.mem_map.1 h
      simp only [arrow, Stmt.edge.injEq, List.cons.injEq, and_true, true_and] at heq
      obtain ⟨e1, e2, e3⟩ := heq
      have hb := hin _ he
      have hb' := hi _ he
      have f1 := letter_inj (.inl (Nat.lt_of_lt_of_le hb.1 hS.2)) (.inl hst) e1
      have f2 := letter_inj hb'.2 htr e2
      have f3 := paint_inj (Nat.lt_of_lt_of_le hb.2 hC.2) hco e3
      simp only at f1 f2 f3
      subst f1 f2 f3
      exact ⟨c, sh, Table.get?_of_mem ht he⟩
  · rintro ⟨c, sh, h⟩
    exact .inr (List.mem_map.2 ⟨_, Table.get?_mem h, rfl⟩)

/-- The drawing of a small program: the title and two arrows. -/
theorem C69_example :
    (makeDot "1RB 1R_  ... 0LA".toList).bind read
      = some [.attr "labelloc".toList "t".toList, .attr "label".toList "1RB 1R_  ... 0LA".toList,
        .attr "fontname".toList "courier".toList,
        .edge ['A'] ['B'] "color".toList " blue".toList,
        .edge ['A'] ['_'] "color".toList " red".toList,
        .edge ['B'] ['A'] "color".toList " red".toList] := by decide +kernel

/-- **C69, not for nine colours.**  An instruction in the ninth column makes `make_dot` fail, whatever
the others are. -/
theorem C69_colors_violation :
    makeDot "1RB ... ... ... ... ... ... ... 1LA  1LA ... ... ... ... ... ... ... ...".toList
      = none := by decide +kernel

/-- A program of 27 states that counts up to the last one. -/
def longTable : Table := (List.range 27).map fun s => ((s, 0), (1, true, (s + 1) % 27))

/-- **C69, not for 27 states.**  The name of the 27th state is `[`, and the text is not DOT. -/
theorem C69_states_violation :
    ∃ text, makeDot (longTable.show (some (27, 1))) = some text ∧ read text = none := by
  have h : ((makeDot (longTable.show (some (27, 1)))).map fun x => (read x).isNone) = some true := by
    decide +kernel
  cases hm : makeDot (longTable.show (some (27, 1))) with
  | none => rw [hm] at h; cases h
  | some text =>
    rw [hm] at h
    refine ⟨text, rfl, ?_⟩
    simpa using h

end Dot
end BB
