import Verif.Spec.Dot
import Verif.Model.Dot
import Verif.Lemmas.Parse

/-!
# The drawings, read back
-/

namespace BB
namespace Dot

/-- The lexer on a piece of text. -/
def run : Mode → List Char → Option (List Tok × Mode)
  | m, [] => some ([], m)
  | m, c :: cs => (next m c).bind fun r => (run r.2 cs).map fun q => (r.1 ++ q.1, q.2)

theorem lex_append {xs : List Char} : ∀ {m m' : Mode} {ts : List Tok} (ys : List Char),
    run m xs = some (ts, m') → lex m (xs ++ ys) = (lex m' ys).map (ts ++ ·) := by
  induction xs with
  | nil =>
    intro m m' ts ys h
    simp only [run, Option.some.injEq, Prod.mk.injEq] at h
    obtain ⟨rfl, rfl⟩ := h
    simp
  | cons c cs ih =>
    intro m m' ts ys h
    simp only [run, Option.bind_eq_some_iff, Option.map_eq_some_iff] at h
    obtain ⟨r, h1, q, h2, h3⟩ := h
    simp only [Prod.mk.injEq] at h3
    obtain ⟨rfl, rfl⟩ := h3
    rw [List.cons_append, lex, h1, Option.bind_some, ih ys h2, Option.map_map]
    congr 1
    funext l
    simp

theorem run_append {xs : List Char} : ∀ {m m' : Mode} {ts : List Tok} (ys : List Char),
    run m xs = some (ts, m') → run m (xs ++ ys) = (run m' ys).map fun q => (ts ++ q.1, q.2) := by
  induction xs with
  | nil =>
    intro m m' ts ys h
    simp only [run, Option.some.injEq, Prod.mk.injEq] at h
    obtain ⟨rfl, rfl⟩ := h
    simp
  | cons c cs ih =>
    intro m m' ts ys h
    simp only [run, Option.bind_eq_some_iff, Option.map_eq_some_iff] at h
    obtain ⟨r, h1, q, h2, h3⟩ := h
    simp only [Prod.mk.injEq] at h3
    obtain ⟨rfl, rfl⟩ := h3
    rw [List.cons_append, run, h1, Option.bind_some, ih ys h2, Option.map_map]
    congr 1
    funext l
    simp

theorem run_join {xs ys : List Char} {m m' m'' : Mode} {ts us : List Tok}
    (h : run m xs = some (ts, m')) (h' : run m' ys = some (us, m'')) :
    run m (xs ++ ys) = some (ts ++ us, m'') := by
  rw [run_append ys h, h']; rfl

/-- A string without quotes and backslashes. -/
theorem run_str (s : List Char) (h1 : '"' ∉ s) (h2 : '\\' ∉ s) (a : List Char) :
    run (.inStr a) s = some ([], .inStr (s.reverse ++ a)) := by
  induction s generalizing a with
  | nil => rfl
  | cons c s ih =>
    rw [List.mem_cons, not_or] at h1 h2
    have e : next (.inStr a) c = some ([], .inStr (c :: a)) := by
      simp only [next]
      rw [if_neg (Ne.symm h1.1), if_neg (Ne.symm h2.1)]
    rw [run, e, Option.bind_some, ih h1.2 h2.2]
    simp

theorem run_id (c : Char) (h : isIdChar c = true) : run .idle [c] = some ([], .inId [c]) := by
  simp [run, next, start, h]

/-- The tokens of an edge. -/
def edgeToks (node target : State) (color : List Char) : List Tok :=
  [.id [showState node], .arrow, .id [showState target], .lbrack, .id "color".toList, .eq,
    .str (' ' :: color), .rbrack, .semi]

theorem run_edge (node target : State) (i : Nat) (color : List Char) (hi : COLORS[i]? = some color)
    (hn : isIdChar (showState node) = true) (ht : isIdChar (showState target) = true) :
    run .idle (edgeLine node target color) = some (edgeToks node target color, .idle) := by
  have h1 : run .idle "  ".toList = some ([], .idle) := by decide
  have h2 : run (.inId [showState node]) " -> ".toList
      = some ([.id [showState node], .arrow], .idle) := by rfl
  have h3 : run (.inId [showState target]) " [ color=\" ".toList
      = some ([.id [showState target], .lbrack, .id "color".toList, .eq], .inStr [' ']) := by rfl
  have h4 : ∀ c ∈ COLORS, '"' ∉ c ∧ '\\' ∉ c := by decide
  have hc := h4 color (List.mem_of_getElem? hi)
  have h5 := run_str color hc.1 hc.2 [' ']
  have h6 : run (.inStr (color.reverse ++ [' '])) "\" ];".toList
      = some ([.str (color.reverse ++ [' ']).reverse, .rbrack, .semi], .idle) := by rfl
  have := run_join (run_join (run_join (run_join (run_join (run_join h1 (run_id _ hn)) h2)
    (run_id _ ht)) h3) h5) h6
  simpa [edgeLine, edgeToks] using this

/-- The edges of a list of lines with their ends. -/
def lineOf (e : State × State × List Char) : List Char := edgeLine e.1 e.2.1 e.2.2

def toksOf (e : State × State × List Char) : List Tok := edgeToks e.1 e.2.1 e.2.2

theorem run_lines (l : List (State × State × List Char))
    (h : ∀ e ∈ l, run .idle (lineOf e) = some (toksOf e, .idle)) :
    run .idle (joinWith ['\n'] (l.map lineOf)) = some (l.flatMap toksOf, .idle) := by
  induction l with
  | nil => rfl
  | cons e l ih =>
    cases l with
    | nil => simpa [joinWith] using h e (List.mem_cons_self ..)
    | cons e' l' =>
      have h1 := h e (List.mem_cons_self ..)
      have h2 := ih (fun x hx => h x (List.mem_cons_of_mem _ hx))
      have h3 : run .idle ['\n'] = some ([], .idle) := by decide
      have := run_join (run_join h1 h3) h2
      simpa [joinWith] using this

/-- The edge of an entry. -/
def arrowOf (e : Slot × Instr) : State × State × List Char :=
  (e.1.1, e.2.2.2, (COLORS[e.1.2]?).getD [])

theorem rowLines_eq (node : State) (row : List (Option Instr)) (i : Nat)
    (h : ∀ e ∈ rowEntries node i row, e.1.2 < 8) :
    rowLines node i (row.map fun i => i.map fun j => j.2.2)
      = some ((rowEntries node i row).map fun e => lineOf (arrowOf e)) := by
  induction row generalizing i with
  | nil => rfl
  | cons x row ih =>
    cases x with
    | none => exact ih (i + 1) h
    | some j =>
      have hi : i < 8 := h ((node, i), j) (by simp [rowEntries])
      have hc : COLORS[i]? = some ((COLORS[i]?).getD []) := by
        have : i < COLORS.length := hi
        simp [this]
      have := ih (i + 1) (fun e he => h e (by simp [rowEntries, he]))
      simp only [List.map_cons, Option.map_some, rowLines, rowEntries]
      rw [this, hc]
      simp [lineOf, arrowOf]

theorem edgeLines_eq (rows : List (List (Option Instr))) (k : Nat)
    (h : ∀ e ∈ gridEntries k rows, e.1.2 < 8) :
    edgeLines k (arrowsOf rows) = some ((gridEntries k rows).map fun e => lineOf (arrowOf e)) := by
  induction rows generalizing k with
  | nil => rfl
  | cons row rows ih =>
    have h1 := rowLines_eq k row 0 (fun e he => h e (by simp [gridEntries, he]))
    have h2 := ih (k + 1) (fun e he => h e (by simp [gridEntries, he]))
    simp only [arrowsOf] at h2
    simp only [arrowsOf, List.map_cons, edgeLines, gridEntries]
    rw [h1, h2]
    simp

/-- The statements of the header. -/
def headStmts (prog : List Char) : List Stmt :=
  if prog.length < 50 then
    [.attr "labelloc".toList "t".toList, .attr "label".toList prog,
      .attr "fontname".toList "courier".toList]
  else []

/-- The statement of an entry. -/
def edgeStmt (e : State × State × List Char) : Stmt :=
  .edge [showState e.1] [showState e.2.1] "color".toList (' ' :: e.2.2)

theorem stmts_edges (l : List (State × State × List Char)) :
    stmts (l.flatMap toksOf ++ [.rbrace]) = some (l.map edgeStmt) := by
  induction l with
  | nil => rfl
  | cons e l ih =>
    simp only [List.flatMap_cons, toksOf, edgeToks, List.cons_append, List.nil_append, List.map_cons]
    rw [stmts, stmts, ih]
    rfl

def headToks (prog : List Char) : List Tok :=
  if prog.length < 50 then
    [.id "labelloc".toList, .eq, .str "t".toList, .semi, .id "label".toList, .eq, .str prog, .semi,
      .id "fontname".toList, .eq, .str "courier".toList]
  else []

theorem run_header (prog : List Char) (h1 : '"' ∉ prog) (h2 : '\\' ∉ prog) :
    run .idle (header prog) = some (headToks prog, .idle) := by
  unfold header headToks
  split
  · have e1 : run .idle ("  labelloc=\"t\";".toList ++ ['\n'] ++ "  label=\"".toList)
        = some ([.id "labelloc".toList, .eq, .str "t".toList, .semi, .id "label".toList, .eq],
          .inStr []) := by decide
    have e2 := run_str prog h1 h2 []
    have e3 : run (.inStr (prog.reverse ++ []))
        ("\";".toList ++ ['\n'] ++ "  fontname=\"courier\"".toList)
        = some ([.str (prog.reverse ++ []).reverse, .semi, .id "fontname".toList, .eq,
          .str "courier".toList], .idle) := by rfl
    have := run_join (run_join e1 e2) e3
    simpa [joinWith] using this
  · rfl

theorem read_makeDot (prog : List Char) (rows : List (List (Option Instr)))
    (hp : parseRows prog = some rows) (h1 : '"' ∉ prog) (h2 : '\\' ∉ prog)
    (hc : ∀ e ∈ gridEntries 0 rows, e.1.2 < 8)
    (hn : ∀ e ∈ gridEntries 0 rows,
      isIdChar (showState e.1.1) = true ∧ isIdChar (showState e.2.2.2) = true) :
    ∃ text, makeDot prog = some text ∧ read text
      = some (headStmts prog ++ (gridEntries 0 rows).map fun e => edgeStmt (arrowOf e)) := by
  have hl : ∀ x ∈ (gridEntries 0 rows).map arrowOf,
      run .idle (lineOf x) = some (toksOf x, .idle) := by
    intro x hx
    obtain ⟨e, he, rfl⟩ := List.mem_map.1 hx
    refine run_edge _ _ e.1.2 _ ?_ (hn e he).1 (hn e he).2
    have : e.1.2 < COLORS.length := hc e he
    simp [arrowOf, this]
  have e1 := edgeLines_eq rows 0 hc
  have hm : makeDot prog = some ("digraph NAME {\n".toList ++ header prog ++ "\n\n".toList
      ++ joinWith ['\n'] ((gridEntries 0 rows).map fun e => lineOf (arrowOf e)) ++ "\n}".toList) := by
    simp only [makeDot, hp, Option.bind_some, e1, Option.map_some]
  refine ⟨_, hm, ?_⟩
  have a1 : run .idle "digraph NAME {\n".toList
      = some ([.id "digraph".toList, .id "NAME".toList, .lbrace], .idle) := by decide
  have a2 := run_header prog h1 h2
  have a3 : run .idle "\n\n".toList = some ([], .idle) := by decide
  have a4 := run_lines _ hl
  have a5 : run .idle "\n}".toList = some ([.rbrace], .idle) := by decide
  have a6 := run_join (run_join (run_join (run_join a1 a2) a3) a4) a5
  have a7 := lex_append [] a6
  simp only [List.append_nil, lex, Option.map_some, List.map_map] at a7
  have a8 : (lineOf ∘ arrowOf) = fun e => lineOf (arrowOf e) := rfl
  rw [a8] at a7
  unfold read
  rw [a7]
  simp only [List.cons_append, List.nil_append, List.append_assoc]
  rw [if_pos (by decide)]
  have a9 := stmts_edges ((gridEntries 0 rows).map arrowOf)
  unfold headToks headStmts
  split
  · simp only [List.cons_append, List.nil_append]
    rw [stmts, stmts, stmts, stmts, stmts, a9]
    · simp [Function.comp_def]
  · simp only [List.nil_append]
    rw [a9]
    simp [Function.comp_def]

end Dot
end BB
