import Verif.Model.Parse

/-!
# Model of the generator of C code

`/repo/tools/c.py`.  Strings are lists of characters; the templates are written out around their
holes.  An instruction's next state is an integer, as in Python, because an undefined instruction
becomes `(1, True, -1)`.  `make_c` panics when `read_instr` does: `none`.
-/

namespace BB
namespace CGen

/-- `(pr, sh, tr)` as `make_labels` passes it on. -/
abbrev CInstr := Color × Bool × Int

/-- `f'{n}'`. -/
def num (n : Nat) : List Char := Nat.toDigits 10 n

/-- `make_comment` (c.py L13-14). -/
def makeComment (st : State) (co : Color) : List Char :=
  "// ".toList ++ [showState st] ++ num co

/-- `make_shift` (c.py L17-18). -/
def makeShift (sh : Bool) : List Char :=
  (if sh then "RIGHT".toList else "LEFT".toList) ++ ";".toList

/-- `make_trans` (c.py L21-22). -/
def makeTrans (tr : Int) : List Char :=
  "goto ".toList ++ (if 0 ≤ tr then [showState tr.toNat] else ['_']) ++ ";".toList

/-- `make_binary_write` (c.py L25-26). -/
def makeBinaryWrite (pr : Color) : List Char :=
  (if pr = 1 then "PRINT".toList else "ERASE".toList) ++ ";".toList

/-- `make_n_way_write` (c.py L29-30). -/
def makeNWayWrite (pr : Color) : List Char :=
  "WRITE(".toList ++ num pr ++ ");".toList

/-- `make_instruction` (c.py L33-64). -/
def makeInstruction (st : State) (co : Color) (instr : CInstr) (binary skipTrans : Bool) :
    List (List Char) :=
  [makeComment st co] ++
  (if co ≠ instr.1 then [if binary then makeBinaryWrite instr.1 else makeNWayWrite instr.1]
   else []) ++
  [makeShift instr.2.1] ++
  (if skipTrans then [] else [makeTrans instr.2.2])

/-- `indent` (c.py L67-68). -/
def indent (space : Nat) (lines : List (List Char)) : List Char :=
  joinWith ('\n' :: List.replicate space ' ') lines

/-- `IF_TEMPLATE` (c.py L84-94). -/
def ifTemplate (x y : List Char) : List Char :=
  "\n  if (BLANK)\n    {\n      ".toList ++ x ++ "\n    }\n  else\n    {\n      ".toList ++ y ++
  "\n    }\n".toList

/-- `WHILE_TEMPLATE` (c.py L114-121). -/
def whileTemplate (test loop rest : List Char) : List Char :=
  "\n  while (".toList ++ test ++ ") {\n    ".toList ++ loop ++ "\n  }\n\n  ".toList ++ rest ++
  "\n".toList

/-- `make_while` (c.py L97-111). -/
def makeWhile (st : State) (loopIn restIn : CInstr) (mark : Bool) : List Char :=
  let test := if !mark then "BLANK".toList else "!BLANK".toList
  let loop := makeInstruction st (if mark then 1 else 0) loopIn true true
  let rest := makeInstruction st (1 - if mark then 1 else 0) restIn true false
  whileTemplate test (indent 4 loop) (indent 2 rest)

/-- `make_if_else` (c.py L71-81). -/
def makeIfElse (st : State) (in0 in1 : CInstr) : List Char :=
  if (st : Int) = in0.2.2 then makeWhile st in0 in1 false
  else if (st : Int) = in1.2.2 then makeWhile st in1 in0 true
  else ifTemplate (indent 6 (makeInstruction st 0 in0 true false))
    (indent 6 (makeInstruction st 1 in1 true false))

/-- `make_case` (c.py L142-146) with `CASE_TEMPLATE` (L149-151). -/
def makeCase (st : State) (co : Color) (instr : CInstr) : List Char :=
  "    case ".toList ++ num co ++ ":\n      ".toList ++
  indent 6 (makeInstruction st co instr false false)

/-- `enumerate` and `make_case` on each (c.py L127-130). -/
def makeCases (st : State) : Color → List CInstr → List (List Char)
  | _, [] => []
  | co, i :: is => makeCase st co i :: makeCases st (co + 1) is

/-- `make_n_way_switch` (c.py L124-131) with `SWITCH_TEMPLATE` (L134-139). -/
def makeNWaySwitch (st : State) (instrs : List CInstr) : List Char :=
  "\n  switch (SCAN) {\n".toList ++ joinWith "\n\n".toList (makeCases st 0 instrs) ++
  "\n  }\n".toList

/-- `make_switch` (c.py L154-160). -/
def makeSwitch (st : State) (instrs : List CInstr) : List Char :=
  match instrs with
  | [in0, in1] => makeIfElse st in0 in1
  | instrs => makeNWaySwitch st instrs

/-- `make_label` (c.py L163-164). -/
def makeLabel (st : State) : List Char := " ".toList ++ [showState st] ++ ":".toList

/-- `instr or (1, True, -1)` (c.py L179). -/
def orHalt : Option Instr → CInstr
  | none => (1, true, -1)
  | some (pr, sh, tr) => (pr, sh, tr)

/-- The labels with their switches, from state `st` (c.py L176-183; `parse_prog`, L167-171, is the
enumeration, already sorted). -/
def makeBlocks : State → List (List (Option Instr)) → List (List Char)
  | _, [] => []
  | st, row :: rows => (makeLabel st ++ makeSwitch st (row.map orHalt)) :: makeBlocks (st + 1) rows

/-- `make_labels` (c.py L174-183). -/
def makeLabels (rows : List (List (Option Instr))) : List Char :=
  joinWith "\n".toList (makeBlocks 0 rows)

/-- `PROG_TEMPLATE` (c.py L193-203). -/
def progTemplate (prog labels : List Char) : List Char :=
  "#define PROGRAM \"".toList ++ prog ++
  "\"\n\n#define TAPELEN 100\n\n#include \"machine.h\"\n\nint main(void)\n{\n".toList ++ labels ++
  "\n H:\n  CHECK_STEPS;\n}".toList

/-- `str.replace(' _', ' H')` (c.py L190): the occurrences cannot overlap. -/
def replaceHalt : List Char → List Char
  | [] => []
  | [c] => [c]
  | c :: d :: cs =>
    if c = ' ' ∧ d = '_' then ' ' :: 'H' :: replaceHalt cs else c :: replaceHalt (d :: cs)

/-- `make_c` (c.py L186-190). -/
def makeC (prog : List Char) : Option (List Char) :=
  (parseRows prog).map fun rows => replaceHalt (progTemplate prog (makeLabels rows))

end CGen
end BB
