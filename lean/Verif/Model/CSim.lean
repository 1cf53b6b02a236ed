import Mathlib.Logic.Function.Basic

/-!
# Model of the C simulators

`/repo/machines/machine.h` and `/repo/machines/2-2.c`, `2-3.c`, `2-4.c`, `3-2.c`, `4-2.c`, `5-2.c`,
with the `sed` command of `/repo/machines/Makefile` L13 that prepares their input.

* `unsigned int` has 32 bits and wraps; `int` variables only hold single characters.
* Reading or writing outside of `TAPE`, or of `dispatch`, is undefined behaviour: `ub`.
* `%d` of an `unsigned int` is its decimal form (all values are below `2 ^ 31`).
* The loop through the labels is followed for a given number of instructions.
* `printf` and `exit` are the list of lines printed and how the program ends.
-/

namespace BB
namespace CSim

/-- What differs between the files: `STATES`, `COLORS`, `XLIMIT`, and the labels where
`CHECK_RECUR` stands in front of `INSTRUCTION` too (2-4.c L47). -/
structure File where
  states : Nat
  colors : Nat
  limit : Nat
  early : Nat → Bool

def f22 : File := ⟨2, 2, 40, fun _ => false⟩
def f23 : File := ⟨2, 3, 300, fun _ => false⟩
def f24 : File := ⟨2, 4, 33554432, fun l => l == 1⟩
def f32 : File := ⟨3, 2, 65536, fun _ => false⟩
def f42 : File := ⟨4, 2, 35000000, fun _ => false⟩
def f52 : File := ⟨5, 2, 134217728, fun _ => false⟩

/-- Conversion to `unsigned int`. -/
def u32 (x : Int) : Nat := (x % 4294967296).toNat

/-- The variables (machine.h L4-20). -/
structure Vars where
  pos : Nat
  pmin : Nat
  pmax : Nat
  tape : Nat → Nat
  steps : Nat
  marks : Nat

/-- The variables `c`, `s`, `t` of one instruction. -/
abbrev Act := Int × Int × Int

/-- Where control goes. -/
inductive Flow where
  | label (l : Nat) (v : Vars)
  | toH (v : Vars)
  | toExit
  | ub

/-- `TAPE_LEN` (machine.h L10). -/
def File.tapeLen (F : File) : Nat := F.limit * 2

/-- `CENTER_SQUARE` (machine.h L12). -/
def File.center (F : File) : Nat := F.tapeLen / 2

/-- `SHIFT_INTO_EDGE` (machine.h L33-35). -/
def intoEdge (v : Vars) (s : Int) : Bool :=
  (v.pos == v.pmin && s == -1) || (u32 (v.pos + 1) == v.pmax && s == 1)

/-- `IS_RECUR` (machine.h L37-40), after `TAPE[POS]` has been found to be in the array. -/
def isRecur (v : Vars) (s t : Int) (l : Nat) : Bool :=
  v.tape v.pos == 0 && t == l && intoEdge v s

/-- `DO_TRANS` (machine.h L69-70) with the table of L22-24 and the labels of the file: a label that
no instruction is written for is followed by `goto EXIT`. -/
def doTrans (F : File) (t : Int) (v : Vars) : Flow :=
  if t < 0 ∨ 8 ≤ t then .ub
  else if t = 7 then .toH v
  else if t < F.states then .label t.toNat v
  else .toExit

/-- `DO_COLOR` (machine.h L59-62). -/
def doColor (c : Int) (v : Vars) : Vars :=
  { v with
    marks :=
      if c ≠ 0 ∧ v.tape v.pos = 0 then u32 (v.marks + 1)
      else if c = 0 ∧ v.tape v.pos ≠ 0 then u32 (v.marks - 1)
      else v.marks
    tape := Function.update v.tape v.pos (u32 c) }

/-- `DO_SHIFT` (machine.h L64-67). -/
def doShift (s : Int) (v : Vars) : Vars :=
  let pos := u32 (v.pos + s)
  if pos < v.pmin then { v with pos := pos, pmin := u32 (v.pmin - 1) }
  else if v.pmax ≤ pos then { v with pos := pos, pmax := u32 (v.pmax + 1) }
  else { v with pos := pos }

/-- `ACTION` (machine.h L72-77). -/
def action (F : File) (a : Act) (v : Vars) : Flow :=
  let v := doColor a.1 v
  if v.marks = 0 then .toH v
  else doTrans F a.2.2 (doShift a.2.1 v)

/-- `INSTRUCTION` (machine.h L79-86, 2-3.c L8-15, 2-4.c L8-17): a colour that has no test of its own
is taken for 0. -/
def instruction (F : File) (ins : Nat → Nat → Act) (l : Nat) (v : Vars) : Flow :=
  let v := { v with steps := u32 (v.steps + 1) }
  if F.limit < v.steps then .toH v
  else if F.tapeLen ≤ v.pos then .ub
  else if 1 ≤ v.tape v.pos ∧ v.tape v.pos < F.colors then action F (ins l (v.tape v.pos)) v
  else if isRecur v (ins l 0).2.1 (ins l 0).2.2 l then .toH v
  else action F (ins l 0) v

/-- What follows a label. -/
def atLabel (F : File) (ins : Nat → Nat → Act) (l : Nat) (v : Vars) : Flow :=
  if F.early l then
    if F.tapeLen ≤ v.pos then .ub
    else if isRecur v (ins l 0).2.1 (ins l 0).2.2 l then .toH v
    else instruction F ins l v
  else instruction F ins l v

/-- Going from label to label, `n` times at most. -/
def run (F : File) (ins : Nat → Nat → Act) : Nat → Nat → Vars → Flow
  | 0, l, v => .label l v
  | n + 1, l, v =>
    match atLabel F ins l v with
    | .label l' v' => run F ins n l' v'
    | f => f

/-- `WIPE_AND_SCORE` (machine.h L45-51). -/
def wipe (F : File) (v : Vars) : Option Vars :=
  if v.pmin < v.pmax ∧ F.tapeLen < v.pmax then none
  else some { v with
    tape := fun i => if v.pmin ≤ i ∧ i < v.pmax then 0 else v.tape i
    pos := F.center
    pmin := F.center
    pmax := F.center + 1 }

/-! ## Input and output -/

/-- `getc(stdin)`; -1 is `EOF`. -/
def next : List Char → Int × List Char
  | [] => (-1, [])
  | c :: cs => (c.toNat, cs)

/-- `READ_ACTION` (machine.h L95-103). -/
def readAction (i : List Char) : Act × List Char :=
  let c := next i
  let s := next c.2
  let t := next s.2
  ((c.1 - 48, if s.1 = 76 then -1 else 1, t.1 - 65), t.2)

/-- The `READ_ACTION`s of `LOAD_PROGRAM`. -/
def readActions : Nat → List Char → List Act × List Char
  | 0, i => ([], i)
  | n + 1, i =>
    let a := readAction i
    let r := readActions n a.2
    (a.1 :: r.1, r.2)

/-- The number of instructions that are read: all but the first. -/
def File.acts (F : File) : Nat := F.states * F.colors - 1

/-- The arguments of `INSTRUCTION` at label `l`: `A0C`, `A0S`, `A0T` (machine.h L108-110) for the
first. -/
def insOf (F : File) (as : List Act) (l co : Nat) : Act :=
  if l * F.colors + co = 0 then (1, 1, 1) else as.getD (l * F.colors + co - 1) (0, 0, 0)

/-- `%c`. -/
def chr (x : Int) : Char := Char.ofNat (x % 256).toNat

/-- `FORMAT_INSTR` (machine.h L105-106). -/
def formatInstr (a : Act) : List Char :=
  [chr (a.1 + 48), if a.2.1 = 1 then 'R' else 'L', chr (a.2.2 + 65)]

/-- The part of the format string about the instructions, from number `k` on: two spaces before each
state. -/
def formatActs (F : File) : Nat → List Act → List Char
  | _, [] => []
  | k, a :: as =>
    (if k % F.colors = 0 then [' ', ' '] else [' ']) ++ formatInstr a ++ formatActs F (k + 1) as

/-- The line printed (2-2.c L33-41 and so on). -/
def line (F : File) (num : Nat) (as : List Act) (v : Vars) : List Char :=
  Nat.toDigits 10 num ++ " | 1RB".toList ++ formatActs F 1 as ++ " | ".toList ++
    Nat.toDigits 10 v.steps ++ " | ".toList ++ Nat.toDigits 10 v.marks

/-- How a session ends: `exit(0)`, or not defined.  (`running` if the number of instructions or of
programs given is used up.) -/
inductive End where
  | done
  | ub
  | running
deriving DecidableEq

/-- `main`, from `INITIALIZE` (with `RESET`, machine.h L26) on, for at most `k` programs of at most `n` instructions: the lines
printed and the end. -/
def main (F : File) (n : Nat) : Nat → Nat → Vars → List Char → List (List Char) × End
  | 0, _, _, _ => ([], .running)
  | k + 1, num, v, i =>
    let num := u32 (num + 1)
    let r := readActions F.acts i
    let b := next r.2
    if b.1 = -1 then (["done".toList], .done)
    else
      match run F (insOf F r.1) n 0 { v with steps := 0, marks := 0 } with
      | .label _ _ => ([], .running)
      | .ub => ([], .ub)
      | .toExit => (["done".toList], .done)
      | .toH v =>
        match wipe F v with
        | none => ([], .ub)
        | some w =>
          let rest := main F n k num w b.2
          (if w.steps < F.limit then line F num r.1 w :: rest.1 else rest.1, rest.2)

/-- The variables at the start. -/
def start (F : File) : Vars := ⟨F.center, F.center, F.center + 1, fun _ => 0, 0, 0⟩

/-- The whole program. -/
def session (F : File) (n k : Nat) (i : List Char) : List (List Char) × End :=
  main F n k 0 (start F) i

/-- `sed 's/^1RB// ; s/ //g'` on one line (Makefile L13). -/
def sedLine (l : List Char) : List Char :=
  (if ['1', 'R', 'B'].isPrefixOf l then l.drop 3 else l).filter (· != ' ')

/-- `sed` on a file whose lines all end. -/
def sed (ls : List (List Char)) : List Char := (ls.map fun l => sedLine l ++ ['\n']).flatten

end CSim
end BB
