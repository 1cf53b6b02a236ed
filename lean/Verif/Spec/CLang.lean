import Mathlib.Data.Int.Interval

/-!
# Specification: reading and running the C programs

The part of C that matters for the programs of `/repo/machines/structured` and `/repo/data/c`, with
the macros of `/repo/machines/structured/machine.h`, independent of the generator.

* One statement, brace or label per line.  Empty lines, `//` comments and preprocessor lines are
  skipped, but the lines `#define TAPELEN 100` and `#include "machine.h"` have to be there.
* `main` has to have distinct labels, a label for every `goto` (`HALT_IF_BLANK` jumps to `H`), and
  distinct constants in a `switch`; otherwise the text is not a C program.
* An access to `TAPE` outside its 100 cells is undefined behaviour.  `POS`, `MARKS` and `STEPS` do not
  overflow: `POS` wraps only outside of `TAPE`, and `STEPS` after `2 ^ 63` steps.
* `PMIN` and `PMAX`, which `SHIFT_EDGE` maintains, are not read by these programs and left out.
* Constants have one digit.
-/

namespace BB
namespace C

/-- Statements without parts. -/
inductive Simple
  | write (c : Nat)
  | shift (right : Bool)
  | goto (l : Char)
deriving DecidableEq, Repr

/-- What `main` is made of. -/
inductive Item
  | label (l : Char)
  | simple (s : Simple)
  /-- `if (BLANK) { t } else { e }` -/
  | ifBlank (t e : List Simple)
  /-- `while (BLANK) { body }`, or `while (!BLANK) { body }` -/
  | whileBlank (neg : Bool) (body : List Simple)
  /-- `switch (SCAN) { case n: body ... }` -/
  | switch (cases : List (Nat × List Simple))
  /-- `CHECK_STEPS;` -/
  | check
deriving DecidableEq, Repr

/-! ### Reading -/

inductive Tok
  | main
  | open
  | close
  | els
  | ifBlank
  | whileBlank (neg : Bool)
  | switch
  | case (n : Nat)
  | label (c : Char)
  | simple (s : Simple)
  | check
deriving DecidableEq, Repr

/-- The lines of a text. -/
def lines : List Char → List (List Char)
  | [] => [[]]
  | c :: cs =>
    if c = '\n' then [] :: lines cs
    else match lines cs with
      | [] => [[c]]
      | l :: ls => (c :: l) :: ls

/-- A decimal digit. -/
def digit (c : Char) : Option Nat :=
  if 48 ≤ c.toNat ∧ c.toNat ≤ 57 then some (c.toNat - 48) else none

/-- An identifier of one letter. -/
def ident (c : Char) : Option Char := if c.isAlpha then some c else none

/-- One line without its leading spaces; `some none` is a line to skip. -/
def tok (l : List Char) : Option (Option Tok) :=
  match l with
  | [] => some none
  | '#' :: _ => some none
  | '/' :: '/' :: _ => some none
  | [c, ':'] => (ident c).map fun c => some (.label c)
  | ['g', 'o', 't', 'o', ' ', c, ';'] => (ident c).map fun c => some (.simple (.goto c))
  | ['c', 'a', 's', 'e', ' ', d, ':'] => (digit d).map fun n => some (.case n)
  | ['W', 'R', 'I', 'T', 'E', '(', d, ')', ';'] =>
    (digit d).map fun n => some (.simple (.write n))
  | l =>
    if l = "int main(void)".toList then some (some .main)
    else if l = "{".toList then some (some .open)
    else if l = "}".toList then some (some .close)
    else if l = "else".toList then some (some .els)
    else if l = "if (BLANK)".toList then some (some .ifBlank)
    else if l = "while (BLANK) {".toList then some (some (.whileBlank false))
    else if l = "while (!BLANK) {".toList then some (some (.whileBlank true))
    else if l = "switch (SCAN) {".toList then some (some .switch)
    else if l = "PRINT;".toList then some (some (.simple (.write 1)))
    else if l = "ERASE;".toList then some (some (.simple (.write 0)))
    else if l = "LEFT;".toList then some (some (.simple (.shift false)))
    else if l = "RIGHT;".toList then some (some (.simple (.shift true)))
    else if l = "CHECK_STEPS;".toList then some (some .check)
    else none

/-- The tokens of a text. -/
def toks (text : List Char) : Option (List Tok) :=
  ((lines text).mapM fun l => tok (l.dropWhile (· = ' '))).map fun ts => ts.filterMap id

/-- The simple statements in front. -/
def simples : List Tok → List Simple × List Tok
  | .simple s :: ts => (s :: (simples ts).1, (simples ts).2)
  | ts => ([], ts)

/-- The cases of a `switch` and its closing brace. -/
def cases : Nat → List Tok → Option (List (Nat × List Simple) × List Tok)
  | _, .close :: ts => some ([], ts)
  | n + 1, .case c :: ts =>
    (cases n (simples ts).2).map fun r => ((c, (simples ts).1) :: r.1, r.2)
  | _, _ => none

/-- The rest of `main`. -/
def items : Nat → List Tok → Option (List Item)
  | _, [.close] => some []
  | n + 1, .label c :: ts => (items n ts).map (.label c :: ·)
  | n + 1, .simple s :: ts => (items n ts).map (.simple s :: ·)
  | n + 1, .check :: ts => (items n ts).map (.check :: ·)
  | n + 1, .ifBlank :: .open :: ts =>
    match (simples ts).2 with
    | .close :: .els :: .open :: ts' =>
      match (simples ts').2 with
      | .close :: ts'' => (items n ts'').map (.ifBlank (simples ts).1 (simples ts').1 :: ·)
      | _ => none
    | _ => none
  | n + 1, .whileBlank b :: ts =>
    match (simples ts).2 with
    | .close :: ts' => (items n ts').map (.whileBlank b (simples ts).1 :: ·)
    | _ => none
  | n + 1, .switch :: ts =>
    match cases ts.length ts with
    | some (cs, ts') => (items n ts').map (.switch cs :: ·)
    | none => none
  | _, _ => none

/-- The labels an item defines. -/
def Item.labels : Item → List Char
  | .label c => [c]
  | _ => []

def gotoOf : Simple → List Char
  | .goto l => [l]
  | _ => []

/-- The labels an item jumps to. -/
def Item.gotos : Item → List Char
  | .label _ => []
  | .simple s => gotoOf s
  | .ifBlank t e => t.flatMap gotoOf ++ e.flatMap gotoOf
  | .whileBlank _ b => b.flatMap gotoOf
  | .switch cs => cs.flatMap fun c => c.2.flatMap gotoOf
  | .check => []

/-- The constants of a `switch` differ. -/
def Item.casesOk : Item → Bool
  | .switch cs => decide (cs.map Prod.fst).Nodup
  | _ => true

/-- What the compiler checks. -/
def valid (p : List Item) : Bool :=
  decide (p.flatMap Item.labels).Nodup &&
  ('H' :: p.flatMap Item.gotos).all (fun l => decide (l ∈ p.flatMap Item.labels)) &&
  p.all Item.casesOk

/-- Read a text; `none` when it is not a program of this kind. -/
def parse (text : List Char) : Option (List Item) :=
  if "#define TAPELEN 100".toList ∈ lines text ∧ "#include \"machine.h\"".toList ∈ lines text then
    match toks text with
    | some (.main :: .open :: ts) =>
      (items ts.length ts).bind fun p => if valid p then some p else none
    | _ => none
  else none

/-! ### Running -/

/-- What is left to execute, and the variables. -/
structure Mem where
  code : List Item
  pos : Int
  tape : Int → Nat
  marks : Int
  steps : Nat

inductive Res
  | next (s : Mem)
  /-- the end of `main`, with `STEPS` -/
  | stop (steps : Nat)
  /-- undefined behaviour -/
  | ub

/-- The code after a label. -/
def codeAt (l : Char) : List Item → List Item
  | [] => []
  | i :: is => if i = .label l then is else codeAt l is

/-- `TAPE[POS]` is in the array. -/
def Mem.inside (s : Mem) : Bool := decide (0 ≤ s.pos) && decide (s.pos < 100)

def Mem.scan (s : Mem) : Nat := s.tape s.pos

/-- One statement. -/
def step (p : List Item) (s : Mem) : Res :=
  match s.code with
  | [] => .stop s.steps
  | i :: rest =>
    match i with
    | .label _ => .next { s with code := rest }
    | .check => .next { s with code := rest }
    | .simple (.write c) =>
      if !s.inside then .ub
      else .next { s with
        code := rest
        marks := s.marks + (if c ≠ 0 ∧ s.scan = 0 then 1 else 0)
          - (if c = 0 ∧ s.scan ≠ 0 then 1 else 0)
        tape := fun x => if x = s.pos then c else s.tape x }
    | .simple (.shift right) =>
      .next { s with
        pos := if right then s.pos + 1 else s.pos - 1
        steps := s.steps + 1
        code := if s.marks = 0 then codeAt 'H' p else rest }
    | .simple (.goto l) => .next { s with code := codeAt l p }
    | .ifBlank t e =>
      if !s.inside then .ub
      else .next { s with code := (if s.scan = 0 then t else e).map .simple ++ rest }
    | .whileBlank neg body =>
      if !s.inside then .ub
      else if decide (s.scan = 0) != neg then .next { s with code := body.map .simple ++ s.code }
      else .next { s with code := rest }
    | .switch cs =>
      if !s.inside then .ub
      else .next { s with
        code := ((cs.dropWhile fun c => c.1 ≠ s.scan).flatMap Prod.snd).map .simple ++ rest }

/-- `k` statements. -/
def run (p : List Item) : Nat → Mem → Res
  | 0, s => .next s
  | k + 1, s =>
    match step p s with
    | .next s' => run p k s'
    | r => r

/-- `main` begins: `POS = TAPELEN / 2`, everything else zero. -/
def start (p : List Item) : Mem := ⟨p, 50, fun _ => 0, 0, 0⟩

end C
end BB
