import Verif.Model.Idris

/-!
# The Idris implementation: reading programs

`/repo/idris/Program.idr` L12-53 and `Parse.idr`.

Simplifications.  Strings are lists of characters (`pack` and `unpack` are the identity).  A parser
returns a list in Idris; every parser here returns at most one result, and anything but exactly one is a
failure, so a parser returns an `Option`.  A `Vect` is a list.  `isUpper`, `isDigit`, `isSpace` and
`stringToNatOrZ` are those of Idris' `Prelude.Types` and `Data.String`.
-/

namespace BB.Idris

/-- `Prelude.Types`. -/
def isUpper (c : Char) : Bool := 65 ≤ c.toNat && c.toNat ≤ 90

/-- `Prelude.Types`. -/
def isDigit (c : Char) : Bool := 48 ≤ c.toNat && c.toNat ≤ 57

/-- `Prelude.Types`: space, tab, carriage return, newline, form feed, vertical tab, no-break space. -/
def isSpace (c : Char) : Bool :=
  c == ' ' || c.toNat == 9 || c.toNat == 13 || c.toNat == 10 || c.toNat == 12 || c.toNat == 11 ||
    c.toNat == 160

/-- `stringToNatOrZ` of a string of one character. -/
def natOrZ (c : Char) : Nat := if isDigit c then c.toNat - 48 else 0

/-- `Program.idr` L12-16. -/
def castShift : Char → Shift
  | 'L' => .L
  | 'R' => .R
  | _ => .R

/-- `Program.idr` L37-53. -/
def castState : Char → Nat
  | '_' => 0
  | 'A' => 1
  | 'B' => 2
  | 'C' => 3
  | 'D' => 4
  | 'E' => 5
  | 'F' => 6
  | 'G' => 7
  | 'H' => 8
  | 'I' => 9
  | 'J' => 10
  | 'K' => 11
  | 'L' => 12
  | _ => 0

/-- `Parse.idr` L12-13. -/
abbrev Parser (α : Type) := List Char → Option (α × List Char)

namespace Parser

/-- `Parse.idr` L22. -/
def ret {α : Type} (v : α) : Parser α := fun inp => some (v, inp)

/-- `Parse.idr` L29-33. -/
def andThen {α β : Type} (p : Parser α) (f : α → Parser β) : Parser β := fun inp =>
  match p inp with
  | some (v, out) => f v out
  | none => none

/-- `Parse.idr` L36. -/
def empty {α : Type} : Parser α := fun _ => none

/-- `Parse.idr` L43-47. -/
def runParser {α : Type} (p : Parser α) (inp : List Char) : Option α :=
  match p inp with
  | some (res, []) => some res
  | _ => none

/-- `Parse.idr` L51-55. -/
def item : Parser Char
  | [] => none
  | c :: cs => some (c, cs)

/-- `Parse.idr` L57-60. -/
def sat (p : Char → Bool) : Parser Char :=
  andThen item fun x => if p x then ret x else empty

/-- `Parse.idr` L62-65. -/
def state : Parser Nat :=
  andThen (sat fun x => isUpper x || x == '_' || x == '.') fun s => ret (castState s)

/-- `Parse.idr` L67-70. -/
def shift : Parser Shift :=
  andThen (sat fun x => x == 'L' || x == 'R' || x == '.') fun s => ret (castShift s)

/-- `Parse.idr` L72-75. -/
def color : Parser Nat :=
  andThen (sat fun x => isDigit x || x == '.') fun c => ret (natOrZ c)

/-- `Parse.idr` L77-82. -/
def instruction : Parser Instruction :=
  andThen color fun co => andThen shift fun sh => andThen state fun st => ret (co, sh, st)

/-- `Parse.idr` L84-87. -/
def space : Parser Unit := andThen (sat isSpace) fun _ => ret ()

/-- `Parse.idr` L95-102. -/
def instructions : Nat → Parser (List Instruction)
  | 0 => ret []
  | 1 => andThen instruction fun i => ret [i]
  | k + 1 => andThen instruction fun i => andThen space fun _ => andThen (instructions k) fun is =>
      ret (i :: is)

/-- `Parse.idr` L104-112. -/
def program : Nat → Nat → Parser (List (List Instruction))
  | 0, _ => ret []
  | 1, c => andThen (instructions c) fun i => ret [i]
  | k + 1, c => andThen (instructions c) fun i => andThen space fun _ => andThen space fun _ =>
      andThen (program k c) fun is => ret (i :: is)

end Parser

/-- `Parse.idr` L114-117. -/
def colorIndex : Nat → List Instruction → Instruction
  | _, [] => (1, .R, halt)
  | 0, i :: _ => i
  | c + 1, _ :: is => colorIndex c is

/-- `Parse.idr` L125-128. -/
def vectLookup {α : Type} : Nat → List α → Option α
  | 0, x :: _ => some x
  | k + 1, _ :: xs => vectLookup k xs
  | _, [] => none

/-- `Parse.idr` L119-124. -/
def castProgram (prog : List (List Instruction)) : Program := fun state color =>
  match vectLookup state.pred prog with
  | some instrs => colorIndex color instrs
  | none => (1, .R, halt)

/-- `Parse.idr` L130-134. -/
def parse (n k : Nat) (prog : List Char) : Option Program :=
  (Parser.runParser (Parser.program n k) prog).map castProgram

end BB.Idris
