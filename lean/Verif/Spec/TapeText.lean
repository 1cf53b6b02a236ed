import Verif.Model.Tape

/-!
# Specification: reading the text of a tape

`1^3 0 [2] 1`: blocks separated by blanks, the farthest on the left first, the scanned colour in
brackets; a block is a colour, with `^` and a number if there is more than one cell.
-/

namespace BB
namespace TapeText

/-- The pieces between the blanks. -/
def words : List Char → List (List Char)
  | [] => [[]]
  | c :: cs =>
    match words cs with
    | [] => [[]]
    | w :: ws => if c = ' ' then [] :: w :: ws else (c :: w) :: ws

/-- A number in decimal digits. -/
def number (s : List Char) : Option Nat :=
  if s ≠ [] ∧ ∀ c ∈ s, c.isDigit = true then some (Nat.ofDigitChars 10 s 0) else none

/-- A block. -/
def block (w : List Char) : Option Block :=
  match w.dropWhile (· != '^') with
  | [] => (number w).map fun c => ⟨c, 1⟩
  | _ :: k => (number (w.takeWhile (· != '^'))).bind fun c => (number k).map fun n => ⟨c, n⟩

/-- The scanned colour. -/
def scanned (w : List Char) : Option Color :=
  if w.head? = some '[' ∧ w.getLast? = some ']' then number w.tail.dropLast else none

/-- A tape. -/
def tape (s : List Char) : Option Tape :=
  let ws := words s
  match ws.dropWhile (fun w => w.head? != some '[') with
  | [] => none
  | m :: r =>
    ((ws.takeWhile (fun w => w.head? != some '[')).reverse.mapM block).bind fun l =>
      (scanned m).bind fun c => (r.mapM block).map fun r => ⟨l, c, r⟩

/-- A whole number. -/
def int (s : List Char) : Option Int :=
  match s with
  | '-' :: r => (number r).map fun n : Nat => -(n : Int)
  | _ => (number s).map fun n : Nat => (n : Int)

/-- A position in parentheses and a tape. -/
def headTape (s : List Char) : Option (Int × Tape) :=
  match s with
  | '(' :: r =>
    (int (r.takeWhile (· != ')'))).bind fun h =>
      match r.dropWhile (· != ')') with
      | ')' :: ' ' :: t => (tape t).map fun t => (h, t)
      | _ => none
  | _ => none

end TapeText
end BB
