import Verif.Model.Parse
import Verif.Model.Tape

/-!
# Model of printing tapes

`/repo/tm/tape.py` L28-70, `/repo/tm/num.py` L2242-2258 and `/repo/src/tape.rs` L30-82, L225-241,
L391-401.  Counts are natural numbers; for symbolic counts (`Num`) the text is that of the number and
is not modelled.
-/

namespace BB
namespace TapeShow

/-- `/repo/tm/num.py` L2242-2258 `show_number` for `int`; `lg n` stands for the number that
`'{:.0f}'.format(log10(n))` shows, a rounded floating point logarithm. -/
def showNumber (lg : Nat → Nat) (n : Nat) : List Char :=
  if n ≥ 10 ^ 12 then "(~10^".toList ++ Nat.toDigits 10 (lg n) ++ [')'] else Nat.toDigits 10 n

/-- `/repo/tm/tape.py` L32-39 `Block.__str__`. -/
def pyBlock (lg : Nat → Nat) (b : Block) : List Char :=
  if b.count = 1 then Nat.toDigits 10 b.color
  else Nat.toDigits 10 b.color ++ '^' :: showNumber lg b.count

/-- `/repo/tm/tape.py` L66-70 `Tape.__str__`. -/
def pyTape (lg : Nat → Nat) (t : Tape) : List Char :=
  joinWith [' '] (t.lspan.reverse.map (pyBlock lg) ++ [['['] ++ Nat.toDigits 10 t.scan ++ [']']]
    ++ t.rspan.map (pyBlock lg))

/-- `/repo/src/tape.rs` L30-42 `Block::show`. -/
def rsBlock (b : Block) : List Char :=
  if b.count = 1 then Nat.toDigits 10 b.color
  else Nat.toDigits 10 b.color ++ '^' :: Nat.toDigits 10 b.count

/-- `/repo/src/tape.rs` L227-241 `Tape::fmt`. -/
def rsTape (t : Tape) : List Char :=
  joinWith [' '] ((t.lspan.map rsBlock).reverse ++ [['['] ++ Nat.toDigits 10 t.scan ++ [']']]
    ++ t.rspan.map rsBlock)

/-- `{}` of an `isize`. -/
def showInt : Int → List Char
  | .ofNat n => Nat.toDigits 10 n
  | .negSucc n => '-' :: Nat.toDigits 10 (n + 1)

/-- `/repo/src/tape.rs` L397-401 `HeadTape::fmt`. -/
def rsHeadTape (head : Int) (t : Tape) : List Char :=
  ['('] ++ showInt head ++ [')', ' '] ++ rsTape t

end TapeShow
end BB
