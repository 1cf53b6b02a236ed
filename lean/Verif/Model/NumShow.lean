import Verif.Model.Num
import Verif.Model.TapeShow

/-!
# Model of printing symbolic numbers

`/repo/tm/num.py`: `show_number` L2247-2258, `__repr__` of `Add` L172, `Mul` L375-379, `Div` L673,
`Exp` L841, and the attribute `leaves`.  `lg n` stands for the number that `'{:.0f}'.format(log10(n))` shows.
-/

namespace BB
namespace NumShow

open Sym (Num)

/-- `leaves` (L165-169, L366-372, L669, L833-838). -/
def leaves : Num → Nat
  | .int _ => 1
  | .add l r => leaves l + leaves r
  | .mul l r => leaves l + leaves r
  | .div n _ => 1 + leaves n
  | .exp _ e => 1 + leaves e

/-- `show_number` (L2247-2258), where `text` is `str(num)`. -/
def shorten (lg : Nat → Nat) (x : Num) (text : List Char) : List Char :=
  match x with
  | .int n =>
    if 10 ^ 12 ≤ n.natAbs then
      (if n < 0 then ['-'] else []) ++ "(~10^".toList ++ Nat.toDigits 10 (lg n.natAbs) ++ [')']
    else text
  | x => if 120 < leaves x then "(???)".toList else text

/-- `__repr__`, and `str` of an integer. -/
def repr (lg : Nat → Nat) : Num → List Char
  | .int n => TapeShow.showInt n
  | .add l r => ['('] ++ shorten lg l (repr lg l) ++ " + ".toList ++ repr lg r ++ [')']
  | .mul l r =>
    if l = .int (-1) then ['-'] ++ repr lg r
    else ['('] ++ shorten lg l (repr lg l) ++ " * ".toList ++ repr lg r ++ [')']
  | .div n d => ['('] ++ repr lg n ++ " // ".toList ++ TapeShow.showInt d ++ [')']
  | .exp b e => ['('] ++ TapeShow.showInt b ++ " ** ".toList ++ shorten lg e (repr lg e) ++ [')']

/-- `show_number`. -/
def showNumber (lg : Nat → Nat) (x : Num) : List Char := shorten lg x (repr lg x)

end NumShow
end BB
