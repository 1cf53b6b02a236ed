import Mathlib.Analysis.SpecialFunctions.Log.Base
import Mathlib.Data.Nat.Log
import Verif.Spec.Num

/-!
# What an estimate of a symbolic number means

The size of a number is its logarithm to base ten, or the height of a tower of powers.
-/

namespace BB
namespace Estimate

open BB.Sym (Num)

/-- All parts are positive, except that an integer may be added or subtracted that at most doubles or
halves the sum; exponents are integers.  Right operands and dividends are `Num`s, as the types of num.py
say. -/
def Sized : Num → Prop
  | .int n => 0 < n
  | .add l r => r.isInt = false ∧ Sized r ∧
    ((∃ n : Int, l = .int n ∧ -(r.val / 2) ≤ n ∧ (n : ℝ) ≤ r.val) ∨ (l.isInt = false ∧ Sized l))
  | .mul l r => Sized l ∧ r.isInt = false ∧ Sized r
  | .div n d => n.isInt = false ∧ Sized n ∧ 0 < d
  | .exp b e => 0 < b ∧ Sized e ∧ e.Exact

/-- How many integers are written in the number. -/
def ints : Num → Nat
  | .int _ => 1
  | .add l r => ints l + ints r
  | .mul l r => ints l + ints r
  | .div n _ => ints n + 1
  | .exp _ e => 1 + ints e

/-- `b ^ (b ^ (... ^ top))` with `h` times `b`. -/
noncomputable def tower (b : ℝ) : Nat → ℝ → ℝ
  | 0, top => top
  | h + 1, top => b ^ tower b h top

/-- How many decimal digits an integer has. -/
def len (n : Int) : Nat := Nat.log 10 n.natAbs + 1

/-- How many digits all the integers in the number have together, ten times. -/
def width : Num → Nat
  | .int n => 10 * len n
  | .add l r => width l + width r
  | .mul l r => width l + width r
  | .div n d => width n + 10 * len d
  | .exp b e => 10 * len b + width e

/-- Nothing is subtracted or divided, and all bases are two or more. -/
def Grows : Num → Prop
  | .int n => 0 < n
  | .add l r => Grows r ∧
    ((∃ n : Int, l = .int n ∧ 0 ≤ n) ∨ Grows l)
  | .mul l r => Grows l ∧ Grows r
  | .div _ _ => False
  | .exp b e => 2 ≤ b ∧ Grows e

end Estimate
end BB
