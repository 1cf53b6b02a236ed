import Verif.Model.Num

/-!
# Model of the estimates of symbolic numbers

`/repo/tm/num.py`: `Num.estimate` L45-58, the methods `digits` L184-191, L390-400, L703-704, L860-867,
and the attribute `tower_est` L166-170, L367-373, L671, L834-839.

* `lg b k` stands for `round(log10(b) * 10 ** log10(k))` (L867), and `lg n 1` for `round(log10(n))`.  It is a
  parameter: what is proved holds for every rounding that is near enough.  It may raise `OverflowError`,
  which `10 ** log10(k)` does from about `10 ** 308` on.
* `log10` of a number that is not positive raises `ValueError`.
* `Tet` (L1184-1194) is only what `estimate` returns here; its arithmetic is not modelled, except that
  `-Tet` raises (L1208-1209).
-/

namespace BB
namespace Estimate

open BB.Sym (Num Ops)

/-- The exceptions: `OverflowError`, which `estimate` catches, and the rest. -/
inductive Bad
  | overflow
  | other
deriving DecidableEq, Repr

abbrev Res := Except Bad

/-- The end of `Exp.digits` (L867), where the exponent is an integer. -/
def power (lg : Int → Int → Res Int) (b k : Int) : Res Int :=
  if 0 < b ∧ 0 < k then lg b k else .error .other

/-- `digits`.  Integers have no such method. -/
def digits (lg : Int → Int → Res Int) : Num → Res Int
  | .int _ => .error .other
  | .add l r => do
    let d ← digits lg r
    match l with
    | .int _ => .ok d
    | l => do return max (← digits lg l) d
  | .mul l r => do
    let d ← digits lg r
    match l with
    | .int n =>
      if 0 < n then do return d + (← lg n 1)
      else if n < 0 then do return d + -(← lg (-n) 1)
      else .error .other
    | l => do return d + (← digits lg l)
  | .div n d => do
    let k ← digits lg n
    return k - (← lg d 1)
  | .exp b e =>
    match e with
    | .int k => power lg b k
    | e => do
      let d ← digits lg e
      if 10 ≤ d then .error .overflow
      else
        match e.toInt with
        | none => .error .other
        | some k => power lg b k

/-- `tower_est`; 0 for an integer. -/
def towerEst : Num → Nat
  | .int _ => 0
  | .add l r => max (towerEst l) (towerEst r)
  | .mul l r => max (towerEst l) (towerEst r)
  | .div n _ => towerEst n
  | .exp _ e =>
    match e with
    | .int k => if 10 ≤ k then 2 else 1
    | e => 1 + towerEst e

/-- What `estimate` returns: `Exp(10, d)`, `-Exp(10, d)` or `Tet(10, h)`. -/
inductive Est
  | pow (d : Int)
  | negPow (d : Int)
  | tet (h : Nat)
deriving DecidableEq, Repr

/-- `make_exp(10, digits)`: `Exp.__init__` computes `log10(digits)` (L834). -/
def tenTo (d : Int) : Res Est := if 0 < d then .ok (.pow d) else .error .other

/-- `-est` -/
def Est.neg : Est → Res Est
  | .pow d => .ok (.negPow d)
  | .negPow d => .ok (.pow d)
  | .tet _ => .error .other

/-- `Num.estimate` (L45-58) without its last line. -/
def size (lg : Int → Int → Res Int) (x : Num) : Res Est :=
  if 3 < towerEst x then .ok (.tet (towerEst x))
  else
    match digits lg x with
    | .error .overflow => .ok (.tet (towerEst x))
    | .error .other => .error .other
    | .ok d => tenTo d

/-- `Num.estimate` (L45-58). -/
def estimate (lg : Int → Int → Res Int) (o : Ops) (x : Num) : Res Est := do
  let est ← size lg x
  match o.lt x (.int 0) with
  | .error _ => .error .other
  | .ok true => est.neg
  | .ok false => .ok est

end Estimate
end BB
