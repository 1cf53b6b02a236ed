import Verif.Model.Num

/-!
# Model of `Tet`

`/repo/tm/num.py` L1184-1270, the class `Tet`, with the comparisons it inherits from `Num` (L97-104), and
comparisons of other numbers with a `Tet`: `int` has none and Python asks the `Tet` the other way round,
`Exp.__lt__` does so itself (L1175-1176).

* `__rpow__` with another base makes an `Exp` with a `Tet` in it, which `Num` cannot hold: `none`.
* `other == self` in `__sub__` (L1251): only a `Tet` can be equal to a `Tet`.
* `__neg__`, `__int__`, `__mod__`, `__rmul__` and `__floordiv__` raise `NotImplementedError`; not modelled.
-/

namespace BB
namespace Tetra

open Sym (Num R)

/-- The fields (L1185-1186). -/
structure Tet where
  base : Int
  height : Int
deriving DecidableEq, Repr

/-- A number: as in `Model/Num`, or a `Tet`. -/
inductive Count
  | num (x : Num)
  | tet (t : Tet)
deriving DecidableEq, Repr

/-- `__eq__` (L1217-1222) -/
def Tet.eq (t : Tet) : Count → Bool
  | .tet u => t.base == u.base && t.height == u.height
  | .num _ => false

/-- `__lt__` (L1230-1245) -/
def Tet.lt (t : Tet) : Count → R Bool
  | .num (.int _) => .ok false
  | .tet u => if t.base = u.base then .ok (decide (t.height < u.height)) else .error .notImpl
  | .num (.exp _ e) => if e.isInt = true ∧ 2 < t.height then .ok false else .error .notImpl
  | .num _ => .error .other

/-- `__le__` (L97-98) -/
def Tet.le (t : Tet) (x : Count) : R Bool := if t.eq x then .ok true else t.lt x

/-- `__gt__` (L100-101) -/
def Tet.gt (t : Tet) (x : Count) : R Bool := if t.eq x then .ok false else (t.lt x).map (!·)

/-- `__ge__` (L103-104) -/
def Tet.ge (t : Tet) (x : Count) : R Bool := if t.eq x then .ok true else t.gt x

/-- `x < t` for an integer, a power (L1175-1176) or a `Tet`; others are in `Num.__lt__` and the like. -/
def below (x : Count) (t : Tet) : Option (R Bool) :=
  match x with
  | .num (.int n) => some (t.gt (.num (.int n)))
  | .num (.exp b e) => some (t.gt (.num (.exp b e)))
  | .tet u => some (u.lt (.tet t))
  | _ => none

/-- `__add__`, `__radd__` (L1247-1248, L1256-1257) -/
def Tet.add (t : Tet) (_ : Count) : Count := .tet t

/-- `__sub__` (L1250-1254) -/
def Tet.sub (t : Tet) (x : Count) : Count := if t.eq x then .num (.int 0) else .tet t

/-- `__mul__` (L1259-1260) -/
def Tet.mul (t : Tet) (_ : Count) : Count := .tet t

/-- `other ** t` (L1224-1228) -/
def rpow (other : Int) (t : Tet) : Option Tet :=
  if other ≠ t.base then none else some ⟨t.base, 1 + t.height⟩

end Tetra
end BB
