/-
Model of the symbolic numbers of /repo/tm/num.py (lines 1-1349).

A `Count` is a Python integer or a `Num`.  The classes `Add`, `Mul`, `Div` and `Exp` become the
constructors of one inductive type; `int` is the constructor for Python integers.

How the Python is read:

* `ADDS`, `MULS`, `DIVS`, `EXPS` (L23-26) hash-cons every `Num`, so that identity of objects, which is
  what `Num.__eq__` (L66) tests, is equality of terms.  The model uses equality of terms.
* Python's operators call each other without a visible bound.  `Ops` is the record of the operators,
  `Ops.step` writes every operator once in terms of the operators it calls, and `ops n` is the
  operators with at most `n` nested calls; a deeper call is the error `fuel` (Python: RecursionError).
* `raise NotImplementedError` is the error `notImpl`, which `try ... except NotImplementedError`
  catches.  A failed `assert`, a `ValueError`, `ZeroDivisionError` or a float where an integer is
  needed is the error `other`, which nothing catches.
* Floats: `int(log(l, base))` in `gcd` (L1322) is an arbitrary function `flog`, so that what is proved
  holds whatever the rounding does.  `sqrt` in `make_exp` (L808-812) and the quotient in `Mul.__lt__`
  (L614, L620) are taken exact.
* `Tet` (L1184), which only `estimate` makes, and the printing (`__repr__`, `digits`, `leaves`,
  `tower_est`, `__contains__`) are left out.
* `strict` is not in the Python.  With `strict = true` two branches stop with the error `strict`: the
  sum of two `Div`s with a common factor when the smaller denominator does not divide the larger
  (L722-723), and a `//` between Python integers that is not exact.  `strict = false` is the program.
-/
import Mathlib.Data.Rat.Floor

namespace BB
namespace Sym

/-- `type Count = int | Num` (num.py L20) with the classes of L154, L348, L657, L823. -/
inductive Num
  | int (n : Int)
  | add (l r : Num)
  | mul (l r : Num)
  | div (num : Num) (den : Int)
  | exp (base : Int) (e : Num)
deriving DecidableEq, Repr

/-- The exceptions. -/
inductive Err
  | notImpl
  | other
  | fuel
  | strict
deriving DecidableEq, Repr

abbrev R := Except Err

/-- `isinstance(x, int)`. -/
def Num.isInt : Num → Bool
  | .int _ => true
  | _ => false

/-- `depth` (num.py L162, L363, L667, L832-837). -/
def Num.depth : Num → Nat
  | .int _ => 0
  | .add _ r => 1 + r.depth
  | .mul _ r => 1 + r.depth
  | .div n _ => 1 + n.depth
  | .exp _ e => match e with
    | .int _ => 1
    | e => 1 + e.depth

/-- `int(x)` (num.py L181, L387, L682, L857).  A negative power is a float in Python: `none`. -/
def Num.toInt : Num → Option Int
  | .int n => some n
  | .add l r => do return (← l.toInt) + (← r.toInt)
  | .mul l r => do return (← l.toInt) * (← r.toInt)
  | .div n d => do return (← n.toInt).fdiv d
  | .exp b e => do
    let k ← e.toInt
    if k < 0 then none else some (b ^ k.toNat)

/-- The operators of `Count`. -/
structure Ops where
  add : Num → Num → R Num
  sub : Num → Num → R Num
  mul : Num → Num → R Num
  fdiv : Num → Num → R Num
  neg : Num → R Num
  lt : Num → Num → R Bool

def fail : Ops where
  add _ _ := .error .fuel
  sub _ _ := .error .fuel
  mul _ _ := .error .fuel
  fdiv _ _ := .error .fuel
  neg _ := .error .fuel
  lt _ _ := .error .fuel

/-- `try: return x except NotImplementedError: pass`, followed by `y`. -/
def tryNI {α : Type} (x y : R α) : R α :=
  match x with
  | .error .notImpl => y
  | r => r

/-- `x and y`. -/
def andR (x y : R Bool) : R Bool := do
  if ← x then y else return false

/-- `x or y`. -/
def orR (x y : R Bool) : R Bool := do
  if ← x then return true else y

def notR (x : R Bool) : R Bool := do return !(← x)

/-- `x > y` (num.py L100; for integers the reflected operator). -/
def gt (o : Ops) (x y : Num) : R Bool :=
  match x with
  | .int a =>
    match y with
    | .int b => .ok (decide (a > b))
    | y => o.lt y x
  | x => if x = y then .ok false else notR (o.lt x y)

/-- `x <= y` (num.py L97; for integers the reflected `__ge__` of L103). -/
def le (o : Ops) (x y : Num) : R Bool :=
  match x with
  | .int a =>
    match y with
    | .int b => .ok (decide (a ≤ b))
    | y => notR (o.lt y x)
  | x => if x = y then .ok true else o.lt x y

/-! ### Constructors -/

/-- `make_add` (num.py L142-152). -/
def makeAdd (l r : Num) : Num :=
  if !l.isInt && decide (r.depth < l.depth) then .add r l else .add l r

/-- `if c: assert x`. -/
def assertIf (c : Bool) (x : R Bool) : R Unit :=
  if c then do
    if ← x then return () else throw .other
  else .ok ()

/-- `isinstance(x, Exp)`. -/
def isExp : Num → Bool
  | .exp _ _ => true
  | _ => false

/-- `Mul.__init__` (num.py L352-373). -/
def mulInit (o : Ops) (l r : Num) : R Num := do
  let lneg ← o.lt l (.int 0)
  let _ ← assertIf lneg (gt o r (.int 0))
  let rneg ← o.lt r (.int 0)
  let _ ← assertIf rneg (andR (gt o l (.int 0)) (.ok (!l.isInt)))
  if l.isInt && !isExp r then .error .other else .ok (.mul l r)

/-- `make_mul` (num.py L335-345). -/
def makeMul (o : Ops) (l r : Num) : R Num :=
  if !l.isInt && decide (r.depth < l.depth) then mulInit o r l else mulInit o l r

/-- `make_div` (num.py L647-654) with the assertion of L662. -/
def makeDiv (num : Num) (den : Int) : R Num :=
  if 0 < den then .ok (.div num den) else .error .other

/-- The end of `make_exp` (num.py L814-820) with `Exp.__init__` (L827-839): `log10` of an exponent that
is a non-positive integer is a `ValueError`. -/
def expInit (base : Int) (e : Num) : R Num :=
  match e with
  | .int k => if k ≤ 0 then .error .other else .ok (.exp base e)
  | e => .ok (.exp base e)

/-- The loop of `make_exp` (num.py L799-812). -/
def makeExpLoop (o : Ops) : Nat → Int → Num → R Num
  | 0, _, _ => .error .fuel
  | n + 1, base, e =>
    if base ≤ 1 then expInit base e
    else if base = 8 then do
      let e' ← o.mul e (.int 3)
      expInit 2 e'
    else
      let root : Int := base.toNat.sqrt
      if root * root ≠ base then expInit base e
      else do
        let e' ← o.mul e (.int 2)
        makeExpLoop o n root e'

/-- `make_exp` (num.py L798-820). -/
def makeExp (o : Ops) (base : Int) (e : Num) : R Num :=
  makeExpLoop o (base.toNat + 1) base e

/-- The loops of L1079-1084 and L1107-1112: strip the factor `base` from `other`, counting.  The
Python loops for ever when `other` is zero or `base` is `1` or `-1`, and divides by zero when `base`
is zero. -/
def stripLoop : Nat → Int → Int → Nat → R (Int × Nat)
  | 0, _, _, _ => .error .fuel
  | n + 1, other, base, i =>
    if base = 0 then .error .other
    else if other.fmod base ≠ 0 then .ok (other, i)
    else stripLoop n (other.fdiv base) base (i + 1)

def strip (other base : Int) : R (Int × Nat) :=
  stripLoop (other.natAbs + 1) other base 0

/-! ### `gcd` -/

/-- The loop of `gcd` (num.py L1326-1331) from exponent `blog`. -/
def gcdLoop (l base : Int) : Nat → Int
  | 0 => 1
  | k + 1 => if l.fmod (base ^ (k + 1)) = 0 then base ^ (k + 1) else gcdLoop l base k

/-- `gcd` (num.py L1295-1333).  `flog l base` is `int(log(l, base))`. -/
def gcd (flog : Int → Int → Nat) (l : Int) : Num → R Int
  | .int r => if l = 1 then .ok 1 else .ok (Int.gcd l r)
  | .add rl rr =>
    if l = 1 then .ok 1 else do
      let lgcd ← gcd flog l rl
      if lgcd = 1 then return 1
      else
        let rgcd ← gcd flog l rr
        if rgcd = 1 then return 1 else return min lgcd rgcd
  | .mul rl rr =>
    if l = 1 then .ok 1 else do
      let lgcd ← gcd flog l rl
      let rgcd ← gcd flog l rr
      return max lgcd rgcd
  | .div _ _ => if l = 1 then .ok 1 else .error .other
  | .exp base _ =>
    if l = 1 then .ok 1
    else if l = base then .ok l
    else if base = 0 then .error .other
    else if l.fmod base ≠ 0 then .ok (Int.gcd l base)
    else if l ≤ 0 ∨ base ≤ 1 then .error .other
    else .ok (gcdLoop l base (flog l base))

/-! ### `add_exponents` -/

/-- `base ** diff` for an integer `base` (num.py L1287): a negative integer power is a float. -/
def powInt (o : Ops) (base : Int) (diff : Num) : R Num :=
  match diff with
  | .int k => if k < 0 then .error .other else .ok (.int (base ^ k.toNat))
  | diff => makeExp o base diff

/-- `diff_exp` (num.py L1286-1290). -/
def diffPow (o : Ops) (small : Bool) (base : Int) (diff : Num) : R Num :=
  if small then powInt o base diff else makeExp o base diff

/-- Second half of `add_exponents` (num.py L1283-1292), after the swap. -/
def addExponentsOrd (o : Ops) (base : Int) (le_ : Num) (lco : Num) (re : Num) (rco : Num) :
    R Num := do
  if !(← le o le_ re) then throw .notImpl
  else
    let diff ← o.sub re le_
    let small ← o.lt diff (.int 1000)
    let diffExp ← diffPow o small base diff
    let x ← o.mul rco diffExp
    let y ← o.add lco x
    o.mul y (.exp base le_)

/-- `add_exponents` (num.py L1269-1292) of `lco * lb ** le_` and `rco * rb ** re`. -/
def addExponents (o : Ops) (lb : Int) (le_ lco : Num) (rb : Int) (re rco : Num) : R Num :=
  if lb = rb ∧ le_ = re then do
    let s ← o.add lco rco
    o.mul s (.exp lb le_)
  else if lb ≠ rb then .error .other
  else do
    if ← gt o le_ re then addExponentsOrd o lb re rco le_ lco
    else addExponentsOrd o lb le_ lco re rco

/-! ### `Add` -/

/-- `Add.__neg__` (num.py L199). -/
def addNeg (o : Ops) (l r : Num) : R Num := do
  let x ← o.neg l
  let y ← o.neg r
  o.add x y

/-- `Add.__radd__` (num.py L202). -/
def addRadd (o : Ops) (l r : Num) (n : Int) : R Num :=
  if n = 0 then .ok (.add l r)
  else if l.isInt then do
    let x ← o.add l (.int n)
    o.add x r
  else .ok (makeAdd (.int n) (.add l r))

/-- Last part of `Add.__add__` (num.py L232-238). -/
def addAddRest (o : Ops) (l r other : Num) : R Num :=
  if l.isInt then do
    let x ← o.add other r
    o.add l x
  else if other.depth < l.depth ∧ l.depth ≤ 8 then do
    let x ← o.add other l
    o.add x r
  else .ok (makeAdd (.add l r) other)

/-- `Add.__add__` (num.py L211-238). -/
def addAdd (o : Ops) (l r other : Num) : R Num :=
  match other with
  | .int n =>
    if n = 0 then .ok (.add l r)
    else if !l.isInt then .ok (makeAdd other (.add l r))
    else do
      let x ← o.add l other
      o.add x r
  | .add lo ro =>
    if lo.isInt then do
      let x ← o.add lo l
      let y ← o.add r ro
      o.add x y
    else if .add l r = lo then do
      let x ← o.mul (.int 2) (.add l r)
      o.add x ro
    else addAddRest o l r other
  | other => addAddRest o l r other

/-- `Add.__sub__` (num.py L240-253). -/
def addSub (o : Ops) (l r other : Num) : R Num :=
  if other = .int 0 then .ok (.add l r)
  else if .add l r = other then .ok (.int 0)
  else match other with
    | .add lo ro =>
      if l.isInt && lo.isInt then do
        let x ← o.sub l lo
        let y ← o.sub r ro
        o.add x y
      else do
        let x ← o.neg other
        o.add (.add l r) x
    | other => do
      let x ← o.neg other
      o.add (.add l r) x

/-- `Add.__mul__` (num.py L255-259). -/
def addMul (o : Ops) (l r other : Num) : R Num :=
  match other with
  | .int _ => o.mul other (.add l r)
  | other => makeMul o (.add l r) other

/-- `Add.__rmul__` (num.py L261-273). -/
def addRmul (o : Ops) (l r : Num) (n : Int) : R Num :=
  if n = 0 then .ok (.int 0)
  else if n = 1 then .ok (.add l r)
  else if n = -1 then o.neg (.add l r)
  else do
    let x ← o.mul (.int n) l
    let y ← o.mul (.int n) r
    o.add x y

/-- `Add.__floordiv__` (num.py L275-286). -/
def addFdiv (flog : Int → Int → Nat) (o : Ops) (l r other : Num) : R Num :=
  match other with
  | .int d =>
    if d = 1 then .ok (.add l r)
    else do
      let lgcd ← gcd flog d l
      if lgcd = 1 then makeDiv (.add l r) d
      else
        let rgcd ← gcd flog d r
        if rgcd = 1 then makeDiv (.add l r) d
        else
          let dv : Int := Int.gcd lgcd rgcd
          if dv = 1 then makeDiv (.add l r) d
          else
            let x ← o.fdiv l (.int dv)
            let y ← o.fdiv r (.int dv)
            let s ← o.add x y
            o.fdiv s (.int (d.fdiv dv))
  | _ => .error .other

/-- `abs(l) < 10` for an integer (num.py L92, L326). -/
def smallInt (x : Num) : Bool :=
  match x with
  | .int n => decide (n.natAbs < 10)
  | _ => false

/-- Last part of `Add.__lt__` (num.py L322-332). -/
def addLtRest (o : Ops) (l r other : Num) : R Bool :=
  if other = r then o.lt l (.int 0)
  else if l.isInt then
    if smallInt l then o.lt r other else .error .notImpl
  else if other = l then o.lt r (.int 0)
  else .error .notImpl

/-- `Add.__lt__` (num.py L288-332). -/
def addLt (o : Ops) (l r other : Num) : R Bool :=
  match other with
  | .int _ =>
    if l.isInt then o.lt r (.int 0)
    else do
      if ← andR (o.lt l (.int 0)) (o.lt r (.int 0)) then return true
      else if ← andR (o.lt (.int 0) l) (o.lt (.int 0) r) then return false
      else addLtRest o l r other
  | .add lo ro =>
    if .add l r = ro then gt o lo (.int 0)
    else if l = lo then o.lt r ro
    else if r = ro then o.lt l lo
    else if l = ro then o.lt r lo
    else if l.isInt && lo.isInt then o.lt r ro
    else do
      if ← andR (o.lt l lo) (o.lt r lo) then return true
      else addLtRest o l r other
  | other => addLtRest o l r other

/-! ### `Num.__lt__` -/

/-- The two `try` blocks and the two tests of L73-89 and L157-173; `none` when they fall through. -/
def ltParts (o : Ops) (self l r : Num) : R (Option Bool) := do
  if ← tryNI (andR (le o self r) (gt o l (.int 0))) (.ok false) then return some true
  else if ← tryNI (andR (le o self l) (gt o r (.int 0))) (.ok false) then return some true
  else if self = r then
    let b ← o.lt (.int 0) l
    return some b
  else if self = l then
    let b ← o.lt (.int 0) r
    return some b
  else return none

/-- `Num.__lt__` (num.py L69-95). -/
def baseLt (o : Ops) (self other : Num) : R Bool :=
  match other with
  | .add l r => do
    match ← ltParts o self l r with
    | some b => return b
    | none => if smallInt l then o.lt self r else throw .notImpl
  | .mul l r => do
    match ← ltParts o self l r with
    | some b => return b
    | none => throw .notImpl
  | _ => .error .notImpl

/-! ### `Exp.multiplies_with` -/

/-- `Exp.multiplies_with` (num.py L1020-1030). -/
def multipliesWith (base : Int) : Num → Bool
  | .exp b _ => b = base
  | .mul l r => multipliesWith base l || multipliesWith base r
  | _ => false

/-! ### `Mul` -/

/-- `Mul.__neg__` (num.py L406). -/
def mulNeg (o : Ops) (l r : Num) : R Num := do
  let x ← o.neg l
  o.mul x r

/-- `Mul.__mul__` (num.py L421-437). -/
def mulMul (o : Ops) (l r other : Num) : R Num :=
  match other with
  | .int _ => o.mul other (.mul l r)
  | other =>
    if l = .int (-1) then do
      let x ← o.mul r other
      o.mul (.int (-1)) x
    else match other with
      | .exp b _ =>
        if multipliesWith b r then do
          let x ← o.mul r other
          o.mul l x
        else do
          let x ← o.mul l other
          o.mul x r
      | .div n d => do
        let x ← o.mul (.mul l r) n
        o.fdiv x (.int d)
      | other => do
        let x ← o.mul l other
        o.mul x r

/-- `Mul.__rmul__` (num.py L439-456). -/
def mulRmul (o : Ops) (l r : Num) (n : Int) : R Num :=
  if n = -1 then
    if l = .int (-1) then .ok r
    else match l, r with
      | .int k, r => o.mul (.int (-k)) r
      | .exp _ _, .add _ _ => do
        let x ← o.neg r
        o.mul l x
      | _, _ => .error .other
  else if n = 1 then .ok (.mul l r)
  else do
    let x ← o.mul (.int n) l
    o.mul x r

/-- End of `Mul.__add__` (num.py L528-531). -/
def mulAddRest (l r other : Num) : R Num :=
  if l = .int (-1) ∧ other = r then .ok (.int 0)
  else .ok (makeAdd (.mul l r) other)

/-- `not isinstance(nr, Add) or (nr.l != r and nr.l != ro)` (num.py L477-478). -/
def factorsOut (nr r ro : Num) : Bool :=
  match nr with
  | .add nl _ => decide (nl ≠ r) && decide (nl ≠ ro)
  | _ => true

/-- Second half of the `Mul` case of `Mul.__add__` (num.py L481-502). -/
def mulAddMul2 (o : Ops) (l r lo ro : Num) : R Num :=
  if l = ro then do
    let x ← o.add r lo
    o.mul l x
  else if r = lo then do
    let x ← o.add l ro
    o.mul x r
  else
    let rest := mulAddRest l r (.mul lo ro)
    match r with
    | .exp b e =>
      let second :=
        match lo with
        | .exp b2 e2 =>
          if b ≠ b2 then .error .other
          else tryNI (addExponents o b e l b2 e2 ro) rest
        | _ => rest
      match ro with
      | .exp b1 e1 =>
        if b ≠ b1 then .error .other
        else tryNI (addExponents o b e l b1 e1 lo) second
      | _ => second
    | _ => rest

/-- The `Mul` case of `Mul.__add__` (num.py L470-502). -/
def mulAddMul (o : Ops) (l r lo ro : Num) : R Num :=
  if r = ro then do
    let x ← o.add l lo
    o.mul x r
  else if l ≠ .int (-1) ∧ l = lo then do
    let nr ← o.add r ro
    if factorsOut nr r ro then o.mul l nr else mulAddMul2 o l r lo ro
  else mulAddMul2 o l r lo ro

/-- `isinstance(x, Mul) and x.l == l` (num.py L511-516). -/
def isMulOf (l x : Num) : Bool :=
  match x with
  | .mul l' _ => decide (l' = l)
  | _ => false

/-- `Mul.__add__` (num.py L464-531). -/
def mulAdd (o : Ops) (l r other : Num) : R Num :=
  match other with
  | .int n => if n = 0 then .ok (.mul l r) else .ok (makeAdd other (.mul l r))
  | .mul lo ro => mulAddMul o l r lo ro
  | .add lo ro =>
    if lo.isInt then do
      let x ← o.add ro (.mul l r)
      o.add lo x
    else if l ≠ .int (-1) ∧ isMulOf l lo then do
      let x ← o.add (.mul l r) lo
      o.add x ro
    else if (l ≠ .int (-1) ∧ isMulOf l ro) ∨ lo.depth < (Num.mul l r).depth then do
      let x ← o.add (.mul l r) ro
      o.add lo x
    else mulAddRest l r other
  | .exp _ _ => o.add other (.mul l r)
  | .div _ _ => o.add other (.mul l r)

/-- `Mul.__radd__` (num.py L458-462). -/
def mulRadd (l r : Num) (n : Int) : R Num :=
  if n = 0 then .ok (.mul l r) else .ok (makeAdd (.int n) (.mul l r))

/-- End of `Mul.__sub__` (num.py L558-561). -/
def mulSubRest (o : Ops) (l r other : Num) : R Num :=
  if other = l then do
    let x ← o.sub r (.int 1)
    o.mul l x
  else do
    let x ← o.neg other
    o.add (.mul l r) x

/-- `Mul.__sub__` (num.py L533-561). -/
def mulSub (o : Ops) (l r other : Num) : R Num :=
  match other with
  | .mul lo ro =>
    if l = lo ∧ r = ro then .ok (.int 0)
    else if l = lo then do
      let x ← o.sub r ro
      o.mul l x
    else if r = ro then do
      let x ← o.sub l lo
      o.mul x r
    else mulSubRest o l r other
  | .int n =>
    if n = 0 then .ok (.mul l r) else o.add (.int (-n)) (.mul l r)
  | .add lo ro =>
    if .mul l r = ro then o.neg lo else mulSubRest o l r other
  | other => mulSubRest o l r other

/-- `Mul.__floordiv__` (num.py L563-577). -/
def mulFdiv (flog : Int → Int → Nat) (o : Ops) (l r other : Num) : R Num :=
  match other with
  | .int d =>
    if d = 1 then .ok (.mul l r)
    else do
      let lgcd ← gcd flog d l
      if 1 < lgcd then
        let x ← o.fdiv l (.int lgcd)
        let y ← o.mul x r
        o.fdiv y (.int (d.fdiv lgcd))
      else
        let rgcd ← gcd flog d r
        if 1 < rgcd then
          let x ← o.fdiv r (.int rgcd)
          let y ← o.mul l x
          o.fdiv y (.int (d.fdiv rgcd))
        else makeDiv (.mul l r) d
  | _ => .error .other

/-- Comparison of two integer multiples of powers (num.py L600-620); `none` when it does not apply. -/
def coefLt (o : Ops) (l r lo ro : Num) : R (Option Bool) :=
  match l, r, lo, ro with
  | .int l, .exp base rexp, .int lo, .exp base' roexp =>
    if base ≠ base' then .error .other
    else if rexp = roexp then .ok (some (decide (l < lo)))
    else do
      if ← o.lt rexp roexp then
        match ← o.sub roexp rexp with
        | .int diff =>
          if lo = 0 then throw .other
          else return some (decide (((⌈(l : ℚ) / (lo : ℚ)⌉ : ℤ) : ℚ) ≤ (base : ℚ) ^ diff))
        | _ => return some true
      else
        match ← o.sub rexp roexp with
        | .int diff =>
          if l = 0 then throw .other
          else return some (decide (((⌈(lo : ℚ) / (l : ℚ)⌉ : ℤ) : ℚ) > (base : ℚ) ^ diff))
        | _ => return some false
  | _, _, _, _ => .ok none

/-- `isinstance(r, Add) and r.l == -1 and r.r == other` (num.py L641). -/
def isPred (r other : Num) : Bool :=
  match r with
  | .add rl rr => decide (rl = .int (-1)) && decide (rr = other)
  | _ => false

/-- Second half of `Mul.__lt__` (num.py L622-644). -/
def mulLtRest (o : Ops) (l r other : Num) : R Bool := do
  if ← o.lt l (.int 0) then
    if ← o.lt other (.int 0) then throw .notImpl else return true
  else if ← tryNI
      (orR (andR (le o other l) (o.lt (.int 0) r)) (andR (le o other r) (o.lt (.int 0) l)))
      (.ok false) then return false
  else if ← orR (andR (o.lt l other) (o.lt r (.int 0))) (andR (o.lt r other) (o.lt l (.int 0))) then
    return true
  else if ← andR (.ok (isExp other)) (andR (o.lt (.int 0) l) (o.lt l (.int 10))) then o.lt r other
  else if ← andR (o.lt (.int 0) l) (.ok (isPred r other)) then return false
  else baseLt o (.mul l r) other

/-- `Mul.__lt__` (num.py L579-644). -/
def mulLt (o : Ops) (l r other : Num) : R Bool :=
  match other with
  | .int _ => o.lt l (.int 0)
  | .mul lo ro =>
    if l = lo then o.lt r ro
    else if r = ro then o.lt l lo
    else if l = ro then o.lt r lo
    else if r = lo then o.lt l ro
    else do
      match ← coefLt o l r lo ro with
      | some b => return b
      | none => mulLtRest o l r other
  | other => mulLtRest o l r other

/-! ### `Div` -/

/-- `Div.__neg__` (num.py L685). -/
def divNeg (o : Ops) (num : Num) (den : Int) : R Num := do
  let x ← o.neg num
  o.fdiv x (.int den)

/-- `Div.__add__` (num.py L707-725).  The branch of L722-723 is exact only when `oden` divides `den`;
`strict` stops there when it does not. -/
def divAdd (strict : Bool) (o : Ops) (num : Num) (den : Int) (other : Num) : R Num :=
  if other = .int 0 then .ok (.div num den)
  else match other with
    | .div onum oden =>
      if den = oden then do
        let x ← o.add num onum
        o.fdiv x (.int den)
      else if den < oden then o.add other (.div num den)
      else if 1 < Int.gcd den oden then
        if strict && decide (¬ oden ∣ den) then .error .strict
        else do
          let x ← o.mul (.int (den.fdiv oden)) onum
          let y ← o.add num x
          o.fdiv y (.int den)
      else do
        let x ← o.mul (.int oden) num
        let y ← o.mul (.int den) onum
        let s ← o.add x y
        o.fdiv s (.int (den * oden))
    | other => do
      let x ← o.mul other (.int den)
      let y ← o.add num x
      o.fdiv y (.int den)

/-- `Div.__radd__` (num.py L727-731). -/
def divRadd (o : Ops) (num : Num) (den : Int) (n : Int) : R Num :=
  if n = 0 then .ok (.div num den)
  else do
    let x ← o.add (.int (n * den)) num
    o.fdiv x (.int den)

/-- `Div.__sub__` (num.py L733-745). -/
def divSub (o : Ops) (num : Num) (den : Int) (other : Num) : R Num :=
  if other = .int 0 then .ok (.div num den)
  else if .div num den = other then .ok (.int 0)
  else match other with
    | .div onum oden =>
      if den = oden then do
        let x ← o.sub num onum
        o.fdiv x (.int den)
      else .error .other
    | .int n => o.add (.int (-n)) (.div num den)
    | _ => .error .other

/-- `Div.__mul__` (num.py L747-757). -/
def divMul (o : Ops) (num : Num) (den : Int) (other : Num) : R Num :=
  match other with
  | .int n =>
    if n = den then .ok num
    else
      let cden : Int := Int.gcd den n
      if 1 < cden then do
        let x ← o.mul (.int (n.fdiv cden)) num
        o.fdiv x (.int (den.fdiv cden))
      else do
        let x ← o.mul num other
        o.fdiv x (.int den)
  | other => do
    let x ← o.mul num other
    o.fdiv x (.int den)

/-- `Div.__rmul__` (num.py L759-771). -/
def divRmul (o : Ops) (num : Num) (den : Int) (n : Int) : R Num :=
  if n = 0 then .ok (.int 0)
  else if n = 1 then .ok (.div num den)
  else if 0 < n then o.mul (.div num den) (.int n)
  else do
    let x ← o.mul (.div num den) (.int (-n))
    o.neg x

/-- `Div.__floordiv__` (num.py L773-784). -/
def divFdiv (flog : Int → Int → Nat) (o : Ops) (num : Num) (den : Int) (other : Num) : R Num :=
  match other with
  | .int d =>
    if d = 1 then .ok (.div num den)
    else do
      let cden ← gcd flog d num
      if cden = 1 then makeDiv num (d * den)
      else
        let x ← o.fdiv num (.int cden)
        o.fdiv x (.int (d.fdiv cden * den))
  | _ => .error .other

/-- `Div.__lt__` (num.py L786-795). -/
def divLt (o : Ops) (num : Num) (den : Int) (other : Num) : R Bool :=
  match other with
  | .int _ => o.lt num (.int 0)
  | .div onum oden => if den ≠ oden then .error .other else o.lt num onum
  | _ => .error .notImpl

/-! ### `Exp` -/

/-- `Exp.__radd__` (num.py L949-953). -/
def expRadd (b : Int) (e : Num) (n : Int) : R Num :=
  if n = 0 then .ok (.exp b e) else .ok (makeAdd (.int n) (.exp b e))

/-- `Exp.__add__` (num.py L955-1001). -/
def expAdd (o : Ops) (b : Int) (e other : Num) : R Num :=
  let rest := .ok (makeAdd (.exp b e) other)
  match other with
  | .int n => if n = 0 then .ok (.exp b e) else .ok (makeAdd other (.exp b e))
  | .mul l r =>
    let second :=
      match l with
      | .exp b2 e2 =>
        if b2 ≠ b then .error .other
        else tryNI (addExponents o b e (.int 1) b2 e2 r) rest
      | _ => rest
    match r with
    | .exp b1 e1 =>
      if b1 ≠ b then .error .other
      else tryNI (addExponents o b e (.int 1) b1 e1 l) second
    | _ => second
  | .exp b' e' =>
    if b ≠ b' then .error .other
    else if b = 2 ∧ e = e' then do
      let x ← o.add (.int 1) e
      makeExp o 2 x
    else tryNI (addExponents o b e (.int 1) b' e' (.int 1)) rest
  | .div _ _ => o.add other (.exp b e)
  | .add lo ro =>
    if lo.isInt then do
      let x ← o.add (.exp b e) ro
      o.add lo x
    else rest

/-- `Exp.__sub__` (num.py L1003-1018). -/
def expSub (o : Ops) (b : Int) (e other : Num) : R Num :=
  if other = .int 0 then .ok (.exp b e)
  else if .exp b e = other then .ok (.int 0)
  else match other with
    | .exp b' e' =>
      if b ≠ b' then .error .other
      else addExponents o b e (.int 1) b' e' (.int (-1))
    | .int n => .ok (makeAdd (.int (-n)) (.exp b e))
    | other => do
      let x ← o.neg other
      o.add (.exp b e) x

/-- `Exp.__mul__` (num.py L1032-1057). -/
def expMul (o : Ops) (b : Int) (e other : Num) : R Num :=
  match other with
  | .int _ => o.mul other (.exp b e)
  | .exp b' e' =>
    if b ≠ b' then .error .other
    else do
      let x ← o.add e e'
      makeExp o b x
  | .add lo ro => do
    let x ← o.mul (.exp b e) lo
    let y ← o.mul (.exp b e) ro
    o.add x y
  | .mul l r =>
    if l.isInt then do
      let x ← o.mul (.exp b e) r
      o.mul l x
    else if multipliesWith b l then do
      let x ← o.mul (.exp b e) l
      o.mul x r
    else if multipliesWith b r then do
      let x ← o.mul (.exp b e) r
      o.mul l x
    else makeMul o (.exp b e) other
  | .div _ _ => .error .other

/-- `Exp.__rmul__` (num.py L1059-1086). -/
def expRmul (o : Ops) (b : Int) (e : Num) (n : Int) : R Num :=
  if n = 0 then .ok (.int 0)
  else if n = 1 then .ok (.exp b e)
  else if n = -1 then makeMul o (.int (-1)) (.exp b e)
  else if b = 0 then .error .other
  else if n < -1 ∧ (-n).fmod b = 0 then do
    let x ← o.mul (.int (-n)) (.exp b e)
    o.neg x
  else if n.fmod b ≠ 0 then makeMul o (.int n) (.exp b e)
  else do
    let (m, i) ← strip n b
    let e' ← o.add e (.int i)
    let x ← makeExp o b e'
    o.mul (.int m) x

/-- The end of `Exp.__floordiv__` (num.py L1099-1105, L1120-1124): `1` or `base` when the exponent is
the integer `0` or `1`. -/
def expOf (o : Ops) (b : Int) (e : Num) : R Num :=
  if e = .int 0 then .ok (.int 1)
  else if e = .int 1 then .ok (.int b)
  else makeExp o b e

/-- `Exp.__floordiv__` (num.py L1088-1124). -/
def expFdiv (o : Ops) (b : Int) (e other : Num) : R Num :=
  match other with
  | .int d =>
    if d = 1 then .ok (.exp b e)
    else do
      let (m, i) ← strip d b
      let e' ← o.sub e (.int i)
      if 1 < m then
        if b ≤ m then throw .other
        else if b.fmod m ≠ 0 then throw .other
        else
          let e'' ← o.sub e' (.int 1)
          let x ← makeExp o b e''
          o.mul (.int (b.fdiv m)) x
      else expOf o b e'
  | .exp b' e' =>
    if b' ≠ b then .error .other
    else do
      if !(← le o e' e) then throw .other
      else
        let diff ← o.sub e e'
        expOf o b diff
  | _ => .error .other

/-- End of the `Mul` case of `Exp.__lt__` (num.py L1157-1178). -/
def expLtMul (o : Ops) (b : Int) (e l r : Num) : R Bool := do
  match ← ltParts o (.exp b e) l r with
  | some x => return x
  | none => throw .notImpl

/-- Second test of the `Mul` case of `Exp.__lt__` (num.py L1151-1155). -/
def expLtMul2 (o : Ops) (b : Int) (e l r : Num) : R Bool :=
  match r with
  | .exp b2 e2 =>
    if b2 ≠ b then .error .other
    else do
      if ← le o e2 e then
        let q ← o.fdiv (.exp b e) r
        o.lt q l
      else expLtMul o b e l r
  | _ => expLtMul o b e l r

/-- `Exp.__lt__` (num.py L1126-1178). -/
def expLt (o : Ops) (b : Int) (e other : Num) : R Bool :=
  match other with
  | .int _ => .ok false
  | .exp b' e' => if b ≠ b' then .error .other else o.lt e e'
  | .add l r => if l.isInt then o.lt (.exp b e) r else .error .notImpl
  | .mul l r =>
    match l with
    | .exp b1 e1 =>
      if b1 ≠ b then .error .other
      else do
        if ← le o e1 e then
          let q ← o.fdiv (.exp b e) l
          o.lt q r
        else expLtMul2 o b e l r
    | _ => expLtMul2 o b e l r
  | .div _ _ => .error .notImpl

/-- `Exp.__pow__` (num.py L1180): `(base ** exp) ** other`. -/
def expPow (o : Ops) (b : Int) (e other : Num) : R Num := do
  let x ← o.mul e other
  makeExp o b x

/-! ### The operators -/

/-- `l // r` of Python integers, stopping when `strict` and not exact. -/
def intFdiv (strict : Bool) (n d : Int) : R Num :=
  if d = 0 then .error .other
  else if strict && decide (¬ d ∣ n) then .error .strict
  else .ok (.int (n.fdiv d))

/-- One call of an operator in terms of the calls it makes. -/
def Ops.step (flog : Int → Int → Nat) (strict : Bool) (o : Ops) : Ops where
  add x y :=
    match x with
    | .int a =>
      match y with
      | .int b => .ok (.int (a + b))
      | .add l r => addRadd o l r a
      | .mul l r => mulRadd l r a
      | .div n d => divRadd o n d a
      | .exp b e => expRadd b e a
    | .add l r => addAdd o l r y
    | .mul l r => mulAdd o l r y
    | .div n d => divAdd strict o n d y
    | .exp b e => expAdd o b e y
  sub x y :=
    match x with
    | .int a =>
      match y with
      | .int b => .ok (.int (a - b))
      | y => do
        let z ← o.neg y
        o.add x z
    | .add l r => addSub o l r y
    | .mul l r => mulSub o l r y
    | .div n d => divSub o n d y
    | .exp b e => expSub o b e y
  mul x y :=
    match x with
    | .int a =>
      match y with
      | .int b => .ok (.int (a * b))
      | .add l r => addRmul o l r a
      | .mul l r => mulRmul o l r a
      | .div n d => divRmul o n d a
      | .exp b e => expRmul o b e a
    | .add l r => addMul o l r y
    | .mul l r => mulMul o l r y
    | .div n d => divMul o n d y
    | .exp b e => expMul o b e y
  fdiv x y :=
    match x with
    | .int a =>
      match y with
      | .int b => intFdiv strict a b
      | _ => .error .other
    | .add l r => addFdiv flog o l r y
    | .mul l r => mulFdiv flog o l r y
    | .div n d => divFdiv flog o n d y
    | .exp b e => expFdiv o b e y
  neg x :=
    match x with
    | .int a => .ok (.int (-a))
    | .add l r => addNeg o l r
    | .mul l r => mulNeg o l r
    | .div n d => divNeg o n d
    | .exp b e => o.mul (.int (-1)) (.exp b e)
  lt x y :=
    match x with
    | .int a =>
      match y with
      | .int b => .ok (decide (a < b))
      | y => notR (o.lt y x)
    | .add l r => addLt o l r y
    | .mul l r => mulLt o l r y
    | .div n d => divLt o n d y
    | .exp b e => expLt o b e y

/-- The operators with at most `n` nested calls. -/
def ops (flog : Int → Int → Nat) (strict : Bool) : Nat → Ops
  | 0 => fail
  | n + 1 => (ops flog strict n).step flog strict

end Sym
end BB
