/-
Model of the rules on symbolic counts: /repo/tm/rules.py L51-90 (`calculate_diff`), L125-221
(`calculate_op_seq`), L224-247 (`make_rule`), L255-284 (`count_apps`), L287-310 (`apply_rule`), L313-329
(`apply_mult`), L332-363 (`apply_ops`), and from /repo/tm/num.py `__contains__` (L39, L178, L384, L679,
L847) and `__divmod__` (L127-133).

A count is a term of `Verif.Model.Num`, integers included.  On integers alone the code is that of
`Verif.Model.Rules`, which the last branch of `calculate_diff` calls.

Simplifications: the tape is a function from positions to counts, every position being there.
`ExpModLimit` and `ModDepthLimit`, which `count_apps` turns into `RuleLimit`, stay errors of the number.
`Tet` is left out.  `strict` is not in the Python: with it, besides the branches of `Verif.Model.Num` and
`Verif.Model.NumMod`, `'//'` and `'**'` stop when their number is not positive, and `'~'` stops when its
number is not above one or not the base of the power.
-/
import Verif.Model.Rules
import Verif.Model.NumMod

namespace BB
namespace Sym

/-- The exceptions of rules.py (L34-44), of the numbers, and failed assertions. -/
inductive RErr
  | num (e : Err)
  | ruleLimit
  | unknownRule
  | infiniteRule
  | suspectedRule (add sub : Int)
  | assertion
deriving DecidableEq, Repr

abbrev RR := Except RErr

/-- An error of a number is not caught. -/
def lift {α : Type} : R α → RR α
  | .ok a => .ok a
  | .error e => .error (.num e)

/-- The names `'+'`, `'*'`, `'//'`, `'**'`, `'~'` of rules.py L341-357. -/
inductive OpName
  | plus
  | times
  | over
  | pow
  | log
deriving DecidableEq, Repr

/-- `OpSeq` (rules.py L22). -/
abbrev OpSeq := List (OpName × Int)

/-- `Op = Plus | Mult | OpSeq` (rules.py L24). -/
inductive SOp
  | plus (diff : Int)
  | mult (mul add : Int)
  | seq (ops : OpSeq)
deriving DecidableEq, Repr

/-- `Rule = dict[Index, Op]` (rules.py L26), in insertion order. -/
abbrev SRule := List (Index × SOp)

/-! ### `apply_ops` -/

/-- One operation of a sequence (rules.py L340-361). -/
def applyOp (strict : Bool) (o : Ops) (x : Num) : OpName × Int → RR Num
  | (.plus, v) => lift (o.add x (.int v))
  | (.times, v) => lift (o.mul x (.int v))
  | (.over, v) =>
    if strict && decide (v ≤ 0) then .error (.num .strict) else lift (o.fdiv x (.int v))
  | (.pow, v) =>
    if strict && decide (v ≤ 0) then .error (.num .strict) else lift (makeExp o v x)
  | (.log, v) =>
    match x with
    | .exp b e => if strict && decide (b ≠ v ∨ v ≤ 1) then .error (.num .strict) else .ok e
    | _ => .error .ruleLimit

/-- The inner loop of `apply_ops` (rules.py L339-361). -/
def applySeq (strict : Bool) (o : Ops) : OpSeq → Num → RR Num
  | [], x => .ok x
  | op :: rest, x => do
    let y ← applyOp strict o x op
    applySeq strict o rest y

/-- The outer loop of `apply_ops` (rules.py L338-361). -/
def applySeqTimes (strict : Bool) (o : Ops) (seq : OpSeq) : Nat → Num → RR Num
  | 0, x => .ok x
  | n + 1, x => do
    let y ← applySeq strict o seq x
    applySeqTimes strict o seq n y

/-- `apply_ops` (rules.py L332-363). -/
def applyOps (strict : Bool) (o : Ops) (count times : Num) (seq : OpSeq) : RR Num :=
  match times with
  | .int k => applySeqTimes strict o seq k.toNat count
  | _ => .error .ruleLimit

/-! ### `calculate_op_seq` -/

/-- `x in y` (num.py L178, L384, L679, L847); `in` of an integer is a `TypeError`. -/
def contains (x : Num) : Num → RR Bool
  | .int _ => .error (.num .other)
  | .add l r => if x = .add l r then .ok true else contains x r
  | .mul l r => if x = .mul l r then .ok true else contains x r
  | .div n d => if x = .div n d then .ok true else contains x n
  | .exp b e =>
    if x = .exp b e then .ok true
    else if e.isInt then .ok false
    else contains x e

/-- The first loop of `calculate_op_seq` (rules.py L130-170): the operations and what is left of `sub`.
An integer falls through the `match`, and so runs into the limit. -/
def descend (sup : Num) : Nat → Num → RR (OpSeq × Num)
  | 0, _ => .error .ruleLimit
  | n + 1, sub => do
    if ← contains sub sup then return ([], sub)
    else
      match sub with
      | .int _ => throw .ruleLimit
      | .add (.int l) r => do
        let (ops, x) ← descend sup n r
        return ((.plus, -l) :: ops, x)
      | .add _ _ => throw .ruleLimit
      | .mul (.int l) r => do
        let (ops, x) ← descend sup n r
        return ((.over, l) :: ops, x)
      | .mul _ _ => throw .ruleLimit
      | .div num den => do
        let (ops, x) ← descend sup n num
        return ((.times, den) :: ops, x)
      | .exp _ (.int _) => throw .ruleLimit
      | .exp b e => do
        let (ops, x) ← descend sup n e
        return ((.log, b) :: ops, x)

/-- The second loop of `calculate_op_seq` (rules.py L174-213): the operations in the order in which they
are appended. -/
def ascend (sub : Num) : Nat → Num → RR OpSeq
  | 0, _ => .error .ruleLimit
  | n + 1, sup =>
    if sup = sub then .ok []
    else
      match sup with
      | .int _ => .error .ruleLimit
      | .add (.int l) r => do
        let ops ← ascend sub n r
        return (.plus, l) :: ops
      | .add _ _ => .error .assertion
      | .mul (.int l) r => do
        let ops ← ascend sub n r
        return (.times, l) :: ops
      | .mul _ _ => .error .ruleLimit
      | .div num den => do
        let ops ← ascend sub n num
        return (.over, den) :: ops
      | .exp _ (.int _) => .error .ruleLimit
      | .exp b e => do
        let ops ← ascend sub n e
        return (.pow, b) :: ops

/-- `RULE_DESCENT` (rules.py L31). -/
def ruleDescent : Nat := 50

/-- `calculate_op_seq` (rules.py L125-221). -/
def calculateOpSeq (strict : Bool) (o : Ops) (c1 c2 c3 c4 : Num) : RR OpSeq := do
  let (down, sub) ← descend c2 ruleDescent c1
  let up ← ascend sub ruleDescent c2
  let seq := down ++ up.reverse
  let x ← applyOps strict o c2 (.int 1) seq
  if x ≠ c3 then throw .unknownRule
  else
    let y ← applyOps strict o c3 (.int 1) seq
    if y ≠ c4 then throw .unknownRule
    else return seq

/-! ### `calculate_diff` and `make_rule` -/

/-- What `Verif.Model.Rules` returns for integers. -/
def ofInts : Except BB.Err (Option BB.Op) → RR (Option SOp)
  | .ok none => .ok none
  | .ok (some (.plus d)) => .ok (some (.plus d))
  | .ok (some (.mult m a)) => .ok (some (.mult m a))
  | .error .unknownRule => .error .unknownRule
  | .error (.suspectedRule a s) => .error (.suspectedRule a s)
  | .error _ => .error (.num .other)

/-- `all(bef < aft ...)` of rules.py L66. -/
def ascending (o : Ops) (c1 c2 c3 c4 : Num) : R Bool :=
  andR (o.lt c1 c2) (andR (o.lt c2 c3) (o.lt c3 c4))

/-- `calculate_diff` from rules.py L76 on. -/
def calculateDiffRest (strict : Bool) (o : Ops) : Num → Num → Num → Num → RR (Option SOp)
  | .int a, .int b, .int c, .int d => ofInts (BB.calculateDiff a b c d)
  | .int _, _, _, _ => .error .assertion
  | c1, c2, c3, c4 =>
    if c2.isInt || c3.isInt || c4.isInt then .error .assertion
    else do
      let seq ← calculateOpSeq strict o c1 c2 c3 c4
      return some (.seq seq)

/-- `all(aft - bef == plus ...)` (rules.py L61). -/
def sameDiff (o : Ops) (plus c2 c3 c4 : Num) : R Bool := do
  let d2 ← o.sub c3 c2
  if d2 = plus then
    let d3 ← o.sub c4 c3
    return decide (d3 = plus)
  else return false

/-- `calculate_diff` (rules.py L51-122). -/
def calculateDiff (strict : Bool) (o : Ops) (c1 c2 c3 c4 : Num) : RR (Option SOp) :=
  if c2 = c1 ∧ c3 = c1 ∧ c4 = c1 then .ok none
  else do
    let plus ← lift (o.sub c2 c1)
    let same ← lift (sameDiff o plus c2 c3 c4)
    if same then
      match plus with
      | .int d => return some (.plus d)
      | _ => throw .assertion
    else
      match ascending o c1 c2 c3 c4 with
      | .error .notImpl => calculateDiffRest strict o c1 c2 c3 c4
      | .error e => .error (.num e)
      | .ok false => .error .unknownRule
      | .ok true => calculateDiffRest strict o c1 c2 c3 c4

/-- The inner loop of `make_rule` (rules.py L228-237) over one side; `.ok none` is `return None`. -/
def makeRuleSide (strict : Bool) (o : Ops) (side : Bool) : Nat → List Num → List Num → List Num →
    List Num → RR (Option SRule)
  | i, a :: as, b :: bs, c :: cs, d :: ds =>
    match calculateDiff strict o a b c d with
    | .error .unknownRule => .ok none
    | .error e => .error e
    | .ok diff => do
      match ← makeRuleSide strict o side (i + 1) as bs cs ds with
      | none => .ok none
      | some rest =>
        match diff with
        | none => .ok (some rest)
        | some op => .ok (some (((side, i), op) :: rest))
  | _, _, _, _, _ => .ok (some [])

/-- The test of rules.py L239-241. -/
def SRule.noneNegative (rule : SRule) : Bool :=
  rule.all fun (_, op) => match op with
    | .plus d => decide (d ≥ 0)
    | _ => true

/-- `Counts` (tape.py L20-23) with symbolic counts. -/
abbrev SCounts := List Num × List Num

/-- `make_rule` (rules.py L224-247) on four rounds of counts. -/
def makeRule (strict : Bool) (o : Ops) (k1 k2 k3 k4 : SCounts) : RR (Option SRule) := do
  match ← makeRuleSide strict o false 0 k1.1 k2.1 k3.1 k4.1 with
  | none => .ok none
  | some left =>
    match ← makeRuleSide strict o true 0 k1.2 k2.2 k3.2 k4.2 with
    | none => .ok none
    | some right =>
      let rule := left ++ right
      if SRule.noneNegative rule then .error .infiniteRule
      else .ok (some rule)

/-! ### `apply_rule` -/

/-- `divmod(count, d)`: of integers, and `Num.__divmod__` (num.py L127-133). -/
def numDivmod (strict : Bool) (o : Ops) (x : Num) (d : Int) : R (Num × Int) :=
  match x with
  | .int n => if d = 0 then .error .other else .ok (.int (n.fdiv d), n.fmod d)
  | x =>
    if d = 1 then .ok (x, 0)
    else do
      let mod ← numMod strict o x d
      let y ← o.sub x (.int mod)
      let q ← o.fdiv y (.int d)
      return (q, mod)

/-- How often `absdiff` can be taken from `count`, and what is left (rules.py L267-278). -/
def appsOf (strict : Bool) (o : Ops) (count : Num) (absdiff : Int) : R (Num × Int) := do
  let (div, rem) ← numDivmod strict o count absdiff
  if rem > 0 then return (div, rem)
  else
    let less ← o.sub div (.int 1)
    return (less, absdiff)

/-- `isinstance(count, int) and absdiff >= count` (rules.py L264). -/
def tooSmall (count : Num) (absdiff : Int) : Bool :=
  match count with
  | .int n => decide (absdiff ≥ n)
  | _ => false

/-- Loop of `count_apps` (rules.py L255-284). -/
def countAppsFrom (strict : Bool) (o : Ops) (t : Index → Num) :
    SRule → Option (Num × Index × Int) → RR (Option (Num × Index × Int))
  | [], apps => .ok apps
  | (pos, .plus diff) :: rest, apps =>
    if diff ≥ 0 then countAppsFrom strict o t rest apps
    else if tooSmall (t pos) (-diff) then .ok none
    else do
      let (times, minRes) ← lift (appsOf strict o (t pos) (-diff))
      match apps with
      | none => countAppsFrom strict o t rest (some (times, pos, minRes))
      | some (curr, p, r) =>
        let less ← lift (o.lt times curr)
        if less then countAppsFrom strict o t rest (some (times, pos, minRes))
        else countAppsFrom strict o t rest (some (curr, p, r))
  | _ :: rest, apps => countAppsFrom strict o t rest apps

/-- `exp` of `apply_mult` (rules.py L317-321). -/
def multExp (o : Ops) (times : Num) (mul : Int) : R Num :=
  if times = .int 1 then .ok (.int mul) else makeExp o mul times

/-- `apply_mult` (rules.py L313-329). -/
def applyMult (o : Ops) (count times : Num) (mul add : Int) : RR Num :=
  if !count.isInt && decide (20 < count.depth) then .error .ruleLimit
  else lift do
    let exp ← multExp o times mul
    if add = 0 then o.mul count exp
    else
      let x ← o.mul count exp
      let y ← o.sub exp (.int mul)
      let z ← o.fdiv y (.int (mul - 1))
      let w ← o.add (.int 1) z
      let v ← o.mul (.int add) w
      o.add x v

/-- The `match` of rules.py L296-306: the new count at `pos`. -/
def opResult (strict : Bool) (o : Ops) (times : Num) (minPos : Index) (minRes : Int) (pos : Index)
    (count : Num) : SOp → RR Num
  | .mult mul add => applyMult o count times mul add
  | .plus d =>
    if pos ≠ minPos then lift do
      let x ← o.mul (.int d) times
      o.add count x
    else if d < 0 then .ok (.int minRes)
    else .error .assertion
  | .seq ops => applyOps strict o count times ops

/-- Loop of rules.py L293-308. -/
def applyRuleFrom (strict : Bool) (o : Ops) (times : Num) (minPos : Index) (minRes : Int) :
    SRule → (Index → Num) → RR (Index → Num)
  | [], t => .ok t
  | (pos, op) :: rest, t => do
    let result ← opResult strict o times minPos minRes pos (t pos) op
    applyRuleFrom strict o times minPos minRes rest (fun j => if j = pos then result else t j)

/-- `apply_rule` (rules.py L287-310). -/
def applyRule (strict : Bool) (o : Ops) (rule : SRule) (t : Index → Num) :
    RR (Option Num × (Index → Num)) := do
  match ← countAppsFrom strict o t rule none with
  | none => return (none, t)
  | some (times, minPos, minRes) =>
    let t' ← applyRuleFrom strict o times minPos minRes rule t
    return (some times, t')

end Sym
end BB
