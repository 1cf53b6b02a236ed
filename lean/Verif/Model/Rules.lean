import Verif.Model.Tape
import Mathlib.Data.Int.Init

/-!
# Model of the rules

`/repo/tm/rules.py` L51-122 `calculate_diff`, L224-247 `make_rule`, L255-284 `count_apps`,
L287-310 `apply_rule`, L313-329 `apply_mult`; `/repo/src/rules.rs` L24-102 and L104-182.

Simplification: counts are plain integers.  The branches for symbolic `Num` counts
(`calculate_op_seq`, `apply_ops`) are not modelled here; where Python would build a symbolic
number the model holds its value.
-/

namespace BB

/-- Exceptions raised by the code below (`/repo/tm/rules.py` L33-43, `/repo/tm/prover.py` L17,
plus Python's own). `negCount` is not a Python exception: a count below 0 has been stored, which
the model does not follow further. -/
inductive Err
  | unknownRule | infiniteRule | suspectedRule (add sub : Int) | ruleLimit | configLimit
  | indexError | zeroDivision | assertion | negCount
deriving DecidableEq, Repr

/-- `Op = Plus | Mult | OpSeq` (`/repo/tm/rules.py` L22-26), without `OpSeq`. -/
inductive Op
  | plus (diff : Int)
  | mult (mul add : Int)
deriving DecidableEq, Repr

/-- `Index` (`/repo/tm/tape.py` L18): side (`true` is right) and position. -/
abbrev Index := Bool × Nat

/-- `Rule = dict[Index, Op]`, in insertion order. -/
abbrev Rule := List (Index × Op)

/-- Python `divmod`. -/
def pyDivmod (a b : Int) : Except Err (Int × Int) :=
  if b = 0 then .error .zeroDivision else .ok (a.fdiv b, a.fmod b)

/-- `POSSIBLE_RULE_PAIRS` (`/repo/tm/rules.py` L47). -/
def possibleRulePairs : List (Int × Int) := [(3, 2), (5, 3), (5, 2), (5, 4), (4, 3)]

/-- `/repo/tm/rules.py` L107-122: what follows the `for ... else`. -/
def calculateDiffTail (c1 c2 c3 c4 div div2 div3 : Int) : Except Err (Option Op) :=
  let divDiff := c2 - c1 * (1 + div)
  if c3 - c2 * (1 + div2) == divDiff && c4 - c3 * (1 + div3) == divDiff then
    .ok (some (.mult (1 + div) divDiff))
  else
    match possibleRulePairs.find? (fun (add, sub) =>
        c2 - (c1 * add).fdiv sub == c3 - (c2 * add).fdiv sub
          && c3 - (c2 * add).fdiv sub == c4 - (c3 * add).fdiv sub) with
    | some (add, sub) => .error (.suspectedRule add sub)
    | none => .error .unknownRule

/-- `/repo/tm/rules.py` L51-122 `calculate_diff` on four `int` counts. -/
def calculateDiff (c1 c2 c3 c4 : Int) : Except Err (Option Op) :=
  if c2 == c1 && c3 == c1 && c4 == c1 then .ok none
  else
    let plus := c2 - c1
    if c3 - c2 == plus && c4 - c3 == plus then .ok (some (.plus plus))
    else if !(decide (c1 < c2) && decide (c2 < c3) && decide (c3 < c4)) then .error .unknownRule
    else do
      let (div, mod) ← pyDivmod c2 c1
      let (div2, mod2) ← pyDivmod c3 c2
      let (div3, mod3) ← pyDivmod c4 c3
      if div2 != div then .error .unknownRule
      else if mod2 != mod then calculateDiffTail c1 c2 c3 c4 div div2 div3
      else if div3 != div then .error .unknownRule
      else if mod3 != mod then calculateDiffTail c1 c2 c3 c4 div div2 div3
      else .ok (some (.mult div mod))

/-- `Counts` (`/repo/tm/tape.py` L20-23). -/
abbrev Counts := List Int × List Int

/-- The inner loop of `make_rule` (`/repo/tm/rules.py` L228-238) over one side, from position
`i`; `zip` stops at the shortest list. `.ok none` is `return None`. -/
def makeRuleSide (side : Bool) : Nat → List Int → List Int → List Int → List Int →
    Except Err (Option Rule)
  | i, a :: as, b :: bs, c :: cs, d :: ds =>
    match calculateDiff a b c d with
    | .error .unknownRule => .ok none
    | .error e => .error e
    | .ok diff => do
      match ← makeRuleSide side (i + 1) as bs cs ds with
      | none => .ok none
      | some rest =>
        match diff with
        | none => .ok (some rest)
        | some op => .ok (some (((side, i), op) :: rest))
  | _, _, _, _, _ => .ok (some [])

/-- The test of `/repo/tm/rules.py` L239-241: every additive difference is ≥ 0. -/
def Rule.noneNegative (rule : Rule) : Bool :=
  rule.all fun (_, op) => match op with
    | .plus d => decide (d ≥ 0)
    | .mult _ _ => true

/-- `/repo/tm/rules.py` L224-247 `make_rule` on four rounds of counts. -/
def makeRule (k1 k2 k3 k4 : Counts) : Except Err (Option Rule) := do
  match ← makeRuleSide false 0 k1.1 k2.1 k3.1 k4.1 with
  | none => .ok none
  | some left =>
    match ← makeRuleSide true 0 k1.2 k2.2 k3.2 k4.2 with
    | none => .ok none
    | some right =>
      let rule := left ++ right
      if Rule.noneNegative rule then .error .infiniteRule
      else .ok (some rule)

/-- The protocol `IndexTape` (`/repo/tm/rules.py` L250-252).  `get` returns the tape as well
because `EnumTape.get_count` records offsets. -/
structure IndexTape (τ : Type) where
  get : τ → Index → Except Err (Int × τ)
  set : τ → Index → Int → Except Err τ

/-- Loop of `/repo/tm/rules.py` L255-284 `count_apps`. -/
def countAppsFrom {τ : Type} (T : IndexTape τ) :
    Rule → τ → Option (Int × Index × Int) → Except Err (Option (Int × Index × Int) × τ)
  | [], t, apps => .ok (apps, t)
  | (_, .mult _ _) :: rest, t, apps => countAppsFrom T rest t apps
  | (pos, .plus diff) :: rest, t, apps =>
    if diff ≥ 0 then countAppsFrom T rest t apps
    else do
      let (count, t) ← T.get t pos
      let absdiff := -diff
      if absdiff ≥ count then .ok (none, t)
      else
        let (div, rem) ← pyDivmod count absdiff
        let (times, minRes) := if rem > 0 then (div, rem) else (div - 1, absdiff)
        let apps := match apps with
          | none => some (times, pos, minRes)
          | some (curr, p, r) =>
            if times < curr then some (times, pos, minRes) else some (curr, p, r)
        countAppsFrom T rest t apps

/-- `/repo/tm/rules.py` L255-284 `count_apps`. -/
def countApps {τ : Type} (T : IndexTape τ) (rule : Rule) (t : τ) :
    Except Err (Option (Int × Index × Int) × τ) :=
  countAppsFrom T rule t none

/-- `/repo/tm/rules.py` L313-329 `apply_mult` on `int` counts; `times` is positive when called. -/
def applyMult (count times mul add : Int) : Except Err Int :=
  let exp := if times == 1 then mul else mul ^ times.toNat
  if add == 0 then .ok (count * exp)
  else do
    let (q, _) ← pyDivmod (exp - mul) (mul - 1)
    .ok (count * exp + add * (1 + q))

/-- The `match` of `/repo/tm/rules.py` L296-306: the new count at `pos`. -/
def opResult (times : Int) (minPos : Index) (minRes : Int) (pos : Index) (count : Int) :
    Op → Except Err Int
  | .mult mul add => applyMult count times mul add
  | .plus d =>
    if pos != minPos then .ok (count + d * times)
    else if d < 0 then .ok minRes else .error .assertion

/-- Loop of `/repo/tm/rules.py` L293-308. -/
def applyRuleFrom {τ : Type} (T : IndexTape τ) (times : Int) (minPos : Index) (minRes : Int) :
    Rule → τ → Except Err τ
  | [], t => .ok t
  | (pos, diff) :: rest, t => do
    let (count, t) ← T.get t pos
    let result ← opResult times minPos minRes pos count diff
    let t ← T.set t pos result
    applyRuleFrom T times minPos minRes rest t

/-- `/repo/tm/rules.py` L287-310 `apply_rule`. -/
def applyRule {τ : Type} (T : IndexTape τ) (rule : Rule) (t : τ) :
    Except Err (Option Int × τ) := do
  let (apps, t) ← countApps T rule t
  match apps with
  | none => .ok (none, t)
  | some (times, minPos, minRes) =>
    let t ← applyRuleFrom T times minPos minRes rule t
    .ok (some times, t)

/-- The plainest `IndexTape`: counts given by a function. -/
def funTape : IndexTape (Index → Int) where
  get t i := .ok (t i, t)
  set t i v := .ok (fun j => if j = i then v else t j)

/-! ## Tapes as `IndexTape`s -/

/-- `/repo/tm/tape.py` L121-126 `Tape.get_count`. -/
def Tape.getCount (t : Tape) (i : Index) : Except Err Int :=
  match (if i.1 then t.rspan else t.lspan)[i.2]? with
  | none => .error .indexError
  | some b => .ok b.count

/-- `/repo/tm/tape.py` L128-133 `Tape.set_count`. -/
def Tape.setCount (t : Tape) (i : Index) (v : Int) : Except Err Tape :=
  if v < 0 then .error .negCount
  else
    match (if i.1 then t.rspan else t.lspan)[i.2]? with
    | none => .error .indexError
    | some b =>
      let b := { b with count := v.toNat }
      .ok (if i.1 then { t with rspan := t.rspan.set i.2 b }
        else { t with lspan := t.lspan.set i.2 b })

def Tape.indexTape : IndexTape Tape where
  get t i := do .ok (← t.getCount i, t)
  set := Tape.setCount

/-! ## Rust -/

namespace Rs

/-- `/repo/src/rules.rs` L24-58 `calculate_diff`; `i32` arithmetic as ℤ (the inputs come from
`u64` counts by truncation, see `toDiff`).  `none` is `None`; `some none` is `Unknown`.
`/` and `%` truncate. -/
def calculateDiff (a b c d : Int) : Option (Option Op) :=
  if a == b && b == c && c == d then none
  else if b - a == c - b && c - b == d - c then some (some (.plus (b - a)))
  else if a == 0 || b == 0 then some none
  else if (b.tdiv a, b.tmod a) == (c.tdiv b, c.tmod b)
      && (c.tdiv b, c.tmod b) == (d.tdiv c, d.tmod c) then
    some (some (.mult (b.tdiv a) (b.tmod a)))
  else some none

/-- `a as Diff` (`/repo/src/rules.rs` L87-89): `u64` truncated to `i32`. -/
def toDiff (n : Nat) : Int := Int.bmod n (2 ^ 32)

/-- `/repo/src/rules.rs` L104-145 `count_apps` for additive rules (`unimplemented!` otherwise,
here `.error .assertion`), on `u64` counts. -/
def countAppsFrom : Rule → (Index → Nat) → Option (Nat × Index × Nat) →
    Except Err (Option (Nat × Index × Nat))
  | [], _, apps => .ok apps
  | (_, .mult _ _) :: _, _, _ => .error .assertion
  | (pos, .plus diff) :: rest, t, apps =>
    if diff ≥ 0 then countAppsFrom rest t apps
    else
      let count := t pos
      let absdiff := diff.natAbs
      if absdiff ≥ count then .ok none
      else
        let div := count / absdiff
        let rem := count % absdiff
        let (times, minRes) := if rem > 0 then (div, rem) else (div - 1, absdiff)
        let apps := match apps with
          | none => some (times, pos, minRes)
          | some (curr, p, r) =>
            if times < curr then some (times, pos, minRes) else some (curr, p, r)
        countAppsFrom rest t apps

/-- `/repo/src/rules.rs` L172-182 `apply_plus` (the `checked_mul` overflow is not modelled). -/
def applyPlus (count : Nat) (diff : Int) (times : Nat) : Nat :=
  count + diff.natAbs * times

/-- Loop of `/repo/src/rules.rs` L152-167. -/
def applyRuleFrom (times : Nat) (minPos : Index) (minRes : Nat) :
    Rule → (Index → Nat) → Except Err (Index → Nat)
  | [], t => .ok t
  | (_, .mult _ _) :: _, _ => .error .assertion
  | (pos, .plus plus) :: rest, t =>
    if pos == minPos then
      if plus < 0 then
        applyRuleFrom times minPos minRes rest (fun j => if j = pos then minRes else t j)
      else .error .assertion
    else
      applyRuleFrom times minPos minRes rest
        (fun j => if j = pos then applyPlus (t pos) plus times else t j)

/-- `/repo/src/rules.rs` L147-170 `apply_rule`. -/
def applyRule (rule : Rule) (t : Index → Nat) : Except Err (Option (Nat × (Index → Nat))) := do
  match ← countAppsFrom rule t none with
  | none => .ok none
  | some (times, minPos, minRes) =>
    .ok (some (times, ← applyRuleFrom times minPos minRes rule t))

end Rs

end BB
