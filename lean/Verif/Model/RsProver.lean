import Verif.Model.Prover

/-!
# Model of the Rust rule prover and of `run_prover`

`/repo/src/prover.rs` L17-243 (`Prover`), `/repo/src/rules.rs` L60-182 (`make_rule`, `count_apps`,
`apply_rule`, `apply_plus`, here on tapes and with the `checked_mul`), `/repo/src/machine.rs`
L219-312 `run_prover`.

A panic is `.error`.  Simplifications: `u64` sums and `i32` cycle numbers do not wrap (the
`checked_mul` and the truncation of counts to `i32` are modelled); the subtraction `d - c` of
`/repo/src/rules.rs` L42 wraps, as in a release build; `i32::MIN / -1` does not panic.
A `BTreeMap` rule is listed in the order of its keys, in which `make_rule` builds it.
-/

namespace BB

namespace Rs

/-! ## Rules -/

/-- What fits an `i32`. -/
def inI32 (n : Int) : Bool := decide (-2 ^ 31 ≤ n) && decide (n < 2 ^ 31)

/-- `/repo/src/rules.rs` L24-58 `calculate_diff` on `i32`s: `none` is `None`, `some none` is
`Unknown`. -/
def calculateDiff32 (a b c d : Int) : Option (Option Op) :=
  if a == b && b == c && c == d then none
  else if !inI32 (b - a) || !inI32 (c - b) then some none
  else if b - a == c - b && c - b == Int.bmod (d - c) (2 ^ 32) then some (some (.plus (b - a)))
  else if a == 0 || b == 0 then some none
  else if (b.tdiv a, b.tmod a) == (c.tdiv b, c.tmod b)
      && (c.tdiv b, c.tmod b) == (d.tdiv c, d.tmod c) then
    some (some (.mult (b.tdiv a) (b.tmod a)))
  else some none

/-- One turn of the outer loop of `/repo/src/rules.rs` L83-97: one side, from block `i` on, with
`diff` for `calculate_diff` on the truncated counts. -/
def makeRuleSideWith (diff : Nat → Nat → Nat → Nat → Option (Option Op)) (side : Bool) :
    Nat → List Nat → List Nat → List Nat → List Nat → Option Rule
  | i, a :: l1, b :: l2, c :: l3, d :: l4 =>
    match diff a b c d with
    | none => makeRuleSideWith diff side (i + 1) l1 l2 l3 l4
    | some none => none
    | some (some op) =>
      match makeRuleSideWith diff side (i + 1) l1 l2 l3 l4 with
      | none => none
      | some rest => some (((side, i), op) :: rest)
  | _, _, _, _, _ => some []

/-- The call of `/repo/src/rules.rs` L85-87. -/
def countDiff (a b c d : Nat) : Option (Option Op) :=
  calculateDiff32 (toDiff a) (toDiff b) (toDiff c) (toDiff d)

/-- `/repo/src/rules.rs` L60-100 `make_rule`. -/
def makeRule (k1 k2 k3 k4 : List Nat × List Nat) : Option Rule :=
  match makeRuleSideWith countDiff false 0 k1.1 k2.1 k3.1 k4.1 with
  | none => none
  | some l =>
    match makeRuleSideWith countDiff true 0 k1.2 k2.2 k3.2 k4.2 with
    | none => none
    | some r => some (l ++ r)

/-- `/repo/src/tape.rs` L363-366 `IndexTape`; an index out of range panics. -/
structure IndexTape (τ : Type) where
  get : τ → Index → Except Err Nat
  set : τ → Index → Nat → Except Err τ

/-- Loop of `/repo/src/rules.rs` L104-145 `count_apps`. -/
def countAppsOn {τ : Type} (T : IndexTape τ) : Rule → τ → Option (Nat × Index × Nat) →
    Except Err (Option (Nat × Index × Nat))
  | [], _, apps => .ok apps
  | (_, .mult _ _) :: _, _, _ => .error .assertion
  | (pos, .plus diff) :: rest, t, apps =>
    if diff ≥ 0 then countAppsOn T rest t apps
    else
      match T.get t pos with
      | .error e => .error e
      | .ok count =>
        let absdiff := diff.natAbs
        if absdiff ≥ count then .ok none
        else
          let div := count / absdiff
          let rem := count % absdiff
          let (times, minRes) := if rem > 0 then (div, rem) else (div - 1, absdiff)
          let apps := match apps with
            | none => some (times, pos, minRes)
            | some (curr, p, r) =>
              if times < curr then some (times, pos, minRes) else some (curr, p, r)
          countAppsOn T rest t apps

/-- `/repo/src/rules.rs` L172-178 `apply_plus`; `none` when `checked_mul` overflows. -/
def applyPlus64 (count : Nat) (diff : Int) (times : Nat) : Option Nat :=
  if diff.natAbs * times < 2 ^ 64 then some (count + diff.natAbs * times) else none

/-- Loop of `/repo/src/rules.rs` L153-167; `false` when left by `?`, with the tape as it is
then. -/
def applyRuleOnFrom {τ : Type} (T : IndexTape τ) (times : Nat) (minPos : Index) (minRes : Nat) :
    Rule → τ → Except Err (Bool × τ)
  | [], t => .ok (true, t)
  | (_, .mult _ _) :: _, _ => .error .assertion
  | (pos, .plus plus) :: rest, t =>
    if pos == minPos then
      if plus < 0 then
        match T.set t pos minRes with
        | .error e => .error e
        | .ok t => applyRuleOnFrom T times minPos minRes rest t
      else .error .assertion
    else
      match T.get t pos with
      | .error e => .error e
      | .ok count =>
        match applyPlus64 count plus times with
        | none => .ok (false, t)
        | some result =>
          match T.set t pos result with
          | .error e => .error e
          | .ok t => applyRuleOnFrom T times minPos minRes rest t

/-- `/repo/src/rules.rs` L147-170 `apply_rule`: the answer, and the tape left behind. -/
def applyRuleOn {τ : Type} (T : IndexTape τ) (rule : Rule) (t : τ) :
    Except Err (Option Nat × τ) :=
  match countAppsOn T rule t none with
  | .error e => .error e
  | .ok none => .ok (none, t)
  | .ok (some (times, minPos, minRes)) =>
    match applyRuleOnFrom T times minPos minRes rule t with
    | .error e => .error e
    | .ok (true, t) => .ok (some times, t)
    | .ok (false, t) => .ok (none, t)

/-! ## Tapes -/

/-- `/repo/src/tape.rs` L369-373 `get_count`. -/
def getCount (t : Tape) (i : Index) : Except Err Nat :=
  match (if i.1 then t.rspan else t.lspan)[i.2]? with
  | none => .error .indexError
  | some b => .ok b.count

/-- `/repo/src/tape.rs` L375-383 `set_count`. -/
def setCount (t : Tape) (i : Index) (v : Nat) : Except Err Tape :=
  match (if i.1 then t.rspan else t.lspan)[i.2]? with
  | none => .error .indexError
  | some b =>
    let b := { b with count := v }
    .ok (if i.1 then { t with rspan := t.rspan.set i.2 b }
      else { t with lspan := t.lspan.set i.2 b })

def basicTape : IndexTape Tape := ⟨getCount, setCount⟩

/-- The plainest tape: counts given by a function. -/
def funTape : IndexTape (Index → Nat) where
  get t i := .ok (t i)
  set t i v := .ok (fun j => if j = i then v else t j)

/-- `/repo/src/tape.rs` L711-713: no offset is recorded. -/
def egetCount (t : EnumTape) (i : Index) : Except Err Nat :=
  match (if i.1 then t.tape.rspan else t.tape.lspan)[i.2]? with
  | none => .error .indexError
  | some b => .ok b.count

/-- `/repo/src/tape.rs` L715-717. -/
def esetCount (t : EnumTape) (i : Index) (v : Nat) : Except Err EnumTape :=
  match (if i.1 then t.tape.rspan else t.tape.lspan)[i.2]? with
  | none => .error .indexError
  | some b =>
    let b := { b with count := v }
    .ok { t with tape :=
      if i.1 then { t.tape with rspan := t.tape.rspan.set i.2 b }
      else { t.tape with lspan := t.tape.lspan.set i.2 b } }

/-- `/repo/src/tape.rs` L300-302 `counts`. -/
def counts (t : Tape) : List Nat × List Nat := (t.lspan.map Block.count, t.rspan.map Block.count)

/-- What the simulators use of a tape. -/
structure SimTape (τ : Type) extends IndexTape τ where
  scan : τ → Color
  signature : τ → Sig
  step : τ → Bool → Color → Bool → τ

def simBasic : SimTape Tape where
  toIndexTape := basicTape
  scan t := t.scan
  signature := Tape.signature
  step t shift color skip := (Rs.step t shift color skip).1

def simEnum : SimTape EnumTape where
  get := egetCount
  set := esetCount
  scan t := t.tape.scan
  signature t := t.tape.forget.signature
  step := estep

/-! ## The prover

`Prover`, `get_rule` and `set_rule` (`/repo/src/prover.rs` L24-86) are those of the Python version:
`starts_with` is equality with the prefix of that length. -/

/-- `/repo/src/prover.rs` L88-110 `run_simulator`; also the loop of `get_min_sig` (L119-132), in
which the missing instruction is a panic. -/
def runSimulator {τ : Type} (T : SimTape τ) (comp : Prog) (pr : Prover) :
    Nat → State → τ → Except Err (Option (State × τ))
  | 0, state, t => .ok (some (state, t))
  | steps + 1, state, t =>
    let plain (t : τ) : Except Err (Option (State × τ)) :=
      match comp (state, T.scan t) with
      | none => .ok none
      | some (color, shift, nextState) =>
        runSimulator T comp pr steps nextState (T.step t shift color (state == nextState))
    match pr.getRule state (T.signature t) with
    | none => plain t
    | some rule =>
      match applyRuleOn T.toIndexTape rule t with
      | .error e => .error e
      | .ok (some _, t) => runSimulator T comp pr steps state t
      | .ok (none, t) => plain t

/-- `/repo/src/prover.rs` L112-144 `get_min_sig`. -/
def getMinSig (comp : Prog) (pr : Prover) (steps : Nat) (state : State) (tape : EnumTape)
    (sig : Sig) : Except Err MinSig :=
  match runSimulator simEnum comp pr steps state tape with
  | .error e => .error e
  | .ok none => .error .assertion
  | .ok (some (_, tape)) =>
    if tape.lOffset ≤ sig.lspan.length ∧ tape.rOffset ≤ sig.rspan.length then
      .ok (⟨sig.scan, sig.lspan.take tape.lOffset, sig.rspan.take tape.rOffset⟩,
        (tape.lEdge, tape.rEdge))
    else .error .indexError

/-- `/repo/src/prover.rs` L17-22 `ProverResult`, with `none` for `None`. -/
inductive ProverResult
  | none | configLimit | infiniteRule | multRule
  | got (rule : Rule)
deriving DecidableEq

/-- One turn of the loop of `/repo/src/prover.rs` L187-195. -/
def round (comp : Prog) (pr : Prover) (state : State) (sig : Sig) (delta : Int) (tags : Tape) :
    Except Err (Option Tape) :=
  match runSimulator simBasic comp pr delta.toNat state tags with
  | .error e => .error e
  | .ok .none => .ok .none
  | .ok (some (q, tags)) =>
    if q != state || !tags.sigCompatible sig then .ok .none else .ok (some tags)

/-- The loop of `/repo/src/prover.rs` L185-202: the rule made from three rounds. -/
def inferRule (comp : Prog) (pr : Prover) (state : State) (tape : Tape) (sig : Sig)
    (deltas : Deltas) : Except Err (Option Rule) :=
  match round comp pr state sig deltas.1 tape with
  | .error e => .error e
  | .ok .none => .ok .none
  | .ok (some t1) =>
    match round comp pr state sig deltas.2.1 t1 with
    | .error e => .error e
    | .ok .none => .ok .none
    | .ok (some t2) =>
      match round comp pr state sig deltas.2.2 t2 with
      | .error e => .error e
      | .ok .none => .ok .none
      | .ok (some t3) => .ok (makeRule (counts tape) (counts t1) (counts t2) (counts t3))

def Op.isMult : Op → Bool
  | .plus _ => false
  | .mult _ _ => true

def Op.isMinus : Op → Bool
  | .plus d => decide (d < 0)
  | .mult _ _ => false

/-- `/repo/src/prover.rs` L146-242 `try_rule`: the updated prover, and the answer. -/
def tryRule (comp : Prog) (pr : Prover) (cycle : Nat) (state : State) (tape : Tape) :
    Prover × Except Err ProverResult :=
  let sig := tape.signature
  match pr.getRule state sig with
  | some known => (pr, .ok (.got known))
  | .none =>
    match pr.configs.lookup sig with
    | .none =>
      if pr.configs.length > 100000 then (pr, .ok .configLimit)
      else ({ pr with configs := assocInsert pr.configs sig (PastConfigs.new state cycle) },
        .ok .none)
    | some past =>
      match past.nextDeltas state cycle with
      | .error _ => (pr, .error .assertion)
      | .ok (deltas, past) =>
        let pr := { pr with configs := assocInsert pr.configs sig past }
        match deltas with
        | .none => (pr, .ok .none)
        | some deltas =>
          if deltas.1 > 90000 || deltas.2.1 > 90000 || deltas.2.2 > 90000 then (pr, .ok .none)
          else
            match inferRule comp pr state tape sig deltas with
            | .error e => (pr, .error e)
            | .ok .none => (pr, .ok .none)
            | .ok (some rule) =>
              if !rule.any (fun e => Op.isMinus e.2) then (pr, .ok .infiniteRule)
              else if rule.any (fun e => Op.isMult e.2) then (pr, .ok .multRule)
              else if Prover.tooSimple rule tape then (pr, .ok .none)
              else
                let pr := { pr with configs := assocInsert pr.configs sig (past.delete state) }
                match getMinSig comp pr deltas.1.toNat state tape.toEnum sig with
                | .error e => (pr, .error e)
                | .ok minSig => (pr.setRule rule state minSig, .ok (.got rule))

/-! ## `run_prover` -/

/-- A rule prover as `run_prover` sees it. -/
abbrev TryRule (π : Type) := π → Nat → State → Tape → π × Except Err ProverResult

/-- `/repo/src/machine.rs` L303-311: `quickResult` with the number of rule applications. -/
def proverResult (r : TermRes) (s : QState) (cycles rulapp : Nat) (slot : Option Slot) :
    MachineResult :=
  { quickResult r s cycles slot with rulapp := rulapp }

/-- The loop of `/repo/src/machine.rs` L238-301; what follows the rule attempt (L265-300) is the
loop body of `run_quick_machine`, word for word. -/
def proverLoop {π : Type} (try_ : TryRule π) (comp : Prog) :
    Nat → Nat → π → QState → Nat → Except Err MachineResult
  | 0, _, _, s, rulapp => .ok (proverResult .xlimit s 0 rulapp none)
  | fuel + 1, cycle, pr, s, rulapp =>
    let (pr, tried) := try_ pr cycle s.state s.tape
    let go (s : QState) : Except Err MachineResult :=
      match quickBody comp cycle s with
      | .stop r s' cycles slot => .ok (proverResult r s' cycles rulapp slot)
      | .next s' => proverLoop try_ comp fuel (cycle + 1) pr s' rulapp
    match tried with
    | .error e => .error e
    | .ok .none => go s
    | .ok .configLimit => .ok (proverResult .cfglim s cycle rulapp none)
    | .ok .infiniteRule => .ok (proverResult .infrul s cycle rulapp none)
    | .ok .multRule => .ok (proverResult .mulrul s cycle rulapp none)
    | .ok (.got rule) =>
      match applyRuleOn basicTape rule s.tape with
      | .error e => .error e
      | .ok (some times, tape) =>
        proverLoop try_ comp fuel (cycle + 1) pr { s with tape := tape } (rulapp + times)
      | .ok (none, tape) => go { s with tape := tape }

/-- `/repo/src/machine.rs` L219-312 `run_prover` with any rule prover. -/
def runProverWith {π : Type} (try_ : TryRule π) (init : π) (comp : Prog) (simLim : Nat) :
    Except Err MachineResult :=
  proverLoop try_ comp simLim 0 init ⟨Tape.init, [], 0, 0⟩ 0

/-- `/repo/src/machine.rs` L219-312 `run_prover`, on a parsed program. -/
def runProver (comp : Prog) (simLim : Nat) : Except Err MachineResult :=
  runProverWith (fun pr cycle state tape => tryRule comp pr cycle state tape) .init comp simLim

end Rs

end BB
