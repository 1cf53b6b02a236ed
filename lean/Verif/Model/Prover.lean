import Verif.Model.EnumTape
import Verif.Model.PastConfigs
import Verif.Model.Quick

/-!
# Model of the inductive rule prover and of `Machine.run`

`/repo/tm/prover.py` (whole file) and `/repo/tm/machine.py` L139-234, for programs that are plain
tables (no macro, so no `MacroInfLoop`).  Simplification: counts are plain integers (see
`Verif.Model.Rules`), so a symbolic count and the exceptions belonging to it do not occur.
-/

namespace BB

/-- What `run_simulator` uses of `Tape | EnumTape`. -/
structure SimTape (τ : Type) extends IndexTape τ where
  scan : τ → Color
  signature : τ → Sig
  step : τ → Bool → Color → Bool → τ

def Tape.simTape : SimTape Tape where
  toIndexTape := Tape.indexTape
  scan t := t.scan
  signature := Tape.signature
  step t shift color skip := (Py.step t shift color skip).1

def EnumTape.simTape : SimTape EnumTape where
  get := EnumTape.getCount
  set := EnumTape.setCount
  scan t := t.tape.scan
  signature t := t.tape.forget.signature
  step := EnumTape.step

/-- `MinSig` (`/repo/tm/prover.py` L14). -/
abbrev MinSig := Sig × (Bool × Bool)

/-- `/repo/tm/prover.py` L21-34 `Prover` (the program is passed separately). -/
structure Prover where
  rules : List (Slot × List (MinSig × Rule))
  configs : List (Sig × PastConfigs)

namespace Prover

def init : Prover := ⟨[], []⟩

/-- The test of `/repo/tm/prover.py` L51-54. -/
def sigMatches (m : MinSig) (sig : Sig) : Bool :=
  m.1.scan == sig.scan
    && m.1.lspan == (if m.2.1 then sig.lspan else sig.lspan.take m.1.lspan.length)
    && m.1.rspan == (if m.2.2 then sig.rspan else sig.rspan.take m.1.rspan.length)

/-- `/repo/tm/prover.py` L39-57 `get_rule`, given the tape's signature (its `scan` is the
tape's). -/
def getRule (pr : Prover) (state : State) (sig : Sig) : Option Rule :=
  match pr.rules.lookup (state, sig.scan) with
  | none => none
  | some temp => (temp.find? (fun e => sigMatches e.1 sig)).map Prod.snd

/-- `/repo/tm/prover.py` L59-68 `set_rule`. -/
def setRule (pr : Prover) (rule : Rule) (state : State) (sig : MinSig) : Prover :=
  let slot := (state, sig.1.scan)
  { pr with rules := assocInsert pr.rules slot ((pr.rules.lookup slot).getD [] ++ [(sig, rule)]) }

/-- `/repo/tm/prover.py` L70-92 `run_simulator`; `.ok (none, t)` is `return None`. -/
def runSimulator {τ : Type} (T : SimTape τ) (comp : Prog) (pr : Prover) :
    Nat → State → τ → Except Err (Option State × τ)
  | 0, state, t => .ok (some state, t)
  | steps + 1, state, t =>
    -- one instruction (L83-90)
    let plain (t : τ) : Except Err (Option State × τ) :=
      match comp (state, T.scan t) with
      | none => .ok (none, t)
      | some (color, shift, nextState) =>
        runSimulator T comp pr steps nextState (T.step t shift color (state == nextState))
    match pr.getRule state (T.signature t) with
    | none => plain t
    | some rule =>
      match applyRule T.toIndexTape rule t with
      | .error e => .error e
      | .ok (some _, t) => runSimulator T comp pr steps state t
      | .ok (none, t) => plain t

/-- `/repo/tm/prover.py` L94-105 `get_min_sig`. -/
def getMinSig (comp : Prog) (pr : Prover) (steps : Nat) (state : State) (tape : EnumTape)
    (sig : Sig) : Except Err MinSig :=
  match runSimulator EnumTape.simTape comp pr steps state tape with
  | .error e => .error e
  | .ok (_, tape) =>
    .ok (⟨sig.scan, sig.lspan.take tape.lOffset, sig.rspan.take tape.rOffset⟩,
      (tape.lEdge, tape.rEdge))

/-- One turn of the loop of `/repo/tm/prover.py` L134-141: simulate `delta` cycles; the tape
reached, if the state and the signature are back. -/
def round (comp : Prog) (pr : Prover) (state : State) (sig : Sig) (delta : Int) (tags : Tape) :
    Except Err (Option Tape) :=
  match runSimulator Tape.simTape comp pr delta.toNat state tags with
  | .error e => .error e
  | .ok (q, tags) =>
    if q != some state || !tags.sigCompatible sig then .ok none else .ok (some tags)

/-- The test of `/repo/tm/prover.py` L148-153. -/
def tooSimple (rule : Rule) (tape : Tape) : Bool :=
  rule.length == 2 && tape.lspan.length == 1 && tape.rspan.length == 1
    && rule.all (fun (_, op) => match op with | .plus _ => true | .mult _ _ => false)
    && (match rule.map (fun (_, op) => match op with | .plus d => d.natAbs | .mult _ _ => 0) with
        | [] => false
        | d :: ds => ds.all (· == d))

/-- `/repo/tm/prover.py` L130-169: from the deltas to a rule. -/
def proveRule (comp : Prog) (pr : Prover) (state : State) (tape : Tape) (sig : Sig)
    (deltas : Deltas) : Except Err (Option (Rule × MinSig)) := do
  let (d1, d2, d3) := deltas
  match ← round comp pr state sig d1 tape with
  | none => .ok none
  | some t1 =>
    match ← round comp pr state sig d2 t1 with
    | none => .ok none
    | some t2 =>
      match ← round comp pr state sig d3 t2 with
      | none => .ok none
      | some t3 =>
        match ← makeRule tape.counts t1.counts t2.counts t3.counts with
        | none => .ok none
        | some rule =>
          if tooSimple rule tape then .ok none
          else
            let minSig ← getMinSig comp pr d1.toNat state tape.toEnum sig
            .ok (some (rule, minSig))

/-- `/repo/tm/prover.py` L107-169 `try_rule`: the updated prover, and the outcome. -/
def tryRule (comp : Prog) (pr : Prover) (cycle : Nat) (state : State) (tape : Tape) :
    Prover × Except Err (Option Rule) :=
  let sig := tape.signature
  match pr.getRule state sig with
  | some known => (pr, .ok (some known))
  | none =>
    match pr.configs.lookup sig with
    | none =>
      if pr.configs.length > 100000 then (pr, .error .configLimit)
      else ({ pr with configs := assocInsert pr.configs sig (PastConfigs.new state cycle) },
        .ok none)
    | some past =>
      match past.nextDeltas state cycle with
      | .error _ => (pr, .error .assertion)
      | .ok (deltas, past) =>
        let pr := { pr with configs := assocInsert pr.configs sig past }
        match deltas with
        | none => (pr, .ok none)
        | some deltas =>
          match proveRule comp pr state tape sig deltas with
          | .error e => (pr, .error e)
          | .ok none => (pr, .ok none)
          | .ok (some (rule, minSig)) =>
            let pr := { pr with configs := assocInsert pr.configs sig (past.delete state) }
            (pr.setRule rule state minSig, .ok (some rule))

end Prover

/-! ## `Machine.run` -/

/-- How a run ended (`/repo/tm/machine.py` L52-66); `crash` is an exception leaving `run`. -/
inductive RunRes
  | infrul | limrul | cfglim | spnout | xlimit
  | undfnd (slot : Slot)
  | crash (e : Err)
deriving DecidableEq, Repr

/-- What a run leaves behind. -/
structure RunOut where
  result : RunRes
  /-- `self.steps`: -1 once a rule has been applied -/
  steps : Int
  cycles : Nat
  tape : Tape
  rulapp : Int
  blanks : List (State × Int)

/-- The locals of `Machine.run`, with the prover's own state `π`. -/
structure RState (π : Type) where
  prover : π
  tape : Tape
  blanks : List (State × Int)
  step : Int
  state : State
  rulapp : Int

/-- A rule prover as `Machine.run` sees it. -/
abbrev TryRule (π : Type) := π → Nat → State → Tape → π × Except Err (Option Rule)

def RState.out {π : Type} (s : RState π) (cycle : Nat) (r : RunRes) : RunOut :=
  ⟨r, s.step, cycle, s.tape, s.rulapp, s.blanks⟩

/-- `/repo/tm/machine.py` L189-222: a plain step. -/
def plainStep {π : Type} (comp : Prog) (s : RState π) : Except RunRes (RState π) :=
  match comp (s.state, s.tape.scan) with
  | none => .error (.undfnd (s.state, s.tape.scan))
  | some (color, shift, nextState) =>
    let same := s.state == nextState
    if same && s.tape.atEdge shift then .error .spnout
    else
      let (tape, stepped) := Py.step s.tape shift color same
      .ok { s with tape := tape, state := nextState,
                   step := if s.step != -1 then s.step + stepped else s.step }

/-- `/repo/tm/machine.py` L213-222: the blank-tape bookkeeping after a step that printed `color`.
The second component tells whether to stop with `infrul`. -/
def blankCheck {π : Type} (color : Color) (s : RState π) : RState π × Bool :=
  if color == 0 && s.tape.blank then
    if (s.blanks.lookup s.state).isSome then (s, true)
    else
      let s := { s with blanks := (s.state, s.step) :: s.blanks }
      (s, s.state == 0)
  else (s, false)

/-- The loop of `/repo/tm/machine.py` L154-226; `fuel` is what is left of `range(sim_lim)`. -/
def runLoop {π : Type} (try_ : TryRule π) (comp : Prog) : Nat → Nat → RState π → RunOut
  | 0, cycle, s => s.out (cycle - 1) .xlimit
  | fuel + 1, cycle, s =>
    let (prover, tried) := try_ s.prover cycle s.state s.tape
    let s := { s with prover := prover }
    let go (s : RState π) : RunOut :=
      match plainStep comp s with
      | .error r => s.out cycle r
      | .ok s' =>
        let color := match comp (s.state, s.tape.scan) with | some (c, _, _) => c | none => 0
        let (s', stop) := blankCheck color s'
        if stop then s'.out cycle .infrul else runLoop try_ comp fuel (cycle + 1) s'
    match tried with
    | .error .infiniteRule => s.out cycle .infrul
    | .error .ruleLimit => s.out cycle .limrul
    | .error .configLimit => s.out cycle .cfglim
    | .error (.suspectedRule _ _) => go s
    | .error e => s.out cycle (.crash e)
    | .ok none => go s
    | .ok (some rule) =>
      match applyRule Tape.indexTape rule s.tape with
      | .error .ruleLimit => s.out cycle .limrul
      | .error e => s.out cycle (.crash e)
      | .ok (some times, tape) =>
        runLoop try_ comp fuel (cycle + 1)
          { s with tape := tape, step := -1, rulapp := s.rulapp + times }
      | .ok (none, tape) => go { s with tape := tape }

/-- `/repo/tm/machine.py` L139-234 `Machine.run` with any rule prover. -/
def runWith {π : Type} (try_ : TryRule π) (init : π) (comp : Prog) (simLim : Nat) : RunOut :=
  runLoop try_ comp simLim 0 ⟨init, Tape.init, [], 0, 0, 0⟩

/-- `/repo/tm/machine.py` L139-234 `Machine.run`. -/
def Machine.run (comp : Prog) (simLim : Nat) : RunOut :=
  runWith (fun pr cycle state tape => Prover.tryRule comp pr cycle state tape) .init comp simLim

end BB
