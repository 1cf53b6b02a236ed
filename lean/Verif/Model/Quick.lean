import Verif.Model.Tape

/-!
# Model of the rule-free runner

`/repo/src/machine.rs` L316-380 `run_quick_machine` (re-exported to Python).
The program is taken as its lookup function (`comp.get(&slot)`); parsing is
modelled in `Model/Parse.lean`.  `u64` is modelled as ℕ.
-/

namespace BB

/-- `/repo/src/machine.rs` L21-28 `TermRes`. -/
inductive TermRes
  | xlimit | cfglim | infrul | spnout | undfnd | mulrul
deriving DecidableEq, Repr

/-- `/repo/src/machine.rs` L34-45 `MachineResult`; `blanks` is the map as an association list. -/
structure MachineResult where
  result : TermRes
  steps : Nat
  cycles : Nat
  marks : Nat
  rulapp : Nat
  blanks : List (State × Nat)
  lastSlot : Option Slot
deriving DecidableEq, Repr

namespace MachineResult

/-- `/repo/src/machine.rs` L96-108 `undfnd`: outer `none` is the `panic!()`. -/
def undfnd (r : MachineResult) : Option (Option (Nat × Slot)) :=
  match r.result with
  | .undfnd => match r.lastSlot with
    | some s => some (some (r.steps, s))
    | none => none
  | _ => some none

/-- `/repo/src/machine.rs` L110-116 `simple_termination`. -/
def simpleTermination (r : MachineResult) : Option Nat :=
  match r.result with
  | .undfnd | .spnout => some r.steps
  | _ => none

end MachineResult

/-- Mutable locals of the loop (`/repo/src/machine.rs` L321-330). -/
structure QState where
  tape : Tape
  blanks : List (State × Nat)
  state : State
  steps : Nat
deriving Repr

/-- Outcome of one pass through the loop body. -/
inductive QOut
  | next (s : QState)
  | stop (r : TermRes) (s : QState) (cycles : Nat) (slot : Option Slot)

/-- `/repo/src/machine.rs` L333-368, the loop body. -/
def quickBody (comp : Prog) (cycle : Nat) (s : QState) : QOut :=
  let slot := (s.state, s.tape.scan)
  match comp slot with
  | none => .stop .undfnd s cycle (some slot)
  | some (color, shift, nextState) =>
    let same := s.state == nextState
    if same && s.tape.atEdge shift then .stop .spnout s cycle none
    else
      let (tape, stepped) := Rs.step s.tape shift color same
      let steps := s.steps + stepped
      if color == 0 && tape.blank then
        if (s.blanks.lookup nextState).isSome then
          .stop .infrul ⟨tape, s.blanks, nextState, steps⟩ 0 none
        else
          let s' : QState := ⟨tape, (nextState, steps) :: s.blanks, nextState, steps⟩
          if nextState == 0 then .stop .infrul s' 0 none else .next s'
      else .next ⟨tape, s.blanks, nextState, steps⟩

/-- `/repo/src/machine.rs` L371-379, building the result. -/
def quickResult (r : TermRes) (s : QState) (cycles : Nat) (slot : Option Slot) : MachineResult :=
  ⟨r, s.steps, cycles, s.tape.marks, 0, s.blanks, slot⟩

/-- `/repo/src/machine.rs` L332-369: the loop; `fuel` counts the remaining cycles. -/
def quickLoop (comp : Prog) : Nat → Nat → QState → MachineResult
  | 0, _, s => quickResult .xlimit s 0 none
  | fuel + 1, cycle, s =>
    match quickBody comp cycle s with
    | .stop r s' cycles slot => quickResult r s' cycles slot
    | .next s' => quickLoop comp fuel (cycle + 1) s'

/-- `/repo/src/machine.rs` L318-380 `run_quick_machine`. -/
def runQuick (comp : Prog) (simLim : Nat) : MachineResult :=
  quickLoop comp simLim 0 ⟨Tape.init, [], 0, 0⟩

end BB
