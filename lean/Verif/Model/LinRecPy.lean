import Verif.Model.LinRec
import Verif.Model.Quick

/-!
# Model of the Python recurrence checkers

`/repo/test/lin_rec.py`: `PtrTape` L24-95, `HeadTape` L109-265, `History` L273-355,
`BeepHistory` L358-382, `StrictLinRecMachine` L406-479, `LinRecSampler` L482-528,
`run_loose_linrec_machine` L531-624; and the test that judges a claimed recurrence,
`/repo/test/test_turing.py` L664-729 (`Recur.assert_lin_rec`, `deny_lin_rec`, `verify_lin_rec`).

The program is its lookup function.  Counts and steps are ℕ, positions ℤ.
`HeadTape` of the Python file has the fields of the Rust one, so `BB.HeadTape` is used; its
`step` is that of `/repo/tm/tape.py` plus the head position.  In a `History`, dictionaries are
association lists; `slots`, a dictionary of lists, is one list of (slot, step) in order of entry.
A `none` on the outside is an exception (`KeyError`, `AssertionError`, `ValueError`).
-/

namespace BB.PyRec

/-- `/repo/test/lin_rec.py` L153-201 `HeadTape.step`: the new tape and the number of moves. -/
def headStep (t : HeadTape) (shift : Bool) (color : Color) (skip : Bool) : HeadTape × Nat :=
  let (tape, stepped) := Py.step t.tape shift color skip
  (⟨if shift then t.head + stepped else t.head - stepped, tape⟩, stepped)

/-- `HeadTape()`, L117-127 with no arguments. -/
def headInit : HeadTape := ⟨0, Tape.init⟩

/-! ## `PtrTape` -/

/-- L24-28 `PtrTape`. -/
structure PtrTape where
  init : Int
  scan : Color
  tape : List Color
deriving DecidableEq, Repr

namespace PtrTape

/-- L30-44 `from_head`. -/
def fromHead (t : HeadTape) : PtrTape where
  init := ((t.tape.lspan.map Block.count).sum : Nat) - t.head
  scan := t.tape.scan
  tape := (t.tape.lspan.reverse.flatMap fun b => List.replicate b.count b.color)
    ++ [t.tape.scan] ++ (t.tape.rspan.flatMap fun b => List.replicate b.count b.color)

/-- Python's `l[: stop]`, where a negative `stop` counts from the end. -/
def upTo (l : List Color) (stop : Int) : List Color :=
  if 0 ≤ stop then l.take stop.toNat else l.take (l.length + stop).toNat

/-- L46-53 `get_ltr`. -/
def getLtr (t : PtrTape) (start : Int) : List Color :=
  let start := start + t.init
  let ldiff := -start
  if ldiff ≤ 0 then t.tape.drop start.toNat
  else List.replicate ldiff.toNat 0 ++ t.tape

/-- L55-62 `get_rtl`. -/
def getRtl (t : PtrTape) (stop : Int) : List Color :=
  let stop := stop + (t.init + 1)
  let rdiff := stop - t.tape.length
  if rdiff ≤ 0 then upTo t.tape stop
  else upTo t.tape (stop - rdiff) ++ List.replicate rdiff.toNat 0

/-- L64-71 `get_cnt`. -/
def getCnt (t : PtrTape) (start stop : Int) : List Color :=
  let start := start + t.init
  let stop := stop + (t.init + 1)
  (List.range (stop - start).toNat).map fun (i : Nat) =>
    let pos := start + (i : Nat)
    if 0 ≤ pos ∧ pos < t.tape.length then t.tape.getD pos.toNat 0 else 0

/-- L73-95 `aligns_with_optional_offsets`.  Both callers give the offsets that the assertions
ask for, so both are always given here. -/
def aligns (t prev : PtrTape) (diff leftmost rightmost : Int) : Bool :=
  if 0 < diff then prev.getLtr leftmost == t.getLtr (leftmost + diff)
  else if diff < 0 then prev.getRtl rightmost == t.getRtl (rightmost + diff)
  else prev.getCnt leftmost rightmost == t.getCnt leftmost rightmost

end PtrTape

/-! ## `History` -/

/-- L273-280 `History` and L358-360 `BeepHistory`. -/
structure History where
  tapes : List (Nat × PtrTape)
  positions : List Int
  slots : List (Slot × Nat)
  states : List State
deriving Repr

namespace History

/-- `BeepHistory(tapes = {})`; also with the sampler's dictionary, whose values are all `None`. -/
def empty : History := ⟨[], [], [], []⟩

/-- L295-296 `add_slot_at_step`. -/
def addSlot (h : History) (step : Nat) (slot : Slot) : History :=
  { h with slots := h.slots ++ [(slot, step)] }

/-- L298-304 `add_tape_at_step`. -/
def addTape (h : History) (step : Nat) (tape : HeadTape) : History :=
  { h with
    positions := h.positions ++ List.replicate (step - h.positions.length) tape.head ++ [tape.head]
    tapes := (step, PtrTape.fromHead tape) :: h.tapes }

/-- L362-364 `add_state_at_step`. -/
def addState (h : History) (step : Nat) (state : State) : History :=
  { h with states := h.states ++ List.replicate (step - h.states.length) state ++ [state] }

/-- L316-355 `verify_lin_rec`. -/
def verify (h : History) (steps recur : Nat) : Option (Option (Nat × Nat)) := do
  let tape1 ← h.tapes.lookup steps
  let tape2 ← h.tapes.lookup recur
  let pos2 ← h.positions[recur]?
  let pos1 ← h.positions[steps]?
  let leftmost ← (h.positions.drop steps).min?
  let rightmost ← (h.positions.drop steps).max?
  pure (if tape2.aligns tape1 (pos2 - pos1) leftmost rightmost then some (steps, recur - steps)
    else none)

/-- L306-314 `check_rec`: the loop. -/
def checkLoop (h : History) (step : Nat) : List Nat → Option (Option (Nat × Nat))
  | [] => some none
  | pstep :: rest =>
    match h.verify pstep step with
    | none => none
    | some (some result) => some (some result)
    | some none => checkLoop h step rest

/-- L306-314 `check_rec`. -/
def checkRec (h : History) (step : Nat) (slot : Slot) : Option (Option (Nat × Nat)) :=
  h.checkLoop step ((h.slots.filter fun e => e.1 == slot).map Prod.snd)

/-- L366-382 `calculate_beeps`, one entry of the dictionary. -/
def beep (states : List State) (state : State) : Option Nat :=
  if states.contains state then some (states.length - 1 - states.reverse.idxOf state) else none

/-- L471-477: `any(hc_beeps[st] <= hp_beeps[st] for st in hp_beeps)`. -/
def qsihlt (h : History) (start : Nat) : Bool :=
  (h.states.take start).any fun st =>
    match beep h.states st, beep (h.states.take start) st with
    | some hc, some hp => hc ≤ hp
    | _, _ => false

end History

/-! ## `StrictLinRecMachine` -/

/-- The attributes set by `run` (L385-410). -/
structure StrictRes where
  linrec : Option (Nat × Nat)
  spnout : Option Nat
  qsihlt : Option Bool
  undfnd : Option (Nat × Slot)
  xlimit : Option Nat
  blanks : List (State × Nat)
  cycles : Nat
deriving DecidableEq, Repr

/-- The locals of the loop (L417-429). -/
structure SState where
  step : Nat
  state : State
  tape : HeadTape
  hist : History
  blanks : List (State × Nat)

/-- L446-453: execute one instruction. -/
def SState.advance (s : SState) (skip : Bool) (color : Color) (shift : Bool) (nextState : State) :
    SState :=
  let (tape, stepped) := headStep s.tape shift color skip
  let step := s.step + stepped
  ⟨step, nextState, tape, s.hist,
    if color == 0 && tape.tape.blank && (s.blanks.lookup nextState).isNone then
      (nextState, step) :: s.blanks else s.blanks⟩

/-- L432-433: the entries made before the check. -/
def SState.record (s : SState) : History :=
  (s.hist.addState s.step s.state).addTape s.step s.tape

/-- L429: the slot. -/
def SState.slot (s : SState) : Slot := (s.state, s.tape.tape.scan)

/-- L440-453: the rest of the loop body; `error` carries the undefined slot. -/
def SState.move (comp : Prog) (s : SState) : Except (Nat × Slot) SState :=
  match comp s.slot with
  | none => .error (s.step, s.slot)
  | some (color, shift, nextState) =>
    .ok (s.advance (s.state == nextState) color shift nextState)

/-- L428-458 the loop of `run`, with L462-479 `check_rec`; `fuel` counts the remaining cycles. -/
def strictLoop (comp : Prog) (checkRec : Nat) : Nat → Nat → SState → Option StrictRes
  | 0, cycle, s => some ⟨none, none, none, none, some s.step, s.blanks, cycle - 1⟩
  | fuel + 1, cycle, s =>
    if s.step ≥ checkRec then
      match s.record.checkRec s.step s.slot with
      | none => none
      | some (some (start, rec)) =>
        some ⟨some (start, rec), if rec == 1 then some (s.step - 1) else none,
          some (s.record.qsihlt start), none, none, s.blanks, cycle⟩
      | some none =>
        match SState.move comp { s with hist := s.record.addSlot s.step s.slot } with
        | .error u => some ⟨none, none, none, some u, none, s.blanks, cycle⟩
        | .ok s' => strictLoop comp checkRec fuel (cycle + 1) s'
    else
      match SState.move comp s with
      | .error u => some ⟨none, none, none, some u, none, s.blanks, cycle⟩
      | .ok s' => strictLoop comp checkRec fuel (cycle + 1) s'

/-- L417-426: the start. -/
def SState.start : SState := ⟨0, 0, headInit, .empty, []⟩

/-- L412-460 `StrictLinRecMachine.run`; `sim_lim or 1_000_000` turns `None` and 0 into the
default. -/
def strictRun (comp : Prog) (simLim checkRec : Nat) : Option StrictRes :=
  strictLoop comp checkRec (if simLim == 0 then 1000000 else simLim) 0 .start

/-! ## `LinRecSampler` and the test -/

/-- L501-528 the loop of `LinRecSampler.run`; only the history is used afterwards.  A key of
`samples` that no step equals stays unused, so `samples` is the list of the keys in ℕ. -/
def sampleLoop (comp : Prog) (samples : List Nat) : Nat → SState → SState
  | 0, s => s
  | fuel + 1, s =>
    let s := if samples.contains s.step then { s with hist := s.record } else s
    match comp s.slot with
    | none => s
    | some (color, shift, nextState) =>
      sampleLoop comp samples fuel (s.advance false color shift nextState)

/-- L485-528 `LinRecSampler.run`: the history. -/
def sample (comp : Prog) (simLim : Nat) (samples : List Nat) : History :=
  (sampleLoop comp samples (if simLim == 0 then 1000000 else simLim) .start).hist

/-- `/repo/test/test_turing.py` L664-680 `assert_lin_rec`: does it pass? -/
def assertLinRec (h : History) (steps recur : Nat) : Bool :=
  match h.states[steps]?, h.states[recur]? with
  | some a, some b => a == b && h.verify steps recur == some (some (steps, recur - steps))
  | _, _ => false

/-- `/repo/test/test_turing.py` L682-695 `deny_lin_rec`: does it pass? -/
def denyLinRec (h : History) (steps recur : Nat) : Bool :=
  match h.states[steps]?, h.states[recur]? with
  | some a, some b => if a == b then h.verify steps recur == some none else true
  | _, _ => false

/-- The history that `/repo/test/test_turing.py` L697-715 looks at.  When `steps` is 0 the key
`steps - 1` is -1, which is no step. -/
def testHistory (comp : Prog) (steps period : Nat) : History :=
  let recur := period + steps
  let runtime := period + recur
  sample comp (1 + runtime)
    ((if steps = 0 then [] else [steps - 1]) ++
      [steps, steps + 1, recur - 1, recur, recur + 1, recur + period])

/-- `/repo/test/test_turing.py` L697-729 `verify_lin_rec`: does it pass? -/
def testVerify (comp : Prog) (steps period : Nat) : Bool :=
  let recur := period + steps
  let h := testHistory comp steps period
  assertLinRec h steps recur && assertLinRec h (1 + steps) (1 + recur) &&
    assertLinRec h steps (period + recur) && decide (period > 1) &&
    denyLinRec h steps (1 + recur) && denyLinRec h steps (recur - 1) &&
    (if steps ≥ 1 then denyLinRec h (steps - 1) recur else true)

/-! ## `run_loose_linrec_machine` -/

/-- L244-262 `HeadTape.aligns_with`. -/
def alignsWith (t prev : HeadTape) (leftmost rightmost : Int) : Bool :=
  let diff := t.head - prev.head
  if 0 < diff then prev.getSlice leftmost true == t.getSlice (leftmost + diff) true
  else if diff < 0 then prev.getSlice rightmost false == t.getSlice (rightmost + diff) false
  else t == prev

/-- The locals of the loops (L536-558). -/
structure LooseState where
  state : State
  step : Nat
  tape : HeadTape
  blanks : List (State × Nat)
  stepsReset : Nat
  leftmost : Int
  rightmost : Int
  initState : State
  initTape : HeadTape

/-- L552-558: the beginning of the outer loop. -/
def LooseState.rebase (s : LooseState) : LooseState :=
  { s with stepsReset := 2 * s.step, leftmost := s.tape.head, rightmost := s.tape.head,
           initState := s.state, initTape := s.tape }

/-- The extremes, L593-596. -/
def LooseState.extend (s : LooseState) : LooseState :=
  let curr := s.tape.head
  if curr < s.leftmost then { s with leftmost := curr }
  else if s.rightmost < curr then { s with rightmost := curr }
  else s

/-- L598-606: compare with the tape at the beginning of the outer loop. -/
def LooseState.recurs (s : LooseState) : Bool :=
  s.state == s.initState && s.tape.tape.scan == s.initTape.tape.scan
    && alignsWith s.tape s.initTape s.leftmost s.rightmost

/-- The result, L616-624. -/
def LooseState.result (s : LooseState) (r : TermRes) (cycle : Nat) (slot : Option Slot) :
    MachineResult :=
  ⟨r, s.step, cycle, 0, 0, s.blanks, slot⟩

/-- L551-614, both loops.  Every pass through the inner body adds 1 to `cycle`, so `fuel` is
`sim_lim - cycle`; when it is used up both loops end and the outer `else` gives `xlimit`.  The
outer loop comes round again exactly when `step` has reached `steps_reset`. -/
def looseLoop (comp : Prog) : Nat → Nat → LooseState → MachineResult
  | 0, cycle, s => s.result .xlimit cycle none
  | fuel + 1, cycle, s =>
    let s := if s.step < s.stepsReset then s else s.rebase
    match comp (s.state, s.tape.tape.scan) with
    | none => s.result .undfnd cycle (some (s.state, s.tape.tape.scan))
    | some (color, shift, nextState) =>
      let same := s.state == nextState
      if same && s.tape.tape.atEdge shift then s.result .spnout cycle none
      else
        let (tape, stepped) := headStep s.tape shift color same
        let s : LooseState := { s with state := nextState, step := s.step + stepped, tape := tape }
        let isBlank := color == 0 && tape.tape.blank
        if isBlank && (s.blanks.lookup nextState).isSome then s.result .infrul (cycle + 1) none
        else
          let s := if isBlank then { s with blanks := (nextState, s.step) :: s.blanks } else s
          if isBlank && nextState == 0 then s.result .infrul (cycle + 1) none
          else
            let s := s.extend
            if s.recurs then s.result .infrul (cycle + 1) none
            else looseLoop comp fuel (cycle + 1) s

/-- The start, L536-549; the first pass through the outer loop sets the rest. -/
def LooseState.start : LooseState :=
  ⟨1, 1, HeadTape.initStepped, [], 0, 1, 1, 1, HeadTape.initStepped⟩

/-- L531-624 `run_loose_linrec_machine`. -/
def looseRun (comp : Prog) (simLim : Nat) : MachineResult :=
  looseLoop comp (simLim - 1) 1 .start

end BB.PyRec
