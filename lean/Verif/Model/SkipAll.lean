import Verif.Model.RsProver
import Verif.Model.Macro
import Verif.Model.Graph
import Verif.Model.Reason
import Verif.Model.LinRec
import Verif.Model.Blocks
import Verif.Model.Segment

/-!
# Model of the filter of the tree search

`/repo/src/tree.rs` L253-298 (`incomplete`, `check_inf`, `skip_all`), with `run_for_infrul` of
`/repo/src/machine.rs` L169-213 and the prover of `/repo/src/prover.rs` for programs whose instructions
are computed on demand (`GetInstr` of `/repo/src/macros.rs` L112-126): fetching an instruction may change
the caches, so they are passed along.  A panic is `.error`.
-/

namespace BB

namespace Rs

/-! ## Programs with caches -/

/-- `GetInstr::get_instr` with the caches before and after. -/
abbrev Fetch (μ : Type) := μ → Slot → Except Err (Option Instr × μ)

/-- `get_instr` of a `CompProg`. -/
def fetchTable (comp : Prog) : Fetch Unit := fun _ slot => .ok (comp slot, ())

/-- `/repo/src/macros.rs` L112-148 `MacroProg::get_instr` over a table; `color_to_tape` of an unknown
colour panics (L355-357). -/
def fetchMacro (comp : Prog) (l : Logic) : Fetch MacroState := fun m slot =>
  match m.instrs.lookup slot with
  | some i => .ok (some i, m)
  | none =>
    match l.deconstruct m.conv slot with
    | .error _ => .error .indexError
    | .ok c =>
      match Rs.simulate comp l.simLim c with
      | none => .ok (none, m)
      | some c =>
        let r := l.reconstruct m.conv c
        .ok (some r.1, ⟨(slot, r.1) :: m.instrs, r.2⟩)

/-- The caches of a new macro program, `/repo/src/macros.rs` L130-137 and L343-353. -/
def macroCaches (l : Logic) : MacroState := ⟨[], .new l.baseColors l.cells⟩

/-! ## The prover -/

/-- `/repo/src/prover.rs` L88-110 `run_simulator`, and the loop of `get_min_sig`. -/
def runSimulatorM {τ μ : Type} (T : SimTape τ) (get : Fetch μ) (pr : Prover) :
    Nat → μ → State → τ → Except Err (Option (State × τ) × μ)
  | 0, m, state, t => .ok (some (state, t), m)
  | steps + 1, m, state, t =>
    let plain (t : τ) : Except Err (Option (State × τ) × μ) :=
      match get m (state, T.scan t) with
      | .error e => .error e
      | .ok (none, m) => .ok (none, m)
      | .ok (some (color, shift, nextState), m) =>
        runSimulatorM T get pr steps m nextState (T.step t shift color (state == nextState))
    match pr.getRule state (T.signature t) with
    | none => plain t
    | some rule =>
      match applyRuleOn T.toIndexTape rule t with
      | .error e => .error e
      | .ok (some _, t) => runSimulatorM T get pr steps m state t
      | .ok (none, t) => plain t

/-- `/repo/src/prover.rs` L112-144 `get_min_sig`. -/
def getMinSigM {μ : Type} (get : Fetch μ) (pr : Prover) (steps : Nat) (m : μ) (state : State)
    (tape : EnumTape) (sig : Sig) : Except Err (MinSig × μ) :=
  match runSimulatorM simEnum get pr steps m state tape with
  | .error e => .error e
  | .ok (none, _) => .error .assertion
  | .ok (some (_, tape), m) =>
    if tape.lOffset ≤ sig.lspan.length ∧ tape.rOffset ≤ sig.rspan.length then
      .ok ((⟨sig.scan, sig.lspan.take tape.lOffset, sig.rspan.take tape.rOffset⟩,
        (tape.lEdge, tape.rEdge)), m)
    else .error .indexError

/-- One turn of the loop of `/repo/src/prover.rs` L187-195. -/
def roundM {μ : Type} (get : Fetch μ) (pr : Prover) (m : μ) (state : State) (sig : Sig) (delta : Int)
    (tags : Tape) : Except Err (Option Tape × μ) :=
  match runSimulatorM simBasic get pr delta.toNat m state tags with
  | .error e => .error e
  | .ok (.none, m) => .ok (.none, m)
  | .ok (some (q, tags), m) =>
    if q != state || !tags.sigCompatible sig then .ok (.none, m) else .ok (some tags, m)

/-- The loop of `/repo/src/prover.rs` L185-202: the rule made from three rounds. -/
def inferRuleM {μ : Type} (get : Fetch μ) (pr : Prover) (m : μ) (state : State) (tape : Tape) (sig : Sig)
    (deltas : Deltas) : Except Err (Option Rule × μ) :=
  match roundM get pr m state sig deltas.1 tape with
  | .error e => .error e
  | .ok (.none, m) => .ok (.none, m)
  | .ok (some t1, m) =>
    match roundM get pr m state sig deltas.2.1 t1 with
    | .error e => .error e
    | .ok (.none, m) => .ok (.none, m)
    | .ok (some t2, m) =>
      match roundM get pr m state sig deltas.2.2 t2 with
      | .error e => .error e
      | .ok (.none, m) => .ok (.none, m)
      | .ok (some t3, m) => .ok (makeRule (counts tape) (counts t1) (counts t2) (counts t3), m)

/-- `/repo/src/prover.rs` L146-242 `try_rule`: the updated prover and caches, and the answer. -/
def tryRuleM {μ : Type} (get : Fetch μ) : TryRule (Prover × μ) := fun (pr, m) cycle state tape =>
  let sig := tape.signature
  match pr.getRule state sig with
  | some known => ((pr, m), .ok (.got known))
  | .none =>
    match pr.configs.lookup sig with
    | .none =>
      if pr.configs.length > 100000 then ((pr, m), .ok .configLimit)
      else (({ pr with configs := assocInsert pr.configs sig (PastConfigs.new state cycle) }, m),
        .ok .none)
    | some past =>
      match past.nextDeltas state cycle with
      | .error _ => ((pr, m), .error .assertion)
      | .ok (deltas, past) =>
        let pr := { pr with configs := assocInsert pr.configs sig past }
        match deltas with
        | .none => ((pr, m), .ok .none)
        | some deltas =>
          if deltas.1 > 90000 || deltas.2.1 > 90000 || deltas.2.2 > 90000 then ((pr, m), .ok .none)
          else
            match inferRuleM get pr m state tape sig deltas with
            | .error e => ((pr, m), .error e)
            | .ok (.none, m) => ((pr, m), .ok .none)
            | .ok (some rule, m) =>
              if !rule.any (fun e => Op.isMinus e.2) then ((pr, m), .ok .infiniteRule)
              else if rule.any (fun e => Op.isMult e.2) then ((pr, m), .ok .multRule)
              else if Prover.tooSimple rule tape then ((pr, m), .ok .none)
              else
                let pr := { pr with configs := assocInsert pr.configs sig (past.delete state) }
                match getMinSigM get pr deltas.1.toNat m state tape.toEnum sig with
                | .error e => ((pr, m), .error e)
                | .ok (minSig, m) => ((pr.setRule rule state minSig, m), .ok (.got rule))

/-! ## `run_for_infrul` -/

/-- The loop of `/repo/src/machine.rs` L176-210, with any rule prover; `get` is `get_instr`. -/
def infrulLoop {π : Type} (try_ : TryRule π) (get : Fetch π) :
    Nat → Nat → π → State → Tape → Except Err Bool
  | 0, _, _, _, _ => .ok false
  | fuel + 1, cycle, pr, state, tape =>
    let (pr, tried) := try_ pr cycle state tape
    let go (tape : Tape) : Except Err Bool :=
      match get pr (state, tape.scan) with
      | .error e => .error e
      | .ok (none, _) => .ok false
      | .ok (some (color, shift, nextState), pr) =>
        let same := state == nextState
        if same && tape.atEdge shift then .ok false
        else infrulLoop try_ get fuel (cycle + 1) pr nextState (Rs.step tape shift color same).1
    match tried with
    | .error e => .error e
    | .ok .none => go tape
    | .ok .configLimit => .ok false
    | .ok .multRule => .ok false
    | .ok .infiniteRule => .ok true
    | .ok (.got rule) =>
      match applyRuleOn basicTape rule tape with
      | .error e => .error e
      | .ok (some _, tape) => infrulLoop try_ get fuel (cycle + 1) pr state tape
      | .ok (none, tape) => go tape

/-- The caches beside a prover. -/
def Fetch.beside {μ : Type} (get : Fetch μ) : Fetch (Prover × μ) := fun (pr, m) slot =>
  match get m slot with
  | .error e => .error e
  | .ok (i, m) => .ok (i, (pr, m))

/-- `/repo/src/machine.rs` L169-213 `run_for_infrul`. -/
def runForInfrul {μ : Type} (get : Fetch μ) (init : μ) (simLim : Nat) : Except Err Bool :=
  infrulLoop (tryRuleM get) get.beside simLim 0 (.init, init) 0 .init

end Rs

/-! ## The filter -/

/-- `/repo/src/tree.rs` L254-269 `incomplete`. -/
def Table.incomplete (t : Table) (states colors : Nat) (halt : Bool) : Bool :=
  let dimension := states * colors
  if t.length < (if halt then dimension - 1 else dimension) then true
  else
    let usedStates := t.map fun e => e.2.2.2
    let usedColors := t.map fun e => e.2.1
    (colors == 2 && !usedColors.contains 0)
      || (List.range states).any (fun s => !usedStates.contains s)
      || (List.range' 1 (colors - 1)).any fun c => !usedColors.contains c

/-- `/repo/src/tree.rs` L272-283 `check_inf`. -/
def Table.checkInf (t : Table) (states colors blocks steps : Nat) : Except Err Bool :=
  let first :=
    if blocks == 1 then Rs.runForInfrul (Rs.fetchTable t.get?) () steps
    else
      let l := blockLogic blocks states colors
      Rs.runForInfrul (Rs.fetchMacro t.get? l) (Rs.macroCaches l) steps
  match first with
  | .error e => .error e
  | .ok true => .ok true
  | .ok false =>
    let l := Rs.backsymLogic 1 states colors
    Rs.runForInfrul (Rs.fetchMacro t.get? l) (Rs.macroCaches l) steps

/-- `cant_halt` or `cant_spin_out`, `/repo/src/tree.rs` L289. -/
def Table.cantReachTarget (t : Table) (halt : Bool) (depth : Nat) : Bool :=
  (if halt then t.cantHalt depth else t.cantSpinOut depth).isSome

/-- `/repo/src/tree.rs` L297: `halt && segment_cant_halt(comp, params, 3).is_some()`.  `fuel` bounds the
rounds of the segment analysis; running out of it is an error here. -/
def Table.segmentStage (t : Table) (fuel states colors : Nat) (halt : Bool) : Except Err Bool :=
  if halt then
    match t.segmentCantHalt fuel states colors 3 with
    | none => .error .assertion
    | some r => .ok r.isSome
  else .ok false

/-- `/repo/src/tree.rs` L293-297, from the second line of the disjunction on but without the
connectedness. -/
def Table.skipLate (t : Table) (fuel states colors : Nat) (halt : Bool) : Except Err Bool :=
  if t.cantReachTarget halt 1 then .ok true
  else if quickTermOrRec t.get? 301 true then .ok true
  else if t.cantReachTarget halt 256 then .ok true
  else
    match optBlock t.get? 300 with
    | none => .error .assertion
    | some blocks =>
      match t.checkInf states colors blocks 306 with
      | .error e => .error e
      | .ok true => .ok true
      | .ok false => t.segmentStage fuel states colors halt

/-- `/repo/src/tree.rs` L286-298 `skip_all`. -/
def Table.skipAll (t : Table) (fuel states colors : Nat) (halt : Bool) : Except Err Bool :=
  if t.incomplete states colors halt then .ok true
  else if states ≥ 4 then
    match t.isConnected states with
    | none => .error .assertion
    | some true => t.skipLate fuel states colors halt
    | some false => .ok true
  else t.skipLate fuel states colors halt

end BB
