import Verif.Model.Macro
import Verif.Model.Prover

/-!
# Model of `Machine.run` on macro programs

`/repo/tm/machine.py` L139-234 and `/repo/tm/prover.py` L70-169 for a program that is a `MacroProg`
(`/repo/tm/macro.py`), possibly a macro of a macro.  Fetching an instruction then changes caches and
can raise `MacroInfLoop`, so the definitions of `Verif.Model.Prover` are written again with a
fetching function that threads the caches (`σ`).  Simplifications: those of `Verif.Model.Prover`;
and each macro level has its own converter (in the code two levels of one machine share a
converter only if they have the same number of colours and cells).
-/

namespace BB

/-- A program object (`/repo/tm/macro.py` L18-19): a fetch may change the caches. -/
abbrev Fetch (σ : Type) := σ → Slot → Except MErr Instr × σ

/-- A program without caches. -/
def Fetch.ofPure (g : GetInstr) : Fetch Unit := fun u slot => (g slot, u)

/-- `/repo/tm/macro.py` L196-239, the loop with `lim` turns left; the base program is `f`. -/
def winLoopS {σ : Type} (f : Fetch σ) : Nat → Win → σ → Except MErr MConfig × σ
  | 0, _, s => (.error .infLoop, s)
  | lim + 1, w, s =>
    match f s (w.state, w.tape.getD w.pos 0) with
    | (.error e, s) => (.error e, s)
    | (.ok i, s) =>
      match winExec w (w.tape.getD w.pos 0) i with
      | .exit _ w => (.ok (w.state, decide (w.tape.length ≤ w.pos), w.tape), s)
      | .next w => winLoopS f lim w s

/-- `/repo/tm/macro.py` L172-186 `__getitem__` and `calculate_instr`. -/
def macroFetch {σ : Type} (f : Fetch σ) (l : Logic) : Fetch (σ × MacroState) := fun (s, m) slot =>
  match m.instrs.lookup slot with
  | some i => (.ok i, (s, m))
  | none =>
    match l.deconstruct m.conv slot with
    | .error e => (.error e, (s, m))
    | .ok c =>
      match winLoopS f l.simLim (winStart c) s with
      | (.error e, s) => (.error e, (s, m))
      | (.ok c, s) =>
        let r := l.reconstruct m.conv c
        (.ok r.1, (s, ⟨(slot, r.1) :: m.instrs, r.2⟩))

/-- A level that is left out: the fetch goes to the program below. -/
def passFetch {σ : Type} (f : Fetch σ) : Fetch (σ × MacroState) := fun (s, m) slot =>
  let r := f s slot
  (r.1, (r.2, m))

/-- Whether `make_macro` makes a block macro, and of how many cells (`/repo/tm/macro.py` L36). -/
def blockCells (blocks : Option Nat) : Option Nat := blocks.filter (1 < ·)

/-- The parameters `make_macro` gives to the block macro (`/repo/tm/macro.py` L37-38): `given`, or
those of the table. -/
def blockParams (table : Nat × Nat) (given : Option (Nat × Nat)) : Nat × Nat := given.getD table

/-- The parameters it gives to the backsymbol macro (L43-44): new ones unless `given` and no
`blocks`; those of the block macro if there is one. -/
def backParams (table : Nat × Nat) (blocks : Option Nat) (given : Option (Nat × Nat)) : Nat × Nat :=
  match blockCells blocks with
  | some k =>
    ((blockLogic k (blockParams table given).1 (blockParams table given).2).macroStates,
      (blockLogic k (blockParams table given).1 (blockParams table given).2).macroColors)
  | none => if blocks.isSome then table else given.getD table

/-- The caches of a program object made by `make_macro`: the block level and the backsymbol level
(not used if the level is left out). -/
abbrev Caches := (Unit × MacroState) × MacroState

/-- `/repo/tm/macro.py` L23-48 `make_macro`, without `opt_macro` (which only computes `blocks`);
`table` is `prog_params` of the compiled table. -/
def makeMacro (comp : Prog) (table : Nat × Nat) (blocks backsym : Option Nat)
    (given : Option (Nat × Nat)) : Fetch Caches :=
  let base := Fetch.ofPure (GetInstr.ofTable comp)
  let blockLevel : Fetch (Unit × MacroState) :=
    match blockCells blocks with
    | some k => macroFetch base (blockLogic k (blockParams table given).1 (blockParams table given).2)
    | none => passFetch base
  match backsym with
  | some k => macroFetch blockLevel
      (backsymLogic k (backParams table blocks given).1 (backParams table blocks given).2)
  | none => passFetch blockLevel

/-! ## The prover -/

/-- What can leave `try_rule`: an exception of the rules, or one raised by fetching. -/
inductive PErr
  | py (e : Err)
  | fetch (e : MErr)
deriving DecidableEq, Repr

namespace Prover

/-- `/repo/tm/prover.py` L70-92 `run_simulator`: `KeyError` is caught. -/
def runSimulatorM {τ σ : Type} (T : SimTape τ) (f : Fetch σ) (pr : Prover) :
    Nat → State → τ → σ → Except PErr (Option State × τ) × σ
  | 0, state, t, s => (.ok (some state, t), s)
  | steps + 1, state, t, s =>
    let plain (t : τ) : Except PErr (Option State × τ) × σ :=
      match f s (state, T.scan t) with
      | (.error (.keyError _), s) => (.ok (none, t), s)
      | (.error e, s) => (.error (.fetch e), s)
      | (.ok (color, shift, nextState), s) =>
        runSimulatorM T f pr steps nextState (T.step t shift color (state == nextState)) s
    match pr.getRule state (T.signature t) with
    | none => plain t
    | some rule =>
      match applyRule T.toIndexTape rule t with
      | .error e => (.error (.py e), s)
      | .ok (some _, t) => runSimulatorM T f pr steps state t s
      | .ok (none, t) => plain t

/-- `/repo/tm/prover.py` L94-105 `get_min_sig`. -/
def getMinSigM {σ : Type} (f : Fetch σ) (pr : Prover) (steps : Nat) (state : State)
    (tape : EnumTape) (sig : Sig) (s : σ) : Except PErr MinSig × σ :=
  match runSimulatorM EnumTape.simTape f pr steps state tape s with
  | (.error e, s) => (.error e, s)
  | (.ok (_, tape), s) =>
    (.ok (⟨sig.scan, sig.lspan.take tape.lOffset, sig.rspan.take tape.rOffset⟩,
      (tape.lEdge, tape.rEdge)), s)

/-- `/repo/tm/prover.py` L134-141, one turn. -/
def roundM {σ : Type} (f : Fetch σ) (pr : Prover) (state : State) (sig : Sig) (delta : Int)
    (tags : Tape) (s : σ) : Except PErr (Option Tape) × σ :=
  match runSimulatorM Tape.simTape f pr delta.toNat state tags s with
  | (.error e, s) => (.error e, s)
  | (.ok (q, tags), s) =>
    (if q != some state || !tags.sigCompatible sig then .ok none else .ok (some tags), s)

/-- `/repo/tm/prover.py` L130-153: from the deltas to a rule. -/
def proveRuleM {σ : Type} (f : Fetch σ) (pr : Prover) (state : State) (tape : Tape) (sig : Sig)
    (deltas : Deltas) (s : σ) : Except PErr (Option Rule) × σ :=
  match roundM f pr state sig deltas.1 tape s with
  | (.error e, s) => (.error e, s)
  | (.ok none, s) => (.ok none, s)
  | (.ok (some t1), s) =>
    match roundM f pr state sig deltas.2.1 t1 s with
    | (.error e, s) => (.error e, s)
    | (.ok none, s) => (.ok none, s)
    | (.ok (some t2), s) =>
      match roundM f pr state sig deltas.2.2 t2 s with
      | (.error e, s) => (.error e, s)
      | (.ok none, s) => (.ok none, s)
      | (.ok (some t3), s) =>
        match makeRule tape.counts t1.counts t2.counts t3.counts with
        | .error e => (.error (.py e), s)
        | .ok none => (.ok none, s)
        | .ok (some rule) => (.ok (if tooSimple rule tape then none else some rule), s)

/-- `/repo/tm/prover.py` L107-169 `try_rule`: the updated prover and caches, and the outcome. -/
def tryRuleM {σ : Type} (f : Fetch σ) (pr : Prover) (s : σ) (cycle : Nat) (state : State)
    (tape : Tape) : (Prover × σ) × Except PErr (Option Rule) :=
  let sig := tape.signature
  match pr.getRule state sig with
  | some known => ((pr, s), .ok (some known))
  | none =>
    match pr.configs.lookup sig with
    | none =>
      if pr.configs.length > 100000 then ((pr, s), .error (.py .configLimit))
      else (({ pr with configs := assocInsert pr.configs sig (PastConfigs.new state cycle) }, s),
        .ok none)
    | some past =>
      match past.nextDeltas state cycle with
      | .error _ => ((pr, s), .error (.py .assertion))
      | .ok (deltas, past) =>
        let pr := { pr with configs := assocInsert pr.configs sig past }
        match deltas with
        | none => ((pr, s), .ok none)
        | some deltas =>
          match proveRuleM f pr state tape sig deltas s with
          | (.error e, s) => ((pr, s), .error e)
          | (.ok none, s) => ((pr, s), .ok none)
          | (.ok (some rule), s) =>
            let pr := { pr with configs := assocInsert pr.configs sig (past.delete state) }
            match getMinSigM f pr deltas.1.toNat state tape.toEnum sig s with
            | (.error e, s) => ((pr, s), .error e)
            | (.ok minSig, s) => ((pr.setRule rule state minSig, s), .ok (some rule))

end Prover

/-! ## `Machine.run` -/

/-- A rule prover as `Machine.run` sees it; `π` holds the prover and the caches. -/
abbrev TryRuleM (π : Type) := π → Nat → State → Tape → π × Except PErr (Option Rule)

/-- How `Machine.run` ends when fetching raises (`/repo/tm/machine.py` L191-197): a `KeyError` is
reported with its own key. -/
def fetchRes : MErr → RunRes
  | .keyError slot => .undfnd slot
  | .infLoop => .infrul
  | .assertion => .crash .assertion

/-- `/repo/tm/machine.py` L189-222: fetch, step, bookkeeping of blank tapes; how the run ends, if it
does. -/
def turnM {π : Type} (f : Fetch π) (s : RState π) : RState π × Option RunRes :=
  match f s.prover (s.state, s.tape.scan) with
  | (.error e, pr) => ({ s with prover := pr }, some (fetchRes e))
  | (.ok (color, shift, nextState), pr) =>
    let s := { s with prover := pr }
    let same := s.state == nextState
    if same && s.tape.atEdge shift then (s, some .spnout)
    else
      let (tape, stepped) := Py.step s.tape shift color same
      let (s, stop) := blankCheck color
        { s with tape := tape, state := nextState,
                 step := if s.step != -1 then s.step + stepped else s.step }
      (s, if stop then some .infrul else none)

/-- To the end of the run, or on with `next`. -/
def orStop {π : Type} (cycle : Nat) (next : RState π → RunOut) : RState π × Option RunRes → RunOut
  | (s, some r) => s.out cycle r
  | (s, none) => next s

/-- The loop of `/repo/tm/machine.py` L154-226. -/
def runLoopM {π : Type} (try_ : TryRuleM π) (f : Fetch π) : Nat → Nat → RState π → RunOut
  | 0, cycle, s => s.out (cycle - 1) .xlimit
  | fuel + 1, cycle, s =>
    let (prover, tried) := try_ s.prover cycle s.state s.tape
    let s := { s with prover := prover }
    let go (s : RState π) : RunOut :=
      orStop cycle (fun s => runLoopM try_ f fuel (cycle + 1) s) (turnM f s)
    match tried with
    | .error (.py .infiniteRule) => s.out cycle .infrul
    | .error (.py .ruleLimit) => s.out cycle .limrul
    | .error (.py .configLimit) => s.out cycle .cfglim
    | .error (.py (.suspectedRule _ _)) => go s
    | .error (.fetch .infLoop) => go s
    | .error (.py e) => s.out cycle (.crash e)
    | .error (.fetch _) => s.out cycle (.crash .assertion)
    | .ok none => go s
    | .ok (some rule) =>
      match applyRule Tape.indexTape rule s.tape with
      | .error .ruleLimit => s.out cycle .limrul
      | .error e => s.out cycle (.crash e)
      | .ok (some times, tape) =>
        runLoopM try_ f fuel (cycle + 1)
          { s with tape := tape, step := -1, rulapp := s.rulapp + times }
      | .ok (none, tape) => go { s with tape := tape }

/-- `/repo/tm/machine.py` L139-234 `Machine.run` with any rule prover. -/
def runWithM {π : Type} (try_ : TryRuleM π) (f : Fetch π) (init : π) (simLim : Nat) : RunOut :=
  runLoopM try_ f simLim 0 ⟨init, Tape.init, [], 0, 0, 0⟩

/-- The prover of the code, on a program object. -/
def proverOf {σ : Type} (f : Fetch σ) : TryRuleM (Prover × σ) := fun pr cycle state tape =>
  Prover.tryRuleM f pr.1 pr.2 cycle state tape

/-- The program object, beside the prover. -/
def Fetch.beside {σ : Type} (f : Fetch σ) : Fetch (Prover × σ) := fun pr slot =>
  let r := f pr.2 slot
  (r.1, (pr.1, r.2))

/-- `/repo/tm/machine.py` L139-234 `Machine.run` for a program object with caches `s`. -/
def Machine.runM {σ : Type} (f : Fetch σ) (s : σ) (simLim : Nat) : RunOut :=
  runWithM (proverOf f) f.beside (.init, s) simLim

end BB
