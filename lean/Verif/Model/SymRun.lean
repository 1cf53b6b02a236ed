/-
Model of tapes, prover and `Machine.run` with symbolic counts: /repo/tm/tape.py L27-305,
/repo/tm/prover.py (whole file), /repo/tm/machine.py L139-234 and the access to the tape in
/repo/tm/rules.py L250-310, for programs that are plain tables.

`Verif.Model.Prover` has integer counts throughout.  The program does not: `apply_mult` makes a `Num` as
soon as a multiplicative rule is applied more than once.

Blocks carry the `(side, number)` that `EnumTape.enums` has for their object (`Verif.Model.EnumTape`);
`Tape.step` moves block objects from one span to the other, and so the tags.  On an ordinary tape nothing
looks at them.

Simplification: `ExpModLimit` and `ModDepthLimit` are the error `num .other` (`Verif.Model.NumMod`), so
that where the program turns them into a `RuleLimit` the model reports a crash.
-/
import Verif.Model.SymRules
import Verif.Model.Prover

namespace BB
namespace Sym

/-! ### Tapes -/

/-- `Block` (tape.py L27-42) with the entry of `enums` for its identity. -/
structure SBlock where
  color : Color
  count : Num
  tag : Option Index
deriving DecidableEq, Repr

/-- `Tape` (tape.py L44-58). -/
structure STape where
  lspan : List SBlock
  scan : Color
  rspan : List SBlock
deriving DecidableEq, Repr

namespace STape

/-- `Tape()`. -/
def init : STape := ⟨[], 0, []⟩

/-- `Tape.blank` (tape.py L76-78). -/
def blank (t : STape) : Bool := t.scan == 0 && t.lspan.isEmpty && t.rspan.isEmpty

/-- `Tape.at_edge` (tape.py L91-95). -/
def atEdge (t : STape) (edge : Bool) : Bool :=
  t.scan == 0 && (if edge then t.rspan else t.lspan).isEmpty

/-- `sum(...)` of tape.py L84-87, from an accumulator. -/
def spanMarks (o : Ops) : Num → List SBlock → R Num
  | acc, [] => .ok acc
  | acc, b :: rest =>
    if b.color != 0 then do
      let acc ← o.add acc b.count
      spanMarks o acc rest
    else spanMarks o acc rest

/-- `Tape.marks` (tape.py L80-89). -/
def marks (o : Ops) (t : STape) : R Num := do
  let l ← spanMarks o (.int 0) t.lspan
  let r ← spanMarks o (.int 0) t.rspan
  let x ← o.add (.int (if t.scan != 0 then 1 else 0)) l
  o.add x r

/-- The generator of tape.py L112-117. -/
def sigSpan (s : List SBlock) : List SigItem := s.map fun b => (b.color, decide (b.count = .int 1))

/-- `Tape.signature` (tape.py L108-119). -/
def signature (t : STape) : Sig := ⟨t.scan, sigSpan t.lspan, sigSpan t.rspan⟩

/-- `Tape.counts` (tape.py L101-106). -/
def counts (t : STape) : SCounts := (t.lspan.map SBlock.count, t.rspan.map SBlock.count)

/-- One side of the test of tape.py L139-154. -/
def spanCompatible (s : List SBlock) (sig : List SigItem) : Bool :=
  decide (s.length ≥ sig.length)
    && ((s.take sig.length).zip sig).all (fun (block, item) => block.color == item.1)

/-- `Tape.sig_compatible` (tape.py L135-155). -/
def sigCompatible (t : STape) (sig : Sig) : Bool :=
  t.scan == sig.scan && spanCompatible t.lspan sig.lspan && spanCompatible t.rspan sig.rspan

/-- `push_block` (tape.py L164-168) and what is left of `pull`. -/
def takeSkip (pull : List SBlock) (scan : Color) (skip : Bool) : Option SBlock × List SBlock :=
  match pull with
  | [] => (none, [])
  | b :: rest => if skip && b.color == scan then (some b, rest) else (none, b :: rest)

/-- `stepped` (tape.py L170). -/
def steppedOf (o : Ops) : Option SBlock → R Num
  | none => .ok (.int 1)
  | some b => o.add (.int 1) b.count

/-- `next_scan`, `pull` and `push_block` (tape.py L172-186). -/
def pullOne (o : Ops) (pull : List SBlock) (pushBlock : Option SBlock) :
    R (Color × List SBlock × Option SBlock) :=
  match pull with
  | [] => .ok (0, [], pushBlock)
  | b :: rest =>
    if b.count ≠ .int 1 then do
      let c ← o.sub b.count (.int 1)
      return (b.color, { b with count := c } :: rest, pushBlock)
    else
      match pushBlock with
      | none => .ok (b.color, rest, some { b with count := .int 0 })
      | some pb => .ok (b.color, rest, some pb)

/-- The block to insert (tape.py L191-195). -/
def freshBlock (o : Ops) (color : Color) : Option SBlock → R SBlock
  | none => .ok ⟨color, .int 1, none⟩
  | some b => do
    let c ← o.add b.count (.int 1)
    return ⟨color, c, b.tag⟩

/-- `push` (tape.py L188-197). -/
def pushOn (o : Ops) (push : List SBlock) (color : Color) (stepped : Num) (pushBlock : Option SBlock) :
    R (List SBlock) :=
  match push with
  | top :: rest =>
    if top.color == color then do
      let c ← o.add top.count stepped
      return { top with count := c } :: rest
    else do
      let b ← freshBlock o color pushBlock
      return b :: top :: rest
  | [] =>
    if color != 0 then do
      let b ← freshBlock o color pushBlock
      return [b]
    else .ok []

/-- `Tape.step` (tape.py L157-201) after `pull, push` are chosen. -/
def stepSpans (o : Ops) (pull push : List SBlock) (scan color : Color) (skip : Bool) :
    R (List SBlock × List SBlock × Color × Num) := do
  let stepped ← steppedOf o (takeSkip pull scan skip).1
  let (nextScan, pull', pushBlock) ← pullOne o (takeSkip pull scan skip).2 (takeSkip pull scan skip).1
  let push' ← pushOn o push color stepped pushBlock
  return (pull', push', nextScan, stepped)

/-- `Tape.step` (tape.py L157-201). -/
def step (o : Ops) (t : STape) (shift : Bool) (color : Color) (skip : Bool) : R (STape × Num) :=
  if shift then do
    let (pull, push, scan, n) ← stepSpans o t.rspan t.lspan t.scan color skip
    return (⟨push, scan, pull⟩, n)
  else do
    let (pull, push, scan, n) ← stepSpans o t.lspan t.rspan t.scan color skip
    return (⟨pull, scan, push⟩, n)

/-- The block at an index. -/
def block? (t : STape) (i : Index) : Option SBlock := (if i.1 then t.rspan else t.lspan)[i.2]?

/-- `Tape.get_count` (tape.py L121-126). -/
def getCount (t : STape) (i : Index) : RR Num :=
  match t.block? i with
  | none => .error (.num .other)
  | some b => .ok b.count

/-- `Tape.set_count` (tape.py L128-133). -/
def setCount (t : STape) (i : Index) (v : Num) : RR STape :=
  match t.block? i with
  | none => .error (.num .other)
  | some b =>
    let b := { b with count := v }
    .ok (if i.1 then { t with rspan := t.rspan.set i.2 b } else { t with lspan := t.lspan.set i.2 b })

end STape

/-- `EnumTape` (tape.py L209-219). -/
structure SEnumTape where
  tape : STape
  lOffset : Nat
  rOffset : Nat
  lEdge : Bool
  rEdge : Bool
deriving DecidableEq, Repr

/-- Number the blocks of one side from 1 (tape.py L230-234). -/
def tagSSpan (side : Bool) (s : List SBlock) : List SBlock :=
  s.mapIdx fun i b => { b with tag := some (side, i + 1) }

/-- `Tape.to_enum` (tape.py L67-68). -/
def STape.toEnum (t : STape) : SEnumTape :=
  ⟨⟨tagSSpan false t.lspan, t.scan, tagSSpan true t.rspan⟩, 0, 0, false, false⟩

namespace SEnumTape

/-- `touch_edge` (tape.py L244-248). -/
def touchEdge (t : SEnumTape) (shift : Bool) : SEnumTape :=
  if shift then { t with rEdge := true } else { t with lEdge := true }

/-- `check_offsets` (tape.py L250-260). -/
def checkOffsets (t : SEnumTape) (b : SBlock) : SEnumTape :=
  match b.tag with
  | none => t
  | some (side, offset) =>
    if side then
      if offset > t.rOffset then { t with rOffset := offset } else t
    else
      if offset > t.lOffset then { t with lOffset := offset } else t

/-- The checks made before a step (tape.py L289-303). -/
def check (t : SEnumTape) (shift : Bool) (color : Color) (skip : Bool) : SEnumTape :=
  let (pull, push) :=
    if shift then (t.tape.rspan, t.tape.lspan) else (t.tape.lspan, t.tape.rspan)
  let t := match pull with
    | [] => t.touchEdge shift
    | near :: rest =>
      let t := t.checkOffsets near
      if skip && near.color == t.tape.scan then
        match rest with
        | [] => t.touchEdge shift
        | next :: _ => t.checkOffsets next
      else t
  match push with
  | [] => t
  | opp :: _ => if color == opp.color then t.checkOffsets opp else t

/-- `EnumTape.step` (tape.py L282-305). -/
def step (o : Ops) (t : SEnumTape) (shift : Bool) (color : Color) (skip : Bool) : R SEnumTape := do
  let (tape, _) ← t.tape.step o shift color skip
  return { t.check shift color skip with tape := tape }

/-- `EnumTape.get_count` (tape.py L262-273). -/
def getCount (t : SEnumTape) (i : Index) : RR (Num × SEnumTape) :=
  match t.tape.block? i with
  | none => .error (.num .other)
  | some b => .ok (b.count, t.checkOffsets b)

/-- `EnumTape.set_count` (tape.py L275-276). -/
def setCount (t : SEnumTape) (i : Index) (v : Num) : RR SEnumTape := do
  let tape ← t.tape.setCount i v
  return { t with tape := tape }

end SEnumTape

/-! ### Rules on tapes -/

/-- What the prover uses of `Tape | EnumTape`, with the protocol `IndexTape` (rules.py L250-252). -/
structure SSimTape (τ : Type) where
  get : τ → Index → RR (Num × τ)
  set : τ → Index → Num → RR τ
  scan : τ → Color
  signature : τ → Sig
  step : τ → Bool → Color → Bool → R τ

def STape.simTape (o : Ops) : SSimTape STape where
  get t i := do
    let c ← t.getCount i
    return (c, t)
  set := STape.setCount
  scan t := t.scan
  signature := STape.signature
  step t shift color skip := do
    let (t', _) ← t.step o shift color skip
    return t'

def SEnumTape.simTape (o : Ops) : SSimTape SEnumTape where
  get := SEnumTape.getCount
  set := SEnumTape.setCount
  scan t := t.tape.scan
  signature t := t.tape.signature
  step := SEnumTape.step o

/-- `countAppsFrom` with the access to the tape (rules.py L255-284). -/
def countAppsOn {τ : Type} (strict : Bool) (o : Ops) (T : SSimTape τ) :
    SRule → τ → Option (Num × Index × Int) → RR (Option (Num × Index × Int) × τ)
  | [], t, apps => .ok (apps, t)
  | (pos, .plus diff) :: rest, t, apps =>
    if diff ≥ 0 then countAppsOn strict o T rest t apps
    else do
      let (count, t) ← T.get t pos
      if tooSmall count (-diff) then return (none, t)
      else
        let (times, minRes) ← lift (appsOf strict o count (-diff))
        match apps with
        | none => countAppsOn strict o T rest t (some (times, pos, minRes))
        | some (curr, p, r) =>
          let less ← lift (o.lt times curr)
          if less then countAppsOn strict o T rest t (some (times, pos, minRes))
          else countAppsOn strict o T rest t (some (curr, p, r))
  | _ :: rest, t, apps => countAppsOn strict o T rest t apps

/-- `applyRuleFrom` with the access to the tape (rules.py L293-308). -/
def applyRuleFromOn {τ : Type} (strict : Bool) (o : Ops) (T : SSimTape τ) (times : Num)
    (minPos : Index) (minRes : Int) : SRule → τ → RR τ
  | [], t => .ok t
  | (pos, op) :: rest, t => do
    let (count, t) ← T.get t pos
    let result ← opResult strict o times minPos minRes pos count op
    let t ← T.set t pos result
    applyRuleFromOn strict o T times minPos minRes rest t

/-- `apply_rule` (rules.py L287-310). -/
def applyRuleOn {τ : Type} (strict : Bool) (o : Ops) (T : SSimTape τ) (rule : SRule) (t : τ) :
    RR (Option Num × τ) := do
  let (apps, t) ← countAppsOn strict o T rule t none
  match apps with
  | none => return (none, t)
  | some (times, minPos, minRes) =>
    let t ← applyRuleFromOn strict o T times minPos minRes rule t
    return (some times, t)

/-! ### The prover -/

/-- `Prover` (prover.py L21-34). -/
structure SProver where
  rules : List (Slot × List (MinSig × SRule))
  configs : List (Sig × PastConfigs)

namespace SProver

def init : SProver := ⟨[], []⟩

/-- `get_rule` (prover.py L39-57). -/
def getRule (pr : SProver) (state : State) (sig : Sig) : Option SRule :=
  match pr.rules.lookup (state, sig.scan) with
  | none => none
  | some temp => (temp.find? (fun e => Prover.sigMatches e.1 sig)).map Prod.snd

/-- `set_rule` (prover.py L59-68). -/
def setRule (pr : SProver) (rule : SRule) (state : State) (sig : MinSig) : SProver :=
  let slot := (state, sig.1.scan)
  { pr with rules := assocInsert pr.rules slot ((pr.rules.lookup slot).getD [] ++ [(sig, rule)]) }

/-- `run_simulator` (prover.py L70-92). -/
def runSimulator {τ : Type} (strict : Bool) (o : Ops) (T : SSimTape τ) (comp : Prog) (pr : SProver) :
    Nat → State → τ → RR (Option State × τ)
  | 0, state, t => .ok (some state, t)
  | steps + 1, state, t =>
    let plain (t : τ) : RR (Option State × τ) :=
      match comp (state, T.scan t) with
      | none => .ok (none, t)
      | some (color, shift, nextState) => do
        let t' ← lift (T.step t shift color (state == nextState))
        runSimulator strict o T comp pr steps nextState t'
    match pr.getRule state (T.signature t) with
    | none => plain t
    | some rule =>
      match applyRuleOn strict o T rule t with
      | .error e => .error e
      | .ok (some _, t) => runSimulator strict o T comp pr steps state t
      | .ok (none, t) => plain t

/-- `get_min_sig` (prover.py L94-105). -/
def getMinSig (strict : Bool) (o : Ops) (comp : Prog) (pr : SProver) (steps : Nat) (state : State)
    (tape : SEnumTape) (sig : Sig) : RR MinSig :=
  match runSimulator strict o (SEnumTape.simTape o) comp pr steps state tape with
  | .error e => .error e
  | .ok (_, tape) =>
    .ok (⟨sig.scan, sig.lspan.take tape.lOffset, sig.rspan.take tape.rOffset⟩,
      (tape.lEdge, tape.rEdge))

/-- One turn of the loop of prover.py L134-141. -/
def round (strict : Bool) (o : Ops) (comp : Prog) (pr : SProver) (state : State) (sig : Sig)
    (delta : Int) (tags : STape) : RR (Option STape) :=
  match runSimulator strict o (STape.simTape o) comp pr delta.toNat state tags with
  | .error e => .error e
  | .ok (q, tags) =>
    if q != some state || !tags.sigCompatible sig then .ok none else .ok (some tags)

/-- The test of prover.py L148-153. -/
def tooSimple (rule : SRule) (tape : STape) : Bool :=
  rule.length == 2 && tape.lspan.length == 1 && tape.rspan.length == 1
    && rule.all (fun (_, op) => match op with | .plus _ => true | _ => false)
    && (match rule.map (fun (_, op) => match op with | .plus d => d.natAbs | _ => 0) with
        | [] => false
        | d :: ds => ds.all (· == d))

/-- From the deltas to a rule (prover.py L130-169). -/
def proveRule (strict : Bool) (o : Ops) (comp : Prog) (pr : SProver) (state : State) (tape : STape)
    (sig : Sig) (deltas : Deltas) : RR (Option (SRule × MinSig)) := do
  let (d1, d2, d3) := deltas
  match ← round strict o comp pr state sig d1 tape with
  | none => .ok none
  | some t1 =>
    match ← round strict o comp pr state sig d2 t1 with
    | none => .ok none
    | some t2 =>
      match ← round strict o comp pr state sig d3 t2 with
      | none => .ok none
      | some t3 =>
        match ← makeRule strict o tape.counts t1.counts t2.counts t3.counts with
        | none => .ok none
        | some rule =>
          if tooSimple rule tape then .ok none
          else
            let minSig ← getMinSig strict o comp pr d1.toNat state tape.toEnum sig
            .ok (some (rule, minSig))

/-- `try_rule` (prover.py L107-169): the updated prover, and the outcome; the limit of prover.py L120 is
the error `configLimit`. -/
def tryRule (strict : Bool) (o : Ops) (comp : Prog) (pr : SProver) (cycle : Nat) (state : State)
    (tape : STape) : SProver × Except (Option RErr) (Option SRule) :=
  let sig := tape.signature
  match pr.getRule state sig with
  | some known => (pr, .ok (some known))
  | none =>
    match pr.configs.lookup sig with
    | none =>
      if pr.configs.length > 100000 then (pr, .error none)
      else ({ pr with configs := assocInsert pr.configs sig (PastConfigs.new state cycle) },
        .ok none)
    | some past =>
      match past.nextDeltas state cycle with
      | .error _ => (pr, .error (some .assertion))
      | .ok (deltas, past) =>
        let pr := { pr with configs := assocInsert pr.configs sig past }
        match deltas with
        | none => (pr, .ok none)
        | some deltas =>
          match proveRule strict o comp pr state tape sig deltas with
          | .error e => (pr, .error (some e))
          | .ok none => (pr, .ok none)
          | .ok (some (rule, minSig)) =>
            let pr := { pr with configs := assocInsert pr.configs sig (past.delete state) }
            (pr.setRule rule state minSig, .ok (some rule))

end SProver

/-! ### `Machine.run` -/

/-- How a run ended (machine.py L52-66); `crash` is an exception leaving `run`. -/
inductive SRunRes
  | infrul | limrul | cfglim | spnout | xlimit
  | undfnd (slot : Slot)
  | crash (e : RErr)
deriving DecidableEq, Repr

/-- The locals of `Machine.run`, with the prover's own state `π`. -/
structure SRState (π : Type) where
  prover : π
  tape : STape
  blanks : List (State × Int)
  step : Int
  state : State
  rulapp : Num

/-- What a run leaves behind. -/
structure SRunOut where
  result : SRunRes
  steps : Int
  cycles : Nat
  tape : STape
  rulapp : Num
  blanks : List (State × Int)

/-- A rule prover as `Machine.run` sees it; the error `none` is `ConfigLimit`. -/
abbrev STryRule (π : Type) := π → Nat → State → STape → π × Except (Option RErr) (Option SRule)

def SRState.out {π : Type} (s : SRState π) (cycle : Nat) (r : SRunRes) : SRunOut :=
  ⟨r, s.step, cycle, s.tape, s.rulapp, s.blanks⟩

/-- The new `step` (machine.py L202-204). -/
def newStep (step : Int) (stepped : Num) : Except SRunRes Int :=
  if step = -1 then .ok (-1)
  else match stepped with
    | .int k => .ok (step + k)
    | _ => .error (.crash .assertion)

/-- A plain step (machine.py L189-206). -/
def splainStep {π : Type} (o : Ops) (comp : Prog) (s : SRState π) : Except SRunRes (SRState π) :=
  match comp (s.state, s.tape.scan) with
  | none => .error (.undfnd (s.state, s.tape.scan))
  | some (color, shift, nextState) =>
    if s.state == nextState && s.tape.atEdge shift then .error .spnout
    else
      match s.tape.step o shift color (s.state == nextState) with
      | .error e => .error (.crash (.num e))
      | .ok (tape, stepped) => do
        let step ← newStep s.step stepped
        return { s with tape := tape, state := nextState, step := step }

/-- The blank-tape bookkeeping after a step that printed `color` (machine.py L208-217).  The second
component tells whether to stop with `infrul`. -/
def sblankCheck {π : Type} (color : Color) (s : SRState π) : SRState π × Bool :=
  if color == 0 && s.tape.blank then
    if (s.blanks.lookup s.state).isSome then (s, true)
    else ({ s with blanks := (s.state, s.step) :: s.blanks }, s.state == 0)
  else (s, false)

/-- The loop of machine.py L154-219. -/
def srunLoop {π : Type} (strict : Bool) (o : Ops) (try_ : STryRule π) (comp : Prog) :
    Nat → Nat → SRState π → SRunOut
  | 0, cycle, s => s.out (cycle - 1) .xlimit
  | fuel + 1, cycle, s =>
    let (prover, tried) := try_ s.prover cycle s.state s.tape
    let s := { s with prover := prover }
    let go (s : SRState π) : SRunOut :=
      match splainStep o comp s with
      | .error r => s.out cycle r
      | .ok s' =>
        let color := match comp (s.state, s.tape.scan) with | some (c, _, _) => c | none => 0
        let (s', stop) := sblankCheck color s'
        if stop then s'.out cycle .infrul else srunLoop strict o try_ comp fuel (cycle + 1) s'
    match tried with
    | .error (some .infiniteRule) => s.out cycle .infrul
    | .error (some .ruleLimit) => s.out cycle .limrul
    | .error none => s.out cycle .cfglim
    | .error (some (.suspectedRule _ _)) => go s
    | .error (some e) => s.out cycle (.crash e)
    | .ok none => go s
    | .ok (some rule) =>
      match applyRuleOn strict o (STape.simTape o) rule s.tape with
      | .error .ruleLimit => s.out cycle .limrul
      | .error e => s.out cycle (.crash e)
      | .ok (some times, tape) =>
        match o.add s.rulapp times with
        | .error e => { s with tape := tape, step := -1 }.out cycle (.crash (.num e))
        | .ok rulapp =>
          srunLoop strict o try_ comp fuel (cycle + 1)
            { s with tape := tape, step := -1, rulapp := rulapp }
      | .ok (none, tape) => go { s with tape := tape }

/-- `Machine.run` (machine.py L139-234) with any rule prover. -/
def srunWith {π : Type} (strict : Bool) (o : Ops) (try_ : STryRule π) (init : π) (comp : Prog)
    (simLim : Nat) : SRunOut :=
  srunLoop strict o try_ comp simLim 0 ⟨init, STape.init, [], 0, 0, .int 0⟩

/-- `Machine.run` (machine.py L139-234). -/
def SMachine.run (strict : Bool) (o : Ops) (comp : Prog) (simLim : Nat) : SRunOut :=
  srunWith strict o (SProver.tryRule strict o comp) .init comp simLim

end Sym
end BB
