import Verif.Model.LinRec
import Verif.Model.Graph

/-!
# Model of the backward reasoner

`/repo/src/reason.rs`.  A `Vec` is a list; the chain of `Rc<Config>` reached through `prev` is the
list of its states and tapes, nearest first; the `HashSet` of states is a list.
-/

namespace BB

/-- `/repo/src/reason.rs` L362-366 `TapeEnd`. -/
inductive TapeEnd
  | blanks | unknown
deriving DecidableEq, Repr

/-- `/repo/src/reason.rs` L377-386 `Backstepper`. -/
structure Backstepper where
  scan : Color
  lspan : List Block
  rspan : List Block
  head : Int
  lEnd : TapeEnd
  rEnd : TapeEnd
deriving DecidableEq, Repr

namespace Backstepper

/-- `/repo/src/reason.rs` L409-418 `init_halt`. -/
def initHalt (scan : Color) : Backstepper := ⟨scan, [], [], 0, .unknown, .unknown⟩

/-- `/repo/src/reason.rs` L420-429 `init_blank`. -/
def initBlank (scan : Color) : Backstepper := ⟨scan, [], [], 0, .blanks, .blanks⟩

/-- `/repo/src/reason.rs` L431-446 `init_spinout`. -/
def initSpinout (dir : Bool) : Backstepper :=
  if dir then ⟨0, [], [], 0, .unknown, .blanks⟩ else ⟨0, [], [], 0, .blanks, .unknown⟩

/-- `/repo/src/reason.rs` L448-455 `blank`. -/
def blank (b : Backstepper) : Bool := b.scan == 0 && (b.lspan ++ b.rspan).all (·.color == 0)

/-- `/repo/src/reason.rs` L457-473 `check_step`, once the sides are chosen. -/
def checkSpans (pull push : List Block) (pullEnd : TapeEnd) (print : Color) : Option Bool :=
  match pull with
  | block :: _ => if print = block.color then some false else none
  | [] =>
    match pullEnd with
    | .blanks => if print = 0 then some true else none
    | .unknown => some (!push.isEmpty)

/-- `/repo/src/reason.rs` L457-473 `check_step`. -/
def checkStep (b : Backstepper) (shift : Bool) (print : Color) : Option Bool :=
  if shift then checkSpans b.lspan b.rspan b.lEnd print
  else checkSpans b.rspan b.lspan b.rEnd print

/-- `/repo/src/reason.rs` L482-488: take one cell off. -/
def pull1 : List Block → List Block
  | [] => []
  | block :: rest =>
    if block.count = 1 then rest else { block with count := block.count - 1 } :: rest

/-- `/repo/src/reason.rs` L490-501: put the scanned cell on. -/
def push1 (scan : Color) (pushEnd : TapeEnd) (push : List Block) : List Block :=
  if scan ≠ 0 ∨ push ≠ [] ∨ pushEnd = .unknown then
    match push with
    | [] => [⟨scan, 1⟩]
    | block :: rest =>
      if block.color = scan then { block with count := block.count + 1 } :: rest
      else ⟨scan, 1⟩ :: block :: rest
  else push

/-- `/repo/src/reason.rs` L475-506 `backstep`. -/
def backstep (b : Backstepper) (shift : Bool) (read : Color) : Backstepper :=
  if shift then
    { b with scan := read, lspan := pull1 b.lspan, rspan := push1 b.scan b.rEnd b.rspan,
             head := b.head - 1 }
  else
    { b with scan := read, rspan := pull1 b.rspan, lspan := push1 b.scan b.lEnd b.lspan,
             head := b.head + 1 }

/-- What the `Alignment` trait sees (`/repo/src/reason.rs` L509-563; `get_slice` is the one of
`HeadTape`). -/
def toHead (b : Backstepper) : HeadTape := ⟨b.head, ⟨b.lspan, b.scan, b.rspan⟩⟩

end Backstepper

/-- `/repo/src/reason.rs` L37-42 `Config`. -/
structure BConfig where
  state : State
  tape : Backstepper
  recs : Nat
  prev : List (State × Backstepper)
deriving DecidableEq, Repr

namespace BConfig

/-- `/repo/src/reason.rs` L45-52 `Config::new`. -/
def new (state : State) (tape : Backstepper) : BConfig := ⟨state, tape, 0, []⟩

/-- The loop of `/repo/src/reason.rs` L61-84. -/
def linRecLoop (state : State) (tape : Backstepper) :
    Int → Int → List (State × Backstepper) → Bool
  | _, _, [] => false
  | leftmost, rightmost, (q, t) :: rest =>
    let pos := t.head
    let (leftmost, rightmost) :=
      if pos < leftmost then (pos, rightmost)
      else if rightmost < pos then (leftmost, pos)
      else (leftmost, rightmost)
    if state == q && tape.toHead.alignsWith t.toHead leftmost rightmost then true
    else linRecLoop state tape leftmost rightmost rest

/-- `/repo/src/reason.rs` L54-87 `lin_rec`. -/
def linRec (c : BConfig) : Bool := linRecLoop c.state c.tape c.tape.head c.tape.head c.prev

end BConfig

/-! ## Entry points -/

/-- `/repo/src/reason.rs` L105 `Entrypoints`, by key. -/
abbrev Entrypoints := List (State × List (Slot × Instr))

/-- `/repo/src/reason.rs` L286-291: instructions by the state they lead to. -/
def Table.entries (t : Table) : Entrypoints :=
  (t.foldr (fun e acc => insertUniq e.2.2.2 acc) []).map fun q =>
    (q, t.filter fun e => e.2.2.2 == q)

/-- One turn of `/repo/src/reason.rs` L293-305. -/
def Entrypoints.prune (es : Entrypoints) : Entrypoints :=
  let reached := es.map Prod.fst
  (es.map fun e => (e.1, e.2.filter fun i => reached.contains i.1.1)).filter fun e => !e.2.isEmpty

/-- The loop of `/repo/src/reason.rs` L293-305. -/
def Entrypoints.pruneLoop : Nat → Entrypoints → Entrypoints
  | 0, es => es
  | k + 1, es => if es.prune.length = es.length then es.prune else pruneLoop k es.prune

/-- `/repo/src/reason.rs` L285-308 `get_entrypoints`. -/
def Table.entrypoints (t : Table) : Entrypoints := t.entries.pruneLoop t.entries.length

/-! ## The search -/

/-- The loop over the instructions, `/repo/src/reason.rs` L168-181; `none` is `return None`. -/
def goodSteps (c : BConfig) : List (Slot × Instr) → Option (List Instr)
  | [] => some []
  | ((nextState, nextColor), (print, shift, _)) :: rest =>
    match c.tape.checkStep shift print with
    | none => goodSteps c rest
    | some atEdge =>
      if atEdge && c.tape.scan == nextColor && c.state == nextState then none
      else (goodSteps c rest).map ((nextColor, shift, nextState) :: ·)

/-- `/repo/src/reason.rs` L155-192 `get_valid_steps`.  (`entrypoints[&state]` does not panic, see
`Table.entrypoints_closed`.) -/
def validSteps (es : Entrypoints) : List BConfig → Option (List (List Instr × BConfig))
  | [] => some []
  | c :: rest =>
    (goodSteps c ((es.lookup c.state).getD [])).bind fun good =>
      (validSteps es rest).map fun r => if good.isEmpty then r else (good, c) :: r

/-- The inner loop of `/repo/src/reason.rs` L203-240: what is pushed, and the blanks. -/
def stepInner (c : BConfig) : List Instr → List State → Option (List BConfig × List State)
  | [], blanks => some ([], blanks)
  | (color, shift, state) :: rest, blanks =>
    let tape := c.tape.backstep shift color
    let go (blanks : List State) : Option (List BConfig × List State) :=
      let next : BConfig := ⟨state, tape, c.recs, (c.state, c.tape) :: c.prev⟩
      let recs := if next.linRec then c.recs + 1 else c.recs
      if next.linRec && decide (recs > 1) then none
      else (stepInner c rest blanks).map fun r => ({ next with recs := recs } :: r.1, r.2)
    if tape.blank then
      if state = 0 then none
      else if blanks.contains state then stepInner c rest blanks
      else go (state :: blanks)
    else go blanks

/-- `/repo/src/reason.rs` L194-243 `step_configs`. -/
def stepConfigs : List (List Instr × BConfig) → List State → Option (List BConfig × List State)
  | [], blanks => some ([], blanks)
  | (instrs, c) :: rest, blanks =>
    (stepInner c instrs blanks).bind fun r =>
      (stepConfigs rest r.2).map fun r' => (r.1 ++ r'.1, r'.2)

/-- The loop of `/repo/src/reason.rs` L128-147; the first argument counts the remaining rounds. -/
def reachLoop (es : Entrypoints) : Nat → Nat → List BConfig → List State → Option Nat
  | 0, _, _, _ => none
  | fuel + 1, step, configs, blanks =>
    (validSteps es configs).bind fun valid =>
      if valid.length = 0 then some step
      else if 46 < valid.length then none
      else (stepConfigs valid blanks).bind fun r => reachLoop es fuel (step + 1) r.1 r.2

/-- `/repo/src/reason.rs` L107-150 `cant_reach`. -/
def Table.cantReach (t : Table) (depth : Nat) (configs : List BConfig) : Option Nat :=
  if configs.isEmpty then some 0
  else
    let es := t.entrypoints
    let configs := configs.filter fun c => (es.lookup c.state).isSome
    let blanks := (configs.filter fun c => c.tape.blank).map BConfig.state
    reachLoop es depth 0 configs blanks

/-- `/repo/src/reason.rs` L243-260 `halt_configs`. -/
def Table.haltConfigs (t : Table) : List BConfig :=
  let m := t.foldl (fun (m : Nat × Nat) e => (max m.1 e.1.1, max m.2 e.1.2)) (0, 0)
  (List.range (m.1 + 1)).flatMap fun state => (List.range (m.2 + 1)).filterMap fun color =>
    if (t.get? (state, color)).isNone then some (.new state (.initHalt color)) else none

/-- `/repo/src/reason.rs` L262-271 `erase_configs`. -/
def Table.eraseConfigs (t : Table) : List BConfig :=
  t.filterMap fun e =>
    if e.2.1 = 0 ∧ e.1.2 ≠ 0 then some (.new e.1.1 (.initBlank e.1.2)) else none

/-- `/repo/src/reason.rs` L273-283 `zero_reflexive_configs`. -/
def Table.zeroReflexiveConfigs (t : Table) : List BConfig :=
  t.filterMap fun e =>
    if e.1.2 = 0 ∧ e.2.2.2 = e.1.1 then some (.new e.1.1 (.initSpinout e.2.2.1)) else none

/-- `/repo/src/reason.rs` L23-25 `cant_halt`. -/
def Table.cantHalt (t : Table) (depth : Nat) : Option Nat := t.cantReach depth t.haltConfigs

/-- `/repo/src/reason.rs` L27-29 `cant_blank`. -/
def Table.cantBlank (t : Table) (depth : Nat) : Option Nat := t.cantReach depth t.eraseConfigs

/-- `/repo/src/reason.rs` L31-33 `cant_spin_out`. -/
def Table.cantSpinOut (t : Table) (depth : Nat) : Option Nat :=
  t.cantReach depth t.zeroReflexiveConfigs

end BB
