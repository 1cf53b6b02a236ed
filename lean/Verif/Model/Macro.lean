import Verif.Spec.TM

/-!
# Model of macro programs

`/repo/tm/macro.py` L74-377 and `/repo/src/macros.rs`.  A program is anything with a
`__getitem__` (`GetInstr`): a table, or another macro program.  Python's unbounded integers and
Rust's `u64` are both modelled as ℕ.  The two dictionaries of the converter and the instruction
cache are association lists (newest entry first).
-/

namespace BB

/-- What fetching an instruction can raise: `KeyError` with the missing key, `MacroInfLoop`
(`/repo/tm/macro.py` L117), `AssertionError` (L98). -/
inductive MErr
  | keyError (slot : Slot)
  | infLoop
  | assertion
deriving DecidableEq, Repr

/-- `/repo/tm/macro.py` L18-19 `GetInstr.__getitem__`. -/
abbrev GetInstr := Slot → Except MErr Instr

/-- A compiled table (`dict`): a missing key raises `KeyError`. -/
def GetInstr.ofTable (comp : Prog) : GetInstr := fun s =>
  match comp s with
  | some i => .ok i
  | none => .error (.keyError s)

/-- The slots that have an instruction. -/
def GetInstr.prog (g : GetInstr) : Prog := fun s => (g s).toOption

/-! ## `run_simulator` -/

/-- `Config` (`/repo/tm/macro.py` L15): state, side, cells. -/
abbrev MConfig := State × Bool × List Color

/-- The locals of `/repo/tm/macro.py` L188-239 `run_simulator`. -/
structure Win where
  state : State
  pos : Nat
  tape : List Color
deriving DecidableEq, Repr

/-- Outcome of one turn of the `for` loop; `exit` is `break`, with the side left
(`/repo/src/macros.rs` keeps it in `side`). -/
inductive WOut
  | next (w : Win)
  | exit (side : Bool) (w : Win)
deriving DecidableEq, Repr

/-- `/repo/tm/macro.py` L218-223: the `while` loop to the right.  The first argument is
`cells - pos`; `true` means `cells <= pos` was met. -/
def sweepRight (scan color : Color) : Nat → Nat → List Color → Bool × Nat × List Color
  | 0, pos, tape => (true, pos, tape)
  | rem + 1, pos, tape =>
    if tape.getD pos 0 == scan then sweepRight scan color rem (pos + 1) (tape.set pos color)
    else (false, pos, tape)

/-- `/repo/tm/macro.py` L228-232: the `while` loop to the left. -/
def sweepLeft (scan color : Color) : Nat → List Color → Bool × Nat × List Color
  | 0, tape =>
    if tape.getD 0 0 == scan then (true, 0, tape.set 0 color) else (false, 0, tape)
  | pos + 1, tape =>
    if tape.getD (pos + 1) 0 == scan then sweepLeft scan color pos (tape.set (pos + 1) color)
    else (false, pos + 1, tape)

/-- `/repo/tm/macro.py` L198-234, the loop body once the instruction is known. -/
def winExec (w : Win) (scan : Color) : Instr → WOut
  | (color, shift, nextState) =>
    if nextState != w.state then
      let tape := w.tape.set w.pos color
      if shift then
        if w.tape.length ≤ w.pos + 1 then .exit true ⟨nextState, w.pos + 1, tape⟩
        else .next ⟨nextState, w.pos + 1, tape⟩
      else
        if w.pos == 0 then .exit false ⟨nextState, w.pos, tape⟩
        else .next ⟨nextState, w.pos - 1, tape⟩
    else
      let r := if shift then sweepRight scan color (w.tape.length - w.pos) w.pos w.tape
        else sweepLeft scan color w.pos w.tape
      if r.1 then .exit shift ⟨w.state, r.2.1, r.2.2⟩ else .next ⟨w.state, r.2.1, r.2.2⟩

/-- `/repo/tm/macro.py` L197-236, one turn of the `for` loop. -/
def winBody (g : GetInstr) (w : Win) : Except MErr WOut :=
  match g (w.state, w.tape.getD w.pos 0) with
  | .error e => .error e
  | .ok i => .ok (winExec w (w.tape.getD w.pos 0) i)

/-- `/repo/tm/macro.py` L196-239, the loop with `lim` turns left.  The side returned is
`cells <= pos`. -/
def winLoop (g : GetInstr) : Nat → Win → Except MErr MConfig
  | 0, _ => .error .infLoop
  | lim + 1, w =>
    match winBody g w with
    | .error e => .error e
    | .ok (.exit _ w) => .ok (w.state, decide (w.tape.length ≤ w.pos), w.tape)
    | .ok (.next w) => winLoop g lim w

/-- `/repo/tm/macro.py` L188-194. -/
def winStart (c : MConfig) : Win :=
  ⟨c.1, if c.2.1 then c.2.2.length - 1 else 0, c.2.2⟩

/-- `/repo/tm/macro.py` L188-239 `run_simulator`. -/
def simulate (g : GetInstr) (simLim : Nat) (c : MConfig) : Except MErr MConfig :=
  winLoop g simLim (winStart c)

/-- `/repo/src/macros.rs` L160-205, the Rust loop: `None` for an undefined slot and for an
exhausted limit alike; the side is remembered. -/
def Rs.winLoop (p : Prog) : Nat → Win → Option MConfig
  | 0, _ => none
  | lim + 1, w =>
    match p (w.state, w.tape.getD w.pos 0) with
    | none => none
    | some i =>
      match winExec w (w.tape.getD w.pos 0) i with
      | .exit side w => some (w.state, side, w.tape)
      | .next w => Rs.winLoop p lim w

/-- `/repo/src/macros.rs` L150-206 `run_simulator`. -/
def Rs.simulate (p : Prog) (simLim : Nat) (c : MConfig) : Option MConfig :=
  Rs.winLoop p simLim (winStart c)

/-! ## The colour converter -/

/-- The sum of `/repo/tm/macro.py` L107-110. -/
def tapeColor (base : Nat) (tape : List Color) : Color :=
  (tape.reverse.zipIdx.map fun (value, place) => value * base ^ place).sum

/-- `/repo/tm/macro.py` L83-95 `TapeColorConverter`. -/
structure Converter where
  base : Nat
  colorToTape : List (Color × List Color)
  tapeToColor : List (List Color × Color)

namespace Converter

/-- `/repo/tm/macro.py` L91-95 `__init__`. -/
def new (base cells : Nat) : Converter := ⟨base, [(0, List.replicate cells 0)], []⟩

/-- `/repo/tm/macro.py` L97-100 `color_to_tape`. -/
def toTape (c : Converter) (color : Color) : Except MErr (List Color) :=
  match c.colorToTape.lookup color with
  | some tape => .ok tape
  | none => .error .assertion

/-- `/repo/tm/macro.py` L102-115 `tape_to_color`. -/
def toColor (c : Converter) (tape : List Color) : Color × Converter :=
  match c.tapeToColor.lookup tape with
  | some color => (color, c)
  | none =>
    let color := tapeColor c.base tape
    (color, { c with
      tapeToColor := (tape, color) :: c.tapeToColor
      colorToTape := (color, tape) :: c.colorToTape })

end Converter

/-! ## Block and backsymbol logic -/

/-- What `MacroProg` asks of its `Logic` (`/repo/tm/macro.py` L243-268), with the converter
passed along. -/
structure Logic where
  cells : Nat
  baseStates : Nat
  baseColors : Nat
  macroStates : Nat
  macroColors : Nat
  simLim : Nat
  deconstruct : Converter → Slot → Except MErr MConfig
  reconstruct : Converter → MConfig → Instr × Converter

/-- `/repo/tm/macro.py` L271-316 `BlockLogic`. -/
def blockLogic (cells baseStates baseColors : Nat) : Logic where
  cells := cells
  baseStates := baseStates
  baseColors := baseColors
  macroStates := 2 * baseStates
  macroColors := baseColors ^ cells
  simLim := baseStates * cells * baseColors ^ cells
  deconstruct conv slot :=
    match conv.toTape slot.2 with
    | .error e => .error e
    | .ok tape => .ok (slot.1 / 2, slot.1 % 2 == 1, tape)
  reconstruct conv c :=
    let r := conv.toColor c.2.2
    ((r.1, c.2.1, 2 * c.1 + (!c.2.1).toNat), r.2)

/-- `/repo/tm/macro.py` L319-377 `BacksymbolLogic`. -/
def backsymLogic (cells baseStates baseColors : Nat) : Logic where
  cells := cells
  baseStates := baseStates
  baseColors := baseColors
  macroStates := 2 * baseStates * baseColors ^ cells
  macroColors := baseColors
  simLim := 2 * baseStates * baseColors ^ cells * baseColors
  deconstruct conv slot :=
    match conv.toTape (slot.1 / 2 % baseColors ^ cells) with
    | .error e => .error e
    | .ok back =>
      .ok (slot.1 / 2 / baseColors ^ cells,
        if slot.1 % 2 ≠ 0 then (false, slot.2 :: back) else (true, back ++ [slot.2]))
  reconstruct conv c :=
    let shift := !c.2.1
    let color := if shift then c.2.2.getLastD 0 else c.2.2.headD 0
    let r := conv.toColor (if shift then c.2.2.dropLast else c.2.2.tail)
    ((color, shift, shift.toNat + 2 * (r.1 + c.1 * baseColors ^ cells)), r.2)

/-- `/repo/src/macros.rs` L289-310: the Rust `BacksymbolLogic::reconstruct_outputs`, which splits
at `cells - 1`.  (`tape[cells - 1..][0]`: the index exists since `tape` has `cells + 1` cells.) -/
def Rs.backsymReconstruct (cells baseColors : Nat) (conv : Converter) (c : MConfig) :
    Instr × Converter :=
  let shift := !c.2.1
  let color := if shift then (c.2.2.drop (cells - 1)).headD 0 else c.2.2.headD 0
  let r := conv.toColor (if shift then c.2.2.take (cells - 1) else c.2.2.drop 1)
  ((color, shift, shift.toNat + 2 * (c.1 * baseColors ^ cells + r.1)), r.2)

/-- The Rust `BacksymbolLogic` (`/repo/src/macros.rs` L211-311). -/
def Rs.backsymLogic (cells baseStates baseColors : Nat) : Logic :=
  { BB.backsymLogic cells baseStates baseColors with
    reconstruct := Rs.backsymReconstruct cells baseColors }

/-! ## `MacroProg` -/

/-- The mutable part of a macro program: its instruction cache and the converter. -/
structure MacroState where
  instrs : List (Slot × Instr)
  conv : Converter

/-- `/repo/tm/macro.py` L182-186 `calculate_instr`. -/
def calculateInstr (g : GetInstr) (l : Logic) (conv : Converter) (slot : Slot) :
    Except MErr (Instr × Converter) :=
  match l.deconstruct conv slot with
  | .error e => .error e
  | .ok c =>
    match simulate g l.simLim c with
    | .error e => .error e
    | .ok c => .ok (l.reconstruct conv c)

/-- `/repo/tm/macro.py` L172-180 `__getitem__`. -/
def MacroState.getitem (g : GetInstr) (l : Logic) (m : MacroState) (slot : Slot) :
    Except MErr (Instr × MacroState) :=
  match m.instrs.lookup slot with
  | some i => .ok (i, m)
  | none =>
    match calculateInstr g l m.conv slot with
    | .error e => .error e
    | .ok (i, conv) => .ok (i, ⟨(slot, i) :: m.instrs, conv⟩)

/-- `/repo/tm/macro.py` L127-132: what `prog_params` computes for a table, from its keys. -/
def progParams (keys : List Slot) : Nat × Nat :=
  ((keys.map Prod.fst).eraseDups.length, (keys.map Prod.snd).eraseDups.length)

end BB
