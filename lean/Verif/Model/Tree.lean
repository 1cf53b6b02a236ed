import Verif.Model.Tape
import Verif.Model.Parse

/-!
# Model of the tree search

`/repo/src/tree.rs`.  `prog.insert` / `prog.remove` around a recursive call become a call with the
extended table.  What is harvested becomes a list; the order in which the parallel branches of
`build_tree` push their results is not modelled (the list has them in the order of
`make_instrs`).
-/

namespace BB

/-- `/repo/src/tree.rs` L20-34 `make_instrs`. -/
def makeInstrs (states colors : Nat) : List Instr :=
  (List.range colors).flatMap fun color =>
    [false, true].flatMap fun shift => (List.range states).map fun state => (color, shift, state)

/-- `Result<Option<Slot>, ()>`. -/
inductive UndefRes where
  | undef (slot : Slot)
  | err
  | lim
deriving DecidableEq, Repr

/-- `/repo/src/tree.rs` L38-67 `run_for_undefined`, with the tape it leaves. -/
def rsRunUndef (p : Prog) : Nat → State → Tape → UndefRes × Tape
  | 0, _, tape => (.lim, tape)
  | fuel + 1, state, tape =>
    match p (state, tape.scan) with
    | none => (.undef (state, tape.scan), tape)
    | some (color, shift, nextState) =>
      let same := state == nextState
      if same && tape.atEdge shift then (.err, tape)
      else
        let tape' := (Rs.step tape shift color same).1
        if tape'.blank then (.err, tape')
        else rsRunUndef p fuel nextState tape'

/-- `/repo/src/tree.rs` L74-86 `leaf`: what it harvests. -/
def leaf (prog : Table) (maxState maxColor : Nat) : List Table :=
  if prog.all (fun e => decide (1 + e.2.2.2 < maxState))
      || prog.all (fun e => decide (1 + e.2.1 < maxColor)) then []
  else [prog]

/-- `/repo/src/tree.rs` L88-173 `branch`.  The first argument is `remaining_slots`; with `0` the
code would wrap around (`remaining_slots - 1` on `u64`), which does not happen when there are at
least four slots. -/
def branch (simLim : Nat) (states colors : Nat) : Nat → Instr → Table → State → Tape → Nat → Nat →
    List Table
  | 0, _, _, _, _, _, _ => []
  | next + 1, instr, prog, state, tape, availStates, availColors =>
    match rsRunUndef prog.get? simLim state tape with
    | (.undef slot, tape) =>
      let availStates :=
        if availStates < states ∧ 1 + max slot.1 instr.2.2 = availStates then availStates + 1
        else availStates
      let availColors :=
        if availColors < colors ∧ 1 + max slot.2 instr.1 = availColors then availColors + 1
        else availColors
      let instrs := makeInstrs availStates availColors
      if next = 0 then
        instrs.flatMap fun nextInstr => leaf (prog.insert slot nextInstr) states colors
      else
        instrs.flatMap fun nextInstr =>
          branch simLim states colors next nextInstr (prog.insert slot nextInstr) slot.1 tape
            availStates availColors
    | _ => leaf prog states colors

/-- `Tape::init_stepped()`, `/repo/src/tape.rs` L286-288. -/
def Tape.initStepped : Tape := ⟨[⟨1, 1⟩], 0, []⟩

/-- `/repo/src/tree.rs` L177-204 `build_tree`. -/
def buildTree (states colors : Nat) (halt : Bool) (simLim : Nat) : List Table :=
  let initStates := min 3 states
  let initColors := min 3 colors
  (makeInstrs initStates initColors).flatMap fun nextInstr =>
    branch simLim states colors (states * colors - 1 - (1 + halt.toNat)) nextInstr
      [((0, 0), (1, true, 1)), ((1, 0), nextInstr)] 1 Tape.initStepped initStates initColors

/-- `/repo/src/tree.rs` L224-236 `tree_progs`. -/
def treeProgs (states colors : Nat) (halt : Bool) (simLim : Nat) : List (List Char) :=
  (buildTree states colors halt simLim).map fun t => t.show (some (states, colors))

end BB
