import Verif.Model.Parse
import Verif.Model.Tape

/-!
# Model of the normaliser, `instr_seq` and `tree_norm`

`/repo/tools/normalize.py`, `/repo/tools/instr_seq.py`, `/repo/tools/tree_norm.py`.  A Python
`dict` is the list of its items in insertion order; assignment to an existing key keeps its place.
An exception (`KeyError`) is `none`.  `set(range(n))` is iterated in increasing order, as CPython
does for small integers.
-/

namespace BB

/-- `d[k] = v` for a key that exists keeps its place; a new key goes to the end. -/
def dictSet {β : Type} (d : List (Nat × β)) (k : Nat) (v : β) : List (Nat × β) :=
  match d with
  | [] => [(k, v)]
  | (k', v') :: rest => if k = k' then (k, v) :: rest else (k', v') :: dictSet rest k v

/-- `del d[k]`. -/
def dictDel {β : Type} (d : List (Nat × β)) (k : Nat) : Option (List (Nat × β)) :=
  match d.lookup k with
  | none => none
  | some _ => some (d.filter fun e => e.1 != k)

/-- `a[k1], a[k2] = a[k2], a[k1]`. -/
def dictSwap {β : Type} (d : List (Nat × β)) (k1 k2 : Nat) : Option (List (Nat × β)) :=
  match d.lookup k2, d.lookup k1 with
  | some v2, some v1 => some (dictSet (dictSet d k1 v2) k2 v1)
  | _, _ => none

/-- `/repo/tools/__init__.py` L11 `Switch`. -/
abbrev Switch := List (Color × Option Instr)

/-- `/repo/tools/normalize.py` L45-46 `Normalizer.prog`. -/
abbrev Norm := List (State × Switch)

namespace Norm

/-- `dict(enumerate(l))`. -/
def enumDict {β : Type} : Nat → List β → List (Nat × β)
  | _, [] => []
  | k, x :: xs => (k, x) :: enumDict (k + 1) xs

/-- `/repo/tools/normalize.py` L48-54 `__init__`, after parsing. -/
def ofRows (rows : List (List (Option Instr))) : Norm :=
  enumDict 0 (rows.map (enumDict 0))

/-- `/repo/tools/normalize.py` L30-38, L56-58 `init_prog`, `init`. -/
def init (states colors : Nat) : Norm :=
  ofRows ((List.range states).map fun s => (List.range colors).map fun c =>
    if s = 0 ∧ c = 0 then some (1, true, 1) else none)

/-- `self.prog[state][color]`; the outer `none` is `KeyError`. -/
def at? (n : Norm) (s : Slot) : Option (Option Instr) :=
  (n.lookup s.1).bind fun sw => sw.lookup s.2

/-- `/repo/tools/normalize.py` L77-83 `__getitem__`. -/
def getitem (n : Norm) (s : Slot) : Option Instr := (n.at? s).join

/-- `/repo/tools/normalize.py` L85-88 `__setitem__`. -/
def setitem (n : Norm) (s : Slot) (i : Option Instr) : Option Norm :=
  match n.lookup s.1 with
  | none => none
  | some sw => some (dictSet n s.1 (dictSet sw s.2 i))

/-- `/repo/tools/normalize.py` L60-62: `states` is `range` of this. -/
def numStates (n : Norm) : Nat := n.length

/-- `/repo/tools/normalize.py` L64-66: `colors` is `range` of this. -/
def numColors (n : Norm) : Option Nat := (n.lookup 0).map List.length

/-- The slots in dict order, `/repo/tools/normalize.py` L91-96. -/
def slots (n : Norm) : List Slot := n.flatMap fun e => e.2.map fun f => (e.1, f.1)

/-- `/repo/tools/normalize.py` L98-104 `used_instr_slots`. -/
def usedInstrSlots (n : Norm) : List (Slot × Instr) :=
  n.flatMap fun e => e.2.filterMap fun f => f.2.map fun i => ((e.1, f.1), i)

/-- `self[slot] = ...` for a list of slots. -/
def setAll : List (Slot × Instr) → Norm → Option Norm
  | [], n => some n
  | (s, i) :: rest, n => (n.setitem s (some i)).bind (setAll rest)

/-- `st1 if state == st2 else st2 if state == st1 else state`. -/
def swapNat (a b x : Nat) : Nat := if x = b then a else if x = a then b else x

/-- `/repo/tools/normalize.py` L115-125 `swap_states`. -/
def swapStates (n : Norm) (st1 st2 : State) : Option Norm :=
  (dictSwap n st1 st2).bind fun n' =>
    setAll ((usedInstrSlots n').map fun e => (e.1, (e.2.1, e.2.2.1, swapNat st1 st2 e.2.2.2))) n'

/-- `/repo/tools/normalize.py` L128-130: swap two columns in the rows of the given states. -/
def swapColumns (co1 co2 : Color) : List State → Norm → Option Norm
  | [], n => some n
  | st :: rest, n =>
    match n.lookup st with
    | none => none
    | some sw => (dictSwap sw co1 co2).bind fun sw' => swapColumns co1 co2 rest (dictSet n st sw')

/-- `/repo/tools/normalize.py` L127-139 `swap_colors`. -/
def swapColors (n : Norm) (co1 co2 : Color) : Option Norm :=
  (swapColumns co1 co2 (List.range n.numStates) n).bind fun n' =>
    setAll (n'.usedInstrSlots.map fun e => (e.1, (swapNat co1 co2 e.2.1, e.2.2.1, e.2.2.2))) n'

/-- `sorted(range(n))[1:]`. -/
def todoList (n : Nat) : List Nat := (List.range n).tail

/-- `/repo/tools/normalize.py` L145-155: one pass over the used instructions; the `Bool` says
whether the pass ended with `break`. -/
def statesPass : List Slot → List State → Norm → Option (Norm × Bool)
  | [], _, n => some (n, false)
  | s :: rest, todo, n =>
    match n.at? s with
    | none => none
    | some none => statesPass rest todo n
    | some (some i) =>
      if todo.contains i.2.2 then
        match todo with
        | [] => none
        | norm :: todo' =>
          if i.2.2 ≠ norm then (n.swapStates i.2.2 norm).map fun n' => (n', true)
          else statesPass rest todo' n
      else statesPass rest todo n

/-- `/repo/tools/normalize.py` L142-159 `normalize_states`; the first argument counts the
remaining rounds of `for _ in self.states`. -/
def statesLoop : Nat → Norm → Option Norm
  | 0, n => some n
  | k + 1, n =>
    (statesPass n.slots (todoList n.numStates) n).bind fun r =>
      if r.2 then statesLoop k r.1 else some r.1

def normalizeStates (n : Norm) : Option Norm := statesLoop n.numStates n

/-- `/repo/tools/normalize.py` L165-174: one pass; the generator `used_instructions` reads the
current contents place by place while the swaps go on. -/
def colorsPass : List Slot → List Color → Norm → Option Norm
  | [], _, n => some n
  | s :: rest, todo, n =>
    match n.at? s with
    | none => none
    | some none => colorsPass rest todo n
    | some (some i) =>
      if todo.contains i.1 then
        match todo with
        | [] => none
        | norm :: todo' =>
          if i.1 ≠ norm then (n.swapColors i.1 norm).bind (colorsPass rest todo')
          else colorsPass rest todo' n
      else colorsPass rest todo n

/-- `/repo/tools/normalize.py` L161-178 `normalize_colors`: the inner loop has no `break`, so the
`else` clause ends the outer loop after one pass. -/
def normalizeColors (n : Norm) : Option Norm :=
  n.numColors.bind fun c => if c = 0 then some n else colorsPass n.slots (todoList c) n

/-- `/repo/tools/normalize.py` L180-187 `normalize_directions` (`self[0, 0]` raises when A0 is
undefined). -/
def normalizeDirections (n : Norm) : Option Norm :=
  (n.getitem (0, 0)).bind fun i =>
    if i.2.1 then some n
    else setAll (n.usedInstrSlots.map fun e => (e.1, (e.2.1, !e.2.2.1, e.2.2.2))) n

/-- `/repo/tools/normalize.py` L189-197 `cinch`. -/
def cinchLoop : List State → Norm → Option Norm
  | [], n => some n
  | st :: rest, n =>
    match n.at? (st, 0) with
    | none => none
    | some none => cinchLoop rest n
    | some (some i) =>
      if i.1 = 0 then cinchLoop rest n
      else if st ≠ 0 then n.swapStates 0 st else some n

def cinch (n : Norm) : Option Norm := cinchLoop (List.range n.numStates) n

/-- `state in instr`: equality with any component; `True == 1`, `False == 0`. -/
def inInstr (st : State) (i : Instr) : Bool :=
  st == i.1 || st == (if i.2.1 then 1 else 0) || st == i.2.2

/-- `all(switch[color] is None for color in self.colors)`: stops at the first `False`. -/
def allNone (sw : Switch) : List Color → Option Bool
  | [] => some true
  | c :: cs =>
    match sw.lookup c with
    | none => none
    | some none => allNone sw cs
    | some (some _) => some false

/-- `/repo/tools/normalize.py` L200-204: the states without instructions. -/
def deadStates (colors : List Color) : Norm → Option (List State)
  | [] => some []
  | (st, sw) :: rest =>
    (allNone sw colors).bind fun b => (deadStates colors rest).map fun l => if b then st :: l else l

/-- `/repo/tools/normalize.py` L209-212. -/
def cutLoop : List State → Norm → Option Norm
  | [], n => some n
  | st :: rest, n =>
    if n.usedInstrSlots.any fun e => inInstr st e.2 then cutLoop rest n
    else (dictDel n st).bind (cutLoop rest)

/-- `/repo/tools/normalize.py` L199-212 `cut_unused_states`; `self.colors` is only looked at when
there is a row. -/
def cutUnusedStates (n : Norm) : Option Norm :=
  match n with
  | [] => some []
  | _ :: _ =>
    n.numColors.bind fun c => (deadStates (List.range c) n).bind fun dead =>
      let n' : Norm := n.filter fun e => !dead.contains e.1
      cutLoop (todoList n'.numStates).reverse n'

/-- `any(sw[color] is not None for sw in self.prog.values())`. -/
def colorUsed (co : Color) : Norm → Option Bool
  | [] => some false
  | (_, sw) :: rest =>
    match sw.lookup co with
    | none => none
    | some none => colorUsed co rest
    | some (some _) => some true

/-- `for switch in self.prog.values(): del switch[color]`. -/
def delColor (co : Color) : Norm → Option Norm
  | [] => some []
  | (st, sw) :: rest =>
    (dictDel sw co).bind fun sw' => (delColor co rest).map fun r => (st, sw') :: r

/-- `/repo/tools/normalize.py` L214-220 `cut_unused_colors`. -/
def cutColorsLoop : List Color → Norm → Option Norm
  | [], n => some n
  | co :: rest, n =>
    (colorUsed co n).bind fun u =>
      if u then cutColorsLoop rest n else (delColor co n).bind (cutColorsLoop rest)

def cutUnusedColors (n : Norm) : Option Norm :=
  n.numColors.bind fun c => cutColorsLoop (List.range c) n

/-- One round of `/repo/tools/normalize.py` L223-228. -/
def round (n : Norm) : Option Norm :=
  n.normalizeStates.bind fun n => n.normalizeColors.bind fun n =>
    n.cutUnusedStates.bind fun n => n.cutUnusedColors.bind cinch

def rounds : Nat → Norm → Option Norm
  | 0, n => some n
  | k + 1, n => n.round.bind (rounds k)

/-- `/repo/tools/normalize.py` L222-230 `Normalizer.normalize`. -/
def normalize (n : Norm) : Option Norm :=
  n.numColors.bind fun c => (n.rounds c).bind normalizeDirections

/-- `/repo/tools/normalize.py` L68-75 `__repr__`. -/
def repr (n : Norm) : List Char :=
  joinWith [' ', ' '] (n.map fun e => joinWith [' '] (e.2.map fun f => showInstr f.2))

end Norm

/-- `/repo/tools/normalize.py` L41-42 `normalize`, on strings. -/
def normalizeStr (s : List Char) : Option (List Char) :=
  (parseRows s).bind fun rows => (Norm.ofRows rows).normalize.map Norm.repr

/-! ## `run_for_undefined` and `instr_seq` -/

/-- `/repo/tools/instr_seq.py` L36-62 `run_for_undefined`; `lim` is 100_000_000 there, and the
program is used through `__getitem__` only. -/
def pyRunUndef (get : Prog) : Nat → Tape → State → Nat → Option (Nat × Slot)
  | 0, _, _, _ => none
  | fuel + 1, tape, state, steps =>
    match get (state, tape.scan) with
    | none => some (steps, (state, tape.scan))
    | some (color, shift, nextState) =>
      let same := state == nextState
      if same && tape.atEdge shift then none
      else
        let r := Py.step tape shift color same
        pyRunUndef get fuel r.1 nextState (steps + r.2)

def runForUndefined (lim : Nat) (n : Norm) : Option (Nat × Slot) :=
  pyRunUndef n.getitem lim Tape.init 0 0

/-- `/repo/tools/instr_seq.py` L22-33, the loop: what it yields. -/
def instrSeqLoop (lim : Nat) (program : Norm) : Nat → Norm → List (Norm × Nat × Slot)
  | 0, _ => []
  | k + 1, part =>
    match runForUndefined lim part with
    | none => []
    | some (step, slot) =>
      (part, step, slot) ::
        match program.getitem slot with
        | none => []
        | some i =>
          match part.setitem slot (some i) with
          | none => []
          | some part' => instrSeqLoop lim program k part'

/-- `/repo/tools/instr_seq.py` L15-33 `instr_seq` (yielding the partial programs instead of their
text); an exception is `none`. -/
def instrSeq (lim : Nat) (program : Norm) : Option (List (Norm × Nat × Slot)) :=
  program.numColors.map fun colors =>
    instrSeqLoop lim program (program.numStates * colors - 1) (Norm.init program.numStates colors)

/-! ## `tree_norm` -/

/-- `/repo/tools/tree_norm.py` L15-38: one round is
rename the state if needed, rename the scanned colour if needed, stop if all are seen, step. -/
def treeNormLoop : Nat → Norm → State → Tape → Nat → Nat → Option Norm
  | 0, n, _, _, _, _ => some n
  | fuel + 1, n, state, tape, availState, availColor =>
    let r1 : Option (Norm × Nat) :=
      if state = availState then some (n, availState + 1)
      else if availState < state then
        (n.swapStates state availState).map fun n' => (n', state)
      else some (n, availState)
    r1.bind fun (n, availState) =>
      let r2 : Option (Norm × Nat) :=
        if tape.scan = availColor then some (n, availColor + 1)
        else if availColor < tape.scan then
          (n.swapColors tape.scan availColor).map fun n' => (n', tape.scan)
        else some (n, availColor)
      r2.bind fun (n, availColor) =>
        n.numColors.bind fun colors =>
          if n.numStates ≤ availState ∧ colors ≤ availColor then some n
          else
            (n.getitem (state, tape.scan)).bind fun i =>
              treeNormLoop fuel n i.2.2 (Py.step tape i.2.1 i.1 (state == i.2.2)).1
                availState availColor

/-- `/repo/tools/tree_norm.py` L6-40 `tree_norm` (on the parsed program). -/
def treeNorm (n : Norm) : Option Norm := treeNormLoop 1000 n 0 Tape.init 1 1

end BB
