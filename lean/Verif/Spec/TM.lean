/-!
# Specification: the ordinary Turing machine

Independent of every model file.  A program is a partial function from slots
(state, scanned colour) to instructions (colour to write, direction, next state);
direction `true` is right, as in `/repo/tm/parse.py`.  The tape is a total
function on ℤ.  A missing instruction is where the machine halts.
-/

namespace BB

abbrev Color := Nat
abbrev State := Nat
abbrev Slot := State × Color
abbrev Instr := Color × Bool × State
abbrev Prog := Slot → Option Instr

/-- A configuration of the ordinary machine. -/
structure Cfg where
  state : State
  pos : Int
  tape : Int → Color

namespace Cfg

/-- The slot the machine is looking at. -/
def slot (c : Cfg) : Slot := (c.state, c.tape c.pos)

/-- Result of executing one instruction. -/
def exec (c : Cfg) (i : Instr) : Cfg where
  state := i.2.2
  pos := if i.2.1 then c.pos + 1 else c.pos - 1
  tape := fun x => if x = c.pos then i.1 else c.tape x

end Cfg

/-- One move; `none` when the slot has no instruction. -/
def step (p : Prog) (c : Cfg) : Option Cfg :=
  (p c.slot).map c.exec

/-- `n` moves; `none` when the machine halts before making them. -/
def runFor (p : Prog) : Nat → Cfg → Option Cfg
  | 0, c => some c
  | n + 1, c => (step p c).bind (runFor p n)

/-- State 0 (`A`), head anywhere (we use 0), blank tape. -/
def initCfg : Cfg := ⟨0, 0, fun _ => 0⟩

/-- From `c` the machine makes exactly `n` moves and then sits at the undefined slot `s`. -/
def HaltsAt (p : Prog) (c : Cfg) (n : Nat) (s : Slot) : Prop :=
  ∃ d, runFor p n c = some d ∧ d.slot = s ∧ p s = none

/-- From `c` the machine never reaches an undefined slot. -/
def NeverHalts (p : Prog) (c : Cfg) : Prop :=
  ∀ n, (runFor p n c).isSome

/-- All cells are 0. -/
def Cfg.Blank (c : Cfg) : Prop := ∀ x, c.tape x = 0

/-- After `n` moves from the blank tape the machine is in state `q` on a blank tape. -/
def BlankAt (p : Prog) (q : State) (n : Nat) : Prop :=
  ∃ d, runFor p n initCfg = some d ∧ d.state = q ∧ d.Blank

/-- Step `n ≥ 1` is the first (not counting the start) at which this happens in state `q`. -/
def FirstBlankAt (p : Prog) (q : State) (n : Nat) : Prop :=
  1 ≤ n ∧ BlankAt p q n ∧ ∀ m, 1 ≤ m → m < n → ¬ BlankAt p q m

end BB
