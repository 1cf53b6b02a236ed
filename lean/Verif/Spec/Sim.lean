import Verif.Spec.Total

/-!
# Specification: what a simulator may report

Independent of every model file.  Programs with the halting state 7 (`H`) are functions from states
and colours to instructions.  The three things that stop a simulator: the tape has become blank, the
machine has halted, the machine is about to leave the cells it has been on, in a state that keeps
itself on blank cells.
-/

namespace BB

/-- The machine of a program of `N` states and `K` colours; the halting state has no instructions. -/
def machine (N K : Nat) (P : Nat → Nat → Instr) : Prog := fun s =>
  if s.1 < N ∧ s.2 < K then some (P s.1 s.2) else none

/-- Instructions of `N` states and `K` colours, the first `1RB`. -/
structure ProgFits (N K : Nat) (P : Nat → Nat → Instr) : Prop where
  first : P 0 0 = (1, true, 1)
  color : ∀ q c, q < N → c < K → (P q c).1 < K
  state : ∀ q c, q < N → c < K → (P q c).2.2 < N ∨ (P q c).2.2 = 7

/-- After `n` moves, at least one, the tape is blank. -/
def ErasesAt (p : Prog) (n : Nat) : Prop :=
  1 ≤ n ∧ ∃ d, runFor p n initCfg = some d ∧ d.Blank

/-- After `n` moves the head is on a blank cell, and the instruction for it, which keeps the state,
moves to a cell where the head has not been. -/
def LeavesAt (p : Prog) (n : Nat) : Prop :=
  ∃ d pr dir, runFor p n initCfg = some d ∧ d.tape d.pos = 0 ∧
    p (d.state, 0) = some (pr, dir, d.state) ∧
    ∀ m e, m ≤ n → runFor p m initCfg = some e → e.pos ≠ if dir then d.pos + 1 else d.pos - 1

/-- One of the three. -/
def StopsAt (p : Prog) (n : Nat) : Prop :=
  ErasesAt p n ∨ (∃ s, HaltsAt p initCfg n s) ∨ LeavesAt p n

/-- The head has gone right `n` times, without a stop before and with something on the tape. -/
def RunsRight (p : Prog) (n : Nat) : Prop :=
  (∃ d, runFor p n initCfg = some d ∧ d.pos = n) ∧ (∀ k, k < n → ¬ StopsAt p k) ∧ ¬ ErasesAt p n

/-- The first stop is after `n` moves, in configuration `d`. -/
def FirstStop (p : Prog) (n : Nat) (d : Cfg) : Prop :=
  (∀ k, k < n → ¬ StopsAt p k) ∧ StopsAt p n ∧ runFor p n initCfg = some d

/-- `s` and `m` are the numbers to report: `m` cells are not blank at the first stop, and `s` is the
number of moves, plus `extra q` if the machine, in state `q`, has neither erased the tape nor
halted. -/
def Reports (extra : State → Nat) (p : Prog) (s m : Nat) : Prop :=
  ∃ n d, FirstStop p n d ∧ MarksAre d m ∧
    (((ErasesAt p n ∨ ∃ t, HaltsAt p initCfg n t) ∧ s = n) ∨
      (¬ ErasesAt p n ∧ (¬ ∃ t, HaltsAt p initCfg n t) ∧ s = n + extra d.state))

/-- The text of an instruction. -/
def instrText (i : Instr) : List Char :=
  [Char.ofNat (48 + i.1), if i.2.1 then 'R' else 'L', Char.ofNat (65 + i.2.2)]

/-- The text of a program. -/
def simText (N K : Nat) (P : Nat → Nat → Instr) : List Char :=
  progText ((List.range N).map fun q => (List.range K).map fun c => instrText (P q c))

/-- The lines for the programs that have something to report, numbered after `num`:
number, program, `s`, `m`. -/
def reportLines (N K : Nat) : Nat → List (Nat → Nat → Instr) → List (Option (Nat × Nat)) →
    List (List Char)
  | num, P :: Ps, r :: rs =>
    (match r with
      | some (s, m) => [Nat.toDigits 10 (num + 1) ++ " | ".toList ++ simText N K P ++ " | ".toList ++
          Nat.toDigits 10 s ++ " | ".toList ++ Nat.toDigits 10 m]
      | none => []) ++ reportLines N K (num + 1) Ps rs
  | _, _, _ => []

end BB
