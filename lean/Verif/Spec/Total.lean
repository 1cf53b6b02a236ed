import Verif.Spec.TM
import Mathlib.Data.List.Forall2

/-!
# Specification: machines with a halting state

Independent of every model file.  Some programs have an instruction for every slot and stop by
entering a halting state.  States are numbered from 1 and 0 is the halting state.  To speak about them
with the notions of `Spec/TM`, where the machine starts in state 0 and stops at a missing instruction,
the numbers 0 and 1 are exchanged.
-/

namespace BB

/-- Exchange the halting state and the starting state. -/
def exch : Nat → Nat
  | 0 => 1
  | 1 => 0
  | n + 2 => n + 2

/-- The machine of a total program with halting state 0 and starting state 1. -/
def totalProg (prog : Nat → Nat → Nat × Bool × Nat) : Prog := fun s =>
  if s.1 = exch 0 then none
  else some ((prog (exch s.1) s.2).1, (prog (exch s.1) s.2).2.1, exch (prog (exch s.1) s.2).2.2)

/-- One instruction carries the machine on over blank cells forever. -/
def SpinsFrom (p : Prog) (d : Cfg) : Prop :=
  ∃ c dir, p (d.state, 0) = some (c, dir, d.state) ∧
    ∀ k : Nat, d.tape (if dir then d.pos + k else d.pos - k) = 0

/-- `m` cells of the tape are not blank. -/
def MarksAre (d : Cfg) (m : Nat) : Prop :=
  ∃ l : List Int, l.Nodup ∧ (∀ x, x ∈ l ↔ d.tape x ≠ 0) ∧ l.length = m

/-- In moves `0 … n` the head has been on `m` cells. -/
def VisitedAre (p : Prog) (n m : Nat) : Prop :=
  ∃ l : List Int, l.Nodup ∧
    (∀ x, x ∈ l ↔ ∃ k d, k ≤ n ∧ runFor p k initCfg = some d ∧ d.pos = x) ∧ l.length = m

/-! ## Program texts -/

/-- The characters of one entry of a program text and what they mean: `...` (write 0, go right, halt),
or a digit, a direction (right is `true`) and the letter of a state, `_` being the halting state. -/
inductive Entry : List Char → Nat × Bool × Nat → Prop where
  | undef : Entry ['.', '.', '.'] (0, true, 0)
  | instr {c : Nat} {d : Bool} {s : Nat} : c < 10 → s < 13 →
      Entry [Char.ofNat (48 + c), if d then 'R' else 'L',
        if s = 0 then '_' else Char.ofNat (64 + s)] (c, d, s)

/-- The entries of a row, with a space between. -/
def rowText (row : List (List Char)) : List Char := [' '].intercalate row

/-- The rows, with two spaces between. -/
def progText (rows : List (List (List Char))) : List Char := [' ', ' '].intercalate (rows.map rowText)

/-- The rows of a text and the instructions they mean, `k` in each row. -/
def TextMeans (k : Nat) (rows : List (List (List Char))) (tab : List (List (Nat × Bool × Nat))) : Prop :=
  List.Forall₂ (fun row is => List.Forall₂ Entry row is ∧ is.length = k) rows tab

/-- Three characters that can stand for an instruction: a digit, a direction, and an upper case letter
or an underscore, with a dot allowed for each. -/
def EntryLike (e : List Char) : Prop :=
  ∃ a b c : Char, e = [a, b, c] ∧ (('0' ≤ a ∧ a ≤ '9') ∨ a = '.') ∧ (b = 'L' ∨ b = 'R' ∨ b = '.') ∧
    (('A' ≤ c ∧ c ≤ 'Z') ∨ c = '_' ∨ c = '.')

/-- White space as a space, everything else as it is. -/
def plainSpace (c : Char) : Char :=
  if c ∈ [' ', '\t', '\n', '\r', Char.ofNat 11, Char.ofNat 12, Char.ofNat 160] then ' ' else c

end BB
