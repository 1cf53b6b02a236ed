import Verif.Spec.TM

/-!
# Specification: sweeps

Independent of every model file.  A sweep is a longest stretch of moves that are all made from the same
slot: the machine keeps its state and direction and passes over cells of one colour.
-/

namespace BB

/-- Move `k` begins a sweep: it is the first move, or not made from the slot of the move before. -/
def SweepBegins (p : Prog) (k : Nat) : Prop :=
  k = 0 ∨ ∃ j c d, k = j + 1 ∧ runFor p j initCfg = some c ∧ runFor p k initCfg = some d ∧
    d.slot ≠ c.slot

/-- The first `n` moves make up `m` sweeps, the last of them perhaps unfinished. -/
def SweepsAre (p : Prog) (n m : Nat) : Prop :=
  ∃ l : List Nat, l.Nodup ∧ (∀ k, k ∈ l ↔ k < n ∧ SweepBegins p k) ∧ l.length = m

end BB
