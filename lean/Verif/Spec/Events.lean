import Verif.Spec.TM

/-!
# The first blank tape and spinning out, from the blank tape
-/

namespace BB

/-- The tape is blank after `n` moves, for the first time since the start. -/
def FirstBlank (p : Prog) (n : Nat) : Prop :=
  0 < n ∧ (∃ r, BlankAt p r n) ∧ ∀ k r, 0 < k → k < n → ¬ BlankAt p r k

/-- On a blank cell, with blank cells ahead only, about to print, move ahead and keep its state:
the machine will do nothing else any more. -/
def SpinsNow (p : Prog) (c : Cfg) : Prop :=
  ∃ print dir, p (c.state, 0) = some (print, dir, c.state) ∧ c.tape c.pos = 0 ∧
    ∀ x, (if dir then c.pos < x else x < c.pos) → c.tape x = 0

/-- This is so after `n` moves for the first time, with no blank tape since the start. -/
def FirstSpin (p : Prog) (n : Nat) : Prop :=
  (∃ c, runFor p n initCfg = some c ∧ SpinsNow p c) ∧
  (∀ k c, k < n → runFor p k initCfg = some c → ¬ SpinsNow p c) ∧
  ∀ k r, 0 < k → k ≤ n → ¬ BlankAt p r k

/-- Every program with at most `S` states and `C` colours for which the event happens, has it
happen within `N` moves. -/
def Within (E : Prog → Nat → Prop) (S C N : Nat) : Prop :=
  ∀ P : Prog, (∀ s i, P s = some i → i.1 < C ∧ i.2.2 < S) → ∀ n, E P n → n ≤ N

end BB
