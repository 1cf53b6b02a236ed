import Verif.Spec.TM

/-!
# Specification: recurrence and quasihalting

Independent of every model file.
-/

namespace BB

/-- From move `n` on, everything the machine does repeats every `per` moves: it looks at the same
slot, at a place shifted by a fixed amount. -/
def RecursFrom (p : Prog) (n per : Nat) : Prop :=
  0 < per ∧ ∃ k : Int, ∀ t, n ≤ t → ∃ c d, runFor p t initCfg = some c ∧
    runFor p (t + per) initCfg = some d ∧ d.slot = c.slot ∧ d.pos = c.pos + k

/-- After `n` moves the machine is in state `q`. -/
def InStateAt (p : Prog) (q : State) (n : Nat) : Prop :=
  ∃ c, runFor p n initCfg = some c ∧ c.state = q

/-- The machine runs forever, and some state it is in at move `n0` or later is used only finitely
often. -/
def QuasiHaltsSince (p : Prog) (n0 : Nat) : Prop :=
  NeverHalts p initCfg ∧
    ∃ q, (∃ n, n0 ≤ n ∧ InStateAt p q n) ∧ ∃ N, ∀ n, N ≤ n → ¬ InStateAt p q n

/-- The machine runs forever and some state it enters is used only finitely often. -/
def QuasiHalts (p : Prog) : Prop :=
  NeverHalts p initCfg ∧ ∃ q, (∃ n, InStateAt p q n) ∧ ∃ N, ∀ n, N ≤ n → ¬ InStateAt p q n

end BB
