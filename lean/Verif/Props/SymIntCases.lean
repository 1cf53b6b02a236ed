import Verif.Props.SymRunCases
import Verif.Spec.SymInt

/-!
# C56: with a rule that multiplies, symbolic counts change the report
-/

namespace BB
open BB.Sym

set_option maxRecDepth 200000 in
theorem twice_int : (Machine.run twice 415).result = .undfnd (92, 0) := by decide +kernel

/-- **C56, violation.**  With integers the run reports the slot at which the machine halts; with symbolic
counts it reports a spin-out. -/
theorem C56_violation : ∃ p : Prog, ∃ lim,
    (Machine.run p lim).result = .undfnd (92, 0) ∧
    (SMachine.run false (ops natLog false 20) p lim).result = .spnout ∧
    SMachine.run false (ops natLog false 20) p lim ≠ ofOut (Machine.run p lim) := by
  refine ⟨twice, 415, twice_int, twice_run, fun h => ?_⟩
  have := congrArg SRunOut.result h
  rw [twice_run] at this
  simp only [ofOut, twice_int, ofResult] at this
  cases this

end BB
