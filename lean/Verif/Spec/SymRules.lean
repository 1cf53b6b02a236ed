/-
What a rule with symbolic counts means: what each operation does to the number a count denotes.
-/
import Mathlib.Analysis.SpecialFunctions.Log.Base
import Verif.Model.SymRules
import Verif.Spec.Num

namespace BB
namespace Sym

/-- What an operation of a sequence does to a number. -/
noncomputable def OpName.act : OpName → Int → ℝ → ℝ
  | .plus, v, x => x + v
  | .times, v, x => x * v
  | .over, v, x => x / v
  | .pow, v, x => (v : ℝ) ^ x
  | .log, v, x => Real.logb v x

/-- One round of a sequence. -/
noncomputable def OpSeq.act : OpSeq → ℝ → ℝ
  | [], x => x
  | op :: rest, x => OpSeq.act rest (op.1.act op.2 x)

/-- One round of an operation. -/
noncomputable def SOp.act : SOp → ℝ → ℝ
  | .plus d, x => x + d
  | .mult m a, x => x * m + a
  | .seq s, x => OpSeq.act s x

/-- One round of a rule: every position it names changes by its operation. -/
noncomputable def SRule.act (rule : SRule) (v : Index → ℝ) : Index → ℝ := fun i =>
  match rule.lookup i with
  | none => v i
  | some op => op.act (v i)

/-- The four counts at one position, when the position exists in all four rounds. -/
def Column (k1 k2 k3 k4 : SCounts) (i : Index) (a b c d : Num) : Prop :=
  let side (k : SCounts) := if i.1 then k.2 else k.1
  (side k1)[i.2]? = some a ∧ (side k2)[i.2]? = some b ∧
  (side k3)[i.2]? = some c ∧ (side k4)[i.2]? = some d

end Sym
end BB
