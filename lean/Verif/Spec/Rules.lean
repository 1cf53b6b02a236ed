import Verif.Model.Rules

/-! # What a rule means: one round of its operations -/

namespace BB

/-- One application of an operation to a count. -/
def Op.once : Op → Int → Int
  | .plus d, c => c + d
  | .mult m a, c => c * m + a

/-- One round: every position named by the rule changes by its operation. -/
def Rule.once (rule : Rule) (t : Index → Int) : Index → Int := fun i =>
  match rule.lookup i with
  | none => t i
  | some op => op.once (t i)

/-- Another round is possible: every additively decreasing count stays positive. -/
def Rule.CanApply (rule : Rule) (t : Index → Int) : Prop :=
  ∀ i d, (i, Op.plus d) ∈ rule → d < 0 → 1 ≤ t i + d

/-- Some count decreases additively. -/
def Rule.Decreases (rule : Rule) : Prop := ∃ i d, (i, Op.plus d) ∈ rule ∧ d < 0

/-- The four counts at one position, when the position exists in all four rounds. -/
def Column (k1 k2 k3 k4 : Counts) (i : Index) (a b c d : Int) : Prop :=
  let side (k : Counts) := if i.1 then k.2 else k.1
  (side k1)[i.2]? = some a ∧ (side k2)[i.2]? = some b ∧
  (side k3)[i.2]? = some c ∧ (side k4)[i.2]? = some d

end BB
