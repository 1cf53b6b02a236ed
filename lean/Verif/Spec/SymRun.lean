/-
What a tape with symbolic counts stands for.
-/
import Mathlib.Data.List.Forall2
import Verif.Model.SymRun
import Verif.Spec.SymRules

namespace BB
namespace Sym

/-- A symbolic count denotes a number of cells. -/
def CountIs (a : Num) (k : Nat) : Prop := a.WF ∧ a.val = k

/-- Blocks of the same colour, with the count related. -/
def SBlock.Rel (D : Num → Nat → Prop) (b : SBlock) (B : Block) : Prop :=
  b.color = B.color ∧ D b.count B.count

/-- The tapes have the same colours in the same places, and the counts are related. -/
structure STape.Rel (D : Num → Nat → Prop) (t : STape) (T : Tape) : Prop where
  scan : t.scan = T.scan
  l : List.Forall₂ (SBlock.Rel D) t.lspan T.lspan
  r : List.Forall₂ (SBlock.Rel D) t.rspan T.rspan

/-- The tape that a tape with symbolic counts denotes. -/
abbrev STape.Den (t : STape) (T : Tape) : Prop := t.Rel CountIs T

/-- Every count that denotes 1 is the integer 1. -/
def STape.Honest (t : STape) : Prop :=
  ∀ b ∈ t.lspan ++ t.rspan, b.count.val = 1 → b.count = .int 1

/-- The count at an index (any number where there is no block). -/
def STape.count (t : STape) (i : Index) : Num := ((t.block? i).map SBlock.count).getD (.int 1)

end Sym

/-- The block of a tape at an index. -/
def Tape.block? (t : Tape) (i : Index) : Option Block := (if i.1 then t.rspan else t.lspan)[i.2]?

/-- Same colours in the same places. -/
def Tape.SameColors (t u : Tape) : Prop :=
  t.scan = u.scan ∧ t.lspan.map Block.color = u.lspan.map Block.color ∧
    t.rspan.map Block.color = u.rspan.map Block.color

/-- Every block has a cell. -/
def Tape.Positive (t : Tape) : Prop := ∀ b ∈ t.lspan ++ t.rspan, 1 ≤ b.count

end BB
