import Verif.Model.Parse

/-!
# Model of filling in the last slot

`/repo/test/test_turing.py` L201-223 `branch_last`, which `/repo/branch.py` uses.  `none` is an exception:
a text that cannot be read, or a failed assertion.
-/

namespace BB
namespace Branch

/-- `product(range(a), range(b))`. -/
def slots (a b : Nat) : List Slot := (List.range a).flatMap fun s => (List.range b).map fun c => (s, c)

/-- L214-218: `all_instrs`. -/
def instrs (states colors : Nat) : List Instr :=
  (List.range colors).flatMap fun c =>
    [true, false].flatMap fun sh => (List.range states).map fun s => (c, sh, s)

/-- L201-223 `branch_last`.  The set `all_slots - set(comp.keys())` is the list of the slots that have
no instruction. -/
def branchLast (prog : List Char) : Option (List (List Char)) :=
  (fromStr prog).bind fun comp =>
    (parseRows prog).bind fun parsed =>
      (parsed.head?).bind fun row =>
        match (slots parsed.length row.length).filter fun s => (comp.get? s).isNone with
        | [slot] =>
          some ((instrs parsed.length row.length).map fun i => (comp.insert slot i).show none)
        | _ => none

end Branch
end BB
