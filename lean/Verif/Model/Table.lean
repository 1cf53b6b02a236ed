import Verif.Spec.TM

/-!
# Model of `CompProg`

`/repo/src/instrs.rs` L17 `CompProg = BTreeMap<Slot, Instr>`: the list of its entries in key
order.  `BTreeMap` operations are modelled by their effect on that list.
-/

namespace BB

abbrev Table := List (Slot × Instr)

/-- Lexicographic order of slots (derived `Ord` on `(u64, u64)`). -/
def Slot.lt (a b : Slot) : Bool := a.1 < b.1 || (a.1 == b.1 && a.2 < b.2)

/-- `BTreeMap::get`. -/
def Table.get? (t : Table) (s : Slot) : Option Instr := List.lookup s t

/-- `BTreeMap::insert`. -/
def Table.insert (t : Table) (s : Slot) (i : Instr) : Table :=
  match t with
  | [] => [(s, i)]
  | (k, v) :: rest =>
    if Slot.lt s k then (s, i) :: (k, v) :: rest
    else if s == k then (s, i) :: rest
    else (k, v) :: Table.insert rest s i

/-- `BTreeMap::remove`. -/
def Table.remove (t : Table) (s : Slot) : Table := t.filter (fun e => e.1 != s)

/-- `collect` into a `BTreeMap`: later entries replace earlier ones with the same key. -/
def Table.collect (l : List (Slot × Instr)) : Table :=
  l.foldl (fun t e => t.insert e.1 e.2) []

/-- What the list of a `BTreeMap` looks like: keys strictly increasing. -/
def Table.Sorted (t : Table) : Prop := t.Pairwise (fun a b => Slot.lt a.1 b.1 = true)

end BB
