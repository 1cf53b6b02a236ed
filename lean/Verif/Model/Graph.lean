import Verif.Model.Table
import Mathlib.Data.Finset.Dedup
import Mathlib.Data.Finset.Insert
import Mathlib.Data.Finset.Basic
import Mathlib.Data.Finset.Filter
import Mathlib.Data.Finset.SDiff
import Mathlib.Data.Finset.Lattice.Basic

/-!
# Model of the graph functions

`/repo/src/graph.rs` L7-62 and `/repo/tools/graph.py` L17-112.  A panic or `KeyError` is `none`.
A Python `set` is a `Finset`; the element `set.pop` takes and the order in which a set is iterated
are unknown functions.
-/

namespace BB

/-! ## Rust -/

/-- Keep a list sorted and without repetitions (`sort_unstable` and `dedup`). -/
def insertUniq (x : State) : List State → List State
  | [] => [x]
  | y :: ys => if x < y then x :: y :: ys else if x == y then y :: ys else y :: insertUniq x ys

/-- `/repo/src/graph.rs` L45-62 `get_exitpoints`: the value for one key (empty: no such key). -/
def Table.exits (t : Table) (src : State) : List State :=
  t.foldr (fun e acc => if e.1.1 == src && e.1.1 != e.2.2.2 then insertUniq e.2.2.2 acc else acc) []

/-- Its keys. -/
def Table.exitKeys (t : Table) : List State :=
  t.foldr (fun e acc => if e.1.1 != e.2.2.2 then insertUniq e.1.1 acc else acc) []

/-- `exitpoints[&state]`. -/
def Table.exitsAt (t : Table) (s : State) : Option (List State) :=
  match t.exits s with
  | [] => none
  | es => some es

/-- `/repo/src/graph.rs` L33-37: push the new exits; the head of `todo` is the top of the `Vec`. -/
def pushExits (reached : List State) : List State → List State → List State
  | [], todo => todo
  | e :: es, todo =>
    pushExits reached es (if !reached.contains e && !todo.contains e then e :: todo else todo)

/-- `/repo/src/graph.rs` L18-38: the loop. -/
def Table.connLoop (t : Table) : Nat → List State → List State → Option Bool
  | 0, _, _ => some false
  | _ + 1, [], _ => some false
  | n + 1, s :: todo, reached =>
    if s == 0 then some true
    else if reached.contains s then t.connLoop n todo reached
    else
      match t.exitsAt s with
      | none => none
      | some es => t.connLoop n (pushExits (s :: reached) es todo) (s :: reached)

/-- `/repo/src/graph.rs` L7-41 `is_connected`. -/
def Table.isConnected (t : Table) (states : Nat) : Option Bool :=
  if t.exitKeys.length < states then some false
  else if states = 0 then none
  else
    match t.exitsAt (states - 1) with
    | none => none
    | some es => t.connLoop states es.reverse []

/-! ## Python -/

/-- `/repo/tools/graph.py` L20-29 `Graph.arrows`: for each state the targets, `None` for a missing
instruction. -/
abbrev Arrows := List (List (Option State))

def arrowsOf (rows : List (List (Option Instr))) : Arrows :=
  rows.map fun row => row.map fun i => i.map fun j => j.2.2

/-- The set of targets of a row. -/
def targets (row : List (Option State)) : Finset State := (row.filterMap id).toFinset

/-- `/repo/tools/graph.py` L52-61 `exit_points[state]`; `none` is `KeyError`. -/
def Arrows.exitPoints (a : Arrows) (s : State) : Option (Finset State) := (a[s]?).map targets

/-- `entries[exit_point].add(state)`. -/
def addEntry (entries : List (Finset State)) (e s : State) : Option (List (Finset State)) :=
  if h : e < entries.length then some (entries.set e (insert s entries[e])) else none

/-- `/repo/tools/graph.py` L70-72, the inner loop. -/
def addEntries (s : State) : List State → List (Finset State) → Option (List (Finset State))
  | [], entries => some entries
  | e :: es, entries => (addEntry entries e s).bind (addEntries s es)

/-- `/repo/tools/graph.py` L70-72, the outer loop, from state `s` on. -/
def entryLoop (order : Finset State → List State) :
    State → Arrows → List (Finset State) → Option (List (Finset State))
  | _, [], entries => some entries
  | s, row :: rest, entries =>
    (addEntries s (order (targets row)) entries).bind (entryLoop order (s + 1) rest)

/-- `/repo/tools/graph.py` L63-74 `entry_points`, as the list of its values. -/
def Arrows.entryPoints (order : Finset State → List State) (a : Arrows) :
    Option (List (Finset State)) :=
  entryLoop order 0 a (a.map fun _ => ∅)

/-- `/repo/tools/graph.py` L91-98: exits of `is_connected`. -/
def Arrows.properExits (a : Arrows) (s : State) : Option (Finset State) :=
  (a[s]?).map fun row => (targets row).erase s

/-- `/repo/tools/graph.py` L107-119: the loop. -/
def Arrows.connLoop (pick : Nat → Finset State → State) (a : Arrows) :
    Nat → Finset State → Finset State → Option Bool
  | 0, _, _ => some false
  | n + 1, todo, reached =>
    if todo = ∅ then some false
    else
      let s := pick n todo
      if s = 0 then some true
      else
        match a.properExits s with
        | none => none
        | some es => a.connLoop pick n (todo.erase s ∪ (es \ insert s reached)) (insert s reached)

/-- `/repo/tools/graph.py` L89-121 `Graph.is_connected`. -/
def Arrows.isConnected (pick : Nat → Finset State → State) (a : Arrows) : Option Bool :=
  if (List.range a.length).any fun s => a.properExits s == some ∅ then some false
  else
    match a.properExits (a.length - 1) with
    | none => none
    | some es => a.connLoop pick a.length es ∅

end BB
