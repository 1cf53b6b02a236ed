import Verif.Model.Graph
import Verif.Model.Parse
import Mathlib.Data.Finset.Card
import Mathlib.Data.List.Sort

/-!
# Model of the rest of `Graph`: normal order, loops, dispersal, reduction

`/repo/tools/graph.py` L29-34, L74-87, L122-258.  As in `Model/Graph.lean` the element taken by
`set.pop` and the order in which a set is iterated are unknown functions, and `KeyError` is `none`.
-/

namespace BB

/-- `/repo/src/instrs.rs` L98-103 `show_state`. -/
def showStateOpt : Option State → Char
  | none => '.'
  | some s => showState s

/-- `/repo/tools/graph.py` L29-34 `__str__`. -/
def Arrows.str (a : Arrows) : List Char := a.flatten.map showStateOpt

/-- `/repo/tools/graph.py` L74-87 `is_normal`. -/
def Arrows.isNormal (a : Arrows) : Bool :=
  let flat := a.str
  let rest := (List.range a.length).tail
  if rest.any fun s => !flat.contains (showState s) then false
  else
    let positions := rest.map fun s => flat.idxOf (showState s)
    positions == positions.insertionSort (· ≤ ·)

/-- `/repo/tools/graph.py` L122-128 `reflexive_states`. -/
def Arrows.reflexiveStates (a : Arrows) : List State :=
  (List.range a.length).filter fun s => (a.getD s []).contains (some s)

/-- `/repo/tools/graph.py` L130-136 `zero_reflexive_states`; a row without entries raises. -/
def Arrows.zeroReflexiveStates (a : Arrows) : Option (List State) :=
  if a.any fun row => row.isEmpty then none
  else some ((List.range a.length).filter fun s => (a.getD s []).head? == some (some s))

/-- `/repo/tools/graph.py` L138-140 `is_irreflexive`. -/
def Arrows.isIrreflexive (a : Arrows) : Bool := a.reflexiveStates.isEmpty

/-- `/repo/tools/graph.py` L142-144 `is_zero_reflexive`. -/
def Arrows.isZeroReflexive (a : Arrows) : Option Bool :=
  a.zeroReflexiveStates.map fun l => !l.isEmpty

/-- `/repo/tools/graph.py` L146-151 `entries_dispersed`; `self.colors` is only looked at when there
is a state. -/
def Arrows.entriesDispersed (order : Finset State → List State) (a : Arrows) : Option Bool :=
  (a.entryPoints order).map fun entries =>
    entries.all fun e => e.card == (a.headD []).length

/-- `/repo/tools/graph.py` L153-158 `exits_dispersed`. -/
def Arrows.exitsDispersed (a : Arrows) : Bool :=
  a.all fun row => (targets row).card == (a.headD []).length

/-- `/repo/tools/graph.py` L160-162 `is_dispersed`. -/
def Arrows.isDispersed (order : Finset State → List State) (a : Arrows) : Option Bool :=
  (a.entriesDispersed order).map fun b => b && a.exitsDispersed

/-! ## Reduction -/

/-- `ConGraph`: the items of the dict, in order. -/
abbrev ConGraph := List (State × Finset State)

/-- `exit_points` as a dict. -/
def Arrows.conGraph (a : Arrows) : ConGraph :=
  (List.range a.length).map fun s => (s, targets (a.getD s []))

namespace ConGraph

/-- `graph.keys()`. -/
def keys (g : ConGraph) : List State := g.map Prod.fst

/-- `graph[s]`. -/
def at? (g : ConGraph) (s : State) : Option (Finset State) := g.lookup s

/-- Change the set of one key in place. -/
def modify (g : ConGraph) (s : State) (f : Finset State → Finset State) : ConGraph :=
  g.map fun e => if e.1 = s then (e.1, f e.2) else e

/-- `del graph[s]` for a key that exists. -/
def delete (g : ConGraph) (s : State) : ConGraph := g.filter fun e => e.1 ≠ s

/-- `/repo/tools/graph.py` L233-236 `cut_reflexive_arrows`. -/
def cutReflexive (g : ConGraph) : ConGraph := g.map fun e => (e.1, e.2.erase e.1)

/-- `/repo/tools/graph.py` L199-203: the loop of `purge_dead_ends`. -/
def purgeLoop : List State → ConGraph → Option ConGraph
  | [], g => some g
  | s :: rest, g =>
    let g' : ConGraph := g.map fun e => (e.1, e.2.erase s)
    if (g'.at? s).isSome then purgeLoop rest (g'.delete s) else none

/-- `/repo/tools/graph.py` L192-203 `purge_dead_ends`. -/
def purge (order : Finset State → List State) (g : ConGraph) : Option ConGraph :=
  purgeLoop (order ((keys (g.filter fun e => e.2 = ∅)).toFinset)) g

/-- `/repo/tools/graph.py` L240-256: the loop of `inline_single_exit`, over the remaining keys. -/
def exitLoop (pick : Finset State → State) : List State → ConGraph → Option ConGraph
  | [], g => some g
  | s :: rest, g =>
    match g.at? s with
    | none => none
    | some c =>
      if s ∈ c then some (g.modify s fun d => d.erase s)
      else if c = ∅ then exitLoop pick rest g
      else if c.card > 1 then exitLoop pick rest g
      else
        let e := pick c
        let g' := g.modify s fun d => d.erase e
        exitLoop pick rest (g'.map fun x =>
          (x.1, if s ∈ x.2 then insert e (x.2.erase s) else x.2))

/-- `/repo/tools/graph.py` L239-258 `inline_single_exit`. -/
def inlineSingleExit (pick : Finset State → State) (order : Finset State → List State)
    (g : ConGraph) : Option ConGraph :=
  (exitLoop pick g.keys g).bind (purge order)

/-- `{src for src in graph if dst in graph[src]}`. -/
def entriesOf (g : ConGraph) (dst : State) : Finset State :=
  (keys (g.filter fun e => dst ∈ e.2)).toFinset

/-- `/repo/tools/graph.py` L218-224: merge `dst` into its only entry point. -/
def merge (pick : Finset State → State) (g : ConGraph) (dst : State) : Option ConGraph :=
  let entry := pick (g.entriesOf dst)
  match g.at? dst with
  | none => none
  | some outs =>
    let g' := g.modify entry fun d => d ∪ outs
    match g'.at? entry with
    | none => none
    | some d => if dst ∈ d then some ((g'.modify entry fun d => d.erase dst).delete dst) else none

/-- `/repo/tools/graph.py` L207-228: the rounds of `inline_single_entry`. -/
def entryRounds (pick : Finset State → State) (order : Finset State → List State) :
    Nat → ConGraph → Option ConGraph
  | 0, g => some g
  | k + 1, g =>
    match (order g.keys.toFinset).find? fun dst => (g.entriesOf dst).card = 1 with
    | none => some g
    | some dst => (g.merge pick dst).bind (entryRounds pick order k)

/-- `/repo/tools/graph.py` L206-230 `inline_single_entry`. -/
def inlineSingleEntry (pick : Finset State → State) (order : Finset State → List State)
    (g : ConGraph) : Option ConGraph :=
  (entryRounds pick order g.length g).bind (purge order)

/-- `/repo/tools/graph.py` L177-183: the passes of `reduce_graph`. -/
def reduceLoop (pick : Finset State → State) (order : Finset State → List State) :
    Nat → ConGraph → Option ConGraph
  | 0, g => some g
  | k + 1, g =>
    if g = [] then some g
    else
      (inlineSingleExit pick order g.cutReflexive).bind fun g =>
        (inlineSingleEntry pick order g).bind (reduceLoop pick order k)

/-- `/repo/tools/graph.py` L176-189 `reduce_graph`. -/
def reduce (pick : Finset State → State) (order : Finset State → List State) (passes : Nat)
    (g : ConGraph) : Option ConGraph :=
  (reduceLoop pick order passes g).map fun g => g.filter fun e => e.2 ≠ ∅

end ConGraph

/-- `/repo/tools/graph.py` L168-173 `Graph.reduced`; without a state `self.colors` raises. -/
def Arrows.reduced (pick : Finset State → State) (order : Finset State → List State)
    (a : Arrows) : Option ConGraph :=
  match a with
  | [] => none
  | row :: _ => a.conGraph.reduce pick order (a.length * row.length)

/-- `/repo/tools/graph.py` L164-166 `Graph.is_simple`. -/
def Arrows.isSimple (pick : Finset State → State) (order : Finset State → List State)
    (a : Arrows) : Option Bool :=
  (a.reduced pick order).map fun g => g.isEmpty

end BB
