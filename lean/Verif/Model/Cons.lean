import Verif.Model.Num

/-!
# Model of how symbolic numbers are made

`/repo/tm/num.py`: the dictionaries of L23-26, `make_add` L142-152, `make_mul` L335-345, `make_div`
L647-654, the end of `make_exp` L814-820, and the constructors.  `Model/Num` takes equal terms for the
same object; here objects have identities, as in Python.

* An object is its place in the list of all objects made so far.  The dictionaries hold every object
  made, so none is ever freed.
* The four dictionaries are one list; a key says which dictionary it is for.  A key of a dictionary is
  found by its hash, which for a `Num` is `id` (L175, L381, L676, L844, L1199), and then by identity:
  keys are compared as references.
* `Mul.__init__` compares its operands with 0 (L353-358), and the comparisons make other numbers.  So a
  call of `make_mul` is two events: the look-up, after which the constructor is under way, and its
  end or failure; anything may happen in between.  If it is called again for the same operands while it
  is under way, it does the same comparisons again, and so on: Python raises `RecursionError`.
* A constructor that raises makes no entry.
-/

namespace BB
namespace Cons

/-- A `Count`: a Python integer, or an object. -/
inductive Ref
  | int (n : Int)
  | obj (id : Nat)
deriving DecidableEq, Repr

/-- The fields of an object. -/
inductive Obj
  | add (l : Ref) (r : Nat)
  | mul (l : Ref) (r : Nat)
  | div (num : Nat) (den : Int)
  | exp (base : Int) (e : Ref)
  | tet (base height : Int)
deriving DecidableEq, Repr

/-- `ADDS[l][r]`, `MULS[l][r]`, `DIVS[num][den]`, `EXPS[base][exp]`. -/
inductive Key
  | adds (l : Ref) (r : Nat)
  | muls (l : Ref) (r : Nat)
  | divs (num : Nat) (den : Int)
  | exps (base : Int) (e : Ref)
deriving DecidableEq, Repr

/-- The objects with their `depth`, the dictionaries, and the products under way. -/
structure Store where
  heap : List (Obj × Nat)
  dicts : List (Key × Nat)
  pending : List (Ref × Nat)

/-- When the module is loaded. -/
def empty : Store := ⟨[], [], []⟩

/-- The attribute `depth`. -/
def Store.depth (s : Store) : Ref → Nat
  | .int _ => 0
  | .obj i => ((s.heap[i]?).map (·.2)).getD 0

/-- A new object, and its entry. -/
def Store.make (s : Store) (k : Key) (o : Obj) (depth : Nat) : Store × Option Ref :=
  ({ s with heap := s.heap ++ [(o, depth)], dicts := (k, s.heap.length) :: s.dicts },
    some (.obj s.heap.length))

/-- `if isinstance(l, Num) and l.depth > r.depth: l, r = r, l` (L143-144, L336-337). -/
def Store.order (s : Store) (l : Ref) (r : Nat) : Ref × Nat :=
  match l with
  | .int _ => (l, r)
  | .obj i => if s.depth (.obj r) < s.depth l then (.obj r, i) else (l, r)

/-- `make_add` (L142-152). -/
def Store.add (s : Store) (l : Ref) (r : Nat) : Store × Option Ref :=
  let (l, r) := s.order l r
  match s.dicts.lookup (.adds l r) with
  | some i => (s, some (.obj i))
  | none => s.make (.adds l r) (.add l r) (1 + s.depth (.obj r))

/-- `make_mul` (L335-345) up to the constructor. -/
def Store.mul (s : Store) (l : Ref) (r : Nat) : Option (Store × Option Ref) :=
  let (l, r) := s.order l r
  match s.dicts.lookup (.muls l r) with
  | some i => some (s, some (.obj i))
  | none =>
    if (l, r) ∈ s.pending then none else some ({ s with pending := (l, r) :: s.pending }, none)

/-- The end of the constructor `Mul`, and the entry (L344). -/
def Store.mulDone (s : Store) : Option (Store × Option Ref) :=
  match s.pending with
  | (l, r) :: rest =>
    some ({ s with pending := rest }.make (.muls l r) (.mul l r) (1 + s.depth (.obj r)))
  | [] => none

/-- A failure of the constructor `Mul`. -/
def Store.mulFail (s : Store) : Option (Store × Option Ref) :=
  match s.pending with
  | _ :: rest => some ({ s with pending := rest }, none)
  | [] => none

/-- `make_div` (L647-654) with the assertion of L662. -/
def Store.div (s : Store) (num : Nat) (den : Int) : Store × Option Ref :=
  match s.dicts.lookup (.divs num den) with
  | some i => (s, some (.obj i))
  | none =>
    if 0 < den then s.make (.divs num den) (.div num den) (1 + s.depth (.obj num)) else (s, none)

/-- The end of `make_exp` (L814-820) with `Exp.__init__` (L827-839). -/
def Store.exp (s : Store) (base : Int) (e : Ref) : Store × Option Ref :=
  match s.dicts.lookup (.exps base e) with
  | some i => (s, some (.obj i))
  | none =>
    match e with
    | .int k => if k ≤ 0 then (s, none) else s.make (.exps base e) (.exp base e) 1
    | .obj i => s.make (.exps base e) (.exp base e) (1 + s.depth (.obj i))

/-- `Tet(base, height)` (L1188-1194): a new object every time. -/
def Store.tet (s : Store) (base height : Int) : Store × Option Ref :=
  ({ s with heap := s.heap ++ [(.tet base height, 1)] }, some (.obj s.heap.length))

/-- What can happen. -/
inductive Event
  | add (l : Ref) (r : Nat)
  | mul (l : Ref) (r : Nat)
  | mulDone
  | mulFail
  | div (num : Nat) (den : Int)
  | exp (base : Int) (e : Ref)
  | tet (base height : Int)

/-- The store after an event, and the object that is returned, if any. -/
def Store.step (s : Store) : Event → Option (Store × Option Ref)
  | .add l r => some (s.add l r)
  | .mul l r => s.mul l r
  | .mulDone => s.mulDone
  | .mulFail => s.mulFail
  | .div n d => some (s.div n d)
  | .exp b e => some (s.exp b e)
  | .tet b h => some (s.tet b h)

/-- `x == y` (L66-67, L1217-1222). -/
def Store.eq (s : Store) : Ref → Ref → Bool
  | .int a, .int b => a == b
  | .obj i, .obj j =>
    match s.heap[i]?, s.heap[j]? with
    | some (.tet b h, _), some (.tet b2 h2, _) => b == b2 && h == h2
    | some (.tet _ _, _), _ => false
    | _, _ => i == j
  | _, _ => false

end Cons
end BB
