import Verif.Model.Structured

/-!
# A check that a C program follows a machine

`trace` follows the statements up to the next `LEFT` or `RIGHT`, given the scanned colour.  A `Spot` is
a place in the program right after a move, with the state of the machine and what is known about the
cells near the head.  `closed` says that a list of spots has with every spot those that come after it.
-/

namespace BB
namespace CS

inductive Out
  /-- the cell now is `c`, the head moves, `rec` is the direction of a `CHECK_RECUR` before -/
  | move (c : Nat) (right : Bool) (rec : Option Bool) (s : Stmt) (k : Kont)
  | bad

/-- The statements up to the next move, from `s` with colour `x`; `r` is the `CHECK_RECUR` seen so far,
`w` says that the cell has been written. -/
def trace (main : Stmt) : Nat → Nat → Option Bool → Bool → Stmt → Kont → Out
  | 0, _, _, _, _, _ => .bad
  | n + 1, x, r, w, s, k =>
    match control main x s k with
    | some (.pass, s', k') => trace main n x r w s' k'
    | some (.test, s', k') => trace main n x r w s' k'
    | some (.write c, s', k') => trace main n c r true s' k'
    | some (.recur d, s', k') =>
      if r = none ∧ w = false then trace main n x (some d) w s' k' else .bad
    | some (.shift d, s', k') => .move x d r s' k'
    | _ => .bad

/-- From `s` the program gets to the end, without looking at the tape. -/
def toExit (main : Stmt) (x : Nat) : Nat → Stmt → Kont → Bool
  | 0, _, _ => false
  | n + 1, s, k =>
    match control main x s k with
    | some (.pass, s', k') => toExit main x n s' k'
    | some (.exit, _, _) => true
    | _ => false

/-- From `s` the program gets to `CHECK_STEPS` and then to the end, without looking at the tape. -/
def toCheck (main : Stmt) (x : Nat) : Nat → Stmt → Kont → Bool
  | 0, _, _ => false
  | n + 1, s, k =>
    match control main x s k with
    | some (.pass, s', k') => toCheck main x n s' k'
    | some (.check, s', k') => toExit main x n s' k'
    | _ => false

/-- A place in the program after a move, the state, and the known cells around the head. -/
structure Spot where
  code : Stmt
  kont : Kont
  state : Nat
  left : List Nat
  here : Option Nat
  right : List Nat
deriving DecidableEq

/-- The spot after writing `c` and moving. -/
def Spot.after (s : Spot) (wd c : Nat) (d : Bool) (code : Stmt) (kont : Kont) (q : Nat) : Spot :=
  if d then ⟨code, kont, q, (c :: s.left).take wd, s.right.head?, s.right.tail⟩
  else ⟨code, kont, q, s.left.tail, s.left.head?, (c :: s.right).take wd⟩

/-- The colours the scanned cell may have. -/
def Spot.colors (s : Spot) (K : Nat) : List Nat :=
  match s.here with
  | some c => [c]
  | none => List.range K

def fuel : Nat := 60

/-- A `CHECK_RECUR` is where the machine could leave, and nowhere else. -/
def recurOk (checks : Bool) (s : Spot) (x : Nat) (i : Instr) : Option Bool → Bool
  | some d => checks && x == 0 && d == i.2.1 && i.2.2 == s.state
  | none => !(checks && x == 0 && i.2.2 == s.state) ||
      (match (if i.2.1 then s.right else s.left) with
        | y :: _ => y != 0
        | [] => false)

/-- The spots after `s`; `none` if the program does not follow the machine. -/
def nexts (main : Stmt) (tab : List (List (Option Instr))) (checks : Bool) (K wd : Nat) (s : Spot) :
    Option (List Spot) :=
  (s.colors K).foldr (fun x r =>
    r.bind fun l =>
      if s.state = 7 then (if toCheck main x fuel s.code s.kont then some l else none)
      else
        match ofTable tab (s.state, x) with
        | none => some l
        | some i =>
          match trace main fuel x none false s.code s.kont with
          | .bad => none
          | .move c d r s' k' =>
            if c = i.1 ∧ d = i.2.1 ∧ c < K ∧ recurOk checks s x i r then
              some (s.after wd c d s' k' i.2.2 :: l)
            else none) (some [])

/-- The spots reachable from a list. -/
def explore (f : Spot → Option (List Spot)) : Nat → List Spot → List Spot → Option (List Spot)
  | _, [], seen => some seen
  | 0, _ :: _, _ => none
  | n + 1, s :: todo, seen =>
    if s ∈ seen then explore f n todo seen
    else (f s).bind fun l => explore f n (l ++ todo) (s :: seen)

/-- The spot at the beginning. -/
def firstSpot (main : Stmt) (wd : Nat) : Spot :=
  ⟨main, [], 0, List.replicate wd 0, some 0, List.replicate wd 0⟩

/-- The number of colours of a table. -/
def colorsOf (tab : List (List (Option Instr))) : Nat := tab.foldl (fun m row => max m row.length) 0

/-- The program follows the machine of the table. -/
def follows (main : Stmt) (tab : List (List (Option Instr))) (checks : Bool) (wd : Nat) : Bool :=
  decide (tab.length ≤ 7) && decide (1 ≤ colorsOf tab) &&
  ((findLabel ['H'] main).any fun s =>
    (List.range (colorsOf tab)).all fun x => toCheck main x fuel s []) &&
  (explore (nexts main tab checks (colorsOf tab) wd) 1000 [firstSpot main wd] []).isSome

end CS
end BB
