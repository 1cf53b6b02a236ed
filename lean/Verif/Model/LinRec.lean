import Verif.Model.Tape

/-!
# Model of the recurrence checker

`/repo/src/machine.rs` L384-446 `quick_term_or_rec`, with `HeadTape` and
`Alignment` from `/repo/src/tape.rs` L388-541.  `isize` positions are ℤ.
-/

namespace BB

/-- `/repo/src/tape.rs` L391-395 `HeadTape`. -/
structure HeadTape where
  head : Int
  tape : Tape
deriving DecidableEq, Repr

namespace HeadTape

/-- `/repo/src/tape.rs` L404-409 `init_stepped`. -/
def initStepped : HeadTape := ⟨1, ⟨[⟨1, 1⟩], 0, []⟩⟩

/-- `/repo/src/tape.rs` L415-431 `step` (the returned count is not used by the caller). -/
def step (t : HeadTape) (shift : Bool) (color : Color) (skip : Bool) : HeadTape :=
  let (tape, stepped) := Rs.step t.tape shift color skip
  ⟨if shift then t.head + stepped else t.head - stepped, tape⟩

/-- `/repo/src/tape.rs` L523-532: the first `remaining` cells of a span, padded with 0. -/
def sliceNear : List Block → Nat → List Color
  | [], remaining => List.replicate remaining 0
  | b :: rest, remaining =>
    let count := min b.count remaining
    List.replicate count b.color ++ sliceNear rest (remaining - count)

/-- `/repo/src/tape.rs` L535-537: all cells of a span. -/
def sliceFar (s : List Block) : List Color :=
  s.flatMap fun b => List.replicate b.count b.color

/-- `/repo/src/tape.rs` L513-540 `get_slice`. -/
def getSlice (t : HeadTape) (start : Int) (ltr : Bool) : List Color :=
  let (lspan, rspan, diff) :=
    if ltr then (t.tape.lspan, t.tape.rspan, t.head - start)
    else (t.tape.rspan, t.tape.lspan, start - t.head)
  (if diff > 0 then sliceNear lspan diff.toNat else []) ++ sliceFar rspan

/-- `/repo/src/tape.rs` L454-485 `aligns_with`. -/
def alignsWith (t prev : HeadTape) (leftmost rightmost : Int) : Bool :=
  if t.tape.scan != prev.tape.scan then false
  else
    let diff := t.head - prev.head
    if 0 < diff then
      t.tape.rspan.length == prev.tape.rspan.length
        && decide (t.tape.lspan.length ≥ prev.tape.lspan.length)
        && t.tape.rspan == prev.tape.rspan
        && prev.getSlice leftmost true == t.getSlice (leftmost + diff) true
    else if diff < 0 then
      t.tape.lspan.length == prev.tape.lspan.length
        && decide (t.tape.rspan.length ≥ prev.tape.rspan.length)
        && t.tape.lspan == prev.tape.lspan
        && prev.getSlice rightmost false == t.getSlice (rightmost + diff) false
    else
      t.tape.lspan.length == prev.tape.lspan.length
        && t.tape.rspan.length == prev.tape.rspan.length
        && t.tape.lspan == prev.tape.lspan
        && t.tape.rspan == prev.tape.rspan

end HeadTape

/-- Mutable locals of the loop (`/repo/src/machine.rs` L389-398). -/
structure LState where
  state : State
  tape : HeadTape
  refState : State
  refTape : HeadTape
  leftmost : Int
  rightmost : Int
  reset : Nat

/-- `/repo/src/machine.rs` L417-424: take a new reference point when `reset` is 0. -/
def LState.rebase (s : LState) (cycle : Nat) : LState :=
  if s.reset == 0 then
    { s with refState := s.state, refTape := s.tape, leftmost := s.tape.head,
             rightmost := s.tape.head, reset := cycle }
  else s

/-- `/repo/src/machine.rs` L426-436: count down, step, update the extremes. -/
def LState.advance (s : LState) (color : Color) (shift : Bool) (nextState : State) (same : Bool) :
    LState :=
  let tape := s.tape.step shift color same
  let curr := tape.head
  let (leftmost, rightmost) :=
    if curr < s.leftmost then (curr, s.rightmost)
    else if s.rightmost < curr then (s.leftmost, curr)
    else (s.leftmost, s.rightmost)
  { s with state := nextState, tape := tape, leftmost := leftmost, rightmost := rightmost,
           reset := s.reset - 1 }

/-- `/repo/src/machine.rs` L400-443, the loop; `fuel` counts the remaining cycles. -/
def recLoop (comp : Prog) (dropHalt : Bool) : Nat → Nat → LState → Bool
  | 0, _, _ => false
  | fuel + 1, cycle, s =>
    match comp (s.state, s.tape.tape.scan) with
    | none => dropHalt
    | some (color, shift, nextState) =>
      let same := s.state == nextState
      if same && s.tape.tape.atEdge shift then true
      else
        let s := (s.rebase cycle).advance color shift nextState same
        if s.state == s.refState && s.tape.alignsWith s.refTape s.leftmost s.rightmost then true
        else recLoop comp dropHalt fuel (cycle + 1) s

/-- `/repo/src/machine.rs` L384-446 `quick_term_or_rec`. -/
def quickTermOrRec (comp : Prog) (simLim : Nat) (dropHalt : Bool) : Bool :=
  let tape := HeadTape.initStepped
  recLoop comp dropHalt (simLim - 1) 1 ⟨1, tape, 1, tape, tape.head, tape.head, 1⟩

end BB
