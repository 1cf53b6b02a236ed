import Verif.Spec.TM

/-!
# Model of the run-length tapes

`/repo/tm/tape.py` lines 40-201 (`Tape`) and `/repo/src/tape.rs` lines 85-357
(`Span`, `Tape`).  Spans list blocks nearest to the head first, as in the code.
Simplification: counts are natural numbers (Python: `int | Num`; Rust: `u64`,
overflow not modelled).
-/

namespace BB

/-- `/repo/tm/tape.py` L27-42 `Block`; `/repo/src/tape.rs` L45-49 `BasicBlock`. -/
structure Block where
  color : Color
  count : Nat
deriving DecidableEq, Repr

/-- `/repo/tm/tape.py` L44-58 `Tape`; `/repo/src/tape.rs` L218-223 `Tape`. -/
structure Tape where
  lspan : List Block
  scan : Color
  rspan : List Block
deriving DecidableEq, Repr

namespace Tape

/-- The empty tape: `Tape()` (`tm/tape.py` L48-58), `Tape::init(0)` (`src/tape.rs` L282). -/
def init : Tape := ⟨[], 0, []⟩

/-- `/repo/tm/tape.py` L76-78 `Tape.blank`; `/repo/src/tape.rs` L313-315. -/
def blank (t : Tape) : Bool :=
  t.scan == 0 && t.lspan.isEmpty && t.rspan.isEmpty

/-- The `sum(blk.count for blk in span if blk.color != 0)` of `/repo/tm/tape.py` L84-87;
`/repo/src/tape.rs` L109-115 `Span::marks`. -/
def spanMarks (s : List Block) : Nat :=
  ((s.filter (fun b => b.color != 0)).map Block.count).sum

/-- `/repo/tm/tape.py` L80-89 `Tape.marks`; `/repo/src/tape.rs` L290-294. -/
def marks (t : Tape) : Nat :=
  (if t.scan != 0 then 1 else 0) + spanMarks t.lspan + spanMarks t.rspan

/-- `/repo/tm/tape.py` L91-95 `Tape.at_edge`; `/repo/src/tape.rs` L308-311. -/
def atEdge (t : Tape) (edge : Bool) : Bool :=
  t.scan == 0 && (if edge then t.rspan else t.lspan).isEmpty

end Tape

/-! ## Python `Tape.step` -/

namespace Py

/-- Body of `/repo/tm/tape.py` L157-201 after `pull, push` are chosen.  Returns
`(pull, push, scan, stepped)`.  `push_block` is the Python local (a block object
taken out of `pull` and reused); object identity is not modelled here. -/
def stepSpans (pull push : List Block) (scan color : Color) (skip : Bool) :
    List Block × List Block × Color × Nat :=
  -- L164-168
  let (pushBlock, pull) : Option Block × List Block :=
    match pull with
    | [] => (none, [])
    | b :: rest => if skip && b.color == scan then (some b, rest) else (none, b :: rest)
  -- L170
  let stepped := match pushBlock with | none => 1 | some b => 1 + b.count
  -- L172-186
  let (nextScan, pull, pushBlock) : Color × List Block × Option Block :=
    match pull with
    | [] => (0, [], pushBlock)
    | nextPull :: rest =>
      if nextPull.count != 1 then
        (nextPull.color, { nextPull with count := nextPull.count - 1 } :: rest, pushBlock)
      else
        (nextPull.color, rest,
          match pushBlock with
          | none => some { nextPull with count := 0 }
          | some b => some b)
  -- L188-197
  let fresh : Block :=
    match pushBlock with
    | none => ⟨color, 1⟩
    | some b => ⟨color, b.count + 1⟩
  let push :=
    match push with
    | top :: rest =>
      if top.color == color then { top with count := top.count + stepped } :: rest
      else fresh :: top :: rest
    | [] => if color != 0 then [fresh] else []
  (pull, push, nextScan, stepped)

/-- `/repo/tm/tape.py` L157-201 `Tape.step`. -/
def step (t : Tape) (shift : Bool) (color : Color) (skip : Bool) : Tape × Nat :=
  if shift then
    let (pull, push, scan, n) := stepSpans t.rspan t.lspan t.scan color skip
    (⟨push, scan, pull⟩, n)
  else
    let (pull, push, scan, n) := stepSpans t.lspan t.rspan t.scan color skip
    (⟨pull, scan, push⟩, n)

end Py

/-! ## Rust `Tape::step` -/

namespace Rs

/-- `/repo/src/tape.rs` L131-155 `Span::pull`: `(next_scan, stepped, span)`. -/
def pull (span : List Block) (scan : Color) (skip : Bool) : Color × Nat × List Block :=
  -- L132-136
  let (stepped, span) : Nat × List Block :=
    match span with
    | [] => (1, [])
    | b :: rest => if skip && b.color == scan then (1 + b.count, rest) else (1, b :: rest)
  -- L138-152
  match span with
  | [] => (0, stepped, [])
  | b :: rest =>
    if b.count > 1 then (b.color, stepped, { b with count := b.count - 1 } :: rest)
    else (b.color, stepped, rest)

/-- `/repo/src/tape.rs` L157-171 `Span::push`. -/
def push (span : List Block) (print : Color) (stepped : Nat) : List Block :=
  match span with
  | [] => if print != 0 then [⟨print, stepped⟩] else []
  | b :: rest =>
    if b.color == print then { b with count := b.count + stepped } :: rest
    else ⟨print, stepped⟩ :: b :: rest

/-- `/repo/src/tape.rs` L337-356 `Tape::step`. -/
def step (t : Tape) (shift : Bool) (color : Color) (skip : Bool) : Tape × Nat :=
  if shift then
    let (scan, n, rspan) := pull t.rspan t.scan skip
    (⟨push t.lspan color n, scan, rspan⟩, n)
  else
    let (scan, n, lspan) := pull t.lspan t.scan skip
    (⟨lspan, scan, push t.rspan color n⟩, n)

end Rs

end BB
