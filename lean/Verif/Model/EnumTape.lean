import Verif.Model.Rules

/-!
# Model of signatures and of the offset-tracking tape

`/repo/tm/tape.py` L97-155 (`counts`, `signature`, `sig_compatible`) and L205-305 `EnumTape`;
`/repo/src/tape.rs` L588-740 `EnumTape`.

Blocks of an `EnumTape` carry the `(side, number)` that the Python dict `enums` assigns to their
object identity.  A block object taken from one span and pushed on the other keeps its identity,
hence its tag (`push_block` in `Tape.step`); a block created by `Block(color, 1)` has no tag
(CPython may give it the identity of a block freed before; such a block was at the head of a span
when it was popped, so its number is already covered by the recorded offset and this makes no
difference).
-/

namespace BB

/-! ## Signatures -/

/-- One entry of a signature: the colour, and whether it is the 1-tuple `(color,)` that marks a
block of count 1. -/
abbrev SigItem := Color × Bool

/-- `Signature` (`/repo/tm/tape.py` L12-16). -/
structure Sig where
  scan : Color
  lspan : List SigItem
  rspan : List SigItem
deriving DecidableEq, Repr

/-- The generator of `/repo/tm/tape.py` L112-117. -/
def sigSpan (s : List Block) : List SigItem := s.map fun b => (b.color, b.count == 1)

/-- `/repo/tm/tape.py` L108-119 `Tape.signature`. -/
def Tape.signature (t : Tape) : Sig := ⟨t.scan, sigSpan t.lspan, sigSpan t.rspan⟩

/-- `/repo/tm/tape.py` L101-106 `Tape.counts`. -/
def Tape.counts (t : Tape) : Counts :=
  (t.lspan.map fun b => (b.count : Int), t.rspan.map fun b => (b.count : Int))

/-- One side of the test of `/repo/tm/tape.py` L139-154: long enough, and colours agree. -/
def spanCompatible (s : List Block) (sig : List SigItem) : Bool :=
  decide (s.length ≥ sig.length)
    && ((s.take sig.length).zip sig).all (fun (block, item) => block.color == item.1)

/-- `/repo/tm/tape.py` L135-155 `Tape.sig_compatible`. -/
def Tape.sigCompatible (t : Tape) (sig : Sig) : Bool :=
  t.scan == sig.scan && spanCompatible t.lspan sig.lspan && spanCompatible t.rspan sig.rspan

/-! ## Offset-tracking tapes -/

/-- A block object with the entry of `enums` for its identity. -/
structure EBlock where
  color : Color
  count : Nat
  tag : Option Index
deriving DecidableEq, Repr

/-- The `tape` inside an `EnumTape`. -/
structure ETape where
  lspan : List EBlock
  scan : Color
  rspan : List EBlock
deriving DecidableEq, Repr

/-- `/repo/tm/tape.py` L209-219 `EnumTape`. -/
structure EnumTape where
  tape : ETape
  lOffset : Nat
  rOffset : Nat
  lEdge : Bool
  rEdge : Bool
deriving DecidableEq, Repr

def EBlock.forget (b : EBlock) : Block := ⟨b.color, b.count⟩

/-- The ordinary tape under the tags. -/
def ETape.forget (t : ETape) : Tape :=
  ⟨t.lspan.map EBlock.forget, t.scan, t.rspan.map EBlock.forget⟩

/-- Number the blocks of one side from 1 (`/repo/tm/tape.py` L230-234). -/
def tagSpan (side : Bool) (s : List Block) : List EBlock :=
  s.mapIdx fun i b => ⟨b.color, b.count, some (side, i + 1)⟩

/-- `/repo/tm/tape.py` L62-63, L221-234: `Tape.to_enum`, `EnumTape.__init__`. -/
def Tape.toEnum (t : Tape) : EnumTape :=
  ⟨⟨tagSpan false t.lspan, t.scan, tagSpan true t.rspan⟩, 0, 0, false, false⟩

namespace EnumTape

/-- `/repo/tm/tape.py` L244-248 `touch_edge`. -/
def touchEdge (t : EnumTape) (shift : Bool) : EnumTape :=
  if shift then { t with rEdge := true } else { t with lEdge := true }

/-- `/repo/tm/tape.py` L250-260 `check_offsets`. -/
def checkOffsets (t : EnumTape) (b : EBlock) : EnumTape :=
  match b.tag with
  | none => t
  | some (side, offset) =>
    if side then
      if offset > t.rOffset then { t with rOffset := offset } else t
    else
      if offset > t.lOffset then { t with lOffset := offset } else t

/-- `/repo/tm/tape.py` L157-201 `Tape.step` again, on tagged blocks: as `Py.stepSpans`, with the
reused `push_block` keeping its tag. -/
def stepSpans (pull push : List EBlock) (scan color : Color) (skip : Bool) :
    List EBlock × List EBlock × Color :=
  let (pushBlock, pull) : Option EBlock × List EBlock :=
    match pull with
    | [] => (none, [])
    | b :: rest => if skip && b.color == scan then (some b, rest) else (none, b :: rest)
  let stepped := match pushBlock with | none => 1 | some b => 1 + b.count
  let (nextScan, pull, pushBlock) : Color × List EBlock × Option EBlock :=
    match pull with
    | [] => (0, [], pushBlock)
    | nextPull :: rest =>
      if nextPull.count != 1 then
        (nextPull.color, { nextPull with count := nextPull.count - 1 } :: rest, pushBlock)
      else
        (nextPull.color, rest,
          match pushBlock with
          | none => some { nextPull with count := 0 }
          | some b => some b)
  let fresh : EBlock :=
    match pushBlock with
    | none => ⟨color, 1, none⟩
    | some b => ⟨color, b.count + 1, b.tag⟩
  let push :=
    match push with
    | top :: rest =>
      if top.color == color then { top with count := top.count + stepped } :: rest
      else fresh :: top :: rest
    | [] => if color != 0 then [fresh] else []
  (pull, push, nextScan)

/-- `/repo/tm/tape.py` L289-303: the checks made before a step. -/
def check (t : EnumTape) (shift : Bool) (color : Color) (skip : Bool) : EnumTape :=
  let (pull, push) :=
    if shift then (t.tape.rspan, t.tape.lspan) else (t.tape.lspan, t.tape.rspan)
  let t := match pull with
    | [] => t.touchEdge shift
    | near :: rest =>
      let t := t.checkOffsets near
      if skip && near.color == t.tape.scan then
        match rest with
        | [] => t.touchEdge shift
        | next :: _ => t.checkOffsets next
      else t
  match push with
  | [] => t
  | opp :: _ => if color == opp.color then t.checkOffsets opp else t

/-- `/repo/tm/tape.py` L282-305 `EnumTape.step`. -/
def step (t : EnumTape) (shift : Bool) (color : Color) (skip : Bool) : EnumTape :=
  let t := t.check shift color skip
  if shift then
    let (pull, push, scan) := stepSpans t.tape.rspan t.tape.lspan t.tape.scan color skip
    { t with tape := ⟨push, scan, pull⟩ }
  else
    let (pull, push, scan) := stepSpans t.tape.lspan t.tape.rspan t.tape.scan color skip
    { t with tape := ⟨pull, scan, push⟩ }

/-- `/repo/tm/tape.py` L262-273 `EnumTape.get_count`. -/
def getCount (t : EnumTape) (i : Index) : Except Err (Int × EnumTape) :=
  match (if i.1 then t.tape.rspan else t.tape.lspan)[i.2]? with
  | none => .error .indexError
  | some b => .ok (b.count, t.checkOffsets b)

/-- `/repo/tm/tape.py` L275-276 `EnumTape.set_count`. -/
def setCount (t : EnumTape) (i : Index) (v : Int) : Except Err EnumTape :=
  if v < 0 then .error .negCount
  else
    match (if i.1 then t.tape.rspan else t.tape.lspan)[i.2]? with
    | none => .error .indexError
    | some b =>
      let b := { b with count := v.toNat }
      .ok { t with tape :=
        if i.1 then { t.tape with rspan := t.tape.rspan.set i.2 b }
        else { t.tape with lspan := t.tape.lspan.set i.2 b } }

end EnumTape

/-! ## The Rust version -/

namespace Rs

/-- `/repo/src/tape.rs` L131-155 `Span::pull` on tagged blocks. -/
def epull (span : List EBlock) (scan : Color) (skip : Bool) : Color × Nat × List EBlock :=
  let (stepped, span) : Nat × List EBlock :=
    match span with
    | [] => (1, [])
    | b :: rest => if skip && b.color == scan then (1 + b.count, rest) else (1, b :: rest)
  match span with
  | [] => (0, stepped, [])
  | b :: rest =>
    if b.count > 1 then (b.color, stepped, { b with count := b.count - 1 } :: rest)
    else (b.color, stepped, rest)

/-- `/repo/src/tape.rs` L157-171 `Span::push`; `EnumBlock::new` has no index. -/
def epush (span : List EBlock) (print : Color) (stepped : Nat) : List EBlock :=
  match span with
  | [] => if print != 0 then [⟨print, stepped, none⟩] else []
  | b :: rest =>
    if b.color == print then { b with count := b.count + stepped } :: rest
    else ⟨print, stepped, none⟩ :: b :: rest

/-- `/repo/src/tape.rs` L719-729 `EnumTape::step`; `check_step` (L686-717) makes the checks of
the Python version. -/
def estep (t : EnumTape) (shift : Bool) (color : Color) (skip : Bool) : EnumTape :=
  let t := t.check shift color skip
  if shift then
    let (scan, n, rspan) := epull t.tape.rspan t.tape.scan skip
    { t with tape := ⟨epush t.tape.lspan color n, scan, rspan⟩ }
  else
    let (scan, n, lspan) := epull t.tape.lspan t.tape.scan skip
    { t with tape := ⟨lspan, scan, epush t.tape.rspan color n⟩ }

end Rs

end BB
