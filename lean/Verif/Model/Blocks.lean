import Verif.Model.Tape

/-!
# Model of the choice of a block size

`/repo/src/blocks.rs`.  `usize` is ℕ; a subtraction below zero, a slice or key out of range is a
panic, `none` in the model.
-/

namespace BB

/-- `/repo/src/blocks.rs` L6-13 `BlockMeasure`, and the `state` of L40. -/
structure BlockMeasure where
  state : State := 0
  tape : Tape := .init
  steps : Nat := 0
  maxBlocks : Nat := 0
  maxBlocksStep : Nat := 0
deriving Repr

/-- `/repo/src/tape.rs` L296-298 `Tape::blocks`. -/
def Tape.blocks (t : Tape) : Nat := t.lspan.length + t.rspan.length

/-- `/repo/src/blocks.rs` L26-37 `BlockMeasure::step`. -/
def BlockMeasure.step (m : BlockMeasure) (shift : Bool) (color : Color) (skip : Bool) :
    BlockMeasure :=
  let steps := m.steps + 1
  let blocks := m.tape.blocks
  let m := { m with steps := steps }
  let m := if blocks > m.maxBlocks then { m with maxBlocks := blocks, maxBlocksStep := steps } else m
  { m with tape := (Rs.step m.tape shift color skip).1 }

/-- `/repo/src/blocks.rs` L44-57, the loop of `measure_blocks`. -/
def measureLoop (comp : Prog) : Nat → BlockMeasure → Option Nat
  | 0, m => some m.maxBlocksStep
  | n + 1, m =>
    match comp (m.state, m.tape.scan) with
    | none => none
    | some (color, shift, nextState) =>
      let same := m.state == nextState
      if same && m.tape.atEdge shift then none
      else measureLoop comp n { m.step shift color same with state := nextState }

/-- `/repo/src/blocks.rs` L40-60 `measure_blocks`. -/
def measureBlocks (comp : Prog) (steps : Nat) : Option Nat := measureLoop comp steps {}

/-- `/repo/src/blocks.rs` L66-74, the loop of `unroll_tape`; `none` is the missing key of L67. -/
def unrollLoop (comp : Prog) : Nat → State × Tape → Option (State × Tape)
  | 0, c => some c
  | n + 1, c =>
    match comp (c.1, c.2.scan) with
    | none => none
    | some (color, shift, nextState) =>
      unrollLoop comp n (nextState, (Rs.step c.2 shift color (c.1 == nextState)).1)

/-- `/repo/src/tape.rs` L121-125 `Span::unroll`. -/
def unrollSpan (s : List Block) : List Color := s.flatMap fun b => List.replicate b.count b.color

/-- `/repo/src/tape.rs` L328-335 `Tape::unroll`. -/
def Tape.unrolled (t : Tape) : List Color :=
  (unrollSpan t.lspan).reverse ++ [t.scan] ++ unrollSpan t.rspan

/-- `/repo/src/blocks.rs` L62-77 `unroll_tape`. -/
def unrollTape (comp : Prog) (steps : Nat) : Option (List Color) :=
  (unrollLoop comp steps (0, .init)).map fun c => c.2.unrolled

/-- The slice `tape[a..b]`. -/
def slice (tape : List Color) (a b : Nat) : Option (List Color) :=
  if a ≤ b ∧ b ≤ tape.length then some ((tape.drop a).take (b - a)) else none

/-- `/repo/src/blocks.rs` L82-86, the body of the loop of `compr_eff`. -/
def comprBody (tape : List Color) (k : Nat) (size i : Nat) : Option Nat :=
  match slice tape i (i + k), slice tape (i + k) (i + 2 * k) with
  | some a, some b => if a = b then (if k ≤ size then some (size - k) else none) else some size
  | _, _ => none

/-- `/repo/src/blocks.rs` L79-89 `compr_eff`; `(0..n).step_by(k)` is `0, k, 2k, …` below `n`
(a panic for `k = 0`). -/
def comprEff (tape : List Color) (k : Nat) : Option Nat :=
  if k = 0 ∨ tape.length < 2 * k then none
  else
    ((List.range ((tape.length - 2 * k + k - 1) / k)).map (· * k)).foldlM (comprBody tape k)
      tape.length

/-- `/repo/src/blocks.rs` L101-107, the body of the loop of `opt_block`, on
`(opt_size, min_comp)`. -/
def optBody (tape : List Color) (acc : Nat × Nat) (k : Nat) : Option (Nat × Nat) :=
  (comprEff tape k).map fun size => if size < acc.2 then (k, size) else acc

/-- `/repo/src/blocks.rs` L91-110 `opt_block`; `1..n` is `1, …, n - 1`. -/
def optBlock (comp : Prog) (steps : Nat) : Option Nat :=
  match measureBlocks comp steps with
  | none => some 1
  | some maxStep =>
    match unrollTape comp maxStep with
    | none => none
    | some tape =>
      ((List.range' 1 (tape.length / 2 - 1)).foldlM (optBody tape) (1, 1 + tape.length)).map (·.1)

end BB
