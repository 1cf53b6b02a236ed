/-!
# The Idris implementation: tapes and machines

`/repo/idris/Program.idr`, `Tape.idr` and `Machine.idr`.  An Idris interface with its methods is a
structure here, an implementation is a value of that structure.

Simplifications.
* `Integer` (in `NumTape`) is `Nat`: no operation used makes a number negative.
* `PtrTape`, a vector with an index into it, is a list with a position; all operations keep the
  position inside the list.
* Idris evaluates strictly and `skip` of `PtrTape` may not return.  It takes a bound on the number of
  recursive calls; `none` is "more calls than that".
* `run` is in `IO` but does no input or output.
-/

namespace BB.Idris

/-- `Program.idr` L9-11. -/
inductive Shift where
  | L
  | R
deriving DecidableEq

/-- `Program.idr` L55-57. -/
abbrev Instruction := Nat × Shift × Nat

/-- `Program.idr` L59-61. -/
abbrev Program := Nat → Nat → Instruction

/-- `Program.idr` L34-36. -/
def halt : Nat := 0

/-- The interfaces `TapeMeasure`, `Tape` and `SkipTape` (`Tape.idr` L12-22, L35-43, L58-70) together
with `Eq`. -/
structure Tape (τ : Type) where
  beq : τ → τ → Bool
  cells : τ → Nat
  marks : τ → Nat
  blank : τ → Bool
  blankInit : τ
  read : τ → Nat × Option Shift
  step : Shift → τ → Nat → Nat × τ
  skip : Shift → τ → Nat → Option (Nat × τ)

/-! ## Spans -/

/-- `Tape.idr` L76-86. -/
structure Spannable (σ : Type) where
  beq : σ → σ → Bool
  pullNext : σ → Nat × σ
  pushCurr : Nat → Nat → σ → σ
  blankSpan : σ
  spanBlank : σ → Bool
  spanCells : σ → Nat
  spanMarks : σ → Nat

/-- `Tape.idr` L89-90. -/
abbrev ScanNSpan (σ : Type) := σ × Nat × σ

namespace ScanNSpan

variable {σ : Type}

/-- `Tape.idr` L95. -/
def cells (S : Spannable σ) : ScanNSpan σ → Nat
  | (l, _, r) => S.spanCells l + 1 + S.spanCells r

/-- `Tape.idr` L96. -/
def marks (S : Spannable σ) : ScanNSpan σ → Nat
  | (l, c, r) => S.spanMarks l + (if c = 0 then 0 else 1) + S.spanMarks r

/-- `Tape.idr` L98-99. -/
def blank (S : Spannable σ) : ScanNSpan σ → Bool
  | (l, 0, r) => S.spanBlank l && S.spanBlank r
  | _ => false

/-- `Tape.idr` L103-109. -/
def read (S : Spannable σ) : ScanNSpan σ → Nat × Option Shift
  | (l, 0, r) =>
    (0, if S.spanBlank l then some .L else if S.spanBlank r then some .R else none)
  | (_, c, _) => (c, none)

/-- `Tape.idr` L114-116. -/
def stepLeft (S : Spannable σ) : ScanNSpan σ → Nat → Nat × ScanNSpan σ
  | (l, _, r), cx =>
    let (x, k) := S.pullNext l
    (1, (k, x, S.pushCurr cx 1 r))

/-- A stepper to the right from one to the left, as in `Tape.idr` L118-120, L163-165, L227-229 … -/
def flip {μ : Type} (f : ScanNSpan σ → Nat → μ) (back : μ → μ) : ScanNSpan σ → Nat → μ
  | (l, c, r), cx => back (f (r, c, l) cx)

/-- The tape read in the other direction. -/
def back : Nat × ScanNSpan σ → Nat × ScanNSpan σ
  | (s, (k, x, e)) => (s, (e, x, k))

/-- `Tape.idr` L93-120, with the implementation of `SkipTape` given by `skipLeft`. -/
def tape (S : Spannable σ) (skipLeft : ScanNSpan σ → Nat → Nat × ScanNSpan σ) :
    Tape (ScanNSpan σ) where
  beq := fun (l, c, r) (l', c', r') => S.beq l l' && (c == c' && S.beq r r')
  cells := cells S
  marks := marks S
  blank := blank S
  blankInit := (S.blankSpan, 0, S.blankSpan)
  read := read S
  step
    | .L => stepLeft S
    | .R => flip (stepLeft S) back
  skip
    | .L => fun t cx => some (skipLeft t cx)
    | .R => fun t cx => some (flip skipLeft back t cx)

end ScanNSpan

/-! ## One colour per cell -/

/-- `Tape.idr` L133-147. -/
def colorSpan : Spannable (List Nat) where
  beq := (· == ·)
  pullNext
    | [] => (0, [])
    | x :: xs => (x, xs)
  pushCurr := fun cx _ xs => cx :: xs
  blankSpan := []
  spanBlank :=
    let rec go : List Nat → Bool
      | 0 :: xs => go xs
      | [] => true
      | _ => false
    go
  spanCells := List.length
  spanMarks := fun xs => (xs.filter (· ≠ 0)).length

/-- `Tape.idr` L153-161. -/
def cellSkipLeft : List Nat × Nat × List Nat → Nat → Nat × (List Nat × Nat × List Nat)
  | ([], c, r), cx => ScanNSpan.stepLeft colorSpan ([], c, r) cx
  | (cn :: l, c, r), cx =>
    if cn ≠ c then ScanNSpan.stepLeft colorSpan (cn :: l, c, r) cx
    else
      let (steps, shifted) := cellSkipLeft (l, cn, cx :: r) cx
      (steps + 1, shifted)
termination_by t => t.1.length

/-- `CellTape`, `Tape.idr` L128-165. -/
def cellTape : Tape (List Nat × Nat × List Nat) := ScanNSpan.tape colorSpan cellSkipLeft

/-! ## Blocks -/

/-- `Tape.idr` L188-209. -/
def blockSpan : Spannable (List (Nat × Nat)) where
  beq := (· == ·)
  pullNext
    | [] => (0, [])
    | (c, n) :: xs =>
      (c, match n with
          | k + 2 => (c, k + 1) :: xs
          | _ => xs)
  pushCurr
    | c, k, [] => [(c, k)]
    | c, k, (q, n) :: xs => if c = q then (q, k + n) :: xs else (c, k) :: (q, n) :: xs
  blankSpan := []
  spanBlank :=
    let rec go : List (Nat × Nat) → Bool
      | (0, _) :: xs => go xs
      | [] => true
      | _ => false
    go
  spanCells := List.foldl (fun a b => a + b.2) 0
  spanMarks := List.foldl (fun a b => a + (if b.1 = 0 then 0 else b.2)) 0

/-- `Tape.idr` L220-225. -/
def blockSkipLeft : ScanNSpan (List (Nat × Nat)) → Nat → Nat × ScanNSpan (List (Nat × Nat))
  | ([], c, r), cx => ScanNSpan.stepLeft blockSpan ([], c, r) cx
  | ((bc, bn) :: l, c, r), cx =>
    if bc ≠ c then ScanNSpan.stepLeft blockSpan ((bc, bn) :: l, c, r) cx
    else
      let (x, k) := blockSpan.pullNext l
      (1 + bn, (k, x, blockSpan.pushCurr cx (1 + bn) r))

/-- `BlockTape`, `Tape.idr` L212-229. -/
def blockTape : Tape (ScanNSpan (List (Nat × Nat))) := ScanNSpan.tape blockSpan blockSkipLeft

/-! ## Colours and counts in two lists -/

/-- `Tape.idr` L237-263. -/
def splitSpan : Spannable (List Nat × List Nat) where
  beq := fun (a, b) (a', b') => a == a' && b == b'
  blankSpan := ([], [])
  spanBlank := fun (colors, _) => colors.all (· == 0)
  spanCells := fun (_, counts) => counts.sum
  spanMarks := fun (colors, counts) =>
    (List.zip colors counts).foldl (fun a b => a + (if b.1 = 0 then 0 else b.2)) 0
  pullNext
    | (co :: colors, 1 :: counts) => (co, (colors, counts))
    | (co :: colors, (cn + 2) :: counts) => (co, (co :: colors, (cn + 1) :: counts))
    | _ => (0, ([], []))
  pushCurr
    | cx, nx, (co :: colors, cn :: counts) =>
      if cx = co then (co :: colors, (nx + cn) :: counts)
      else (cx :: co :: colors, nx :: cn :: counts)
    | cx, nx, _ => ([cx], [nx])

/-- `Tape.idr` L274-279. -/
def splitSkipLeft : ScanNSpan (List Nat × List Nat) → Nat → Nat × ScanNSpan (List Nat × List Nat)
  | ((bc :: lcol, bn :: lcnt), c, r), cx =>
    if bc ≠ c then ScanNSpan.stepLeft splitSpan ((bc :: lcol, bn :: lcnt), c, r) cx
    else
      let (x, k) := splitSpan.pullNext (lcol, lcnt)
      (1 + bn, (k, x, splitSpan.pushCurr cx (1 + bn) r))
  | t, cx => ScanNSpan.stepLeft splitSpan t cx

/-- `SplitTape`, `Tape.idr` L266-283. -/
def splitTape : Tape (ScanNSpan (List Nat × List Nat)) := ScanNSpan.tape splitSpan splitSkipLeft

/-! ## The decimal digits of a number -/

/-- `Tape.idr` L397-409. -/
def numSpan : Spannable Nat where
  beq := (· == ·)
  spanCells := fun n => (Nat.toDigits 10 n).length
  spanMarks := fun n => ((Nat.toDigits 10 n).filter (· ≠ '0')).length
  spanBlank
    | 0 => true
    | _ => false
  blankSpan := 0
  pushCurr := fun cx _ n => cx + 10 * n
  pullNext := fun n => (n % 10, n / 10)

/-- `Tape.idr` L420-429. -/
def numSkipLeft : ScanNSpan Nat → Nat → Nat × ScanNSpan Nat
  | (0, c, r), cx => ScanNSpan.stepLeft numSpan (0, c, r) cx
  | (l + 1, c, r), cx =>
    let cn := (l + 1) % 10
    let nl := (l + 1) / 10
    if c ≠ cn then ScanNSpan.stepLeft numSpan (l + 1, c, r) cx
    else
      let (steps, shifted) := numSkipLeft (nl, cn, numSpan.pushCurr cx 1 r) cx
      (steps + 1, shifted)
termination_by t => t.1
decreasing_by show (l + 1) / 10 < l + 1; omega

/-- `NumTape`, `Tape.idr` L412-433. -/
def numTape : Tape (ScanNSpan Nat) := ScanNSpan.tape numSpan numSkipLeft

/-! ## Vectors -/

/-- `Vect` of the Idris library. -/
inductive Vect (α : Type) : Nat → Type where
  | nil : Vect α 0
  | cons {k : Nat} : α → Vect α k → Vect α (k + 1)

/-- `toList` of the Idris library. -/
def Vect.toList {α : Type} : {k : Nat} → Vect α k → List α
  | _, .nil => []
  | _, .cons a v => a :: v.toList

/-- `length` of the Idris library, at a vector. -/
def Vect.length {α : Type} : {k : Nat} → Vect α k → Nat
  | _, .nil => 0
  | _, .cons _ v => v.length + 1

/-- `foldl` of the Idris library, at a vector. -/
def Vect.foldl {α β : Type} (f : β → α → β) (b : β) : {k : Nat} → Vect α k → β
  | _, .nil => b
  | _, .cons a v => v.foldl f (f b a)

/-- `Tape.idr` L437-438. -/
abbrev VectSpan (α : Type) := Σ k, Vect α k

/-- `Tape.idr` L454-457. -/
def allZ : {k : Nat} → Vect Nat k → Bool
  | _, .nil => true
  | _, .cons 0 v => allZ v
  | _, .cons _ _ => false

/-- `Tape.idr` L441-462. -/
def cellVectSpan : Spannable (VectSpan Nat) where
  beq := fun v w => v.2.toList == w.2.toList
  pullNext
    | ⟨_, .cons c cs⟩ => (c, ⟨_, cs⟩)
    | t => (0, t)
  pushCurr := fun cx _ t => ⟨_, .cons cx t.2⟩
  spanBlank := fun t => allZ t.2
  blankSpan := ⟨0, .nil⟩
  spanCells := fun t => t.2.length
  spanMarks := fun t => (t.2.toList.filter (· ≠ 0)).length

/-- `Tape.idr` L473-481. -/
def cellVectSkipLeft : ScanNSpan (VectSpan Nat) → Nat → Nat × ScanNSpan (VectSpan Nat)
  | (⟨0, v⟩, c, r), cx => ScanNSpan.stepLeft cellVectSpan (⟨0, v⟩, c, r) cx
  | (⟨k + 1, .cons cn l⟩, c, r), cx =>
    if cn ≠ c then ScanNSpan.stepLeft cellVectSpan (⟨k + 1, .cons cn l⟩, c, r) cx
    else
      let (steps, shifted) := cellVectSkipLeft (⟨k, l⟩, cn, ⟨_, .cons cx r.2⟩) cx
      (steps + 1, shifted)
termination_by t => t.1.1

/-- `CellVectTape`, `Tape.idr` L465-485. -/
def cellVectTape : Tape (ScanNSpan (VectSpan Nat)) := ScanNSpan.tape cellVectSpan cellVectSkipLeft

/-- `Tape.idr` L503-507. -/
def allZB : {k : Nat} → Vect (Nat × Nat) k → Bool
  | _, .nil => true
  | _, .cons (0, _) v => allZB v
  | _, .cons _ _ => false

/-- `Tape.idr` L488-512. -/
def blockVectSpan : Spannable (VectSpan (Nat × Nat)) where
  beq := fun v w => v.2.toList == w.2.toList
  pullNext
    | ⟨_, .cons (c, n) xs⟩ =>
      (c, match n with
          | k + 2 => ⟨_, .cons (c, k + 1) xs⟩
          | _ => ⟨_, xs⟩)
    | t => (0, t)
  pushCurr
    | c, k, ⟨_, .nil⟩ => ⟨_, .cons (c, k) .nil⟩
    | c, k, ⟨_, .cons (q, n) xs⟩ =>
      if c = q then ⟨_, .cons (q, k + n) xs⟩ else ⟨_, .cons (c, k) (.cons (q, n) xs)⟩
  spanBlank := fun t => allZB t.2
  blankSpan := ⟨0, .nil⟩
  spanCells := fun t => t.2.foldl (fun a b => a + b.2) 0
  spanMarks := fun t => t.2.foldl (fun a b => a + (if b.1 = 0 then 0 else b.2)) 0

/-- `Tape.idr` L522-527. -/
def blockVectSkipLeft :
    ScanNSpan (VectSpan (Nat × Nat)) → Nat → Nat × ScanNSpan (VectSpan (Nat × Nat))
  | (⟨0, v⟩, c, r), cx => ScanNSpan.stepLeft blockVectSpan (⟨0, v⟩, c, r) cx
  | (⟨j + 1, .cons (bc, bn) l⟩, c, r), cx =>
    if bc ≠ c then ScanNSpan.stepLeft blockVectSpan (⟨j + 1, .cons (bc, bn) l⟩, c, r) cx
    else
      let (x, k) := blockVectSpan.pullNext ⟨j, l⟩
      (1 + bn, (k, x, blockVectSpan.pushCurr cx (1 + bn) r))

/-- `BlockVectTape`, `Tape.idr` L514-531. -/
def blockVectTape : Tape (ScanNSpan (VectSpan (Nat × Nat))) :=
  ScanNSpan.tape blockVectSpan blockVectSkipLeft

/-! ## A list and a position -/

/-- `PtrTape`, `Tape.idr` L287-289. -/
abbrev PtrTape := Nat × List Nat

namespace PtrTape

/-- `Tape.idr` L312-324.  `strengthen` fails on the last position only. -/
def read : PtrTape → Nat × Option Shift
  | (0, 0 :: _) => (0, some .L)
  | (0, c :: _) => (c, none)
  | (pos + 1, 0 :: rest) => read (pos, rest)
  | (pos, tape) =>
    match tape.getD pos 0 with
    | 0 => if pos + 1 < tape.length then (0, none) else (0, some .R)
    | c => (c, none)
termination_by t => t.1

/-- `Tape.idr` L330-338. -/
def stepLeft : PtrTape → Nat → Nat × PtrTape
  | (pos, tape), cx =>
    let printed := tape.set pos cx
    (1, match pos with
        | 0 => (0, [0] ++ printed)
        | p + 1 => (p, printed))

/-- `Tape.idr` L340-350. -/
def stepRight : PtrTape → Nat → Nat × PtrTape
  | (pos, tape), cx =>
    let printed := tape.set pos cx
    (1, if pos + 1 < tape.length then (pos + 1, printed) else (pos + 1, printed ++ [0]))

/-- `Tape.idr` L356-366.  The position goes down, so it returns. -/
def skipLeft : PtrTape → Nat → Nat × PtrTape
  | (0, tape), cx => stepLeft (0, tape) cx
  | (pos + 1, tape), cx =>
    let stepped := (pos, tape.set (pos + 1) cx)
    if read stepped ≠ read (pos + 1, tape) then (1, stepped)
    else
      let (steps, skipped) := skipLeft stepped cx
      (steps + 1, skipped)
termination_by t => t.1

/-- `Tape.idr` L368-376, at most `fuel` calls. -/
def skipRight : Nat → PtrTape → Nat → Option (Nat × PtrTape)
  | 0, _, _ => none
  | fuel + 1, t, cx =>
    let oneStep := stepRight t cx
    if read oneStep.2 ≠ read t then some oneStep
    else (skipRight fuel oneStep.2 cx).map fun (steps, skipped) => (steps + 1, skipped)

end PtrTape

/-- `Tape.idr` L292-376. -/
def ptrTape (fuel : Nat) : Tape PtrTape where
  beq := fun (p1, t1) (p2, t2) => p1 == p2 && t1 == t2
  cells := fun t => t.2.length
  marks := fun t => (t.2.filter (· ≠ 0)).length
  blank := fun t => colorSpan.spanBlank t.2
  blankInit := (0, [0])
  read := PtrTape.read
  step
    | .L => PtrTape.stepLeft
    | .R => PtrTape.stepRight
  skip
    | .L => fun t cx => some (PtrTape.skipLeft t cx)
    | .R => PtrTape.skipRight fuel

/-! ## Machines -/

section

variable {τ : Type} (T : Tape τ)

/-- `Machine.idr` L34-36. -/
def checkEdge : Shift → Option Shift → Bool
  | sh, some dir => sh == dir
  | _, none => false

/-- `Machine.idr` L19-32: next state, tape, moves, and whether the machine spins out. -/
def exec (prog : Program) (state : Nat) (tape : τ) : Option (Nat × τ × Nat × Bool) :=
  let (scan, edge) := T.read tape
  let (cx, dir, nextState) := prog state scan
  if state == nextState && checkEdge dir edge then some (nextState, tape, 0, true)
  else
    (if state = nextState then T.skip dir tape cx else some (T.step dir tape cx)).map
      fun (stepped, shifted) => (nextState, shifted, stepped, false)

/-- `Machine.idr` L38-48.  The outer `none` is a call that does not return, the inner one `Nothing`. -/
def run : Nat → Program → Nat → τ → Nat → Option (Option (Nat × Nat × τ))
  | 0, _, _, _, _ => some none
  | cyclesLeft + 1, prog, state, tape, steps =>
    (exec T prog state tape).bind fun (nextState, nextTape, stepped, recurr) =>
      let nextSteps := stepped + steps
      if nextState == halt || T.blank nextTape || recurr then
        some (some (nextSteps, cyclesLeft, nextTape))
      else run cyclesLeft prog nextState nextTape nextSteps

/-- `Machine.idr` L50-54: steps, cycles, tape. -/
def runOnBlankTape (simLim : Nat) (prog : Program) : Option (Option (Nat × Nat × τ)) :=
  (run T simLim prog 1 T.blankInit 0).map fun r =>
    r.map fun (steps, cyclesLeft, tape) => (steps, simLim - cyclesLeft, tape)

/-- `Machine.idr` L56-74. -/
def runDouble : Nat → Program → Nat × τ × Nat → Nat × τ × Nat →
    Option (Option (Nat × Nat × τ))
  | 0, _, _, _ => some none
  | k + 1, prog, (st1, tp1, step), (st2, tp2, slow) =>
    (exec T prog st1 tp1).bind fun (nst1, ntp1, nstep, _) =>
      (if step % 2 = 0 then some (st2, tp2, 0, false) else exec T prog st2 tp2).bind
        fun (nst2, ntp2, nslow, _) =>
          if nst1 == nst2 && T.beq ntp1 ntp2 then some (some (slow, k, tp2))
          else runDouble k prog (nst1, ntp1, nstep + step) (nst2, ntp2, nslow + slow)

/-- `Machine.idr` L76-83. -/
def runDoubleOnBlank (simLim : Nat) (prog : Program) : Option (Option (Nat × Nat × τ)) :=
  (runDouble T simLim prog (1, T.blankInit, 0) (1, T.blankInit, 0)).map fun r =>
    r.map fun (steps, cycles, tape) => (steps, simLim - cycles, tape)

end

end BB.Idris
