import Verif.Model.Table
import Verif.Model.Graph

/-!
# Model of the segment analysis

`/repo/src/segment.rs`, and the wrapper in `/repo/src/lib.rs` L79-93.  A `Vec` is a list, with the
end that is pushed to first; a set of tapes (positions) per state is a list of pairs.  The two loops
are given fuel: `none` is "out of fuel", or a panic (a missing key or an `unwrap` of nothing).
-/

namespace BB

/-- `/repo/src/segment.rs` L394-399 `Tape`. -/
structure SegTape where
  scan : Option Color
  lspan : List Color
  rspan : List Color
deriving DecidableEq, Repr

namespace SegTape

/-- `/repo/src/segment.rs` L402-421 `Tape::init`. -/
def init (seg pos : Nat) : SegTape :=
  let cells := seg - 2
  if pos = 0 then ⟨none, [], List.replicate cells 0⟩
  else if pos = seg - 1 then ⟨none, List.replicate cells 0, []⟩
  else ⟨some 0, List.replicate (pos - 1) 0, List.replicate (cells - pos) 0⟩

/-- `/repo/src/segment.rs` L363-365 `Span::blank`. -/
def spanBlank (s : List Color) : Bool := s.all (· == 0)

/-- `/repo/src/segment.rs` L423-427 `blank`. -/
def blank (t : SegTape) : Bool :=
  (t.scan == some 0 || t.scan == none) && spanBlank t.lspan && spanBlank t.rspan

/-- `/repo/src/segment.rs` L429-432 `at_edge`. -/
def atEdge (t : SegTape) (edge : Bool) : Bool :=
  t.scan == some 0 && spanBlank (if edge then t.rspan else t.lspan)

/-- `/repo/src/segment.rs` L434-438 `pos`. -/
def pos (t : SegTape) : Nat :=
  t.lspan.length + (t.scan.isSome || decide (0 < t.lspan.length)).toNat

/-- `/repo/src/segment.rs` L444-448 `side`. -/
def side (t : SegTape) : Bool := t.rspan.isEmpty

/-- `/repo/src/segment.rs` L450-460 `step_in`; nothing to take is an assertion failure, which the
model shows as no scanned cell. -/
def stepIn (t : SegTape) (shift : Bool) : SegTape :=
  if shift then ⟨t.rspan.head?, t.lspan, t.rspan.tail⟩ else ⟨t.lspan.head?, t.lspan.tail, t.rspan⟩

/-- `/repo/src/segment.rs` L462-472 `step`. -/
def step (t : SegTape) (shift : Bool) (print : Color) : SegTape :=
  if shift then ⟨t.rspan.head?, print :: t.lspan, t.rspan.tail⟩
  else ⟨t.lspan.head?, t.lspan.tail, print :: t.rspan⟩

end SegTape

/-- `/repo/src/segment.rs` L18-24 `SearchResult`. -/
inductive SearchResult
  | limit | halted | repeats | spinout | reached
deriving DecidableEq, Repr

/-- `/repo/src/segment.rs` L261-266 `Config`. -/
structure SegConfig where
  state : State
  tape : SegTape
  init : Bool
deriving DecidableEq, Repr

namespace SegConfig

/-- `/repo/src/segment.rs` L278-280 `slot`. -/
def slot (c : SegConfig) : Option Slot := c.tape.scan.map fun scan => (c.state, scan)

/-- `/repo/src/segment.rs` L282-285 `step`. -/
def step (c : SegConfig) (i : Instr) : SegConfig :=
  { c with state := i.2.2, tape := c.tape.step i.2.1 i.1 }

/-- `/repo/src/segment.rs` L287-289 `spinout`. -/
def spinout (c : SegConfig) (i : Instr) : Bool := c.state == i.2.2 && c.tape.atEdge i.2.1

/-- The loop of `/repo/src/segment.rs` L302-347 `run_to_edge` (`self.tape.scan?` in L297 is the
first test of the loop); returns the final `self`, the positions of blank tapes seen, and the
result. -/
def runToEdge (p : Prog) : Nat → SegConfig → SegConfig → Bool → List (State × Nat) →
    Option (SegConfig × List (State × Nat) × Option SearchResult)
  | 0, _, _, _, _ => none
  | fuel + 1, self, copy, step, blanks =>
    match self.slot with
    | none => some (self, blanks, none)
    | some slot =>
      match p slot with
      | none => some (self, blanks, some .halted)
      | some instr =>
        if self.init && self.spinout instr then some (self, blanks, some .spinout)
        else
          let next := self.step instr
          let isBlank := instr.1 == 0 && next.tape.blank
          if isBlank && instr.2.2 == 0 && self.init then some (next, blanks, some .repeats)
          else
            let next := { next with init := self.init || (isBlank && instr.2.2 == 0) }
            let blanks := if isBlank then (instr.2.2, next.tape.pos) :: blanks else blanks
            if !step then runToEdge p fuel next copy true blanks
            else
              match copy.slot.bind p with
              | none => none
              | some instr =>
                let copy := copy.step instr
                if copy.state == next.state && copy.tape == next.tape then
                  some (next, blanks, some .repeats)
                else runToEdge p fuel next copy false blanks

end SegConfig

/-- `/repo/src/segment.rs` L121-128 `Configs`. -/
structure SegConfigs where
  seg : Nat
  todo : List SegConfig
  seen : List (State × SegTape)
  blanks : List (State × Nat)
  reached : List (State × Nat)

namespace SegConfigs

/-- `/repo/src/segment.rs` L148-151 `check_depth`. -/
def checkDepth (c : SegConfigs) : Bool :=
  decide (c.todo.length > 4000) ||
    c.seen.any fun e => decide ((c.seen.filter (·.1 == e.1)).length > 4000)

/-- `/repo/src/segment.rs` L153-161 `next_init`. -/
def nextInit (c : SegConfigs) : Option (SegConfig × SegConfigs) :=
  ((List.range c.seg).find? fun pos => !c.blanks.contains (0, pos)).map fun pos =>
    (⟨0, .init c.seg pos, true⟩, { c with blanks := (0, pos) :: c.blanks })

/-- `/repo/src/segment.rs` L253-255 `next`. -/
def next (c : SegConfigs) : Option (SegConfig × SegConfigs) :=
  match c.nextInit with
  | some r => some r
  | none =>
    match c.todo with
    | [] => none
    | config :: todo => some (config, { c with todo := todo })

/-- `/repo/src/segment.rs` L163-191 `check_seen`, and the push that follows it where it is used
(L203-219, L221-247). -/
def visit (c : SegConfigs) (state : State) (tape : SegTape) : SegConfigs :=
  if tape.blank then
    if c.blanks.contains (state, tape.pos) then c
    else { c with blanks := (state, tape.pos) :: c.blanks,
                  todo := ⟨state, tape, state == 0⟩ :: c.todo }
  else
    if c.seen.contains (state, tape) then c
    else { c with seen := (state, tape) :: c.seen, todo := ⟨state, tape, false⟩ :: c.todo }

/-- `/repo/src/segment.rs` L193-201 `check_reached`, for the states in `halts`. -/
def checkReached (c : SegConfigs) (halts : List State) (state : State) (tape : SegTape) :
    SegConfigs × Bool :=
  if halts.contains state then
    let reached := if c.reached.contains (state, tape.pos) then c.reached
      else (state, tape.pos) :: c.reached
    ({ c with reached := reached }, (reached.filter (·.1 == state)).length == c.seg)
  else (c, false)

end SegConfigs

/-- `/repo/src/segment.rs` L505-509 `AnalyzedProg`: the states with an undefined slot, and for each
state the other states it leads to, and the states it leads to going left and going right. -/
structure Analyzed where
  halts : List State
  branches : List (State × (List State × (Bool → List State)))

/-- `/repo/src/segment.rs` L512-557 `AnalyzedProg::new`. -/
def Table.analyze (t : Table) (states colors : Nat) : Analyzed where
  halts := (List.range states).filter fun q =>
    (List.range colors).any fun c => (t.get? (q, c)).isNone
  branches := (List.range states).map fun q =>
    let instrs := (List.range colors).filterMap fun c => t.get? (q, c)
    (q,
      (((instrs.map (·.2.2)).filter (· != q)).foldr insertUniq [],
       fun shift => ((instrs.filter (·.2.1 == shift)).map (·.2.2)).foldr insertUniq []))

/-- The loop of `/repo/src/segment.rs` L55-115 `all_segments_reached`; the second `Option` is the
one returned. -/
def segLoop (p : Prog) (a : Analyzed) (inner : Nat) :
    Nat → SegConfigs → Option (Option SearchResult)
  | 0, _ => none
  | fuel + 1, configs =>
    match configs.next with
    | none => some none
    | some (config, configs) =>
      match SegConfig.runToEdge p inner config config false configs.blanks with
      | none => none
      | some (config, blanks, result) =>
        let configs := { configs with blanks := blanks }
        match result with
        | some .halted =>
          if config.init then some (some .halted)
          else
            let (configs, done) := configs.checkReached a.halts config.state config.tape
            if done then some (some .reached) else segLoop p a inner fuel configs
        | some .repeats =>
          if config.init then some (some .repeats) else segLoop p a inner fuel configs
        | some .spinout => some (some .spinout)
        | some _ => segLoop p a inner fuel configs
        | none =>
          let (configs, done) := configs.checkReached a.halts config.state config.tape
          if done then some (some .reached)
          else
            match a.branches.lookup config.state with
            | none => none
            | some (diffs, dirs) =>
              let shift := !config.tape.side
              let configs := (dirs shift).foldl
                (fun c state => c.visit state (config.tape.stepIn shift)) configs
              let configs := diffs.foldl (fun c state => c.visit state config.tape) configs
              if configs.checkDepth then some (some .limit) else segLoop p a inner fuel configs

/-- `/repo/src/segment.rs` L55-115 `all_segments_reached`. -/
def allSegmentsReached (p : Prog) (a : Analyzed) (fuel seg : Nat) : Option (Option SearchResult) :=
  segLoop p a fuel fuel ⟨seg, [], [], [], []⟩

/-- The loop of `/repo/src/segment.rs` L29-51, from `seg` on, `n` times. -/
def segmentLoop (p : Prog) (a : Analyzed) (fuel : Nat) : Nat → Nat → Option (Option Nat)
  | _, 0 => some none
  | seg, n + 1 =>
    match allSegmentsReached p a fuel (2 + seg) with
    | none => none
    | some none => some (some seg)
    | some (some .reached) => segmentLoop p a fuel (seg + 1) n
    | some (some .limit) | some (some .halted) => some none
    | some (some .spinout) | some (some .repeats) => some (some seg)

/-- `/repo/src/segment.rs` L29-51 `segment_cant_halt`; `segs < 2` is an assertion failure. -/
def Table.segmentCantHalt (t : Table) (fuel states colors segs : Nat) : Option (Option Nat) :=
  if segs < 2 then none else segmentLoop t.get? (t.analyze states colors) fuel 2 (segs - 1)

/-- `/repo/src/lib.rs` L79-93 `py_segment_cant_halt`, on a parsed program. -/
def Table.pySegmentCantHalt (t : Table) (fuel segs : Nat) : Option (Option Nat) :=
  let m := t.foldl (fun (m : Nat × Nat) e => (max m.1 e.1.1, max m.2 e.1.2)) (0, 0)
  t.segmentCantHalt fuel (1 + m.1) (1 + m.2) segs

end BB
