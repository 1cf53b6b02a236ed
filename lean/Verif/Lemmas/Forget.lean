import Verif.Model.Prover
import Verif.Lemmas.EnumTape

/-! # Simulating on a tape with tags is simulating on the tape without -/

namespace BB

/-- Operations of one kind of tape are those of another, seen through `φ`. -/
structure SimTape.Maps {τ υ : Type} (T : SimTape τ) (U : SimTape υ) (φ : τ → υ) : Prop where
  get : ∀ t i, (T.get t i).map (fun x => (x.1, φ x.2)) = U.get (φ t) i
  set : ∀ t i v, (T.set t i v).map φ = U.set (φ t) i v
  scan : ∀ t, T.scan t = U.scan (φ t)
  signature : ∀ t, T.signature t = U.signature (φ t)
  step : ∀ t sh c k, φ (T.step t sh c k) = U.step (φ t) sh c k

section
variable {τ υ : Type} {T : SimTape τ} {U : SimTape υ} {φ : τ → υ}

theorem SimTape.Maps.countApps (h : T.Maps U φ) (rule : Rule) (t : τ)
    (apps : Option (Int × Index × Int)) :
    (countAppsFrom T.toIndexTape rule t apps).map (fun x => (x.1, φ x.2))
      = countAppsFrom U.toIndexTape rule (φ t) apps := by
  induction rule generalizing t apps with
  | nil => rfl
  | cons e rest ih =>
    obtain ⟨pos, op⟩ := e
    cases op with
    | mult _ _ => simp only [countAppsFrom]; exact ih _ _
    | plus diff =>
      simp only [countAppsFrom]
      split
      · exact ih _ _
      · have hg := h.get t pos
        revert hg
        cases T.get t pos with
        | error e => intro hg; rw [← hg]; rfl
        | ok x =>
          intro hg
          rw [← hg]
          obtain ⟨count, t'⟩ := x
          simp only [Except.map, bind, Except.bind]
          by_cases hc : -diff ≥ count
          · simp only [if_pos hc]
          · simp only [if_neg hc]
            cases pyDivmod count (-diff) with
            | error e => rfl
            | ok v => exact ih _ _

theorem SimTape.Maps.applyFrom (h : T.Maps U φ) (times : Int) (minPos : Index) (minRes : Int)
    (rule : Rule) (t : τ) :
    (applyRuleFrom T.toIndexTape times minPos minRes rule t).map φ
      = applyRuleFrom U.toIndexTape times minPos minRes rule (φ t) := by
  induction rule generalizing t with
  | nil => rfl
  | cons e rest ih =>
    obtain ⟨pos, op⟩ := e
    simp only [applyRuleFrom]
    have hg := h.get t pos
    revert hg
    cases T.get t pos with
    | error e => intro hg; rw [← hg]; rfl
    | ok x =>
      intro hg
      rw [← hg]
      obtain ⟨count, t'⟩ := x
      simp only [Except.map, bind, Except.bind]
      cases opResult times minPos minRes pos count op with
      | error e => rfl
      | ok v =>
        simp only
        have hs := h.set t' pos v
        revert hs
        cases T.set t' pos v with
        | error e => intro hs; rw [← hs]; rfl
        | ok t2 => intro hs; rw [← hs]; exact ih t2

theorem SimTape.Maps.apply (h : T.Maps U φ) (rule : Rule) (t : τ) :
    (applyRule T.toIndexTape rule t).map (fun x => (x.1, φ x.2))
      = applyRule U.toIndexTape rule (φ t) := by
  unfold applyRule BB.countApps
  have hc := h.countApps rule t none
  revert hc
  cases countAppsFrom T.toIndexTape rule t none with
  | error e => intro hc; rw [← hc]; rfl
  | ok x =>
    intro hc
    rw [← hc]
    obtain ⟨apps, t'⟩ := x
    simp only [Except.map, bind, Except.bind]
    cases apps with
    | none => rfl
    | some a =>
      obtain ⟨times, minPos, minRes⟩ := a
      simp only
      have ha := h.applyFrom times minPos minRes rule t'
      revert ha
      cases applyRuleFrom T.toIndexTape times minPos minRes rule t' with
      | error e => intro ha; rw [← ha]; rfl
      | ok t2 => intro ha; rw [← ha]; rfl

theorem SimTape.Maps.runSimulator (h : T.Maps U φ) (p : Prog) (pr : Prover) (n : Nat) (q : State)
    (t : τ) :
    (pr.runSimulator T p n q t).map (fun x => (x.1, φ x.2)) = pr.runSimulator U p n q (φ t) := by
  induction n generalizing q t with
  | zero => rfl
  | succ n ih =>
    unfold Prover.runSimulator
    have plain : ∀ t : τ, (match p (q, T.scan t) with
        | none => (.ok (none, t) : Except Err (Option State × τ))
        | some (color, shift, nextState) =>
          pr.runSimulator T p n nextState (T.step t shift color (q == nextState))).map
          (fun x : Option State × τ => (x.1, φ x.2)) =
        (match p (q, U.scan (φ t)) with
        | none => .ok (none, φ t)
        | some (color, shift, nextState) =>
          pr.runSimulator U p n nextState (U.step (φ t) shift color (q == nextState))) := by
      intro t
      rw [← h.scan]
      cases p (q, T.scan t) with
      | none => rfl
      | some i => simp only; rw [← h.step]; exact ih _ _
    simp only
    rw [← h.signature]
    cases pr.getRule q (T.signature t) with
    | none => exact plain t
    | some rule =>
      simp only
      have ha := h.apply rule t
      revert ha
      cases applyRule T.toIndexTape rule t with
      | error e => intro ha; rw [← ha]; rfl
      | ok x =>
        intro ha
        rw [← ha]
        obtain ⟨o, t'⟩ := x
        cases o with
        | none => exact plain t'
        | some times => exact ih _ _

end

theorem EnumTape.stepSpans_forget (pull push : List EBlock) (scan color : Color) (skip : Bool) :
    ∃ n, Py.stepSpans (pull.map EBlock.forget) (push.map EBlock.forget) scan color skip =
      ((stepSpans pull push scan color skip).1.map EBlock.forget,
        (stepSpans pull push scan color skip).2.1.map EBlock.forget,
        (stepSpans pull push scan color skip).2.2, n) := by
  refine ⟨(Py.stepSpans (pull.map EBlock.forget) (push.map EBlock.forget) scan color skip).2.2.2, ?_⟩
  unfold Py.stepSpans stepSpans
  cases pull with
  | nil =>
    cases push with
    | nil => by_cases h : (color != 0) = true <;> simp [h, EBlock.forget]
    | cons top rest => by_cases h : (top.color == color) = true <;> simp_all [EBlock.forget]
  | cons b pull =>
    by_cases hb : (skip && b.color == scan) = true
    · cases pull with
      | nil =>
        cases push with
        | nil => by_cases h : (color != 0) = true <;> simp [h, hb, EBlock.forget]
        | cons top rest => by_cases h : (top.color == color) = true <;> simp_all [EBlock.forget]
      | cons b2 pull =>
        by_cases h1 : (b2.count != 1) = true <;>
        cases push with
        | nil => by_cases h : (color != 0) = true <;> simp_all [EBlock.forget]
        | cons top rest => by_cases h : (top.color == color) = true <;> simp_all [EBlock.forget]
    · have hb' : skip = false ∨ b.color ≠ scan := by
        cases skip
        · exact .inl rfl
        · simpa using hb
      clear hb
      rcases hb' with hb' | hb' <;>
      by_cases h1 : (b.count != 1) = true <;>
      cases push with
      | nil => by_cases h : (color != 0) = true <;> simp_all [EBlock.forget]
      | cons top rest => by_cases h : (top.color == color) = true <;> simp_all [EBlock.forget]

theorem EnumTape.check_tape (e : EnumTape) (sh : Bool) (c : Color) (k : Bool) :
    (e.check sh c k).tape = e.tape := by
  unfold check
  simp only
  repeat' split
  all_goals simp [checkOffsets_tape, touchEdge_tape]

theorem EnumTape.maps : EnumTape.simTape.Maps Tape.simTape (fun e => e.tape.forget) where
  get := by
    intro e i
    simp only [EnumTape.simTape, EnumTape.getCount, Tape.simTape, Tape.indexTape, Tape.getCount]
    obtain ⟨side, k⟩ := i
    cases side with
    | false =>
      simp only [Bool.false_eq_true, if_false, ETape.forget, List.getElem?_map]
      cases e.tape.lspan[k]? with
      | none => rfl
      | some b => simp [Except.map, bind, Except.bind, EBlock.forget, checkOffsets_tape]
    | true =>
      simp only [if_true, ETape.forget, List.getElem?_map]
      cases e.tape.rspan[k]? with
      | none => rfl
      | some b => simp [Except.map, bind, Except.bind, EBlock.forget, checkOffsets_tape]
  set := by
    intro e i v
    simp only [EnumTape.simTape, EnumTape.setCount, Tape.simTape, Tape.indexTape, Tape.setCount]
    obtain ⟨side, k⟩ := i
    by_cases hv : v < 0
    · simp only [if_pos hv]; rfl
    · simp only [if_neg hv]
      cases side with
      | false =>
        simp only [Bool.false_eq_true, if_false, ETape.forget, List.getElem?_map]
        cases e.tape.lspan[k]? with
        | none => rfl
        | some b => simp [Except.map, EBlock.forget, List.map_set]
      | true =>
        simp only [if_true, ETape.forget, List.getElem?_map]
        cases e.tape.rspan[k]? with
        | none => rfl
        | some b => simp [Except.map, EBlock.forget, List.map_set]
  scan := fun _ => rfl
  signature := fun _ => rfl
  step := by
    intro e sh c k
    simp only [EnumTape.simTape, EnumTape.step, Tape.simTape, Py.step, check_tape]
    cases sh with
    | false =>
      obtain ⟨n, hn⟩ := stepSpans_forget e.tape.lspan e.tape.rspan e.tape.scan c k
      simp only [Bool.false_eq_true, if_false, ETape.forget, hn]
    | true =>
      obtain ⟨n, hn⟩ := stepSpans_forget e.tape.rspan e.tape.lspan e.tape.scan c k
      simp only [if_true, ETape.forget, hn]

theorem Tape.toEnum_forget (t : Tape) : t.toEnum.tape.forget = t := by
  have : ∀ side s, (tagSpan side s).map EBlock.forget = s := by
    intro side s
    apply List.ext_getElem <;> simp [tagSpan, EBlock.forget]
  simp [Tape.toEnum, ETape.forget, this]

/-- The simulation for the minimal signature is the first one, on the same tape with tags. -/
theorem runSimulator_toEnum (p : Prog) (pr : Prover) (n : Nat) (q : State) (t : Tape) :
    (pr.runSimulator EnumTape.simTape p n q t.toEnum).map (fun x => (x.1, x.2.tape.forget)) =
      pr.runSimulator Tape.simTape p n q t := by
  rw [EnumTape.maps.runSimulator, Tape.toEnum_forget]

end BB
