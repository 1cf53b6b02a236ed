/-
Tapes with symbolic counts: what a step does to the tape they denote.
-/
import Verif.Lemmas.SymRules
import Verif.Lemmas.Asked
import Verif.Spec.SymRun

namespace BB
namespace Sym

/-- How counts relate to numbers of cells so that the arithmetic of `Tape.step` keeps the relation. -/
structure CountRel (o : Ops) (D : Num → Nat → Prop) : Prop where
  ofNat : ∀ k : Nat, D (.int k) k
  int : ∀ (m : Int) (k : Nat), D (.int m) k → m = k
  add : ∀ a b x y, D a x → D b y → Ret (o.add a b) (fun c => D c (x + y))
  dec : ∀ a x, D a x → 1 ≤ x → Ret (o.sub a (.int 1)) (fun c => D c (x - 1))

theorem countRel_ops (flog : Int → Int → Nat) (n : Nat) : CountRel (ops flog true n) CountIs := by
  have S := sound_ops flog true n
  refine ⟨fun k => ⟨trivial, by simp [Num.val]⟩, fun m k h => ?_, fun a b x y ha hb => ?_,
    fun a x ha hx => ?_⟩
  · have := h.2
    rw [val_int] at this
    exact_mod_cast this
  · refine (S.add (K_true.mpr ha.1) (K_true.mpr hb.1)).mono fun c hc => ⟨K_true.mp hc.1, ?_⟩
    rw [hc.2, ha.2, hb.2]
    push_cast
    rfl
  · refine (S.sub (K_true.mpr ha.1) (K_int 1)).mono fun c hc => ⟨K_true.mp hc.1, ?_⟩
    rw [hc.2, ha.2, val_int]
    push_cast [Nat.cast_sub hx]
    ring

/-- Integer counts. -/
theorem countRel_int (flog : Int → Int → Nat) (strict : Bool) (n : Nat) :
    CountRel (ops flog strict (n + 1)) (fun a k => a = .int k) := by
  refine ⟨fun k => rfl, fun m k h => by cases h; rfl, ?_, ?_⟩
  · rintro a b x y rfl rfl c hc
    cases hc
    push_cast
    rfl
  · rintro a x rfl hx c hc
    cases hc
    congr 1
    omega

section step
variable {o : Ops} {D : Num → Nat → Prop}

/-- Blocks that may be there. -/
def OptRel (D : Num → Nat → Prop) : Option SBlock → Option Block → Prop
  | none, none => True
  | some b, some B => D b.count B.count
  | _, _ => False

/-- What `Py.stepSpans` does first. -/
def pyTakeSkip (pull : List Block) (scan : Color) (skip : Bool) : Option Block × List Block :=
  match pull with
  | [] => (none, [])
  | b :: rest => if skip && b.color == scan then (some b, rest) else (none, b :: rest)

theorem rel_takeSkip {pull : List SBlock} {P : List Block}
    (h : List.Forall₂ (SBlock.Rel D) pull P) (scan : Color) (skip : Bool) :
    OptRel D (STape.takeSkip pull scan skip).1 (pyTakeSkip P scan skip).1 ∧
    List.Forall₂ (SBlock.Rel D) (STape.takeSkip pull scan skip).2 (pyTakeSkip P scan skip).2 := by
  cases h with
  | nil => exact ⟨trivial, .nil⟩
  | @cons b B s S hb hs =>
    simp only [STape.takeSkip, pyTakeSkip]
    rw [hb.1]
    cases skip && B.color == scan
    · exact ⟨trivial, .cons hb hs⟩
    · exact ⟨hb.2, hs⟩

/-- The other pieces of `Py.stepSpans`. -/
def pySteppedOf : Option Block → Nat
  | none => 1
  | some b => 1 + b.count

def pyPullOne (pull : List Block) (pb : Option Block) : Color × List Block × Option Block :=
  match pull with
  | [] => (0, [], pb)
  | b :: rest =>
    if b.count != 1 then (b.color, { b with count := b.count - 1 } :: rest, pb)
    else (b.color, rest, match pb with | none => some { b with count := 0 } | some b => some b)

def pyFresh (color : Color) : Option Block → Block
  | none => ⟨color, 1⟩
  | some b => ⟨color, b.count + 1⟩

def pyPushOn (push : List Block) (color : Color) (k : Nat) (pb : Option Block) : List Block :=
  match push with
  | top :: rest =>
    if top.color == color then { top with count := top.count + k } :: rest
    else pyFresh color pb :: top :: rest
  | [] => if color != 0 then [pyFresh color pb] else []

theorem py_stepSpans_eq (pull push : List Block) (scan color : Color) (skip : Bool) :
    Py.stepSpans pull push scan color skip =
      (let ts := pyTakeSkip pull scan skip
      let po := pyPullOne ts.2 ts.1
      (po.2.1, pyPushOn push color (pySteppedOf ts.1) po.2.2, po.1, pySteppedOf ts.1)) := rfl

theorem ret_steppedOf (R : CountRel o D) {pb : Option SBlock} {PB : Option Block} (h : OptRel D pb PB) :
    Ret (STape.steppedOf o pb) (fun c => D c (pySteppedOf PB)) := by
  cases pb <;> cases PB <;> simp only [OptRel] at h
  · exact Ret.ok (R.ofNat 1)
  · exact R.add _ _ _ _ (R.ofNat 1) h

theorem ret_pullOne (R : CountRel o D) {pull : List SBlock} {P : List Block}
    (h : List.Forall₂ (SBlock.Rel D) pull P) (hpos : ∀ b ∈ P, 1 ≤ b.count)
    (hone : ∀ b ∈ pull, D b.count 1 → b.count = .int 1)
    {pb : Option SBlock} {PB : Option Block} (hb : OptRel D pb PB) :
    Ret (STape.pullOne o pull pb) (fun r =>
      r.1 = (pyPullOne P PB).1 ∧ List.Forall₂ (SBlock.Rel D) r.2.1 (pyPullOne P PB).2.1 ∧
      OptRel D r.2.2 (pyPullOne P PB).2.2) := by
  cases h with
  | nil => exact Ret.ok ⟨rfl, .nil, hb⟩
  | @cons b B s S hbB hs =>
    simp only [STape.pullOne, pyPullOne]
    have h1 : b.count = .int 1 ↔ B.count = 1 := by
      constructor
      · intro e
        have := hbB.2
        rw [e] at this
        have := R.int 1 _ this
        omega
      · intro e
        have := hbB.2
        rw [e] at this
        exact hone b (by simp) this
    by_cases hc : B.count = 1
    · have hb1 : ¬ (b.count ≠ .int 1) := not_not.mpr (h1.mpr hc)
      have hB1 : ¬ ((B.count != 1) = true) := by simp [hc]
      rw [if_neg hb1, if_neg hB1]
      cases pb with
      | none =>
        cases PB with
        | none => exact Ret.ok ⟨hbB.1, hs, R.ofNat 0⟩
        | some _ => cases hb
      | some x =>
        cases PB with
        | none => cases hb
        | some y => exact Ret.ok ⟨hbB.1, hs, hb⟩
    · have hb1 : b.count ≠ .int 1 := fun e => hc (h1.mp e)
      have hB1 : (B.count != 1) = true := by simp [hc]
      rw [if_pos hb1, if_pos hB1]
      refine Ret.bind (R.dec _ _ hbB.2 (hpos B (by simp))) fun c hc => Ret.pure ?_
      exact ⟨hbB.1, .cons ⟨hbB.1, hc⟩ hs, hb⟩

theorem ret_freshBlock (R : CountRel o D) (color : Color) {pb : Option SBlock} {PB : Option Block}
    (hb : OptRel D pb PB) :
    Ret (STape.freshBlock o color pb) (fun b => SBlock.Rel D b (pyFresh color PB)) := by
  cases pb <;> cases PB <;> simp only [OptRel] at hb
  · exact Ret.ok ⟨rfl, R.ofNat 1⟩
  · exact Ret.bind (R.add _ _ _ _ hb (R.ofNat 1)) fun c hc => Ret.pure ⟨rfl, hc⟩

theorem ret_pushOn (R : CountRel o D) {push : List SBlock} {Q : List Block}
    (h : List.Forall₂ (SBlock.Rel D) push Q) (color : Color) {st : Num} {k : Nat} (hst : D st k)
    {pb : Option SBlock} {PB : Option Block} (hb : OptRel D pb PB) :
    Ret (STape.pushOn o push color st pb) (fun s => List.Forall₂ (SBlock.Rel D) s
      (pyPushOn Q color k PB)) := by
  cases h with
  | nil =>
    simp only [STape.pushOn, pyPushOn]
    split
    · exact Ret.bind (ret_freshBlock R color hb) fun b hb => Ret.pure (.cons hb .nil)
    · exact Ret.ok .nil
  | @cons b B s S hbB hs =>
    simp only [STape.pushOn, pyPushOn, hbB.1]
    split
    · exact Ret.bind (R.add _ _ _ _ hbB.2 hst) fun c hc => Ret.pure (.cons ⟨rfl, hc⟩ hs)
    · exact Ret.bind (ret_freshBlock R color hb) fun b hb => Ret.pure (.cons hb (.cons hbB hs))

theorem ret_stepSpans (R : CountRel o D) {pull push : List SBlock} {P Q : List Block}
    (hp : List.Forall₂ (SBlock.Rel D) pull P) (hq : List.Forall₂ (SBlock.Rel D) push Q)
    (hpos : ∀ b ∈ P, 1 ≤ b.count) (hone : ∀ b ∈ pull, D b.count 1 → b.count = .int 1)
    (scan color : Color) (skip : Bool) :
    Ret (STape.stepSpans o pull push scan color skip) (fun r =>
      List.Forall₂ (SBlock.Rel D) r.1 (Py.stepSpans P Q scan color skip).1 ∧
      List.Forall₂ (SBlock.Rel D) r.2.1 (Py.stepSpans P Q scan color skip).2.1 ∧
      r.2.2.1 = (Py.stepSpans P Q scan color skip).2.2.1 ∧
      D r.2.2.2 (Py.stepSpans P Q scan color skip).2.2.2) := by
  rw [py_stepSpans_eq]
  have hrel := rel_takeSkip hp scan skip
  have hsub : ∀ b ∈ (STape.takeSkip pull scan skip).2, b ∈ pull := by
    intro b hb
    cases pull with
    | nil => exact hb
    | cons c s =>
      simp only [STape.takeSkip] at hb
      split at hb
      · exact List.mem_cons_of_mem _ hb
      · exact hb
  have hsub' : ∀ b ∈ (pyTakeSkip P scan skip).2, b ∈ P := by
    intro b hb
    cases P with
    | nil => exact hb
    | cons c s =>
      simp only [pyTakeSkip] at hb
      split at hb
      · exact List.mem_cons_of_mem _ hb
      · exact hb
  unfold STape.stepSpans
  generalize STape.takeSkip pull scan skip = ts at hrel hsub
  generalize pyTakeSkip P scan skip = TS at hrel hsub'
  obtain ⟨pb, s⟩ := ts
  obtain ⟨PB, S⟩ := TS
  refine Ret.bind (ret_steppedOf R hrel.1) fun st hst => ?_
  refine Ret.bind (ret_pullOne R hrel.2 (fun b hb => hpos b (hsub' b hb))
    (fun b hb => hone b (hsub b hb)) hrel.1) fun r hr => ?_
  obtain ⟨h1, h2, h3⟩ := hr
  refine Ret.bind (ret_pushOn R hq color hst h3) fun s' hs' => Ret.pure ?_
  exact ⟨h2, hs', h1, hst⟩

/-- A step on a related tape is the step. -/
theorem ret_step (R : CountRel o D) {t : STape} {T : Tape} (h : t.Rel D T)
    (hpos : T.Positive) (hone : ∀ b ∈ t.lspan ++ t.rspan, D b.count 1 → b.count = .int 1)
    (shift : Bool) (color : Color) (skip : Bool) :
    Ret (t.step o shift color skip) (fun r => r.1.Rel D (Py.step T shift color skip).1 ∧
      D r.2 (Py.step T shift color skip).2) := by
  unfold STape.step Py.step
  rw [h.scan]
  cases shift with
  | true =>
    refine Ret.bind (ret_stepSpans R h.r h.l (fun b hb => hpos b (by simp [hb]))
      (fun b hb => hone b (by simp [hb])) _ color skip) fun r hr => Ret.pure ?_
    exact ⟨⟨hr.2.2.1, hr.2.1, hr.1⟩, hr.2.2.2⟩
  | false =>
    refine Ret.bind (ret_stepSpans R h.l h.r (fun b hb => hpos b (by simp [hb]))
      (fun b hb => hone b (by simp [hb])) _ color skip) fun r hr => Ret.pure ?_
    exact ⟨⟨hr.2.2.1, hr.1, hr.2.1⟩, hr.2.2.2⟩

end step

section strict
variable {o o' : Ops}

theorem ref_step (H : RefOps .strict o o') (t : STape) (shift : Bool) (color : Color) (skip : Bool) :
    Ref .strict (t.step o shift color skip) (t.step o' shift color skip) := by
  have hs : ∀ pull push, Ref .strict (STape.stepSpans o pull push t.scan color skip)
      (STape.stepSpans o' pull push t.scan color skip) := by
    intro pull push
    unfold STape.stepSpans
    refine Ref.bind ?_ fun st => Ref.bind ?_ fun r => Ref.bind ?_ fun s => Ref.rfl
    · unfold STape.steppedOf
      split
      · exact Ref.rfl
      · exact H.add _ _
    · unfold STape.pullOne
      split
      · exact Ref.rfl
      · split
        · exact Ref.bind (H.sub _ _) fun _ => Ref.rfl
        · exact Ref.rfl
    · have hf : ∀ pb, Ref .strict (STape.freshBlock o color pb) (STape.freshBlock o' color pb) := by
        intro pb
        unfold STape.freshBlock
        split
        · exact Ref.rfl
        · exact Ref.bind (H.add _ _) fun _ => Ref.rfl
      unfold STape.pushOn
      split
      · split
        · exact Ref.bind (H.add _ _) fun _ => Ref.rfl
        · exact Ref.bind (hf _) fun _ => Ref.rfl
      · split
        · exact Ref.bind (hf _) fun _ => Ref.rfl
        · exact Ref.rfl
  unfold STape.step
  split
  · exact Ref.bind (hs _ _) fun _ => Ref.rfl
  · exact Ref.bind (hs _ _) fun _ => Ref.rfl

end strict

/-! ### Runs -/

theorem countAppsOn_tape (strict : Bool) (o : Ops) (rule : SRule) (t : STape)
    (apps : Option (Num × Index × Int)) :
    RRet (countAppsOn strict o (STape.simTape o) rule t apps) (fun r => r.2 = t) := by
  induction rule generalizing apps with
  | nil => exact RRet.ok rfl
  | cons e rest ih =>
    obtain ⟨pos, op⟩ := e
    cases op with
    | plus d =>
      unfold countAppsOn
      split
      · exact ih _
      · refine RRet.bind (Q := fun r => r.2 = t) ?_ fun r hr => ?_
        · exact RRet.bind RRet.any fun c _ => RRet.ok rfl
        · obtain ⟨c, t'⟩ := r
          cases hr
          dsimp only
          split
          · exact RRet.ok rfl
          · refine RRet.bind RRet.any fun ⟨times, res⟩ _ => ?_
            dsimp only
            split
            · exact ih _
            · refine RRet.bind RRet.any fun less _ => ?_
              split
              · exact ih _
              · exact ih _
    | mult m a => exact ih _
    | seq s => exact ih _

theorem applyRuleOn_none {strict : Bool} {o : Ops} {rule : SRule} {t t' : STape}
    (h : applyRuleOn strict o (STape.simTape o) rule t = .ok (none, t')) : t' = t := by
  have := countAppsOn_tape strict o rule t none
  unfold applyRuleOn at h
  cases hc : countAppsOn strict o (STape.simTape o) rule t none with
  | error e => rw [hc] at h; cases h
  | ok x =>
    obtain ⟨apps, u⟩ := x
    rw [hc] at h
    have hu : u = t := this _ hc
    rw [hu] at h
    cases apps with
    | none => cases h; rfl
    | some a =>
      exfalso
      obtain ⟨a, b, c⟩ := a
      change (applyRuleFromOn strict o (STape.simTape o) a b c rule t >>=
        fun t => pure (some a, t)) = _ at h
      cases hf : applyRuleFromOn strict o (STape.simTape o) a b c rule t with
      | error e => rw [hf] at h; cases h
      | ok v => rw [hf] at h; cases h

/-- The cycles of a run at which the prover is asked, with what it is asked about: the loop of
`srunLoop` again, keeping the states instead of the report. -/
def sasked {π : Type} (strict : Bool) (o : Ops) (try_ : STryRule π) (comp : Prog) :
    Nat → Nat → SRState π → List (Nat × SRState π)
  | 0, _, _ => []
  | fuel + 1, cycle, s =>
    (cycle, s) ::
    (let prover := (try_ s.prover cycle s.state s.tape).1
    let go (s : SRState π) : List (Nat × SRState π) :=
      match splainStep o comp s with
      | .error _ => []
      | .ok s' =>
        let color := match comp (s.state, s.tape.scan) with | some (c, _, _) => c | none => 0
        if (sblankCheck color s').2 then []
        else sasked strict o try_ comp fuel (cycle + 1) (sblankCheck color s').1
    match (try_ s.prover cycle s.state s.tape).2 with
    | .error (some (.suspectedRule _ _)) => go { s with prover := prover }
    | .error _ => []
    | .ok none => go { s with prover := prover }
    | .ok (some rule) =>
      match applyRuleOn strict o (STape.simTape o) rule s.tape with
      | .error _ => []
      | .ok (some times, tape) =>
        match o.add s.rulapp times with
        | .error _ => []
        | .ok rulapp =>
          sasked strict o try_ comp fuel (cycle + 1)
            { s with prover := prover, tape := tape, step := -1, rulapp := rulapp }
      | .ok (none, tape) => go { s with prover := prover, tape := tape })

/-- The locals of the run with the tape that is denoted. -/
def SRState.on {π : Type} (s : SRState π) (T : Tape) : RState Unit :=
  ⟨(), T, s.blanks, s.step, s.state, 0⟩

/-- The locals of the run describe the machine after `n` moves. -/
structure SInv {π : Type} (D : Num → Nat → Prop) (p : Prog) (s : SRState π) (n : Nat) (T : Tape) :
    Prop where
  rel : s.tape.Rel D T
  inv : RInv p (s.on T) n

/-- Steps from here are right. -/
def StepOk {π : Type} (D : Num → Nat → Prop) (o : Ops) (p : Prog) (s : SRState π) (T : Tape) : Prop :=
  ∀ c sh q', p (s.state, s.tape.scan) = some (c, sh, q') →
    Ret (s.tape.step o sh c (s.state == q')) (fun r =>
      r.1.Rel D (Py.step T sh c (s.state == q')).1 ∧ D r.2 (Py.step T sh c (s.state == q')).2)

theorem STape.Rel.atEdge {D : Num → Nat → Prop} {t : STape} {T : Tape} (h : t.Rel D T) (e : Bool) :
    t.atEdge e = T.atEdge e := by
  obtain ⟨tl, ts, tr⟩ := t
  obtain ⟨Tl, Ts, Tr⟩ := T
  obtain ⟨h1, h2, h3⟩ := h
  simp only at h1 h2 h3
  unfold STape.atEdge Tape.atEdge
  rw [h1]
  cases e
  · cases h2 <;> rfl
  · cases h3 <;> rfl

theorem STape.Rel.blank {D : Num → Nat → Prop} {t : STape} {T : Tape} (h : t.Rel D T) :
    t.blank = T.blank := by
  obtain ⟨tl, ts, tr⟩ := t
  obtain ⟨Tl, Ts, Tr⟩ := T
  obtain ⟨h1, h2, h3⟩ := h
  simp only at h1 h2 h3
  unfold STape.blank Tape.blank
  rw [h1]
  cases h2 <;> cases h3 <;> rfl

theorem splainStep_ok {π : Type} {D : Num → Nat → Prop} {o : Ops} {p : Prog} {s s' : SRState π}
    {T : Tape} (hint : ∀ (m : Int) (k : Nat), D (.int m) k → m = k)
    (hrel : s.tape.Rel D T) (hst : StepOk D o p s T) (h : splainStep o p s = .ok s') :
    ∃ T', s'.tape.Rel D T' ∧ plainStep p (s.on T) = .ok (s'.on T') ∧ s'.blanks = s.blanks := by
  unfold splainStep at h
  unfold plainStep
  have hT : (s.on T).tape.scan = s.tape.scan := hrel.scan.symm
  rw [hT]
  have hq : (s.on T).state = s.state := rfl
  rw [hq]
  cases hp : p (s.state, s.tape.scan) with
  | none => rw [hp] at h; cases h
  | some i =>
    obtain ⟨c, sh, q'⟩ := i
    rw [hp] at h
    dsimp only at h ⊢
    rw [hrel.atEdge] at h
    by_cases he : (s.state == q' && T.atEdge sh) = true
    · rw [if_pos he] at h; cases h
    · rw [if_neg he] at h
      have he' : ¬ ((s.state == q' && (s.on T).tape.atEdge sh) = true) := he
      rw [if_neg he']
      cases hs : s.tape.step o sh c (s.state == q') with
      | error e => rw [hs] at h; cases h
      | ok r =>
        obtain ⟨t', k⟩ := r
        rw [hs] at h
        obtain ⟨h1, h2⟩ := hst c sh q' hp _ hs
        dsimp only at h h1 h2
        have hk : newStep s.step k = .ok (if s.step != -1 then
            s.step + ((Py.step T sh c (s.state == q')).2 : Int) else s.step) ∨
            ∃ e, newStep s.step k = .error e := by
          unfold newStep
          by_cases h1 : s.step = -1
          · left; simp [h1]
          · rw [if_neg h1]
            cases k with
            | int m =>
              left
              rw [hint _ _ h2]
              simp [h1]
            | _ => exact .inr ⟨_, rfl⟩
        rcases hk with hk | ⟨e, hk⟩
        · rw [hk] at h
          cases h
          exact ⟨_, h1, rfl, rfl⟩
        · rw [hk] at h; cases h

theorem splainStep_error {π : Type} {D : Num → Nat → Prop} {o : Ops} {p : Prog} {s : SRState π}
    {T : Tape} {r : SRunRes} (hrel : s.tape.Rel D T) (h : splainStep o p s = .error r) :
    (∃ slot, r = .undfnd slot ∧ slot.1 = s.state ∧ plainStep p (s.on T) = .error (.undfnd slot)) ∨
    (r = .spnout ∧ plainStep p (s.on T) = .error .spnout) ∨ ∃ e, r = .crash e := by
  unfold splainStep at h
  unfold plainStep
  have hT : (s.on T).tape.scan = s.tape.scan := hrel.scan.symm
  rw [hT]
  have hq : (s.on T).state = s.state := rfl
  rw [hq]
  cases hp : p (s.state, s.tape.scan) with
  | none =>
    rw [hp] at h
    cases h
    exact .inl ⟨_, rfl, rfl, rfl⟩
  | some i =>
    obtain ⟨c, sh, q'⟩ := i
    rw [hp] at h
    dsimp only at h ⊢
    rw [hrel.atEdge] at h
    by_cases he : (s.state == q' && T.atEdge sh) = true
    · rw [if_pos he] at h
      cases h
      have he' : (s.state == q' && (s.on T).tape.atEdge sh) = true := he
      rw [if_pos he']
      exact .inr (.inl ⟨rfl, rfl⟩)
    · rw [if_neg he] at h
      refine .inr (.inr ?_)
      cases hs : s.tape.step o sh c (s.state == q') with
      | error e => rw [hs] at h; cases h; exact ⟨_, rfl⟩
      | ok r =>
        obtain ⟨t', k⟩ := r
        rw [hs] at h
        dsimp only at h
        cases hk : newStep s.step k with
        | ok x => rw [hk] at h; cases h
        | error e =>
          rw [hk] at h
          cases h
          unfold newStep at hk
          split at hk
          · cases hk
          · split at hk
            · cases hk
            · cases hk; exact ⟨_, rfl⟩

theorem sblankCheck_on {π : Type} {D : Num → Nat → Prop} {s : SRState π} {T : Tape}
    (hrel : s.tape.Rel D T) (color : Color) :
    (sblankCheck color s).1.tape = s.tape ∧ (sblankCheck color s).1.on T = (blankCheck color (s.on T)).1 ∧
    (sblankCheck color s).2 = (blankCheck color (s.on T)).2 ∧
    (sblankCheck color s).1.state = s.state := by
  unfold sblankCheck blankCheck
  have hb : (s.on T).tape.blank = s.tape.blank := hrel.blank.symm
  rw [hb]
  split
  · have : (s.on T).blanks.lookup (s.on T).state = s.blanks.lookup s.state := rfl
    rw [this]
    split <;> exact ⟨rfl, rfl, rfl, rfl⟩
  · exact ⟨rfl, rfl, rfl, rfl⟩

/-- What is asked of one point of a run.  With `inf` an answer of an infinite rule has to be right; with
`giveUp` nothing is asked of the rules that are applied. -/
structure SRightAt {π : Type} (D : Num → Nat → Prop) (inf giveUp : Prop) (strict : Bool) (o : Ops)
    (p : Prog) (try_ : STryRule π) (cycle : Nat) (s : SRState π) : Prop where
  step : ∀ T, s.tape.Rel D T → T.Positive → StepOk D o p s T
  infinite : inf → (try_ s.prover cycle s.state s.tape).2 = .error (some .infiniteRule) →
    NeverHalts p initCfg
  applied : ∀ T rule times t', s.tape.Rel D T → T.Canonical →
    (try_ s.prover cycle s.state s.tape).2 = .ok (some rule) →
    applyRuleOn strict o (STape.simTape o) rule s.tape = .ok (some times, t') →
    giveUp ∨ ∃ T', t'.Rel D T' ∧ T'.Canonical ∧ ∃ m pos',
      runFor p m (T.cfg s.state 0) = some (T'.cfg s.state pos')

/-- What a report says about the machine. -/
structure SSpec (D : Num → Nat → Prop) (inf : Prop) (p : Prog) (r : SRunOut) : Prop where
  undfnd : ∀ slot, r.result = .undfnd slot →
    ∃ n, HaltsAt p initCfg n slot ∧ (r.steps = -1 ∨ r.steps = n)
  spnout : r.result = .spnout → NeverHalts p initCfg
  infrul : inf → r.result = .infrul → NeverHalts p initCfg
  tape : (∀ e, r.result ≠ .crash e) →
    ∃ n q pos T, runFor p n initCfg = some (T.cfg q pos) ∧ T.Canonical ∧ r.tape.Rel D T ∧
      (r.steps = -1 ∨ r.steps = n) ∧ ∀ slot, r.result = .undfnd slot → q = slot.1

theorem srunLoop_minus_one {π : Type} (strict : Bool) (o : Ops) (p : Prog) (try_ : STryRule π)
    (fuel cycle : Nat) (s : SRState π) (hs : s.step = -1) :
    (srunLoop strict o try_ p fuel cycle s).steps = -1 := by
  induction fuel generalizing cycle s with
  | zero => exact hs
  | succ fuel ih =>
    have hgo : ∀ s : SRState π, s.step = -1 →
        (match splainStep o p s with
        | .error r => s.out cycle r
        | .ok s' =>
          let color := match p (s.state, s.tape.scan) with | some (c, _, _) => c | none => 0
          let (s', stop) := sblankCheck color s'
          if stop then s'.out cycle .infrul
          else srunLoop strict o try_ p fuel (cycle + 1) s').steps = -1 := by
      intro s hs
      cases hp : splainStep o p s with
      | error r => exact hs
      | ok s' =>
        have hs' : s'.step = -1 := by
          unfold splainStep at hp
          split at hp
          · cases hp
          · split at hp
            · cases hp
            · split at hp
              · cases hp
              · rw [hs] at hp
                cases hp
                rfl
        simp only
        generalize (match p (s.state, s.tape.scan) with | some (c, _, _) => c | none => 0) = col
        have hb : (sblankCheck col s').1.step = -1 := by
          unfold sblankCheck
          split <;> [split; skip] <;> exact hs'
        split
        · exact hb
        · exact ih _ _ hb
    unfold srunLoop
    simp only
    split
    · exact hs
    · exact hs
    · exact hs
    · exact hgo _ hs
    · exact hs
    · exact hgo _ hs
    · split
      · exact hs
      · exact hs
      · split
        · rfl
        · exact ih _ _ rfl
      · exact hgo _ hs

theorem srunLoop_spec {π : Type} {D : Num → Nat → Prop} {inf giveUp : Prop} {strict : Bool} {o : Ops}
    {p : Prog} {try_ : STryRule π} (hint : ∀ (m : Int) (k : Nat), D (.int m) k → m = k)
    (fuel cycle : Nat) (s : SRState π) (n : Nat) (T : Tape) (hs : SInv D p s n T)
    (hr : ∀ x ∈ sasked strict o try_ p fuel cycle s,
      SRightAt D inf giveUp strict o p try_ x.1 x.2) :
    (giveUp ∧ (srunLoop strict o try_ p fuel cycle s).steps = -1) ∨
      SSpec D inf p (srunLoop strict o try_ p fuel cycle s) := by
  have hend : ∀ (s : SRState π) (n cycle : Nat) (T : Tape) (r : SRunRes), SInv D p s n T →
      (∀ slot, r = .undfnd slot → HaltsAt p initCfg n slot ∧ slot.1 = s.state) →
      (r = .spnout → NeverHalts p initCfg) → (inf → r = .infrul → NeverHalts p initCfg) →
      SSpec D inf p (s.out cycle r) := by
    intro s n cycle T r hs h1 h2 h3
    obtain ⟨pos, hrun⟩ := hs.inv.run
    refine ⟨fun slot h => ⟨n, (h1 slot h).1, hs.inv.step⟩, h2, h3, fun _ => ?_⟩
    exact ⟨n, s.state, pos, T, hrun, hs.inv.canon, hs.rel, hs.inv.step, fun slot h => (h1 slot h).2.symm⟩
  have hcrash : ∀ (s : SRState π) (cycle : Nat) (e : RErr), SSpec D inf p (s.out cycle (.crash e)) := by
    intro s cycle e
    exact ⟨by simp [SRState.out], by simp [SRState.out], by simp [SRState.out],
      fun h => absurd rfl (h e)⟩
  induction fuel generalizing cycle s n T with
  | zero =>
    exact .inr (hend s n _ T _ hs (by simp) (by simp) (by simp))
  | succ fuel ih =>
    have hr0 := hr (cycle, s) (by simp [sasked])
    simp only at hr0
    have hpos : T.Positive := by
      intro b hb
      rcases List.mem_append.mp hb with h | h
      · exact hs.inv.canon.l.posCounts b h
      · exact hs.inv.canon.r.posCounts b h
    have hgo : ∀ s : SRState π, SInv D p s n T → StepOk D o p s T →
        (∀ x ∈ (match splainStep o p s with
          | .error _ => []
          | .ok s' =>
            let color := match p (s.state, s.tape.scan) with | some (c, _, _) => c | none => 0
            if (sblankCheck color s').2 then []
            else sasked strict o try_ p fuel (cycle + 1) (sblankCheck color s').1),
          SRightAt D inf giveUp strict o p try_ x.1 x.2) →
        (giveUp ∧ (match splainStep o p s with
        | .error r => s.out cycle r
        | .ok s' =>
          let color := match p (s.state, s.tape.scan) with | some (c, _, _) => c | none => 0
          let (s', stop) := sblankCheck color s'
          if stop then s'.out cycle .infrul
          else srunLoop strict o try_ p fuel (cycle + 1) s').steps = -1) ∨ SSpec D inf p
        (match splainStep o p s with
        | .error r => s.out cycle r
        | .ok s' =>
          let color := match p (s.state, s.tape.scan) with | some (c, _, _) => c | none => 0
          let (s', stop) := sblankCheck color s'
          if stop then s'.out cycle .infrul
          else srunLoop strict o try_ p fuel (cycle + 1) s') := by
      intro s hs hst hr
      cases hp : splainStep o p s with
      | error r =>
        refine .inr ?_
        rcases splainStep_error hs.rel hp with ⟨slot, rfl, hq, hh⟩ | ⟨rfl, hh⟩ | ⟨e, rfl⟩
        · rcases plainStep_error hs.inv hh with ⟨slot', he, hh'⟩ | ⟨he, _⟩
          · cases he
            refine hend s n _ T _ hs (fun slot' h => ?_) (by simp) (by simp)
            cases h
            exact ⟨hh', hq⟩
          · cases he
        · rcases plainStep_error hs.inv hh with ⟨slot', he, hh'⟩ | ⟨_, hh'⟩
          · cases he
          · exact hend s n _ T _ hs (by simp) (fun _ => hh') (by simp)
        · exact hcrash _ _ _
      | ok s' =>
        obtain ⟨T', hrel', hp', hbl'⟩ := splainStep_ok hint hs.rel hst hp
        obtain ⟨k, hk, hinv, _, c, sh, hc, hbl, _⟩ := plainStep_ok hs.inv hp'
        rw [hp] at hr
        simp only at hr ⊢
        generalize (match p (s.state, s.tape.scan) with | some (c, _, _) => c | none => 0) = col
          at hr
        obtain ⟨h1, h2, h3⟩ := blankCheck_spec (n0 := n) col hinv (by omega)
          (by rw [hbl]; exact hs.inv.blanks)
        obtain ⟨b1, b2, b3, b4⟩ := sblankCheck_on hrel' col
        rw [← b2] at h1
        rw [← b3] at h3
        generalize sblankCheck col s' = b at h1 h3 hr b1 b2
        obtain ⟨s'', stop⟩ := b
        simp only at h1 h3 hr b1 b2 ⊢
        have hs'' : SInv D p s'' (n + k) T' := ⟨b1 ▸ hrel', h1⟩
        cases stop with
        | true => exact .inr (hend _ _ _ _ _ hs'' (by simp) (by simp) (fun _ _ => h3 rfl))
        | false => exact ih _ _ _ _ hs'' hr
    have hrest := fun x hx => hr x (List.mem_cons_of_mem _ hx)
    clear hr
    unfold srunLoop
    simp only
    have hst0 := hr0.step T hs.rel hpos
    generalize ht : try_ s.prover cycle s.state s.tape = tr at hrest
    obtain ⟨pr, tried⟩ := tr
    have hs1 : SInv D p { s with prover := pr } n T := ⟨hs.rel, hs.inv⟩
    have ht2 : (try_ s.prover cycle s.state s.tape).2 = tried := by rw [ht]
    obtain ⟨pos, hrun⟩ := hs.inv.run
    cases tried with
    | error e =>
      cases e with
      | none => exact .inr (hend _ n _ T _ hs1 (by simp) (by simp) (by simp))
      | some e =>
        cases e with
        | infiniteRule =>
          exact .inr (hend _ n _ T _ hs1 (by simp) (by simp) (fun hi _ => hr0.infinite hi ht2))
        | ruleLimit => exact .inr (hend _ n _ T _ hs1 (by simp) (by simp) (by simp))
        | suspectedRule a b => exact hgo _ hs1 hst0 hrest
        | _ => exact .inr (hcrash _ _ _)
    | ok x =>
      cases x with
      | none => exact hgo _ hs1 hst0 hrest
      | some rule =>
        simp only at hrest ⊢
        cases ha : applyRuleOn strict o (STape.simTape o) rule s.tape with
        | error e =>
          cases e with
          | ruleLimit => exact .inr (hend _ n _ T _ hs1 (by simp) (by simp) (by simp))
          | _ => exact .inr (hcrash _ _ _)
        | ok x =>
          rw [ha] at hrest
          obtain ⟨times, tape⟩ := x
          cases times with
          | none =>
            have := applyRuleOn_none ha
            subst this
            exact hgo _ hs1 hst0 hrest
          | some times =>
            simp only at hrest ⊢
            cases hadd : o.add s.rulapp times with
            | error e => exact .inr (hcrash _ _ _)
            | ok rulapp =>
              rw [hadd] at hrest
              rcases hr0.applied _ _ _ _ hs.rel hs.inv.canon ht2 ha with hg |
                ⟨T', hrel', hc', m, pos', hm'⟩
              · exact .inl ⟨hg, srunLoop_minus_one _ _ _ _ _ _ _ rfl⟩
              · obtain ⟨pos'', hm''⟩ := rightAt_shift pos hm'
                refine ih _ _ (n + m) T' ⟨hrel', ⟨hc', ⟨pos'', runFor_trans hrun hm''⟩, Or.inl rfl, ?_⟩⟩
                  hrest
                intro q hq
                obtain ⟨m', h1, h2⟩ := hs.inv.blanks q hq
                exact ⟨m', by omega, h2⟩

end Sym
end BB
