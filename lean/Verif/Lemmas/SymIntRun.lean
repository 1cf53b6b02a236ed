/-
The loop of `Machine.run` on integers, with terms for counts.
-/
import Verif.Lemmas.SymIntProver

namespace BB
namespace Sym

/-- The same locals with terms for counts. -/
def ofState (s : RState Prover) : SRState SProver :=
  ⟨ofProver s.prover, ofTape s.tape, s.blanks, s.step, s.state, .int s.rulapp⟩

/-- What the loop keeps. -/
structure RunInv (s : RState Prover) : Prop where
  adds : s.prover.Adds
  keyed : Keyed s.prover
  pos : TPos s.tape

theorem atEdge_int (t : Tape) (edge : Bool) : (ofTape t).atEdge edge = t.atEdge edge := by
  cases edge <;> simp [STape.atEdge, Tape.atEdge, ofTape]

theorem blank_int (t : Tape) : (ofTape t).blank = t.blank := by
  simp [STape.blank, Tape.blank, ofTape]

theorem plainStep_int {o : Ops} (H : IntOps o) (p : Prog) {s : RState Prover} (h : RunInv s) :
    (∃ r, plainStep p s = .error r ∧ splainStep o p (ofState s) = .error (ofResult r) ∧
      r ≠ .crash .negCount) ∨
    ∃ s', plainStep p s = .ok s' ∧ splainStep o p (ofState s) = .ok (ofState s') ∧ RunInv s' := by
  obtain ⟨pr, t, bl, st, q, ra⟩ := s
  simp only [plainStep, splainStep, ofState]
  have hsc : (ofTape t).scan = t.scan := rfl
  rw [hsc]
  cases p (q, t.scan) with
  | none => exact .inl ⟨_, rfl, rfl, by simp⟩
  | some i =>
    obtain ⟨c, sh, q'⟩ := i
    simp only [atEdge_int]
    by_cases hs : ((q == q') && t.atEdge sh) = true
    · rw [if_pos hs, if_pos hs]
      exact .inl ⟨_, rfl, rfl, by simp⟩
    · rw [if_neg hs, if_neg hs]
      obtain ⟨e, hp⟩ := step_int H h.pos sh c (q == q')
      rw [e]
      refine .inr ⟨_, rfl, ?_, ⟨h.adds, h.keyed, hp⟩⟩
      simp only [newStep]
      by_cases h1 : st = -1
      · subst h1
        rfl
      · rw [if_neg h1, if_pos (show (st != -1) = true by simpa using h1)]
        rfl

theorem blankCheck_int (c : Color) {s : RState Prover} (h : RunInv s) :
    sblankCheck c (ofState s) = (ofState (blankCheck c s).1, (blankCheck c s).2) ∧
      RunInv (blankCheck c s).1 := by
  have hb : (ofState s).tape.blank = s.tape.blank := blank_int s.tape
  have hl : ((ofState s).blanks.lookup (ofState s).state).isSome = (s.blanks.lookup s.state).isSome := rfl
  unfold sblankCheck blankCheck
  by_cases h1 : (c == 0 && s.tape.blank) = true
  · rw [if_pos h1, if_pos (by rw [hb]; exact h1)]
    by_cases h2 : (s.blanks.lookup s.state).isSome = true
    · rw [if_pos h2, if_pos (by rw [hl]; exact h2)]
      exact ⟨rfl, h⟩
    · rw [if_neg h2, if_neg (by rw [hl]; exact h2)]
      exact ⟨rfl, ⟨h.adds, h.keyed, h.pos⟩⟩
  · rw [if_neg h1, if_neg (by rw [hb]; exact h1)]
    exact ⟨rfl, h⟩

theorem out_int (s : RState Prover) (cycle : Nat) (r : RunRes) :
    (ofState s).out cycle (ofResult r) = ofOut (s.out cycle r) := rfl

/-! ### One turn of the loop -/

/-- The colour printed by the next step. -/
def printed (p : Prog) (slot : Slot) : Color :=
  match p slot with
  | some (c, _, _) => c
  | none => 0

section turn
variable {π : Type} (try_ : TryRule π) (p : Prog) (fuel cycle : Nat)

/-- What is left of the turn when no rule is applied. -/
def goOut (s : RState π) : RunOut :=
  match plainStep p s with
  | .error r => s.out cycle r
  | .ok s' =>
    if (blankCheck (printed p (s.state, s.tape.scan)) s').2 then
      (blankCheck (printed p (s.state, s.tape.scan)) s').1.out cycle .infrul
    else runLoop try_ p fuel (cycle + 1) (blankCheck (printed p (s.state, s.tape.scan)) s').1

def goAsked (s : RState π) : List (Nat × RState π) :=
  match plainStep p s with
  | .error _ => []
  | .ok s' =>
    if (blankCheck (printed p (s.state, s.tape.scan)) s').2 then []
    else asked try_ p fuel (cycle + 1) (blankCheck (printed p (s.state, s.tape.scan)) s').1

/-- The turn when the prover answers. -/
def turnOut (s : RState π) : Except BB.Err (Option Rule) → RunOut
  | .error .infiniteRule => s.out cycle .infrul
  | .error .ruleLimit => s.out cycle .limrul
  | .error .configLimit => s.out cycle .cfglim
  | .error (.suspectedRule _ _) => goOut try_ p fuel cycle s
  | .error e => s.out cycle (.crash e)
  | .ok none => goOut try_ p fuel cycle s
  | .ok (some rule) =>
    match BB.applyRule Tape.indexTape rule s.tape with
    | .error .ruleLimit => s.out cycle .limrul
    | .error e => s.out cycle (.crash e)
    | .ok (some times, tape) =>
      runLoop try_ p fuel (cycle + 1)
        { s with tape := tape, step := -1, rulapp := s.rulapp + times }
    | .ok (none, tape) => goOut try_ p fuel cycle { s with tape := tape }

def turnAsked (s : RState π) : Except BB.Err (Option Rule) → List (Nat × RState π)
  | .error (.suspectedRule _ _) => goAsked try_ p fuel cycle s
  | .error _ => []
  | .ok none => goAsked try_ p fuel cycle s
  | .ok (some rule) =>
    match BB.applyRule Tape.indexTape rule s.tape with
    | .error _ => []
    | .ok (some times, tape) =>
      asked try_ p fuel (cycle + 1) { s with tape := tape, step := -1, rulapp := s.rulapp + times }
    | .ok (none, tape) => goAsked try_ p fuel cycle { s with tape := tape }

theorem runLoop_turn (s : RState π) :
    runLoop try_ p (fuel + 1) cycle s =
      turnOut try_ p fuel cycle { s with prover := (try_ s.prover cycle s.state s.tape).1 }
        (try_ s.prover cycle s.state s.tape).2 := rfl

theorem asked_turn (s : RState π) :
    asked try_ p (fuel + 1) cycle s = (cycle, s) ::
      turnAsked try_ p fuel cycle { s with prover := (try_ s.prover cycle s.state s.tape).1 }
        (try_ s.prover cycle s.state s.tape).2 := rfl

end turn

section sturn
variable {π : Type} (strict : Bool) (o : Ops) (try_ : STryRule π) (p : Prog) (fuel cycle : Nat)

/-- The same with terms. -/
def sgoOut (s : SRState π) : SRunOut :=
  match splainStep o p s with
  | .error r => s.out cycle r
  | .ok s' =>
    if (sblankCheck (printed p (s.state, s.tape.scan)) s').2 then
      (sblankCheck (printed p (s.state, s.tape.scan)) s').1.out cycle .infrul
    else srunLoop strict o try_ p fuel (cycle + 1) (sblankCheck (printed p (s.state, s.tape.scan)) s').1

def sturnOut (s : SRState π) : Except (Option RErr) (Option SRule) → SRunOut
  | .error (some .infiniteRule) => s.out cycle .infrul
  | .error (some .ruleLimit) => s.out cycle .limrul
  | .error none => s.out cycle .cfglim
  | .error (some (.suspectedRule _ _)) => sgoOut strict o try_ p fuel cycle s
  | .error (some e) => s.out cycle (.crash e)
  | .ok none => sgoOut strict o try_ p fuel cycle s
  | .ok (some rule) =>
    match applyRuleOn strict o (STape.simTape o) rule s.tape with
    | .error .ruleLimit => s.out cycle .limrul
    | .error e => s.out cycle (.crash e)
    | .ok (some times, tape) =>
      match o.add s.rulapp times with
      | .error e => SRState.out { s with tape := tape, step := -1 } cycle (.crash (.num e))
      | .ok rulapp =>
        srunLoop strict o try_ p fuel (cycle + 1)
          { s with tape := tape, step := -1, rulapp := rulapp }
    | .ok (none, tape) => sgoOut strict o try_ p fuel cycle { s with tape := tape }

theorem srunLoop_turn (s : SRState π) :
    srunLoop strict o try_ p (fuel + 1) cycle s =
      sturnOut strict o try_ p fuel cycle { s with prover := (try_ s.prover cycle s.state s.tape).1 }
        (try_ s.prover cycle s.state s.tape).2 := rfl

end sturn

theorem runLoop_int (flog : Int → Int → Nat) (strict : Bool) (n : Nat) (p : Prog) :
    ∀ (fuel cycle : Nat) (s : RState Prover), RunInv s →
    (∀ x ∈ asked (Prover.tryRule p) p fuel cycle s,
      (Prover.tryRule p x.2.prover x.1 x.2.state x.2.tape).1.Adds) →
    srunLoop strict (ops flog strict (n + 1)) (SProver.tryRule strict (ops flog strict (n + 1)) p) p fuel
        cycle (ofState s) = ofOut (runLoop (Prover.tryRule p) p fuel cycle s) ∧
      (runLoop (Prover.tryRule p) p fuel cycle s).result ≠ .crash .negCount := by
  have H := intOps flog strict n
  intro fuel
  induction fuel with
  | zero => intro cycle s _ _; exact ⟨rfl, by simp [runLoop, RState.out]⟩
  | succ fuel ih =>
    intro cycle s hs hask
    have hgo : ∀ s : RState Prover, RunInv s →
        (∀ x ∈ goAsked (Prover.tryRule p) p fuel cycle s,
          (Prover.tryRule p x.2.prover x.1 x.2.state x.2.tape).1.Adds) →
        sgoOut strict (ops flog strict (n + 1)) (SProver.tryRule strict (ops flog strict (n + 1)) p) p
          fuel cycle (ofState s) = ofOut (goOut (Prover.tryRule p) p fuel cycle s) ∧
        (goOut (Prover.tryRule p) p fuel cycle s).result ≠ .crash .negCount := by
      intro s hs hask
      unfold goAsked at hask
      unfold sgoOut goOut
      rcases plainStep_int H p hs with ⟨r, h1, h2, h3⟩ | ⟨s', h1, h2, h3⟩
      · rw [h1, h2]
        exact ⟨rfl, h3⟩
      · rw [h1] at hask ⊢
        rw [h2]
        have hc : printed p ((ofState s).state, (ofState s).tape.scan) =
          printed p (s.state, s.tape.scan) := rfl
        simp only [hc] at hask ⊢
        obtain ⟨k1, k2⟩ := blankCheck_int (printed p (s.state, s.tape.scan)) h3
        rw [k1]
        by_cases hstop : (blankCheck (printed p (s.state, s.tape.scan)) s').2 = true
        · rw [if_pos hstop, if_pos hstop]
          exact ⟨rfl, by simp [RState.out]⟩
        · rw [if_neg hstop] at hask ⊢
          rw [if_neg hstop]
          exact ih _ _ k2 hask
    rw [asked_turn] at hask
    have hadds := hask (cycle, s) List.mem_cons_self
    have hrest := fun x hx => hask x (List.mem_cons_of_mem _ hx)
    simp only at hadds
    clear hask
    obtain ⟨hsame, hkeyed, hknown, hneg⟩ := tryRule_int flog strict n p hs.adds hs.keyed cycle s.state hs.pos
    have hsame' : SProver.tryRule strict (ops flog strict (n + 1)) p (ofState s).prover cycle
        (ofState s).state (ofState s).tape = _ := hsame
    rw [runLoop_turn, srunLoop_turn, hsame']
    clear hsame hsame'
    generalize Prover.tryRule p s.prover cycle s.state s.tape = tr at hrest hadds hkeyed hknown hneg ⊢
    obtain ⟨pr', ans⟩ := tr
    simp only at hadds hkeyed hknown hneg hrest ⊢
    have hs' : RunInv { s with prover := pr' } := ⟨hadds, hkeyed, hs.pos⟩
    cases ans with
    | error e =>
      cases e with
      | suspectedRule a b => exact hgo _ hs' hrest
      | negCount => exact absurd rfl hneg
      | _ => exact ⟨rfl, by simp [turnOut, RState.out]⟩
    | ok r =>
      cases r with
      | none => exact hgo _ hs' hrest
      | some rule =>
        obtain ⟨slot, known, sig', m1, m2⟩ := hknown rule rfl
        simp only [turnAsked] at hrest
        simp only [ofTried, Option.map_some, turnOut, sturnOut]
        have ht : (ofState s).tape = ofTape s.tape := rfl
        rw [ht]
        rcases apply_int (agree_tape H) H strict (rule := rule) (hadds slot known m1 _ m2)
          (hkeyed slot known m1 _ m2) hs.pos with ⟨e, he, h1, h2⟩ | ⟨times, t', h1, h2, h3⟩
        · have h1' : BB.applyRule Tape.indexTape rule s.tape = .error e := h1
          rw [h1', h2]
          rcases he with rfl | rfl <;> exact ⟨rfl, by simp [RState.out]⟩
        · have h1' : BB.applyRule Tape.indexTape rule s.tape = .ok (times, t') := h1
          rw [h1'] at hrest ⊢
          rw [h2]
          cases times with
          | none => exact hgo { s with prover := pr', tape := t' } ⟨hadds, hkeyed, h3⟩ hrest
          | some times =>
            have hadd : (ops flog strict (n + 1)).add (ofState s).rulapp (.int times) =
              .ok (.int (s.rulapp + times)) := H.add _ _
            simp only [Option.map_some, hadd]
            exact ih (cycle + 1) { s with prover := pr', tape := t', step := -1,
                                          rulapp := s.rulapp + times } ⟨hadds, hkeyed, h3⟩ hrest

end Sym
end BB
