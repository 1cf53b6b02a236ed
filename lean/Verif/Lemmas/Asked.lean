import Verif.Lemmas.Prover

/-! # Runs in which every answer of the prover is right -/

namespace BB

/-- The cycles of a run at which the prover is asked, with what it is asked about: the loop of
`runLoop` again, keeping the states instead of the report. -/
def asked {π : Type} (try_ : TryRule π) (comp : Prog) : Nat → Nat → RState π → List (Nat × RState π)
  | 0, _, _ => []
  | fuel + 1, cycle, s =>
    (cycle, s) ::
    (let prover := (try_ s.prover cycle s.state s.tape).1
    let go (s : RState π) : List (Nat × RState π) :=
      match plainStep comp s with
      | .error _ => []
      | .ok s' =>
        let color := match comp (s.state, s.tape.scan) with | some (c, _, _) => c | none => 0
        if (blankCheck color s').2 then []
        else asked try_ comp fuel (cycle + 1) (blankCheck color s').1
    match (try_ s.prover cycle s.state s.tape).2 with
    | .error (.suspectedRule _ _) => go { s with prover := prover }
    | .error _ => []
    | .ok none => go { s with prover := prover }
    | .ok (some rule) =>
      match applyRule Tape.indexTape rule s.tape with
      | .error _ => []
      | .ok (some times, tape) =>
        asked try_ comp fuel (cycle + 1)
          { s with prover := prover, tape := tape, step := -1, rulapp := s.rulapp + times }
      | .ok (none, tape) => go { s with prover := prover, tape := tape })

/-- The answer of the prover at one point of a run is right about the machine `p`: an infinite rule
means that the machine never halts, and applying the rule leads to a configuration that the machine
reaches by making at least one move. -/
structure RightAt {π : Type} (p : Prog) (try_ : TryRule π) (cycle : Nat) (s : RState π) : Prop where
  infinite : (try_ s.prover cycle s.state s.tape).2 = .error .infiniteRule → NeverHalts p initCfg
  applied : ∀ rule times t', (try_ s.prover cycle s.state s.tape).2 = .ok (some rule) →
    applyRule Tape.indexTape rule s.tape = .ok (some times, t') →
    t'.Canonical ∧ ∃ m pos', 1 ≤ m ∧ runFor p m (s.tape.cfg s.state 0) = some (t'.cfg s.state pos')

theorem rightAt_shift {p : Prog} {t t' : Tape} {q : State} {m : Nat} {pos' : Int} (pos : Int)
    (h : runFor p m (t.cfg q 0) = some (t'.cfg q pos')) :
    ∃ pos'', runFor p m (t.cfg q pos) = some (t'.cfg q pos'') := by
  have e : ∀ (t : Tape) (x y : Int), t.cfg q (x + y) = (t.cfg q x).translate y := by
    intro t x y
    simp only [Tape.cfg, Cfg.translate]
    congr 1
    funext z
    simp only [Tape.cells, RT.at, Tape.rt]
    have h1 : (z = x + y) ↔ (z - y = x) := by omega
    have h2 : (x + y < z) ↔ (x < z - y) := by omega
    have h3 : z - (x + y) - 1 = z - y - x - 1 := by omega
    have h4 : x + y - z - 1 = x - (z - y) - 1 := by omega
    simp only [h1, h2, h3, h4]
  refine ⟨pos' + pos, ?_⟩
  have h0 : t.cfg q pos = (t.cfg q 0).translate pos := by rw [← e, Int.zero_add]
  rw [h0, runFor_translate, h, e]
  rfl

theorem runLoop_asked {π : Type} {p : Prog} {try_ : TryRule π}
    (fuel cycle : Nat) (s : RState π) (n : Nat) (hs : RInv p s n)
    (hr : ∀ x ∈ asked try_ p fuel cycle s, RightAt p try_ x.1 x.2) :
    RSpec p (runLoop try_ p fuel cycle s) := by
  induction fuel generalizing cycle s n with
  | zero => exact ⟨by simp [runLoop, RState.out], by simp [runLoop, RState.out]⟩
  | succ fuel ih =>
    have hgo : ∀ s : RState π, RInv p s n →
        (∀ x ∈ (match plainStep p s with
          | .error _ => []
          | .ok s' =>
            let color := match p (s.state, s.tape.scan) with | some (c, _, _) => c | none => 0
            if (blankCheck color s').2 then []
            else asked try_ p fuel (cycle + 1) (blankCheck color s').1),
          RightAt p try_ x.1 x.2) → RSpec p
        (match plainStep p s with
        | .error r => s.out cycle r
        | .ok s' =>
          let color := match p (s.state, s.tape.scan) with | some (c, _, _) => c | none => 0
          let (s', stop) := blankCheck color s'
          if stop then s'.out cycle .infrul else runLoop try_ p fuel (cycle + 1) s') := by
      intro s hs hr
      cases hp : plainStep p s with
      | error r =>
        rcases plainStep_error hs hp with ⟨slot, rfl, hh⟩ | ⟨rfl, hh⟩
        · refine ⟨?_, by simp [RState.out]⟩
          intro slot' he
          simp only [RState.out, RunRes.undfnd.injEq] at he
          subst he
          exact ⟨n, hh, hs.step⟩
        · exact ⟨by simp [RState.out], fun _ => hh⟩
      | ok s' =>
        obtain ⟨k, hk, hinv, _, c, sh, hc, hbl, _⟩ := plainStep_ok hs hp
        rw [hp] at hr
        simp only at hr ⊢
        generalize (match p (s.state, s.tape.scan) with | some (c, _, _) => c | none => 0) = col
          at hr
        obtain ⟨h1, h2, h3⟩ := blankCheck_spec (n0 := n) col hinv (by omega)
          (by rw [hbl]; exact hs.blanks)
        generalize blankCheck col s' = b at h1 h2 h3 hr
        obtain ⟨s'', stop⟩ := b
        simp only at h1 h2 h3 hr ⊢
        cases stop with
        | true => exact ⟨by simp [RState.out], fun _ => h3 rfl⟩
        | false => exact ih _ _ _ h1 hr
    have hr0 := hr (cycle, s) (by simp [asked])
    simp only at hr0
    have hrest := fun x hx => hr x (List.mem_cons_of_mem _ hx)
    clear hr
    unfold runLoop
    simp only
    generalize ht : try_ s.prover cycle s.state s.tape = tr at hrest
    obtain ⟨pr, tried⟩ := tr
    have hs1 : RInv p { s with prover := pr } n := ⟨hs.canon, hs.run, hs.step, hs.blanks⟩
    have ht2 : (try_ s.prover cycle s.state s.tape).2 = tried := by rw [ht]
    obtain ⟨pos, hrun⟩ := hs.run
    have crash : ∀ (s : RState π) (r : RunRes), (∀ slot, r ≠ .undfnd slot) → r ≠ .spnout →
        r ≠ .infrul → RSpec p (s.out cycle r) := by
      intro s r h1 h2 h3
      refine ⟨fun slot h => absurd h (h1 slot), ?_⟩
      rintro (h | h)
      · exact absurd h h2
      · exact absurd h h3
    cases tried with
    | error e =>
      cases e with
      | infiniteRule => exact ⟨by simp [RState.out], fun _ => hr0.infinite ht2⟩
      | suspectedRule a b => exact hgo _ hs1 hrest
      | _ => exact crash _ _ (by simp) (by simp) (by simp)
    | ok o =>
      cases o with
      | none => exact hgo _ hs1 hrest
      | some rule =>
        simp only at hrest ⊢
        cases ha : applyRule Tape.indexTape rule s.tape with
        | error e => cases e <;> exact crash _ _ (by simp) (by simp) (by simp)
        | ok x =>
          rw [ha] at hrest
          obtain ⟨times, tape⟩ := x
          cases times with
          | none =>
            have := applyRule_none_tape ha
            subst this
            exact hgo _ hs1 hrest
          | some times =>
            obtain ⟨hc', m, pos', hm, hm'⟩ := hr0.applied _ _ _ ht2 ha
            obtain ⟨pos'', hm''⟩ := rightAt_shift pos hm'
            refine ih _ _ (n + m) ⟨hc', ⟨pos'', runFor_trans hrun hm''⟩, Or.inl rfl, ?_⟩ hrest
            intro q hq
            obtain ⟨m', h1, h2⟩ := hs.blanks q hq
            exact ⟨m', by omega, h2⟩

end BB
