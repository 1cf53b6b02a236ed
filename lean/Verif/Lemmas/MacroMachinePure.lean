import Verif.Lemmas.Forget
import Verif.Lemmas.MacroMachineEnd

/-! # The prover on a program without caches -/

namespace BB

/-- Never `AssertionError`. -/
def GetInstr.Calm (g : GetInstr) : Prop := ∀ slot, g slot ≠ .error .assertion

/-- The outcome on a program that raises, compared with the outcome on the slots that have an
instruction: the same, or an infinite loop in a macro cell where the other finds no instruction. -/
def SameOr {α : Type} (gaveUp : Except Err α → Prop) (x : Except PErr α) (y : Except Err α) : Prop :=
  x = y.mapError .py ∨ x = .error (.fetch .infLoop) ∧ gaveUp y

theorem runSimulatorM_pure {τ : Type} {T : SimTape τ} {g : GetInstr} (hg : g.Calm) (pr : Prover)
    (n : Nat) (q : State) (t : τ) :
    SameOr (fun y => ∃ t', y = .ok (none, t'))
      (pr.runSimulatorM T (Fetch.ofPure g) n q t ()).1 (pr.runSimulator T g.prog n q t) := by
  induction n generalizing q t with
  | zero => exact .inl rfl
  | succ n ih =>
    unfold Prover.runSimulatorM Prover.runSimulator
    simp only
    cases pr.getRule q (T.signature t) with
    | none =>
      simp only [Fetch.ofPure]
      cases hs : g (q, T.scan t) with
      | error e =>
        simp only [prog_error hs]
        cases e with
        | keyError key => exact .inl rfl
        | infLoop => exact .inr ⟨rfl, _, rfl⟩
        | assertion => exact absurd hs (hg _)
      | ok i =>
        simp only [GetInstr.prog_ok hs]
        exact ih _ _
    | some rule =>
      simp only
      cases applyRule T.toIndexTape rule t with
      | error e => exact .inl rfl
      | ok x =>
        obtain ⟨o, t'⟩ := x
        cases o with
        | none =>
          simp only [Fetch.ofPure]
          cases hs : g (q, T.scan t') with
          | error e =>
            simp only [prog_error hs]
            cases e with
            | keyError key => exact .inl rfl
            | infLoop => exact .inr ⟨rfl, _, rfl⟩
            | assertion => exact absurd hs (hg _)
          | ok i =>
            simp only [GetInstr.prog_ok hs]
            exact ih _ _
        | some times => exact ih _ _

theorem roundM_pure {g : GetInstr} (hg : g.Calm) (pr : Prover) (q : State) (sig : Sig) (d : Int)
    (t : Tape) :
    SameOr (fun y => y = .ok none) (pr.roundM (Fetch.ofPure g) q sig d t ()).1
      (pr.round g.prog q sig d t) := by
  unfold Prover.roundM Prover.round
  rcases runSimulatorM_pure (T := Tape.simTape) hg pr d.toNat q t with h | ⟨h, t', h'⟩
  · generalize pr.runSimulatorM Tape.simTape (Fetch.ofPure g) d.toNat q t () = x at h
    obtain ⟨x, u⟩ := x
    simp only at h
    subst h
    cases pr.runSimulator Tape.simTape g.prog d.toNat q t with
    | error e => exact .inl rfl
    | ok y =>
      obtain ⟨q', t'⟩ := y
      left
      simp only [Except.mapError]
      split <;> rfl
  · generalize pr.runSimulatorM Tape.simTape (Fetch.ofPure g) d.toNat q t () = x at h
    obtain ⟨x, u⟩ := x
    simp only at h
    subst h
    rw [h']
    exact .inr ⟨rfl, by simp⟩

theorem round_ok {p : Prog} {pr : Prover} {q : State} {sig : Sig} {d : Int} {t t' : Tape}
    (h : pr.round p q sig d t = .ok (some t')) :
    pr.runSimulator Tape.simTape p d.toNat q t = .ok (some q, t') := by
  unfold Prover.round at h
  cases hr : pr.runSimulator Tape.simTape p d.toNat q t with
  | error e => rw [hr] at h; cases h
  | ok x =>
    obtain ⟨q', u⟩ := x
    rw [hr] at h
    simp only at h
    split at h
    · cases h
    · rename_i hc
      simp only [Except.ok.injEq, Option.some.injEq] at h
      simp only [Bool.or_eq_true, bne_iff_ne, ne_eq, not_or, not_not] at hc
      rw [h, hc.1]

theorem runSimulator_congr {τ : Type} {T : SimTape τ} {p : Prog} {pr pr' : Prover}
    (h : pr'.rules = pr.rules) (n : Nat) (q : State) (t : τ) :
    pr'.runSimulator T p n q t = pr.runSimulator T p n q t := by
  have hg : ∀ q sig, pr'.getRule q sig = pr.getRule q sig := by
    intro q sig; simp only [Prover.getRule, h]
  induction n generalizing q t with
  | zero => rfl
  | succ n ih =>
    unfold Prover.runSimulator
    simp only [hg, ih]

/-- After a round that came back, the simulation for the minimal signature comes back as well. -/
theorem getMinSigM_pure {g : GetInstr} (hg : g.Calm) (pr pr' : Prover) (hpr : pr'.rules = pr.rules)
    (n : Nat) (q q' : State) (sig : Sig) (t t' : Tape)
    (h : pr.runSimulator Tape.simTape g.prog n q t = .ok (some q', t')) :
    ∃ m, pr.getMinSig g.prog n q t.toEnum sig = .ok m ∧
      (pr'.getMinSigM (Fetch.ofPure g) n q t.toEnum sig ()).1 = .ok m := by
  have he := runSimulator_toEnum g.prog pr n q t
  rw [h] at he
  cases hs : pr.runSimulator EnumTape.simTape g.prog n q t.toEnum with
  | error e => rw [hs] at he; cases he
  | ok x =>
    obtain ⟨q1, e⟩ := x
    rw [hs] at he
    simp only [Except.map, Except.ok.injEq, Prod.mk.injEq] at he
    obtain ⟨rfl, he⟩ := he
    have hs' : pr'.runSimulator EnumTape.simTape g.prog n q t.toEnum = .ok (some q', e) := by
      rw [← hs]
      exact runSimulator_congr hpr n q t.toEnum
    refine ⟨_, by simp only [Prover.getMinSig, hs]; rfl, ?_⟩
    unfold Prover.getMinSigM
    rcases runSimulatorM_pure (T := EnumTape.simTape) hg pr' n q t.toEnum with h1 | ⟨_, t1, h1⟩
    · rw [hs'] at h1
      generalize pr'.runSimulatorM EnumTape.simTape (Fetch.ofPure g) n q t.toEnum () = x at h1
      obtain ⟨x, u⟩ := x
      simp only at h1
      subst h1
      rfl
    · rw [hs'] at h1
      simp at h1

theorem proveRuleM_pure {g : GetInstr} (hg : g.Calm) (pr : Prover) (q : State) (t : Tape) (sig : Sig)
    (ds : Deltas) :
    let x := (pr.proveRuleM (Fetch.ofPure g) q t sig ds ()).1
    let y := pr.proveRule g.prog q t sig ds
    (x = .ok none ∧ y = .ok none) ∨ (x = .error (.fetch .infLoop) ∧ y = .ok none) ∨
    (∃ e, x = .error (.py e) ∧ y = .error e) ∨
    ∃ rule m, x = .ok (some rule) ∧ y = .ok (some (rule, m)) ∧
      ∀ pr' : Prover, pr'.rules = pr.rules →
        (pr'.getMinSigM (Fetch.ofPure g) ds.1.toNat q t.toEnum sig ()).1 = .ok m := by
  obtain ⟨d1, d2, d3⟩ := ds
  unfold Prover.proveRuleM Prover.proveRule
  simp only [bind, Except.bind]
  have r1 := roundM_pure hg pr q sig d1 t
  generalize hx1 : pr.roundM (Fetch.ofPure g) q sig d1 t () = x1 at r1
  obtain ⟨x1, u1⟩ := x1
  simp only at r1
  rcases r1 with rfl | ⟨rfl, hy⟩
  case inr => simp [hy]
  cases h1 : pr.round g.prog q sig d1 t with
  | error e => simp [Except.mapError]
  | ok o =>
    cases o with
    | none => simp [Except.mapError]
    | some t1 =>
      simp only [Except.mapError]
      have r2 := roundM_pure hg pr q sig d2 t1
      generalize hx2 : pr.roundM (Fetch.ofPure g) q sig d2 t1 () = x2 at r2
      obtain ⟨x2, u2⟩ := x2
      simp only at r2
      rcases r2 with rfl | ⟨rfl, hy⟩
      case inr => simp [hy, hx2]
      cases h2 : pr.round g.prog q sig d2 t1 with
      | error e => simp [Except.mapError, hx2, h2]
      | ok o =>
        cases o with
        | none => simp [Except.mapError, hx2, h2]
        | some t2 =>
          simp only [Except.mapError, hx2, h2]
          have r3 := roundM_pure hg pr q sig d3 t2
          generalize hx3 : pr.roundM (Fetch.ofPure g) q sig d3 t2 () = x3 at r3
          obtain ⟨x3, u3⟩ := x3
          simp only at r3
          rcases r3 with rfl | ⟨rfl, hy⟩
          case inr => simp [hy, hx3]
          cases h3 : pr.round g.prog q sig d3 t2 with
          | error e => simp [Except.mapError, hx3, h3]
          | ok o =>
            cases o with
            | none => simp [Except.mapError, hx3, h3]
            | some t3 =>
              simp only [Except.mapError, hx3, h3]
              cases makeRule t.counts t1.counts t2.counts t3.counts with
              | error e => simp
              | ok o =>
                cases o with
                | none => simp
                | some rule =>
                  simp only
                  by_cases hts : Prover.tooSimple rule t = true
                  · simp [hts]
                  · right; right; right
                    obtain ⟨m, hm, _⟩ := getMinSigM_pure hg pr pr rfl d1.toNat q q sig t t1
                      (round_ok h1)
                    refine ⟨rule, m, by simp [hts], by simp [hts, hm], ?_⟩
                    intro pr' hpr'
                    obtain ⟨m', hm', hm''⟩ := getMinSigM_pure hg pr pr' hpr' d1.toNat q q sig t t1
                      (round_ok h1)
                    rw [hm] at hm'
                    cases hm'
                    exact hm''

/-- **The prover on a macro program** is the prover on the slots that have an instruction. -/
theorem tryRuleM_pure {g : GetInstr} (hg : g.Calm) (pr : Prover) (cycle : Nat) (q : State)
    (t : Tape) :
    plainTry (proverOf (Fetch.ofPure g)) (pr, ()) cycle q t =
      (((pr.tryRule g.prog cycle q t).1, ()), (pr.tryRule g.prog cycle q t).2) := by
  unfold plainTry proverOf Prover.tryRuleM Prover.tryRule
  simp only
  cases pr.getRule q t.signature with
  | some known => rfl
  | none =>
    simp only
    cases pr.configs.lookup t.signature with
    | none => simp only; split <;> rfl
    | some past =>
      simp only
      cases past.nextDeltas q cycle with
      | error e => rfl
      | ok x =>
        obtain ⟨deltas, past⟩ := x
        cases deltas with
        | none => rfl
        | some ds =>
          simp only
          have hp := proveRuleM_pure hg { pr with configs := assocInsert pr.configs t.signature past } q t
            t.signature ds
          simp only at hp
          generalize Prover.proveRuleM (Fetch.ofPure g)
            { pr with configs := assocInsert pr.configs t.signature past } q t t.signature ds () = x at hp
          obtain ⟨x, u⟩ := x
          rcases hp with ⟨rfl, hy⟩ | ⟨rfl, hy⟩ | ⟨e, rfl, hy⟩ | ⟨rule, m, rfl, hy, hm⟩
          · rw [hy]
          · rw [hy]
          · rw [hy]
          · rw [hy]
            simp only
            have hm := hm { pr with configs := assocInsert (assocInsert pr.configs t.signature past)
                                      t.signature (past.delete q) } rfl
            revert hm
            generalize Prover.getMinSigM (Fetch.ofPure g)
              { pr with configs := assocInsert (assocInsert pr.configs t.signature past)
                                      t.signature (past.delete q) }
              ds.1.toNat q t.toEnum t.signature () = z
            obtain ⟨z, u⟩ := z
            rintro rfl
            rfl

/-- The same state of a run with another prover. -/
abbrev RState.mapP {π ρ : Type} (φ : π → ρ) (s : RState π) : RState ρ :=
  ⟨φ s.prover, s.tape, s.blanks, s.step, s.state, s.rulapp⟩

theorem plainStep_mapP {π ρ : Type} (φ : π → ρ) (p : Prog) (s : RState π) :
    plainStep p (s.mapP φ) = (plainStep p s).map (RState.mapP φ) := by
  unfold plainStep
  simp only [RState.mapP]
  cases p (s.state, s.tape.scan) with
  | none => rfl
  | some i =>
    simp only
    by_cases h : (s.state == i.2.2 && s.tape.atEdge i.2.1) = true
    · simp only [if_pos h]; rfl
    · simp only [if_neg h]; rfl

theorem blankCheck_mapP {π ρ : Type} (φ : π → ρ) (c : Color) (s : RState π) :
    blankCheck c (s.mapP φ) = ((blankCheck c s).1.mapP φ, (blankCheck c s).2) := by
  unfold blankCheck
  simp only [RState.mapP]
  by_cases h : (c == 0 && s.tape.blank) = true
  · simp only [if_pos h]
    by_cases h' : (s.blanks.lookup s.state).isSome = true
    · simp only [if_pos h']
    · simp only [if_neg h']
  · simp only [if_neg h]

theorem runLoop_iso {π ρ : Type} (φ : π → ρ) {try₁ : TryRule π} {try₂ : TryRule ρ}
    (h : ∀ pr c q t, try₂ (φ pr) c q t = (φ (try₁ pr c q t).1, (try₁ pr c q t).2)) (p : Prog)
    (fuel cycle : Nat) (s : RState π) :
    runLoop try₂ p fuel cycle (s.mapP φ) = runLoop try₁ p fuel cycle s := by
  induction fuel generalizing cycle s with
  | zero => rfl
  | succ fuel ih =>
    have go : ∀ s : RState π,
        (match plainStep p (s.mapP φ) with
        | .error r => (s.mapP φ).out cycle r
        | .ok s' =>
          let color := match p ((s.mapP φ).state, (s.mapP φ).tape.scan) with
            | some (c, _, _) => c | none => 0
          let (s', stop) := blankCheck color s'
          if stop then s'.out cycle .infrul else runLoop try₂ p fuel (cycle + 1) s') =
        (match plainStep p s with
        | .error r => s.out cycle r
        | .ok s' =>
          let color := match p (s.state, s.tape.scan) with | some (c, _, _) => c | none => 0
          let (s', stop) := blankCheck color s'
          if stop then s'.out cycle .infrul else runLoop try₁ p fuel (cycle + 1) s') := by
      intro s
      rw [plainStep_mapP]
      cases plainStep p s with
      | error r => rfl
      | ok s' =>
        simp only [Except.map, blankCheck_mapP, ih]
        rfl
    unfold runLoop
    have ht := h s.prover cycle s.state s.tape
    simp only [ht]
    generalize try₁ s.prover cycle s.state s.tape = x
    obtain ⟨pr, tried⟩ := x
    cases tried with
    | error e => cases e <;> first | rfl | exact go { s with prover := pr }
    | ok o =>
      cases o with
      | none => exact go { s with prover := pr }
      | some rule =>
        simp only
        cases applyRule Tape.indexTape rule s.tape with
        | error e => cases e <;> rfl
        | ok r =>
          obtain ⟨o, t'⟩ := r
          cases o with
          | none => exact go { s with prover := pr, tape := t' }
          | some times =>
            exact ih (cycle + 1) { s with prover := pr, tape := t', step := -1,
                                          rulapp := s.rulapp + times }

/-- A run on a macro program is a run of the code's loop and prover on the slots that have an
instruction; only the exceptions of the others are told apart. -/
theorem runM_calm {g : GetInstr} (hg : g.Calm) (lim : Nat) :
    Machine.runM (Fetch.ofPure g) () lim =
      { Machine.run g.prog lim with result := endRes g (Machine.run g.prog lim).result } := by
  have h1 := runLoopM_pure (proverOf (Fetch.ofPure g)) g lim 0
    ⟨(.init, ()), Tape.init, [], 0, 0, 0⟩
  have h2 := runLoop_iso (fun pr : Prover => (pr, ())) (try₁ := fun pr => pr.tryRule g.prog)
    (try₂ := plainTry (proverOf (Fetch.ofPure g)))
    (fun pr c q t => tryRuleM_pure hg pr c q t) g.prog lim 0 ⟨.init, Tape.init, [], 0, 0, 0⟩
  have h3 : runLoop (plainTry (proverOf (Fetch.ofPure g))) g.prog lim 0
      ⟨(.init, ()), Tape.init, [], 0, 0, 0⟩ = Machine.run g.prog lim := h2
  rw [h3] at h1
  exact h1

theorem runLoop_undfnd {π : Type} (try_ : TryRule π) (p : Prog) (fuel cycle : Nat) (s : RState π)
    (slot : Slot) (h : (runLoop try_ p fuel cycle s).result = .undfnd slot) : p slot = none := by
  induction fuel generalizing cycle s with
  | zero => simp [runLoop, RState.out] at h
  | succ fuel ih =>
    have go : ∀ s : RState π,
        (match plainStep p s with
        | .error r => s.out cycle r
        | .ok s' =>
          let color := match p (s.state, s.tape.scan) with | some (c, _, _) => c | none => 0
          let (s', stop) := blankCheck color s'
          if stop then s'.out cycle .infrul else runLoop try_ p fuel (cycle + 1) s').result =
            .undfnd slot → p slot = none := by
      intro s h
      cases hp : plainStep p s with
      | error r =>
        rw [hp] at h
        simp only [RState.out] at h
        subst h
        unfold plainStep at hp
        split at hp
        · rename_i hn
          simp only [Except.error.injEq, RunRes.undfnd.injEq] at hp
          rw [← hp]; exact hn
        · simp only at hp
          split at hp <;> simp at hp
      | ok s' =>
        rw [hp] at h
        simp only at h
        revert h
        generalize (match p (s.state, s.tape.scan) with | some (c, _, _) => c | none => 0) = col
        intro h
        split at h
        · simp [RState.out] at h
        · exact ih _ _ h
    unfold runLoop at h
    revert h
    generalize try_ s.prover cycle s.state s.tape = x
    obtain ⟨pr, tried⟩ := x
    cases tried with
    | error e => cases e <;> first | exact go _ | (intro h; simp [RState.out] at h)
    | ok o =>
      cases o with
      | none => exact go _
      | some rule =>
        simp only
        cases applyRule Tape.indexTape rule s.tape with
        | error e => cases e <;> (intro h; simp [RState.out] at h)
        | ok r =>
          obtain ⟨o, t'⟩ := r
          cases o with
          | none => exact go _
          | some times => exact ih _ _

theorem run_undfnd {p : Prog} {lim : Nat} {slot : Slot}
    (h : (Machine.run p lim).result = .undfnd slot) : p slot = none :=
  runLoop_undfnd _ p lim 0 _ slot h

end BB
