import Verif.Model.Prover
import Verif.Lemmas.Quick
import Verif.Lemmas.Rules

/-! # Invariant of `Machine.run`, for any rule prover -/

namespace BB

/-- What is known of the locals of `Machine.run`: they describe the ordinary machine after `n`
moves; `step` is that number unless it is -1; every blank recorded was really seen. -/
structure RInv {π : Type} (p : Prog) (s : RState π) (n : Nat) : Prop where
  canon : s.tape.Canonical
  run : ∃ pos, runFor p n initCfg = some (s.tape.cfg s.state pos)
  step : s.step = -1 ∨ s.step = n
  blanks : ∀ q, (s.blanks.lookup q).isSome → ∃ m, m ≤ n ∧ BlankAt p q m

theorem rinv_init {π : Type} (p : Prog) (pr : π) : RInv p ⟨pr, Tape.init, [], 0, 0, 0⟩ 0 where
  canon := Tape.canonical_init
  run := ⟨0, by rw [initCfg_eq]; rfl⟩
  step := Or.inr rfl
  blanks := by simp

/-- A plain step that goes through keeps the invariant, at a later time. -/
theorem plainStep_ok {π : Type} {p : Prog} {s s' : RState π} {n : Nat} (hs : RInv p s n)
    (h : plainStep p s = .ok s') :
    ∃ k, 1 ≤ k ∧ RInv p s' (n + k) ∧ (s'.step = -1 ↔ s.step = -1) ∧
      ∃ c sh, p (s.state, s.tape.scan) = some (c, sh, s'.state) ∧ s'.blanks = s.blanks ∧
        s'.prover = s.prover := by
  obtain ⟨hc, ⟨pos, hrun⟩, hst, hbl⟩ := hs
  unfold plainStep at h
  cases hp : p (s.state, s.tape.scan) with
  | none => rw [hp] at h; simp at h
  | some i =>
    obtain ⟨color, shift, q'⟩ := i
    rw [hp] at h
    simp only at h
    by_cases he : ((s.state == q') && s.tape.atEdge shift) = true
    · rw [if_pos he] at h; simp at h
    · rw [if_neg he] at h
      obtain ⟨k1, k2, k3, _, _⟩ := Rs.step_full hc hp he pos
      rw [py_step_eq_rs_step _ hc.l.posCounts hc.r.posCounts] at h
      generalize Rs.step s.tape shift color (s.state == q') = st at h k1 k2 k3
      obtain ⟨t', k⟩ := st
      simp only [Except.ok.injEq] at h k1 k2 k3
      subst h
      refine ⟨k, k1, ⟨k2, ⟨_, runFor_trans hrun k3⟩, ?_, ?_⟩, ?_, color, shift, rfl, rfl, rfl⟩
      · simp only
        rcases hst with h | h
        · left; rw [h]; rfl
        · right
          rw [if_pos (by rw [h]; simp), h]; omega
      · intro q hq
        obtain ⟨m, hm, hb⟩ := hbl q hq
        exact ⟨m, by omega, hb⟩
      · simp only
        rcases hst with h | h
        · rw [h]; simp
        · rw [if_pos (by rw [h]; simp), h]; omega

theorem plainStep_error {π : Type} {p : Prog} {s : RState π} {n : Nat} {r : RunRes}
    (hs : RInv p s n) (h : plainStep p s = .error r) :
    (∃ slot, r = .undfnd slot ∧ HaltsAt p initCfg n slot) ∨
    (r = .spnout ∧ NeverHalts p initCfg) := by
  obtain ⟨hc, ⟨pos, hrun⟩, hst, hbl⟩ := hs
  have hslot : (s.tape.cfg s.state pos).slot = (s.state, s.tape.scan) := by
    simp [Cfg.slot, Tape.cfg, s.tape.cells_pos]
  unfold plainStep at h
  cases hp : p (s.state, s.tape.scan) with
  | none =>
    rw [hp] at h
    simp only [Except.error.injEq] at h
    exact Or.inl ⟨_, h.symm, _, hrun, hslot, hp⟩
  | some i =>
    obtain ⟨color, shift, q'⟩ := i
    rw [hp] at h
    simp only at h
    by_cases he : ((s.state == q') && s.tape.atEdge shift) = true
    · rw [if_pos he] at h
      simp only [Except.error.injEq] at h
      refine Or.inr ⟨h.symm, ?_⟩
      simp only [Bool.and_eq_true, beq_iff_eq] at he
      obtain ⟨rfl, he⟩ := he
      refine NeverHalts.of_later hrun (neverHalts_spinout (col := color) (shift := shift) ?_ ?_)
      · have hz : s.tape.scan = 0 := by
          simp only [Tape.atEdge, Bool.and_eq_true, beq_iff_eq] at he; exact he.1
        rw [hz] at hp; exact hp
      · intro k
        cases shift
        · exact (hc.atEdge_left_iff pos).mp he _ (by simp [Tape.cfg, disp])
        · exact (hc.atEdge_right_iff pos).mp he _ (by simp [Tape.cfg, disp])
    · rw [if_neg he] at h
      simp at h

/-- The blank-tape bookkeeping, `n` being the number of moves made (at least one). -/
theorem blankCheck_spec {π : Type} {p : Prog} {s : RState π} {n0 n : Nat} (color : Color)
    (hs : RInv p s n) (hn : n0 < n)
    (hold : ∀ q, (s.blanks.lookup q).isSome → ∃ m, m ≤ n0 ∧ BlankAt p q m) :
    RInv p (blankCheck color s).1 n ∧ (blankCheck color s).1.step = s.step ∧
    ((blankCheck color s).2 = true → NeverHalts p initCfg) := by
  have hs' := hs
  obtain ⟨hc, ⟨pos, hrun⟩, hst, hbl⟩ := hs
  unfold blankCheck
  by_cases hb : (color == 0 && s.tape.blank) = true
  · rw [if_pos hb]
    have hb' : s.tape.blank = true := by simp at hb; exact hb.2
    have hblank : (s.tape.cfg s.state pos).Blank := (hc.blank_iff _).mp hb'
    have twice : ∀ m, m < n → BlankAt p s.state m → NeverHalts p initCfg := by
      rintro m hm ⟨d, hd1, hd2, hd3⟩
      refine NeverHalts.of_later hd1 ?_
      have hr : runFor p (n - m) d = some (s.tape.cfg s.state pos) := by
        have := hrun
        rw [show n = m + (n - m) by omega, runFor_add, hd1] at this
        exact this
      exact neverHalts_blank_twice (by omega) hr hd3 hblank hd2
    by_cases hl : (s.blanks.lookup s.state).isSome = true
    · rw [if_pos hl]
      refine ⟨hs', rfl, fun _ => ?_⟩
      obtain ⟨m, hm, hbm⟩ := hold _ hl
      exact twice m (by omega) hbm
    · rw [if_neg hl]
      refine ⟨⟨hc, ⟨pos, hrun⟩, hst, ?_⟩, rfl, ?_⟩
      · intro q hq
        by_cases h : q = s.state
        · subst h
          exact ⟨n, Nat.le_refl _, _, hrun, rfl, hblank⟩
        · simp only [List.lookup_cons, beq_false_of_ne h] at hq
          exact hbl q hq
      · intro h0
        simp only [beq_iff_eq] at h0
        exact twice 0 (by omega) ⟨initCfg, rfl, h0.symm, fun _ => rfl⟩
  · rw [if_neg hb]
    exact ⟨hs', rfl, by simp⟩

/-- What it means for the answers of a rule prover to be right about the machine `p`:
whenever it is asked about a configuration the machine really reaches, an infinite rule means
the machine never halts, and applying the rule it hands out leads to a configuration (again a
canonical tape) that the machine reaches by making at least one move. -/
structure TryRule.Right {π : Type} (p : Prog) (try_ : TryRule π) : Prop where
  infinite : ∀ pr cycle q t n pos, t.Canonical → runFor p n initCfg = some (t.cfg q pos) →
    (try_ pr cycle q t).2 = .error .infiniteRule → NeverHalts p initCfg
  applied : ∀ pr cycle q t n pos rule times t', t.Canonical →
    runFor p n initCfg = some (t.cfg q pos) →
    (try_ pr cycle q t).2 = .ok (some rule) →
    applyRule Tape.indexTape rule t = .ok (some times, t') →
    t'.Canonical ∧ ∃ m pos', 1 ≤ m ∧ runFor p m (t.cfg q pos) = some (t'.cfg q pos')

/-- What the report of a run should mean. -/
structure RSpec (p : Prog) (r : RunOut) : Prop where
  undfnd : ∀ slot, r.result = .undfnd slot →
    ∃ n, HaltsAt p initCfg n slot ∧ (r.steps = -1 ∨ r.steps = n)
  never : r.result = .spnout ∨ r.result = .infrul → NeverHalts p initCfg

theorem countAppsFrom_same_tape (t : Tape) :
    ∀ (rule : Rule) (best : Option (Int × Index × Int)) (r : Option (Int × Index × Int) × Tape),
      countAppsFrom Tape.indexTape rule t best = .ok r → r.2 = t := by
  intro rule
  induction rule with
  | nil =>
    intro best r h
    simp only [countAppsFrom, Except.ok.injEq] at h
    rw [← h]
  | cons e rest ih =>
    intro best r h
    obtain ⟨pos, op⟩ := e
    cases op with
    | mult m a => exact ih best r h
    | plus d =>
      simp only [countAppsFrom] at h
      by_cases hd : d ≥ 0
      · rw [if_pos hd] at h; exact ih best r h
      · rw [if_neg hd] at h
        cases hg : t.getCount pos with
        | error e => simp only [Tape.indexTape, hg, bind_error] at h; cases h
        | ok c =>
          simp only [Tape.indexTape, hg, bind_ok] at h
          by_cases hc : -d ≥ c
          · rw [if_pos hc] at h
            simp only [Except.ok.injEq] at h
            rw [← h]
          · rw [if_neg hc, pyDivmod_ok (by omega : -d ≠ 0)] at h
            simp only [bind_ok] at h
            exact ih _ r h

theorem applyRule_none_tape {rule : Rule} {t t' : Tape}
    (h : applyRule Tape.indexTape rule t = .ok (none, t')) : t' = t := by
  unfold applyRule countApps at h
  cases hc : countAppsFrom Tape.indexTape rule t none with
  | error e => rw [hc, bind_error] at h; cases h
  | ok r =>
    have := countAppsFrom_same_tape t rule none r hc
    obtain ⟨apps, u⟩ := r
    rw [hc, bind_ok] at h
    cases apps with
    | none =>
      simp only [Except.ok.injEq, Prod.mk.injEq, true_and] at h
      rw [← h]; exact this
    | some a =>
      obtain ⟨x, y, z⟩ := a
      simp only at h
      cases ha : applyRuleFrom Tape.indexTape x y z rule u with
      | error e => rw [ha, bind_error] at h; cases h
      | ok v => rw [ha, bind_ok] at h; simp at h

/-- The loop, under a right prover. -/
theorem runLoop_spec {π : Type} {p : Prog} {try_ : TryRule π} (hr : try_.Right p)
    (fuel cycle : Nat) (s : RState π) (n : Nat) (hs : RInv p s n) :
    RSpec p (runLoop try_ p fuel cycle s) := by
  induction fuel generalizing cycle s n with
  | zero => exact ⟨by simp [runLoop, RState.out], by simp [runLoop, RState.out]⟩
  | succ fuel ih =>
    -- the plain-step branch
    have hgo : ∀ s : RState π, RInv p s n → RSpec p
        (match plainStep p s with
        | .error r => s.out cycle r
        | .ok s' =>
          let color := match p (s.state, s.tape.scan) with | some (c, _, _) => c | none => 0
          let (s', stop) := blankCheck color s'
          if stop then s'.out cycle .infrul else runLoop try_ p fuel (cycle + 1) s') := by
      intro s hs
      cases hp : plainStep p s with
      | error r =>
        rcases plainStep_error hs hp with ⟨slot, rfl, hh⟩ | ⟨rfl, hh⟩
        · refine ⟨?_, by simp [RState.out]⟩
          intro slot' he
          simp only [RState.out, RunRes.undfnd.injEq] at he
          subst he
          exact ⟨n, hh, hs.step⟩
        · exact ⟨by simp [RState.out], fun _ => hh⟩
      | ok s' =>
        obtain ⟨k, hk, hinv, _, c, sh, hc, hbl, _⟩ := plainStep_ok hs hp
        simp only
        generalize (match p (s.state, s.tape.scan) with | some (c, _, _) => c | none => 0) = col
        obtain ⟨h1, h2, h3⟩ := blankCheck_spec (n0 := n) col hinv (by omega)
          (by rw [hbl]; exact hs.blanks)
        generalize blankCheck col s' = b at h1 h2 h3
        obtain ⟨s'', stop⟩ := b
        simp only at h1 h2 h3 ⊢
        cases stop with
        | true => exact ⟨by simp [RState.out], fun _ => h3 rfl⟩
        | false => exact ih _ _ _ h1
    unfold runLoop
    simp only
    generalize ht : try_ s.prover cycle s.state s.tape = tr
    obtain ⟨pr, tried⟩ := tr
    have hs1 : RInv p { s with prover := pr } n := ⟨hs.canon, hs.run, hs.step, hs.blanks⟩
    have ht2 : (try_ s.prover cycle s.state s.tape).2 = tried := by rw [ht]
    obtain ⟨pos, hrun⟩ := hs.run
    have crash : ∀ (s : RState π) (r : RunRes), (∀ slot, r ≠ .undfnd slot) → r ≠ .spnout →
        r ≠ .infrul → RSpec p (s.out cycle r) := by
      intro s r h1 h2 h3
      refine ⟨fun slot h => absurd h (h1 slot), ?_⟩
      rintro (h | h)
      · exact absurd h h2
      · exact absurd h h3
    cases tried with
    | error e =>
      cases e with
      | infiniteRule =>
        exact ⟨by simp [RState.out], fun _ => hr.infinite _ _ _ _ _ _ hs.canon hrun ht2⟩
      | suspectedRule a b => exact hgo _ hs1
      | _ => exact crash _ _ (by simp) (by simp) (by simp)
    | ok o =>
      cases o with
      | none => exact hgo _ hs1
      | some rule =>
        simp only
        cases ha : applyRule Tape.indexTape rule s.tape with
        | error e => cases e <;> exact crash _ _ (by simp) (by simp) (by simp)
        | ok x =>
          obtain ⟨times, tape⟩ := x
          cases times with
          | none =>
            have := applyRule_none_tape ha
            subst this
            exact hgo _ hs1
          | some times =>
            obtain ⟨hc', m, pos', hm, hm'⟩ :=
              hr.applied _ _ _ _ _ _ _ _ _ hs.canon hrun ht2 ha
            refine ih _ _ (n + m) ⟨hc', ⟨pos', runFor_trans hrun hm'⟩, Or.inl rfl, ?_⟩
            intro q hq
            obtain ⟨m', h1, h2⟩ := hs.blanks q hq
            exact ⟨m', by omega, h2⟩

/-- Once `step` is -1 it stays so. -/
theorem runLoop_minus_one {π : Type} (p : Prog) (try_ : TryRule π) (fuel cycle : Nat)
    (s : RState π) (hs : s.step = -1) : (runLoop try_ p fuel cycle s).steps = -1 := by
  induction fuel generalizing cycle s with
  | zero => exact hs
  | succ fuel ih =>
    have hgo : ∀ s : RState π, s.step = -1 →
        (match plainStep p s with
        | .error r => s.out cycle r
        | .ok s' =>
          let color := match p (s.state, s.tape.scan) with | some (c, _, _) => c | none => 0
          let (s', stop) := blankCheck color s'
          if stop then s'.out cycle .infrul
          else runLoop try_ p fuel (cycle + 1) s').steps = -1 := by
      intro s hs
      cases hp : plainStep p s with
      | error r => exact hs
      | ok s' =>
        have hs' : s'.step = -1 := by
          unfold plainStep at hp
          split at hp
          · simp at hp
          · simp only [hs] at hp
            split at hp
            · simp at hp
            · rw [Except.ok.injEq] at hp
              rw [← hp]
              rfl
        simp only
        generalize (match p (s.state, s.tape.scan) with | some (c, _, _) => c | none => 0) = col
        have hb : (blankCheck col s').1.step = -1 := by
          unfold blankCheck
          split <;> [split; skip] <;> exact hs'
        split
        · exact hb
        · exact ih _ _ hb
    unfold runLoop
    simp only
    split
    · exact hs
    · exact hs
    · exact hs
    · exact hgo _ hs
    · exact hs
    · exact hgo _ hs
    · split
      · exact hs
      · exact hs
      · exact ih _ _ rfl
      · exact hgo _ hs

/-- As long as no rule has been applied, any prover will do: only what ends the run by a plain
step is claimed. -/
theorem runLoop_norule {π : Type} {p : Prog} {try_ : TryRule π}
    (fuel cycle : Nat) (s : RState π) (n : Nat) (hs : RInv p s n)
    (hm : (runLoop try_ p fuel cycle s).steps ≠ -1) :
    (∀ slot, (runLoop try_ p fuel cycle s).result = .undfnd slot →
      ∃ n : Nat, (runLoop try_ p fuel cycle s).steps = (n : Int) ∧ HaltsAt p initCfg n slot) ∧
    ((runLoop try_ p fuel cycle s).result = .spnout → NeverHalts p initCfg) ∧
    (∃ (n : Nat) (d : Cfg), (runLoop try_ p fuel cycle s).steps = (n : Int) ∧ runFor p n initCfg = some d ∧
      ∃ pos, d.tape = (runLoop try_ p fuel cycle s).tape.cells pos) := by
  have hend : ∀ (s : RState π) (n : Nat) (cycle : Nat) (r : RunRes), RInv p s n →
      (s.out cycle r).steps ≠ -1 →
      ∃ (n : Nat) (d : Cfg), (s.out cycle r).steps = (n : Int) ∧ runFor p n initCfg = some d ∧
      ∃ pos, d.tape = (s.out cycle r).tape.cells pos := by
    intro s n cycle r hs hm
    obtain ⟨pos, hrun⟩ := hs.run
    exact ⟨n, _, hs.step.resolve_left hm, hrun, pos, rfl⟩
  induction fuel generalizing cycle s n with
  | zero => exact ⟨by simp [runLoop, RState.out], by simp [runLoop, RState.out], hend _ n _ _ hs hm⟩
  | succ fuel ih =>
    have hgo : ∀ (s : RState π) (o : RunOut), RInv p s n → 
        o = (match plainStep p s with
        | .error r => s.out cycle r
        | .ok s' =>
          let color := match p (s.state, s.tape.scan) with | some (c, _, _) => c | none => 0
          let (s', stop) := blankCheck color s'
          if stop then s'.out cycle .infrul
          else runLoop try_ p fuel (cycle + 1) s') → o.steps ≠ -1 →
        (∀ slot, o.result = .undfnd slot → ∃ n : Nat, o.steps = (n : Int) ∧ HaltsAt p initCfg n slot) ∧
        (o.result = .spnout → NeverHalts p initCfg) ∧
        (∃ (n : Nat) (d : Cfg), o.steps = (n : Int) ∧ runFor p n initCfg = some d ∧
          ∃ pos, d.tape = o.tape.cells pos) := by
      intro s o hs ho hm
      cases hp : plainStep p s with
      | error r =>
        rw [hp] at ho
        subst ho
        have hst : s.step = n := hs.step.resolve_left hm
        rcases plainStep_error hs hp with ⟨slot, rfl, hh⟩ | ⟨rfl, hh⟩
        · refine ⟨?_, by simp [RState.out], hend _ n _ _ hs hm⟩
          intro slot' he
          simp only [RState.out, RunRes.undfnd.injEq] at he
          subst he
          exact ⟨n, hst, hh⟩
        · exact ⟨by simp [RState.out], fun _ => hh, hend _ n _ _ hs hm⟩
      | ok s' =>
        obtain ⟨k, hk, hinv, _, c, sh, hc, hbl, _⟩ := plainStep_ok hs hp
        rw [hp] at ho
        simp only at ho
        generalize (match p (s.state, s.tape.scan) with | some (c, _, _) => c | none => 0)
          = col at ho
        obtain ⟨h1, h2, h3⟩ := blankCheck_spec (n0 := n) col hinv (by omega)
          (by rw [hbl]; exact hs.blanks)
        generalize blankCheck col s' = b at h1 h2 h3 ho
        obtain ⟨s'', stop⟩ := b
        simp only at h1 h2 h3 ho
        cases stop with
        | true =>
          subst ho
          exact ⟨by simp [RState.out], by simp [RState.out], hend _ _ _ _ h1 hm⟩
        | false => subst ho; exact ih _ _ _ h1 hm
    have crash : ∀ (s : RState π) (o : RunOut) (r : RunRes), RInv p s n → o = s.out cycle r →
        (∀ slot, r ≠ .undfnd slot) → r ≠ .spnout → o.steps ≠ -1 →
        (∀ slot, o.result = .undfnd slot → ∃ n : Nat, o.steps = (n : Int) ∧ HaltsAt p initCfg n slot) ∧
        (o.result = .spnout → NeverHalts p initCfg) ∧
        (∃ (n : Nat) (d : Cfg), o.steps = (n : Int) ∧ runFor p n initCfg = some d ∧
          ∃ pos, d.tape = o.tape.cells pos) := by
      intro s o r hs ho h1 h2 hm
      subst ho
      exact ⟨fun slot h => absurd h (h1 slot), fun h => absurd h h2, hend _ _ _ _ hs hm⟩
    generalize ho : runLoop try_ p (fuel + 1) cycle s = o at hm ⊢
    unfold runLoop at ho
    simp only at ho
    generalize ht : try_ s.prover cycle s.state s.tape = tr at ho
    obtain ⟨pr, tried⟩ := tr
    have hs1 : RInv p { s with prover := pr } n := ⟨hs.canon, hs.run, hs.step, hs.blanks⟩
    cases tried with
    | error e =>
      cases e with
      | suspectedRule a b => exact hgo _ _ hs1 ho.symm hm
      | _ => exact crash _ _ _ hs1 ho.symm (by simp) (by simp) hm
    | ok x =>
      cases x with
      | none => exact hgo _ _ hs1 ho.symm hm
      | some rule =>
        simp only at ho
        cases ha : applyRule Tape.indexTape rule s.tape with
        | error e =>
          rw [ha] at ho
          cases e <;> exact crash _ _ _ hs1 ho.symm (by simp) (by simp) hm
        | ok x =>
          obtain ⟨times, tape⟩ := x
          rw [ha] at ho
          cases times with
          | none =>
            have := applyRule_none_tape ha
            subst this
            exact hgo _ _ hs1 ho.symm hm
          | some times =>
            exfalso
            apply hm
            rw [← ho]
            exact runLoop_minus_one p try_ fuel (cycle + 1) _ rfl

end BB
