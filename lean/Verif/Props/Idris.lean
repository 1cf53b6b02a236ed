import Verif.Lemmas.IdrisSpans
import Verif.Lemmas.IdrisPtr
import Verif.Lemmas.IdrisDouble
import Verif.Lemmas.IdrisParse
import Verif.Lemmas.Parse

/-!
# Properties of the Idris implementation

`asProg prog` is the machine of `prog` (`totalProg` of `Spec/Total` with the direction as a Boolean).
-/

namespace BB.Idris

variable {τ τ' : Type}

/-- Everything `runOnBlankTape` says about `prog` is right. -/
structure ReportsRight (T : Tape τ) (prog : Program) : Prop where
  /-- A report: the configuration after the reported number of moves has the scanned colour and the
  number of marks of the reported tape, no configuration before was blank, and the machine has halted, or
  the tape is blank, or the machine spins out. -/
  report : ∀ {lim steps cycles t}, runOnBlankTape T lim prog = some (some (steps, cycles, t)) →
    1 ≤ cycles ∧ cycles ≤ lim ∧ cycles ≤ steps + 1 ∧
    ∃ d, runFor (asProg prog) steps initCfg = some d ∧ (T.read t).1 = d.tape d.pos ∧
      MarksAre d (T.marks t) ∧
      (∀ m e, 1 ≤ m → m < steps → runFor (asProg prog) m initCfg = some e → ¬ e.Blank) ∧
      (HaltsAt (asProg prog) initCfg steps d.slot ∨ (1 ≤ steps ∧ d.Blank) ∨
        (SpinsFrom (asProg prog) d ∧ NeverHalts (asProg prog) initCfg))
  /-- `Nothing`: within that number of moves the machine does not halt and does not blank the tape. -/
  limit : ∀ {lim}, runOnBlankTape T lim prog = some none →
    ∀ m, m ≤ lim → ∃ e, runFor (asProg prog) m initCfg = some e ∧ asProg prog e.slot ≠ none ∧
      (1 ≤ m → ¬ e.Blank)

/-- The run always returns, and it does not go on after a spin-out. -/
structure RunsRight (T : Tape τ) (prog : Program) : Prop extends ReportsRight T prog where
  returns : ∀ lim, (runOnBlankTape T lim prog).isSome
  spins : ∀ {lim}, runOnBlankTape T (lim + 2) prog = some none →
    ∀ m, m ≤ lim + 1 → ∀ e, runFor (asProg prog) m initCfg = some e → ¬ SpinsFrom (asProg prog) e

theorem exec_eq (T : Tape τ) (prog : Program) (s : Nat) (t : τ) : exec T prog s t =
    if (s == (prog s (T.read t).1).2.2 && checkEdge (prog s (T.read t).1).2.1 (T.read t).2) = true then
      some ((prog s (T.read t).1).2.2, t, 0, true)
    else (if s = (prog s (T.read t).1).2.2 then
        T.skip (prog s (T.read t).1).2.1 t (prog s (T.read t).1).1
      else some (T.step (prog s (T.read t).1).2.1 t (prog s (T.read t).1).1)).map
        fun x => ((prog s (T.read t).1).2.2, x.2, x.1, false) := rfl

theorem exch_zero {n : Nat} (h : exch n = exch 0) : n = 0 := exch_inj h

theorem reports_right {T : Tape τ} {ok : Nat → Prop} {Rep : τ → Int → (Int → Nat) → Prop}
    (hT : Laws T ok Rep) {prog : Program} (hok : ∀ q c, ok (prog q c).1) : ReportsRight T prog where
  report := by
    intro lim steps cycles t h
    rw [runOnBlankTape] at h
    cases hr : run T lim prog 1 T.blankInit 0 with
    | none => rw [hr] at h; cases h
    | some r =>
      rw [hr] at h
      cases r with
      | none => cases h
      | some r =>
        obtain ⟨s, left, t'⟩ := r
        simp only [Option.map_some, Option.some.injEq, Prod.mk.injEq] at h
        obtain ⟨rfl, rfl, rfl⟩ := h
        obtain ⟨h1, h2, _, s', p', f', h3, h4, h5, h6⟩ := run_spec hT hok lim (Inv.init hT prog) hr
        refine ⟨by omega, by omega, by omega, _, h4, hT.scan h3, ?_, h5, ?_⟩
        · obtain ⟨S, hS, hc⟩ := hT.marks h3
          exact ⟨S.toList, S.nodup_toList, fun x => by rw [Finset.mem_toList]; exact hS x, by
            rw [Finset.length_toList]; exact hc⟩
        · rcases h6 with rfl | h6 | h6
          · exact .inl ⟨_, h4, rfl, asProg_none prog _⟩
          · exact .inr (.inl h6)
          · exact .inr (.inr ⟨h6, NeverHalts.of_later h4 (spins_neverHalts h6)⟩)
  limit := by
    intro lim h m hm
    rw [runOnBlankTape] at h
    cases hr : run T lim prog 1 T.blankInit 0 with
    | none => rw [hr] at h; cases h
    | some r =>
      rw [hr] at h
      cases r with
      | some r => cases h
      | none =>
        obtain ⟨n, s', t', p', f', h1, h2⟩ := run_limit hT hok lim (Inv.init hT prog) hr
        have hsome := runFor_isSome_of_le (p := asProg prog) (c := initCfg) (m := m) (n := n) (by omega)
          (by rw [h2.run]; rfl)
        cases he : runFor (asProg prog) m initCfg with
        | none => rw [he] at hsome; cases hsome
        | some e =>
          refine ⟨e, rfl, ?_, fun h1' => h2.noBlank m e h1' (by omega) he⟩
          intro hnone
          by_cases hmn : m = n
          · subst hmn
            rw [h2.run] at he
            cases he
            simp only [Cfg.slot] at hnone
            rw [asProg_some prog h2.live] at hnone
            cases hnone
          · have := runFor_isSome_of_le (p := asProg prog) (c := initCfg) (m := m + 1) (n := n)
              (by omega) (by rw [h2.run]; rfl)
            rw [runFor_succ', he, Option.bind_some, step_none hnone] at this
            cases this

theorem runs_right {T : Tape τ} {ok : Nat → Prop} {Rep : τ → Int → (Int → Nat) → Prop}
    (hT : Exact T ok Rep) {prog : Program} (hok : ∀ q c, ok (prog q c).1) : RunsRight T prog where
  toReportsRight := reports_right hT.toLaws hok
  returns := by
    intro lim
    obtain ⟨r, _, h, _⟩ := run_agree hT hT hok hok lim 1 0 hT.init hT.init (.inr ⟨rfl, rfl⟩)
    rw [runOnBlankTape, h]; rfl
  spins := by
    intro lim h m hm e he hspin
    have hr : run T (lim + 2) prog 1 T.blankInit 0 = some none := by
      rw [runOnBlankTape] at h
      cases hr : run T (lim + 2) prog 1 T.blankInit 0 with
      | none => rw [hr] at h; cases h
      | some r =>
        rw [hr] at h
        cases r with
        | none => rfl
        | some r => cases h
    rw [run] at hr
    cases hx : exec T prog 1 T.blankInit with
    | none => rw [hx] at hr; cases hr
    | some r =>
      obtain ⟨s1, t1, n, rec⟩ := r
      rw [hx] at hr
      simp only [Option.bind_some] at hr
      rcases (Inv.init hT.toLaws prog).next hT.toLaws hok hx with
        ⟨rfl, rfl, rfl, rfl, _⟩ | ⟨rfl, hn, p', f', hrep, hto, _, hI'⟩
      · rw [if_pos (by simp)] at hr; cases hr
      · by_cases hcond : (s1 == halt || T.blank t1 || false) = true
        · rw [if_pos hcond] at hr; cases hr
        · rw [if_neg hcond] at hr
          simp only [Bool.or_false, Bool.or_eq_true, beq_iff_eq, not_or] at hcond
          have hnb : ∃ x, f' x ≠ 0 := by
            by_contra hc
            push Not at hc
            exact hcond.2 ((hT.blank hrep).2 hc)
          obtain ⟨n', d, h1, h2, h3⟩ := run_limit_spin hT hok lim (hI' hcond.1 (by simpa using hcond.2)) hnb hr
          refine h3 (spins_later (n := n' - m) hspin ?_)
          have := runFor_add (p := asProg prog) m (n' - m) initCfg
          rw [show m + (n' - m) = n' by omega, h2, he] at this
          simpa using this.symm

theorem agree {T : Tape τ} {T' : Tape τ'} {ok ok' : Nat → Prop}
    {Rep : τ → Int → (Int → Nat) → Prop} {Rep' : τ' → Int → (Int → Nat) → Prop}
    (hT : Exact T ok Rep) (hT' : Exact T' ok' Rep') {prog : Program}
    (hok : ∀ q c, ok (prog q c).1) (hok' : ∀ q c, ok' (prog q c).1) (lim : Nat) :
    (runOnBlankTape T lim prog).map (Option.map fun x => (x.1, x.2.1, T.marks x.2.2)) =
      (runOnBlankTape T' lim prog).map (Option.map fun x => (x.1, x.2.1, T'.marks x.2.2)) := by
  obtain ⟨r, r', h1, h2, h3⟩ :=
    run_agree hT hT' hok hok' lim 1 0 hT.init hT'.init (.inr ⟨rfl, rfl⟩)
  rw [runOnBlankTape, runOnBlankTape, h1, h2]
  cases r with
  | none =>
    cases r' with
    | none => rfl
    | some r' => cases h3
  | some r =>
    cases r' with
    | none => cases h3
    | some r' =>
      simp only [Option.map_some, Option.some.injEq, Prod.mk.injEq] at h3 ⊢
      obtain ⟨a, b, c⟩ := h3
      exact ⟨a, by rw [b], c⟩

/-! ## C61 -/

/-- **C61.**  `runOnBlankTape` of the six machines whose tapes are spans beside the scanned cell: every
report is right, and the run returns. -/
theorem C61_right (prog : Program) :
    RunsRight cellTape prog ∧ RunsRight blockTape prog ∧ RunsRight splitTape prog ∧
      RunsRight cellVectTape prog ∧ RunsRight blockVectTape prog ∧
      ((∀ q c, (prog q c).1 < 10) → RunsRight numTape prog) :=
  ⟨runs_right cellTape_exact fun _ _ => trivial, runs_right blockTape_exact fun _ _ => trivial,
    runs_right splitTape_exact fun _ _ => trivial, runs_right cellVectTape_exact fun _ _ => trivial,
    runs_right blockVectTape_exact fun _ _ => trivial, fun h => runs_right numTape_exact h⟩

/-- What the run says that does not depend on the tape: steps, cycles, marks. -/
def outcome (T : Tape τ) (lim : Nat) (prog : Program) : Option (Option (Nat × Nat × Nat)) :=
  (runOnBlankTape T lim prog).map (Option.map fun x => (x.1, x.2.1, T.marks x.2.2))

/-- **C61, agreement.**  The six machines report the same numbers of steps, cycles and marks. -/
theorem C61_agree (prog : Program) (lim : Nat) :
    outcome blockTape lim prog = outcome cellTape lim prog ∧
      outcome splitTape lim prog = outcome cellTape lim prog ∧
      outcome cellVectTape lim prog = outcome cellTape lim prog ∧
      outcome blockVectTape lim prog = outcome cellTape lim prog ∧
      ((∀ q c, (prog q c).1 < 10) → outcome numTape lim prog = outcome cellTape lim prog) :=
  ⟨agree blockTape_exact cellTape_exact (fun _ _ => trivial) (fun _ _ => trivial) lim,
    agree splitTape_exact cellTape_exact (fun _ _ => trivial) (fun _ _ => trivial) lim,
    agree cellVectTape_exact cellTape_exact (fun _ _ => trivial) (fun _ _ => trivial) lim,
    agree blockVectTape_exact cellTape_exact (fun _ _ => trivial) (fun _ _ => trivial) lim,
    fun h => agree numTape_exact cellTape_exact h (fun _ _ => trivial) lim⟩

/-- **C61, halting.**  A machine that halts after `n` moves and has not blanked its tape is reported with
`n` steps, if the limit allows `n` cycles. -/
theorem C61_halts {T : Tape τ} {prog : Program} (hT : RunsRight T prog) {n lim : Nat} {s : Slot}
    (hh : HaltsAt (asProg prog) initCfg n s)
    (hb : ∀ m e, 1 ≤ m → m < n → runFor (asProg prog) m initCfg = some e → ¬ e.Blank)
    (hl : n ≤ lim) :
    ∃ cycles t, runOnBlankTape T lim prog = some (some (n, cycles, t)) := by
  have hret := hT.returns lim
  cases hr : runOnBlankTape T lim prog with
  | none => rw [hr] at hret; cases hret
  | some r =>
    obtain ⟨d, h1, h2, h3⟩ := hh
    cases r with
    | none =>
      obtain ⟨e, he, hne, _⟩ := hT.limit hr n hl
      rw [h1] at he; cases he
      exact absurd (h2 ▸ h3) hne
    | some r =>
      obtain ⟨steps, cycles, t⟩ := r
      obtain ⟨_, _, _, e, he, _, _, _, hend⟩ := hT.report hr
      have hle : steps ≤ n := by
        by_contra hc
        have := runFor_isSome_of_le (p := asProg prog) (c := initCfg) (m := n + 1) (n := steps)
          (by omega) (by rw [he]; rfl)
        rw [runFor_succ', h1, Option.bind_some, step_none (h2 ▸ h3)] at this
        cases this
      have : steps = n := by
        rcases hend with hend | ⟨h1', h2'⟩ | ⟨_, hnh⟩
        · exact (HaltsAt.unique ⟨d, h1, h2, h3⟩ hend).1.symm
        · by_contra hc
          exact hb steps e h1' (by omega) he h2'
        · have := hnh (n + 1)
          rw [runFor_succ', h1, Option.bind_some, step_none (h2 ▸ h3)] at this
          cases this
      subst this
      exact ⟨cycles, t, rfl⟩

/-- `1RB 1LB  1LA 1R_`, as in `/repo/idris/BB.idr`. -/
def bb2 : Program
  | 1, 0 => (1, .R, 2)
  | 1, _ => (1, .L, 2)
  | _, 0 => (1, .L, 1)
  | _, _ => (1, .R, 0)

/-- A concrete case (`/repo/idris/BB.idr`: 6 steps, 6 cycles, 4 marks). -/
example : outcome cellTape 100 bb2 = some (some (6, 6, 4)) ∧
    outcome numTape 100 bb2 = some (some (6, 6, 4)) ∧
    outcome splitTape 100 bb2 = some (some (6, 6, 4)) := by decide +kernel

/-- The limit of 5 cycles is not enough for it. -/
example : outcome blockTape 5 bb2 = some none := by decide +kernel

/-! ## C62 -/

/-- **C62 (partial).**  Every report of the machine with the tape of cells and a pointer is right,
whatever number of recursive calls its `skip` may make. -/
theorem C62_partial (fuel : Nat) (prog : Program) : ReportsRight (ptrTape fuel) prog :=
  reports_right (ptrTape_laws fuel) fun _ _ => trivial

/-- **C62, halting.**  A report about a machine that halts and has not blanked its tape is that of the
other machines. -/
theorem C62_halts (fuel : Nat) (prog : Program) {n lim steps cycles : Nat} {s : Slot} {t : PtrTape}
    (hh : HaltsAt (asProg prog) initCfg n s)
    (hb : ∀ m e, 1 ≤ m → m < n → runFor (asProg prog) m initCfg = some e → ¬ e.Blank)
    (hr : runOnBlankTape (ptrTape fuel) lim prog = some (some (steps, cycles, t))) : steps = n := by
  obtain ⟨d, h1, h2, h3⟩ := hh
  obtain ⟨_, _, _, e, he, _, _, _, hend⟩ := (C62_partial fuel prog).report hr
  rcases hend with hend | ⟨h1', h2'⟩ | ⟨_, hnh⟩
  · exact (HaltsAt.unique ⟨d, h1, h2, h3⟩ hend).1.symm
  · by_contra hc
    have hle : steps ≤ n := by
      by_contra hc
      have := runFor_isSome_of_le (p := asProg prog) (c := initCfg) (m := n + 1) (n := steps)
        (by omega) (by rw [he]; rfl)
      rw [runFor_succ', h1, Option.bind_some, step_none (h2 ▸ h3)] at this
      cases this
    exact hb steps e h1' (by omega) he h2'
  · have := hnh (n + 1)
    rw [runFor_succ', h1, Option.bind_some, step_none (h2 ▸ h3)] at this
    cases this

/-- **C62 is violated: no answer.**  A program whose first instruction is `0RA` makes `skip` of the
pointer tape go right forever; the other machines return after one step. -/
theorem C62_violated (fuel lim : Nat) (prog : Program) (h : prog 1 0 = (0, .R, 1)) :
    runOnBlankTape (ptrTape fuel) (lim + 1) prog = none ∧
      outcome cellTape (lim + 1) prog = some (some (1, 1, 0)) := by
  constructor
  · have e : exec (ptrTape fuel) prog 1 (ptrTape fuel).blankInit = none := by
      have hread : (ptrTape fuel).read (ptrTape fuel).blankInit = (0, some .L) := ptr_read_zeros 0 0
      have hskip : (ptrTape fuel).skip .R (ptrTape fuel).blankInit 0 = none :=
        ptr_skipRight_zeros fuel 0
      rw [exec_eq, hread, h, if_neg (by decide), if_pos rfl, hskip]
      rfl
    rw [runOnBlankTape, run, e]
    rfl
  · have e : exec cellTape prog 1 cellTape.blankInit = some (1, ([0], 0, []), 1, false) := by
      have hread : cellTape.read cellTape.blankInit = (0, some .L) := rfl
      have hskip : cellTape.skip .R cellTape.blankInit 0 = some (1, [0], 0, []) := by decide +kernel
      rw [exec_eq, hread, h, if_neg (by decide), if_pos rfl, hskip]
      rfl
    rw [outcome, runOnBlankTape, run, e]
    simp only [Option.bind_some]
    rw [if_pos (by decide)]
    have e1 : lim + 1 - lim = 1 := by omega
    simp only [Option.map_some, e1]
    decide

/-- `1RB 0RA  0LC 0RB  1RC 1LA`. -/
def late : Program
  | 1, 0 => (1, .R, 2)
  | 1, _ => (0, .R, 1)
  | 2, 0 => (0, .L, 3)
  | 2, _ => (0, .R, 2)
  | _, 0 => (1, .R, 3)
  | _, _ => (1, .L, 1)

/-- **C62 is violated: another answer.**  The pointer tape notices the right edge only at the last cell it
has, so a spin-out is reported a step and a cycle later. -/
theorem C62_late : outcome cellTape 100 late = some (some (6, 7, 1)) ∧
    outcome (ptrTape 100) 100 late = some (some (7, 8, 2)) := by decide +kernel

/-! ## C63 -/

/-- What `runDoubleOnBlank` says, and when it says something. -/
structure DoubleRight (T : Tape τ) (prog : Program) : Prop where
  /-- The configuration after the reported number of moves is as the reported tape says, and the machine
  runs in a recurrence from there on or from after one more round; or else the machine halts. -/
  report : ∀ {lim steps cycles t}, runDoubleOnBlank T lim prog = some (some (steps, cycles, t)) →
    (∃ d k per, runFor (asProg prog) steps initCfg = some d ∧ (T.read t).1 = d.tape d.pos ∧
        MarksAre d (T.marks t) ∧
        (k = 0 ∨ ∃ st st' t' b, d.state = exch st ∧ exec T prog st t = some (st', t', k, b)) ∧
        RecursFrom (asProg prog) (steps + k) per) ∨
      ∃ n s, HaltsAt (asProg prog) initCfg n s
  /-- If rounds lead back to the same state and tape, with different states in between, and the machine
  does not halt, then the double run reports something when the limit is high enough. -/
  finds : ∀ {s : Nat → Nat} {t : Nat → τ}, s 0 = 1 ∧ t 0 = T.blankInit →
    (∀ i, ∃ k b, exec T prog (s i) (t i) = some (s (i + 1), t (i + 1), k, b)) →
    ∀ {a c P : Nat}, 0 < P → s (a + P) = s a → t (a + P) = t a → a ≤ c → s (c + 1) ≠ s c →
    (∀ i, s i ≠ 0) → ∃ lim r, runDoubleOnBlank T lim prog = some (some r)

theorem double_report {T : Tape τ} {ok : Nat → Prop} {Rep : τ → Int → (Int → Nat) → Prop}
    (hT : Laws T ok Rep) {prog : Program} (hok : ∀ q c, ok (prog q c).1) {lim steps cycles : Nat} {t : τ}
    (h : runDoubleOnBlank T lim prog = some (some (steps, cycles, t))) :
    (∃ d k per, runFor (asProg prog) steps initCfg = some d ∧ (T.read t).1 = d.tape d.pos ∧
        MarksAre d (T.marks t) ∧
        (k = 0 ∨ ∃ st st' t' b, d.state = exch st ∧ exec T prog st t = some (st', t', k, b)) ∧
        RecursFrom (asProg prog) (steps + k) per) ∨
      ∃ n s, HaltsAt (asProg prog) initCfg n s := by
  rw [runDoubleOnBlank] at h
  cases hr : runDouble T lim prog (1, T.blankInit, 0) (1, T.blankInit, 0) with
  | none => rw [hr] at h; cases h
  | some r =>
    rw [hr] at h
    cases r with
    | none => cases h
    | some r =>
      obtain ⟨sl, left, t'⟩ := r
      simp only [Option.map_some, Option.some.injEq, Prod.mk.injEq] at h
      obtain ⟨rfl, _, rfl⟩ := h
      have hat : At Rep (asProg prog) 1 T.blankInit 0 0 (fun _ => 0) := ⟨by omega, hT.init, rfl⟩
      rcases runDouble_spec hT hok lim (.refl _) (by omega) (fun _ => rfl) hat hr with
        ⟨st, p, f, k, per, h1, h2, h3, h4, h5⟩ | h
      · refine .inl ⟨⟨exch st, p, f⟩, k, per, h3, hT.scan h2, ?_, ?_, h5⟩
        · obtain ⟨S, hS, hc⟩ := hT.marks h2
          exact ⟨S.toList, S.nodup_toList, fun x => by rw [Finset.mem_toList]; exact hS x, by
            rw [Finset.length_toList]; exact hc⟩
        · rcases h4 with h4 | ⟨st', t'', b, h4⟩
          · exact .inl h4
          · exact .inr ⟨st, st', t'', b, rfl, h4⟩
      · exact .inr h

theorem double_finds {T : Tape τ} {ok : Nat → Prop} {Rep : τ → Int → (Int → Nat) → Prop}
    (hT : Laws T ok Rep) (hrefl : ∀ x, T.beq x x = true) {prog : Program}
    (hok : ∀ q c, ok (prog q c).1) {s : Nat → Nat} {t : Nat → τ} (h0 : s 0 = 1 ∧ t 0 = T.blankInit)
    (hr : ∀ i, ∃ k b, exec T prog (s i) (t i) = some (s (i + 1), t (i + 1), k, b))
    {a c P : Nat} (hP : 0 < P) (hs : s (a + P) = s a) (ht : t (a + P) = t a)
    (hc : a ≤ c) (hch : s (c + 1) ≠ s c) (hlive : ∀ i, s i ≠ 0) :
    ∃ lim r, runDoubleOnBlank T lim prog = some (some r) := by
  let n : Nat → Nat := fun i => ((rounds T prog i).map fun x => x.2.2).getD 0
  have hn : ∀ i, rounds T prog i = some (s i, t i, n i) ∧ ∃ p f, Rep (t i) p f := by
    intro i
    induction i with
    | zero => exact ⟨by simp only [n, rounds, h0.1, h0.2]; rfl, 0, fun _ => 0, h0.2 ▸ hT.init⟩
    | succ i ih =>
      obtain ⟨h1, p, f, h2⟩ := ih
      obtain ⟨k, b, he⟩ := hr i
      have h3 : rounds T prog (i + 1) = some (s (i + 1), t (i + 1), k + n i) := by
        rw [rounds, h1]
        simp only [Option.bind_some, he, Option.map_some]
      refine ⟨by rw [h3]; simp only [n, h3]; rfl, ?_⟩
      rcases exec_spec hT hok (hlive i) h2 he with ⟨_, _, h4, _⟩ | ⟨_, _, _, ⟨p', f', h4, _⟩, _⟩
      · rw [h4]; exact ⟨p, f, h2⟩
      · exact ⟨p', f', h4⟩
  refine runDouble_finds (fun i => (hn i).1) hrefl (fun i hne => ?_) hP hs ht hc hch
  obtain ⟨k, b, he⟩ := hr i
  obtain ⟨h1, p, f, h2⟩ := hn i
  have h3 : rounds T prog (i + 1) = some (s (i + 1), t (i + 1), k + n i) := by
    rw [rounds, h1]
    simp only [Option.bind_some, he, Option.map_some]
  have h4 : n (i + 1) = k + n i := by
    have := (hn (i + 1)).1
    rw [h3] at this
    simp only [Option.some.injEq, Prod.mk.injEq, true_and] at this
    exact this.symm
  have hk : k = 1 := by
    rw [exec_eq] at he
    have hst : s i ≠ (prog (s i) (T.read (t i)).1).2.2 := by
      intro e
      split at he
      · simp only [Option.some.injEq, Prod.mk.injEq] at he
        exact hne (he.1.symm.trans e.symm)
      · rw [Option.map_eq_some_iff] at he
        obtain ⟨x, _, hx⟩ := he
        simp only [Prod.mk.injEq] at hx
        exact hne (hx.1.symm.trans e.symm)
    rw [if_neg (by simp [hst]), if_neg hst] at he
    simp only [Option.map_some, Option.some.injEq, Prod.mk.injEq] at he
    rw [← he.2.2.1]
    exact (hT.step _ h2 (hok _ _)).1
  omega

theorem double_right {T : Tape τ} {ok : Nat → Prop} {Rep : τ → Int → (Int → Nat) → Prop}
    (hT : Laws T ok Rep) (hrefl : ∀ x, T.beq x x = true) {prog : Program}
    (hok : ∀ q c, ok (prog q c).1) : DoubleRight T prog where
  report := double_report hT hok
  finds := fun h0 hr _ _ _ hP hs ht hc hch hlive => double_finds hT hrefl hok h0 hr hP hs ht hc hch hlive

/-- **C63 (partial).**  The double run of the seven machines. -/
theorem C63_partial (prog : Program) :
    DoubleRight cellTape prog ∧ DoubleRight blockTape prog ∧ DoubleRight splitTape prog ∧
      DoubleRight cellVectTape prog ∧ DoubleRight blockVectTape prog ∧
      (∀ fuel, DoubleRight (ptrTape fuel) prog) ∧
      ((∀ q c, (prog q c).1 < 10) → DoubleRight numTape prog) :=
  ⟨double_right cellTape_exact.toLaws (by simp [cellTape, ScanNSpan.tape, colorSpan]) fun _ _ => trivial,
    double_right blockTape_exact.toLaws (by simp [blockTape, ScanNSpan.tape, blockSpan])
      fun _ _ => trivial,
    double_right splitTape_exact.toLaws (by simp [splitTape, ScanNSpan.tape, splitSpan])
      fun _ _ => trivial,
    double_right cellVectTape_exact.toLaws (by simp [cellVectTape, ScanNSpan.tape, cellVectSpan])
      fun _ _ => trivial,
    double_right blockVectTape_exact.toLaws (by simp [blockVectTape, ScanNSpan.tape, blockVectSpan])
      fun _ _ => trivial,
    fun fuel => double_right (ptrTape_laws fuel) (by simp [ptrTape]) fun _ _ => trivial,
    fun h => double_right numTape_exact.toLaws (by simp [numTape, ScanNSpan.tape, numSpan]) h⟩

/-- **C63, machines that do not halt.**  A report about one is about a recurrence. -/
theorem C63_recurs {T : Tape τ} {prog : Program} (hT : DoubleRight T prog)
    (hn : NeverHalts (asProg prog) initCfg) {lim : Nat} {r}
    (h : runDoubleOnBlank T lim prog = some (some r)) : ∃ n per, RecursFrom (asProg prog) n per := by
  rcases hT.report h with ⟨_, k, per, _, _, _, _, h⟩ | ⟨n, s, h⟩
  · exact ⟨_, per, h⟩
  · exact absurd hn (fun hn => (neverHalts_iff_not_haltsAt.1 hn) ⟨n, s, h⟩)

/-- The program of `1RB 0RB  0L_ 1LA`. -/
def halting : Program := castProgram
  [[(1, .R, 2), (0, .R, 2)], [(0, .L, 0), (1, .L, 1)]]

/-- **C63 is violated.**  The double run does not look for the halting state, where a parsed program goes
on as in state A: this program halts after two moves and is reported as a recurrence. -/
theorem C63_violated : parse 2 2 "1RB 0RB  0L_ 1LA".toList = some halting ∧
    HaltsAt (asProg halting) initCfg 2 (exch 0, 1) ∧
    runDoubleOnBlank cellTape 100 halting = some (some (3, 7, [0], 0, [])) := by
  refine ⟨?_, ?_, ?_⟩
  · have h : Parser.runParser (Parser.program 2 2) "1RB 0RB  0L_ 1LA".toList =
        some [[(1, .R, 2), (0, .R, 2)], [(0, .L, 0), (1, .L, 1)]] := by decide +kernel
    rw [parse, h]; rfl
  · exact ⟨_, rfl, by decide, asProg_none _ _⟩
  · decide +kernel

/-- Concrete cases: `1RB 1RC  1LC 1RA  1RA 1LA` (`/repo/idris/BB.idr`: 9 steps, 19 cycles, 6 marks). -/
example : ((parse 3 2 "1RB 1RC  1LC 1RA  1RA 1LA".toList).bind fun prog =>
    (runDoubleOnBlank cellTape 100 prog).map (Option.map fun x => (x.1, x.2.1, cellTape.marks x.2.2))) =
      some (some (9, 19, 6)) := by decide +kernel

/-! ## C64 -/

/-- **C64 (partial).**  A text of `n` rows with `k` entries, with states up to L, is read as the program
it shows: row `i` is state `i + 1`.  Outside of the table the program halts. -/
theorem C64_partial {n k : Nat} {rows : List (List (List Char))} {tab : List (List (Nat × Bool × Nat))}
    (h : TextMeans k rows tab) (hn : tab.length = n) :
    ∃ prog, parse n k (progText rows) = some prog ∧
      (∀ q c (hq : q < tab.length) (hc : c < tab[q].length),
        prog (q + 1) c = ((tab[q][c]).1, if (tab[q][c]).2.1 then .R else .L, (tab[q][c]).2.2)) ∧
      (∀ q c, n ≤ q ∨ k ≤ c → (prog (q + 1) c).2.2 = halt) := by
  subst hn
  refine ⟨_, parse_rows h, ?_, ?_⟩
  · intro q c hq hc
    rw [castProgram_eq]
    simp only [Nat.add_sub_cancel, List.getElem?_map, List.getElem?_eq_getElem hq, Option.map_some,
      Option.getD_some, List.getElem?_eq_getElem hc]
    rfl
  · intro q c hqc
    rw [castProgram_eq]
    simp only [Nat.add_sub_cancel, List.getElem?_map]
    by_cases hq : q < tab.length
    · have hl : tab[q].length = k := by
        have := (List.forall₂_iff_get.1 h).2 q (by
          have := h.length_eq
          omega) hq
        exact this.2
      rw [List.getElem?_eq_getElem hq]
      simp only [Option.map_some, Option.getD_some, List.getElem?_map]
      rw [List.getElem?_eq_none (by omega)]
      rfl
    · rw [List.getElem?_eq_none (l := tab) (by omega)]
      rfl

/-- **C64, what is accepted.**  A text that is read has `n` rows of `k` entries of three characters, with
one white space character between entries and two between rows. -/
theorem C64_accepts {n k : Nat} {s : List Char} {prog : Program} (h : parse n k s = some prog) :
    ∃ rows : List (List (List Char)), rows.length = n ∧
      (∀ row ∈ rows, row.length = k ∧ ∀ e ∈ row, EntryLike e) ∧ s.map plainSpace = progText rows := by
  rw [parse, Option.map_eq_some_iff] at h
  obtain ⟨iss, h, _⟩ := h
  rw [Parser.runParser] at h
  split at h
  · rename_i h1
    obtain ⟨rows, h2, h3, h4⟩ := program_some n k h1
    exact ⟨rows, h2, h3, by simpa using h4⟩
  · cases h

theorem joinWith_eq (sep : List Char) : ∀ l, joinWith sep l = sep.intercalate l
  | [] => by simp [joinWith, List.intercalate]
  | [r] => by simp [joinWith, List.intercalate]
  | r :: s :: rs => by
    rw [joinWith, joinWith_eq sep (s :: rs), intercalate_two, List.append_assoc]

theorem lookup_mem {t : Table} {s : Slot} {i : Instr} (h : t.get? s = some i) : (s, i) ∈ t := by
  induction t with
  | nil => cases h
  | cons e t ih =>
    obtain ⟨s', i'⟩ := e
    simp only [Table.get?, List.lookup_cons] at h ih
    split at h
    · rename_i hs
      cases h
      rw [beq_iff_eq] at hs
      subst hs
      exact List.mem_cons_self
    · exact List.mem_cons_of_mem _ (ih h)

theorem show_entry {t : Table} (hi : ∀ e ∈ t, e.2.1 < 10 ∧ e.2.2.2 < 12) (s : Slot) :
    Entry (showInstr (t.get? s)) (match t.get? s with
      | some (c, d, q) => (c, d, q + 1)
      | none => (0, true, 0)) := by
  cases h : t.get? s with
  | none => exact .undef
  | some i =>
    obtain ⟨c, d, q⟩ := i
    have hm := hi _ (lookup_mem h)
    simp only at hm
    have e1 : Nat.toDigits 10 c = [Char.ofNat (48 + c)] := toDigits_lt_ten c hm.1
    have e2 : showState q = if q + 1 = 0 then '_' else Char.ofNat (64 + (q + 1)) := by
      have hq : @LT.lt Nat _ q 12 := hm.2
      rw [if_neg (Nat.succ_ne_zero q), showState]
      congr 1
      unfold State at *
      omega
    simp only [showInstr, e1, e2, List.cons_append, List.nil_append]
    exact .instr hm.1 (Nat.succ_lt_succ hm.2)

theorem forall₂_map_range {α β γ : Type} {R : β → γ → Prop} {f : α → β} {g : α → γ} {l : List α}
    (h : ∀ x ∈ l, R (f x) (g x)) : List.Forall₂ R (l.map f) (l.map g) := by
  rw [List.forall₂_map_left_iff, List.forall₂_map_right_iff]
  induction l with
  | nil => exact .nil
  | cons a l ih =>
    exact .cons (h a List.mem_cons_self) (ih fun x hx => h x (List.mem_cons_of_mem _ hx))

/-- **C64, agreement with the other parser.**  The text shown by the Rust code for a table with at most 12
states and 10 colours is read as a program that makes the same moves, and halts one move after the table
runs into a missing instruction (the move to the halting state). -/
theorem C64_table (t : Table) (S C : Nat) (hin : ∀ e ∈ t, e.1.1 < S ∧ e.1.2 < C)
    (hi : ∀ e ∈ t, e.2.1 < 10 ∧ e.2.2.2 < 12) :
    ∃ prog, parse S C (t.show (some (S, C))) = some prog ∧
      (∀ n q x f, runFor t.get? n initCfg = some ⟨q, x, f⟩ →
        runFor (asProg prog) n initCfg = some ⟨exch (q + 1), x, f⟩) ∧
      (∀ n s, HaltsAt t.get? initCfg n s → ∃ s', HaltsAt (asProg prog) initCfg (n + 1) s') ∧
      (NeverHalts t.get? initCfg → NeverHalts (asProg prog) initCfg) := by
  let g : Slot → Nat × Bool × Nat := fun s => match t.get? s with
      | some (c, d, q) => (c, d, q + 1)
      | none => (0, true, 0)
  let rows := (List.range S).map fun st => (List.range C).map fun co => showInstr (t.get? (st, co))
  let tab := (List.range S).map fun st => (List.range C).map fun co => g (st, co)
  have htext : t.show (some (S, C)) = progText rows := by
    simp only [Table.show, Option.getD_some, joinWith_eq, progText, rows, List.map_map]
    rfl
  have hm : TextMeans C rows tab := by
    refine forall₂_map_range fun st _ => ⟨forall₂_map_range fun co _ => show_entry hi (st, co), ?_⟩
    simp
  obtain ⟨prog, h1, h2, h3⟩ := C64_partial hm (n := S) (by simp [tab])
  rw [← htext] at h1
  have hmatch : Matches t.get? prog := by
    intro q c
    by_cases hq : q < S
    · by_cases hc : c < C
      · have := h2 q c (by simpa [tab] using hq) (by simpa [tab] using hc)
        simp only [tab, List.getElem_map, List.getElem_range] at this
        cases h : t.get? (q, c) with
        | none => simp only; rw [this]; simp only [g, h]
        | some i =>
          obtain ⟨pr, dir, tr⟩ := i
          simp only
          rw [this]; simp only [g, h]
      · cases h : t.get? (q, c) with
        | none => exact h3 q c (.inr (Nat.le_of_not_lt hc))
        | some i => exact absurd (hin _ (lookup_mem h)).2 hc
    · cases h : t.get? (q, c) with
      | none => exact h3 q c (.inl (Nat.le_of_not_lt hq))
      | some i => exact absurd (hin _ (lookup_mem h)).1 hq
  exact ⟨prog, h1, fun n q x f => hmatch.run n q x f, fun n s => hmatch.halts, hmatch.neverHalts⟩

/-- Thirteen states; only A and M are used, and M goes right forever. -/
def thirteen : List Char :=
  "1RM  ...  ...  ...  ...  ...  ...  ...  ...  ...  ...  ...  1RM".toList

/-- **C64 is violated.**  The letter of the thirteenth state is read as the halting state: a table that
never halts is read as a program that halts after one move. -/
theorem C64_violated :
    fromStr thirteen = some [((0, 0), (1, true, 12)), ((12, 0), (1, true, 12))] ∧
      NeverHalts (Table.get? [((0, 0), (1, true, 12)), ((12, 0), (1, true, 12))]) initCfg ∧
      ∃ prog, parse 13 1 thirteen = some prog ∧ ∃ s, HaltsAt (asProg prog) initCfg 1 s := by
  refine ⟨by decide +kernel, ?_, ?_⟩
  · refine NeverHalts.of_later (n := 1) rfl (spins_neverHalts ⟨1, true, rfl, fun k => ?_⟩)
    have : (1 + (k : Int)) ≠ 0 := by omega
    simp [Cfg.exec, initCfg, this]
  · have h : Parser.runParser (Parser.program 13 1) thirteen = some ([[(1, .R, 0)]] ++
        List.replicate 11 [(0, .R, 0)] ++ [[(1, .R, 0)]]) := by decide +kernel
    refine ⟨_, by rw [parse, h]; rfl, _, ⟨_, rfl, rfl, asProg_none _ _⟩⟩

/-- A concrete case: white space other than the space is accepted as separator, a missing row is not. -/
example : (parse 2 2 "1RB\t1LB  1LA\n1R_".toList).isSome = true ∧
    (parse 2 2 "1RB 1LB".toList).isSome = false := by decide +kernel

end BB.Idris
