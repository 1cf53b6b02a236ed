import Verif.Lemmas.Undef

/-!
# C32: `run_for_undefined`
-/

namespace BB

/-- **C32, Python.**  A returned pair is the step and the slot at which the machine, started on
blank tape, has no instruction.  `None` means that the machine never comes to such a slot or makes
at least `lim` steps. -/
theorem C32_python (lim : Nat) (p : Norm) :
    (∀ n slot, runForUndefined lim p = some (n, slot) → HaltsAt p.getitem initCfg n slot) ∧
    (runForUndefined lim p = none →
      NeverHalts p.getitem initCfg ∨ (runFor p.getitem lim initCfg).isSome) := by
  have := pyRunUndef_spec p.getitem lim Tape.init 0 0 Tape.canonical_init
    ⟨0, by rw [← initCfg_eq]; rfl⟩
  rw [Nat.zero_add] at this
  exact this

/-- **C32, Python, nothing is missed**: a machine that stops before `lim` steps is reported. -/
theorem C32_python_complete (lim : Nat) (p : Norm) (n : Nat) (slot : Slot)
    (h : HaltsAt p.getitem initCfg n slot) (hn : n < lim) :
    runForUndefined lim p = some (n, slot) := by
  obtain ⟨h1, h2⟩ := C32_python lim p
  cases hr : runForUndefined lim p with
  | some r =>
    obtain ⟨m, s⟩ := r
    obtain ⟨e1, e2⟩ := (h1 m s hr).unique h
    rw [e1, e2]
  | none =>
    exfalso
    rcases h2 hr with h' | h'
    · exact neverHalts_iff_not_haltsAt.1 h' ⟨n, slot, h⟩
    · obtain ⟨d, hd1, hd2, hd3⟩ := h
      have := runFor_isSome_of_le (show n + 1 ≤ lim by omega) h'
      rw [runFor_succ', hd1] at this
      simp [step, hd2, hd3] at this

/-- **C32, Rust.**  Started on a tape and state the machine is in after `steps` steps: a returned
slot is the one where the machine stops, at a step not before, and the tape left is the tape there;
an error means that it never stops or that its tape is blank at some later time; running out of the
limit means at least that many further steps. -/
theorem C32_rust (lim : Nat) (p : Prog) (t : Tape) (q : State) (steps : Nat) (pos : Int)
    (hc : t.Canonical) (hrun : runFor p steps initCfg = some (t.cfg q pos)) :
    (∀ slot, (rsRunUndef p lim q t).1 = .undef slot →
      ∃ n pos', steps ≤ n ∧ HaltsAt p initCfg n slot ∧
        runFor p n initCfg = some ((rsRunUndef p lim q t).2.cfg slot.1 pos')) ∧
    ((rsRunUndef p lim q t).1 = .err →
      NeverHalts p initCfg ∨ ∃ r n, steps < n ∧ BlankAt p r n) ∧
    ((rsRunUndef p lim q t).1 = .lim → (runFor p (steps + lim) initCfg).isSome) := by
  obtain ⟨h1, h2, h3, h4⟩ := rsRunUndef_spec p lim t q steps hc ⟨pos, hrun⟩
  refine ⟨?_, h3, h4⟩
  intro slot hs
  obtain ⟨k1, k2, n, pos', k3, k4⟩ := h2 slot hs
  refine ⟨n, pos', k3, ⟨_, k4, ?_, k2⟩, k4⟩
  rw [Tape.slot_cfg, ← k1]

/-- **C32, Rust, nothing is missed**: if the machine stops after fewer than `lim` further steps
and its tape is not blank on the way, the slot is returned. -/
theorem C32_rust_complete (lim : Nat) (p : Prog) (t : Tape) (q : State) (steps : Nat) (pos : Int)
    (hc : t.Canonical) (hrun : runFor p steps initCfg = some (t.cfg q pos)) (n : Nat) (slot : Slot)
    (h : HaltsAt p initCfg n slot) (hn : n < steps + lim)
    (hb : ∀ r m, steps < m → m ≤ n → ¬ BlankAt p r m) :
    (rsRunUndef p lim q t).1 = .undef slot := by
  obtain ⟨h1, h2, h3⟩ := C32_rust lim p t q steps pos hc hrun
  cases hr : (rsRunUndef p lim q t).1 with
  | undef s =>
    obtain ⟨m, -, -, h4, -⟩ := h1 s hr
    rw [(h4.unique h).2]
  | err =>
    exfalso
    rcases h2 hr with h' | ⟨r, m, h4, h5⟩
    · exact neverHalts_iff_not_haltsAt.1 h' ⟨n, slot, h⟩
    · by_cases hm : m ≤ n
      · exact hb r m h4 hm h5
      · obtain ⟨d, hd1, hd2, hd3⟩ := h
        obtain ⟨e, he, -, -⟩ := h5
        have := runFor_isSome_of_le (show n + 1 ≤ m by omega) (by rw [he]; rfl)
        rw [runFor_succ', hd1] at this
        simp [step, hd2, hd3] at this
  | lim =>
    exfalso
    obtain ⟨d, hd1, hd2, hd3⟩ := h
    have := runFor_isSome_of_le (show n + 1 ≤ steps + lim by omega) (h3 hr)
    rw [runFor_succ', hd1] at this
    simp [step, hd2, hd3] at this

/-- Both on a partial program: the slot B1 is missing at step 5. -/
theorem C32_example :
    runForUndefined 1000 (Norm.ofRows [[some (1, true, 1), some (1, false, 1)],
      [some (1, false, 0), none]]) = some (5, (1, 1)) ∧
    (rsRunUndef (Norm.ofRows [[some (1, true, 1), some (1, false, 1)],
      [some (1, false, 0), none]]).getitem 1000 1 Tape.initStepped).1 = .undef (1, 1) := by
  decide +kernel

end BB
