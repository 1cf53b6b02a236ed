import Verif.Lemmas.RsProver
import Verif.Props.Prover

/-!
# C45, C46: the Rust `run_prover`

`run_prover(prog, sim_lim)` (`/repo/src/machine.rs`) reports how a run ends, with the number of
steps, of marks, and the blank tapes seen.  C45 says that the report is about the ordinary
machine; C46 that a rule application that fails leaves the tape alone.
-/

namespace BB

/-! ## C45 -/

/-- **C45, violation (infrul).**  `run_prover` reports `infrul`; the machine halts. -/
theorem C45_infrul_violation :
    ∃ (p : Prog) (r : MachineResult), Rs.runProver p 100 = .ok r ∧ r.result = .infrul ∧
      HaltsAt p initCfg 98 (8, 1) :=
  ⟨counter 8, ⟨.infrul, 41, 31, 6, 0, [], none⟩, by decide +kernel, rfl,
    haltsAt_of_quick (lim := 200) (by decide +kernel) (by decide +kernel) (by decide +kernel)⟩

/-- **C45, violation (undfnd).**  `run_prover` reports slot (23, 0); the machine stops at another
one. -/
theorem C45_undfnd_violation :
    ∃ (p : Prog) (r : MachineResult), Rs.runProver p 200 = .ok r ∧
      r.undfnd = some (some (91, (23, 0))) ∧ HaltsAt p initCfg 112 (21, 2) :=
  ⟨jumper 12 9 none none, ⟨.undfnd, 91, 71, 12, 5, [], some (23, 0)⟩, by decide +kernel, rfl,
    haltsAt_of_quick (lim := 200) (by decide +kernel) (by decide +kernel) (by decide +kernel)⟩

/-- **C45, violation (undfnd, never halting).** -/
theorem C45_undfnd_never_violation :
    ∃ (p : Prog) (r : MachineResult), Rs.runProver p 200 = .ok r ∧
      r.undfnd = some (some (91, (23, 0))) ∧ NeverHalts p initCfg :=
  ⟨jumper 12 9 none (some (2, true, 24)), ⟨.undfnd, 91, 71, 12, 5, [], some (23, 0)⟩,
    by decide +kernel, rfl, C05_never _ 200 (Or.inl (by decide +kernel))⟩

/-- **C45, violation (spnout).**  `run_prover` reports a spin-out; the machine halts. -/
theorem C45_spnout_violation :
    ∃ (p : Prog) (r : MachineResult), Rs.runProver p 200 = .ok r ∧ r.result = .spnout ∧
      HaltsAt p initCfg 112 (21, 2) :=
  ⟨jumper 12 9 (some (0, true, 24)) none, ⟨.spnout, 92, 72, 12, 5, [], none⟩,
    by decide +kernel, rfl,
    haltsAt_of_quick (lim := 200) (by decide +kernel) (by decide +kernel) (by decide +kernel)⟩

/-- **C45, violation (steps).**  Even where the verdict, the slot and the marks are right, the
number of steps is not: moves made by rules are not counted. -/
theorem C45_steps_violation :
    ∃ (p : Prog) (r : MachineResult), Rs.runProver p 400 = .ok r ∧
      r.undfnd = some (some (91, (24, 0))) ∧ HaltsAt p initCfg 181 (24, 0) :=
  ⟨jumper 12 13 none none, ⟨.undfnd, 91, 72, 12, 5, [], some (24, 0)⟩, by decide +kernel, rfl,
    haltsAt_of_quick (lim := 400) (by decide +kernel) (by decide +kernel) (by decide +kernel)⟩

/-- Writes `2 1^a 0 1^b 3`, goes back into the gap, then wipes one 1 at either side of the gap in
turn until it meets the 2 or the 3. -/
def eater (a b : Nat) : Prog := fun (q, c) =>
  if q = 0 then (if c = 0 then some (2, true, 1) else none)
  else if q ≤ a then (if c = 0 then some (1, true, q + 1) else none)
  else if q = a + 1 then (if c = 0 then some (0, true, a + 2) else none)
  else if q < a + b + 2 then (if c = 0 then some (1, true, q + 1) else none)
  else if q = a + b + 2 then (if c = 0 then some (3, false, a + b + 3) else none)
  else if q = a + b + 3 then
    (if c = 1 then some (1, false, a + b + 3)
      else if c = 0 then some (0, false, a + b + 4) else none)
  else if q = a + b + 4 then
    (if c = 0 then some (0, false, a + b + 4)
      else if c = 1 then some (0, true, a + b + 5) else none)
  else if q = a + b + 5 then
    (if c = 0 then some (0, true, a + b + 5)
      else if c = 1 then some (0, false, a + b + 4) else none)
  else none

/-- **C45, violation (marks).**  The rule for this machine is true, and two counts decrease; the
Rust version adds to one of them.  It reports 12 marks on the final tape, which has 4; the Python
version gets the tape right. -/
theorem C45_marks_violation :
    ∃ (p : Prog) (r : MachineResult) (d : Cfg), Rs.runProver p 300 = .ok r ∧
      r.result = .undfnd ∧ r.lastSlot = some (26, 2) ∧ r.marks = 12 ∧
      HaltsAt p initCfg 268 (26, 2) ∧ runFor p 268 initCfg = some d ∧
      (∃ S : Finset Int, (∀ x, x ∈ S ↔ d.tape x ≠ 0) ∧ S.card = 4) ∧
      (Machine.run p 300).result = .undfnd (26, 2) ∧ (Machine.run p 300).tape.marks = 4 := by
  have hq : (runQuick (eater 10 12) 1000).steps = 268 := by decide +kernel
  have hm : (runQuick (eater 10 12) 1000).marks = 4 := by decide +kernel
  obtain ⟨d, h1, h2⟩ := (runQuick_spec (eater 10 12) 1000).run
  rw [hq] at h1
  rw [hm] at h2
  exact ⟨eater 10 12, ⟨.undfnd, 152, 52, 12, 4, [], some (26, 2)⟩, d, by decide +kernel, rfl, rfl,
    rfl, haltsAt_of_quick (lim := 1000) (by decide +kernel) (by decide +kernel) (by decide +kernel),
    h1, h2, by decide +kernel, by decide +kernel⟩

/-- **C45, what holds (any prover whose answers are right).**  With a rule prover that answers
`InfiniteRule` only for machines that never halt, whose rules lead to configurations the machine
reaches by making moves, and whose refused rules leave the tape alone: the verdicts are right, and
`marks` counts the nonzero cells after some number of moves, at least `steps`; for `undfnd`, after
the moves the machine makes before it stops. -/
theorem C45_right_prover_partial {π : Type} (p : Prog) (try_ : Rs.TryRule π) (init : π)
    (hr : try_.Right p) (lim : Nat) (r : MachineResult)
    (h : Rs.runProverWith try_ init p lim = .ok r) :
    (∃ n d, r.steps ≤ n ∧ runFor p n initCfg = some d ∧
      (∃ S : Finset Int, (∀ x, x ∈ S ↔ d.tape x ≠ 0) ∧ S.card = r.marks) ∧
      (r.result = .undfnd → ∃ slot, r.lastSlot = some slot ∧ HaltsAt p initCfg n slot)) ∧
    (r.result = .spnout ∨ r.result = .infrul → NeverHalts p initCfg) := by
  have := Rs.proverLoop_spec hr lim 0 init _ 0 0 (Rs.pinv_init p) r h
  exact ⟨this.after, this.never⟩

/-- **C45, what holds (no rule applied).**  If the report says that no rule was applied, it is the
report of `run_quick_machine` for the same limit, or else the rule prover ended the run (`infrul`,
`cfglim`, `mulrul`), and then everything but the verdict is what `run_quick_machine` reports
when limited to that cycle. -/
theorem C45_no_rule_partial (p : Prog) (lim : Nat) (hlim : lim ≤ 2 ^ 32) (r : MachineResult)
    (h : Rs.runProver p lim = .ok r) (h0 : r.rulapp = 0) :
    r = runQuick p lim ∨
    (r.cycles < lim ∧ (r.result = .infrul ∨ r.result = .cfglim ∨ r.result = .mulrul) ∧
      runQuick p r.cycles = { r with result := .xlimit, cycles := 0 }) := by
  rcases Rs.runProver_norule p lim r hlim h h0 with h | ⟨c, h1, h2, h3, h4⟩
  · exact Or.inl h
  · right
    rw [Nat.zero_add] at h2
    exact ⟨by omega, h3, by rw [h2]; exact h4⟩

/-- **C45, what holds (no rule applied), in terms of the machine.**  `undfnd` and `spnout` are
right, and `steps`, `marks` and `blanks` are those of the machine after exactly `steps` moves. -/
theorem C45_no_rule_meaning_partial (p : Prog) (lim : Nat) (hlim : lim ≤ 2 ^ 32)
    (r : MachineResult) (h : Rs.runProver p lim = .ok r) (h0 : r.rulapp = 0) :
    (r.result = .undfnd → ∃ slot, r.lastSlot = some slot ∧ HaltsAt p initCfg r.steps slot) ∧
    (r.result = .spnout → NeverHalts p initCfg) ∧
    (∃ d, runFor p r.steps initCfg = some d ∧
      ∃ S : Finset Int, (∀ x, x ∈ S ↔ d.tape x ≠ 0) ∧ S.card = r.marks) ∧
    (∀ q n, r.blanks.lookup q = some n ↔ FirstBlankAt p q n ∧ n ≤ r.steps) := by
  rcases C45_no_rule_partial p lim hlim r h h0 with rfl | ⟨_, h2, h3⟩
  · have hs := runQuick_spec p lim
    exact ⟨hs.undfnd, fun h => hs.never (Or.inl h), hs.run, hs.blanks⟩
  · have hs := runQuick_spec p r.cycles
    rw [h3] at hs
    refine ⟨fun h => ?_, fun h => ?_, hs.run, hs.blanks⟩ <;> rw [h] at h2 <;> simp at h2

/-- Cases for the two theorems: a run that stops by itself, and one ended by the prover. -/
example : Rs.runProver bb2 100 = .ok ⟨.undfnd, 5, 5, 4, 0, [], some (1, 1)⟩ ∧
    Rs.runProver (counter 8) 100 = .ok ⟨.infrul, 41, 31, 6, 0, [], none⟩ := by
  constructor <;> decide +kernel

/-- A prover that knows one rule, for one tape of `pairer`. -/
def rsPairProver : Rs.TryRule Unit := fun _ _ q t =>
  ((), if q = 8 ∧ t = ⟨[⟨1, 6⟩], 1, [⟨2, 1⟩]⟩
    then .ok (.got [((false, 0), .plus (-2)), ((true, 0), .plus 2)]) else .ok .none)

theorem rsPairProver_right : rsPairProver.Right pairer where
  infinite := by
    intro pr cycle q t n pos _ _ h
    simp only [rsPairProver] at h
    split at h <;> simp at h
  applied := by
    intro pr cycle q t n pos rule times t' hc hrun h ha
    simp only [rsPairProver] at h
    split at h
    case isFalse => simp at h
    case isTrue hq =>
      obtain ⟨rfl, rfl⟩ := hq
      simp only [Except.ok.injEq, Rs.ProverResult.got.injEq] at h
      subst h
      have e : Rs.applyRuleOn Rs.basicTape [((false, 0), .plus (-2)), ((true, 0), .plus 2)]
          ⟨[⟨1, 6⟩], 1, [⟨2, 1⟩]⟩ = .ok (some 2, ⟨[⟨1, 2⟩], 1, [⟨2, 5⟩]⟩) := by rfl
      rw [e] at ha
      simp only [Except.ok.injEq, Prod.mk.injEq, Option.some.injEq] at ha
      obtain ⟨rfl, rfl⟩ := ha
      exact pairProver_right.applied () cycle 8 _ n pos
        [((false, 0), .plus (-2)), ((true, 0), .plus 2)] 2 _ hc hrun rfl rfl
  refused := by
    intro pr cycle q t n pos rule t' _ _ h ha
    simp only [rsPairProver] at h
    split at h
    case isFalse => simp at h
    case isTrue hq =>
      obtain ⟨rfl, rfl⟩ := hq
      simp only [Except.ok.injEq, Rs.ProverResult.got.injEq] at h
      subst h
      have e : Rs.applyRuleOn Rs.basicTape [((false, 0), .plus (-2)), ((true, 0), .plus 2)]
          ⟨[⟨1, 6⟩], 1, [⟨2, 1⟩]⟩ = .ok (some 2, ⟨[⟨1, 2⟩], 1, [⟨2, 5⟩]⟩) := by rfl
      rw [e] at ha
      simp at ha

/-- Case for `C45_right_prover_partial`, with a rule applied. -/
example : Rs.runProverWith rsPairProver () pairer 50
      = .ok ⟨.undfnd, 11, 12, 8, 2, [], some (9, 0)⟩ ∧
    ∃ n, 11 ≤ n ∧ HaltsAt pairer initCfg n (9, 0) := by
  have h : Rs.runProverWith rsPairProver () pairer 50
      = .ok ⟨.undfnd, 11, 12, 8, 2, [], some (9, 0)⟩ := by decide +kernel
  refine ⟨h, ?_⟩
  obtain ⟨⟨n, d, h1, _, _, h2⟩, _⟩ :=
    C45_right_prover_partial pairer rsPairProver () rsPairProver_right 50 _ h
  obtain ⟨slot, h3, h4⟩ := h2 rfl
  simp only [Option.some.injEq] at h3
  subst h3
  exact ⟨n, h1, h4⟩

/-! ## C46 -/

/-- **C46, violation.**  Two counts grow and one shrinks; the second product does not fit 64 bits.
`apply_rule` answers `None`, and the first count has already been changed. -/
theorem C46_violation :
    ∃ (rule : Rule) (t t' : Tape), t.Canonical ∧
      Rs.applyRuleOn Rs.basicTape rule t = .ok (none, t') ∧ t' ≠ t :=
  ⟨[((false, 0), .plus 3), ((true, 0), .plus (-1)), ((true, 1), .plus (2 ^ 30))],
    ⟨[⟨1, 1⟩], 0, [⟨1, 2 ^ 40⟩, ⟨2, 1⟩]⟩,
    ⟨[⟨1, 3 * (2 ^ 40 - 1) + 1⟩], 0, [⟨1, 1⟩, ⟨2, 1⟩]⟩,
    ⟨.last _ _ (by decide) (by decide),
      .cons _ _ _ _ _ (by decide) (by decide) (.last _ _ (by decide) (by decide))⟩,
    by decide +kernel, by decide⟩

/-- **C46, what holds (Rust).**  If no product of a difference and a count overflows 64 bits, a
rule application that answers `None` leaves the tape alone. -/
theorem C46_no_overflow_partial (rule : Rule) (t t' : Tape) (B : Nat)
    (hl : ∀ b ∈ t.lspan, b.count ≤ B) (hr : ∀ b ∈ t.rspan, b.count ≤ B)
    (hd : ∀ i d, (i, Op.plus d) ∈ rule → d.natAbs * B < 2 ^ 64)
    (h : Rs.applyRuleOn Rs.basicTape rule t = .ok (none, t')) : t' = t := by
  refine Rs.applyRuleOn_none B ?_ hd h
  intro i c hc
  simp only [Rs.basicTape, Rs.getCount] at hc
  split at hc
  · simp at hc
  · rename_i b hb
    simp only [Except.ok.injEq] at hc
    subst hc
    have := List.mem_of_getElem? hb
    split at this
    · exact hr _ this
    · exact hl _ this

/-- **C46, what holds (Python).**  There the tape is left alone whenever the answer is `None`. -/
theorem C46_py (rule : Rule) (t t' : Tape)
    (h : applyRule Tape.indexTape rule t = .ok (none, t')) : t' = t :=
  applyRule_none_tape h

/-- Cases: a rule refused because a count is too small. -/
example : Rs.applyRuleOn Rs.basicTape [((false, 0), .plus 3), ((true, 0), .plus (-2))]
      ⟨[⟨1, 1⟩], 0, [⟨1, 2⟩]⟩ = .ok (none, ⟨[⟨1, 1⟩], 0, [⟨1, 2⟩]⟩) ∧
    applyRule Tape.indexTape [((false, 0), .plus 3), ((true, 0), .plus (-2))]
      ⟨[⟨1, 1⟩], 0, [⟨1, 2⟩]⟩ = .ok (none, ⟨[⟨1, 1⟩], 0, [⟨1, 2⟩]⟩) := by
  constructor <;> rfl

end BB
