import Verif.Lemmas.Prover
import Verif.Props.Quick
import Verif.Props.Tape

/-!
# C20: runs accelerated by rules

`Machine.run` (`/repo/tm/machine.py`) reports `undfnd`, `spnout` or `infrul`.  The property says
the ordinary machine then stops at that slot, or never stops.  All three halves are false for the
prover that exists; they are true for any prover whose answers are right, and the parts of a run
before the first rule is applied are always right.
-/

namespace BB

/-- States `0..K` walk right over at most `K` ones; state `K+1` walks back.  Each trip adds one
1 on the left...  until the trip is too long for the states. -/
def counter (K : Nat) : Prog := fun (q, c) =>
  if q ≤ K then
    if c = 0 then some (1, false, K + 1)
    else if c = 1 then (if q < K then some (1, true, q + 1) else none) else none
  else if q = K + 1 then
    if c = 0 then some (0, true, 0) else if c = 1 then some (1, false, K + 1) else none
  else none

theorem haltsAt_of_quick {p : Prog} {lim n : Nat} {slot : Slot}
    (h1 : (runQuick p lim).result = .undfnd) (h2 : (runQuick p lim).lastSlot = some slot)
    (h3 : (runQuick p lim).steps = n) : HaltsAt p initCfg n slot := by
  obtain ⟨slot', e, h⟩ := (runQuick_spec p lim).undfnd h1
  rw [h2] at e
  cases e
  rw [← h3]
  exact h

/-- **C20, violation (infrul).**  Ten states, two colours: `Machine.run` reports `infrul`, but the
ordinary machine halts, after 98 moves. -/
theorem C20_infrul_violation :
    ∃ p : Prog, (Machine.run p 100).result = .infrul ∧ HaltsAt p initCfg 98 (8, 1) := by
  refine ⟨counter 8, by decide +kernel, ?_⟩
  exact haltsAt_of_quick (lim := 200) (by decide +kernel) (by decide +kernel) (by decide +kernel)

/-- First `M` 2s are written leftwards; then the block of 1s between the head's turning points
grows to the right, eating 2s.  State `M + j` walks over the `j`-th 1, so a rule inferred from
short trips does not hold for trips of length `K`. -/
def jumper (M K : Nat) (fin seen : Option Instr) : Prog := fun (q, c) =>
  if q < M then (if c = 0 then some (2, false, q + 1) else none)
  else if q ≤ M + K then
    match c with
    | 0 => if q = M then some (0, true, M) else none
    | 1 => some (1, true, if q < M + K then q + 1 else M + K + 2)
    | 2 => if q = M + K then seen else some (1, false, M + K + 1)
    | _ => none
  else if q = M + K + 1 then
    match c with
    | 0 => some (0, true, M)
    | 1 => some (1, false, M + K + 1)
    | _ => none
  else if q = M + K + 2 then
    match c with
    | 0 => fin
    | 1 => some (1, true, M + K + 2)
    | 2 => some (1, false, M + K + 1)
    | _ => none
  else if q = M + K + 3 then
    match c with
    | 0 => some (0, true, M + K + 3)
    | 1 => some (1, true, M + K + 3)
    | 2 => some (2, true, M + K + 3)
    | _ => none
  else none

/-- **C20, violation (undfnd).**  `Machine.run` reports that the run stops at slot (23, 0); the
ordinary machine stops at another one. -/
theorem C20_undfnd_violation :
    ∃ p : Prog, (Machine.run p 200).result = .undfnd (23, 0) ∧ HaltsAt p initCfg 112 (21, 2) := by
  refine ⟨jumper 12 9 none none, by decide +kernel, ?_⟩
  exact haltsAt_of_quick (lim := 200) (by decide +kernel) (by decide +kernel) (by decide +kernel)

/-- **C20, violation (undfnd, never halting).**  `Machine.run` reports an undefined slot; the
ordinary machine never halts. -/
theorem C20_undfnd_never_violation :
    ∃ p : Prog, (Machine.run p 200).result = .undfnd (23, 0) ∧ NeverHalts p initCfg := by
  refine ⟨jumper 12 9 none (some (2, true, 24)), by decide +kernel, ?_⟩
  exact C05_never _ 200 (Or.inl (by decide +kernel))

/-- **C20, violation (spnout).**  `Machine.run` reports a spin-out; the ordinary machine halts. -/
theorem C20_spnout_violation :
    ∃ p : Prog, (Machine.run p 200).result = .spnout ∧ HaltsAt p initCfg 112 (21, 2) := by
  refine ⟨jumper 12 9 (some (0, true, 24)) none, by decide +kernel, ?_⟩
  exact haltsAt_of_quick (lim := 200) (by decide +kernel) (by decide +kernel) (by decide +kernel)

/-- **C20, what holds (any prover whose answers are right).**  With a rule prover that, asked
about configurations the machine really reaches, answers `InfiniteRule` only when the machine
never halts, and only hands out rules whose application leads to a configuration the machine
reaches by making moves, the three reports are right, and the reported step count is exact unless
it is -1.  Missing: the prover of the code does not meet the hypothesis (see the violations). -/
theorem C20_right_prover_partial {π : Type} (p : Prog) (try_ : TryRule π) (init : π)
    (hr : try_.Right p) (lim : Nat) :
    (∀ slot, (runWith try_ init p lim).result = .undfnd slot →
      ∃ n, HaltsAt p initCfg n slot ∧
        ((runWith try_ init p lim).steps = -1 ∨ (runWith try_ init p lim).steps = n)) ∧
    ((runWith try_ init p lim).result = .spnout ∨ (runWith try_ init p lim).result = .infrul →
      NeverHalts p initCfg) := by
  have := runLoop_spec hr lim 0 _ 0 (rinv_init p init)
  exact ⟨this.undfnd, this.never⟩

/-- **C20, what holds (before the first rule).**  If the reported step count is not -1 (no rule
was applied), `undfnd` and `spnout` are right, whatever the prover, and the tape left behind is the
ordinary machine's tape after exactly that many moves. -/
theorem C20_no_rule_partial (p : Prog) (lim : Nat) (hm : (Machine.run p lim).steps ≠ -1) :
    (∀ slot, (Machine.run p lim).result = .undfnd slot →
      ∃ n : Nat, (Machine.run p lim).steps = (n : Int) ∧ HaltsAt p initCfg n slot) ∧
    ((Machine.run p lim).result = .spnout → NeverHalts p initCfg) ∧
    (∃ (n : Nat) (d : Cfg), (Machine.run p lim).steps = (n : Int) ∧
      runFor p n initCfg = some d ∧ ∃ pos, d.tape = (Machine.run p lim).tape.cells pos) :=
  runLoop_norule lim 0 _ 0 (rinv_init p _) hm

/-- Case for `C20_no_rule_partial`: the two-state champion, which stops at step 6. -/
example : (Machine.run bb2 100).steps ≠ -1 ∧
    (Machine.run bb2 100).result = .undfnd (1, 1) := by decide +kernel

/-! ### A case for `C20_right_prover_partial`: a prover that really applies a rule -/

/-- Writes seven 1s and a 2, then turns 1s into 2s walking left, two states alternating. -/
def pairer : Prog := fun (q, c) =>
  if q < 7 then (if c = 0 then some (1, true, q + 1) else none)
  else if q = 7 then (if c = 0 then some (2, false, 8) else none)
  else if q = 8 then (if c = 1 then some (2, false, 9) else none)
  else if q = 9 then (if c = 1 then some (2, false, 8) else none)
  else none

/-- Knows one rule, for one tape. -/
def pairProver : TryRule Unit := fun _ _ q t =>
  ((), if q = 8 ∧ t = ⟨[⟨1, 6⟩], 1, [⟨2, 1⟩]⟩
    then .ok (some [((false, 0), .plus (-2)), ((true, 0), .plus 2)]) else .ok none)

theorem pairProver_right : pairProver.Right pairer where
  infinite := by
    intro pr cycle q t n pos _ _ h
    simp only [pairProver] at h
    split at h <;> simp at h
  applied := by
    intro pr cycle q t n pos rule times t' _ _ h ha
    simp only [pairProver] at h
    split at h
    case isFalse => simp at h
    case isTrue hq =>
      obtain ⟨rfl, rfl⟩ := hq
      simp only [Except.ok.injEq, Option.some.injEq] at h
      subst h
      have e : applyRule Tape.indexTape [((false, 0), .plus (-2)), ((true, 0), .plus 2)]
          ⟨[⟨1, 6⟩], 1, [⟨2, 1⟩]⟩ = .ok (some 2, ⟨[⟨1, 2⟩], 1, [⟨2, 5⟩]⟩) := by rfl
      rw [e] at ha
      simp only [Except.ok.injEq, Prod.mk.injEq, Option.some.injEq] at ha
      obtain ⟨rfl, rfl⟩ := ha
      have st : ∀ (q : State) (n m : Nat) (pos : Int), q = 8 ∨ q = 9 →
          runFor pairer 1 ((⟨[⟨1, n + 2⟩], 1, [⟨2, m + 1⟩]⟩ : Tape).cfg q pos)
            = some ((⟨[⟨1, n + 1⟩], 1, [⟨2, m + 2⟩]⟩ : Tape).cfg (17 - q) (pos - 1)) := by
        intro q n m pos hq
        have := (C01_rs_step pairer q (17 - q) ⟨[⟨1, n + 2⟩], 1, [⟨2, m + 1⟩]⟩ false 2 false
          (by simp) (by rcases hq with rfl | rfl <;> rfl) (by simp) pos).2
        have e : Rs.step ⟨[⟨1, n + 2⟩], 1, [⟨2, m + 1⟩]⟩ false 2 false
            = (⟨[⟨1, n + 1⟩], 1, [⟨2, m + 2⟩]⟩, 1) := by
          simp [Rs.step, Rs.pull, Rs.push]
        rw [e] at this
        exact this
      refine ⟨⟨.last _ _ (by decide) (by decide), .last _ _ (by decide) (by decide)⟩, 4, pos - 1 - 1 - 1 - 1, by omega, ?_⟩
      exact runFor_trans (m := 3) (runFor_trans (m := 2) (runFor_trans (m := 1)
        (st 8 4 0 pos (.inl rfl)) (st 9 3 1 _ (by decide)))
        (st 8 2 2 _ (by decide))) (st 9 1 3 _ (by decide))

example : (runWith pairProver () pairer 50).result = .undfnd (9, 0) ∧
    (runWith pairProver () pairer 50).rulapp = 2 ∧ ∃ n, HaltsAt pairer initCfg n (9, 0) := by
  have h : (runWith pairProver () pairer 50).result = .undfnd (9, 0) := by decide +kernel
  refine ⟨h, by decide +kernel, ?_⟩
  obtain ⟨n, hn, _⟩ :=
    (C20_right_prover_partial pairer pairProver () pairProver_right 50).1 _ h
  exact ⟨n, hn⟩

end BB
