import Verif.Lemmas.Quick

/-! # C04, C05, C06: the rule-free runner `run_quick_machine` -/

namespace BB

/-- **C04 (soundness).**  A reported `undfnd` is exactly where and when the ordinary machine
stops, with the right number of marks. -/
theorem C04_undfnd (p : Prog) (lim : Nat) (h : (runQuick p lim).result = .undfnd) :
    ∃ slot d, (runQuick p lim).undfnd = some (some ((runQuick p lim).steps, slot)) ∧
      HaltsAt p initCfg (runQuick p lim).steps slot ∧
      runFor p (runQuick p lim).steps initCfg = some d ∧
      ∃ S : Finset Int, (∀ x, x ∈ S ↔ d.tape x ≠ 0) ∧ S.card = (runQuick p lim).marks := by
  have hs := runQuick_spec p lim
  obtain ⟨slot, h1, h2⟩ := hs.undfnd h
  obtain ⟨d, h3, h4⟩ := hs.run
  exact ⟨slot, d, by simp [MachineResult.undfnd, h, h1], h2, h3, h4⟩

/-- **C04 (completeness).**  A machine that stops after fewer than `lim` moves is reported as
`undfnd` at exactly that step and slot. -/
theorem C04_complete (p : Prog) (lim n : Nat) (slot : Slot) (hn : n < lim)
    (h : HaltsAt p initCfg n slot) :
    (runQuick p lim).undfnd = some (some (n, slot)) := by
  have hs := runQuick_spec p lim
  have hnever : ¬ NeverHalts p initCfg := by
    rw [neverHalts_iff_not_haltsAt]; exact fun hc => hc ⟨n, slot, h⟩
  cases hr : (runQuick p lim).result with
  | undfnd =>
    obtain ⟨s', h1, h2⟩ := hs.undfnd hr
    obtain ⟨e1, e2⟩ := h2.unique h
    simp [MachineResult.undfnd, hr, h1, e1, e2]
  | xlimit =>
    exfalso
    have h1 := hs.xlimit hr
    obtain ⟨d, h2, _⟩ := hs.run
    obtain ⟨e, he, hsl, hp⟩ := h
    have := runFor_isSome_of_le (p := p) (c := initCfg) (m := n + 1)
      (n := (runQuick p lim).steps) (by omega) (by rw [h2]; rfl)
    rw [runFor_succ', he] at this
    subst hsl
    simp [step_none hp] at this
  | spnout => exact absurd (hs.never (.inl hr)) hnever
  | infrul => exact absurd (hs.never (.inr hr)) hnever
  | cfglim => exact absurd hr hs.cats.1
  | mulrul => exact absurd hr hs.cats.2

/-- **C04 (xlimit).**  When the limit is reported, the ordinary machine has made `steps` moves
(at least `lim` of them) without stopping; whatever is reported, it is in a configuration with
`marks` nonzero cells after `steps` moves. -/
theorem C04_xlimit (p : Prog) (lim : Nat) :
    ((runQuick p lim).result = .xlimit → lim ≤ (runQuick p lim).steps) ∧
    ∃ d, runFor p (runQuick p lim).steps initCfg = some d ∧
      ∃ S : Finset Int, (∀ x, x ∈ S ↔ d.tape x ≠ 0) ∧ S.card = (runQuick p lim).marks :=
  ⟨(runQuick_spec p lim).xlimit, (runQuick_spec p lim).run⟩

/-- **C05.**  `spnout` and `infrul` mean the machine never stops. -/
theorem C05_never (p : Prog) (lim : Nat)
    (h : (runQuick p lim).result = .spnout ∨ (runQuick p lim).result = .infrul) :
    NeverHalts p initCfg :=
  (runQuick_spec p lim).never h

/-- **C06.**  The `blanks` table lists exactly the first steps (after the start) at which the
ordinary machine is on a blank tape in a given state, among the steps covered by the run. -/
theorem C06_blanks (p : Prog) (lim : Nat) (q : State) (n : Nat) :
    (runQuick p lim).blanks.lookup q = some n ↔
      FirstBlankAt p q n ∧ n ≤ (runQuick p lim).steps :=
  (runQuick_spec p lim).blanks q n

/-! ## Concrete cases -/

/-- BB(2): `1RB 1LB  1LA ...` with its halt slot left undefined; stops after 5 moves. -/
def bb2 : Prog
  | (0, 0) => some (1, true, 1)
  | (0, 1) => some (1, false, 1)
  | (1, 0) => some (1, false, 0)
  | _ => none

example : (runQuick bb2 100).result = .undfnd ∧ (runQuick bb2 100).steps = 5 ∧
    (runQuick bb2 100).marks = 4 ∧ (runQuick bb2 100).lastSlot = some (1, 1) := by decide

/-- `1RB 0LC  0LA ...  0LA ...`: writes a mark, erases it, is back at the start. -/
def blanker : Prog
  | (0, 0) => some (1, true, 1)
  | (0, 1) => some (0, false, 2)
  | (1, 0) => some (0, false, 0)
  | (2, 0) => some (0, false, 0)
  | _ => none

example : (runQuick blanker 100).result = .infrul ∧
    (runQuick blanker 100).blanks = [(0, 4), (2, 3)] := by decide

/-- `1RB ...  1RB ...`: spins out. -/
def spinner : Prog
  | (0, 0) => some (1, true, 1)
  | (1, 0) => some (1, true, 1)
  | _ => none

example : (runQuick spinner 100).result = .spnout := by decide

end BB
