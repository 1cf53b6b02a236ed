import Verif.Lemmas.LinRecComplete
import Verif.Props.LinRec
import Verif.Props.LinRecStrict

/-!
# C59, C60: the fast recurrence checks find every recurrence, and nothing else

`run_loose_linrec_machine` (Python) and `quick_term_or_rec` (Rust) compare the tape with one earlier tape,
taken anew at growing distances.
-/

namespace BB
open BB.PyRec

/-- **C59.**  What `run_loose_linrec_machine` reports of a program with A0 = 1RB is right. -/
theorem C59_sound (p : Prog) (lim : Nat) (h0 : p (0, 0) = some (1, true, 1)) :
    ((looseRun p lim).result = .undfnd → ∃ slot, (looseRun p lim).lastSlot = some slot ∧
      HaltsAt p initCfg (looseRun p lim).steps slot) ∧
    ((looseRun p lim).result = .spnout → RecursFrom p (looseRun p lim).steps 1) ∧
    ((looseRun p lim).result = .infrul → ∃ n, n < (looseRun p lim).steps ∧
      RecursFrom p n ((looseRun p lim).steps - n)) ∧
    ((looseRun p lim).result = .xlimit → lim ≤ (looseRun p lim).steps ∧
      (runFor p (looseRun p lim).steps initCfg).isSome) ∧
    ((looseRun p lim).result = .undfnd ∨ (looseRun p lim).result = .spnout ∨
      (looseRun p lim).result = .infrul ∨ (looseRun p lim).result = .xlimit) := by
  have h := looseLoop_spec p (lim - 1) 1 _ (TopInv.start h0)
  refine ⟨h.undfnd, h.spnout, h.infrul, fun hx => ⟨?_, h.run⟩, h.kinds⟩
  have := (h.xlimit hx).1
  unfold looseRun
  omega

/-- **C59.**  The table of blank tapes lists exactly the first moves after which the tape is blank. -/
theorem C59_blanks (p : Prog) (lim : Nat) (h0 : p (0, 0) = some (1, true, 1)) (q : State) (n : Nat) :
    (looseRun p lim).blanks.lookup q = some n ↔ FirstBlankAt p q n ∧ n ≤ (looseRun p lim).steps :=
  (looseLoop_spec p (lim - 1) 1 _ (TopInv.start h0)).blanks q n

/-- **C59.**  A machine that recurs from move `n` with period `per` is reported as running forever once the
limit is `2 * max (n + 1) per + per`; a machine that halts in fewer moves than the limit is reported. -/
theorem C59_complete (p : Prog) (lim : Nat) (h0 : p (0, 0) = some (1, true, 1)) :
    (∀ n per, RecursFrom p n per → 2 * max (n + 1) per + per ≤ lim →
      (looseRun p lim).result = .spnout ∨ (looseRun p lim).result = .infrul) ∧
    (∀ n slot, HaltsAt p initCfg n slot → n < lim →
      (looseRun p lim).result = .undfnd ∧ (looseRun p lim).steps = n ∧
        (looseRun p lim).lastSlot = some slot) := by
  obtain ⟨h1, h2, h3, h4, h5⟩ := C59_sound p lim h0
  constructor
  · intro n per hr hl
    have hx : (looseRun p lim).result ≠ .xlimit := by
      refine looseLoop_complete p hr (lim - 1) 1 _ (TopInv.start h0) 1 (by simp [LooseState.start]) ?_
      have := hr.1
      simp only [LooseState.start]
      split <;> omega
    rcases h5 with h | h | h | h
    · obtain ⟨slot, _, hh⟩ := h1 h
      exact absurd ⟨_, _, hh⟩ (neverHalts_iff_not_haltsAt.mp hr.neverHalts)
    · exact Or.inl h
    · exact Or.inr h
    · exact absurd h hx
  · intro n slot hh hn
    have hno : ∀ m per, ¬ RecursFrom p m per := fun m per hr =>
      neverHalts_iff_not_haltsAt.mp hr.neverHalts ⟨_, _, hh⟩
    rcases h5 with h | h | h | h
    · obtain ⟨slot', e, hh'⟩ := h1 h
      obtain ⟨a, b⟩ := hh'.unique hh
      exact ⟨h, a, by rw [e, b]⟩
    · exact absurd (h2 h) (hno _ _)
    · obtain ⟨m, _, hr⟩ := h3 h
      exact absurd hr (hno _ _)
    · obtain ⟨a, b⟩ := h4 h
      obtain ⟨d, h3, h4, h5⟩ := hh
      have := runFor_isSome_of_le (p := p) (c := initCfg)
        (show n + 1 ≤ (looseRun p lim).steps by omega) b
      subst h4
      rw [runFor_succ', h3] at this
      simp [step_none h5] at this

/-- **C59, violated without 1RB.**  The run starts after the move 1RB whatever A0 is: a machine that halts
at once is said to run forever. -/
theorem C59_needs_1RB : ∃ p : Prog, (looseRun p 10).result = .spnout ∧ HaltsAt p initCfg 0 (0, 0) := by
  refine ⟨fun s => if s = (1, 0) then some (1, true, 1) else none, by decide +kernel, ?_⟩
  exact ⟨initCfg, rfl, rfl, rfl⟩

/-- **C60.**  `quick_term_or_rec` (with halting programs not dropped) says `True` only of programs that
recur. -/
theorem C60_sound (p : Prog) (simLim : Nat) (h0 : p (0, 0) = some (1, true, 1))
    (h : quickTermOrRec p simLim false = true) : ∃ n per, RecursFrom p n per :=
  recLoop_recurs (simLim - 1) 1 1 1 1 _ (Nat.le_refl _) (RInv.start h0) h

/-- **C60.**  It says `True` of every program that recurs from move `n` with period `per`, once the limit is
`2 * max (n + 1) per + per`. -/
theorem C60_complete (p : Prog) (simLim : Nat) (dropHalt : Bool) (h0 : p (0, 0) = some (1, true, 1))
    (n per : Nat) (hr : RecursFrom p n per) (hl : 2 * max (n + 1) per + per ≤ simLim) :
    quickTermOrRec p simLim dropHalt = true := by
  refine recLoop_complete hr dropHalt (simLim - 1) 1 1 1 1 _ (Nat.le_refl _) (RInv.start h0) ?_
  have := hr.1
  simp only
  split <;> omega

/-- **C60.**  With some limit the answer is `True` exactly for the programs that recur. -/
theorem C60_exact (p : Prog) (h0 : p (0, 0) = some (1, true, 1)) :
    (∃ simLim, quickTermOrRec p simLim false = true) ↔ ∃ n per, RecursFrom p n per :=
  ⟨fun ⟨simLim, h⟩ => C60_sound p simLim h0 h,
    fun ⟨n, per, hr⟩ => ⟨_, C60_complete p _ false h0 n per hr (Nat.le_refl _)⟩⟩

/-! ## Concrete cases -/

/-- `1RB 0LB  1LA 1RA` recurs from move 5 with period 6; the bound of the theorems is 18. -/
example : (looseRun bouncer 18).result = .infrul ∧ quickTermOrRec bouncer 18 false = true :=
  ⟨by rcases (C59_complete bouncer 18 rfl).1 5 6 C58_not_least.2 (by decide) with h | h
      · exact absurd h (by decide +kernel)
      · exact h,
    C60_complete bouncer 18 false rfl 5 6 C58_not_least.2 (by decide)⟩

/-- With a small limit the answer is `False`. -/
example : quickTermOrRec bouncer 8 false = false ∧ (looseRun bouncer 8).result = .xlimit := by
  decide +kernel

/-- A machine that halts. -/
example : (looseRun samplerWitness 100).result = .undfnd ∧ (looseRun samplerWitness 100).steps = 16 := by
  decide +kernel

end BB
