import Verif.Lemmas.IdrisCells
import Verif.Props.Idris

/-!
# The number of cells that the Idris implementation shows

`show tape` is `show (cells tape, marks tape)` (`Tape.idr` L46-49).
-/

namespace BB.Idris

variable {τ : Type}

/-- The tape of every report has as many cells as the head has been on. -/
def CellsRight (T : Tape τ) (prog : Program) : Prop :=
  ∀ {lim steps cycles t}, runOnBlankTape T lim prog = some (some (steps, cycles, t)) →
    VisitedAre (asProg prog) steps (T.cells t)

theorem visitedAre_of {P : Prog} {n : Nat} {p : Int} {a b : Nat}
    (h : VisitedFromTo P n (p - a) (p + b)) : VisitedAre P n (a + 1 + b) := by
  refine ⟨(List.range (a + 1 + b)).map fun i : Nat => p - a + i, ?_, ?_, by simp⟩
  · refine List.Nodup.map ?_ List.nodup_range
    intro i j hij
    simp only at hij
    omega
  · intro x
    refine Iff.trans ?_ (h x).symm
    rw [List.mem_map]
    constructor
    · rintro ⟨i, hi, rfl⟩
      rw [List.mem_range] at hi
      omega
    · intro hx
      exact ⟨(x - (p - a)).toNat, by rw [List.mem_range]; omega, by omega⟩

theorem cells_right {T : Tape τ} {ok : Nat → Prop} {Rep : τ → Int → (Int → Nat) → Prop}
    {left right : τ → Nat} (hT : Laws T ok Rep) (hz : Sized T Rep left right) {prog : Program}
    (hok : ∀ q c, ok (prog q c).1) : CellsRight T prog := by
  intro lim steps cycles t h
  rw [runOnBlankTape] at h
  cases hr : run T lim prog 1 T.blankInit 0 with
  | none => rw [hr] at h; cases h
  | some r =>
    rw [hr] at h
    cases r with
    | none => cases h
    | some r =>
      obtain ⟨s, lf, t'⟩ := r
      simp only [Option.map_some, Option.some.injEq, Prod.mk.injEq] at h
      obtain ⟨rfl, rfl, rfl⟩ := h
      have h0 : VisitedFromTo (asProg prog) 0 (0 - left T.blankInit) (0 + right T.blankInit) := by
        rw [hz.init.1, hz.init.2]
        intro x
        constructor
        · rintro ⟨m, d, hm, hd, rfl⟩
          obtain rfl : m = 0 := by omega
          cases hd
          exact ⟨le_refl _, le_refl _⟩
        · intro hx
          have hx0 : x = 0 := by simp at hx; omega
          exact ⟨0, initCfg, le_refl _, rfl, hx0.symm⟩
      obtain ⟨p', h1, h2⟩ := run_cells hT hz hok lim (Inv.init hT prog) h0 hr
      rw [h1]
      exact visitedAre_of h2

/-- **C65**, for all tapes but `NumTape`: the number of cells shown with a report is the number of cells
the head has been on. -/
theorem C65_partial (prog : Program) :
    CellsRight cellTape prog ∧ CellsRight blockTape prog ∧ CellsRight splitTape prog ∧
      CellsRight cellVectTape prog ∧ CellsRight blockVectTape prog ∧
      ∀ fuel, CellsRight (ptrTape fuel) prog :=
  ⟨cells_right cellTape_exact.toLaws (scan_sized colorSpan_sizes) fun _ _ => trivial,
    cells_right blockTape_exact.toLaws (scan_sized blockSpan_sizes) fun _ _ => trivial,
    cells_right splitTape_exact.toLaws (scan_sized splitSpan_sizes) fun _ _ => trivial,
    cells_right cellVectTape_exact.toLaws (scan_sized cellVectSpan_sizes) fun _ _ => trivial,
    cells_right blockVectTape_exact.toLaws (scan_sized blockVectSpan_sizes) fun _ _ => trivial,
    fun fuel => cells_right (ptrTape_laws fuel) (ptrTape_sized fuel) fun _ _ => trivial⟩

/-- It halts after 6 moves with four marks on four cells. -/
theorem C65_example : (runOnBlankTape blockTape 10 bb2).map
    (Option.map fun x => (x.1, blockTape.cells x.2.2, blockTape.marks x.2.2)) =
      some (some (6, 4, 4)) := by decide +kernel

/-- `0R_  …`: halts after one move. -/
def stopper : Program := fun _ _ => (0, .R, 0)

/-- **C65, violated by `NumTape`.**  The head has been on two cells, three are shown: an empty span
counts as a cell. -/
theorem C65_violated : ∃ steps cycles t,
    runOnBlankTape numTape 10 stopper = some (some (steps, cycles, t)) ∧ numTape.cells t = 3 ∧
      VisitedAre (asProg stopper) steps 2 := by
  have e : runOnBlankTape cellTape 10 stopper = some (some (1, 1, ([0], 0, []))) := by decide +kernel
  have e' : runOnBlankTape numTape 10 stopper = some (some (1, 1, (0, 0, 0))) := by decide +kernel
  exact ⟨_, _, _, e', by decide +kernel, (C65_partial stopper).1 e⟩

/-- `1LB ...  0LC ...  0RD ...  0RE ...  ... 1R_`. -/
def wide : Program
  | 1, _ => (1, .L, 2)
  | 2, _ => (0, .L, 3)
  | 3, _ => (0, .R, 4)
  | 4, _ => (0, .R, 5)
  | _, _ => (1, .R, 0)

/-- `NumTape` also loses cells: the head has been on four, three are shown. -/
theorem C65_loses : ∃ steps cycles t,
    runOnBlankTape numTape 10 wide = some (some (steps, cycles, t)) ∧ numTape.cells t = 3 ∧
      VisitedAre (asProg wide) steps 4 := by
  have e : runOnBlankTape cellTape 10 wide = some (some (5, 5, ([1, 0, 0], 0, []))) := by
    decide +kernel
  have e' : runOnBlankTape numTape 10 wide = some (some (5, 5, (1, 0, 0))) := by decide +kernel
  exact ⟨_, _, _, e', by decide +kernel, (C65_partial wide).1 e⟩

end BB.Idris
