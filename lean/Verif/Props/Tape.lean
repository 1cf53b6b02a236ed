import Verif.Lemmas.Skip

/-!
# C01, C02, C03: the run-length tape

`Tape.cfg t q pos` is the ordinary configuration (ℤ-tape) that a run-length tape
stands for; `disp shift n` is `+n` for right and `-n` for left.
-/

namespace BB

/-- **C01 (Python).**  `Tape.step` is exactly `stepped` moves of the ordinary
machine: for any program whose instruction at the current slot is the one being
executed (and stays in the same state when `skip` is requested), running the
ordinary machine for `stepped` moves gives the configuration the new tape denotes. -/
theorem C01_py_step (p : Prog) (q q' : State) (t : Tape) (shift : Bool) (c : Color) (skip : Bool)
    (hcount : ∀ b ∈ t.lspan ++ t.rspan, 1 ≤ b.count)
    (hp : p (q, t.scan) = some (c, shift, q')) (hskip : skip = true → q' = q) (pos : Int) :
    1 ≤ (Py.step t shift c skip).2 ∧
    runFor p (Py.step t shift c skip).2 (t.cfg q pos)
      = some ((Py.step t shift c skip).1.cfg q' (pos + disp shift (Py.step t shift c skip).2)) := by
  have hl : PosCounts t.lspan := fun b hb => hcount b (by simp [hb])
  have hr : PosCounts t.rspan := fun b hb => hcount b (by simp [hb])
  rw [py_step_eq_rs_step t hl hr]
  exact Rs.step_run hl hr hp hskip pos

/-- **C01 (Rust).**  The same for `Tape::step`. -/
theorem C01_rs_step (p : Prog) (q q' : State) (t : Tape) (shift : Bool) (c : Color) (skip : Bool)
    (hcount : ∀ b ∈ t.lspan ++ t.rspan, 1 ≤ b.count)
    (hp : p (q, t.scan) = some (c, shift, q')) (hskip : skip = true → q' = q) (pos : Int) :
    1 ≤ (Rs.step t shift c skip).2 ∧
    runFor p (Rs.step t shift c skip).2 (t.cfg q pos)
      = some ((Rs.step t shift c skip).1.cfg q' (pos + disp shift (Rs.step t shift c skip).2)) :=
  Rs.step_run (fun b hb => hcount b (by simp [hb])) (fun b hb => hcount b (by simp [hb]))
    hp hskip pos

/-- **C01 (how far a skip goes).**  The number of moves is 1 without `skip`; with
`skip` it is one more than the length of the run of cells, next to the head on the side
moved to, that equal the scanned colour; the run is exactly that long. -/
theorem C01_stepped (t : Tape) (ht : t.Canonical) (shift : Bool) (c : Color) (skip : Bool)
    (pos : Int) :
    (skip = false → (Py.step t shift c skip).2 = 1) ∧
    (skip = true → ¬ (t.atEdge shift = true) →
      (∀ k : Nat, k < (Py.step t shift c skip).2 → t.cells pos (pos + disp shift k) = t.scan) ∧
      t.cells pos (pos + disp shift (Py.step t shift c skip).2) ≠ t.scan) := by
  rw [py_step_eq_rs_step t ht.l.posCounts ht.r.posCounts]
  exact Rs.step_stepped ht shift c skip pos

/-- Non-trivial case for C01: sweeping right over `2 2 2` while writing 7, onto a block of 7s. -/
example : Py.step ⟨[⟨7, 4⟩], 2, [⟨2, 3⟩, ⟨1, 2⟩]⟩ true 7 true = (⟨[⟨7, 8⟩], 1, [⟨1, 1⟩]⟩, 4) := by
  decide

/-- A sequence of calls of the Python `Tape.step`. -/
def Py.steps (t : Tape) : List (Bool × Color × Bool) → Tape
  | [] => t
  | (shift, c, skip) :: rest => Py.steps (Py.step t shift c skip).1 rest

theorem Py.steps_canonical {t : Tape} (h : t.Canonical) (ops : List (Bool × Color × Bool)) :
    (Py.steps t ops).Canonical := by
  induction ops generalizing t with
  | nil => exact h
  | cons op rest ih =>
    obtain ⟨shift, c, skip⟩ := op
    rw [Py.steps, py_step_eq_rs_step t h.l.posCounts h.r.posCounts]
    exact ih (h.rsStep shift c skip)

/-- **C02.**  After any sequence of steps from the blank tape: every count is positive,
neighbouring blocks differ in colour, the outermost block is not 0; `blank`, `at_edge` and
`marks` are exact; two such tapes are equal iff they denote the same cells. -/
theorem C02_canonical (ops : List (Bool × Color × Bool)) (t : Tape)
    (ht : t = Py.steps Tape.init ops) :
    (∀ s ∈ [t.lspan, t.rspan],
      (∀ b ∈ s, 1 ≤ b.count) ∧
      (∀ l b b' r, s = l ++ b :: b' :: r → b.color ≠ b'.color) ∧
      (∀ l b, s = l ++ [b] → b.color ≠ 0)) ∧
    (∀ pos, t.blank = true ↔ ∀ x, t.cells pos x = 0) ∧
    (∀ pos, t.atEdge true = true ↔ ∀ x, pos ≤ x → t.cells pos x = 0) ∧
    (∀ pos, t.atEdge false = true ↔ ∀ x, x ≤ pos → t.cells pos x = 0) ∧
    (∀ pos, ∃ S : Finset Int, (∀ x, x ∈ S ↔ t.cells pos x ≠ 0) ∧ S.card = t.marks) ∧
    (∀ ops' pos, t.cells pos = (Py.steps Tape.init ops').cells pos ↔
      t = Py.steps Tape.init ops') := by
  have hc : t.Canonical := ht ▸ Py.steps_canonical Tape.canonical_init ops
  refine ⟨?_, hc.blank_iff, hc.atEdge_right_iff, hc.atEdge_left_iff, t.marks_cells, ?_⟩
  · have key : ∀ s, Canon s → (∀ b ∈ s, 1 ≤ b.count) ∧
        (∀ l b b' r, s = l ++ b :: b' :: r → b.color ≠ b'.color) ∧
        (∀ l b, s = l ++ [b] → b.color ≠ 0) := by
      intro s hs
      refine ⟨hs.posCounts, ?_, ?_⟩
      · intro l
        induction l generalizing s with
        | nil =>
          intro b b' r e
          subst e
          cases hs with
          | cons _ _ _ _ _ h => exact h
        | cons a l ih =>
          intro b b' r e
          subst e
          exact ih _ hs.tail b b' r rfl
      · intro l
        induction l generalizing s with
        | nil =>
          intro b e
          subst e
          cases hs with
          | last _ _ h => exact h
        | cons a l ih =>
          intro b e
          subst e
          exact ih _ hs.tail b rfl
    intro s hs
    simp only [List.mem_cons, List.not_mem_nil, or_false] at hs
    rcases hs with rfl | rfl
    · exact key _ hc.l
    · exact key _ hc.r
  · intro ops' pos
    constructor
    · exact fun h => hc.ext_cells (Py.steps_canonical Tape.canonical_init ops') pos h
    · intro h; rw [h]

/-- Non-trivial case for C02. -/
example : Py.steps Tape.init [(true, 1, false), (true, 2, false), (false, 0, false),
    (false, 3, true)] = ⟨[], 1, [⟨3, 1⟩]⟩ := by decide

/-- **C03.**  The Python and the Rust step agree on every tape with positive counts. -/
theorem C03_py_eq_rs (t : Tape) (hcount : ∀ b ∈ t.lspan ++ t.rspan, 1 ≤ b.count)
    (shift : Bool) (c : Color) (skip : Bool) : Py.step t shift c skip = Rs.step t shift c skip :=
  py_step_eq_rs_step t (fun b hb => hcount b (by simp [hb])) (fun b hb => hcount b (by simp [hb]))
    shift c skip

/-- Non-trivial case for C03. -/
example : Rs.step ⟨[⟨7, 4⟩], 2, [⟨2, 3⟩, ⟨1, 2⟩]⟩ true 5 true
    = (⟨[⟨5, 4⟩, ⟨7, 4⟩], 1, [⟨1, 1⟩]⟩, 4) := by decide

end BB
