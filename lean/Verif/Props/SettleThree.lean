import Verif.Props.Settle

/-!
# C77 for three states and two colours

The 3140 programs of the tree, of which the checks of the code (`run_quick`, `quick_term_or_rec`
with small limits) leave 58; these are dealt with by pairs of automata
(`Lemmas/HalfTapes`), which are not in the code.
-/

namespace BB

/-- Programs with automata for the left and the right half of the tape. -/
def hard32 : List (Table × Half.Dfa × Half.Dfa) := [
  ([((0, 0), (1, true, 1)), ((0, 1), (1, false, 0)), ((1, 0), (0, false, 0)), ((1, 1), (0, false, 2)), ((2, 1), (1, true, 0))],
    [[0, 1], [0, 1]], [[0, 0]]),
  ([((0, 0), (1, true, 1)), ((0, 1), (1, false, 2)), ((1, 0), (0, false, 0)), ((1, 1), (0, true, 1)), ((2, 0), (1, false, 0))],
    [[0, 1], [2, 3], [1, 1], [3, 3]], [[0, 1], [0, 0]]),
  ([((0, 0), (1, true, 1)), ((1, 0), (0, false, 1)), ((1, 1), (1, true, 2)), ((2, 0), (1, false, 1)), ((2, 1), (0, true, 2))],
    [[0, 0]], [[0, 0]]),
  ([((0, 0), (1, true, 1)), ((1, 0), (0, false, 2)), ((1, 1), (0, true, 1)), ((2, 0), (1, false, 2)), ((2, 1), (1, false, 0))],
    [[0, 1], [1, 2], [2, 2]], [[0, 0]]),
  ([((0, 0), (1, true, 1)), ((0, 1), (0, false, 2)), ((1, 0), (0, false, 2)), ((1, 1), (1, true, 0)), ((2, 1), (1, false, 0))],
    [[0, 1], [2, 0], [2, 2]], [[0, 1], [0, 2], [2, 2]]),
  ([((0, 0), (1, true, 1)), ((0, 1), (1, false, 0)), ((1, 0), (0, false, 2)), ((1, 1), (1, true, 1)), ((2, 1), (1, false, 0))],
    [[0, 1], [0, 1]], [[0, 0]]),
  ([((0, 0), (1, true, 1)), ((1, 0), (0, false, 2)), ((1, 1), (0, true, 0)), ((2, 0), (0, true, 0)), ((2, 1), (1, false, 1))],
    [[0, 1], [0, 2], [2, 2]], [[0, 1], [0, 2], [2, 2]]),
  ([((0, 0), (1, true, 1)), ((1, 0), (0, false, 2)), ((1, 1), (0, true, 1)), ((2, 0), (0, true, 0)), ((2, 1), (1, false, 1))],
    [[0, 0]], [[0, 1], [0, 1]]),
  ([((0, 0), (1, true, 1)), ((1, 0), (0, false, 2)), ((1, 1), (0, true, 0)), ((2, 0), (1, false, 0)), ((2, 1), (1, false, 1))],
    [[0, 1], [2, 3], [3, 1], [3, 3]], [[0, 1], [0, 2], [2, 2]]),
  ([((0, 0), (1, true, 1)), ((1, 0), (0, false, 2)), ((1, 1), (0, false, 1)), ((2, 0), (1, true, 2)), ((2, 1), (1, false, 1))],
    [[0, 0]], [[0, 0]]),
  ([((0, 0), (1, true, 1)), ((0, 1), (1, true, 0)), ((1, 0), (0, false, 2)), ((2, 0), (0, true, 0)), ((2, 1), (1, false, 2))],
    [[0, 0]], [[0, 1], [2, 1], [2, 2]]),
  ([((0, 0), (1, true, 1)), ((1, 0), (0, false, 2)), ((1, 1), (1, true, 1)), ((2, 0), (1, false, 0)), ((2, 1), (1, false, 2))],
    [[0, 1], [2, 1], [2, 2]], [[0, 0]]),
  ([((0, 0), (1, true, 1)), ((0, 1), (1, true, 0)), ((1, 0), (0, false, 2)), ((2, 0), (1, true, 0)), ((2, 1), (1, false, 2))],
    [[0, 0]], [[0, 1], [2, 1], [2, 2]]),
  ([((0, 0), (1, true, 1)), ((1, 0), (0, false, 2)), ((1, 1), (0, true, 1)), ((2, 0), (1, true, 1)), ((2, 1), (1, false, 2))],
    [[0, 0]], [[0, 0]]),
  ([((0, 0), (1, true, 1)), ((1, 0), (0, false, 2)), ((1, 1), (1, true, 1)), ((2, 0), (1, true, 1)), ((2, 1), (1, false, 2))],
    [[0, 0]], [[0, 0]]),
  ([((0, 0), (1, true, 1)), ((1, 0), (0, true, 2)), ((1, 1), (1, false, 1)), ((2, 0), (1, false, 0)), ((2, 1), (0, false, 0))],
    [[0, 1], [0, 1]], [[0, 0]]),
  ([((0, 0), (1, true, 1)), ((1, 0), (0, true, 2)), ((1, 1), (0, false, 1)), ((2, 0), (1, false, 1)), ((2, 1), (1, true, 2))],
    [[0, 0]], [[0, 0]]),
  ([((0, 0), (1, true, 1)), ((1, 0), (0, true, 2)), ((1, 1), (1, false, 1)), ((2, 0), (1, false, 1)), ((2, 1), (1, true, 2))],
    [[0, 0]], [[0, 0]]),
  ([((0, 0), (1, true, 1)), ((0, 1), (0, true, 2)), ((1, 0), (0, true, 2)), ((2, 0), (1, false, 2)), ((2, 1), (0, false, 0))],
    [[0, 0]], [[0, 1], [0, 1]]),
  ([((0, 0), (1, true, 1)), ((0, 1), (1, true, 2)), ((1, 0), (0, true, 2)), ((2, 0), (1, false, 2)), ((2, 1), (0, false, 0))],
    [[0, 0]], [[0, 1], [0, 1]]),
  ([((0, 0), (1, true, 1)), ((1, 0), (0, true, 2)), ((1, 1), (0, true, 1)), ((2, 0), (1, false, 2)), ((2, 1), (1, false, 0))],
    [[0, 1], [1, 2], [2, 2]], [[0, 1], [2, 1], [2, 2]]),
  ([((0, 0), (1, true, 1)), ((1, 0), (0, true, 2)), ((1, 1), (0, true, 1)), ((2, 0), (1, false, 2)), ((2, 1), (1, true, 1))],
    [[0, 0]], [[0, 0]]),
  ([((0, 0), (1, true, 1)), ((0, 1), (0, false, 1)), ((1, 0), (1, false, 0)), ((1, 1), (0, true, 2)), ((2, 0), (1, true, 1))],
    [[0, 0]], [[0, 1], [2, 3], [1, 1], [3, 3]]),
  ([((0, 0), (1, true, 1)), ((0, 1), (0, false, 2)), ((1, 0), (1, false, 0)), ((1, 1), (0, true, 0)), ((2, 0), (1, false, 0))],
    [[0, 1], [2, 3], [1, 1], [3, 3]], [[0, 0]]),
  ([((0, 0), (1, true, 1)), ((0, 1), (0, true, 2)), ((1, 0), (1, false, 0)), ((1, 1), (1, true, 1)), ((2, 1), (1, false, 1))],
    [[0, 0]], [[0, 1], [0, 1]]),
  ([((0, 0), (1, true, 1)), ((0, 1), (1, false, 0)), ((1, 0), (1, false, 0)), ((1, 1), (0, false, 2)), ((2, 1), (1, true, 0))],
    [[0, 1], [0, 1]], [[0, 0]]),
  ([((0, 0), (1, true, 1)), ((0, 1), (1, false, 0)), ((1, 0), (1, false, 0)), ((1, 1), (1, true, 2)), ((2, 1), (1, true, 1))],
    [[0, 1], [2, 0], [2, 2]], [[0, 1], [2, 0], [2, 2]]),
  ([((0, 0), (1, true, 1)), ((0, 1), (0, false, 2)), ((1, 0), (1, false, 1)), ((1, 1), (1, true, 0)), ((2, 1), (1, false, 0))],
    [[0, 1], [2, 0], [2, 2]], [[0, 1], [0, 2], [3, 3], [3, 3]]),
  ([((0, 0), (1, true, 1)), ((1, 0), (1, false, 1)), ((1, 1), (1, true, 2)), ((2, 0), (0, true, 1)), ((2, 1), (0, true, 2))],
    [[0, 0]], [[0, 0]]),
  ([((0, 0), (1, true, 1)), ((1, 0), (1, false, 1)), ((1, 1), (1, true, 2)), ((2, 0), (1, false, 1)), ((2, 1), (0, true, 2))],
    [[0, 0]], [[0, 0]]),
  ([((0, 0), (1, true, 1)), ((0, 1), (1, true, 2)), ((1, 0), (1, false, 2)), ((2, 0), (0, true, 0)), ((2, 1), (0, false, 1))],
    [[0, 1], [0, 2], [2, 2]], [[0, 1], [2, 3], [3, 1], [3, 3]]),
  ([((0, 0), (1, true, 1)), ((1, 0), (1, false, 2)), ((1, 1), (0, true, 0)), ((2, 0), (0, true, 1)), ((2, 1), (0, false, 1))],
    [[0, 0]], [[0, 1], [2, 3], [1, 1], [3, 3]]),
  ([((0, 0), (1, true, 1)), ((1, 0), (1, false, 2)), ((1, 1), (0, true, 0)), ((2, 0), (1, true, 1)), ((2, 1), (0, false, 1))],
    [[0, 0]], [[0, 1], [2, 3], [1, 1], [3, 3]]),
  ([((0, 0), (1, true, 1)), ((1, 0), (1, false, 2)), ((1, 1), (0, true, 2)), ((2, 0), (1, true, 1)), ((2, 1), (0, false, 1))],
    [[0, 0]], [[0, 0]]),
  ([((0, 0), (1, true, 1)), ((1, 0), (1, false, 2)), ((1, 1), (1, true, 0)), ((2, 0), (0, true, 0)), ((2, 1), (0, false, 2))],
    [[0, 1], [0, 0]], [[0, 1], [2, 3], [1, 1], [3, 3]]),
  ([((0, 0), (1, true, 1)), ((1, 0), (1, false, 2)), ((1, 1), (1, true, 1)), ((2, 0), (0, true, 0)), ((2, 1), (0, false, 2))],
    [[0, 1], [0, 1]], [[0, 1], [0, 1]]),
  ([((0, 0), (1, true, 1)), ((1, 0), (1, false, 2)), ((1, 1), (1, true, 1)), ((2, 0), (0, true, 1)), ((2, 1), (0, false, 2))],
    [[0, 0]], [[0, 0]]),
  ([((0, 0), (1, true, 1)), ((1, 0), (1, false, 2)), ((1, 1), (0, true, 1)), ((2, 0), (1, false, 1)), ((2, 1), (1, false, 0))],
    [[0, 1], [1, 2], [2, 2]], [[0, 0]]),
  ([((0, 0), (1, true, 1)), ((1, 0), (1, false, 2)), ((1, 1), (0, true, 1)), ((2, 0), (1, false, 2)), ((2, 1), (1, false, 0))],
    [[0, 1], [1, 2], [2, 2]], [[0, 0]]),
  ([((0, 0), (1, true, 1)), ((0, 1), (0, false, 1)), ((1, 0), (1, false, 2)), ((1, 1), (1, true, 1)), ((2, 1), (1, false, 0))],
    [[0, 1], [2, 0], [2, 2]], [[0, 1], [2, 0], [2, 2]]),
  ([((0, 0), (1, true, 1)), ((0, 1), (1, false, 0)), ((1, 0), (1, false, 2)), ((1, 1), (1, true, 1)), ((2, 1), (1, false, 0))],
    [[0, 1], [0, 1]], [[0, 0]]),
  ([((0, 0), (1, true, 1)), ((0, 1), (1, false, 2)), ((1, 0), (1, false, 2)), ((1, 1), (1, true, 1)), ((2, 1), (1, false, 0))],
    [[0, 1], [2, 0], [2, 2]], [[0, 1], [2, 0], [2, 2]]),
  ([((0, 0), (1, true, 1)), ((0, 1), (1, true, 0)), ((1, 0), (1, false, 2)), ((2, 0), (0, true, 0)), ((2, 1), (1, false, 2))],
    [[0, 0]], [[0, 1], [2, 1], [2, 2]]),
  ([((0, 0), (1, true, 1)), ((1, 0), (1, false, 2)), ((1, 1), (1, true, 1)), ((2, 0), (0, true, 1)), ((2, 1), (1, false, 2))],
    [[0, 0]], [[0, 0]]),
  ([((0, 0), (1, true, 1)), ((1, 0), (1, false, 2)), ((1, 1), (1, true, 1)), ((2, 0), (1, false, 0)), ((2, 1), (1, false, 2))],
    [[0, 1], [2, 1], [2, 2]], [[0, 0]]),
  ([((0, 0), (1, true, 1)), ((0, 1), (1, true, 0)), ((1, 0), (1, false, 2)), ((2, 0), (1, true, 0)), ((2, 1), (1, false, 2))],
    [[0, 0]], [[0, 1], [2, 1], [2, 2]]),
  ([((0, 0), (1, true, 1)), ((1, 0), (1, false, 2)), ((1, 1), (1, true, 1)), ((2, 0), (1, true, 1)), ((2, 1), (1, false, 2))],
    [[0, 0]], [[0, 0]]),
  ([((0, 0), (1, true, 1)), ((0, 1), (1, false, 0)), ((1, 0), (1, false, 2)), ((1, 1), (0, false, 2)), ((2, 1), (1, true, 0))],
    [[0, 1], [0, 1]], [[0, 0]]),
  ([((0, 0), (1, true, 1)), ((0, 1), (1, false, 0)), ((1, 0), (1, false, 2)), ((1, 1), (1, true, 1)), ((2, 1), (1, true, 0))],
    [[0, 1], [0, 1]], [[0, 0]]),
  ([((0, 0), (1, true, 1)), ((1, 0), (1, false, 2)), ((1, 1), (0, true, 1)), ((2, 0), (0, false, 2)), ((2, 1), (1, true, 1))],
    [[0, 0]], [[0, 0]]),
  ([((0, 0), (1, true, 1)), ((1, 0), (1, false, 2)), ((1, 1), (0, true, 1)), ((2, 0), (1, false, 2)), ((2, 1), (1, true, 1))],
    [[0, 0]], [[0, 0]]),
  ([((0, 0), (1, true, 1)), ((0, 1), (0, true, 1)), ((1, 0), (1, false, 2)), ((2, 0), (0, false, 0)), ((2, 1), (1, true, 2))],
    [[0, 0]], [[0, 1], [0, 1]]),
  ([((0, 0), (1, true, 1)), ((0, 1), (1, false, 0)), ((1, 0), (1, true, 2)), ((1, 1), (1, true, 1)), ((2, 0), (0, false, 0))],
    [[0, 0]], [[0, 1], [2, 1], [2, 2]]),
  ([((0, 0), (1, true, 1)), ((1, 0), (1, true, 2)), ((1, 1), (1, false, 1)), ((2, 0), (0, false, 1)), ((2, 1), (0, true, 2))],
    [[0, 0]], [[0, 0]]),
  ([((0, 0), (1, true, 1)), ((1, 0), (1, true, 2)), ((1, 1), (1, false, 1)), ((2, 0), (0, false, 1)), ((2, 1), (1, true, 2))],
    [[0, 0]], [[0, 0]]),
  ([((0, 0), (1, true, 1)), ((0, 1), (1, false, 0)), ((1, 0), (1, true, 2)), ((1, 1), (1, true, 1)), ((2, 0), (1, false, 0))],
    [[0, 0]], [[0, 1], [2, 1], [2, 2]]),
  ([((0, 0), (1, true, 1)), ((1, 0), (1, true, 2)), ((1, 1), (0, false, 2)), ((2, 0), (1, false, 1)), ((2, 1), (0, true, 1))],
    [[0, 0]], [[0, 0]]),
  ([((0, 0), (1, true, 1)), ((1, 0), (1, true, 2)), ((1, 1), (1, false, 1)), ((2, 0), (1, false, 1)), ((2, 1), (1, true, 2))],
    [[0, 0]], [[0, 0]])]

theorem part32_0 :
    (part 3 2 21 (0, false, 0)).all (dealtOr hard32 3 2 20 40) = true := by
  decide +kernel

theorem part32_1 :
    (part 3 2 21 (0, false, 1)).all (dealtOr hard32 3 2 20 40) = true := by
  decide +kernel

theorem part32_2 :
    (part 3 2 21 (0, false, 2)).all (dealtOr hard32 3 2 20 40) = true := by
  decide +kernel

theorem part32_3 :
    (part 3 2 21 (0, true, 0)).all (dealtOr hard32 3 2 20 40) = true := by
  decide +kernel

theorem part32_4 :
    (part 3 2 21 (0, true, 1)).all (dealtOr hard32 3 2 20 40) = true := by
  decide +kernel

theorem part32_5 :
    (part 3 2 21 (0, true, 2)).all (dealtOr hard32 3 2 20 40) = true := by
  decide +kernel

theorem part32_6 :
    (part 3 2 21 (1, false, 0)).all (dealtOr hard32 3 2 20 40) = true := by
  decide +kernel

theorem part32_7 :
    (part 3 2 21 (1, false, 1)).all (dealtOr hard32 3 2 20 40) = true := by
  decide +kernel

theorem part32_8 :
    (part 3 2 21 (1, false, 2)).all (dealtOr hard32 3 2 20 40) = true := by
  decide +kernel

theorem part32_9 :
    (part 3 2 21 (1, true, 0)).all (dealtOr hard32 3 2 20 40) = true := by
  decide +kernel

theorem part32_10 :
    (part 3 2 21 (1, true, 1)).all (dealtOr hard32 3 2 20 40) = true := by
  decide +kernel

theorem part32_11 :
    (part 3 2 21 (1, true, 2)).all (dealtOr hard32 3 2 20 40) = true := by
  decide +kernel

/-- **C77 (three states, two colours).**  The size is settled by 20 moves: every program with
three states and two colours that stops makes at most 20 moves before, or has a blank tape before.
(The customary number is 21, which counts the move into the halt state.) -/
theorem C77_three_two : Settled 3 2 20 := by
  refine C77_settled (N1 := 5) (N2 := 0) (lim := 21) (by omega) (by omega)
    (.inr ⟨C77_two_two, by omega, by omega⟩) (.inl rfl) ?_
  refine dealt_of_parts (by omega) (by omega) (hard := hard32) (fuel := 40) ?_
  have e : makeInstrs (min 3 3) (min 3 2) =
      [(0, false, 0), (0, false, 1), (0, false, 2), (0, true, 0), (0, true, 1), (0, true, 2),
      (1, false, 0), (1, false, 1), (1, false, 2), (1, true, 0), (1, true, 1), (1, true, 2)] :=
      by
    decide
  rw [e]
  simp only [List.forall_mem_cons, List.not_mem_nil, false_implies, implies_true, and_true]
  exact ⟨part32_0, part32_1, part32_2, part32_3, part32_4, part32_5, part32_6, part32_7, part32_8,
    part32_9, part32_10, part32_11⟩

/-- `1RB ...  1LB 0RC  1LC 1LA`. -/
def champion32 : Table :=
  [((0, 0), (1, true, 1)), ((1, 0), (1, false, 1)), ((1, 1), (0, true, 2)), ((2, 0), (1, false, 2)),
    ((2, 1), (1, false, 0))]

/-- The bound is attained. -/
theorem C77_three_two_tight (N : Nat) (h : Settled 3 2 N) : 20 ≤ N :=
  h.attained (Q := champion32) (by decide) (lim := 30) (slot := (0, 1)) (by decide +kernel)
    (by decide +kernel) (by decide +kernel) (by decide +kernel)

end BB
