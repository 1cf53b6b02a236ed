import Verif.Props.SettleTwoThreeA

/-! # C77 for two states and three colours, second half -/

namespace BB

theorem part23_6 :
    (part 2 3 38 (1, true, 0)).all (dealtOr hard23 2 3 37 60) = true := by
  decide +kernel

theorem part23_7 :
    (part 2 3 38 (1, true, 1)).all (dealtOr hard23 2 3 37 60) = true := by
  decide +kernel

theorem part23_8 :
    (part 2 3 38 (2, false, 0)).all (dealtOr hard23 2 3 37 60) = true := by
  decide +kernel

theorem part23_9 :
    (part 2 3 38 (2, false, 1)).all (dealtOr hard23 2 3 37 60) = true := by
  decide +kernel

theorem part23_10 :
    (part 2 3 38 (2, true, 0)).all (dealtOr hard23 2 3 37 60) = true := by
  decide +kernel

theorem part23_11 :
    (part 2 3 38 (2, true, 1)).all (dealtOr hard23 2 3 37 60) = true := by
  decide +kernel

/-- **C77 (two states, three colours).**  The size is settled by 37 moves. -/
theorem C77_two_three : Settled 2 3 37 := by
  refine C77_settled (N1 := 0) (N2 := 5) (lim := 38) (by omega) (by omega) (.inl rfl)
    (.inr ⟨C77_two_two, by omega, by omega⟩) ?_
  refine dealt_of_parts (by omega) (by omega) (hard := hard23) (fuel := 60) ?_
  have e : makeInstrs (min 3 2) (min 3 3) =
      [(0, false, 0), (0, false, 1), (0, true, 0), (0, true, 1), (1, false, 0), (1, false, 1),
      (1, true, 0), (1, true, 1), (2, false, 0), (2, false, 1), (2, true, 0), (2, true, 1)] :=
      by
    decide
  rw [e]
  simp only [List.forall_mem_cons, List.not_mem_nil, false_implies, implies_true, and_true]
  exact ⟨part23_0, part23_1, part23_2, part23_3, part23_4, part23_5, part23_6, part23_7, part23_8,
    part23_9, part23_10, part23_11⟩

/-- `1RB 2LB ...  2LA 2RB 1LB`. -/
def champion23 : Table :=
  [((0, 0), (1, true, 1)), ((0, 1), (2, false, 1)), ((1, 0), (2, false, 0)), ((1, 1), (2, true, 1)),
    ((1, 2), (1, false, 1))]

/-- The bound is attained. -/
theorem C77_two_three_tight (N : Nat) (h : Settled 2 3 N) : 37 ≤ N :=
  h.attained (Q := champion23) (by decide) (lim := 60) (slot := (0, 2)) (by decide +kernel)
    (by decide +kernel) (by decide +kernel) (by decide +kernel)

end BB
