import Verif.Props.RecordsThreeD

/-!
# C79 for three states and two colours

The 13128 programs of the tree (limit 36).
-/

namespace BB.Records

open Watch

theorem watched32 : ∀ Q ∈ buildTree 3 2 false 36, Watched Q.get? 34 55 := by
  refine watched_of_parts (P := plan32) (f := rows32) (by omega) (by omega) plan32_ok rfl tells32 ?_
  intro i hi
  have : makeInstrs (min 3 3) (min 3 2) = [(0, false, 0), (0, false, 1), (0, false, 2), (0, true, 0), (0, true, 1), (0, true, 2), (1, false, 0), (1, false, 1), (1, false, 2), (1, true, 0), (1, true, 1), (1, true, 2)]:= rfl
  rw [this] at hi
  simp only [List.mem_cons, List.not_mem_nil, or_false] at hi
  rcases hi with rfl | rfl | rfl | rfl | rfl | rfl | rfl | rfl | rfl | rfl | rfl | rfl
  · exact part32_0l0
  · exact part32_0l1
  · exact part32_0l2
  · exact part32_0r0
  · exact part32_0r1
  · exact part32_0r2
  · exact part32_1l0
  · exact part32_1l1
  · exact part32_1l2
  · exact part32_1r0
  · exact part32_1r1
  · exact part32_1r2

/-- **C79 (three states, two colours).**  The first blank tape comes within 34 moves or never, a
spin-out without a blank tape before within 55. -/
theorem C79_three_two : Within FirstBlank 3 2 34 ∧ Within FirstSpin 3 2 55 :=
  ⟨C79_blank (lim := 36) (by omega) (by omega) (by omega)
    (.inr ⟨within_mono C79_two_two.1 (by omega), 5, C77_two_two, by omega⟩) (.inl rfl)
    fun Q hQ => ⟨(watched32 Q hQ).goes, (watched32 Q hQ).blank⟩,
   C79_spin (lim := 36) (by omega) (by omega) (by omega)
    (.inr ⟨within_mono C79_two_two.2 (by omega), 5, C77_two_two, by omega⟩) (.inl rfl)
    fun Q hQ => ⟨(watched32 Q hQ).goes, (watched32 Q hQ).spin⟩⟩

/-- Both are attained, by the programs named in the tests: `1RB 1LB  1LA 1LC  1RC 0LC`,
`1RB 0LB  1LA 0RC  1LC 1LA`. -/
theorem C79_three_two_tight (N : Nat) :
    (Within FirstBlank 3 2 N → 34 ≤ N) ∧ (Within FirstSpin 3 2 N → 55 ≤ N) :=
  ⟨fun h => blank_ge h (M := 60) (Q := [((0, 0), (1, true, 1)), ((0, 1), (1, false, 1)),
      ((1, 0), (1, false, 0)), ((1, 1), (1, false, 2)), ((2, 0), (1, true, 2)),
      ((2, 1), (0, false, 2))]) (by decide) rfl (tells32 _) rfl,
   fun h => spin_ge h (M := 60) (Q := [((0, 0), (1, true, 1)), ((0, 1), (0, false, 1)),
      ((1, 0), (1, false, 0)), ((1, 1), (0, true, 2)), ((2, 0), (1, false, 2)),
      ((2, 1), (1, false, 0))]) (by decide) rfl (tells32 _) rfl⟩

end BB.Records
