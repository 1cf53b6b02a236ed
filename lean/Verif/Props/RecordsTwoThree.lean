import Verif.Props.RecordsTwoThreeJ

/-!
# C79 for two states and three colours

The 9168 programs of the tree (limit 38).
-/

namespace BB.Records

open Watch

theorem watched23 : ∀ Q ∈ buildTree 2 3 false 38, Watched Q.get? 77 59 := by
  have key : ∀ i ∈ makeInstrs (min 3 2) (min 3 3), AllDone (fullPart 2 3 38 i) := by
    intro i hi
    have : makeInstrs (min 3 2) (min 3 3) = [(0, false, 0), (0, false, 1), (0, true, 0), (0, true, 1), (1, false, 0), (1, false, 1), (1, true, 0), (1, true, 1), (2, false, 0), (2, false, 1), (2, true, 0), (2, true, 1)] := rfl
    rw [this] at hi
    simp only [List.mem_cons, List.not_mem_nil, or_false] at hi
    rcases hi with rfl | rfl | rfl | rfl | rfl | rfl | rfl | rfl | rfl | rfl | rfl | rfl
    · exact part23_0l0
    · exact part23_0l1
    · exact part23_0r0
    · exact part23_0r1
    · exact part23_1l0
    · exact part23_1l1
    · exact part23_1r0
    · exact part23_1r1
    · exact part23_2l0
    · exact part23_2l1
    · exact part23_2r0
    · exact part23_2r1
  intro Q hQ
  have hT := (buildTree_sound (by omega) (by omega) false 38).2 Q hQ
  rw [buildTree_eq, List.mem_flatMap] at hQ
  obtain ⟨i, hi, hQ⟩ := hQ
  obtain ⟨P, hk, hb, hs, hok, hc⟩ := key i hi Q hQ
  rw [← hb, ← hs]
  exact check_spec hok (tells23 Q) hT.start (fun e he => hk ▸ (hT.instrs e he).1) hc

/-- **C79 (two states, three colours).**  The first blank tape comes within 77 moves or never, a
spin-out without a blank tape before within 59. -/
theorem C79_two_three : Within FirstBlank 2 3 77 ∧ Within FirstSpin 2 3 59 :=
  ⟨C79_blank (lim := 38) (by omega) (by omega) (by omega) (.inl rfl)
    (.inr ⟨within_mono C79_two_two.1 (by omega), 5, C77_two_two, by omega⟩)
    fun Q hQ => ⟨(watched23 Q hQ).goes, (watched23 Q hQ).blank⟩,
   C79_spin (lim := 38) (by omega) (by omega) (by omega) (.inl rfl)
    (.inr ⟨within_mono C79_two_two.2 (by omega), 5, C77_two_two, by omega⟩)
    fun Q hQ => ⟨(watched23 Q hQ).goes, (watched23 Q hQ).spin⟩⟩

set_option maxRecDepth 20000 in
/-- Both are attained, by the programs named in the tests: `1RB 2LA 0RB  1LA 0LB 1RA`,
`1RB 2LB 1LA  2LB 2RA 0RA`. -/
theorem C79_two_three_tight (N : Nat) :
    (Within FirstBlank 2 3 N → 77 ≤ N) ∧ (Within FirstSpin 2 3 N → 59 ≤ N) :=
  ⟨fun h => blank_ge h (M := 90) (Q := [((0, 0), (1, true, 1)), ((0, 1), (2, false, 0)),
      ((0, 2), (0, true, 1)), ((1, 0), (1, false, 0)), ((1, 1), (0, false, 1)),
      ((1, 2), (1, true, 0))]) (by decide) rfl (tells23 _) rfl,
   fun h => spin_ge h (M := 90) (Q := [((0, 0), (1, true, 1)), ((0, 1), (2, false, 1)),
      ((0, 2), (1, false, 0)), ((1, 0), (2, false, 1)), ((1, 1), (2, true, 0)),
      ((1, 2), (0, true, 0))]) (by decide) rfl (tells23 _) rfl⟩

end BB.Records
