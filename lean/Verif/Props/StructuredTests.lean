import Verif.Lemmas.CStmtEval
import Verif.Props.Structured

/-!
# C68: the structured programs that end soon

`make test` in `/repo/machines/structured` (`Makefile` L8-L12), for six of the files.
-/

namespace BB
namespace CS

theorem exits {F : File} {len : Nat} {ks : List Nat} (hf : F.follows = true)
    (hl : tapeLen F.text = some len) (hs : stopsAfter F.tab F.checks len ks = true)
    (ht : total ks + 1 = F.limit) :
    ∃ len main j, parse F.text = some (len, main) ∧
      run main len F.limit j (start main len) = .exit F.limit := by
  obtain ⟨len', main, hp, hf⟩ := File.follows_parse hf
  have hlen : len' = len := by
    unfold parse at hp
    split at hp
    · rw [hl, Option.bind_some] at hp
      split at hp
      · split at hp
        · cases hp; rfl
        · cases hp
      · cases hp
    · cases hp
  subst hlen
  obtain ⟨h1, h2, h3⟩ := stopsAfter_sound (follows_sound hf).1 hs
  rw [ht] at h1 h2 h3
  obtain ⟨j, hj⟩ := ends (limit := F.limit) hf _ h1 h2 h3
  exact ⟨len', main, j, hp, by rw [hj, if_pos rfl]⟩

/-- C68: six programs, compiled with the names of their files for `XLIMIT`, end without a failure. -/
theorem C68_tests (F : File) (hF : F ∈ [f1434, f21, f2819, f31315, f34, f9340]) :
    ∃ len main j, parse F.text = some (len, main) ∧
      run main len F.limit j (start main len) = .exit F.limit := by
  simp only [List.mem_cons, List.not_mem_nil, or_false] at hF
  rcases hF with rfl | rfl | rfl | rfl | rfl | rfl
  · exact exits (len := 1000) (ks := [10, 8, 7, 4, 3, 0]) follows1434 (by rw [f1434_text]; decide +kernel)
      (by decide +kernel) rfl
  · exact exits (len := 20) (ks := [4, 2]) follows21 (by rw [f21_text]; decide +kernel)
      (by decide +kernel) rfl
  · exact exits (len := 300) (ks := [11, 9, 8, 1]) follows2819 (by rw [f2819_text]; decide +kernel)
      (by decide +kernel) rfl
  · exact exits (len := 1000) (ks := [14, 13, 12, 11, 9, 6, 4, 1]) follows31315 (by rw [f31315_text]; decide +kernel)
      (by decide +kernel) rfl
  · exact exits (len := 20) (ks := [5, 0]) follows34 (by rw [f34_text]; decide +kernel)
      (by decide +kernel) rfl
  · exact exits (len := 300) (ks := [13, 10, 6, 5, 4, 3, 1, 0]) follows9340 (by rw [f9340_text]; decide +kernel)
      (by decide +kernel) rfl

end CS
end BB
