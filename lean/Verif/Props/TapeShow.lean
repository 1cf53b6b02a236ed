import Verif.Lemmas.TapeShow
import Mathlib.Data.Nat.Log

/-!
# C71: printed tapes
-/

namespace BB
namespace TapeText

open TapeShow

/-- **C71, Rust.**  The printed tape is read back as the tape. -/
theorem C71_rust (t : Tape) : tape (rsTape t) = some t := tape_show t

/-- **C71, Rust with a position.** -/
theorem C71_head (h : Int) (t : Tape) : headTape (rsHeadTape h t) = some (h, t) := headTape_show h t

theorem pyBlock_eq (lg : Nat → Nat) (b : Block) (h : b.count < 10 ^ 12) :
    pyBlock lg b = rsBlock b := by
  unfold pyBlock rsBlock showNumber
  rw [if_neg (by omega : ¬ b.count ≥ 10 ^ 12)]

/-- **C71, both.**  Python and Rust print the same text, if no count has thirteen digits. -/
theorem C71_same_partial (lg : Nat → Nat) (t : Tape)
    (h : ∀ b ∈ t.lspan ++ t.rspan, b.count < 10 ^ 12) : pyTape lg t = rsTape t := by
  unfold pyTape rsTape
  have h1 : t.lspan.reverse.map (pyBlock lg) = (t.lspan.map rsBlock).reverse := by
    rw [← List.map_reverse]
    exact List.map_congr_left fun b hb =>
      pyBlock_eq lg b (h b (List.mem_append_left _ (List.mem_reverse.1 hb)))
  have h2 : t.rspan.map (pyBlock lg) = t.rspan.map rsBlock :=
    List.map_congr_left fun b hb => pyBlock_eq lg b (h b (List.mem_append_right _ hb))
  rw [h1, h2]

/-- **C71, Python.**  The printed tape is read back as the tape, if no count has thirteen digits. -/
theorem C71_python_partial (lg : Nat → Nat) (t : Tape)
    (h : ∀ b ∈ t.lspan ++ t.rspan, b.count < 10 ^ 12) : tape (pyTape lg t) = some t := by
  rw [C71_same_partial lg t h]; exact tape_show t

/-- **C71, different tapes have different texts.** -/
theorem C71_injective (t t' : Tape) (h : rsTape t = rsTape t') : t = t' := by
  have := C71_rust t
  rw [h, C71_rust t'] at this
  exact (Option.some.inj this).symm

/-- A tape with blocks on both sides, as Rust prints it. -/
theorem C71_example :
    rsTape ⟨[⟨1, 3⟩, ⟨0, 1⟩, ⟨12, 20⟩], 2, [⟨1, 1⟩]⟩ = "12^20 0 1^3 [2] 1".toList ∧
    rsHeadTape (-4) ⟨[], 0, [⟨1, 2⟩]⟩ = "(-4) [0] 1^2".toList := by decide +kernel

/-- **C71, not for large counts in Python.**  However `log10` is rounded (to the whole number below or
above), there are two tapes with the same text. -/
theorem C71_python_violation (lg : Nat → Nat)
    (hlg : ∀ n, 0 < n → lg n = Nat.log 10 n ∨ lg n = Nat.log 10 n + 1) :
    ∃ t t' : Tape, t ≠ t' ∧ pyTape lg t = pyTape lg t' := by
  have hlog : ∀ k < 3, Nat.log 10 (10 ^ 12 + k) = 12 := by
    intro k hk
    exact (Nat.log_eq_iff (.inl (by decide))).2 ⟨by omega, by omega⟩
  have hcase : ∀ a b : Nat, a < 3 → b < 3 → a ≠ b → lg (10 ^ 12 + a) = lg (10 ^ 12 + b) →
      ∃ t t' : Tape, t ≠ t' ∧ pyTape lg t = pyTape lg t' := by
    intro a b ha hb hab h
    refine ⟨⟨[⟨1, 10 ^ 12 + a⟩], 0, []⟩, ⟨[⟨1, 10 ^ 12 + b⟩], 0, []⟩, ?_, ?_⟩
    · intro he
      simp only [Tape.mk.injEq, List.cons.injEq, Block.mk.injEq] at he
      omega
    · have hx : ∀ k, pyBlock lg ⟨1, 10 ^ 12 + k⟩
          = ['1'] ++ '^' :: ("(~10^".toList ++ Nat.toDigits 10 (lg (10 ^ 12 + k)) ++ [')']) := by
        intro k
        unfold pyBlock showNumber
        rw [if_neg (by simp only; omega), if_pos (by simp only; omega)]
        have hd : Nat.toDigits 10 1 = ['1'] := by decide
        simp only [hd]
      simp only [pyTape, List.reverse_singleton, List.map_cons, List.map_nil, hx, h]
  have h0 := hlg (10 ^ 12 + 0) (by omega)
  have h1 := hlg (10 ^ 12 + 1) (by omega)
  have h2 := hlg (10 ^ 12 + 2) (by omega)
  rw [hlog 0 (by omega)] at h0
  rw [hlog 1 (by omega)] at h1
  rw [hlog 2 (by omega)] at h2
  rcases h0 with h0 | h0 <;> rcases h1 with h1 | h1 <;> rcases h2 with h2 | h2
  all_goals first
    | exact hcase 0 1 (by omega) (by omega) (by omega) (h0.trans h1.symm)
    | exact hcase 0 2 (by omega) (by omega) (by omega) (h0.trans h2.symm)
    | exact hcase 1 2 (by omega) (by omega) (by omega) (h1.trans h2.symm)

end TapeText
end BB
