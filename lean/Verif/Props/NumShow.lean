import Mathlib.Data.Nat.Log
import Verif.Lemmas.NumShow

/-!
# C76: the text of a symbolic number is an expression with its value

What `str` shows for a symbolic number is read by the grammar of Python expressions (`Spec/PyExpr`) as an
expression whose value is the number, so numbers with the same text are equal.  The exceptions are in the
last section.
-/

namespace BB
namespace NumShow

open Sym (Num)
open PyExpr (E)

/-- **C76.**  Reading the text gives the number. -/
theorem C76_value_partial (lg : Nat → Nat) (x : Num) (hx : Plain x) :
    (PyExpr.read (repr lg x)).bind E.eval = x.toInt := by
  rw [read_repr lg x hx, Option.bind_some, eval_ast x hx]

/-- The same for `show_number`. -/
theorem C76_show_partial (lg : Nat → Nat) (x : Num) (hx : Plain x) (hb : Brief x) :
    (PyExpr.read (showNumber lg x)).bind E.eval = x.toInt := by
  rw [showNumber, shorten_brief hb]
  exact C76_value_partial lg x hx

/-- **C76, same text.**  Numbers with the same text have the same value. -/
theorem C76_same_partial (lg : Nat → Nat) (x y : Num) (hx : Plain x) (hy : Plain y)
    (h : repr lg x = repr lg y) : x.toInt = y.toInt := by
  rw [← C76_value_partial lg x hx, ← C76_value_partial lg y hy, h]

/-- The integers of an expression, as they are written. -/
def written : Num → List Int
  | .int n => [n]
  | .add l r => written l ++ written r
  | .mul l r => written l ++ written r
  | .div n d => written n ++ [d]
  | .exp b e => b :: written e

/-- **C76, hidden.**  `show_number` hides exactly the numbers with more than 120 integers. -/
theorem C76_hidden_when (lg : Nat → Nat) (x : Num) (hi : x.isInt = false) :
    leaves x = (written x).length ∧
    showNumber lg x = if 120 < (written x).length then "(???)".toList else repr lg x := by
  have h : leaves x = (written x).length := by
    clear hi
    induction x with
    | int n => rfl
    | add l r hl hr => simp [leaves, written, hl, hr]
    | mul l r hl hr => simp [leaves, written, hl, hr]
    | div n d hn => simp [leaves, written, hn, Nat.add_comm]
    | exp b e he => simp [leaves, written, he, Nat.add_comm]
  refine ⟨h, ?_⟩
  rw [← h]
  cases x with
  | int n => cases hi
  | _ => rfl

/-! ## A case -/

/-- `((5 + -(2 ** 7)) // 3)` -/
def sample : Num := .div (.add (.int 5) (.mul (.int (-1)) (.exp 2 (.int 7)))) 3

theorem C76_example : repr id sample = "((5 + -(2 ** 7)) // 3)".toList ∧ Plain sample ∧
    PyExpr.read (repr id sample)
      = some (.fdiv (.add (.num 5) (.neg (.pow (.num 2) (.num 7)))) (.num 3)) ∧
    (PyExpr.read (repr id sample)).bind E.eval = some (-41) := by
  refine ⟨by decide +kernel, ?_, by decide +kernel, by decide +kernel⟩
  simp [sample, Plain, Brief]

/-! ## Where the text is not enough -/

/-- A negative base is shown without parentheses: the text of `(-2) ** Exp(2, 3)` is `(-2 ** (2 ** 3))`, which
is `-(2 ** (2 ** 3))` for Python. -/
theorem C76_base_violation (lg : Nat → Nat) : ∃ x : Num, x.toInt = some 256 ∧
    repr lg x = "(-2 ** (2 ** 3))".toList ∧ (PyExpr.read (repr lg x)).bind E.eval = some (-256) := by
  have h : repr lg (.exp (-2) (.exp 2 (.int 3))) = "(-2 ** (2 ** 3))".toList := by
    simp only [repr, shorten]
    rw [if_neg (by decide), if_neg (by decide)]
    decide +kernel
  refine ⟨.exp (-2) (.exp 2 (.int 3)), by decide +kernel, h, ?_⟩
  rw [h]
  decide +kernel

/-- Large integers inside a number are rounded: two numbers with the same text, whatever the rounding. -/
theorem C76_round_violation (lg : Nat → Nat)
    (hlg : ∀ n, 0 < n → lg n = Nat.log 10 n ∨ lg n = Nat.log 10 n + 1) :
    ∃ x y : Num, x.toInt ≠ y.toInt ∧ repr lg x = repr lg y := by
  have hlog : ∀ k < 3, Nat.log 10 (10 ^ 12 + k) = 12 := by
    intro k hk
    exact (Nat.log_eq_iff (.inl (by decide))).2 ⟨by omega, by omega⟩
  have hcase : ∀ a b : Nat, a < 3 → b < 3 → a ≠ b → lg (10 ^ 12 + a) = lg (10 ^ 12 + b) →
      ∃ x y : Num, x.toInt ≠ y.toInt ∧ repr lg x = repr lg y := by
    intro a b ha hb hab h
    refine ⟨.add (.int ((10 ^ 12 + a : Nat) : Int)) (.exp 2 (.int 3)),
      .add (.int ((10 ^ 12 + b : Nat) : Int)) (.exp 2 (.int 3)), ?_, ?_⟩
    · intro he
      simp only [Num.toInt] at he
      simp at he
      omega
    · have hx : ∀ k : Nat, shorten lg (.int ((10 ^ 12 + k : Nat) : Int)) (TapeShow.showInt ((10 ^ 12 + k : Nat) : Int))
          = "(~10^".toList ++ Nat.toDigits 10 (lg (10 ^ 12 + k)) ++ [')'] := by
        intro k
        simp only [shorten, Int.natAbs_natCast]
        rw [if_pos (by omega), if_neg (by omega), List.nil_append]
      simp only [repr, hx, h]
  have h0 := hlg (10 ^ 12 + 0) (by omega)
  have h1 := hlg (10 ^ 12 + 1) (by omega)
  have h2 := hlg (10 ^ 12 + 2) (by omega)
  rw [hlog 0 (by omega)] at h0
  rw [hlog 1 (by omega)] at h1
  rw [hlog 2 (by omega)] at h2
  rcases h0 with h0 | h0 <;> rcases h1 with h1 | h1 <;> rcases h2 with h2 | h2
  all_goals first
    | exact hcase 0 1 (by omega) (by omega) (by omega) (h0.trans h1.symm)
    | exact hcase 0 2 (by omega) (by omega) (by omega) (h0.trans h2.symm)
    | exact hcase 1 2 (by omega) (by omega) (by omega) (h1.trans h2.symm)

/-- A sum with `n + 1` summands. -/
def long (k : Int) : Nat → Num
  | 0 => .int k
  | n + 1 => .add (.int 1) (long k n)

theorem leaves_long (k : Int) (n : Nat) : leaves (long k n) = n + 1 := by
  induction n with
  | zero => rfl
  | succ n ih => rw [long, leaves, ih, leaves]; omega

/-- A number with more than 120 leaves is not shown at all: `(2 ** (???))`. -/
theorem C76_hidden_violation (lg : Nat → Nat) :
    ∃ x y : Num, x.toInt ≠ y.toInt ∧ repr lg x = repr lg y ∧ PyExpr.read (repr lg x) = none := by
  have hx : ∀ k, repr lg (.exp 2 (long k 120)) = "(2 ** (???))".toList := by
    intro k
    have h : shorten lg (long k 120) (repr lg (long k 120)) = "(???)".toList := by
      have := leaves_long k 120
      rw [show long k 120 = .add (.int 1) (long k 119) from rfl] at this ⊢
      simp only [shorten]
      rw [if_pos (by omega)]
    rw [repr, h]
    decide +kernel
  refine ⟨.exp 2 (long 1 120), .exp 2 (long 2 120), by decide +kernel, ?_, ?_⟩
  · rw [hx, hx]
  · rw [hx]
    decide +kernel

end NumShow
end BB
