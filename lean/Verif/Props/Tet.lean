import Mathlib.Algebra.Order.Ring.Int
import Mathlib.Order.Monotone.Basic
import Mathlib.Tactic.Linarith
import Verif.Model.Tet
import Verif.Spec.Tet

/-!
# C80: towers of powers

`Tet(b, h)` stands for `b ^ (b ^ ...)`.  Comparisons between towers of the same base and powers of the
base are exact; a tower is taken to be above every integer and every power with an integer exponent,
and sums, differences and products to be the tower itself, which is right up to the factors given.
-/

namespace BB
namespace Tetra

open Sym (Num R)

/-- What a tower stands for. -/
def Tet.Means (t : Tet) (v : Nat) : Prop :=
  ∃ b h : Nat, 2 ≤ b ∧ t.base = b ∧ t.height = h ∧ v = tetr b h

/-- What a number stands for. -/
def Count.Means : Count → Int → Prop
  | .num x, n => x.toInt = some n
  | .tet t, n => ∃ v : Nat, t.Means v ∧ n = v

theorem tetr_lt_succ {b : Nat} (hb : 2 ≤ b) (h : Nat) : tetr b h < tetr b (h + 1) :=
  Nat.lt_pow_self (by omega)

theorem tetr_strictMono {b : Nat} (hb : 2 ≤ b) : StrictMono (tetr b) :=
  strictMono_nat_of_lt_succ (tetr_lt_succ hb)

theorem tetr_pos {b : Nat} (hb : 2 ≤ b) (h : Nat) : 0 < tetr b h := by
  cases h with
  | zero => exact Nat.one_pos
  | succ h => exact Nat.pow_pos (by omega)

/-- **C80, order.**  Comparisons of two towers with the same base are those of what they stand for. -/
theorem C80_order {t u : Tet} {v w : Nat} (ht : t.Means v) (hu : u.Means w) (hb : t.base = u.base) :
    t.eq (.tet u) = decide (v = w) ∧ t.lt (.tet u) = .ok (decide (v < w)) ∧
    t.le (.tet u) = .ok (decide (v ≤ w)) ∧ t.gt (.tet u) = .ok (decide (w < v)) ∧
    t.ge (.tet u) = .ok (decide (w ≤ v)) ∧ below (.tet t) u = some (.ok (decide (v < w))) := by
  obtain ⟨b, h, h2, e1, e2, rfl⟩ := ht
  obtain ⟨b', k, -, e3, e4, rfl⟩ := hu
  obtain rfl : b = b' := by omega
  have hm := tetr_strictMono h2
  have heq : t.eq (.tet u) = decide (tetr b h = tetr b k) := by
    simp only [Tet.eq, e1, e3, e2, e4, beq_self_eq_true, Bool.true_and, hm.injective.eq_iff]
    rw [Bool.eq_iff_iff]
    simp
  have hlt : t.lt (.tet u) = .ok (decide (tetr b h < tetr b k)) := by
    simp only [Tet.lt, e1, e3, e2, e4, if_true, hm.lt_iff_lt, Int.ofNat_lt]
  refine ⟨heq, hlt, ?_, ?_, ?_, congrArg some hlt⟩
  all_goals
    rcases Nat.lt_trichotomy (tetr b h) (tetr b k) with g | g | g
  all_goals simp [Tet.le, Tet.ge, Tet.gt, heq, hlt, Except.map, g, Nat.le_of_lt, Nat.ne_of_gt,
    Nat.ne_of_lt, Nat.not_lt_of_gt, Nat.not_le_of_gt]

/-- **C80, powers.**  The base to the power of a tower is the next tower, exactly. -/
theorem C80_power {t : Tet} {v : Nat} (ht : t.Means v) :
    ∃ u, rpow t.base t = some u ∧ u.Means (t.base.toNat ^ v) := by
  obtain ⟨b, h, h2, e1, e2, rfl⟩ := ht
  refine ⟨⟨t.base, 1 + t.height⟩, by simp [rpow], b, h + 1, h2, e1, ?_, ?_⟩
  · show 1 + t.height = _
    omega
  · rw [e1]
    rfl

/-- **C80, integers.**  Comparisons with an integer are right, if the tower is the larger one. -/
theorem C80_integer_partial {t : Tet} {v : Nat} (_ : t.Means v) {n : Int} (hn : n < v) :
    t.lt (.num (.int n)) = .ok (decide (v < n)) ∧ t.gt (.num (.int n)) = .ok (decide (n < v)) ∧
    t.le (.num (.int n)) = .ok (decide (v ≤ n)) ∧ t.ge (.num (.int n)) = .ok (decide (n ≤ v)) ∧
    below (.num (.int n)) t = some (.ok (decide (n < v))) ∧
    t.eq (.num (.int n)) = decide ((v : Int) = n) := by
  have h1 : ¬ (v : Int) < n := by omega
  have h2 : ¬ (v : Int) ≤ n := by omega
  have h3 : n ≤ v := by omega
  have h4 : ¬ (v : Int) = n := by omega
  rw [decide_eq_false h1, decide_eq_false h2, decide_eq_false h4, decide_eq_true hn, decide_eq_true h3]
  exact ⟨rfl, rfl, rfl, rfl, rfl, rfl⟩

/-- **C80, integer exponents.**  Comparisons of a tower of three or more with a power that has an integer
exponent are right, if the tower is the larger one; for instance if the bases agree and the exponent is
below the tower that is one less high. -/
theorem C80_exponent_partial {t : Tet} {v : Nat} (_ : t.Means v) (h3 : 3 ≤ t.height) {b k w : Int}
    (_ : (Num.exp b (.int k)).toInt = some w) (hw : w < v) :
    t.lt (.num (.exp b (.int k))) = .ok (decide (v < w)) ∧
    t.gt (.num (.exp b (.int k))) = .ok (decide (w < v)) ∧
    below (.num (.exp b (.int k))) t = some (.ok (decide (w < v))) := by
  have h1 : ¬ (v : Int) < w := by omega
  rw [decide_eq_false h1, decide_eq_true hw]
  have h : t.lt (.num (.exp b (.int k))) = .ok false := by
    simp only [Tet.lt, Num.isInt, true_and]
    rw [if_pos (by omega)]
  have g : t.gt (.num (.exp b (.int k))) = .ok true := by
    simp [Tet.gt, Tet.eq, h, Except.map]
  exact ⟨h, g, congrArg some g⟩

/-- The instance: exponents below the next lower tower. -/
theorem C80_exponent_below {t : Tet} {b h k : Nat} (hb : 2 ≤ b) (e1 : t.base = b)
    (e2 : t.height = h + 1) (hk : k < tetr b h) :
    t.Means (tetr b (h + 1)) ∧ ∃ w : Int, (Num.exp b (.int k)).toInt = some w ∧ w < tetr b (h + 1) := by
  refine ⟨⟨b, h + 1, hb, e1, by omega, rfl⟩, (b : Int) ^ k, ?_, ?_⟩
  · simp [Num.toInt]
  · have : b ^ k < b ^ tetr b h := Nat.pow_lt_pow_right (by omega) hk
    exact_mod_cast this

/-- Towers of one or two are never compared with powers. -/
theorem C80_low {t : Tet} (h : t.height ≤ 2) (b : Int) (e : Num) :
    t.lt (.num (.exp b e)) = .error .notImpl ∧ t.gt (.num (.exp b e)) = .error .notImpl := by
  have h1 : t.lt (.num (.exp b e)) = .error .notImpl := by
    simp only [Tet.lt]
    rw [if_neg (by omega)]
  exact ⟨h1, by simp [Tet.gt, Tet.eq, h1, Except.map]⟩

/-- **C80, refusals.**  Comparisons with a power that has a symbolic exponent and with a tower of another
base raise `NotImplementedError`, those with any other symbolic number fail an assertion; none of them
answers. -/
theorem C80_refused (t : Tet) :
    (∀ b e, e.isInt = false → t.lt (.num (.exp b e)) = .error .notImpl ∧
      below (.num (.exp b e)) t = some (.error .notImpl)) ∧
    (∀ u : Tet, t.base ≠ u.base → t.lt (.tet u) = .error .notImpl ∧
      below (.tet u) t = some (.error .notImpl)) ∧
    ∀ x : Num, x.isInt = false → (∀ b e, x ≠ .exp b e) →
      t.lt (.num x) = .error .other ∧ t.gt (.num x) = .error .other := by
  refine ⟨fun b e he => ?_, fun u hu => ?_, fun x hx hne => ?_⟩
  · have h : t.lt (.num (.exp b e)) = .error .notImpl := by simp [Tet.lt, he]
    exact ⟨h, by simp [below, Tet.gt, Tet.eq, h, Except.map]⟩
  · exact ⟨by simp [Tet.lt, hu], by simp [below, Tet.lt, Ne.symm hu]⟩
  · have h : t.lt (.num x) = .error .other := by
      cases x with
      | int _ => simp [Num.isInt] at hx
      | exp b e => exact absurd rfl (hne b e)
      | _ => rfl
    exact ⟨h, by simp [Tet.gt, Tet.eq, h, Except.map]⟩

/-- **C80, sums and products.**  With a number between 0 (1) and the tower, the sum is at most twice, the
product at most the square of what is returned. -/
theorem C80_sum_partial {t : Tet} {v : Nat} {x : Count} {m : Int} (ht : t.Means v) (_ : x.Means m)
    (hm : m ≤ v) :
    (0 ≤ m → ∃ r, (t.add x).Means r ∧ r ≤ v + m ∧ v + m ≤ 2 * r) ∧
    (1 ≤ m → ∃ r, (t.mul x).Means r ∧ r ≤ v * m ∧ v * m ≤ r ^ 2) := by
  constructor
  · intro h0
    exact ⟨v, ⟨v, ht, rfl⟩, by omega, by omega⟩
  · intro h1
    have hv : (0 : Int) ≤ v := by omega
    exact ⟨v, ⟨v, ht, rfl⟩, le_mul_of_one_le_right hv h1,
      by rw [sq]; exact mul_le_mul_of_nonneg_left hm hv⟩

/-- **C80, differences.**  Zero is returned only for the same tower, and then rightly; a difference with a
number up to half of the tower is at least half of what is returned. -/
theorem C80_difference_partial {t : Tet} {v : Nat} {x : Count} {m : Int} (ht : t.Means v)
    (hx : x.Means m) :
    (t.sub x = .num (.int 0) ↔ x = .tet t) ∧ (x = .tet t → (v : Int) - m = 0) ∧
    (x ≠ .tet t → 0 ≤ m → 2 * m ≤ v → ∃ r, (t.sub x).Means r ∧ v - m ≤ r ∧ r ≤ 2 * (v - m)) := by
  have heq : t.eq x = true ↔ x = .tet t := by
    cases x with
    | num y => simp [Tet.eq]
    | tet u =>
      obtain ⟨b, h⟩ := t
      obtain ⟨b', h'⟩ := u
      simp only [Tet.eq, Bool.and_eq_true, beq_iff_eq, Count.tet.injEq, Tet.mk.injEq]
      constructor
      · rintro ⟨rfl, rfl⟩
        exact ⟨rfl, rfl⟩
      · rintro ⟨rfl, rfl⟩
        exact ⟨rfl, rfl⟩
  refine ⟨?_, ?_, ?_⟩
  · rw [← heq]
    unfold Tet.sub
    split
    · next h => simp [h]
    · next h => simp [h]
  · rintro rfl
    obtain ⟨w, hw, rfl⟩ := hx
    have := (C80_order ht hw rfl).1
    rw [heq.2 rfl] at this
    have := of_decide_eq_true this.symm
    omega
  · intro hne h0 h2
    have : t.sub x = .tet t := by
      unfold Tet.sub
      rw [if_neg (fun h => hne (heq.1 h))]
    rw [this]
    exact ⟨v, ⟨v, ht, rfl⟩, by omega, by omega⟩

/-! ## A case (test_num.py L1467-1488) -/

theorem C80_example : rpow 10 ⟨10, 2⟩ = some ⟨10, 3⟩ ∧ (⟨10, 2⟩ : Tet).Means (10 ^ 10) ∧
    (⟨10, 3⟩ : Tet).sub (.tet ⟨10, 3⟩) = .num (.int 0) ∧
    (⟨10, 3⟩ : Tet).sub (.num (.exp 10 (.int 10))) = .tet ⟨10, 3⟩ ∧
    (⟨10, 3⟩ : Tet).gt ((⟨10, 2⟩ : Tet).add (.num (.int 3))) = .ok true := by
  refine ⟨rfl, ⟨10, 2, by decide, rfl, rfl, by decide +kernel⟩, rfl, rfl, rfl⟩

/-! ## Where it goes wrong -/

/-- `10 ↑↑ 2` is found to be above the integer `10 ** 10 + 1`. -/
theorem C80_integer_violation : (⟨10, 2⟩ : Tet).Means (10 ^ 10) ∧
    (⟨10, 2⟩ : Tet).lt (.num (.int (10 ^ 10 + 1))) = .ok false ∧
    (⟨10, 2⟩ : Tet).gt (.num (.int (10 ^ 10 + 1))) = .ok true :=
  ⟨⟨10, 2, by decide, rfl, rfl, by decide +kernel⟩, rfl, rfl⟩

/-- Any tower of three or more is found to be above the powers of its base with an integer exponent,
also above the larger ones. -/
theorem C80_exponent_violation {b h k : Nat} (hb : 2 ≤ b) (hk : tetr b (h + 2) < k) :
    (⟨b, h + 3⟩ : Tet).Means (tetr b (h + 3)) ∧
    (∃ w : Int, (Num.exp b (.int k)).toInt = some w ∧ tetr b (h + 3) < w) ∧
    (⟨b, h + 3⟩ : Tet).gt (.num (.exp b (.int k))) = .ok true := by
  refine ⟨⟨b, h + 3, hb, rfl, rfl, rfl⟩, ⟨(b : Int) ^ k, by simp [Num.toInt], ?_⟩, ?_⟩
  · have : tetr b (h + 3) < b ^ k := Nat.pow_lt_pow_right (by omega) hk
    exact_mod_cast this
  · have h1 : (⟨b, h + 3⟩ : Tet).lt (.num (.exp b (.int k))) = .ok false := by
      simp only [Tet.lt, Num.isInt, true_and]
      rw [if_pos (by omega)]
    simp [Tet.gt, Tet.eq, h1, Except.map]

/-- `10 ↑↑ 2 - 10 ↑↑ 3` is taken to be `10 ↑↑ 2`: positive. -/
theorem C80_difference_violation : (⟨10, 2⟩ : Tet).sub (.tet ⟨10, 3⟩) = .tet ⟨10, 2⟩ ∧
    (⟨10, 2⟩ : Tet).Means (tetr 10 2) ∧ (⟨10, 3⟩ : Tet).Means (tetr 10 3) ∧ tetr 10 2 < tetr 10 3 :=
  ⟨rfl, ⟨10, 2, by decide, rfl, rfl, rfl⟩, ⟨10, 3, by decide, rfl, rfl, rfl⟩,
    tetr_lt_succ (by decide) 2⟩

/-- A tower times 0 or -1 is the tower. -/
theorem C80_product_violation (t : Tet) :
    t.mul (.num (.int 0)) = .tet t ∧ t.mul (.num (.int (-1))) = .tet t := ⟨rfl, rfl⟩

/-- `2 ↑↑ 3` and `16 ↑↑ 1` are both 16, but not equal, and comparing them raises. -/
theorem C80_base_violation : (⟨2, 3⟩ : Tet).Means 16 ∧ (⟨16, 1⟩ : Tet).Means 16 ∧
    (⟨2, 3⟩ : Tet).eq (.tet ⟨16, 1⟩) = false ∧
    (⟨2, 3⟩ : Tet).lt (.tet ⟨16, 1⟩) = .error .notImpl :=
  ⟨⟨2, 3, by decide, rfl, rfl, by decide +kernel⟩, ⟨16, 1, by decide, rfl, rfl, by decide +kernel⟩,
    rfl, rfl⟩

end Tetra
end BB
