import Verif.Lemmas.Estimate

/-!
# C78: the estimate of a symbolic number says how large it is

`lg` is the rounded logarithm of the code, off by at most `δ`.  Under `Sized` (all parts positive) the
exponent in `10 ** digits` is off by at most `δ` for every integer in the number but one; where a tower is
returned, its height is that of a tower of tens above the number, and of a tower of twos below it.
-/

namespace BB
namespace Estimate

open BB.Sym (Num Ops)

/-- **C78, digits.**  With exact rounding (`δ = 1/2`) the number of digits is off by at most half the number of
integers in the expression. -/
theorem C78_digits_partial {δ : ℝ} (hδ : 1 / 2 ≤ δ) {lg : Int → Int → Res Int} (hlg : Fair δ lg)
    {x : Num} (hx : Sized x) {d : Int} (h : digits lg x = .ok d) :
    |(d : ℝ) - Real.logb 10 x.val| ≤ δ * (ints x - 1) := by
  have := digits_near hδ hlg hx h
  linarith

theorem size_pow {lg : Int → Int → Res Int} {x : Num} {d : Int} (h : size lg x = .ok (.pow d)) :
    digits lg x = .ok d ∧ 0 < d := by
  unfold size at h
  split at h
  · cases h
  · split at h
    · cases h
    · cases h
    · next d' hd =>
      unfold tenTo at h
      split at h
      · next hp => cases h; exact ⟨hd, hp⟩
      · cases h

theorem size_tet {lg : Int → Int → Res Int} {x : Num} {h : Nat} (hs : size lg x = .ok (.tet h)) :
    h = towerEst x := by
  unfold size at hs
  split at hs
  · cases hs; rfl
  · split at hs
    · cases hs; rfl
    · cases hs
    · unfold tenTo at hs
      split at hs <;> cases hs

theorem size_neg {lg : Int → Int → Res Int} {x : Num} {d : Int} :
    size lg x ≠ .ok (.negPow d) := by
  intro hs
  unfold size at hs
  split at hs
  · cases hs
  · split at hs
    · cases hs
    · cases hs
    · unfold tenTo at hs
      split at hs <;> cases hs

/-- A number that is rightly found not to be negative. -/
theorem estimate_size {lg : Int → Int → Res Int} {o : Ops} {x : Num} {e : Est}
    (ho : ∀ b, o.lt x (.int 0) = .ok b → (b = true ↔ x.val < 0)) (hx : Sized x)
    (h : estimate lg o x = .ok e) : size lg x = .ok e := by
  simp only [estimate, bind] at h
  obtain ⟨e', h1, h2⟩ := bind_ok h
  have hp := hx.pos
  cases hl : o.lt x (.int 0) with
  | error _ => rw [hl] at h2; cases h2
  | ok b =>
    cases b with
    | true => exact absurd ((ho true hl).1 rfl) (by linarith)
    | false =>
      rw [hl] at h2
      cases h2
      exact h1

/-- **C78, powers of ten.**  If the estimate is `10 ** d`, then the number is that up to a factor of
`10 ** (δ * (n - 1))`, `n` being the number of integers in the expression. -/
theorem C78_power_partial {δ : ℝ} (hδ : 1 / 2 ≤ δ) {lg : Int → Int → Res Int} (hlg : Fair δ lg)
    {o : Ops} {x : Num} (ho : ∀ b, o.lt x (.int 0) = .ok b → (b = true ↔ x.val < 0)) (hx : Sized x) :
    (∀ d, estimate lg o x ≠ .ok (.negPow d)) ∧
    ∀ d, estimate lg o x = .ok (.pow d) →
      0 < d ∧ (10 : ℝ) ^ ((d : ℝ) - δ * (ints x - 1)) ≤ x.val ∧
      x.val ≤ 10 ^ ((d : ℝ) + δ * (ints x - 1)) := by
  refine ⟨fun d h => size_neg (estimate_size ho hx h), fun d h => ?_⟩
  obtain ⟨h1, h2⟩ := size_pow (estimate_size ho hx h)
  have hd := abs_le.1 (C78_digits_partial hδ hlg hx h1)
  have ht : (1 : ℝ) < 10 := by norm_num
  refine ⟨h2, ?_, ?_⟩
  · rw [← Real.le_logb_iff_rpow_le ht hx.pos]
    linarith [hd.2]
  · rw [← Real.logb_le_iff_le_rpow ht hx.pos]
    linarith [hd.1]

/-- **C78, towers from above.**  If the estimate is `10 ↑↑ h`, then the number is at most a tower of `h` tens
with the (tenfold) number of digits in the expression at the top. -/
theorem C78_tower_above_partial {lg : Int → Int → Res Int} {o : Ops} {x : Num}
    (ho : ∀ b, o.lt x (.int 0) = .ok b → (b = true ↔ x.val < 0)) (hx : Sized x)
    (hi : x.isInt = false) {h : Nat} (he : estimate lg o x = .ok (.tet h)) :
    x.val ≤ tower 10 h (width x) := by
  have h1 := size_tet (estimate_size ho hx he)
  have := val_le hx
  rwa [max_eq_right (towerEst_pos hx hi), ← h1] at this

/-- **C78, towers from below.**  If nothing is subtracted or divided, it is at least a tower of `h` twos. -/
theorem C78_tower_below_partial {lg : Int → Int → Res Int} {o : Ops} {x : Num}
    (ho : ∀ b, o.lt x (.int 0) = .ok b → (b = true ↔ x.val < 0)) (hx : Sized x) (hg : Grows x)
    {h : Nat} (he : estimate lg o x = .ok (.tet h)) :
    tower 2 h 1 ≤ x.val := by
  rw [size_tet (estimate_size ho hx he)]
  exact hg.le

/-! ## Which kind of estimate -/

/-- **C78, sign.**  A number found to be negative is estimated as minus a power of ten, others are not. -/
theorem C78_sign {lg : Int → Int → Res Int} {o : Ops} {x : Num} {b : Bool}
    (hl : o.lt x (.int 0) = .ok b) (d : Int) :
    (estimate lg o x = .ok (.pow d) → b = false ∧ size lg x = .ok (.pow d)) ∧
    (estimate lg o x = .ok (.negPow d) → b = true ∧ size lg x = .ok (.pow d)) := by
  have key : ∀ e, estimate lg o x = .ok e → ∃ e', size lg x = .ok e' ∧
      (if b then e'.neg else .ok e') = .ok e := by
    intro e h
    simp only [estimate, bind] at h
    obtain ⟨e', h1, h2⟩ := bind_ok h
    refine ⟨e', h1, ?_⟩
    rw [hl] at h2
    cases b <;> exact h2
  constructor
  · intro h
    obtain ⟨e', h1, h2⟩ := key _ h
    cases b with
    | false => cases h2; exact ⟨rfl, h1⟩
    | true =>
      cases e' with
      | pow k => cases h2
      | negPow k => exact absurd h1 size_neg
      | tet k => cases h2
  · intro h
    obtain ⟨e', h1, h2⟩ := key _ h
    cases b with
    | false => cases h2; exact absurd h1 size_neg
    | true =>
      cases e' with
      | pow k => cases h2; exact ⟨rfl, h1⟩
      | negPow k => cases h2
      | tet k => cases h2

/-- **C78, when a tower.**  A tower of at most three tens is returned only if the digits cannot be computed. -/
theorem C78_when_tower {lg : Int → Int → Res Int} {x : Num} {h : Nat} (hs : size lg x = .ok (.tet h)) :
    3 < h ∨ digits lg x = .error .overflow := by
  have ht := size_tet hs
  unfold size at hs
  split at hs
  · exact .inl (by omega)
  · split at hs
    · next hd => exact .inr hd
    · cases hs
    · unfold tenTo at hs
      split at hs <;> cases hs

/-- **C78, huge exponents.**  A power whose exponent has ten digits or more is a tower, one higher than
that of the exponent. -/
theorem C78_huge_exponent {lg : Int → Int → Res Int} {b d : Int} {e : Num} (hd : digits lg e = .ok d)
    (h : 10 ≤ d) : size lg (.exp b e) = .ok (.tet (1 + towerEst e)) := by
  have hi : ∀ k, e ≠ .int k := by
    rintro k rfl
    cases hd
  have h1 : digits lg (.exp b e) = .error .overflow := by
    cases e with
    | int k => exact absurd rfl (hi k)
    | _ =>
      unfold digits
      simp only [hd, bind, Except.bind, h, if_true]
  have h2 : towerEst (.exp b e) = 1 + towerEst e := by
    cases e with
    | int k => exact absurd rfl (hi k)
    | _ => rfl
  simp only [size, h1, h2]
  split <;> rfl

/-! ## A case -/

/-- The exact rounding. -/
noncomputable def exact (b k : Int) : Res Int := .ok (round (k * Real.logb 10 b))

theorem exact_fair : Fair (1 / 2) exact := by
  intro b k d _ _ h
  cases h
  rw [abs_sub_comm]
  exact abs_sub_round _

theorem round_eq {lg : Int → Int → Res Int} (hlg : Fair (1 / 2) lg) {b k d c : Int}
    (hb : 0 < b) (hk : 0 < k) (h : lg b k = .ok d)
    (h1 : (c : ℝ) - 1 / 2 < k * Real.logb 10 b) (h2 : k * Real.logb 10 b < (c : ℝ) + 1 / 2) :
    d = c := by
  have := abs_le.1 (hlg b k d hb hk h)
  have h3 : (c : ℝ) - 1 < d := by linarith
  have h4 : (d : ℝ) < c + 1 := by linarith
  have h3 : c - 1 < d := by exact_mod_cast h3
  have h4 : d < c + 1 := by exact_mod_cast h4
  omega

/-- Bounds of a logarithm from whole numbers. -/
theorem logb_between {b k lo hi : Nat} (hb : 0 < b) (h1 : 10 ^ lo < (b ^ k) ^ 2)
    (h2 : (b ^ k) ^ 2 < 10 ^ hi) :
    (lo : ℝ) / 2 < k * Real.logb 10 b ∧ k * Real.logb 10 b < (hi : ℝ) / 2 := by
  have hp : (0 : ℝ) < (b ^ k) ^ 2 := by positivity
  have e : Real.logb 10 ((b ^ k : ℝ) ^ 2) = 2 * (k * Real.logb 10 b) := by
    rw [Real.logb_pow, Real.logb_pow]
    push_cast
    ring
  have t : ∀ m : Nat, Real.logb 10 ((10 : ℝ) ^ m) = m := by
    intro m
    rw [Real.logb_pow, Real.logb_self_eq_one (by norm_num), mul_one]
  have a1 : Real.logb 10 ((10 : ℝ) ^ lo) < Real.logb 10 ((b ^ k : ℝ) ^ 2) :=
    Real.logb_lt_logb (by norm_num) (by positivity) (by exact_mod_cast h1)
  have a2 : Real.logb 10 ((b ^ k : ℝ) ^ 2) < Real.logb 10 ((10 : ℝ) ^ hi) :=
    Real.logb_lt_logb (by norm_num) hp (by exact_mod_cast h2)
  rw [t, e] at a1
  rw [e, t] at a2
  constructor <;> linarith

/-- `(-1 + 2 ** 31).estimate()` is `10 ** 9` (test_num.py L265-267), with any rounding to the nearest. -/
theorem C78_example {lg : Int → Int → Res Int} (hlg : Fair (1 / 2) lg) (flog : Int → Int → Nat)
    {d : Int} (hd : lg 2 31 = .ok d) :
    Sized (.add (.int (-1)) (.exp 2 (.int 31))) ∧
    estimate lg (Sym.ops flog false 9) (.add (.int (-1)) (.exp 2 (.int 31))) = .ok (.pow 9) := by
  constructor
  · refine ⟨rfl, ⟨by decide, (by decide : (0 : Int) < 31), trivial⟩, .inl ⟨-1, rfl, ?_, ?_⟩⟩
    · simp only [Num.val]; norm_num
    · simp only [Num.val]; norm_num
  · have hb := logb_between (b := 2) (k := 31) (lo := 18) (hi := 19) (by decide) (by norm_num)
      (by norm_num)
    push_cast at hb
    have : d = 9 := round_eq hlg (by decide) (by decide) hd (by push_cast; linarith [hb.1])
      (by push_cast; linarith [hb.2])
    subst this
    have h1 : digits lg (.add (.int (-1)) (.exp 2 (.int 31))) = .ok 9 := by
      simp [digits, power, hd, bind, Except.bind]
    have h2 : (Sym.ops flog false 9).lt (.add (.int (-1)) (.exp 2 (.int 31))) (.int 0) = .ok false := by
      rfl
    simp only [estimate, size, h1, h2, bind, Except.bind]
    rfl

/-! ## Where the estimate is wrong or fails -/

/-- `2 ** 2 ** 2 ** Exp(2, 1)` -/
def tall : Num := .exp 2 (.exp 2 (.exp 2 (.exp 2 (.int 1))))

/-- The estimate of 65536, written as a tower of twos, is `10 ↑↑ 4`. -/
theorem C78_tall_violation (lg : Int → Int → Res Int) (flog : Int → Int → Nat) :
    tall.toInt = some 65536 ∧ Sized tall ∧
    estimate lg (Sym.ops flog false 9) tall = .ok (.tet 4) := by
  refine ⟨by decide +kernel, ?_, ?_⟩
  · exact ⟨by decide, ⟨by decide, ⟨by decide, ⟨by decide, (by decide : (0 : Int) < 1), trivial⟩, trivial⟩,
      trivial⟩, trivial⟩
  · have h2 : (Sym.ops flog false 9).lt tall (.int 0) = .ok false := rfl
    have h1 : size lg tall = .ok (.tet 4) := rfl
    simp only [estimate, h1, h2, bind, Except.bind]

/-- `(-tall).estimate()` raises: `-Tet` is not implemented. -/
theorem C78_negative_tower_violation (lg : Int → Int → Res Int) (flog : Int → Int → Nat) :
    (Num.mul (.int (-1)) tall).toInt = some (-65536) ∧
    estimate lg (Sym.ops flog false 9) (.mul (.int (-1)) tall) = .error .other := by
  refine ⟨by decide +kernel, ?_⟩
  have h2 : (Sym.ops flog false 9).lt (.mul (.int (-1)) tall) (.int 0) = .ok true := rfl
  have h1 : size lg (.mul (.int (-1)) tall) = .ok (.tet 4) := rfl
  simp only [estimate, h1, h2, bind, Except.bind]
  rfl

/-- `Exp(2, 1).estimate()` raises: the logarithm of 2 is rounded to 0, and `Exp(10, 0)` is not possible. -/
theorem C78_small_violation {lg : Int → Int → Res Int} (hlg : Fair (1 / 2) lg) (flog : Int → Int → Nat)
    {d : Int} (hd : lg 2 1 = .ok d) :
    estimate lg (Sym.ops flog false 9) (.exp 2 (.int 1)) = .error .other := by
  have hb := logb_between (b := 2) (k := 1) (lo := 0) (hi := 1) (by decide) (by norm_num) (by norm_num)
  push_cast at hb
  have : d = 0 := round_eq hlg (by decide) (by decide) hd (by push_cast; linarith [hb.1])
    (by push_cast; linarith [hb.2])
  subst this
  have h1 : digits lg (.exp 2 (.int 1)) = .ok 0 := by simpa [digits, power] using hd
  simp only [estimate, size, h1, bind, Except.bind]
  rfl

/-- The digits of a negative factor are subtracted: `-n * r` and `n * r` differ by twice the digits of `n`
(test_num.py L298-312 has 103885 and 103887 for `13 * 2 ** 345103`). -/
theorem C78_negative_violation {lg : Int → Int → Res Int} {n c d : Int} {r : Num} (hn : 0 < n)
    (hc : lg n 1 = .ok c) (hd : digits lg r = .ok d) :
    digits lg (.mul (.int n) r) = .ok (d + c) ∧ digits lg (.mul (.int (-n)) r) = .ok (d - c) := by
  simp [digits, hd, hc, hn, bind, Except.bind, pure, Except.pure, sub_eq_add_neg]
  intro h
  omega

/-- An added integer is ignored: the estimate of `10 ** K + 2 ** 4` is `10 ** 1`, however large `K`. -/
theorem C78_added_violation {lg : Int → Int → Res Int} (hlg : Fair (1 / 2) lg) {d : Int}
    (hd : lg 2 4 = .ok d) (K : Nat) :
    (Num.add (.int (10 ^ K)) (.exp 2 (.int 4))).toInt = some (10 ^ K + 16) ∧
    size lg (.add (.int (10 ^ K)) (.exp 2 (.int 4))) = .ok (.pow 1) := by
  refine ⟨by simp [Num.toInt], ?_⟩
  have hb := logb_between (b := 2) (k := 4) (lo := 2) (hi := 3) (by decide) (by norm_num) (by norm_num)
  push_cast at hb
  have : d = 1 := round_eq hlg (by decide) (by decide) hd (by push_cast; linarith [hb.1])
    (by push_cast; linarith [hb.2])
  subst this
  have h1 : digits lg (.add (.int (10 ^ K)) (.exp 2 (.int 4))) = .ok 1 := by
    simp [digits, power, hd, bind, Except.bind]
  simp only [size, h1]
  rfl

end Estimate
end BB
