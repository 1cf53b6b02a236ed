/-
Further facts about the symbolic numbers: the remainder of the program and of the strict evaluation,
what `gcd` divides, and comparisons.
-/
import Mathlib.Data.Nat.Prime.Basic
import Mathlib.Algebra.Order.Ring.Abs
import Verif.Lemmas.NumRefine
import Verif.Lemmas.NumMod

namespace BB
namespace Sym

/-! ### The strict remainder -/

theorem ref_expModMatch (b : Int) (e : Num) {f f' : Int → R Int}
    (hf : ∀ k, Ref .strict (f k) (f' k)) (m : Int) :
    Ref .strict (expModMatch true b e f m) (expModMatch false b e f' m) := by
  have htail : Ref .strict (expModTail b e f m) (expModTail b e f' m) := by
    unfold expModTail
    split
    · exact Ref.rfl
    · dsimp only
      split
      · exact Ref.bind (hf _) fun _ => Ref.rfl
      · unfold expModSpecial
        split
        · exact Ref.rfl
        · exact Ref.bind (hf _) fun _ => Ref.rfl
  unfold expModMatch
  split
  · exact Ref.rfl
  split
  · exact Ref.bind (hf _) fun _ => Ref.rfl
  split
  · exact Ref.bind (hf _) fun _ => Ref.rfl
  split
  · refine Ref.bind (hf _) fun _ => ?_
    split
    · exact Ref.rfl
    split
    · exact Ref.err
    · exact Ref.rfl
  split
  · exact Ref.rfl
  split
  · split
    · exact Ref.err
    · simp only [Bool.false_and, Bool.false_eq_true, if_false]
      exact Ref.bind (hf _) fun _ => Ref.rfl
  split
  · exact Ref.rfl
  split
  · exact Ref.bind (hf _) fun _ => Ref.rfl
  · exact htail

theorem ref_expMod {x x' : R Bool} (hx : Ref .strict x x') (b : Int) (e : Num) {f f' : Int → R Int}
    (hf : ∀ k, Ref .strict (f k) (f' k)) (m : Int) :
    Ref .strict (expMod true x b e f m) (expMod false x' b e f' m) := by
  unfold expMod
  split
  · exact Ref.rfl
  split
  · exact Ref.rfl
  split
  · exact Ref.rfl
  split
  · exact Ref.rfl
  split
  · exact Ref.rfl
  · refine Ref.bind hx fun _ => ?_
    split
    · exact Ref.rfl
    · exact ref_expModMatch b e hf m

/-- Where the strict remainder does not stop with `strict` it is the remainder of the program, also when
the comparisons in it are strict. -/
theorem ref_numMod2 {o o' : Ops} (H : RefOps .strict o o') (a : Num) (m : Int) :
    Ref .strict (numMod true o a m) (numMod false o' a m) := by
  induction a generalizing m with
  | int n => exact Ref.rfl
  | add l r ihl ihr =>
    unfold numMod
    split
    · exact Ref.rfl
    · exact Ref.bind (ihl m) fun _ => Ref.bind (ihr m) fun _ => Ref.rfl
  | mul l r ihl ihr =>
    unfold numMod
    split
    · exact Ref.rfl
    · refine Ref.bind (ihl m) fun _ => ?_
      split
      · exact Ref.rfl
      · exact Ref.bind (ihr m) fun _ => Ref.rfl
  | div n d ih =>
    unfold numMod
    split
    · exact Ref.rfl
    split
    · exact Ref.rfl
    · exact Ref.bind (ih _) fun _ => Ref.rfl
  | exp b e ih =>
    unfold numMod
    exact ref_expMod (H.lt _ _) b e (fun k => ih k) m

theorem ref_numMod (o : Ops) (a : Num) (m : Int) :
    Ref .strict (numMod true o a m) (numMod false o a m) :=
  ref_numMod2 ⟨by decide, fun _ _ => Ref.rfl, fun _ _ => Ref.rfl, fun _ _ => Ref.rfl,
    fun _ _ => Ref.rfl, fun _ => Ref.rfl, fun _ _ => Ref.rfl⟩ a m

/-! ### `gcd` of a prime power -/

/-- Every exponent is so large that two to it reaches `l`. -/
def Num.ExpFrom (l : Int) : Num → Prop
  | .int _ => True
  | .add a b => a.ExpFrom l ∧ b.ExpFrom l
  | .mul a b => a.ExpFrom l ∧ b.ExpFrom l
  | .div _ _ => True
  | .exp _ e => ∀ k, e.toInt = some k → 1 ≤ k ∧ l ≤ 2 ^ k.toNat

theorem gcdLoop_pow (l base : Int) (k : Nat) : ∃ j, gcdLoop l base k = base ^ j := by
  induction k with
  | zero => exact ⟨0, by simp [gcdLoop]⟩
  | succ k ih =>
    unfold gcdLoop
    split
    · exact ⟨k + 1, rfl⟩
    · exact ih

theorem dvd_chain {p K : Nat} (hp : p.Prime) {x y : Int} (hx0 : 0 < x) (hy0 : 0 < y)
    (hx : x ∣ (p : Int) ^ K) (hy : y ∣ (p : Int) ^ K) (h : x ≤ y) : x ∣ y := by
  obtain ⟨a, rfl⟩ := Int.eq_ofNat_of_zero_le hx0.le
  obtain ⟨b, rfl⟩ := Int.eq_ofNat_of_zero_le hy0.le
  have hx' : a ∣ p ^ K := by exact_mod_cast hx
  have hy' : b ∣ p ^ K := by exact_mod_cast hy
  obtain ⟨i, -, rfl⟩ := (Nat.dvd_prime_pow hp).mp hx'
  obtain ⟨j, -, rfl⟩ := (Nat.dvd_prime_pow hp).mp hy'
  have hij : i ≤ j := by
    have : p ^ i ≤ p ^ j := by exact_mod_cast h
    exact (Nat.pow_le_pow_iff_right hp.one_lt).mp this
  exact_mod_cast pow_dvd_pow p hij

/-- For a prime power `l` and large exponents `gcd l r` divides `int(r)`. -/
theorem gcd_dvd_primePow (flog : Int → Int → Nat) {p K : Nat} (hp : p.Prime) {l : Int}
    (hl : l = (p : Int) ^ K) {r : Num} (hw : r.WF) (hbig : r.ExpFrom l) {z : Int}
    (hz : r.toInt = some z) : Ret (gcd flog l r) (fun d => d ∣ z) := by
  have hl0 : 0 < l := by
    rw [hl]; exact pow_pos (by exact_mod_cast hp.pos) _
  induction r generalizing z with
  | int n =>
    simp only [Num.toInt, Option.some.injEq] at hz
    subst hz
    unfold gcd
    split
    · exact Ret.ok (one_dvd _)
    · exact Ret.ok (Int.gcd_dvd_right ..)
  | add a b iha ihb =>
    simp only [Num.toInt, Option.bind_eq_bind, Option.bind_eq_some_iff, Option.pure_def,
      Option.some.injEq] at hz
    obtain ⟨x, hx, y, hy, rfl⟩ := hz
    unfold gcd
    split
    · exact Ret.ok (one_dvd _)
    · have ha : Ret (gcd flog l a) (fun d => (0 < d ∧ d ∣ l) ∧ d ∣ x) :=
        fun c hc => ⟨ret_gcd flog hl0 a c hc, iha hw.1 hbig.1 hx c hc⟩
      have hb : Ret (gcd flog l b) (fun d => (0 < d ∧ d ∣ l) ∧ d ∣ y) :=
        fun c hc => ⟨ret_gcd flog hl0 b c hc, ihb hw.2 hbig.2 hy c hc⟩
      refine Ret.bind ha ?_
      rintro u ⟨⟨hu0, hul⟩, hux⟩
      split
      · exact Ret.pure (one_dvd _)
      · refine Ret.bind hb ?_
        rintro v ⟨⟨hv0, hvl⟩, hvy⟩
        split
        · exact Ret.pure (one_dvd _)
        · refine Ret.pure ?_
          rw [hl] at hul hvl
          rcases le_total u v with h | h
          · rw [min_eq_left h]
            exact dvd_add hux ((dvd_chain hp hu0 hv0 hul hvl h).trans hvy)
          · rw [min_eq_right h]
            exact dvd_add ((dvd_chain hp hv0 hu0 hvl hul h).trans hux) hvy
  | mul a b iha ihb =>
    simp only [Num.toInt, Option.bind_eq_bind, Option.bind_eq_some_iff, Option.pure_def,
      Option.some.injEq] at hz
    obtain ⟨x, hx, y, hy, rfl⟩ := hz
    unfold gcd
    split
    · exact Ret.ok (one_dvd _)
    · refine Ret.bind (iha hw.1 hbig.1 hx) fun u hu => Ret.bind (ihb hw.2 hbig.2 hy) fun v hv =>
        Ret.pure ?_
      rcases max_choice u v with h | h <;> rw [h]
      · exact dvd_mul_of_dvd_left hu _
      · exact dvd_mul_of_dvd_right hv _
  | div n d ih =>
    unfold gcd
    split
    · exact Ret.ok (one_dvd _)
    · exact Ret.error
  | exp b e ih =>
    simp only [Num.toInt, Option.bind_eq_bind, Option.bind_eq_some_iff] at hz
    obtain ⟨k, hk, hz⟩ := hz
    obtain ⟨hk1, hk2⟩ := hbig k hk
    rw [if_neg (by omega)] at hz
    cases hz
    have hk0 : k.toNat ≠ 0 := by omega
    unfold gcd
    split
    · exact Ret.ok (one_dvd _)
    split
    · rename_i h
      rw [h]
      exact Ret.ok (dvd_pow_self _ hk0)
    split
    · exact Ret.error
    split
    · exact Ret.ok ((Int.gcd_dvd_right ..).trans (dvd_pow_self _ hk0))
    split
    · exact Ret.error
    · rename_i h
      refine Ret.ok ?_
      have hb : 1 < b := by omega
      have hle : gcdLoop l b (flog l b) ≤ l :=
        Int.le_of_dvd hl0 (gcdLoop_spec (by omega) _).2
      obtain ⟨j, hj⟩ := gcdLoop_pow l b (flog l b)
      rw [hj] at hle ⊢
      refine pow_dvd_pow b ?_
      by_contra hlt
      have h1 : b ^ (k.toNat + 1) ≤ b ^ j := pow_le_pow_right₀ (by omega) (by omega)
      have h2 : (2 : Int) ^ k.toNat ≤ b ^ k.toNat := pow_le_pow_left₀ (by decide) (by omega) _
      have h3 : b ^ k.toNat < b ^ (k.toNat + 1) := pow_lt_pow_right₀ hb (by omega)
      omega

/-! ### Comparison with an integer -/

/-- A term whose parts are all at least `M` away from zero and whose products have a positive right
factor: what the comparisons with an integer assume. -/
def Num.Huge (M : ℝ) : Num → Prop
  | .int _ => True
  | .add l r => l.Huge M ∧ r.Huge M ∧ r.isInt = false ∧ ∀ n, l = .int n → |(n : ℝ)| + M ≤ |r.val|
  | .mul l r => l.Huge M ∧ 0 < r.val ∧ M ≤ |l.val * r.val|
  | .div n d => n.Huge M ∧ n.isInt = false ∧ 0 < d ∧ M ≤ |n.val / d|
  | .exp b e => M ≤ (b : ℝ) ^ e.val

/-- The answer of a test for a negative number, with the distance from zero. -/
def Neg (M v : ℝ) (b : Bool) : Prop := (b = true ∧ v ≤ -M) ∨ (b = false ∧ M ≤ v)

structure LtSound (M : ℝ) (o : Ops) : Prop where
  lt : ∀ {a : Num}, a.isInt = false → a.Huge M → ∀ k : Int, Ret (o.lt a (.int k)) (Neg M a.val)
  zlt : ∀ {a : Num}, a.isInt = false → a.Huge M →
    Ret (o.lt (.int 0) a) (fun b => Neg M a.val (!b))
  ilt : ∀ (n k : Int), Ret (o.lt (.int n) (.int k)) (fun b => b = decide (n < k))

theorem ret_andR {x y : R Bool} {P Q : Bool → Prop} (hx : Ret x P) (hy : Ret y Q) :
    Ret (andR x y) (fun b => b = true → P true ∧ Q true) := by
  unfold andR
  refine Ret.bind hx fun a ha => ?_
  split
  · rename_i h
    refine hy.mono ?_
    rintro b hb rfl
    rw [h] at ha
    exact ⟨ha, hb⟩
  · exact Ret.pure (by simp)

theorem LtSound.step {M : ℝ} (hM : 0 < M) {o : Ops} (S : LtSound M o) (flog : Int → Int → Nat)
    (s : Bool) : LtSound M (o.step flog s) where
  lt {a} hi ha k := by
    simp only [Ops.step]
    split
    · cases hi
    · rename_i l r
      obtain ⟨hl, hr, hri, hlr⟩ := ha
      unfold addLt
      dsimp only
      split
      · rename_i hli
        cases l with
        | int n =>
          have hn := hlr n rfl
          refine (S.lt hri hr 0).mono ?_
          have hnn := abs_le.mp (le_refl |(n : ℝ)|)
          rintro b (⟨rfl, hb⟩ | ⟨rfl, hb⟩)
          · left
            refine ⟨rfl, ?_⟩
            rw [abs_of_neg (a := r.val) (by linarith)] at hn
            rw [val_add, val_int]
            linarith
          · right
            refine ⟨rfl, ?_⟩
            rw [abs_of_pos (a := r.val) (by linarith)] at hn
            rw [val_add, val_int]
            linarith
        | _ => cases hli
      · rename_i hli
        have hli : l.isInt = false := by simpa using hli
        refine Ret.bind (ret_andR (S.lt hli hl 0) (S.lt hri hr 0)) fun b hb => ?_
        split
        · rename_i hbt
          obtain ⟨h1, h2⟩ := hb hbt
          refine Ret.pure (.inl ⟨rfl, ?_⟩)
          rw [val_add]
          rcases h1 with ⟨-, h1⟩ | ⟨h1, -⟩
          · rcases h2 with ⟨-, h2⟩ | ⟨h2, -⟩
            · linarith
            · cases h2
          · cases h1
        · refine Ret.bind (ret_andR (S.zlt hli hl) (S.zlt hri hr)) fun b hb => ?_
          split
          · rename_i hbt
            obtain ⟨h1, h2⟩ := hb hbt
            refine Ret.pure (.inr ⟨rfl, ?_⟩)
            rw [val_add]
            rcases h1 with ⟨h1, -⟩ | ⟨-, h1⟩
            · cases h1
            · rcases h2 with ⟨h2, -⟩ | ⟨-, h2⟩
              · cases h2
              · linarith
          · unfold addLtRest
            split
            · rename_i h
              rw [← h] at hri
              cases hri
            split
            · rename_i h
              rw [← h] at hli
              cases hli
            · exact Ret.error
    · rename_i l r
      obtain ⟨hl, hr, hlr⟩ := ha
      unfold mulLt
      dsimp only
      have key : Ret (o.lt l (.int 0)) (fun b => (b = true ∧ l.val < 0) ∨ (b = false ∧ 0 ≤ l.val)) := by
        cases hli : l.isInt with
        | false =>
          refine (S.lt hli hl 0).mono ?_
          rintro b (⟨rfl, hb⟩ | ⟨rfl, hb⟩)
          · exact .inl ⟨rfl, by linarith⟩
          · exact .inr ⟨rfl, by linarith⟩
        | true =>
          cases l with
          | int n =>
            refine (S.ilt n 0).mono ?_
            rintro b rfl
            rw [val_int]
            by_cases h : n < 0
            · left
              exact ⟨by simpa using h, by exact_mod_cast h⟩
            · right
              exact ⟨by simpa using h, by exact_mod_cast (not_lt.mp h)⟩
          | _ => cases hli
      refine key.mono ?_
      rintro b (⟨rfl, hb⟩ | ⟨rfl, hb⟩)
      · left
        refine ⟨rfl, ?_⟩
        rw [abs_of_neg (mul_neg_of_neg_of_pos hb hr)] at hlr
        rw [val_mul]
        linarith
      · right
        refine ⟨rfl, ?_⟩
        rw [abs_of_nonneg (mul_nonneg hb hr.le)] at hlr
        exact hlr
    · rename_i n d
      obtain ⟨hn, hni, hd, hnd⟩ := ha
      have hd' : (0 : ℝ) < d := by exact_mod_cast hd
      unfold divLt
      dsimp only
      refine (S.lt hni hn 0).mono ?_
      rintro b (⟨rfl, hb⟩ | ⟨rfl, hb⟩)
      · left
        refine ⟨rfl, ?_⟩
        rw [abs_of_neg (div_neg_of_neg_of_pos (by linarith) hd')] at hnd
        rw [val_div]
        linarith
      · right
        refine ⟨rfl, ?_⟩
        rw [abs_of_pos (div_pos (by linarith) hd')] at hnd
        exact hnd
    · exact Ret.ok (.inr ⟨rfl, ha⟩)
  zlt {a} hi ha := by
    simp only [Ops.step]
    cases a with
    | int n => cases hi
    | _ =>
      refine Ret.bind (S.lt hi ha 0) ?_
      rintro b hb
      refine Ret.pure ?_
      rw [Bool.not_not]
      exact hb
  ilt n k := by
    simp only [Ops.step]
    exact Ret.ok rfl

theorem ltSound_ops {M : ℝ} (hM : 0 < M) (flog : Int → Int → Nat) (s : Bool) (n : Nat) :
    LtSound M (ops flog s n) := by
  induction n with
  | zero => exact ⟨fun _ _ _ => Ret.error, fun _ _ => Ret.error, fun _ _ => Ret.error⟩
  | succ n ih => exact ih.step hM flog s

/-! ### Towers of powers -/

/-- `b ** (b ** ... ** k)` with `h` powers. -/
def tower (b : Int) (k : Int) : Nat → Num
  | 0 => .int k
  | h + 1 => .exp b (tower b k h)

theorem tower_lt {b : Int} (hb : 1 < b) (j k : Int) (h : Nat) :
    (tower b j h).val < (tower b k h).val ↔ j < k := by
  induction h with
  | zero => simp [tower]
  | succ h ih =>
    rw [tower, tower, val_exp, val_exp, Real.rpow_lt_rpow_left_iff (by exact_mod_cast hb)]
    exact ih

theorem ops_lt_tower (flog : Int → Int → Nat) (s : Bool) (b j k : Int) (h n : Nat) :
    Ret ((ops flog s n).lt (tower b j h) (tower b k h)) (fun x => x = decide (j < k)) := by
  induction h generalizing n with
  | zero =>
    cases n with
    | zero => exact Ret.error
    | succ n => exact Ret.ok rfl
  | succ h ih =>
    cases n with
    | zero => exact Ret.error
    | succ n =>
      simp only [ops, Ops.step, tower, expLt]
      rw [if_neg (by simp)]
      exact ih n

end Sym
end BB
