import Mathlib.Analysis.Complex.ExponentialBounds
import Verif.Spec.Estimate
import Verif.Model.Estimate

/-!
# Lemmas for C78
-/

namespace BB
namespace Estimate

open BB.Sym (Num)

/-- `lg` is off by at most `δ`. -/
def Fair (δ : ℝ) (lg : Int → Int → Res Int) : Prop :=
  ∀ b k d : Int, 0 < b → 0 < k → lg b k = .ok d → |(d : ℝ) - k * Real.logb 10 b| ≤ δ

theorem Sized.wf {x : Num} (h : Sized x) : x.WF := by
  induction x with
  | int n => trivial
  | add l r ihl ihr =>
    refine ⟨?_, ihr h.2.1⟩
    rcases h.2.2 with ⟨n, rfl, -⟩ | ⟨-, h2⟩
    · trivial
    · exact ihl h2
  | mul l r ihl ihr => exact ⟨ihl h.1, ihr h.2.2⟩
  | div n d ih => exact ⟨ih h.2.1, h.2.2⟩
  | exp b e ih => exact ⟨h.1, ih h.2.1⟩

theorem Sized.pos {x : Num} (h : Sized x) : 0 < x.val := by
  induction x with
  | int n =>
    have : 0 < n := h
    simpa [Num.val] using this
  | add l r ihl ihr =>
    have hr := ihr h.2.1
    simp only [Num.val]
    rcases h.2.2 with ⟨n, rfl, h2, -⟩ | ⟨-, h2⟩
    · simp only [Num.val]
      linarith
    · exact add_pos (ihl h2) hr
  | mul l r ihl ihr => exact mul_pos (ihl h.1) (ihr h.2.2)
  | div n d ih =>
    have : (0 : ℝ) < d := by exact_mod_cast h.2.2
    exact div_pos (ih h.2.1) this
  | exp b e ih =>
    have : (0 : ℝ) < b := by exact_mod_cast h.1
    exact Real.rpow_pos_of_pos this _

theorem logb_two_le : Real.logb 10 2 ≤ 1 / 2 := by
  rw [Real.logb_le_iff_le_rpow (by norm_num) (by norm_num), ← Real.sqrt_eq_rpow]
  exact Real.le_sqrt_of_sq_le (by norm_num)

/-- A sum between half and twice a number has almost its logarithm. -/
theorem logb_near {a b : ℝ} (ha : 0 < a) (h1 : a / 2 ≤ b) (h2 : b ≤ 2 * a) :
    |Real.logb 10 b - Real.logb 10 a| ≤ 1 / 2 := by
  have hb : 0 < b := by linarith
  have e1 : Real.logb 10 b ≤ Real.logb 10 2 + Real.logb 10 a := by
    rw [← Real.logb_mul (by norm_num) ha.ne']
    exact Real.logb_le_logb_of_le (by norm_num) hb h2
  have e2 : Real.logb 10 a ≤ Real.logb 10 2 + Real.logb 10 b := by
    rw [← Real.logb_mul (by norm_num) hb.ne']
    exact Real.logb_le_logb_of_le (by norm_num) ha (by linarith)
  have := logb_two_le
  rw [abs_le]
  constructor <;> linarith

/-- The larger of two logarithms is almost that of the sum. -/
theorem logb_add {a b : ℝ} (ha : 0 < a) (hb : 0 < b) :
    max (Real.logb 10 a) (Real.logb 10 b) ≤ Real.logb 10 (a + b) ∧
    Real.logb 10 (a + b) ≤ max (Real.logb 10 a) (Real.logb 10 b) + 1 / 2 := by
  have ht : (1 : ℝ) < 10 := by norm_num
  refine ⟨max_le (Real.logb_le_logb_of_le ht ha (by linarith))
    (Real.logb_le_logb_of_le ht hb (by linarith)), ?_⟩
  rcases le_total a b with h | h
  · have := (abs_le.1 (logb_near hb (b := a + b) (by linarith) (by linarith))).2
    linarith [le_max_right (Real.logb 10 a) (Real.logb 10 b)]
  · have := (abs_le.1 (logb_near ha (b := a + b) (by linarith) (by linarith))).2
    linarith [le_max_left (Real.logb 10 a) (Real.logb 10 b)]

theorem ints_pos (x : Num) : (1 : ℝ) ≤ ints x := by
  have : 1 ≤ ints x := by induction x <;> simp only [ints] <;> omega
  exact_mod_cast this

theorem power_near {δ : ℝ} {lg : Int → Int → Res Int} (hlg : Fair δ lg) {b k d : Int}
    (h : power lg b k = .ok d) : |(d : ℝ) - Real.logb 10 ((b : ℝ) ^ (k : ℝ))| ≤ δ := by
  unfold power at h
  split at h
  · next hp =>
    have hb : (0 : ℝ) < b := by exact_mod_cast hp.1
    rw [Real.logb_rpow_eq_mul_logb_of_pos hb]
    exact hlg b k d hp.1 hp.2 h
  · cases h

theorem bind_ok {α β : Type} {x : Res α} {f : α → Res β} {b : β} (h : x.bind f = .ok b) :
    ∃ a, x = .ok a ∧ f a = .ok b := by
  cases x with
  | error e => cases h
  | ok a => exact ⟨a, rfl, h⟩

theorem lg_near {δ : ℝ} {lg : Int → Int → Res Int} (hlg : Fair δ lg) {n d : Int} (hn : 0 < n)
    (h : lg n 1 = .ok d) : |(d : ℝ) - Real.logb 10 n| ≤ δ := by
  simpa using hlg n 1 d hn (by decide) h

/-- `digits` and the logarithm. -/
theorem digits_near {δ : ℝ} (hδ : 1 / 2 ≤ δ) {lg : Int → Int → Res Int} (hlg : Fair δ lg) {x : Num}
    (hx : Sized x) {d : Int} (h : digits lg x = .ok d) :
    |(d : ℝ) - Real.logb 10 x.val| ≤ δ * ints x - δ := by
  induction x generalizing d with
  | int n => cases h
  | add l r ihl ihr =>
    simp only [digits, bind] at h
    obtain ⟨dr, h1, h2⟩ := bind_ok h
    have hr := ihr hx.2.1 h1
    have ir := ints_pos r
    rcases hx.2.2 with ⟨n, rfl, h3, h4⟩ | ⟨hl, hx2⟩
    · cases h2
      have := logb_near hx.2.1.pos (b := n + r.val) (by linarith) (by linarith)
      simp only [Num.val, ints]
      push_cast
      rw [abs_le] at *
      constructor <;> nlinarith
    · have h3 : ∃ dl, digits lg l = .ok dl ∧ max dl dr = d := by
        cases l with
        | int n => cases hl
        | _ =>
          obtain ⟨dl, h3, h4⟩ := bind_ok h2
          exact ⟨dl, h3, by injection h4⟩
      obtain ⟨dl, h3, rfl⟩ := h3
      have hl := ihl hx2 h3
      have il := ints_pos l
      have ha := logb_add hx2.pos hx.2.1.pos
      simp only [Num.val, ints]
      push_cast
      have hm : |max (dl : ℝ) dr - max (Real.logb 10 l.val) (Real.logb 10 r.val)|
          ≤ max |(dl : ℝ) - Real.logb 10 l.val| |(dr : ℝ) - Real.logb 10 r.val| :=
        abs_max_sub_max_le_max _ _ _ _
      have hm2 : max |(dl : ℝ) - Real.logb 10 l.val| |(dr : ℝ) - Real.logb 10 r.val|
          ≤ δ * (ints l + ints r) - δ - δ := by
        refine max_le ?_ ?_ <;> nlinarith
      have hm3 := abs_le.1 (hm.trans hm2)
      rw [abs_le]
      constructor <;> linarith [hm3.1, hm3.2, ha.1, ha.2]
  | mul l r ihl ihr =>
    simp only [digits, bind] at h
    obtain ⟨dr, h1, h2⟩ := bind_ok h
    have hr := ihr hx.2.2 h1
    have il := ints_pos l
    have hl : ∃ dl : Int, d = dr + dl ∧ |(dl : ℝ) - Real.logb 10 l.val| ≤ δ * ints l := by
      cases l with
      | int n =>
        have hn : 0 < n := hx.1
        simp only [hn, if_true] at h2
        obtain ⟨dl, h3, h4⟩ := bind_ok h2
        refine ⟨dl, by injection h4 with h4; exact h4.symm, ?_⟩
        simpa [ints, Num.val] using lg_near hlg hn h3
      | _ =>
        obtain ⟨dl, h3, h4⟩ := bind_ok h2
        refine ⟨dl, by injection h4 with h4; exact h4.symm, ?_⟩
        have := ihl hx.1 h3
        linarith
    obtain ⟨dl, rfl, hl⟩ := hl
    simp only [Num.val, ints]
    rw [Real.logb_mul hx.1.pos.ne' hx.2.2.pos.ne']
    push_cast
    rw [abs_le] at *
    constructor <;> linarith [hl.1, hl.2, hr.1, hr.2]
  | div n m ih =>
    simp only [digits, bind] at h
    obtain ⟨dn, h1, h2⟩ := bind_ok h
    obtain ⟨dm, h3, h4⟩ := bind_ok h2
    have hd : d = dn - dm := by injection h4 with h4; exact h4.symm
    subst hd
    have hn := ih hx.2.1 h1
    have hm := lg_near hlg hx.2.2 h3
    have hm0 : (0 : ℝ) < m := by exact_mod_cast hx.2.2
    simp only [Num.val, ints]
    rw [Real.logb_div hx.2.1.pos.ne' hm0.ne']
    push_cast
    rw [abs_le] at *
    constructor <;> linarith [hm.1, hm.2, hn.1, hn.2]
  | exp b e ih =>
    have hp : ∃ k : Int, e.val = k ∧ power lg b k = .ok d := by
      cases e with
      | int k => exact ⟨k, rfl, h⟩
      | _ =>
        simp only [digits, bind] at h
        obtain ⟨de, h1, h2⟩ := bind_ok h
        split at h2
        · cases h2
        · split at h2
          · cases h2
          · next k hk => exact ⟨k, Num.val_toInt hx.2.1.wf hx.2.2 hk, h2⟩
    obtain ⟨k, hk, hp⟩ := hp
    have := power_near hlg hp
    have ie := ints_pos e
    simp only [Num.val, ints, hk]
    push_cast
    nlinarith

/-! ## Towers -/

theorem tower_mono {b x y : ℝ} (hb : 1 ≤ b) (h : Nat) (hxy : x ≤ y) : tower b h x ≤ tower b h y := by
  induction h with
  | zero => exact hxy
  | succ h ih => exact Real.rpow_le_rpow_of_exponent_le hb ih

theorem le_ten_rpow {x : ℝ} (hx : 0 ≤ x) : x + 1 ≤ 10 ^ x := by
  have h := Real.add_one_le_exp (Real.log 10 * x)
  rw [Real.rpow_def_of_pos (by norm_num)]
  have : 1 ≤ Real.log 10 := by
    rw [Real.le_log_iff_exp_le (by norm_num)]
    linarith [Real.exp_one_lt_three]
  nlinarith

theorem tower_ge {x : ℝ} (hx : 0 ≤ x) (h : Nat) : x ≤ tower 10 h x := by
  induction h with
  | zero => exact le_rfl
  | succ h ih =>
    have := le_ten_rpow (hx.trans ih)
    simp only [tower]
    linarith

/-- More levels are more. -/
theorem tower_level {x : ℝ} (hx : 0 ≤ x) (h k : Nat) : tower 10 h x ≤ tower 10 (h + k) x := by
  induction h with
  | zero => rw [Nat.zero_add]; exact tower_ge hx k
  | succ h ih =>
    rw [Nat.add_right_comm]
    exact Real.rpow_le_rpow_of_exponent_le (by norm_num) ih

/-- A product of towers fits in a tower with the sum at the top. -/
theorem tower_mul {x y : ℝ} (hx : 2 ≤ x) (hy : 2 ≤ y) (h : Nat) :
    tower 10 (h + 1) x * tower 10 (h + 1) y ≤ tower 10 (h + 1) (x + y) := by
  induction h with
  | zero =>
    simp only [tower]
    rw [← Real.rpow_add (by norm_num)]
  | succ h ih =>
    change (10 : ℝ) ^ tower 10 (h + 1) x * 10 ^ tower 10 (h + 1) y ≤ 10 ^ tower 10 (h + 1) (x + y)
    rw [← Real.rpow_add (by norm_num)]
    refine Real.rpow_le_rpow_of_exponent_le (by norm_num) (le_trans ?_ ih)
    have h1 := tower_ge (x := x) (by linarith) (h + 1)
    have h2 := tower_ge (x := y) (by linarith) (h + 1)
    nlinarith

theorem lt_len (n : Int) (hn : 0 < n) : (n : ℝ) ≤ 10 ^ (len n : ℝ) := by
  have h : n.natAbs < 10 ^ len n := Nat.lt_pow_succ_log_self (by decide) _
  have h2 : ((n.natAbs : ℕ) : ℝ) ≤ ((10 ^ len n : ℕ) : ℝ) := by exact_mod_cast h.le
  have h3 : ((n.natAbs : ℕ) : ℝ) = n := by
    have : ((n.natAbs : ℕ) : ℤ) = n := by omega
    rw [← Int.cast_natCast, this]
  rw [h3] at h2
  push_cast at h2
  rwa [Real.rpow_natCast]

theorem len_pos (n : Int) : (1 : ℝ) ≤ len n := by
  have : 1 ≤ len n := by unfold len; omega
  exact_mod_cast this

theorem width_ge (x : Num) : (10 : ℝ) ≤ width x := by
  have h : ∀ n : Int, 1 ≤ len n := fun n => by unfold len; omega
  have : 10 ≤ width x := by
    induction x with
    | int n => have := h n; simp only [width]; omega
    | add l r ihl ihr => simp only [width]; omega
    | mul l r ihl ihr => simp only [width]; omega
    | div n d ih => simp only [width]; omega
    | exp b e ih => simp only [width]; omega
  exact_mod_cast this

theorem towerEst_pos {x : Num} (hx : Sized x) (hi : x.isInt = false) : 1 ≤ towerEst x := by
  induction x with
  | int n => cases hi
  | add l r _ ihr => have := ihr hx.2.1 hx.1; simp only [towerEst]; omega
  | mul l r _ ihr => have := ihr hx.2.2 hx.2.1; simp only [towerEst]; omega
  | div n d ih => exact ih hx.2.1 hx.1
  | exp b e ih =>
    cases e with
    | int k => simp only [towerEst]; split <;> omega
    | _ => simp only [towerEst]; omega

/-- The size of a number from above. -/
theorem val_le {x : Num} (hx : Sized x) :
    x.val ≤ tower 10 (max 1 (towerEst x)) (width x) := by
  have up : ∀ {h k : Nat} {w v : ℝ}, h ≤ k → 0 ≤ w → v ≤ tower 10 h w → v ≤ tower 10 k w := by
    intro h k w v hk hw hv
    obtain ⟨j, rfl⟩ := Nat.exists_eq_add_of_le hk
    exact hv.trans (tower_level hw h j)
  have sum : ∀ {l r : Num}, l.val ≤ tower 10 (max 1 (towerEst l)) (width l) →
      r.val ≤ tower 10 (max 1 (towerEst r)) (width r) → 0 < l.val → 0 < r.val →
      l.val + r.val ≤ tower 10 (max 1 (max (towerEst l) (towerEst r))) (width l + width r) ∧
      l.val * r.val ≤ tower 10 (max 1 (max (towerEst l) (towerEst r))) (width l + width r) := by
    intro l r hl hr pl pr
    have wl := width_ge l
    have wr := width_ge r
    have hl := up (k := max 1 (max (towerEst l) (towerEst r))) (by omega) (by linarith) hl
    have hr := up (k := max 1 (max (towerEst l) (towerEst r))) (by omega) (by linarith) hr
    obtain ⟨h, hh⟩ : ∃ h, max 1 (max (towerEst l) (towerEst r)) = h + 1 :=
      ⟨max 1 (max (towerEst l) (towerEst r)) - 1, by omega⟩
    rw [hh] at hl hr ⊢
    have hm := tower_mul (x := width l) (y := width r) (by linarith) (by linarith) h
    have t1 := tower_ge (x := width l) (by linarith) (h + 1)
    have t2 := tower_ge (x := width r) (by linarith) (h + 1)
    exact ⟨by nlinarith, by nlinarith⟩
  induction x with
  | int n =>
    refine up (h := 1) (by omega) (by positivity) ?_
    refine (lt_len n hx).trans (Real.rpow_le_rpow_of_exponent_le (by norm_num) ?_)
    have := len_pos n
    simp only [tower, width]
    push_cast
    linarith
  | add l r ihl ihr =>
    simp only [Num.val, towerEst, width]
    push_cast
    rcases hx.2.2 with ⟨n, rfl, h1, h2⟩ | ⟨-, h2⟩
    · have hr := ihr hx.2.1
      have hp := hx.2.1.pos
      have wr := width_ge r
      have wn := width_ge (.int n)
      obtain ⟨h, hh⟩ : ∃ h, max 1 (towerEst r) = h + 1 := ⟨max 1 (towerEst r) - 1, by omega⟩
      have hm := tower_mul (x := width (.int n)) (y := width r) (by linarith) (by linarith) h
      have t1 := tower_ge (x := width (.int n)) (by linarith) (h + 1)
      simp only [towerEst, Nat.zero_max, hh, Num.val, width] at *
      push_cast at *
      nlinarith
    · exact (sum (ihl h2) (ihr hx.2.1) h2.pos hx.2.1.pos).1
  | mul l r ihl ihr =>
    simp only [Num.val, towerEst, width]
    push_cast
    exact (sum (ihl hx.1) (ihr hx.2.2) hx.1.pos hx.2.2.pos).2
  | div n d ih =>
    have hd : (1 : ℝ) ≤ d := by exact_mod_cast hx.2.2
    have : n.val / d ≤ n.val := div_le_self hx.2.1.pos.le hd
    refine this.trans ((ih hx.2.1).trans (tower_mono (by norm_num) _ ?_))
    simp only [width]
    push_cast
    linarith [len_pos d]
  | exp b e ih =>
    have hb : (0 : ℝ) < b := by exact_mod_cast hx.1
    have lb := len_pos b
    have he := hx.2.1.pos
    have hv : (b : ℝ) ^ e.val ≤ 10 ^ (len b * e.val) := by
      rw [Real.rpow_mul (by norm_num)]
      exact Real.rpow_le_rpow hb.le (lt_len b hx.1) he.le
    refine hv.trans ?_
    by_cases hi : e.isInt
    · cases e with
      | int k =>
        have lk := len_pos k
        have hk := lt_len k hx.2.1
        simp only [towerEst, width, Num.val] at *
        by_cases h10 : 10 ≤ k
        · simp only [h10, if_true, show max 1 2 = 2 from rfl, tower]
          refine Real.rpow_le_rpow_of_exponent_le (by norm_num) ?_
          have h1 := le_ten_rpow (x := len b) (by linarith)
          calc (len b : ℝ) * k ≤ 10 ^ (len b : ℝ) * 10 ^ (len k : ℝ) :=
                mul_le_mul (by linarith) hk he.le (by positivity)
            _ = 10 ^ ((len b : ℝ) + len k) := by rw [Real.rpow_add (by norm_num)]
            _ ≤ _ := by
              refine Real.rpow_le_rpow_of_exponent_le (by norm_num) ?_
              push_cast
              linarith
        · simp only [h10, if_false, max_self, tower]
          refine Real.rpow_le_rpow_of_exponent_le (by norm_num) ?_
          have : (k : ℝ) ≤ 10 := by exact_mod_cast (by omega : k ≤ 10)
          push_cast
          nlinarith
      | _ => cases hi
    · have hi : e.isInt = false := by simpa using hi
      have ht : towerEst (.exp b e) = 1 + towerEst e := by
        cases e with
        | int k => cases hi
        | _ => rfl
      have h1 := towerEst_pos hx.2.1 hi
      obtain ⟨j, hj⟩ : ∃ j, towerEst e = j + 1 := ⟨towerEst e - 1, by omega⟩
      have ih := ih hx.2.1
      have we := width_ge e
      rw [ht, show max 1 (1 + towerEst e) = j + 1 + 1 by omega]
      rw [show max 1 (towerEst e) = j + 1 by omega] at ih
      have hm := tower_mul (x := 10 * len b) (y := width e) (by linarith) (by linarith) j
      have t1 := tower_ge (x := 10 * len b) (by linarith) (j + 1)
      simp only [width]
      push_cast
      refine Real.rpow_le_rpow_of_exponent_le (by norm_num) (le_trans ?_ hm)
      exact mul_le_mul (by linarith) ih he.le (by linarith)

/-! ## From below -/

theorem two_tower_pos (h : Nat) : 1 ≤ tower 2 h 1 := by
  induction h with
  | zero => exact le_rfl
  | succ h ih => exact Real.one_le_rpow (by norm_num) (by linarith)

theorem Grows.le {x : Num} (hx : Grows x) : tower 2 (towerEst x) 1 ≤ x.val := by
  induction x with
  | int n =>
    have : 0 < n := hx
    simp only [towerEst, tower, Num.val]
    exact_mod_cast this
  | add l r ihl ihr =>
    have hr := ihr hx.1
    have pr := two_tower_pos (towerEst r)
    simp only [Num.val, towerEst]
    rcases hx.2 with ⟨n, rfl, h1⟩ | h2
    · have h1 : (0 : ℝ) ≤ n := by exact_mod_cast h1
      simp only [Num.val, towerEst, Nat.zero_max]
      linarith
    · have hl := ihl h2
      have pl := two_tower_pos (towerEst l)
      rcases le_total (towerEst l) (towerEst r) with h | h
      · rw [max_eq_right h]; linarith
      · rw [max_eq_left h]; linarith
  | mul l r ihl ihr =>
    have hr := ihr hx.2
    have pr := two_tower_pos (towerEst r)
    have hl := ihl hx.1
    have pl := two_tower_pos (towerEst l)
    simp only [Num.val, towerEst]
    rcases le_total (towerEst l) (towerEst r) with h | h
    · rw [max_eq_right h]; nlinarith
    · rw [max_eq_left h]; nlinarith
  | div n d ih => exact hx.elim
  | exp b e ih =>
    have hb : (2 : ℝ) ≤ b := by exact_mod_cast hx.1
    have he := ih hx.2
    have pe := two_tower_pos (towerEst e)
    have hbe : (2 : ℝ) ^ e.val ≤ (b : ℝ) ^ e.val :=
      Real.rpow_le_rpow (by norm_num) hb (by linarith)
    refine le_trans ?_ hbe
    cases e with
    | int k =>
      simp only [towerEst, Num.val]
      split
      · next h =>
        have h : (10 : ℝ) ≤ k := by exact_mod_cast h
        refine Real.rpow_le_rpow_of_exponent_le (by norm_num) ?_
        simp only [tower]
        norm_num
        linarith
      · exact Real.rpow_le_rpow_of_exponent_le (by norm_num) he
    | _ =>
      simp only [towerEst]
      rw [Nat.add_comm]
      exact Real.rpow_le_rpow_of_exponent_le (by norm_num) he

end Estimate
end BB
