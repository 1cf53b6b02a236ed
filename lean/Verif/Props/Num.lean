/-
C22-C26: the symbolic numbers of tm/num.py.

`ops flog false n` are the operators of the program with at most `n` nested calls (`C22_unique`: the
bound does not matter once there is a result).  `Num.val` is the number a term denotes and `Num.toInt`
is Python's `int()`.
-/
import Verif.Lemmas.NumOps
import Verif.Lemmas.NumMisc

namespace BB
open BB.Sym

/-! ### C22: sums, differences, products, powers -/

/-- The result of an operator does not depend on the bound on the nesting. -/
theorem C22_unique (flog : Int → Int → Nat) {n m : Nat} {a b c d : Num}
    (h : (ops flog false n).add a b = .ok c) (h' : (ops flog false m).add a b = .ok d) : c = d := by
  rcases Nat.le_total n m with hle | hle
  · have := ((refOps_fuel_le flog false hle).add a b).ok h
    rw [this] at h'
    cases h'
    rfl
  · have := ((refOps_fuel_le flog false hle).add a b).ok h'
    rw [this] at h
    cases h
    rfl

/-- Without `//`, every operator that returns, returns a term that denotes the right number, whatever
the comparisons on the way answered.  Missing for C22: terms with `//` (`C22_violation`), and that the
result has an `int()` (`C22_violation_float`). -/
theorem C22_values_partial (flog : Int → Int → Nat) (n : Nat) {a b : Num} (ha : a.WF)
    (ha' : a.DivFree) (hb : b.WF) (hb' : b.DivFree) :
    (∀ c, (ops flog false n).add a b = .ok c →
      (c.WF ∧ c.DivFree) ∧ c.val = a.val + b.val) ∧
    (∀ c, (ops flog false n).sub a b = .ok c →
      (c.WF ∧ c.DivFree) ∧ c.val = a.val - b.val) ∧
    (∀ c, (ops flog false n).mul a b = .ok c →
      (c.WF ∧ c.DivFree) ∧ c.val = a.val * b.val) ∧
    (∀ c, (ops flog false n).neg a = .ok c → (c.WF ∧ c.DivFree) ∧ c.val = -a.val) ∧
    (∀ base : Int, 0 < base → ∀ c, makeExp (ops flog false n) base a = .ok c →
      (c.WF ∧ c.DivFree) ∧ c.val = (base : ℝ) ^ a.val) := by
  have S := sound_ops flog false n
  have ka : K false a := K_false.mpr ⟨ha, ha'⟩
  have kb : K false b := K_false.mpr ⟨hb, hb'⟩
  have conv : ∀ {v : ℝ} {c : Num}, Is false v c → (c.WF ∧ c.DivFree) ∧ c.val = v :=
    fun h => ⟨K_false.mp h.1, h.2⟩
  exact ⟨fun c h => conv (S.add ka kb c h), fun c h => conv (S.sub ka kb c h),
    fun c h => conv (S.mul ka kb c h), fun c h => conv (S.neg ka c h),
    fun base hbase c h => conv (ret_makeExp S hbase ka c h)⟩

/-- The same with Python integers: `int(a + b) = int(a) + int(b)` and so on, when both sides exist. -/
theorem C22_int_partial (flog : Int → Int → Nat) (n : Nat) {a b : Num} (ha : a.WF)
    (ha' : a.DivFree) (hb : b.WF) (hb' : b.DivFree) {x y z : Int} (hx : a.toInt = some x)
    (hy : b.toInt = some y) {c : Num} (hz : c.toInt = some z) :
    ((ops flog false n).add a b = .ok c → z = x + y) ∧
    ((ops flog false n).sub a b = .ok c → z = x - y) ∧
    ((ops flog false n).mul a b = .ok c → z = x * y) ∧
    ((ops flog false n).neg a = .ok c → z = -x) ∧
    (∀ base : Int, 0 < base → makeExp (ops flog false n) base a = .ok c → 0 ≤ x →
      z = base ^ x.toNat) := by
  have vx := Num.val_toInt ha ha'.exact hx
  have vy := Num.val_toInt hb hb'.exact hy
  obtain ⟨h1, h2, h3, h4, h5⟩ := C22_values_partial flog n ha ha' hb hb'
  have conv : ∀ {v : ℝ}, (c.WF ∧ c.DivFree) ∧ c.val = v → ((z : Int) : ℝ) = v := by
    rintro v ⟨⟨hw, hd⟩, hv⟩
    rw [← hv, Num.val_toInt hw hd.exact hz]
  refine ⟨fun h => ?_, fun h => ?_, fun h => ?_, fun h => ?_, fun base hbase h hx0 => ?_⟩
  · have := conv (h1 c h)
    rw [vx, vy] at this
    exact_mod_cast this
  · have := conv (h2 c h)
    rw [vx, vy] at this
    exact_mod_cast this
  · have := conv (h3 c h)
    rw [vx, vy] at this
    exact_mod_cast this
  · have := conv (h4 c h)
    rw [vx] at this
    exact_mod_cast this
  · have := conv (h5 base hbase c h)
    have e : ((x : Int) : ℝ) = ((x.toNat : Nat) : ℝ) := by
      have : (x.toNat : Int) = x := Int.toNat_of_nonneg hx0
      exact_mod_cast this.symm
    rw [vx, e, Real.rpow_natCast] at this
    exact_mod_cast this

/-- With `//` too, as long as the evaluation does not come to the wrong branch of `Div.__add__` or to a
`//` of integers that is not exact: then the program returns the same term and it denotes the right
number. -/
theorem C22_with_div_partial (flog : Int → Int → Nat) (n : Nat) {a b : Num} (ha : a.WF)
    (hb : b.WF) :
    (∀ c, (ops flog true n).add a b = .ok c → (ops flog false n).add a b = .ok c ∧
      c.WF ∧ c.val = a.val + b.val) ∧
    (∀ c, (ops flog true n).sub a b = .ok c → (ops flog false n).sub a b = .ok c ∧
      c.WF ∧ c.val = a.val - b.val) ∧
    (∀ c, (ops flog true n).mul a b = .ok c → (ops flog false n).mul a b = .ok c ∧
      c.WF ∧ c.val = a.val * b.val) ∧
    (∀ c, (ops flog true n).neg a = .ok c → (ops flog false n).neg a = .ok c ∧
      c.WF ∧ c.val = -a.val) := by
  have S := sound_ops flog true n
  have H := refOps_strict flog n
  have ka : K true a := K_true.mpr ha
  have kb : K true b := K_true.mpr hb
  refine ⟨fun c h => ⟨(H.add a b).ok h, ?_⟩, fun c h => ⟨(H.sub a b).ok h, ?_⟩,
    fun c h => ⟨(H.mul a b).ok h, ?_⟩, fun c h => ⟨(H.neg a).ok h, ?_⟩⟩
  · exact ⟨K_true.mp (S.add ka kb c h).1, (S.add ka kb c h).2⟩
  · exact ⟨K_true.mp (S.sub ka kb c h).1, (S.sub ka kb c h).2⟩
  · exact ⟨K_true.mp (S.mul ka kb c h).1, (S.mul ka kb c h).2⟩
  · exact ⟨K_true.mp (S.neg ka c h).1, (S.neg ka c h).2⟩

/-- `(5 + 7 ** 2) // 6`, which is `9`. -/
def nineSixths : Num := .div (.add (.int 5) (.exp 7 (.int 2))) 6

/-- `(3 + 7 ** 2) // 4`, which is `13`. -/
def thirteenFourths : Num := .div (.add (.int 3) (.exp 7 (.int 2))) 4

/-- `9 + 13` is `17`: `Div.__add__` (num.py L722-723) divides the denominators, 6 by 4, as if the
smaller divided the larger.  Both quotients are exact and both terms are what `//` makes of their
numerators. -/
theorem C22_violation (flog : Int → Int → Nat) :
    (ops flog false 20).fdiv (.add (.int 5) (.exp 7 (.int 2))) (.int 6) = .ok nineSixths ∧
    (ops flog false 20).fdiv (.add (.int 3) (.exp 7 (.int 2))) (.int 4) = .ok thirteenFourths ∧
    (nineSixths.WF ∧ nineSixths.Exact ∧ nineSixths.toInt = some 9) ∧
    (thirteenFourths.WF ∧ thirteenFourths.Exact ∧ thirteenFourths.toInt = some 13) ∧
    ∃ c, (ops flog false 20).add nineSixths thirteenFourths = .ok c ∧ c.toInt = some 17 := by
  refine ⟨rfl, rfl, ⟨?_, ?_, rfl⟩, ⟨?_, ?_, rfl⟩, _, rfl, rfl⟩
  · simp [nineSixths, Num.WF]
  · refine ⟨⟨trivial, trivial⟩, fun z hz => ?_⟩
    cases hz
    decide
  · simp [thirteenFourths, Num.WF]
  · refine ⟨⟨trivial, trivial⟩, fun z hz => ?_⟩
    cases hz
    decide

/-- `2 ** 100 + 2 ** (2 ** 3)`: the comparison takes `2 ** 3` to be above `100`, and the sum is a term
with the exponent `-100 + 2 ** 3`, of which `int()` is an error in Python. -/
theorem C22_violation_float (flog : Int → Int → Nat) :
    (Num.exp 2 (.int 100)).toInt = some (2 ^ 100) ∧
    (Num.exp 2 (.exp 2 (.int 3))).toInt = some 256 ∧
    ∃ c, (ops flog false 20).add (.exp 2 (.int 100)) (.exp 2 (.exp 2 (.int 3))) = .ok c ∧
      c.toInt = none := by
  refine ⟨rfl, rfl, .mul (.exp 2 (.int 100)) (.add (.int 1)
    (.exp 2 (.add (.int (-100)) (.exp 2 (.int 3))))), ?_, rfl⟩
  with_unfolding_all rfl

/-- `(3 * 2 ** 5) + 2 ** 7` is `7 * 2 ** 5`. -/
example (flog : Int → Int → Nat) :
    (ops flog false 20).add (.mul (.int 3) (.exp 2 (.int 5))) (.exp 2 (.int 7)) =
      .ok (.mul (.int 7) (.exp 2 (.int 5))) := rfl

/-- `(1 + 2 ** 5) * 2 ** 7` is kept as a product. -/
example (flog : Int → Int → Nat) :
    (ops flog false 20).mul (.add (.int 1) (.exp 2 (.int 5))) (.exp 2 (.int 7)) =
      .ok (.mul (.exp 2 (.int 7)) (.add (.int 1) (.exp 2 (.int 5)))) := rfl

/-- A strict sum with `//`. -/
example (flog : Int → Int → Nat) :
    ∃ c, (ops flog true 20).add nineSixths nineSixths = .ok c ∧ c.toInt = some 18 :=
  ⟨_, rfl, rfl⟩

/-! ### C23: division -/

/-- `a // d` denotes the quotient, when the evaluation stays clear of the wrong branch of `Div.__add__`
and of inexact integer quotients.  Missing for C23: those two branches (`C23_violation`). -/
theorem C23_fdiv_partial (flog : Int → Int → Nat) (n : Nat) {a : Num} (ha : a.WF) {d : Int}
    (hd : 0 < d) {c : Num} (h : (ops flog true n).fdiv a (.int d) = .ok c) :
    (ops flog false n).fdiv a (.int d) = .ok c ∧ c.WF ∧ c.val = a.val / d := by
  have hr := (sound_ops flog true n).fdiv rfl (K_true.mpr ha) (K_int d) (val_pos hd) c h
  exact ⟨((refOps_strict flog n).fdiv a (.int d)).ok h, K_true.mp hr.1, hr.2⟩

/-- With Python integers: `int(a // d) * d = int(a)`.  The result may be a term without `//`, or one
`//` over such a term, or any term all of whose `//` are exact. -/
theorem C23_int_partial (flog : Int → Int → Nat) (n : Nat) {a : Num} (ha : a.WF) (hx : a.Exact)
    {d : Int} (hd : 0 < d) {x z : Int} (hax : a.toInt = some x) (hdx : d ∣ x) {c : Num}
    (h : (ops flog true n).fdiv a (.int d) = .ok c) (hcz : c.toInt = some z)
    (hc : c.Exact ∨ ∃ num den, c = .div num den ∧ num.DivFree) : z * d = x := by
  obtain ⟨-, hcw, hcv⟩ := C23_fdiv_partial flog n ha hd h
  rw [Num.val_toInt ha hx hax] at hcv
  have hd' : (d : ℝ) ≠ 0 := by exact_mod_cast hd.ne'
  have hce : c.Exact := by
    rcases hc with hc | ⟨num, den, rfl, hnum⟩
    · exact hc
    · refine ⟨hnum.exact, fun w hw => ?_⟩
      obtain ⟨q, rfl⟩ := hdx
      have hden : (den : ℝ) ≠ 0 := by exact_mod_cast hcw.2.ne'
      rw [val_div, Num.val_toInt hcw.1 hnum.exact hw] at hcv
      refine ⟨q, ?_⟩
      have : (w : ℝ) = ((den * q : Int) : ℝ) := by
        push_cast at hcv ⊢
        field_simp at hcv
        linarith
      exact_mod_cast this
  rw [Num.val_toInt hcw hce hcz] at hcv
  have : ((z * d : Int) : ℝ) = (x : ℝ) := by
    push_cast
    rw [hcv]
    field_simp
  exact_mod_cast this

/-- The sum of two exact quotients is wrong (the numbers of `C22_violation`). -/
theorem C23_violation (flog : Int → Int → Nat) :
    ∃ a b c : Num, (a.WF ∧ a.Exact ∧ a.toInt = some 9) ∧ (b.WF ∧ b.Exact ∧ b.toInt = some 13) ∧
      (ops flog false 20).add a b = .ok c ∧ c.toInt = some 17 := by
  obtain ⟨-, -, ha, hb, c, hc, hz⟩ := C22_violation flog
  exact ⟨_, _, c, ha, hb, hc, hz⟩

/-- `(4 + 6 * 7 ** 2) // 2` cancels. -/
example (flog : Int → Int → Nat) :
    (ops flog true 20).fdiv (.add (.int 4) (.mul (.int 6) (.exp 7 (.int 2)))) (.int 2) =
      .ok (.add (.int 2) (.mul (.int 3) (.exp 7 (.int 2)))) := rfl

/-! ### C24: remainder -/

/-- `a % m` is the remainder of `int(a)`, for numbers all of whose exponents are above one, when no
power of two is taken modulo 30 with an exponent divisible by four and no power of three modulo 4.
Missing for C24: those (`C24_violation_thirty`, `C24_violation_four`, `C24_violation_small`). -/
theorem C24_mod_partial (o : Ops) {a : Num} (hw : a.WF) (hx : a.Exact) (hb : a.BigExp) {z : Int}
    (hz : a.toInt = some z) {m : Int} (hm : 0 < m) {r : Int} (h : numMod true o a m = .ok r) :
    numMod false o a m = .ok r ∧ r = z % m :=
  ⟨(ref_numMod o a m).ok h, numMod_spec o hw hx hb hz hm r h⟩

/-- Every entry of the tables of `exp_mod_special_cases` is right, for every exponent. -/
theorem C24_tables {m : Nat} {values : List (Nat × Nat)} (hm : (m, values) ∈ expTables) {r v : Nat}
    (hv : (r, v) ∈ values) {n : Nat} (hn : 0 < n) (hr : n % (m / 3) = r) : 2 ^ n % m = v := by
  have h1 : expTables.lookup m = some values := by
    have : expTables.all (fun t => expTables.lookup t.1 == some t.2) = true := by decide +kernel
    simpa using List.all_eq_true.mp this _ hm
  have h2 : values.lookup r = some v := by
    have : expTables.all (fun t => t.2.all fun e => t.2.lookup e.1 == some e.2) = true := by
      decide +kernel
    have := List.all_eq_true.mp this _ hm
    simpa using List.all_eq_true.mp this _ hv
  have := table_spec h1 h2 hn hr
  exact_mod_cast this

/-- `find_period` returns a period of the powers of the base. -/
theorem C24_period {b m : Int} (hm : 1 < m) (h : 0 < findPeriod b m) (n : Nat) :
    b ^ (n + findPeriod b m) % m = b ^ n % m := by
  have := (findPeriod_spec hm h).mul_left (b ^ n)
  rw [mul_one, ← pow_add] at this
  exact this

/-- `2 ** 4 % 30` is `15` (num.py L904). -/
theorem C24_violation_thirty (flog : Int → Int → Nat) :
    numMod false (ops flog false 20) (.exp 2 (.int 4)) 30 = .ok 15 ∧
    (Num.exp 2 (.int 4)).toInt = some 16 := ⟨rfl, rfl⟩

/-- `3 ** 3 % 4` is `1` (num.py L915). -/
theorem C24_violation_four (flog : Int → Int → Nat) :
    numMod false (ops flog false 20) (.exp 3 (.int 3)) 4 = .ok 1 ∧
    (Num.exp 3 (.int 3)).toInt = some 27 := ⟨rfl, rfl⟩

/-- `2 ** (-1 + 2 ** 1) % 4` is `0`: the exponent is `1`, but passes the assertion `1 < exp`. -/
theorem C24_violation_small (flog : Int → Int → Nat) :
    numMod false (ops flog false 20) (.exp 2 (.add (.int (-1)) (.exp 2 (.int 1)))) 4 = .ok 0 ∧
    (Num.exp 2 (.add (.int (-1)) (.exp 2 (.int 1)))).toInt = some 2 := ⟨rfl, rfl⟩

/-- `2 ** (1 + 2 ** 9) % 54`, through the table. -/
example (flog : Int → Int → Nat) :
    numMod true (ops flog false 20) (.exp 2 (.add (.int 1) (.exp 2 (.int 9)))) 54 = .ok 26 := by
  rfl

/-! ### C25: greatest common divisor -/

/-- `gcd` returns a positive divisor of its first argument.  Missing for C25: that it divides the
second (`C25_violation_add`, `C25_violation_exp`). -/
theorem C25_gcd_partial (flog : Int → Int → Nat) {k : Int} (hk : 0 < k) (a : Num) {d : Int}
    (h : gcd flog k a = .ok d) : 0 < d ∧ d ∣ k :=
  ret_gcd flog hk a d h

/-- For a power of a prime, and exponents such that two to the exponent reaches it, `gcd` returns a
common divisor. -/
theorem C25_prime_power_partial (flog : Int → Int → Nat) {p j : Nat} (hp : p.Prime) {a : Num}
    (hw : a.WF) (hbig : a.ExpFrom ((p : Int) ^ j)) {z : Int} (hz : a.toInt = some z) {d : Int}
    (h : gcd flog ((p : Int) ^ j) a = .ok d) : 0 < d ∧ d ∣ (p : Int) ^ j ∧ d ∣ z := by
  have h0 : (0 : Int) < (p : Int) ^ j := pow_pos (by exact_mod_cast hp.pos) _
  obtain ⟨h1, h2⟩ := ret_gcd flog h0 a d h
  exact ⟨h1, h2, gcd_dvd_primePow flog hp rfl hw hbig hz d h⟩

/-- `gcd(12, 4 + 6 * 7 ** 2)` is `4`, which does not divide `298`. -/
theorem C25_violation_add (flog : Int → Int → Nat) :
    gcd flog 12 (.add (.int 4) (.mul (.int 6) (.exp 7 (.int 2)))) = .ok 4 ∧
    (Num.add (.int 4) (.mul (.int 6) (.exp 7 (.int 2)))).toInt = some 298 ∧ ¬ (4 : Int) ∣ 298 :=
  ⟨rfl, rfl, by decide⟩

/-- `gcd(8, 2 ** 2)` is `8`. -/
theorem C25_violation_exp :
    gcd (fun l b => Nat.log b.toNat l.toNat) 8 (.exp 2 (.int 2)) = .ok 8 ∧
    (Num.exp 2 (.int 2)).toInt = some 4 := by
  refine ⟨?_, rfl⟩
  have h : Nat.log 2 8 = 3 := by decide +kernel
  have h' : Nat.log (2 : Int).toNat (8 : Int).toNat = 3 := h
  simp only [BB.Sym.gcd]
  rw [h']
  rfl

example (flog : Int → Int → Nat) :
    gcd flog 9 (.add (.int 3) (.mul (.int 6) (.exp 7 (.int 4)))) = .ok 3 := rfl

/-! ### C26: comparisons -/

/-- Comparison with an integer is right when every part of the number is at least `M` away from zero
(an integer summand counting against its partner), right factors are positive, and `|k| < M`.  Missing
for C26: smaller numbers (`C26_violation`), negative right factors (`C26_violation_neg`), and
comparisons between two symbolic numbers other than those below. -/
theorem C26_int_partial (flog : Int → Int → Nat) (n : Nat) {M : ℝ} {a : Num}
    (hi : a.isInt = false) (ha : a.Huge M) {k : Int} (hk : |(k : ℝ)| < M) {r : Bool}
    (h : (ops flog false n).lt a (.int k) = .ok r) : r = true ↔ a.val < k := by
  have hM : 0 < M := lt_of_le_of_lt (abs_nonneg _) hk
  have hkl := abs_lt.mp hk
  rcases (ltSound_ops hM flog false n).lt hi ha k r h with ⟨rfl, hv⟩ | ⟨rfl, hv⟩
  · simp only [true_iff]
    linarith
  · simp only [Bool.false_eq_true, false_iff, not_lt]
    linarith

/-- Towers of powers of equal height over one base are compared right. -/
theorem C26_tower_partial (flog : Int → Int → Nat) (n : Nat) {b : Int} (hb : 1 < b) (j k : Int)
    (height : Nat) {r : Bool}
    (h : (ops flog false n).lt (tower b j height) (tower b k height) = .ok r) :
    r = true ↔ (tower b j height).val < (tower b k height).val := by
  rw [tower_lt hb, ops_lt_tower flog false b j k height n r h, decide_eq_true_eq]

/-- Where `a < b` has an answer it is right. -/
def LtRight (flog : Int → Int → Nat) (a b : Num) : Prop :=
  ∀ (n : Nat) (r : Bool), (ops flog false n).lt a b = .ok r → (r = true ↔ a.val < b.val)

/-- Adding one integer on both sides keeps a comparison right. -/
theorem C26_shift_partial {flog : Int → Int → Nat} {a b : Num} (h : LtRight flog a b) (c : Int) :
    LtRight flog (.add (.int c) a) (.add (.int c) b) := by
  intro n r hr
  cases n with
  | zero => cases hr
  | succ n =>
    simp only [ops, Ops.step, addLt] at hr
    split at hr
    · rename_i hb
      simp only [gt, Except.ok.injEq] at hr
      subst hr
      subst hb
      simp
    · rw [if_pos trivial] at hr
      rw [h n r hr]
      simp

/-- So does multiplying both sides by a positive integer. -/
theorem C26_scale_partial {flog : Int → Int → Nat} {a b : Num} (h : LtRight flog a b) {c : Int}
    (hc : 0 < c) : LtRight flog (.mul (.int c) a) (.mul (.int c) b) := by
  intro n r hr
  cases n with
  | zero => cases hr
  | succ n =>
    simp only [ops, Ops.step, mulLt] at hr
    rw [if_pos trivial] at hr
    rw [h n r hr]
    have : (0 : ℝ) < c := by exact_mod_cast hc
    simp only [val_mul, val_int]
    exact (mul_lt_mul_iff_right₀ this).symm

/-- Different integers are added: right when the rest differs by more than they do. -/
theorem C26_offset_partial {flog : Int → Int → Nat} {a b : Num} (h : LtRight flog a b) {c d : Int}
    (hgap : |(c : ℝ) - d| < |a.val - b.val| ∨ a = b) (hb : b.isInt = false)
    (hne : b ≠ .add (.int c) a) :
    LtRight flog (.add (.int c) a) (.add (.int d) b) := by
  intro n r hr
  cases n with
  | zero => cases hr
  | succ n =>
    simp only [ops, Ops.step, addLt] at hr
    rw [if_neg (fun hh => hne hh.symm)] at hr
    have key : ∀ m, (ops flog false m).lt a b = .ok r → |(c : ℝ) - d| < |a.val - b.val| →
        (r = true ↔ (Num.add (.int c) a).val < (Num.add (.int d) b).val) := by
      intro m hm hg
      rw [h m r hm]
      simp only [val_add, val_int]
      obtain ⟨h1, h2⟩ := abs_lt.mp hg
      rcases abs_cases (a.val - b.val) with ⟨h3, h4⟩ | ⟨h3, h4⟩
      · constructor <;> intro h5 <;> linarith
      · constructor <;> intro h5 <;> linarith
    have hab : a = b → ¬ |(c : ℝ) - d| < |a.val - b.val| := by
      rintro rfl
      simp
    split at hr
    · rename_i hcd
      simp only [Num.int.injEq] at hcd
      subst hcd
      rcases hgap with hg | hg
      · exact key n hr hg
      · subst hg
        rw [h n r hr]
        simp
    split at hr
    · rename_i hh
      cases n with
      | zero => cases hr
      | succ n =>
        simp only [ops, Ops.step, Except.ok.injEq] at hr
        subst hr
        subst hh
        simp
    split at hr
    · rename_i hh
      rw [← hh] at hb
      simp [Num.isInt] at hb
    · simp only [Num.isInt, Bool.and_self, if_true] at hr
      rcases hgap with hg | hg
      · exact key n hr hg
      · rename_i hne' _
        exact absurd hg hne'

/-- A negative multiple of a power is below every power. -/
theorem C26_sign_partial (flog : Int → Int → Nat) {c b b' : Int} (hc : c < 0) (hb : 0 < b)
    (hb' : 0 < b') (e e' : Num) : LtRight flog (.mul (.int c) (.exp b e)) (.exp b' e') := by
  intro n r hr
  have hlt : (Num.mul (.int c) (.exp b e)).val < (Num.exp b' e').val := by
    have h1 : (0 : ℝ) < (b : ℝ) ^ e.val := Real.rpow_pos_of_pos (by exact_mod_cast hb) _
    have h2 : (0 : ℝ) < (b' : ℝ) ^ e'.val := Real.rpow_pos_of_pos (by exact_mod_cast hb') _
    have h3 : (c : ℝ) < 0 := by exact_mod_cast hc
    simp only [val_mul, val_exp, val_int]
    nlinarith
  cases n with
  | zero => cases hr
  | succ n =>
    cases n with
    | zero => cases hr
    | succ n =>
      have : (ops flog false (n + 2)).lt (.mul (.int c) (.exp b e)) (.exp b' e') = .ok true := by
        show mulLtRest _ _ _ _ = _
        unfold mulLtRest
        simp only [ops, Ops.step, expLt]
        rw [show decide (c < 0) = true by simpa using hc]
        rfl
      rw [this] at hr
      cases hr
      simpa using hlt

/-- Positive multiples of powers with integer exponents are compared right when the multiples are not
divisible by the base (the form in which products are kept). -/
theorem C26_multiple_partial (flog : Int → Int → Nat) {b c d : Int} (hb : 1 < b) (hc : 0 < c)
    (hd : 0 < d) (hcb : ¬ b ∣ c) (hdb : ¬ b ∣ d) (j k : Int) :
    LtRight flog (.mul (.int c) (.exp b (.int j))) (.mul (.int d) (.exp b (.int k))) := by
  have hb0 : (0 : ℝ) < b := by exact_mod_cast (by omega : 0 < b)
  have hb1 : (1 : ℝ) < b := by exact_mod_cast hb
  have hbq : (0 : ℚ) < b := by exact_mod_cast (by omega : 0 < b)
  have hcq : (0 : ℚ) < c := by exact_mod_cast hc
  have hdq : (0 : ℚ) < d := by exact_mod_cast hd
  -- the comparison of the values, over the rationals
  have hval : ∀ (c d j k : Int), (Num.mul (.int c) (.exp b (.int j))).val <
      (Num.mul (.int d) (.exp b (.int k))).val ↔ (c : ℚ) < d * (b : ℚ) ^ (k - j) := by
    intro c d j k
    simp only [val_mul, val_exp, val_int, Real.rpow_intCast]
    have hz : (0 : ℝ) < (b : ℝ) ^ j := zpow_pos hb0 _
    have : (b : ℝ) ^ k = (b : ℝ) ^ (k - j) * (b : ℝ) ^ j := by
      rw [← zpow_add₀ hb0.ne']
      congr 1
      ring
    rw [this, ← mul_assoc, mul_lt_mul_iff_left₀ hz]
    constructor
    · intro h
      have : ((c : ℚ) : ℝ) < ((d * (b : ℚ) ^ (k - j) : ℚ) : ℝ) := by push_cast; exact h
      exact_mod_cast this
    · intro h
      have : ((c : ℚ) : ℝ) < ((d * (b : ℚ) ^ (k - j) : ℚ) : ℝ) := by exact_mod_cast h
      push_cast at this
      exact this
  have hpow : ∀ {m : Int}, 0 < m → ∃ p : Nat, (b : ℚ) ^ m = ((b ^ (p + 1) : Int) : ℚ) := by
    intro m hm
    refine ⟨m.toNat - 1, ?_⟩
    have : m = ((m.toNat - 1 + 1 : Nat) : Int) := by omega
    conv_lhs => rw [this]
    rw [zpow_natCast]
    push_cast
    rfl
  intro n r hr
  cases n with
  | zero => cases hr
  | succ n =>
    simp only [ops, Ops.step, mulLt] at hr
    split at hr
    · -- the same multiple
      rename_i hcd
      cases hcd
      rw [C26_scale_partial (flog := flog) (a := .exp b (.int j)) (b := .exp b (.int k)) ?_ hc
        (n + 1) r (by simpa only [ops, Ops.step, mulLt, if_true] using hr)]
      intro m x hx
      exact C26_tower_partial flog m hb j k 1 hx
    split at hr
    · -- the same power
      rename_i hjk
      cases hjk
      cases n with
      | zero => cases hr
      | succ n =>
        simp only [ops, Ops.step, Except.ok.injEq] at hr
        subst hr
        rw [hval]
        simp
    rw [if_neg (by simp), if_neg (by simp)] at hr
    rename_i hjk
    have hne : j ≠ k := fun hh => hjk (by rw [hh])
    simp only [coefLt] at hr
    rw [if_neg (by simp), if_neg (by simpa using hne)] at hr
    cases n with
    | zero => cases hr
    | succ n =>
      simp only [ops, Ops.step, Except.bind, bind] at hr
      rw [hval]
      by_cases hlt : j < k
      · simp only [hlt, decide_true, if_true] at hr
        rw [if_neg (by omega)] at hr
        simp only [pure, Except.pure, Except.ok.injEq] at hr
        subst hr
        obtain ⟨p, hp⟩ := hpow (m := k - j) (by omega)
        rw [decide_eq_true_eq, hp, Int.cast_le, Int.ceil_le, div_le_iff₀ hdq]
        constructor
        · intro h
          refine lt_of_le_of_ne (by rw [mul_comm]; exact h) ?_
          intro he
          apply hcb
          have : c = d * b ^ (p + 1) := by exact_mod_cast he
          rw [this, pow_succ]
          exact ⟨d * b ^ p, by ring⟩
        · intro h
          rw [mul_comm]
          exact h.le
      · simp only [hlt, decide_false, Bool.false_eq_true, if_false] at hr
        rw [if_neg (by omega)] at hr
        simp only [pure, Except.pure, Except.ok.injEq] at hr
        subst hr
        obtain ⟨p, hp⟩ := hpow (m := j - k) (by omega)
        rw [decide_eq_true_eq, gt_iff_lt, hp, Int.cast_lt, Int.lt_ceil, lt_div_iff₀ hcq]
        have hneg : (b : ℚ) ^ (k - j) = ((b : ℚ) ^ (j - k))⁻¹ := by
          rw [← zpow_neg]
          congr 1
          ring
        rw [hneg, hp, ← div_eq_mul_inv]
        have hpos : (0 : ℚ) < ((b ^ (p + 1) : Int) : ℚ) := by rw [← hp]; exact zpow_pos hbq _
        rw [lt_div_iff₀ hpos, mul_comm]

/-- `-(2 ** j) < -(2 ** k)` is true for `j < k`, however large they are, and wrong. -/
theorem C26_violation_negated (flog : Int → Int → Nat) {j k : Int} (hjk : j < k) :
    ∃ a b, (ops flog false 20).neg (.exp 2 (.int j)) = .ok a ∧
      (ops flog false 20).neg (.exp 2 (.int k)) = .ok b ∧
      (ops flog false 20).lt a b = .ok true ∧ b.val < a.val := by
  refine ⟨.mul (.int (-1)) (.exp 2 (.int j)), .mul (.int (-1)) (.exp 2 (.int k)), rfl, rfl, ?_, ?_⟩
  · show Except.ok (decide (j < k)) = _
    rw [decide_eq_true hjk]
  · simp only [val_mul, val_exp, val_int]
    have : ((2 : Int) : ℝ) ^ (j : ℝ) < ((2 : Int) : ℝ) ^ (k : ℝ) :=
      Real.rpow_lt_rpow_of_exponent_lt (by norm_num) (by exact_mod_cast hjk)
    push_cast at this ⊢
    linarith

/-- `3 * 2 ** 5 < 5 * 2 ** 4` is false, `5 * 2 ** 4 < 3 * 2 ** 5` is true. -/
example (flog : Int → Int → Nat) :
    (ops flog false 9).lt (.mul (.int 3) (.exp 2 (.int 5))) (.mul (.int 5) (.exp 2 (.int 4))) =
      .ok false ∧
    (ops flog false 9).lt (.mul (.int 5) (.exp 2 (.int 4))) (.mul (.int 3) (.exp 2 (.int 5))) =
      .ok true := by
  constructor
  · show Except.ok (decide (((⌈((5 : Int) : ℚ) / ((3 : Int) : ℚ)⌉ : ℤ) : ℚ) >
      (((2 : Int) : ℚ)) ^ (5 - 4 : Int))) = _
    norm_num
  · show Except.ok (decide (((⌈((5 : Int) : ℚ) / ((3 : Int) : ℚ)⌉ : ℤ) : ℚ) ≤
      (((2 : Int) : ℚ)) ^ (5 - 4 : Int))) = _
    norm_num

/-- `2 ** 3 < 100` is false. -/
theorem C26_violation (flog : Int → Int → Nat) :
    (ops flog false 20).lt (.exp 2 (.int 3)) (.int 100) = .ok false ∧
    (Num.exp 2 (.int 3)).toInt = some 8 := ⟨rfl, rfl⟩

/-- However large the exponents are: `(-1 + -(2 ** j)) * 2 ** k < 0` is false. -/
theorem C26_violation_neg (flog : Int → Int → Nat) (j k : Int) :
    ∃ c, (ops flog false 20).mul (.add (.int (-1)) (.mul (.int (-1)) (.exp 2 (.int j))))
        (.exp 2 (.int k)) = .ok c ∧
      (ops flog false 20).lt c (.int 0) = .ok false ∧ c.val < 0 := by
  refine ⟨_, rfl, rfl, ?_⟩
  have h1 : (0 : ℝ) < (2 : ℝ) ^ (j : ℝ) := Real.rpow_pos_of_pos (by norm_num) _
  have h2 : (0 : ℝ) < (2 : ℝ) ^ (k : ℝ) := Real.rpow_pos_of_pos (by norm_num) _
  simp only [val_mul, val_add, val_exp, val_int]
  push_cast
  refine mul_neg_of_pos_of_neg h2 ?_
  linarith

/-- `(5 + -(2 ** 9)) < 100` is true, and the number is far enough from zero for `C26_int_partial`. -/
example (flog : Int → Int → Nat) :
    (ops flog false 20).lt (.add (.int 5) (.mul (.int (-1)) (.exp 2 (.int 9)))) (.int 100) =
      .ok true ∧
    (Num.add (.int 5) (.mul (.int (-1)) (.exp 2 (.int 9)))).Huge 200 := by
  refine ⟨rfl, trivial, ⟨trivial, ?_, ?_⟩, rfl, ?_⟩
  · simp only [val_exp, val_int]; norm_num
  · simp only [val_exp, val_int]; norm_num
  · rintro n h
    cases h
    simp only [val_mul, val_exp, val_int]
    norm_num

end BB
