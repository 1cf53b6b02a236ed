/-
The remainder of a symbolic number is the remainder of its value.
-/
import Verif.Model.NumMod
import Verif.Lemmas.NumSound
import Mathlib.Data.Int.ModEq

namespace BB
namespace Sym

/-! ### Periods of powers -/

/-- If `b ^ (s + P)` and `b ^ s` agree modulo `m`, then powers from `s` on repeat with period `P`. -/
theorem pow_periodic {b m : Int} {s P : Nat} (h : b ^ (s + P) ≡ b ^ s [ZMOD m]) {N : Nat}
    (hN : s ≤ N) : b ^ N ≡ b ^ (s + (N - s) % P) [ZMOD m] := by
  have key : ∀ q r : Nat, b ^ (s + (P * q + r)) ≡ b ^ (s + r) [ZMOD m] := by
    intro q r
    induction q with
    | zero => simp [Int.ModEq]
    | succ q ih =>
      have h1 : b ^ (s + (P * (q + 1) + r)) = b ^ (s + P) * b ^ (P * q + r) := by
        rw [← pow_add]; congr 1; rw [Nat.mul_succ]; omega
      have h2 : b ^ (s + (P * q + r)) = b ^ s * b ^ (P * q + r) := by
        rw [← pow_add]
      rw [h1]
      rw [h2] at ih
      exact (h.mul_right _).trans ih
  have := key ((N - s) / P) ((N - s) % P)
  rw [Nat.div_add_mod] at this
  have e : s + (N - s) = N := by omega
  rwa [e] at this

/-- With period dividing out completely. -/
theorem pow_period_one {b m : Int} {P : Nat} (h : b ^ P ≡ 1 [ZMOD m]) (N : Nat) :
    b ^ N ≡ b ^ (N % P) [ZMOD m] := by
  have := pow_periodic (s := 0) (P := P) (b := b) (m := m) (by simpa using h) (Nat.zero_le N)
  simpa using this

theorem fmod_pos {a m : Int} (h : 0 < m) : a.fmod m = a % m := Int.fmod_eq_emod_of_nonneg _ h.le

theorem fdiv_pos' {a m : Int} (h : 0 < m) : a.fdiv m = a / m := Int.fdiv_eq_ediv_of_nonneg _ h.le

/-! ### `find_period` -/

theorem periodLoop_spec {b m : Int} (hm : 1 < m) (n : Nat) {v : Int} {p : Nat}
    (hv : v ≡ b ^ (p - 1) [ZMOD m]) (hp : 0 < p) (h : 0 < periodLoop b m n v p) :
    b ^ (periodLoop b m n v p) ≡ 1 [ZMOD m] := by
  induction n generalizing v p with
  | zero => simp [periodLoop] at h
  | succ n ih =>
    unfold periodLoop at h ⊢
    dsimp only at h ⊢
    have hstep : (v * b).fmod m ≡ b ^ p [ZMOD m] := by
      rw [fmod_pos (by omega)]
      refine (Int.mod_modEq _ _).trans ?_
      have : b ^ p = b ^ (p - 1) * b := by
        rw [← pow_succ]; congr 1; omega
      rw [this]
      exact hv.mul_right _
    split
    · rename_i h1
      rw [h1] at hstep
      exact hstep.symm
    · rename_i h1
      rw [if_neg h1] at h
      exact ih (by simpa using hstep) (Nat.succ_pos _) h

theorem findPeriod_spec {b m : Int} (hm : 1 < m) (h : 0 < findPeriod b m) :
    b ^ (findPeriod b m) ≡ 1 [ZMOD m] := by
  unfold findPeriod at h ⊢
  split
  · rename_i h0
    rw [if_pos h0] at h
    exact absurd h (lt_irrefl 0)
  · rename_i h0
    rw [if_neg h0] at h
    exact periodLoop_spec hm _ (by simp [Int.ModEq]) one_pos h

/-! ### Square and multiply -/

theorem powLoop_spec {m : Int} (hm : 1 < m) (n : Nat) {b : Int} {k : Nat} {res : Int}
    (hr : 0 ≤ res) (hr' : res < m) :
    Ret (powLoop m n b k res) (fun r => r = (res * b ^ k) % m) := by
  induction n generalizing b k res with
  | zero => exact Ret.error
  | succ n ih =>
    unfold powLoop
    split
    · rename_i h
      refine Ret.ok ?_
      rcases h with h | h
      · have : k = 0 := by omega
        subst this
        rw [pow_zero, mul_one, Int.emod_eq_of_lt hr hr']
      · have : res = 0 := by omega
        subst this
        simp
    · dsimp only
      have hk : ((k : Int)).fdiv 2 = ((k / 2 : Nat) : Int) := by
        rw [fdiv_pos' (by decide)]; omega
      have hodd : ((k : Int)).fmod 2 = ((k % 2 : Nat) : Int) := by
        rw [fmod_pos (by decide)]; omega
      rw [hk, hodd]
      have hsq : ((b ^ 2).fmod m) ^ (k / 2) ≡ (b ^ 2) ^ (k / 2) [ZMOD m] := by
        rw [fmod_pos (by omega)]
        exact (Int.mod_modEq _ _).pow _
      split
      · rename_i hodd1
        have hodd1 : k % 2 = 1 := by omega
        have h0 : 0 ≤ (res * b).fmod m ∧ (res * b).fmod m < m := by
          rw [fmod_pos (by omega)]
          exact ⟨Int.emod_nonneg _ (by omega), Int.emod_lt_of_pos _ (by omega)⟩
        refine (ih h0.1 h0.2).mono ?_
        rintro r rfl
        have : (res * b).fmod m * ((b ^ 2).fmod m) ^ (k / 2) ≡ res * b ^ k [ZMOD m] := by
          have e : res * b ^ k = (res * b) * (b ^ 2) ^ (k / 2) := by
            rw [← pow_mul, mul_assoc, ← pow_succ']
            congr 2
            omega
          rw [e]
          refine Int.ModEq.mul ?_ hsq
          rw [fmod_pos (by omega)]
          exact Int.mod_modEq _ _
        exact this
      · rename_i heven
        have heven : k % 2 = 0 := by omega
        refine (ih hr hr').mono ?_
        rintro r rfl
        have : res * ((b ^ 2).fmod m) ^ (k / 2) ≡ res * b ^ k [ZMOD m] := by
          have e : res * b ^ k = res * (b ^ 2) ^ (k / 2) := by
            rw [← pow_mul]
            congr 2
            omega
          rw [e]
          exact hsq.mul_left _
        exact this

theorem expModInt_spec {b m : Int} (hm : 1 < m) (k : Nat) :
    Ret (expModInt b m k) (fun r => r = b ^ k % m) := by
  unfold expModInt
  split
  · rename_i h
    have : k = 0 := by omega
    subst this
    refine Ret.ok ?_
    rw [pow_zero, Int.emod_eq_of_lt (by decide) hm]
  · refine (powLoop_spec hm _ (by decide) hm).mono ?_
    rintro r rfl
    rw [one_mul]

theorem expModTailInt_spec {b m : Int} (hm : 1 < m) (k : Nat) :
    Ret (expModTailInt b m k) (fun r => r = b ^ k % m) := by
  unfold expModTailInt
  dsimp only
  split
  · rename_i hp
    have e : ((k : Int)).fmod (findPeriod b m : Int) = ((k % findPeriod b m : Nat) : Int) := by
      rw [fmod_pos (by omega)]
      push_cast
      rfl
    rw [e]
    refine (expModInt_spec hm _).mono ?_
    rintro r rfl
    exact (pow_period_one (findPeriod_spec hm hp) k).symm
  · exact expModInt_spec hm k

/-! ### The tables -/

/-- `powLoop` computed a power. -/
def powIs (m : Nat) (k v : Nat) : Bool :=
  match powLoop m 64 2 k 1 with
  | .ok r => r == v
  | .error _ => false

theorem powIs_spec {m k v : Nat} (hm : 1 < m) (h : powIs m k v = true) :
    (2 : Int) ^ k % m = v := by
  unfold powIs at h
  split at h
  · rename_i r hr
    have := powLoop_spec (m := m) (by exact_mod_cast hm) 64 (b := 2) (k := k) (res := 1) (by decide)
      (by exact_mod_cast hm) r hr
    rw [one_mul] at this
    rw [← this]
    simpa using h
  · cases h

/-- What has to be checked of a table: the modulus is a multiple of three above three, the powers of two repeat
from the first one on, and every entry is the power it stands for. -/
def tableOk (t : Nat × List (Nat × Nat)) : Bool :=
  decide (3 < t.1) && powIs t.1 (1 + t.1 / 3) 2 &&
    t.2.all fun e => decide (e.1 < t.1 / 3) && powIs t.1 (if e.1 = 0 then t.1 / 3 else e.1) e.2

theorem tables_ok : expTables.all tableOk = true := by decide +kernel

theorem lookup_mem {α : Type} {l : List (Nat × α)} {k : Nat} {v : α}
    (h : l.lookup k = some v) : (k, v) ∈ l := by
  induction l with
  | nil => cases h
  | cons a l ih =>
    obtain ⟨k', v'⟩ := a
    rw [List.lookup_cons] at h
    split at h
    · rename_i hk
      have : k = k' := by simpa using hk
      cases h
      subst this
      exact List.mem_cons_self ..
    · exact List.mem_cons_of_mem _ (ih h)

/-- Every entry of every table is right for every exponent. -/
theorem table_spec {m : Nat} {values : List (Nat × Nat)} {r v : Nat}
    (hm : expTables.lookup m = some values) (hv : values.lookup r = some v) {n : Nat} (hn : 0 < n)
    (hr : n % (m / 3) = r) : (2 : Int) ^ n % m = v := by
  have h1 := List.all_eq_true.mp tables_ok _ (lookup_mem hm)
  simp only [tableOk, Bool.and_eq_true, decide_eq_true_eq] at h1
  obtain ⟨⟨h3, hper⟩, hall⟩ := h1
  have hper' := powIs_spec (by omega) hper
  have hmod : (2 : Int) ^ (1 + m / 3) ≡ 2 ^ 1 [ZMOD m] := by
    show (2 : Int) ^ (1 + m / 3) % m = 2 ^ 1 % m
    rw [hper']
    have : ((2 : Nat) : Int) = 2 ^ 1 % (m : Int) := by
      rw [Int.emod_eq_of_lt (by decide) (by omega)]; rfl
    exact this
  have hP : 0 < m / 3 := Nat.div_pos (by omega) (by decide)
  have h2 := List.all_eq_true.mp hall _ (lookup_mem hv)
  simp only [Bool.and_eq_true, decide_eq_true_eq] at h2
  obtain ⟨hlt, hpow⟩ := h2
  have hpow' := powIs_spec (by omega) hpow
  rw [← hpow']
  have e1 := pow_periodic hmod (N := n) (by omega)
  have e2 := pow_periodic hmod (N := if r = 0 then m / 3 else r) (by split <;> omega)
  have e3 : (n - 1) % (m / 3) = ((if r = 0 then m / 3 else r) - 1) % (m / 3) := by
    generalize m / 3 = P at *
    split
    · rename_i h0
      rw [Nat.mod_eq_of_lt (by omega : P - 1 < P)]
      have hd := Nat.div_add_mod n P
      have : 0 < n / P := by
        rcases Nat.eq_zero_or_pos (n / P) with h | h
        · rw [h] at hd; omega
        · exact h
      obtain ⟨q, hq⟩ := Nat.exists_eq_succ_of_ne_zero (Nat.pos_iff_ne_zero.mp this)
      rw [hq, Nat.mul_succ] at hd
      have : n - 1 = P - 1 + P * q := by omega
      rw [this, Nat.add_mul_mod_self_left, Nat.mod_eq_of_lt (by omega)]
    · have hd := Nat.div_add_mod n P
      have : n - 1 = (r - 1) + P * (n / P) := by omega
      rw [this, Nat.add_mul_mod_self_left]
  rw [e3] at e1
  exact e1.trans e2.symm

theorem expModSpecial_spec {m b : Int} {emod : Int → R Int} {N : Nat} (hm : 1 < m) (hN : 0 < N)
    (he : ∀ k, 0 < k → Ret (emod k) (fun r => r = (N : Int) % k)) :
    Ret (expModSpecial m b emod) (fun r => r = b ^ N % m) := by
  unfold expModSpecial
  split
  · exact Ret.error
  · rename_i hb
    have hb2 : b = 2 := by
      by_contra h
      exact hb (.inl h)
    subst hb2
    by_cases h3 : 0 < m.fdiv 3
    · refine Ret.bind (he _ h3) ?_
      rintro p hp
      split
      · exact Ret.error
      rename_i values hvals
      split
      · exact Ret.error
      rename_i v hv
      refine Ret.pure ?_
      have hm3 : m.fdiv 3 = ((m.toNat / 3 : Nat) : Int) := by
        rw [fdiv_pos' (by decide)]; omega
      have hpN : N % (m.toNat / 3) = p.toNat := by
        rw [hp, hm3]
        omega
      have := table_spec hvals hv hN hpN
      rw [Int.toNat_of_nonneg (by omega)] at this
      exact this.symm
    · refine Ret.bind Ret.any fun p _ => ?_
      split
      · exact Ret.error
      · rename_i values hvals
        exfalso
        have h1 := List.all_eq_true.mp tables_ok _ (lookup_mem hvals)
        simp only [tableOk, Bool.and_eq_true, decide_eq_true_eq] at h1
        have : 3 < m.toNat := h1.1.1
        rw [fdiv_pos' (by decide)] at h3
        omega

theorem expModTail_spec {m b : Int} {e : Num} {emod : Int → R Int} {N : Nat} (hm : 1 < m)
    (hN : 0 < N) (hint : ∀ k, e = .int k → k = N)
    (he : ∀ k, 0 < k → Ret (emod k) (fun r => r = (N : Int) % k)) :
    Ret (expModTail b e emod m) (fun r => r = b ^ N % m) := by
  unfold expModTail
  split
  · rw [hint _ rfl]
    exact expModTailInt_spec hm N
  · dsimp only
    split
    · rename_i hp
      refine Ret.bind (he _ (by exact_mod_cast hp)) ?_
      rintro k rfl
      have e : (N : Int) % (findPeriod b m : Int) = ((N % findPeriod b m : Nat) : Int) := by
        push_cast; rfl
      rw [e]
      refine (expModInt_spec hm _).mono ?_
      rintro r rfl
      exact (pow_period_one (findPeriod_spec hm hp) N).symm
    · exact expModSpecial_spec hm hN he

/-! ### `Exp.__mod__` -/

theorem three_pow_two_pow (j : Nat) : (3 : Int) ^ (2 ^ (j + 1)) ≡ 1 [ZMOD 2 ^ (j + 3)] := by
  induction j with
  | zero => decide
  | succ j ih =>
    obtain ⟨c, hc⟩ := (Int.modEq_iff_dvd.mp ih.symm)
    have e : (3 : Int) ^ (2 ^ (j + 1 + 1)) = (3 ^ (2 ^ (j + 1))) ^ 2 := by
      rw [← pow_mul]; congr 1
    rw [e]
    have h3 : (3 : Int) ^ (2 ^ (j + 1)) = 1 + 2 ^ (j + 3) * c := by omega
    rw [h3]
    refine (Int.modEq_iff_dvd.mpr ?_).symm
    refine ⟨c + 2 ^ (j + 2) * c ^ 2, ?_⟩
    have p1 : (2 : Int) ^ (j + 1 + 3) = 2 ^ (j + 2) * 4 := by
      rw [show j + 1 + 3 = (j + 2) + 2 by omega, pow_add]; norm_num
    have p2 : (2 : Int) ^ (j + 3) = 2 ^ (j + 2) * 2 := by
      rw [show j + 3 = (j + 2) + 1 by omega, pow_add]; norm_num
    rw [p1, p2]
    ring

/-- A power from `s` on whose later values are a table. -/
theorem pow_case {b m : Int} {s P : Nat} (h : b ^ (s + P) % m = b ^ s % m) {N : Nat} (hN : s ≤ N)
    {i : Nat} (hi : (N - s) % P = i) {v : Int} (hv : b ^ (s + i) % m = v) : b ^ N % m = v := by
  have := pow_periodic (b := b) (m := m) (s := s) (P := P) h hN
  rw [hi] at this
  rw [← hv]
  exact this

theorem expModMatch_spec {m b : Int} {e : Num} {emod : Int → R Int} {N : Nat} (hm : 2 < m)
    (hN : 1 < N) (hint : ∀ k, e = .int k → k = N)
    (he : ∀ k, 0 < k → Ret (emod k) (fun r => r = (N : Int) % k)) :
    Ret (expModMatch true b e emod m) (fun r => r = b ^ N % m) := by
  unfold expModMatch
  split
  · rename_i h
    obtain ⟨rfl, rfl⟩ := h
    exact Ret.ok (pow_case (s := 2) (P := 1) (by decide) hN (i := 0) (Nat.mod_one _) (by decide)).symm
  split
  · rename_i h
    obtain ⟨rfl, rfl⟩ := h
    refine Ret.bind (he 2 (by decide)) ?_
    rintro k rfl
    split
    · rename_i h2
      exact Ret.pure
        (pow_case (s := 2) (P := 2) (by decide) hN (i := 0) (by omega) (by decide)).symm
    · rename_i h2
      exact Ret.pure
        (pow_case (s := 2) (P := 2) (by decide) hN (i := 1) (by omega) (by decide)).symm
  split
  · rename_i h
    obtain ⟨rfl, rfl⟩ := h
    refine Ret.bind (he 2 (by decide)) ?_
    rintro k rfl
    split
    · rename_i h2
      exact Ret.pure
        (pow_case (s := 2) (P := 2) (by decide) hN (i := 0) (by omega) (by decide)).symm
    · rename_i h2
      exact Ret.pure
        (pow_case (s := 2) (P := 2) (by decide) hN (i := 1) (by omega) (by decide)).symm
  split
  · rename_i h
    obtain ⟨rfl, rfl⟩ := h
    refine Ret.bind (he 4 (by decide)) ?_
    rintro k rfl
    split
    · rename_i h2
      exact Ret.pure
        (pow_case (s := 2) (P := 4) (by decide) hN (i := 1) (by omega) (by decide)).symm
    split
    · exact Ret.throw
    split
    · exact Ret.pure
        (pow_case (s := 2) (P := 4) (by decide) hN (i := 3) (by omega) (by decide)).symm
    · exact Ret.pure
        (pow_case (s := 2) (P := 4) (by decide) hN (i := 0) (by omega) (by decide)).symm
  split
  · rename_i h
    obtain ⟨rfl, rfl⟩ := h
    exact Ret.ok (pow_case (s := 1) (P := 1) (by decide) hN.le (i := 0) (Nat.mod_one _)
      (by decide)).symm
  split
  · rename_i h
    obtain ⟨rfl, hp⟩ := h
    split
    · exact Ret.error
    · rename_i h4
      have h4 : m ≠ 4 := by simpa using h4
      have hp : m = 2 ^ Nat.log 2 m.toNat := by simpa [isPowTwo] using hp
      generalize Nat.log 2 m.toNat = L at hp ⊢
      have hL : 3 ≤ L := by
        by_contra hlt
        have : L = 0 ∨ L = 1 ∨ L = 2 := by omega
        rcases this with rfl | rfl | rfl
        · norm_num at hp; omega
        · norm_num at hp; omega
        · norm_num at hp; omega
      obtain ⟨j, rfl⟩ := Nat.exists_eq_add_of_le hL
      refine Ret.bind (he _ (by positivity)) ?_
      rintro k rfl
      have ek : (N : Int) % 2 ^ (3 + j - 2) = ((N % 2 ^ (j + 1) : Nat) : Int) := by
        rw [show 3 + j - 2 = j + 1 by omega]
        push_cast
        rfl
      rw [ek]
      refine (expModTailInt_spec (by omega) _).mono ?_
      rintro r rfl
      have h3 := three_pow_two_pow j
      rw [show j + 3 = 3 + j by omega, ← hp] at h3
      exact (pow_period_one h3 N).symm
  split
  · rename_i h
    obtain ⟨rfl, rfl⟩ := h
    exact Ret.ok (pow_case (s := 1) (P := 1) (by decide) hN.le (i := 0) (Nat.mod_one _)
      (by decide)).symm
  split
  · rename_i h
    obtain ⟨rfl, rfl⟩ := h
    refine Ret.bind (he 2 (by decide)) ?_
    rintro k rfl
    split
    · exact Ret.pure
        (pow_case (s := 2) (P := 2) (by decide) hN (i := 0) (by omega) (by decide)).symm
    · exact Ret.pure
        (pow_case (s := 2) (P := 2) (by decide) hN (i := 1) (by omega) (by decide)).symm
  · exact expModTail_spec (by omega) (by omega) hint he

theorem expMod_spec {m b : Int} {e : Num} {emod : Int → R Int} {gt1 : R Bool} {N : Nat}
    (hm : 0 < m) (hN : 1 < N) (hint : ∀ k, e = .int k → k = N)
    (he : ∀ k, 0 < k → Ret (emod k) (fun r => r = (N : Int) % k)) :
    Ret (expMod true gt1 b e emod m) (fun r => r = b ^ N % m) := by
  unfold expMod
  split
  · rename_i h
    subst h
    exact Ret.ok (by simp)
  split
  · rename_i h
    subst h
    exact Ret.ok (Int.emod_eq_zero_of_dvd (dvd_pow_self _ (by omega))).symm
  split
  · rename_i h
    subst h
    refine Ret.ok ?_
    rw [fmod_pos (by decide)]
    rcases Int.emod_two_eq b with hb | hb
    · have : (2 : Int) ∣ b := Int.dvd_of_emod_eq_zero hb
      rw [hb, Int.emod_eq_zero_of_dvd (this.trans (dvd_pow_self _ (by omega)))]
    · have : b ≡ 1 [ZMOD 2] := hb
      have h2 := this.pow N
      rw [one_pow] at h2
      rw [hb]
      exact h2.symm
  split
  · exact Ret.error
  split
  · exact Ret.error
  · refine Ret.bind Ret.any fun _ _ => ?_
    split
    · exact Ret.throw
    · exact expModMatch_spec (by omega) hN hint he

/-! ### All terms -/

/-- Every exponent in a term is above one. -/
def Num.BigExp : Num → Prop
  | .int _ => True
  | .add l r => l.BigExp ∧ r.BigExp
  | .mul l r => l.BigExp ∧ r.BigExp
  | .div n _ => n.BigExp
  | .exp _ e => e.BigExp ∧ ∀ k, e.toInt = some k → 1 < k

theorem numMod_spec (o : Ops) {a : Num} (hw : a.WF) (hx : a.Exact) (hb : a.BigExp) {z : Int}
    (hz : a.toInt = some z) {m : Int} (hm : 0 < m) :
    Ret (numMod true o a m) (fun r => r = z % m) := by
  induction a generalizing z m with
  | int n =>
    unfold numMod
    simp only [Num.toInt, Option.some.injEq] at hz
    subst hz
    split
    · exact Ret.error
    · exact Ret.ok (fmod_pos hm)
  | add l r ihl ihr =>
    simp only [Num.toInt, Option.bind_eq_bind, Option.bind_eq_some_iff, Option.pure_def,
      Option.some.injEq] at hz
    obtain ⟨x, hx1, y, hy1, rfl⟩ := hz
    unfold numMod
    split
    · rename_i h
      subst h
      exact Ret.ok (by simp)
    refine Ret.bind (ihl hw.1 hx.1 hb.1 hx1 hm) ?_
    rintro _ rfl
    refine Ret.bind (ihr hw.2 hx.2 hb.2 hy1 hm) ?_
    rintro _ rfl
    split
    · exact Ret.throw
    · refine Ret.pure ?_
      rw [fmod_pos hm, ← Int.add_emod]
  | mul l r ihl ihr =>
    simp only [Num.toInt, Option.bind_eq_bind, Option.bind_eq_some_iff, Option.pure_def,
      Option.some.injEq] at hz
    obtain ⟨x, hx1, y, hy1, rfl⟩ := hz
    unfold numMod
    split
    · rename_i h
      subst h
      exact Ret.ok (by simp)
    refine Ret.bind (ihl hw.1 hx.1 hb.1 hx1 hm) ?_
    rintro _ rfl
    split
    · rename_i h0
      refine Ret.pure ?_
      rw [Int.mul_emod, h0]
      simp
    refine Ret.bind (ihr hw.2 hx.2 hb.2 hy1 hm) ?_
    rintro _ rfl
    split
    · rename_i h0
      refine Ret.pure ?_
      rw [Int.mul_emod, h0]
      simp
    split
    · exact Ret.throw
    · refine Ret.pure ?_
      rw [fmod_pos hm, ← Int.mul_emod]
  | div n d ih =>
    simp only [Num.toInt, Option.bind_eq_bind, Option.bind_eq_some_iff, Option.pure_def,
      Option.some.injEq] at hz
    obtain ⟨x, hx1, rfl⟩ := hz
    obtain ⟨q, rfl⟩ := hx.2 x hx1
    have hd : 0 < d := hw.2
    unfold numMod
    split
    · rename_i h
      subst h
      exact Ret.ok (by simp)
    split
    · exact Ret.error
    refine Ret.bind (ih hw.1 hx.1 hb hx1 (mul_pos hm hd)) ?_
    rintro _ rfl
    split
    · exact Ret.throw
    split
    · exact Ret.throw
    split
    · exact Ret.throw
    · refine Ret.pure ?_
      have e : d * q % (m * d) = d * (q % m) := by
        rw [mul_comm m d, Int.mul_emod_mul_of_pos _ _ hd]
      rw [e, Int.mul_fdiv_cancel_left _ hd.ne', Int.mul_fdiv_cancel_left _ hd.ne', fmod_pos hm,
        Int.emod_emod_of_dvd _ (dvd_refl m)]
  | exp b e ih =>
    simp only [Num.toInt, Option.bind_eq_bind, Option.bind_eq_some_iff] at hz
    obtain ⟨k, hk, hz⟩ := hz
    have hk1 := hb.2 k hk
    rw [if_neg (by omega)] at hz
    cases hz
    unfold numMod
    refine expMod_spec hm (N := k.toNat) (by omega) ?_ ?_
    · rintro k' rfl
      simp only [Num.toInt, Option.some.injEq] at hk
      omega
    · intro j hj
      have hkn : ((k.toNat : Nat) : Int) = k := Int.toNat_of_nonneg (by omega)
      rw [hkn]
      exact ih hw.2 hx hb.1 hk hj

end Sym
end BB
