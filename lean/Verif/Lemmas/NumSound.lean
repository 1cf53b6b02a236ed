/-
Every operator of the symbolic numbers returns a term that denotes the right number, in the strict
evaluation for all terms and in the program itself for terms without `//`.
-/
import Mathlib.Tactic.Ring
import Mathlib.Tactic.FieldSimp
import Mathlib.Tactic.Linarith
import Verif.Spec.Num

namespace BB
namespace Sym

/-! ### Results -/

/-- Every value returned satisfies `P`. -/
def Ret {α : Type} (x : R α) (P : α → Prop) : Prop := ∀ c, x = .ok c → P c

theorem Ret.ok {α : Type} {a : α} {P : α → Prop} (h : P a) : Ret (.ok a) P := by
  intro c hc; cases hc; exact h

theorem Ret.pure {α : Type} {a : α} {P : α → Prop} (h : P a) : Ret (Pure.pure a : R α) P :=
  Ret.ok h

theorem Ret.error {α : Type} {e : Err} {P : α → Prop} : Ret (.error e : R α) P := by
  intro c hc; cases hc

theorem Ret.throw {α : Type} {e : Err} {P : α → Prop} : Ret (throw e : R α) P := by
  intro c hc; cases hc

theorem Ret.bind {α β : Type} {x : R α} {f : α → R β} {Q : α → Prop} {P : β → Prop}
    (hx : Ret x Q) (hf : ∀ a, Q a → Ret (f a) P) : Ret (x >>= f) P := by
  intro c hc
  cases x with
  | error e => cases hc
  | ok a => exact hf a (hx a rfl) c hc

theorem Ret.any {α : Type} {x : R α} : Ret x (fun _ => True) := fun _ _ => trivial

theorem Ret.mono {α : Type} {x : R α} {P Q : α → Prop} (h : Ret x P) (hpq : ∀ a, P a → Q a) :
    Ret x Q := fun c hc => hpq c (h c hc)

theorem Ret.tryNI {α : Type} {x y : R α} {P : α → Prop} (hx : Ret x P) (hy : Ret y P) :
    Ret (tryNI x y) P := by
  unfold Sym.tryNI
  split
  · exact hy
  · exact hx

/-! ### The terms of the two theorems -/

/-- Positive bases and denominators; without `//` when `g` is false. -/
def K (g : Bool) : Num → Prop
  | .int _ => True
  | .add l r => K g l ∧ K g r
  | .mul l r => K g l ∧ K g r
  | .div n d => g = true ∧ K g n ∧ 0 < d
  | .exp b e => 0 < b ∧ K g e

theorem K_true {a : Num} : K true a ↔ a.WF := by
  induction a <;> simp_all [K, Num.WF]

theorem K_false {a : Num} : K false a ↔ a.WF ∧ a.DivFree := by
  induction a with
  | int n => simp [K, Num.WF, Num.DivFree]
  | add l r ihl ihr => simp only [K, Num.WF, Num.DivFree, ihl, ihr]; tauto
  | mul l r ihl ihr => simp only [K, Num.WF, Num.DivFree, ihl, ihr]; tauto
  | div n d ih => simp [K, Num.DivFree]
  | exp b e ih => simp only [K, Num.WF, Num.DivFree, ih]; tauto

/-- A term of the class that denotes `v`. -/
def Is (g : Bool) (v : ℝ) (c : Num) : Prop := K g c ∧ c.val = v

/-- The operators return what they should. -/
structure Sound (g : Bool) (o : Ops) : Prop where
  add : ∀ {a b : Num}, K g a → K g b → Ret (o.add a b) (Is g (a.val + b.val))
  sub : ∀ {a b : Num}, K g a → K g b → Ret (o.sub a b) (Is g (a.val - b.val))
  mul : ∀ {a b : Num}, K g a → K g b → Ret (o.mul a b) (Is g (a.val * b.val))
  neg : ∀ {a : Num}, K g a → Ret (o.neg a) (Is g (-a.val))
  fdiv : g = true → ∀ {a b : Num}, K g a → K g b → 0 < b.val →
    Ret (o.fdiv a b) (Is g (a.val / b.val))

theorem Sound.fail (g : Bool) : Sound g Sym.fail where
  add _ _ := Ret.error
  sub _ _ := Ret.error
  mul _ _ := Ret.error
  neg _ := Ret.error
  fdiv _ _ _ _ _ _ := Ret.error

theorem Is.congr {g : Bool} {v w : ℝ} {c : Num} (h : Is g v c) (e : v = w) : Is g w c :=
  e ▸ h

theorem Ret.congr {g : Bool} {v w : ℝ} {x : R Num} (h : Ret x (Is g v)) (e : v = w) :
    Ret x (Is g w) := e ▸ h

@[simp] theorem val_int (n : Int) : (Num.int n).val = n := rfl
@[simp] theorem val_add (l r : Num) : (Num.add l r).val = l.val + r.val := rfl
@[simp] theorem val_mul (l r : Num) : (Num.mul l r).val = l.val * r.val := rfl
@[simp] theorem val_div (n : Num) (d : Int) : (Num.div n d).val = n.val / d := rfl
@[simp] theorem val_exp (b : Int) (e : Num) : (Num.exp b e).val = (b : ℝ) ^ e.val := rfl

theorem K_int {g : Bool} (n : Int) : K g (.int n) := trivial

/-- Prove that a term is in the class. -/
macro "kk" : tactic => `(tactic| first | assumption | exact trivial | (simp only [K, true_and, and_true] at *; tauto))

/-- Equation of values. -/
macro "vv" : tactic => `(tactic| ((try simp only [val_int, val_add, val_mul, val_div, val_exp, *]) <;> (try push_cast) <;> ring))

/-! ### Constructors -/

theorem is_makeAdd {g : Bool} {l r : Num} (hl : K g l) (hr : K g r) :
    Is g (l.val + r.val) (makeAdd l r) := by
  unfold makeAdd
  split
  · exact ⟨⟨hr, hl⟩, by vv⟩
  · exact ⟨⟨hl, hr⟩, rfl⟩

theorem ret_mulInit {g : Bool} {o : Ops} {l r : Num} (hl : K g l) (hr : K g r) :
    Ret (mulInit o l r) (Is g (l.val * r.val)) := by
  unfold mulInit
  refine Ret.bind Ret.any fun _ _ => Ret.bind Ret.any fun _ _ => Ret.bind Ret.any fun _ _ =>
    Ret.bind Ret.any fun _ _ => ?_
  split
  · exact Ret.error
  · exact Ret.ok ⟨⟨hl, hr⟩, rfl⟩

theorem ret_makeMul {g : Bool} {o : Ops} {l r : Num} (hl : K g l) (hr : K g r) :
    Ret (makeMul o l r) (Is g (l.val * r.val)) := by
  unfold makeMul
  split
  · exact (ret_mulInit hr hl).congr (mul_comm _ _)
  · exact ret_mulInit hl hr

theorem ret_makeDiv {g : Bool} {n : Num} {d : Int} (hg : g = true) (hn : K g n) :
    Ret (makeDiv n d) (Is g (n.val / d)) := by
  unfold makeDiv
  split
  · exact Ret.ok ⟨⟨hg, hn, ‹_›⟩, rfl⟩
  · exact Ret.error

theorem ret_expInit {g : Bool} {b : Int} {e : Num} (hb : 0 < b) (he : K g e) :
    Ret (expInit b e) (Is g ((b : ℝ) ^ e.val)) := by
  unfold expInit
  split
  · split
    · exact Ret.error
    · exact Ret.ok ⟨⟨hb, he⟩, rfl⟩
  · exact Ret.ok ⟨⟨hb, he⟩, rfl⟩

theorem ret_makeExpLoop {g : Bool} {o : Ops} (S : Sound g o) (n : Nat) {b : Int} {e : Num}
    (hb : 0 < b) (he : K g e) : Ret (makeExpLoop o n b e) (Is g ((b : ℝ) ^ e.val)) := by
  induction n generalizing b e with
  | zero => exact Ret.error
  | succ n ih =>
    unfold makeExpLoop
    split
    · exact ret_expInit hb he
    split
    · rename_i h8
      refine Ret.bind (S.mul he (K_int 3)) ?_
      rintro e' ⟨ke, ve⟩
      refine (ret_expInit (by decide) ke).congr ?_
      rw [ve, h8, mul_comm, val_int, Real.rpow_mul (by norm_num)]
      congr 1
      norm_num
    · dsimp only
      split
      · exact ret_expInit hb he
      · rename_i h1 h8 hr
        refine Ret.bind (S.mul he (K_int 2)) ?_
        rintro e' ⟨ke, ve⟩
        have hr' : ((b.toNat.sqrt : Nat) : Int) * (b.toNat.sqrt : Nat) = b := not_not.mp hr
        have hpos : 0 < ((b.toNat.sqrt : Nat) : Int) := by
          rcases Int.lt_or_eq_of_le (Int.natCast_nonneg b.toNat.sqrt) with h | h
          · exact h
          · rw [← h] at hr'; omega
        refine (ih hpos ke).congr ?_
        generalize ((b.toNat.sqrt : Nat) : Int) = t at *
        have ht : (0 : ℝ) ≤ (t : ℝ) := by exact_mod_cast hpos.le
        rw [ve, mul_comm, val_int, Real.rpow_mul ht]
        congr 1
        rw [← hr']
        push_cast
        rw [Real.rpow_two]
        ring

theorem ret_makeExp {g : Bool} {o : Ops} (S : Sound g o) {b : Int} {e : Num}
    (hb : 0 < b) (he : K g e) : Ret (makeExp o b e) (Is g ((b : ℝ) ^ e.val)) :=
  ret_makeExpLoop S _ hb he

theorem stripLoop_spec (n : Nat) {a b : Int} {i : Nat} {m : Int} {j : Nat}
    (h : stripLoop n a b i = .ok (m, j)) : ∃ k, j = i + k ∧ a = m * b ^ k := by
  induction n generalizing a i with
  | zero => cases h
  | succ n ih =>
    unfold stripLoop at h
    split at h
    · cases h
    rename_i hb
    split at h
    · cases h
      exact ⟨0, rfl, by simp⟩
    · rename_i hm
      obtain ⟨k, hk, ha⟩ := ih h
      refine ⟨k + 1, by omega, ?_⟩
      have hd : b ∣ a := Int.dvd_of_fmod_eq_zero (not_not.mp hm)
      obtain ⟨c, rfl⟩ := hd
      rw [Int.mul_fdiv_cancel_left c hb] at ha
      rw [ha, pow_succ]
      ring

theorem ret_strip (a b : Int) :
    Ret (strip a b) (fun p => a = p.1 * b ^ p.2) := by
  rintro ⟨m, j⟩ h
  obtain ⟨k, hk, ha⟩ := stripLoop_spec _ h
  simp only [Nat.zero_add] at hk
  subst hk
  exact ha

/-! ### `gcd` -/

theorem gcdLoop_spec {l base : Int} (hb : 0 < base) (k : Nat) :
    0 < gcdLoop l base k ∧ gcdLoop l base k ∣ l := by
  induction k with
  | zero => exact ⟨by simp [gcdLoop], by simp [gcdLoop]⟩
  | succ k ih =>
    unfold gcdLoop
    split
    · exact ⟨pow_pos hb _, Int.dvd_of_fmod_eq_zero ‹_›⟩
    · exact ih

theorem int_gcd_pos {l : Int} (hl : 0 < l) (r : Int) : (0 : Int) < Int.gcd l r := by
  have : Int.gcd l r ≠ 0 := by
    intro h
    rw [Int.gcd_eq_zero_iff] at h
    omega
  omega

theorem ret_gcd (flog : Int → Int → Nat) {l : Int} (hl : 0 < l) (r : Num) :
    Ret (gcd flog l r) (fun d => 0 < d ∧ d ∣ l) := by
  induction r with
  | int r =>
    unfold gcd
    split
    · exact Ret.ok ⟨by decide, one_dvd _⟩
    · exact Ret.ok ⟨int_gcd_pos hl r, Int.gcd_dvd_left ..⟩
  | add a b iha ihb =>
    unfold gcd
    split
    · exact Ret.ok ⟨by decide, one_dvd _⟩
    · refine Ret.bind iha fun x hx => ?_
      split
      · exact Ret.pure ⟨by decide, one_dvd _⟩
      · refine Ret.bind ihb fun y hy => ?_
        split
        · exact Ret.pure ⟨by decide, one_dvd _⟩
        · refine Ret.pure ?_
          rcases min_choice x y with h | h <;> rw [h] <;> assumption
  | mul a b iha ihb =>
    unfold gcd
    split
    · exact Ret.ok ⟨by decide, one_dvd _⟩
    · refine Ret.bind iha fun x hx => Ret.bind ihb fun y hy => Ret.pure ?_
      rcases max_choice x y with h | h <;> rw [h] <;> assumption
  | div n d ih =>
    unfold gcd
    split
    · exact Ret.ok ⟨by decide, one_dvd _⟩
    · exact Ret.error
  | exp b e ih =>
    unfold gcd
    split
    · exact Ret.ok ⟨by decide, one_dvd _⟩
    split
    · exact Ret.ok ⟨hl, dvd_refl _⟩
    split
    · exact Ret.error
    split
    · exact Ret.ok ⟨int_gcd_pos hl b, Int.gcd_dvd_left ..⟩
    split
    · exact Ret.error
    · rename_i h
      exact Ret.ok (gcdLoop_spec (by omega) _)

/-! ### `add_exponents` -/

theorem rpow_diff {b : Int} (hb : 0 < b) (x y : ℝ) :
    (b : ℝ) ^ (y - x) * (b : ℝ) ^ x = (b : ℝ) ^ y := by
  have : (0 : ℝ) < b := by exact_mod_cast hb
  rw [← Real.rpow_add this]
  congr 1
  ring

theorem ret_powInt {g : Bool} {o : Ops} (S : Sound g o) {b : Int} {e : Num} (hb : 0 < b)
    (he : K g e) : Ret (powInt o b e) (Is g ((b : ℝ) ^ e.val)) := by
  unfold powInt
  split
  · rename_i k
    split
    · exact Ret.error
    · rename_i hk
      refine Ret.ok ⟨trivial, ?_⟩
      rw [val_int, val_int]
      have : ((k : ℤ) : ℝ) = ((k.toNat : ℕ) : ℝ) := by
        have : (k.toNat : ℤ) = k := Int.toNat_of_nonneg (by omega)
        exact_mod_cast this.symm
      rw [this, Real.rpow_natCast]
      push_cast
      rfl
  · exact ret_makeExp S hb he

theorem ret_addExponentsOrd {g : Bool} {o : Ops} (S : Sound g o) {b : Int} {le_ lco re rco : Num}
    (hb : 0 < b) (h1 : K g le_) (h2 : K g lco) (h3 : K g re) (h4 : K g rco) :
    Ret (addExponentsOrd o b le_ lco re rco)
      (Is g (lco.val * (b : ℝ) ^ le_.val + rco.val * (b : ℝ) ^ re.val)) := by
  unfold addExponentsOrd
  refine Ret.bind Ret.any fun _ _ => ?_
  split
  · exact Ret.throw
  refine Ret.bind (S.sub h3 h1) ?_
  rintro d ⟨kd, vd⟩
  refine Ret.bind Ret.any fun small _ => ?_
  refine Ret.bind (Q := Is g ((b : ℝ) ^ d.val)) ?_ ?_
  · unfold diffPow
    split
    · exact ret_powInt S hb kd
    · exact ret_makeExp S hb kd
  rintro x ⟨kx, vx⟩
  refine Ret.bind (S.mul h4 kx) ?_
  rintro y ⟨ky, vy⟩
  refine Ret.bind (S.add h2 ky) ?_
  rintro z ⟨kz, vz⟩
  refine (S.mul kz (show K g (.exp b le_) from ⟨hb, h1⟩)).congr ?_
  rw [vz, vy, vx, vd, val_exp, add_mul, mul_assoc, rpow_diff hb]

theorem ret_addExponents {g : Bool} {o : Ops} (S : Sound g o) {lb rb : Int} {le_ lco re rco : Num}
    (hl : 0 < lb) (h1 : K g le_) (h2 : K g lco) (h3 : K g re) (h4 : K g rco) :
    Ret (addExponents o lb le_ lco rb re rco)
      (Is g (lco.val * (lb : ℝ) ^ le_.val + rco.val * (rb : ℝ) ^ re.val)) := by
  unfold addExponents
  split
  · rename_i h
    obtain ⟨rfl, rfl⟩ := h
    refine Ret.bind (S.add h2 h4) ?_
    rintro s ⟨ks, vs⟩
    refine (S.mul ks (show K g (.exp lb le_) from ⟨hl, h1⟩)).congr ?_
    rw [vs, val_exp]
    ring
  split
  · exact Ret.error
  · rename_i hb
    have hb' : lb = rb := not_not.mp hb
    subst hb'
    refine Ret.bind Ret.any fun _ _ => ?_
    split
    · exact (ret_addExponentsOrd S hl h3 h4 h1 h2).congr (add_comm _ _)
    · exact ret_addExponentsOrd S hl h1 h2 h3 h4

end Sym
end BB
