/-
The operators of the four classes of symbolic numbers return terms that denote the right number.
-/
import Verif.Lemmas.NumSound

namespace BB
namespace Sym

/-- Run one operator. -/
macro "rop " t:term : tactic =>
  `(tactic| (refine Ret.bind ($t (by kk) (by kk)) ?_; rintro _ ⟨_, _⟩))

/-- Run `-x`. -/
macro "rneg " t:term : tactic =>
  `(tactic| (refine Ret.bind ($t (by kk)) ?_; rintro _ ⟨_, _⟩))

/-- The last operator. -/
macro "rend " t:term : tactic =>
  `(tactic| (refine Ret.congr ($t (by kk) (by kk)) ?_; vv))

variable {g : Bool} {o : Ops}

/-! ### `Add` -/

theorem ret_addNeg (S : Sound g o) {l r : Num} (hl : K g l) (hr : K g r) :
    Ret (addNeg o l r) (Is g (-(Num.add l r).val)) := by
  unfold addNeg
  rneg S.neg
  rneg S.neg
  rend S.add

theorem ret_addRadd (S : Sound g o) {l r : Num} (hl : K g l) (hr : K g r) (n : Int) :
    Ret (addRadd o l r n) (Is g ((Num.int n).val + (Num.add l r).val)) := by
  unfold addRadd
  split
  · exact Ret.ok ⟨⟨hl, hr⟩, by vv⟩
  split
  · rop S.add
    rend S.add
  · exact Ret.ok (is_makeAdd trivial ⟨hl, hr⟩)

theorem ret_addAddRest (S : Sound g o) {l r y : Num} (hl : K g l) (hr : K g r) (hy : K g y) :
    Ret (addAddRest o l r y) (Is g ((Num.add l r).val + y.val)) := by
  unfold addAddRest
  split
  · rop S.add
    rend S.add
  split
  · rop S.add
    rend S.add
  · exact Ret.ok (is_makeAdd ⟨hl, hr⟩ hy)

theorem ret_addAdd (S : Sound g o) {l r y : Num} (hl : K g l) (hr : K g r) (hy : K g y) :
    Ret (addAdd o l r y) (Is g ((Num.add l r).val + y.val)) := by
  unfold addAdd
  split
  · split
    · exact Ret.ok ⟨⟨hl, hr⟩, by vv⟩
    split
    · exact Ret.ok ((is_makeAdd hy (show K g (.add l r) from ⟨hl, hr⟩)).congr (add_comm _ _))
    · rop S.add
      rend S.add
  · rename_i lo ro
    split
    · rop S.add
      rop S.add
      rend S.add
    split
    · rename_i h
      subst h
      rop S.mul
      rend S.add
    · exact ret_addAddRest S hl hr hy
  · exact ret_addAddRest S hl hr hy

theorem ret_addSub (S : Sound g o) {l r y : Num} (hl : K g l) (hr : K g r) (hy : K g y) :
    Ret (addSub o l r y) (Is g ((Num.add l r).val - y.val)) := by
  unfold addSub
  split
  · rename_i h
    subst h
    exact Ret.ok ⟨⟨hl, hr⟩, by vv⟩
  split
  · rename_i h
    subst h
    exact Ret.ok ⟨trivial, by vv⟩
  split
  · split
    · rop S.sub
      rop S.sub
      rend S.add
    · rneg S.neg
      rend S.add
  · rneg S.neg
    rend S.add

theorem ret_addMul (S : Sound g o) {l r y : Num} (hl : K g l) (hr : K g r) (hy : K g y) :
    Ret (addMul o l r y) (Is g ((Num.add l r).val * y.val)) := by
  unfold addMul
  split
  · rend S.mul
  · exact ret_makeMul ⟨hl, hr⟩ hy

theorem ret_addRmul (S : Sound g o) {l r : Num} (hl : K g l) (hr : K g r) (n : Int) :
    Ret (addRmul o l r n) (Is g ((Num.int n).val * (Num.add l r).val)) := by
  unfold addRmul
  split
  · exact Ret.ok ⟨trivial, by vv⟩
  split
  · exact Ret.ok ⟨⟨hl, hr⟩, by vv⟩
  split
  · refine Ret.congr (S.neg (by kk)) ?_
    vv
  · rop S.mul
    rop S.mul
    rend S.add

/-- `0 < d` for a real. -/
theorem val_pos {d : Int} (h : 0 < d) : 0 < (Num.int d).val := by
  rw [val_int]; exact_mod_cast h

theorem fdiv_pos {d k : Int} (hd : 0 < d) (hk : 0 < k) (h : k ∣ d) :
    0 < d.fdiv k ∧ ((d.fdiv k : Int) : ℝ) = (d : ℝ) / k := by
  obtain ⟨c, rfl⟩ := h
  rw [Int.mul_fdiv_cancel_left c hk.ne']
  refine ⟨by nlinarith, ?_⟩
  have : (k : ℝ) ≠ 0 := by exact_mod_cast hk.ne'
  push_cast
  field_simp

theorem ret_addFdiv (flog : Int → Int → Nat) (S : Sound g o) (hg : g = true) {l r y : Num}
    (hl : K g l) (hr : K g r) (hpos : 0 < y.val) :
    Ret (addFdiv flog o l r y) (Is g ((Num.add l r).val / y.val)) := by
  unfold addFdiv
  split
  · rename_i d
    have hd : 0 < d := by rw [val_int] at hpos; exact_mod_cast hpos
    split
    · exact Ret.ok ⟨⟨hl, hr⟩, by vv⟩
    refine Ret.bind (ret_gcd flog hd l) fun lg hlg => ?_
    split
    · exact ret_makeDiv hg (n := .add l r) ⟨hl, hr⟩
    refine Ret.bind (ret_gcd flog hd r) fun rg hrg => ?_
    split
    · exact ret_makeDiv hg (n := .add l r) ⟨hl, hr⟩
    dsimp only
    split
    · exact ret_makeDiv hg (n := .add l r) ⟨hl, hr⟩
    have hdv := int_gcd_pos hlg.1 rg
    have hdd : ((Int.gcd lg rg : Nat) : Int) ∣ d := dvd_trans (Int.gcd_dvd_left ..) hlg.2
    generalize ((Int.gcd lg rg : Nat) : Int) = dv at *
    obtain ⟨hq, vq⟩ := fdiv_pos hd hdv hdd
    refine Ret.bind (S.fdiv hg hl (K_int dv) (val_pos hdv)) ?_
    rintro x ⟨kx, vx⟩
    refine Ret.bind (S.fdiv hg hr (K_int dv) (val_pos hdv)) ?_
    rintro z ⟨kz, vz⟩
    rop S.add
    rename_i s ks vs
    refine Ret.congr (S.fdiv hg ks (K_int _) (val_pos hq)) ?_
    have h1 : (d : ℝ) ≠ 0 := by exact_mod_cast hd.ne'
    have h2 : (dv : ℝ) ≠ 0 := by exact_mod_cast hdv.ne'
    rw [vs, vx, vz, val_int (d.fdiv dv), vq]
    simp only [val_int, val_add]
    field_simp
  · exact Ret.error

/-! ### `Mul` -/

theorem ret_mulNeg (S : Sound g o) {l r : Num} (hl : K g l) (hr : K g r) :
    Ret (mulNeg o l r) (Is g (-(Num.mul l r).val)) := by
  unfold mulNeg
  rneg S.neg
  rend S.mul

theorem ret_mulMul (S : Sound g o) {l r y : Num} (hl : K g l) (hr : K g r) (hy : K g y) :
    Ret (mulMul o l r y) (Is g ((Num.mul l r).val * y.val)) := by
  unfold mulMul
  split
  · rend S.mul
  split
  · rop S.mul
    rend S.mul
  split
  · split
    · rop S.mul
      rend S.mul
    · rop S.mul
      rend S.mul
  · rename_i n d _
    rop S.mul
    have hy' := hy
    refine Ret.congr (S.fdiv hy'.1 (by kk) (K_int d) (val_pos hy'.2.2)) ?_
    vv
  · rop S.mul
    rend S.mul

theorem ret_mulRmul (S : Sound g o) {l r : Num} (hl : K g l) (hr : K g r) (n : Int) :
    Ret (mulRmul o l r n) (Is g ((Num.int n).val * (Num.mul l r).val)) := by
  unfold mulRmul
  split
  · split
    · rename_i h1 h2
      subst h1 h2
      exact Ret.ok ⟨hr, by vv⟩
    split
    · rend S.mul
    · rneg S.neg
      rend S.mul
    · exact Ret.error
  split
  · exact Ret.ok ⟨⟨hl, hr⟩, by vv⟩
  · rop S.mul
    rend S.mul

theorem ret_mulAddRest {l r y : Num} (hl : K g l) (hr : K g r) (hy : K g y) :
    Ret (mulAddRest l r y) (Is g ((Num.mul l r).val + y.val)) := by
  unfold mulAddRest
  split
  · rename_i h
    obtain ⟨rfl, rfl⟩ := h
    exact Ret.ok ⟨trivial, by vv⟩
  · exact Ret.ok (is_makeAdd ⟨hl, hr⟩ hy)

theorem ret_mulAddMul2 (S : Sound g o) {l r lo ro : Num} (hl : K g l) (hr : K g r)
    (hlo : K g lo) (hro : K g ro) :
    Ret (mulAddMul2 o l r lo ro) (Is g ((Num.mul l r).val + (Num.mul lo ro).val)) := by
  unfold mulAddMul2
  split
  · rop S.add
    rename_i h _ _ _
    subst h
    rend S.mul
  split
  · rop S.add
    rename_i h _ _ _
    subst h
    rend S.mul
  dsimp only
  have hrest := ret_mulAddRest hl hr (show K g (.mul lo ro) from ⟨hlo, hro⟩)
  split
  · rename_i b e _
    have hsecond : Ret (match lo with
        | .exp b2 e2 =>
          if b ≠ b2 then .error .other
          else tryNI (addExponents o b e l b2 e2 ro) (mulAddRest l (.exp b e) (.mul lo ro))
        | _ => mulAddRest l (.exp b e) (.mul lo ro))
        (Is g ((Num.mul l (.exp b e)).val + (Num.mul lo ro).val)) := by
      split
      · split
        · exact Ret.error
        · refine Ret.tryNI ((ret_addExponents S hr.1 hr.2 hl hlo.2 hro).congr ?_) hrest
          vv
      · exact hrest
    split
    · split
      · exact Ret.error
      · refine Ret.tryNI ((ret_addExponents S hr.1 hr.2 hl hro.2 hlo).congr ?_) hsecond
        vv
    · exact hsecond
  · exact hrest

theorem ret_mulAddMul (S : Sound g o) {l r lo ro : Num} (hl : K g l) (hr : K g r)
    (hlo : K g lo) (hro : K g ro) :
    Ret (mulAddMul o l r lo ro) (Is g ((Num.mul l r).val + (Num.mul lo ro).val)) := by
  unfold mulAddMul
  split
  · rop S.add
    rename_i h _ _ _
    subst h
    rend S.mul
  split
  · rop S.add
    rename_i h _ _ _
    obtain ⟨-, rfl⟩ := h
    split
    · rend S.mul
    · exact ret_mulAddMul2 S hl hr hlo hro
  · exact ret_mulAddMul2 S hl hr hlo hro

theorem ret_mulAdd (S : Sound g o) {l r y : Num} (hl : K g l) (hr : K g r) (hy : K g y) :
    Ret (mulAdd o l r y) (Is g ((Num.mul l r).val + y.val)) := by
  unfold mulAdd
  split
  · split
    · exact Ret.ok ⟨⟨hl, hr⟩, by vv⟩
    · exact Ret.ok ((is_makeAdd hy (show K g (.mul l r) from ⟨hl, hr⟩)).congr (add_comm _ _))
  · exact ret_mulAddMul S hl hr hy.1 hy.2
  · split
    · rop S.add
      rend S.add
    split
    · rop S.add
      rend S.add
    split
    · rop S.add
      rend S.add
    · exact ret_mulAddRest hl hr hy
  · rend S.add
  · rend S.add

theorem ret_mulRadd {l r : Num} (hl : K g l) (hr : K g r) (n : Int) :
    Ret (mulRadd l r n) (Is g ((Num.int n).val + (Num.mul l r).val)) := by
  unfold mulRadd
  split
  · exact Ret.ok ⟨⟨hl, hr⟩, by vv⟩
  · exact Ret.ok (is_makeAdd trivial ⟨hl, hr⟩)

theorem ret_mulSubRest (S : Sound g o) {l r y : Num} (hl : K g l) (hr : K g r) (hy : K g y) :
    Ret (mulSubRest o l r y) (Is g ((Num.mul l r).val - y.val)) := by
  unfold mulSubRest
  split
  · rop S.sub
    rename_i h _ _ _
    subst h
    rend S.mul
  · rneg S.neg
    rend S.add

theorem ret_mulSub (S : Sound g o) {l r y : Num} (hl : K g l) (hr : K g r) (hy : K g y) :
    Ret (mulSub o l r y) (Is g ((Num.mul l r).val - y.val)) := by
  unfold mulSub
  split
  · split
    · rename_i h
      obtain ⟨rfl, rfl⟩ := h
      exact Ret.ok ⟨trivial, by vv⟩
    split
    · rop S.sub
      rename_i h _ _ _
      subst h
      rend S.mul
    split
    · rop S.sub
      rename_i h _ _ _
      subst h
      rend S.mul
    · exact ret_mulSubRest S hl hr hy
  · split
    · exact Ret.ok ⟨⟨hl, hr⟩, by vv⟩
    · rend S.add
  · split
    · rename_i h
      subst h
      refine Ret.congr (S.neg hy.1) ?_
      vv
    · exact ret_mulSubRest S hl hr hy
  · exact ret_mulSubRest S hl hr hy

theorem ret_mulFdiv (flog : Int → Int → Nat) (S : Sound g o) (hg : g = true) {l r y : Num}
    (hl : K g l) (hr : K g r) (hpos : 0 < y.val) :
    Ret (mulFdiv flog o l r y) (Is g ((Num.mul l r).val / y.val)) := by
  unfold mulFdiv
  split
  · rename_i d
    have hd : 0 < d := by rw [val_int] at hpos; exact_mod_cast hpos
    have h1 : (d : ℝ) ≠ 0 := by exact_mod_cast hd.ne'
    split
    · exact Ret.ok ⟨⟨hl, hr⟩, by vv⟩
    refine Ret.bind (ret_gcd flog hd l) fun lg hlg => ?_
    split
    · obtain ⟨hq, vq⟩ := fdiv_pos hd hlg.1 hlg.2
      have h2 : (lg : ℝ) ≠ 0 := by exact_mod_cast hlg.1.ne'
      refine Ret.bind (S.fdiv hg hl (K_int lg) (val_pos hlg.1)) ?_
      rintro x ⟨kx, vx⟩
      rop S.mul
      rename_i s ks vs
      refine Ret.congr (S.fdiv hg ks (K_int _) (val_pos hq)) ?_
      rw [vs, vx, val_int (d.fdiv _), vq]
      simp only [val_int, val_mul]
      field_simp
    refine Ret.bind (ret_gcd flog hd r) fun rg hrg => ?_
    split
    · obtain ⟨hq, vq⟩ := fdiv_pos hd hrg.1 hrg.2
      have h2 : (rg : ℝ) ≠ 0 := by exact_mod_cast hrg.1.ne'
      refine Ret.bind (S.fdiv hg hr (K_int rg) (val_pos hrg.1)) ?_
      rintro x ⟨kx, vx⟩
      rop S.mul
      rename_i s ks vs
      refine Ret.congr (S.fdiv hg ks (K_int _) (val_pos hq)) ?_
      rw [vs, vx, val_int (d.fdiv _), vq]
      simp only [val_int, val_mul]
      field_simp
    · exact ret_makeDiv hg (n := .mul l r) ⟨hl, hr⟩
  · exact Ret.error

/-! ### `Div` -/

theorem ret_fdiv_int (S : Sound g o) (hg : g = true) {x : Num} {d : Int} {v : ℝ} (hx : K g x)
    (hd : 0 < d) (hv : x.val / d = v) : Ret (o.fdiv x (.int d)) (Is g v) :=
  (S.fdiv hg hx (K_int d) (val_pos hd)).congr hv

theorem ret_divNeg (S : Sound g o) {n : Num} {d : Int} (h : K g (.div n d)) :
    Ret (divNeg o n d) (Is g (-(Num.div n d).val)) := by
  obtain ⟨hg, hn, hd⟩ := h
  unfold divNeg
  rneg S.neg
  exact ret_fdiv_int S hg ‹_› hd (by vv)

theorem ret_divAdd (S : Sound g o) {n : Num} {d : Int} {y : Num} (h : K g (.div n d))
    (hy : K g y) : Ret (divAdd g o n d y) (Is g ((Num.div n d).val + y.val)) := by
  have hself := h
  obtain ⟨hg, hn, hd⟩ := h
  have hd0 : (d : ℝ) ≠ 0 := by exact_mod_cast hd.ne'
  unfold divAdd
  split
  · rename_i h
    subst h
    exact Ret.ok ⟨⟨hg, hn, hd⟩, by vv⟩
  split
  · rename_i m k _
    obtain ⟨_, hm, hk⟩ := hy
    have hk0 : (k : ℝ) ≠ 0 := by exact_mod_cast hk.ne'
    split
    · rename_i h
      subst h
      rop S.add
      exact ret_fdiv_int S hg ‹_› hd (by vv)
    split
    · refine Ret.congr (S.add ⟨hg, hm, hk⟩ ⟨hg, hn, hd⟩) ?_
      vv
    split
    · split
      · exact Ret.error
      · rename_i hs
        have hdvd : k ∣ d := by
          rw [hg] at hs
          simpa using hs
        obtain ⟨hq, vq⟩ := fdiv_pos hd hk hdvd
        rop S.mul
        rop S.add
        refine ret_fdiv_int S hg ‹_› hd ?_
        simp only [val_int, val_div, *]
        field_simp
    · rop S.mul
      rop S.mul
      rop S.add
      refine ret_fdiv_int S hg ‹_› (mul_pos hd hk) ?_
      simp only [val_int, val_div, *]
      push_cast
      field_simp
  · rop S.mul
    rop S.add
    refine ret_fdiv_int S hg ‹_› hd ?_
    simp only [val_int, val_div, *]
    field_simp

theorem ret_divRadd (S : Sound g o) {n : Num} {d : Int} (h : K g (.div n d)) (m : Int) :
    Ret (divRadd o n d m) (Is g ((Num.int m).val + (Num.div n d).val)) := by
  obtain ⟨hg, hn, hd⟩ := h
  have hd0 : (d : ℝ) ≠ 0 := by exact_mod_cast hd.ne'
  unfold divRadd
  split
  · exact Ret.ok ⟨⟨hg, hn, hd⟩, by vv⟩
  · rop S.add
    refine ret_fdiv_int S hg ‹_› hd ?_
    simp only [val_int, val_div, *]
    push_cast
    field_simp

theorem ret_divSub (S : Sound g o) {n : Num} {d : Int} {y : Num} (h : K g (.div n d))
    (hy : K g y) : Ret (divSub o n d y) (Is g ((Num.div n d).val - y.val)) := by
  have hself := h
  obtain ⟨hg, hn, hd⟩ := h
  unfold divSub
  split
  · rename_i h
    subst h
    exact Ret.ok ⟨⟨hg, hn, hd⟩, by vv⟩
  split
  · rename_i h
    subst h
    exact Ret.ok ⟨trivial, by vv⟩
  split
  · split
    · rename_i h
      subst h
      rop S.sub
      exact ret_fdiv_int S hg ‹_› hd (by vv)
    · exact Ret.error
  · refine Ret.congr (S.add trivial ⟨hg, hn, hd⟩) ?_
    vv
  · exact Ret.error

theorem ret_divMul (S : Sound g o) {n : Num} {d : Int} {y : Num} (h : K g (.div n d))
    (hy : K g y) : Ret (divMul o n d y) (Is g ((Num.div n d).val * y.val)) := by
  obtain ⟨hg, hn, hd⟩ := h
  have hd0 : (d : ℝ) ≠ 0 := by exact_mod_cast hd.ne'
  unfold divMul
  split
  · rename_i m
    split
    · rename_i h
      subst h
      refine Ret.ok ⟨hn, ?_⟩
      simp only [val_int, val_div]
      field_simp
    dsimp only
    split
    · have hc := int_gcd_pos hd m
      have hcd : ((Int.gcd d m : Nat) : Int) ∣ d := Int.gcd_dvd_left ..
      have hcm : ((Int.gcd d m : Nat) : Int) ∣ m := Int.gcd_dvd_right ..
      generalize ((Int.gcd d m : Nat) : Int) = c at *
      obtain ⟨hq, vq⟩ := fdiv_pos hd hc hcd
      have vm : ((m.fdiv c : Int) : ℝ) = (m : ℝ) / c := by
        obtain ⟨t, rfl⟩ := hcm
        rw [Int.mul_fdiv_cancel_left t hc.ne']
        have : (c : ℝ) ≠ 0 := by exact_mod_cast hc.ne'
        push_cast
        field_simp
      have hc0 : (c : ℝ) ≠ 0 := by exact_mod_cast hc.ne'
      rop S.mul
      refine ret_fdiv_int S hg ‹_› hq ?_
      simp only [val_int, val_div, *]
      field_simp
    · rop S.mul
      exact ret_fdiv_int S hg ‹_› hd (by vv)
  · rop S.mul
    exact ret_fdiv_int S hg ‹_› hd (by vv)

theorem ret_divRmul (S : Sound g o) {n : Num} {d : Int} (h : K g (.div n d)) (m : Int) :
    Ret (divRmul o n d m) (Is g ((Num.int m).val * (Num.div n d).val)) := by
  unfold divRmul
  split
  · exact Ret.ok ⟨trivial, by vv⟩
  split
  · exact Ret.ok ⟨h, by vv⟩
  split
  · refine Ret.congr (S.mul h trivial) ?_
    vv
  · refine Ret.bind (S.mul h (K_int (-m))) ?_
    rintro x ⟨kx, vx⟩
    refine Ret.congr (S.neg kx) ?_
    vv

theorem ret_divFdiv (flog : Int → Int → Nat) (S : Sound g o) {n : Num} {d : Int} {y : Num}
    (h : K g (.div n d)) (hpos : 0 < y.val) :
    Ret (divFdiv flog o n d y) (Is g ((Num.div n d).val / y.val)) := by
  obtain ⟨hg, hn, hd⟩ := h
  have hd0 : (d : ℝ) ≠ 0 := by exact_mod_cast hd.ne'
  unfold divFdiv
  split
  · rename_i k
    have hk : 0 < k := by rw [val_int] at hpos; exact_mod_cast hpos
    have hk0 : (k : ℝ) ≠ 0 := by exact_mod_cast hk.ne'
    split
    · exact Ret.ok ⟨⟨hg, hn, hd⟩, by vv⟩
    refine Ret.bind (ret_gcd flog hk n) fun c hc => ?_
    split
    · refine Ret.congr (ret_makeDiv hg hn) ?_
      simp only [val_int, val_div]
      push_cast
      field_simp
    · obtain ⟨hq, vq⟩ := fdiv_pos hk hc.1 hc.2
      have hc0 : (c : ℝ) ≠ 0 := by exact_mod_cast hc.1.ne'
      refine Ret.bind (S.fdiv hg hn (K_int c) (val_pos hc.1)) ?_
      rintro x ⟨kx, vx⟩
      refine ret_fdiv_int S hg kx (mul_pos hq hd) ?_
      rw [vx]
      push_cast
      rw [vq]
      simp only [val_int, val_div]
      field_simp
  · exact Ret.error

/-! ### `Exp` -/

theorem ret_expRadd {b : Int} {e : Num} (h : K g (.exp b e)) (n : Int) :
    Ret (expRadd b e n) (Is g ((Num.int n).val + (Num.exp b e).val)) := by
  unfold expRadd
  split
  · exact Ret.ok ⟨h, by vv⟩
  · exact Ret.ok (is_makeAdd trivial h)

theorem ret_expAdd (S : Sound g o) {b : Int} {e y : Num} (h : K g (.exp b e)) (hy : K g y) :
    Ret (expAdd o b e y) (Is g ((Num.exp b e).val + y.val)) := by
  have hb : (0 : ℝ) < b := by exact_mod_cast h.1
  have hrest : Ret (.ok (makeAdd (.exp b e) y) : R Num) (Is g ((Num.exp b e).val + y.val)) :=
    Ret.ok (is_makeAdd h hy)
  unfold expAdd
  dsimp only
  split
  · split
    · exact Ret.ok ⟨h, by vv⟩
    · exact Ret.ok ((is_makeAdd hy h).congr (add_comm _ _))
  · rename_i l r
    have hsecond : Ret (match l with
        | .exp b2 e2 =>
          if b2 ≠ b then .error .other
          else tryNI (addExponents o b e (.int 1) b2 e2 r)
            (.ok (makeAdd (.exp b e) (.mul l r)))
        | _ => .ok (makeAdd (.exp b e) (.mul l r)))
        (Is g ((Num.exp b e).val + (Num.mul l r).val)) := by
      split
      · split
        · exact Ret.error
        · refine Ret.tryNI
            ((ret_addExponents S h.1 h.2 (K_int 1) hy.1.2 hy.2).congr ?_) hrest
          vv
      · exact hrest
    split
    · split
      · exact Ret.error
      · refine Ret.tryNI
          ((ret_addExponents S h.1 h.2 (K_int 1) hy.2.2 hy.1).congr ?_) hsecond
        vv
    · exact hsecond
  · split
    · exact Ret.error
    split
    · rename_i hbb h2
      obtain ⟨rfl, rfl⟩ := h2
      have := not_not.mp hbb
      subst this
      refine Ret.bind (S.add (K_int 1) h.2) ?_
      rintro x ⟨kx, vx⟩
      refine Ret.congr (ret_makeExp S (by decide) kx) ?_
      rw [vx, val_exp, val_int, Real.rpow_add (by exact_mod_cast h.1)]
      push_cast
      rw [Real.rpow_one]
      ring
    · refine Ret.tryNI ((ret_addExponents S h.1 h.2 (K_int 1) hy.2 (K_int 1)).congr ?_) hrest
      vv
  · refine Ret.congr (S.add hy h) ?_
    vv
  · split
    · refine Ret.bind (S.add h hy.2) ?_
      rintro x ⟨kx, vx⟩
      refine Ret.congr (S.add hy.1 kx) ?_
      vv
    · exact hrest

theorem ret_expSub (S : Sound g o) {b : Int} {e y : Num} (h : K g (.exp b e)) (hy : K g y) :
    Ret (expSub o b e y) (Is g ((Num.exp b e).val - y.val)) := by
  unfold expSub
  split
  · rename_i h0
    subst h0
    exact Ret.ok ⟨h, by vv⟩
  split
  · rename_i h0
    subst h0
    exact Ret.ok ⟨trivial, by vv⟩
  split
  · split
    · exact Ret.error
    · refine Ret.congr (ret_addExponents S h.1 h.2 (K_int 1) hy.2 (K_int (-1))) ?_
      vv
  · refine Ret.ok ((is_makeAdd (K_int _) h).congr ?_)
    vv
  · refine Ret.bind (S.neg hy) ?_
    rintro x ⟨kx, vx⟩
    refine Ret.congr (S.add h kx) ?_
    vv

theorem ret_expMul (S : Sound g o) {b : Int} {e y : Num} (h : K g (.exp b e)) (hy : K g y) :
    Ret (expMul o b e y) (Is g ((Num.exp b e).val * y.val)) := by
  unfold expMul
  split
  · refine Ret.congr (S.mul hy h) ?_
    vv
  · split
    · exact Ret.error
    · rename_i hbb
      have := not_not.mp hbb
      subst this
      refine Ret.bind (S.add h.2 hy.2) ?_
      rintro x ⟨kx, vx⟩
      refine Ret.congr (ret_makeExp S h.1 kx) ?_
      rw [vx, val_exp, val_exp, Real.rpow_add (by exact_mod_cast h.1)]
  · refine Ret.bind (S.mul h hy.1) ?_
    rintro x ⟨kx, vx⟩
    refine Ret.bind (S.mul h hy.2) ?_
    rintro z ⟨kz, vz⟩
    refine Ret.congr (S.add kx kz) ?_
    vv
  · split
    · refine Ret.bind (S.mul h hy.2) ?_
      rintro x ⟨kx, vx⟩
      refine Ret.congr (S.mul hy.1 kx) ?_
      vv
    split
    · refine Ret.bind (S.mul h hy.1) ?_
      rintro x ⟨kx, vx⟩
      refine Ret.congr (S.mul kx hy.2) ?_
      vv
    split
    · refine Ret.bind (S.mul h hy.2) ?_
      rintro x ⟨kx, vx⟩
      refine Ret.congr (S.mul hy.1 kx) ?_
      vv
    · exact ret_makeMul h hy
  · exact Ret.error

theorem rpow_add_nat {b : Int} (hb : 0 < b) (x : ℝ) (i : Nat) :
    (b : ℝ) ^ (x + i) = (b : ℝ) ^ x * (b : ℝ) ^ i := by
  rw [Real.rpow_add (by exact_mod_cast hb), Real.rpow_natCast]

theorem rpow_sub_nat {b : Int} (hb : 0 < b) (x : ℝ) (i : Nat) :
    (b : ℝ) ^ (x - i) = (b : ℝ) ^ x / (b : ℝ) ^ i := by
  rw [Real.rpow_sub (by exact_mod_cast hb), Real.rpow_natCast]

theorem ret_expRmul (S : Sound g o) {b : Int} {e : Num} (h : K g (.exp b e)) (n : Int) :
    Ret (expRmul o b e n) (Is g ((Num.int n).val * (Num.exp b e).val)) := by
  unfold expRmul
  split
  · exact Ret.ok ⟨trivial, by vv⟩
  split
  · exact Ret.ok ⟨h, by vv⟩
  split
  · refine Ret.congr (ret_makeMul (K_int _) h) ?_
    vv
  split
  · exact Ret.error
  split
  · refine Ret.bind (S.mul (K_int _) h) ?_
    rintro x ⟨kx, vx⟩
    refine Ret.congr (S.neg kx) ?_
    vv
  split
  · exact ret_makeMul (K_int n) h
  · refine Ret.bind (ret_strip n b) ?_
    rintro ⟨m, i⟩ hm
    dsimp only at hm ⊢
    refine Ret.bind (S.add h.2 (K_int i)) ?_
    rintro x ⟨kx, vx⟩
    refine Ret.bind (ret_makeExp S h.1 kx) ?_
    rintro z ⟨kz, vz⟩
    refine Ret.congr (S.mul (K_int m) kz) ?_
    rw [vz, vx, hm, val_int, val_int, val_int, val_exp]
    rw [Int.cast_natCast, rpow_add_nat h.1]
    push_cast
    ring

theorem ret_expOf (S : Sound g o) {b : Int} {e : Num} (h : K g (.exp b e)) :
    Ret (expOf o b e) (Is g ((b : ℝ) ^ e.val)) := by
  unfold expOf
  split
  · rename_i h0
    subst h0
    exact Ret.ok ⟨trivial, by simp⟩
  split
  · rename_i h0
    subst h0
    exact Ret.ok ⟨trivial, by simp⟩
  · exact ret_makeExp S h.1 h.2

theorem ret_expFdiv (S : Sound g o) {b : Int} {e y : Num} (h : K g (.exp b e)) (hy : K g y)
    (hpos : 0 < y.val) : Ret (expFdiv o b e y) (Is g ((Num.exp b e).val / y.val)) := by
  have hb : (0 : ℝ) < b := by exact_mod_cast h.1
  unfold expFdiv
  split
  · rename_i d
    have hd : 0 < d := by rw [val_int] at hpos; exact_mod_cast hpos
    split
    · exact Ret.ok ⟨h, by vv⟩
    refine Ret.bind (ret_strip d b) ?_
    rintro ⟨m, i⟩ hm
    dsimp only at hm ⊢
    have hbi : 0 < b ^ i := pow_pos h.1 i
    have hm0 : 0 < m := by
      by_contra hneg
      have : m * b ^ i ≤ 0 := mul_nonpos_of_nonpos_of_nonneg (by omega) hbi.le
      omega
    refine Ret.bind (S.sub h.2 (K_int i)) ?_
    rintro x ⟨kx, vx⟩
    rw [val_int, Int.cast_natCast] at vx
    have hmr : (m : ℝ) ≠ 0 := by exact_mod_cast hm0.ne'
    have hbr : (b : ℝ) ≠ 0 := hb.ne'
    split
    · split
      · exact Ret.throw
      split
      · exact Ret.throw
      · rename_i hmod
        have hdvd : m ∣ b := Int.dvd_of_fmod_eq_zero (not_not.mp hmod)
        obtain ⟨hq, vq⟩ := fdiv_pos h.1 hm0 hdvd
        refine Ret.bind (S.sub kx (K_int 1)) ?_
        rintro z ⟨kz, vz⟩
        refine Ret.bind (ret_makeExp S h.1 kz) ?_
        rintro w ⟨kw, vw⟩
        refine Ret.congr (S.mul (K_int _) kw) ?_
        rw [vw, vz, vx, val_int, vq, val_int, val_exp, val_int, hm]
        have : (b : ℝ) ^ (e.val - (i : ℝ) - ((1 : ℤ) : ℝ)) = (b : ℝ) ^ e.val / (b : ℝ) ^ i / b := by
          push_cast
          rw [Real.rpow_sub hb, rpow_sub_nat h.1, Real.rpow_one]
        rw [this]
        push_cast
        field_simp
    · have hm1 : m = 1 := by omega
      subst hm1
      refine Ret.congr (ret_expOf S ⟨h.1, kx⟩) ?_
      rw [vx, rpow_sub_nat h.1, val_exp, val_int, hm]
      push_cast
      rw [one_mul]
  · split
    · exact Ret.error
    · rename_i b' e' hbb
      have := not_not.mp hbb
      subst this
      refine Ret.bind Ret.any fun _ _ => ?_
      split
      · exact Ret.throw
      · refine Ret.bind (S.sub h.2 hy.2) ?_
        rintro x ⟨kx, vx⟩
        refine Ret.congr (ret_expOf S ⟨h.1, kx⟩) ?_
        rw [vx, val_exp, val_exp, Real.rpow_sub hb]
  · exact Ret.error

theorem ret_expPow (S : Sound g o) {b : Int} {e y : Num} (h : K g (.exp b e)) (hy : K g y) :
    Ret (expPow o b e y) (Is g ((Num.exp b e).val ^ y.val)) := by
  have hb : (0 : ℝ) < b := by exact_mod_cast h.1
  unfold expPow
  refine Ret.bind (S.mul h.2 hy) ?_
  rintro x ⟨kx, vx⟩
  refine Ret.congr (ret_makeExp S h.1 kx) ?_
  rw [vx, val_exp, Real.rpow_mul hb.le]

/-! ### All of them -/

theorem Sound.step (flog : Int → Int → Nat) (S : Sound g o) : Sound g (o.step flog g) where
  add {a b} ha hb := by
    simp only [Ops.step]
    split
    · split
      · exact Ret.ok ⟨trivial, by vv⟩
      · exact ret_addRadd S hb.1 hb.2 _
      · exact ret_mulRadd hb.1 hb.2 _
      · exact ret_divRadd S hb _
      · exact ret_expRadd hb _
    · exact ret_addAdd S ha.1 ha.2 hb
    · exact ret_mulAdd S ha.1 ha.2 hb
    · exact ret_divAdd S ha hb
    · exact ret_expAdd S ha hb
  sub {a b} ha hb := by
    simp only [Ops.step]
    split
    · split
      · exact Ret.ok ⟨trivial, by vv⟩
      · refine Ret.bind (S.neg hb) ?_
        rintro x ⟨kx, vx⟩
        refine Ret.congr (S.add trivial kx) ?_
        vv
    · exact ret_addSub S ha.1 ha.2 hb
    · exact ret_mulSub S ha.1 ha.2 hb
    · exact ret_divSub S ha hb
    · exact ret_expSub S ha hb
  mul {a b} ha hb := by
    simp only [Ops.step]
    split
    · split
      · exact Ret.ok ⟨trivial, by vv⟩
      · exact ret_addRmul S hb.1 hb.2 _
      · exact ret_mulRmul S hb.1 hb.2 _
      · exact ret_divRmul S hb _
      · exact ret_expRmul S hb _
    · exact ret_addMul S ha.1 ha.2 hb
    · exact ret_mulMul S ha.1 ha.2 hb
    · exact ret_divMul S ha hb
    · exact ret_expMul S ha hb
  neg {a} ha := by
    simp only [Ops.step]
    split
    · exact Ret.ok ⟨trivial, by vv⟩
    · exact ret_addNeg S ha.1 ha.2
    · exact ret_mulNeg S ha.1 ha.2
    · exact ret_divNeg S ha
    · refine Ret.congr (S.mul (K_int (-1)) ha) ?_
      vv
  fdiv hg {a b} ha hb hpos := by
    simp only [Ops.step]
    split
    · split
      · unfold intFdiv
        split
        · exact Ret.error
        split
        · exact Ret.error
        · rename_i _ n _ d hd0 hs
          have hdvd : d ∣ n := by
            rw [hg] at hs
            simpa using hs
          refine Ret.ok ⟨trivial, ?_⟩
          obtain ⟨k, rfl⟩ := hdvd
          rw [val_int, val_int, val_int, Int.mul_fdiv_cancel_left k hd0]
          have : (d : ℝ) ≠ 0 := by exact_mod_cast hd0
          push_cast
          field_simp
      · exact Ret.error
    · exact ret_addFdiv flog S hg ha.1 ha.2 hpos
    · exact ret_mulFdiv flog S hg ha.1 ha.2 hpos
    · exact ret_divFdiv flog S ha hpos
    · exact ret_expFdiv S ha hb hpos

theorem sound_ops (flog : Int → Int → Nat) (g : Bool) (n : Nat) : Sound g (ops flog g n) := by
  induction n with
  | zero => exact Sound.fail g
  | succ n ih => exact ih.step flog

end Sym
end BB
