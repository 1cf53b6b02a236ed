/-
What a symbolic number stands for.

`Num.val` is the real number a term denotes, with `//` read as exact division and `**` as the real
power.  It does not mention any of the operators.  `Num.Exact` says that each `//` in a term is exact,
and under it `int(x)` is `Num.val x` (`Num.val_toInt`).
-/
import Mathlib.Analysis.SpecialFunctions.Pow.Real
import Verif.Model.Num

namespace BB
namespace Sym

/-- The number a term denotes. -/
noncomputable def Num.val : Num → ℝ
  | .int n => n
  | .add l r => l.val + r.val
  | .mul l r => l.val * r.val
  | .div n d => n.val / d
  | .exp b e => (b : ℝ) ^ e.val

/-- Bases and denominators are positive. -/
def Num.WF : Num → Prop
  | .int _ => True
  | .add l r => l.WF ∧ r.WF
  | .mul l r => l.WF ∧ r.WF
  | .div n d => n.WF ∧ 0 < d
  | .exp b e => 0 < b ∧ e.WF

/-- There is no `//`. -/
def Num.DivFree : Num → Prop
  | .int _ => True
  | .add l r => l.DivFree ∧ r.DivFree
  | .mul l r => l.DivFree ∧ r.DivFree
  | .div _ _ => False
  | .exp _ e => e.DivFree

/-- Every `//` is exact. -/
def Num.Exact : Num → Prop
  | .int _ => True
  | .add l r => l.Exact ∧ r.Exact
  | .mul l r => l.Exact ∧ r.Exact
  | .div n d => n.Exact ∧ ∀ z, n.toInt = some z → d ∣ z
  | .exp _ e => e.Exact

theorem Num.DivFree.exact {a : Num} (h : a.DivFree) : a.Exact := by
  induction a with
  | int n => trivial
  | add l r ihl ihr => exact ⟨ihl h.1, ihr h.2⟩
  | mul l r ihl ihr => exact ⟨ihl h.1, ihr h.2⟩
  | div n d ih => exact absurd h (by simp [Num.DivFree])
  | exp b e ih => exact ih h

/-- `int(x)` is the number the term denotes. -/
theorem Num.val_toInt {a : Num} (hw : a.WF) (he : a.Exact) {z : Int} (h : a.toInt = some z) :
    a.val = z := by
  induction a generalizing z with
  | int n => simp only [Num.toInt, Option.some.injEq] at h; simp [Num.val, h]
  | add l r ihl ihr =>
    simp only [Num.toInt, Option.bind_eq_bind, Option.bind_eq_some_iff, Option.pure_def,
      Option.some.injEq] at h
    obtain ⟨x, hx, y, hy, rfl⟩ := h
    simp [Num.val, ihl hw.1 he.1 hx, ihr hw.2 he.2 hy]
  | mul l r ihl ihr =>
    simp only [Num.toInt, Option.bind_eq_bind, Option.bind_eq_some_iff, Option.pure_def,
      Option.some.injEq] at h
    obtain ⟨x, hx, y, hy, rfl⟩ := h
    simp [Num.val, ihl hw.1 he.1 hx, ihr hw.2 he.2 hy]
  | div n d ih =>
    simp only [Num.toInt, Option.bind_eq_bind, Option.bind_eq_some_iff, Option.pure_def,
      Option.some.injEq] at h
    obtain ⟨x, hx, rfl⟩ := h
    obtain ⟨k, rfl⟩ := he.2 x hx
    have hd : d ≠ 0 := ne_of_gt hw.2
    rw [Num.val, ih hw.1 he.1 hx, Int.mul_fdiv_cancel_left k hd]
    have : (d : ℝ) ≠ 0 := by exact_mod_cast hd
    push_cast
    field_simp
  | exp b e ih =>
    simp only [Num.toInt, Option.bind_eq_bind, Option.bind_eq_some_iff] at h
    obtain ⟨k, hk, h⟩ := h
    split at h
    · cases h
    · rename_i hk0
      cases h
      rw [Num.val, ih hw.2 he hk]
      have : ((k : ℤ) : ℝ) = ((k.toNat : ℕ) : ℝ) := by
        have : (k.toNat : ℤ) = k := Int.toNat_of_nonneg (by omega)
        exact_mod_cast this.symm
      rw [this, Real.rpow_natCast]
      push_cast
      rfl

end Sym
end BB
