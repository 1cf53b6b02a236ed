import Verif.Lemmas.Run

/-!
# Head-relative tapes

`(l, s, r)`: cells to the left (nearest first), scanned cell, cells to the right.
Used only in proofs; tied to the ℤ-tape by `RT.at`.
-/

namespace BB

/-- Put a cell in front of a half tape. -/
def hcons (c : Color) (f : Nat → Color) : Nat → Color
  | 0 => c
  | n + 1 => f n

/-- Drop the nearest cell of a half tape. -/
def htail (f : Nat → Color) : Nat → Color := fun n => f (n + 1)

@[simp] theorem hcons_zero (c f) : hcons c f 0 = c := rfl
@[simp] theorem hcons_succ (c f n) : hcons c f (n + 1) = f n := rfl
@[simp] theorem htail_hcons (c f) : htail (hcons c f) = f := rfl
theorem hcons_htail (f : Nat → Color) : hcons (f 0) (htail f) = f := by
  funext n; cases n <;> rfl

structure RT where
  l : Nat → Color
  s : Color
  r : Nat → Color

/-- The ℤ-tape of a relative tape whose head stands at `pos`. -/
def RT.at (t : RT) (pos : Int) : Int → Color := fun x =>
  if x = pos then t.s
  else if pos < x then t.r (x - pos - 1).toNat
  else t.l (pos - x - 1).toNat

def RT.move (t : RT) (shift : Bool) (c : Color) : RT :=
  if shift then ⟨hcons c t.l, t.r 0, htail t.r⟩
  else ⟨htail t.l, t.l 0, hcons c t.r⟩

/-- Signed displacement of `n` moves. -/
def disp (shift : Bool) (n : Nat) : Int := if shift then (n : Int) else -(n : Int)

theorem disp_succ (shift : Bool) (n : Nat) :
    disp shift (n + 1) = disp shift 1 + disp shift n := by
  cases shift <;> simp [disp] <;> omega

theorem disp_add (shift : Bool) (m n : Nat) :
    disp shift (m + n) = disp shift m + disp shift n := by
  cases shift <;> simp [disp]; omega

theorem RT.at_pos (t : RT) (pos : Int) : t.at pos pos = t.s := by simp [RT.at]

theorem RT.exec (t : RT) (q q' : State) (pos : Int) (shift : Bool) (c : Color) :
    Cfg.exec ⟨q, pos, t.at pos⟩ (c, shift, q')
      = ⟨q', pos + disp shift 1, (t.move shift c).at (pos + disp shift 1)⟩ := by
  cases shift
  · simp only [Cfg.exec, disp, RT.move, Bool.false_eq_true, if_false, Cfg.mk.injEq, true_and]
    constructor
    · omega
    · funext x
      simp only [RT.at]
      rcases Int.lt_trichotomy x (pos - 1) with h | h | h
      · have e : (pos - x - 1).toNat = (pos + -((1:Nat):Int) - x - 1).toNat + 1 := by omega
        rw [if_neg (by omega), if_neg (by omega), if_neg (by omega), if_neg (by omega),
          if_neg (by omega), e]
        rfl
      · rw [if_neg (by omega), if_neg (by omega), if_neg (by omega), if_pos (by omega)]
        have e : (pos - x - 1).toNat = 0 := by omega
        rw [e]
      · rw [if_neg (show ¬ x = pos + -((1:Nat):Int) by omega),
          if_pos (show pos + -((1:Nat):Int) < x by omega)]
        by_cases hx : x = pos
        · rw [if_pos hx]
          have e : (x - (pos + -((1:Nat):Int)) - 1).toNat = 0 := by omega
          rw [e]; rfl
        · rw [if_neg hx, if_neg hx, if_pos (by omega)]
          have e : (x - (pos + -((1:Nat):Int)) - 1).toNat = (x - pos - 1).toNat + 1 := by omega
          rw [e]; rfl
  · simp only [Cfg.exec, disp, RT.move, if_true, Cfg.mk.injEq, true_and]
    constructor
    · omega
    · funext x
      simp only [RT.at]
      rcases Int.lt_trichotomy x (pos + 1) with h | h | h
      · rw [if_neg (show ¬ x = pos + ((1:Nat):Int) by omega),
          if_neg (show ¬ pos + ((1:Nat):Int) < x by omega)]
        by_cases hx : x = pos
        · rw [if_pos hx]
          have e : (pos + ((1:Nat):Int) - x - 1).toNat = 0 := by omega
          rw [e]; rfl
        · rw [if_neg hx, if_neg hx, if_neg (by omega)]
          have e : (pos + ((1:Nat):Int) - x - 1).toNat = (pos - x - 1).toNat + 1 := by omega
          rw [e]; rfl
      · rw [if_neg (by omega), if_neg (by omega), if_pos (by omega), if_pos (by omega)]
        have e : (x - pos - 1).toNat = 0 := by omega
        rw [e]
      · have e : (x - pos - 1).toNat = (x - (pos + ((1:Nat):Int)) - 1).toNat + 1 := by omega
        rw [if_neg (by omega), if_neg (by omega), if_pos (by omega), if_neg (by omega),
          if_pos (by omega), e]
        rfl

/-- One specification move, in relative form. -/
theorem RT.step {p : Prog} {q q' : State} {t : RT} {pos : Int} {shift : Bool} {c : Color}
    (h : p (q, t.s) = some (c, shift, q')) :
    step p ⟨q, pos, t.at pos⟩
      = some ⟨q', pos + disp shift 1, (t.move shift c).at (pos + disp shift 1)⟩ := by
  have hs : (Cfg.slot ⟨q, pos, t.at pos⟩) = (q, t.s) := by simp [Cfg.slot, RT.at_pos]
  rw [step_some (hs ▸ h), RT.exec]

theorem RT.at_inj {t u : RT} {pos : Int} (h : t.at pos = u.at pos) : t = u := by
  have hs : t.s = u.s := by rw [← t.at_pos pos, h, u.at_pos]
  have hr : t.r = u.r := by
    funext n
    have := congrFun h (pos + 1 + n)
    simp only [RT.at] at this
    rw [if_neg (show ¬ pos + 1 + (n:Int) = pos by omega),
      if_pos (show pos < pos + 1 + (n:Int) by omega),
      if_neg (show ¬ pos + 1 + (n:Int) = pos by omega),
      if_pos (show pos < pos + 1 + (n:Int) by omega)] at this
    have e : (pos + 1 + (n:Int) - pos - 1).toNat = n := by omega
    rwa [e] at this
  have hl : t.l = u.l := by
    funext n
    have := congrFun h (pos - 1 - n)
    simp only [RT.at] at this
    rw [if_neg (by omega), if_neg (by omega), if_neg (by omega), if_neg (by omega)] at this
    have e : (pos - (pos - 1 - (n:Int)) - 1).toNat = n := by omega
    rwa [e] at this
  cases t; cases u; simp_all

end BB
