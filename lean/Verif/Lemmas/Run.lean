import Verif.Spec.TM
import Mathlib.Tactic.ByContra
import Mathlib.Tactic.Common

/-! # General facts about runs of the specification machine -/

namespace BB

theorem runFor_add (p : Prog) (m n : Nat) (c : Cfg) :
    runFor p (m + n) c = (runFor p m c).bind (runFor p n) := by
  induction m generalizing c with
  | zero => simp [runFor]
  | succ m ih =>
    rw [Nat.succ_add]
    simp only [runFor]
    cases step p c with
    | none => rfl
    | some d => simp [ih]

theorem runFor_one (p : Prog) (c : Cfg) : runFor p 1 c = step p c := by
  simp only [runFor]; cases step p c <;> rfl

theorem runFor_succ' (p : Prog) (n : Nat) (c : Cfg) :
    runFor p (n + 1) c = (runFor p n c).bind (step p) := by
  rw [runFor_add]; congr 1; funext d; exact runFor_one p d

theorem runFor_trans {p : Prog} {m n : Nat} {c d e : Cfg}
    (h1 : runFor p m c = some d) (h2 : runFor p n d = some e) :
    runFor p (m + n) c = some e := by
  rw [runFor_add, h1]; exact h2

theorem step_some {p : Prog} {c : Cfg} {i : Instr} (h : p c.slot = some i) :
    step p c = some (c.exec i) := by
  simp [step, h]

theorem step_none {p : Prog} {c : Cfg} (h : p c.slot = none) : step p c = none := by
  simp [step, h]

theorem runFor_isSome_of_le {p : Prog} {m n : Nat} {c : Cfg} (hmn : m ≤ n)
    (h : (runFor p n c).isSome) : (runFor p m c).isSome := by
  obtain ⟨k, rfl⟩ := Nat.exists_eq_add_of_le hmn
  rw [runFor_add] at h
  cases hc : runFor p m c with
  | none => rw [hc] at h; simp at h
  | some d => rfl

theorem neverHalts_of_unbounded {p : Prog} {c : Cfg}
    (h : ∀ n, ∃ m, n ≤ m ∧ (runFor p m c).isSome) : NeverHalts p c := by
  intro n
  obtain ⟨m, hm, hs⟩ := h n
  exact runFor_isSome_of_le hm hs

theorem NeverHalts.of_later {p : Prog} {c d : Cfg} {n : Nat}
    (h : runFor p n c = some d) (hd : NeverHalts p d) : NeverHalts p c := by
  apply neverHalts_of_unbounded
  intro m
  refine ⟨n + m, Nat.le_add_left _ _, ?_⟩
  rw [runFor_add, h]
  exact hd m

theorem NeverHalts.later {p : Prog} {c d : Cfg} {n : Nat}
    (h : runFor p n c = some d) (hc : NeverHalts p c) : NeverHalts p d := by
  intro m
  have := hc (n + m)
  rw [runFor_add, h] at this
  exact this

/-- An invariant that always lets the machine make a positive number of moves
means it never halts. -/
theorem neverHalts_of_invariant {p : Prog} (Inv : Cfg → Prop)
    (hstep : ∀ c, Inv c → ∃ n d, 0 < n ∧ runFor p n c = some d ∧ Inv d)
    {c : Cfg} (hc : Inv c) : NeverHalts p c := by
  apply neverHalts_of_unbounded
  intro n
  suffices h : ∃ m d, n ≤ m ∧ runFor p m c = some d ∧ Inv d by
    obtain ⟨m, d, h1, h2, _⟩ := h
    exact ⟨m, h1, by rw [h2]; rfl⟩
  induction n with
  | zero => exact ⟨0, c, Nat.le_refl _, rfl, hc⟩
  | succ n ih =>
    obtain ⟨m, d, h1, h2, h3⟩ := ih
    obtain ⟨k, e, k1, k2, k3⟩ := hstep d h3
    exact ⟨m + k, e, by omega, runFor_trans h2 k2, k3⟩

theorem neverHalts_iff_not_haltsAt {p : Prog} {c : Cfg} :
    NeverHalts p c ↔ ¬ ∃ n s, HaltsAt p c n s := by
  constructor
  · rintro h ⟨n, s, d, h1, h2, h3⟩
    have := h (n + 1)
    rw [runFor_succ', h1] at this
    subst h2
    simp [step_none h3] at this
  · intro h n
    induction n with
    | zero => rfl
    | succ n ih =>
      obtain ⟨d, hd⟩ := Option.isSome_iff_exists.mp ih
      rw [runFor_succ', hd]
      cases hp : p d.slot with
      | none => exact absurd ⟨n, d.slot, d, hd, rfl, hp⟩ h
      | some i => simp [step_some hp]

/-- The halting point is unique. -/
theorem HaltsAt.unique {p : Prog} {c : Cfg} {n m : Nat} {s t : Slot}
    (h1 : HaltsAt p c n s) (h2 : HaltsAt p c m t) : n = m ∧ s = t := by
  obtain ⟨d, hd, hs, hn⟩ := h1
  obtain ⟨e, he, ht, hm⟩ := h2
  have key : ∀ {a b : Nat} {x y : Cfg} {u : Slot}, runFor p a c = some x → x.slot = u →
      p u = none → runFor p b c = some y → b ≤ a := by
    intro a b x y u hx hu hp hy
    by_contra hlt
    have hlt : a + 1 ≤ b := by omega
    have := runFor_isSome_of_le (p := p) (c := c) hlt (by rw [hy]; rfl)
    rw [runFor_succ', hx] at this
    subst hu
    simp [step_none hp] at this
  have a1 := key hd hs hn he
  have a2 := key he ht hm hd
  have : n = m := by omega
  subst this
  rw [hd] at he
  cases he
  exact ⟨rfl, hs.symm.trans ht⟩

/-! ## Translation -/

/-- Move everything `k` cells to the right. -/
def Cfg.translate (c : Cfg) (k : Int) : Cfg :=
  ⟨c.state, c.pos + k, fun x => c.tape (x - k)⟩

theorem Cfg.slot_translate (c : Cfg) (k : Int) : (c.translate k).slot = c.slot := by
  simp [Cfg.slot, Cfg.translate]

theorem Cfg.exec_translate (c : Cfg) (k : Int) (i : Instr) :
    (c.translate k).exec i = (c.exec i).translate k := by
  simp only [Cfg.exec, Cfg.translate, Cfg.mk.injEq, true_and]
  constructor
  · split <;> omega
  · funext x
    have : x = c.pos + k ↔ x - k = c.pos := by omega
    simp only [this]

theorem step_translate (p : Prog) (c : Cfg) (k : Int) :
    step p (c.translate k) = (step p c).map (·.translate k) := by
  simp only [step, Cfg.slot_translate]
  cases p c.slot with
  | none => rfl
  | some i => simp [Cfg.exec_translate]

theorem runFor_translate (p : Prog) (n : Nat) (c : Cfg) (k : Int) :
    runFor p n (c.translate k) = (runFor p n c).map (·.translate k) := by
  induction n generalizing c with
  | zero => rfl
  | succ n ih =>
    simp only [runFor, step_translate]
    cases step p c with
    | none => rfl
    | some d => simp [ih]

end BB
