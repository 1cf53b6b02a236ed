import Verif.Lemmas.Sweeps
import Verif.Props.Reason
import Verif.Lemmas.IdrisDouble

/-! # Settling into one slot is spinning out -/

namespace BB

/-- Far cells are blank. -/
theorem runFor_far {p : Prog} (n : Nat) (c : Cfg) (h : runFor p n initCfg = some c) :
    (-(n : Int) ≤ c.pos ∧ c.pos ≤ n) ∧ ∀ x : Int, x < -n ∨ (n : Int) < x → c.tape x = 0 := by
  induction n generalizing c with
  | zero =>
    cases h
    exact ⟨⟨by simp [initCfg], by simp [initCfg]⟩, fun _ _ => rfl⟩
  | succ n ih =>
    rw [runFor_succ'] at h
    obtain ⟨d, hd, h⟩ := Option.bind_eq_some_iff.1 h
    obtain ⟨⟨h1, h2⟩, h3⟩ := ih d hd
    simp only [step] at h
    obtain ⟨⟨col, dir, q⟩, -, rfl⟩ := Option.map_eq_some_iff.1 h
    simp only [Cfg.exec]
    refine ⟨?_, fun x hx => ?_⟩
    · cases dir <;> simp <;> omega
    · rw [if_neg (by omega)]
      exact h3 x (by omega)

/-- A machine that settles into one slot has spun out. -/
theorem spinsOut_of_recurs {p : Prog} {n : Nat} {c : Cfg} (h : RecursFrom p n 1)
    (hc : runFor p n initCfg = some c) : SpinsOut p c := by
  obtain ⟨f, hf⟩ := h.neverHalts.run
  obtain ⟨k, hk⟩ := h.fn hf
  have hfc : f n = c := by
    have := hf n
    rw [hc] at this
    exact (Option.some.inj this).symm
  have hslot : ∀ j, (f (n + j)).slot = c.slot := by
    intro j
    induction j with
    | zero => rw [Nat.add_zero, hfc]
    | succ j ih => rw [← Nat.add_assoc, (hk (n + j) (by omega)).1, ih]
  obtain ⟨⟨col, dir, q⟩, hi⟩ : ∃ i, p c.slot = some i := by
    by_contra hcon
    have hnone : p c.slot = none := by
      cases hp : p c.slot with
      | none => rfl
      | some i => exact absurd ⟨i, hp⟩ hcon
    exact neverHalts_iff_not_haltsAt.1 h.neverHalts ⟨n, _, c, hc, rfl, hnone⟩
  have hstep : ∀ j, f (n + j + 1) = (f (n + j)).exec (col, dir, q) := by
    intro j
    have h1 := hf (n + j + 1)
    rw [runFor_succ', hf (n + j), Option.bind_some, step_some (by rw [hslot j]; exact hi)] at h1
    exact (Option.some.inj h1).symm
  have hq : q = c.state := by
    have h1 := hslot 1
    rw [show n + 1 = n + 0 + 1 from rfl, hstep 0] at h1
    simpa [Cfg.exec, Cfg.slot] using congrArg Prod.fst h1
  subst hq
  -- positions, and cells ahead
  have hpos : ∀ j : Nat, (f (n + j)).pos = (if dir then c.pos + j else c.pos - j) ∧
      ∀ x, (if dir then c.pos + (j : Int) ≤ x else x ≤ c.pos - (j : Int)) →
        (f (n + j)).tape x = c.tape x := by
    intro j
    induction j with
    | zero =>
      rw [Nat.add_zero, hfc]
      exact ⟨by cases dir <;> simp, fun _ _ => rfl⟩
    | succ j ih =>
      obtain ⟨ih1, ih2⟩ := ih
      rw [← Nat.add_assoc, hstep j]
      cases dir
      · simp only [Bool.false_eq_true, if_false] at ih1 ih2 ⊢
        refine ⟨by simp only [Cfg.exec, Bool.false_eq_true, if_false]; omega, fun x hx => ?_⟩
        simp only [Cfg.exec]
        rw [if_neg (by omega)]
        exact ih2 x (by omega)
      · simp only [if_true] at ih1 ih2 ⊢
        refine ⟨by simp only [Cfg.exec, if_true]; omega, fun x hx => ?_⟩
        simp only [Cfg.exec]
        rw [if_neg (by omega)]
        exact ih2 x (by omega)
  have hcell : ∀ j : Nat, c.tape (if dir then c.pos + j else c.pos - j) = c.tape c.pos := by
    intro j
    obtain ⟨h1, h2⟩ := hpos j
    have h3 := congrArg Prod.snd (hslot j)
    simp only [Cfg.slot] at h3
    rw [← h3, h1]
    refine (h2 _ ?_).symm
    cases dir <;> simp
  have h0 : c.tape c.pos = 0 := by
    obtain ⟨⟨h1, h2⟩, h3⟩ := runFor_far n c hc
    rw [← hcell (2 * n + 1)]
    apply h3
    cases dir <;> simp <;> omega
  refine ⟨col, dir, ?_, h0, fun x hx => ?_⟩
  · rw [← h0]
    exact hi
  · cases dir
    · simp only [Bool.false_eq_true, if_false] at hx hcell
      have := hcell (c.pos - x).toNat
      rwa [show c.pos - ((c.pos - x).toNat : Int) = x by omega, h0] at this
    · simp only [if_true] at hx hcell
      have := hcell (x - c.pos).toNat
      rwa [show c.pos + ((x - c.pos).toNat : Int) = x by omega, h0] at this

theorem recurs_of_spinsOut {p : Prog} {n : Nat} {c : Cfg} (hc : runFor p n initCfg = some c)
    (h : SpinsOut p c) : RecursFrom p n 1 := by
  obtain ⟨print, dir, h1, h2, h3⟩ := h
  refine Idris.recursFrom_spin hc ⟨print, dir, h1, fun k => ?_⟩
  rcases Nat.eq_zero_or_pos k with rfl | hk
  · cases dir <;> simpa using h2
  · apply h3
    cases dir <;> simp <;> omega

end BB
