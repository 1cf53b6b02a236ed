import Verif.Model.Normalize
import Verif.Model.Tree
import Verif.Lemmas.Quick

/-! # `run_for_undefined`, in both languages -/

namespace BB

/-- A spin-out at the edge of the tape never halts. -/
theorem neverHalts_of_edge {p : Prog} {t : Tape} {q q' : State} {color : Color} {shift : Bool}
    (hc : t.Canonical) (hp : p (q, t.scan) = some (color, shift, q'))
    (he : ((q == q') && t.atEdge shift) = true) (pos : Int) : NeverHalts p (t.cfg q pos) := by
  simp only [Bool.and_eq_true, beq_iff_eq] at he
  obtain ⟨rfl, he⟩ := he
  refine neverHalts_spinout (col := color) (shift := shift) ?_ ?_
  · have hz : t.scan = 0 := by
      simp only [Tape.atEdge, Bool.and_eq_true, beq_iff_eq] at he; exact he.1
    rw [hz] at hp; exact hp
  · intro k
    cases shift
    · exact (hc.atEdge_left_iff pos).mp he _ (by simp [Tape.cfg, disp])
    · exact (hc.atEdge_right_iff pos).mp he _ (by simp [Tape.cfg, disp])

theorem Tape.slot_cfg (t : Tape) (q : State) (pos : Int) : (t.cfg q pos).slot = (q, t.scan) := by
  simp [Cfg.slot, Tape.cfg, t.cells_pos]

theorem pyRunUndef_spec (p : Prog) (fuel : Nat) (t : Tape) (q : State) (steps : Nat)
    (hc : t.Canonical) (hrun : ∃ pos, runFor p steps initCfg = some (t.cfg q pos)) :
    (∀ n slot, pyRunUndef p fuel t q steps = some (n, slot) → HaltsAt p initCfg n slot) ∧
    (pyRunUndef p fuel t q steps = none →
      NeverHalts p initCfg ∨ (runFor p (steps + fuel) initCfg).isSome) := by
  induction fuel generalizing t q steps with
  | zero =>
    obtain ⟨pos, hrun⟩ := hrun
    refine ⟨by simp [pyRunUndef], fun _ => .inr ?_⟩
    rw [Nat.add_zero, hrun]
    rfl
  | succ fuel ih =>
    obtain ⟨pos, hrun⟩ := hrun
    simp only [pyRunUndef]
    cases hp : p (q, t.scan) with
    | none =>
      refine ⟨?_, by simp⟩
      rintro n slot h
      simp only [Option.some.injEq, Prod.mk.injEq] at h
      obtain ⟨rfl, rfl⟩ := h
      exact ⟨_, hrun, t.slot_cfg q pos, hp⟩
    | some i =>
      obtain ⟨color, shift, q'⟩ := i
      simp only
      by_cases he : ((q == q') && t.atEdge shift) = true
      · simp only [he, if_true]
        exact ⟨by simp, fun _ => .inl (NeverHalts.of_later hrun (neverHalts_of_edge hc hp he pos))⟩
      · simp only [he]
        rw [py_step_eq_rs_step t hc.l.posCounts hc.r.posCounts]
        obtain ⟨k1, k2, k3, -, -⟩ := Rs.step_full hc hp he pos
        obtain ⟨i1, i2⟩ := ih _ q' (steps + (Rs.step t shift color (q == q')).2) k2
          ⟨_, runFor_trans hrun k3⟩
        refine ⟨i1, fun hn => ?_⟩
        rcases i2 hn with h | h
        · exact .inl h
        · exact .inr (runFor_isSome_of_le (by omega) h)

/-- What the Rust version establishes, started after `steps` steps. -/
theorem rsRunUndef_spec (p : Prog) (fuel : Nat) (t : Tape) (q : State) (steps : Nat)
    (hc : t.Canonical) (hrun : ∃ pos, runFor p steps initCfg = some (t.cfg q pos)) :
    (rsRunUndef p fuel q t).2.Canonical ∧
    (∀ slot, (rsRunUndef p fuel q t).1 = .undef slot →
      slot.2 = (rsRunUndef p fuel q t).2.scan ∧ p slot = none ∧
      ∃ n pos, steps ≤ n ∧ runFor p n initCfg = some ((rsRunUndef p fuel q t).2.cfg slot.1 pos)) ∧
    ((rsRunUndef p fuel q t).1 = .err →
      NeverHalts p initCfg ∨ ∃ r n, steps < n ∧ BlankAt p r n) ∧
    ((rsRunUndef p fuel q t).1 = .lim → (runFor p (steps + fuel) initCfg).isSome) := by
  induction fuel generalizing t q steps with
  | zero =>
    obtain ⟨pos, hrun⟩ := hrun
    refine ⟨hc, by simp [rsRunUndef], by simp [rsRunUndef], fun _ => ?_⟩
    rw [Nat.add_zero, hrun]
    rfl
  | succ fuel ih =>
    obtain ⟨pos, hrun⟩ := hrun
    simp only [rsRunUndef]
    cases hp : p (q, t.scan) with
    | none =>
      refine ⟨hc, ?_, by simp, by simp⟩
      rintro slot h
      simp only [UndefRes.undef.injEq] at h
      subst h
      exact ⟨rfl, hp, steps, pos, Nat.le_refl _, hrun⟩
    | some i =>
      obtain ⟨color, shift, q'⟩ := i
      simp only
      by_cases he : ((q == q') && t.atEdge shift) = true
      · simp only [he, if_true]
        exact ⟨hc, by simp, fun _ => .inl (NeverHalts.of_later hrun
          (neverHalts_of_edge hc hp he pos)), by simp⟩
      · simp only [he]
        obtain ⟨k1, k2, k3, -, -⟩ := Rs.step_full hc hp he pos
        have hrun' := runFor_trans hrun k3
        by_cases hb : (Rs.step t shift color (q == q')).1.blank = true
        · simp only [hb, if_true]
          refine ⟨k2, by simp, fun _ => .inr ⟨q', _, ?_, _, hrun', rfl, (k2.blank_iff _).mp hb⟩,
            by simp⟩
          omega
        · simp only [hb]
          obtain ⟨i1, i2, i3, i4⟩ := ih _ q' (steps + (Rs.step t shift color (q == q')).2) k2
            ⟨_, hrun'⟩
          refine ⟨i1, ?_, ?_, ?_⟩
          · intro slot h
            obtain ⟨j1, j2, n, pos', j3, j4⟩ := i2 slot h
            exact ⟨j1, j2, n, pos', by omega, j4⟩
          · intro h
            rcases i3 h with h | ⟨r, n, h1, h2⟩
            · exact .inl h
            · exact .inr ⟨r, n, by omega, h2⟩
          · intro h
            exact runFor_isSome_of_le (by omega) (i4 h)

end BB
