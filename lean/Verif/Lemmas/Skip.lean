import Verif.Lemmas.Forever

/-! # How far a skip goes, and what happens in the middle of it -/

namespace BB

theorem Rs.step_stepped {t : Tape} (ht : t.Canonical) (shift : Bool) (c : Color) (skip : Bool)
    (pos : Int) :
    (skip = false → (Rs.step t shift c skip).2 = 1) ∧
    (skip = true → ¬ (t.atEdge shift = true) →
      (∀ k : Nat, k < (Rs.step t shift c skip).2 → t.cells pos (pos + disp shift k) = t.scan) ∧
      t.cells pos (pos + disp shift (Rs.step t shift c skip).2) ≠ t.scan) := by
  have aux : ∀ s : List Block, Canon s → (s = [] → t.scan ≠ 0) →
      (∀ k : Nat, k + 1 < (Rs.pull s t.scan true).2.1 → half s k = t.scan) ∧
      half s ((Rs.pull s t.scan true).2.1 - 1) ≠ t.scan := by
    intro s hs he
    cases s with
    | nil => simpa [Rs.pull] using (he rfl).symm
    | cons b rest =>
      obtain ⟨d, n⟩ := b
      by_cases h : d = t.scan
      · rw [Rs.pull_skip (by simpa using h)]
        subst h
        refine ⟨fun k hk => ?_, ?_⟩
        · rw [half_cons, hrep_apply, if_pos (by simp at hk ⊢; omega)]
        · have := hs.half_head
          simpa using this
      · rw [Rs.pull_noskip (by intro b r e; injection e with e1 e2; subst e1; simpa using h)]
        refine ⟨fun k hk => by simp at hk, ?_⟩
        have hn : 1 ≤ n := hs.posCounts ⟨d, n⟩ (by simp)
        simp only [Nat.sub_self]
        rw [half_cons, hrep_apply, if_pos (by exact hn)]
        exact h
  constructor
  · intro hk
    subst hk
    cases shift <;> simp only [Rs.step, if_true, Bool.false_eq_true, if_false] <;>
      rw [Rs.pull_noskip (by simp)]
  · intro hk hedge
    subst hk
    cases shift
    · have hpos := Rs.pull_stepped_pos t.lspan t.scan true
      obtain ⟨h1, h2⟩ := aux t.lspan ht.l (by
        intro e hz; apply hedge; simp [Tape.atEdge, e, hz])
      have e : (Rs.step t false c true).2 = (Rs.pull t.lspan t.scan true).2.1 := by simp [Rs.step]
      rw [e]
      constructor
      · intro k hk
        cases k with
        | zero => simpa [disp] using t.cells_pos pos
        | succ k =>
          have : pos + disp false (k + 1) = pos - 1 - k := by simp [disp]; omega
          rw [this, t.cells_left]; exact h1 k hk
      · have : pos + disp false (Rs.pull t.lspan t.scan true).2.1
            = pos - 1 - ((Rs.pull t.lspan t.scan true).2.1 - 1 : Nat) := by simp [disp]; omega
        rw [this, t.cells_left]; exact h2
    · have hpos := Rs.pull_stepped_pos t.rspan t.scan true
      obtain ⟨h1, h2⟩ := aux t.rspan ht.r (by
        intro e hz; apply hedge; simp [Tape.atEdge, e, hz])
      have e : (Rs.step t true c true).2 = (Rs.pull t.rspan t.scan true).2.1 := by simp [Rs.step]
      rw [e]
      constructor
      · intro k hk
        cases k with
        | zero => simpa [disp] using t.cells_pos pos
        | succ k =>
          have : pos + disp true (k + 1) = pos + 1 + k := by simp [disp]; omega
          rw [this, t.cells_right]; exact h1 k hk
      · have : pos + disp true (Rs.pull t.rspan t.scan true).2.1
            = pos + 1 + ((Rs.pull t.rspan t.scan true).2.1 - 1 : Nat) := by simp [disp]; omega
        rw [this, t.cells_right]; exact h2

/-- Everything a runner needs to know about one `tape.step(shift, color, same)`. -/
theorem Rs.step_full {p : Prog} {q q' : State} {t : Tape} {shift : Bool} {c : Color}
    (ht : t.Canonical) (hp : p (q, t.scan) = some (c, shift, q'))
    (he : ¬ ((q == q') && t.atEdge shift) = true) (pos : Int) :
    1 ≤ (step t shift c (q == q')).2 ∧
    (step t shift c (q == q')).1.Canonical ∧
    runFor p (step t shift c (q == q')).2 (t.cfg q pos)
      = some ((step t shift c (q == q')).1.cfg q'
          (pos + disp shift (step t shift c (q == q')).2)) ∧
    (∀ m, 0 < m → m < (step t shift c (q == q')).2 →
      ∃ d, runFor p m (t.cfg q pos) = some d ∧ d.state = q ∧ ¬ d.Blank) ∧
    (c ≠ 0 → (step t shift c (q == q')).1.blank = false) := by
  obtain ⟨h1, h2⟩ := step_run (skip := q == q') ht.l.posCounts ht.r.posCounts hp
    (by intro h; simpa using (beq_iff_eq.mp h).symm) pos
  refine ⟨h1, ht.rsStep shift c _, h2, ?_, ?_⟩
  · intro m hm hm'
    by_cases hq : q = q'
    · subst hq
      have hedge : ¬ t.atEdge shift = true := by simpa using he
      obtain ⟨k1, k2⟩ := (step_stepped ht shift c true pos).2 rfl hedge
      simp only [beq_self_eq_true] at hm' h1 ⊢
      obtain ⟨n, hn⟩ : ∃ n, (step t shift c true).2 = n + 1 := ⟨_, (Nat.sub_add_cancel h1).symm⟩
      rw [hn] at k1 k2 hm'
      obtain ⟨d, d1, d2, d3, d4⟩ := sweep_mid hp n (t.cfg q pos) rfl
        (fun k hk => k1 k (by omega)) m (by omega)
      refine ⟨d, d1, d2, fun hb => ?_⟩
      have e0 := d4 0
      rw [hb _] at e0
      have e1 := d4 (n + 1 - m)
      rw [hb _, show m + (n + 1 - m) = n + 1 by omega] at e1
      have z : t.scan = 0 := by
        rw [Nat.add_zero] at e0
        rw [← k1 m (by omega)]; exact e0.symm
      exact k2 (by rw [z]; exact e1.symm)
    · have hb : (q == q') = false := by simpa using hq
      rw [hb] at hm'
      rw [(step_stepped ht shift c false pos).1 rfl] at hm'
      omega
  · intro hc
    have key : ∀ s n, (push s c n).isEmpty = false := by
      intro s n
      cases s with
      | nil => simp [push, hc]
      | cons b s => simp only [push]; split <;> rfl
    cases shift <;> simp [Tape.blank, step, key]

end BB
