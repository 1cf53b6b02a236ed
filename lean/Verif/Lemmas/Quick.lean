import Verif.Model.Quick
import Verif.Lemmas.Skip

/-! # Invariant of the rule-free runner -/

namespace BB

theorem initCfg_eq : initCfg = Tape.init.cfg 0 0 := by
  simp only [initCfg, Tape.cfg, Tape.cells, Tape.rt, Tape.init, half_nil, Cfg.mk.injEq, true_and]
  funext x; simp only [RT.at]; split <;> [rfl; skip]; split <;> rfl

/-- The table lists exactly the first blank steps up to `n`. -/
def BlanksExact (p : Prog) (blanks : List (State × Nat)) (steps : Nat) : Prop :=
  ∀ q n, blanks.lookup q = some n ↔ FirstBlankAt p q n ∧ n ≤ steps

structure QInv (p : Prog) (s : QState) : Prop where
  canon : s.tape.Canonical
  run : ∃ pos, runFor p s.steps initCfg = some (s.tape.cfg s.state pos)
  blanks : BlanksExact p s.blanks s.steps

theorem qinv_init (p : Prog) : QInv p ⟨Tape.init, [], 0, 0⟩ where
  canon := Tape.canonical_init
  run := ⟨0, by rw [initCfg_eq]; rfl⟩
  blanks := by
    intro q n
    constructor
    · intro h; simp at h
    · rintro ⟨⟨h, _⟩, h'⟩; simp at h'; omega

/-- Advancing the table over one tape step. -/
theorem blanksExact_advance {p : Prog} {t t' : Tape} {q q' : State} {pos pos' : Int}
    {steps k : Nat} {blanks : List (State × Nat)}
    (hb : BlanksExact p blanks steps)
    (hrun : runFor p steps initCfg = some (t.cfg q pos)) (hk : 1 ≤ k)
    (ht' : t'.Canonical)
    (hk' : runFor p k (t.cfg q pos) = some (t'.cfg q' pos'))
    (hmid : ∀ m, 0 < m → m < k → ∃ d, runFor p m (t.cfg q pos) = some d ∧ d.state = q ∧ ¬ d.Blank) :
    (t'.blank = false → BlanksExact p blanks (steps + k)) ∧
    (t'.blank = true → (blanks.lookup q').isSome → BlanksExact p blanks (steps + k)) ∧
    (t'.blank = true → ¬ (blanks.lookup q').isSome →
      BlanksExact p ((q', steps + k) :: blanks) (steps + k)) := by
  have hend : runFor p (steps + k) initCfg = some (t'.cfg q' pos') := runFor_trans hrun hk'
  have hbl : (t'.cfg q' pos').Blank ↔ t'.blank = true := (ht'.blank_iff pos').symm
  -- strictly between, nothing is blank
  have hno : ∀ r n, steps < n → n < steps + k → ¬ BlankAt p r n := by
    rintro r n h1 h2 ⟨d, hd, _, hdb⟩
    obtain ⟨e, he, _, heb⟩ := hmid (n - steps) (by omega) (by omega)
    have : runFor p n initCfg = some e := by
      have := runFor_trans hrun he
      rwa [show steps + (n - steps) = n by omega] at this
    rw [this] at hd
    cases hd
    exact heb hdb
  have hat : ∀ r, BlankAt p r (steps + k) ↔ q' = r ∧ t'.blank = true := by
    intro r
    constructor
    · rintro ⟨d, hd, h1, h2⟩
      rw [hend] at hd
      cases hd
      exact ⟨h1, hbl.mp h2⟩
    · rintro ⟨h1, h2⟩
      exact ⟨_, hend, h1, hbl.mpr h2⟩
  have hold : ∀ r n, FirstBlankAt p r n → n ≤ steps + k → n ≤ steps ∨ n = steps + k := by
    intro r n h1 h2
    by_contra hcon
    exact hno r n (by omega) (by omega) h1.2.1
  refine ⟨?_, ?_, ?_⟩
  · intro hf r n
    rw [hb r n]
    constructor
    · exact fun h => ⟨h.1, by omega⟩
    · rintro ⟨h1, h2⟩
      refine ⟨h1, ?_⟩
      rcases hold r n h1 h2 with h | h
      · exact h
      · subst h
        have := ((hat r).mp h1.2.1).2
        simp [hf] at this
  · intro ht hs r n
    rw [hb r n]
    constructor
    · exact fun h => ⟨h.1, by omega⟩
    · rintro ⟨h1, h2⟩
      refine ⟨h1, ?_⟩
      rcases hold r n h1 h2 with h | h
      · exact h
      · subst h
        have hr := ((hat r).mp h1.2.1).1
        subst hr
        obtain ⟨m, hm⟩ := Option.isSome_iff_exists.mp hs
        have := (hb q' m).mp hm
        exact absurd this.1.2.1 (h1.2.2 m this.1.1 (by omega))
  · intro ht hs r n
    have hnone : ∀ m, ¬ (FirstBlankAt p q' m ∧ m ≤ steps) := by
      intro m hm
      rw [← hb q' m] at hm
      rw [hm] at hs
      exact hs rfl
    -- no earlier blank in q' at all
    have hnever : ∀ m, 1 ≤ m → m ≤ steps → ¬ BlankAt p q' m := by
      intro m
      induction m using Nat.strong_induction_on with
      | _ m ih =>
        intro h1 h2 h3
        exact hnone m ⟨⟨h1, h3, fun m' a b => ih m' b a (by omega)⟩, h2⟩
    by_cases hr : r = q'
    · subst hr
      rw [List.lookup_cons_self]
      constructor
      · intro h
        simp only [Option.some.injEq] at h
        subst h
        refine ⟨⟨by omega, (hat r).mpr ⟨rfl, ht⟩, ?_⟩, Nat.le_refl _⟩
        intro m h1 h2
        by_cases hm : m ≤ steps
        · exact hnever m h1 hm
        · exact hno r m (by omega) h2
      · rintro ⟨h1, h2⟩
        rcases hold r n h1 h2 with h | h
        · exact absurd ⟨h1, h⟩ (hnone n)
        · rw [h]
    · rw [List.lookup_cons, beq_false_of_ne hr]
      simp only
      rw [hb r n]
      constructor
      · exact fun h => ⟨h.1, by omega⟩
      · rintro ⟨h1, h2⟩
        refine ⟨h1, ?_⟩
        rcases hold r n h1 h2 with h | h
        · exact h
        · subst h
          exact absurd ((hat r).mp h1.2.1).1.symm hr

/-- The outcome of the run, in terms of the ordinary machine. -/
structure QSpec (p : Prog) (least : Nat) (r : MachineResult) : Prop where
  run : ∃ d, runFor p r.steps initCfg = some d ∧
    ∃ S : Finset Int, (∀ x, x ∈ S ↔ d.tape x ≠ 0) ∧ S.card = r.marks
  blanks : BlanksExact p r.blanks r.steps
  undfnd : r.result = .undfnd → ∃ slot, r.lastSlot = some slot ∧ HaltsAt p initCfg r.steps slot
  never : r.result = .spnout ∨ r.result = .infrul → NeverHalts p initCfg
  xlimit : r.result = .xlimit → least ≤ r.steps
  cats : r.result ≠ .cfglim ∧ r.result ≠ .mulrul

theorem quickLoop_spec (p : Prog) (fuel cycle : Nat) (s : QState) (hs : QInv p s) :
    QSpec p (s.steps + fuel) (quickLoop p fuel cycle s) := by
  induction fuel generalizing cycle s with
  | zero =>
    obtain ⟨pos, hrun⟩ := hs.run
    exact ⟨⟨_, hrun, s.tape.marks_cells pos⟩, hs.blanks, by simp [quickLoop, quickResult],
      by simp [quickLoop, quickResult], by simp [quickLoop, quickResult],
      by simp [quickLoop, quickResult]⟩
  | succ fuel ih =>
    obtain ⟨t, blanks, q, steps⟩ := s
    obtain ⟨hc, ⟨pos, hrun⟩, hbl⟩ := hs
    simp only at hc hrun hbl
    have hslot : (t.cfg q pos).slot = (q, t.scan) := by
      simp [Cfg.slot, Tape.cfg, t.cells_pos]
    simp only [quickLoop, quickBody]
    cases hp : p (q, t.scan) with
    | none =>
      simp only [quickResult]
      exact ⟨⟨_, hrun, t.marks_cells pos⟩, hbl,
        fun _ => ⟨_, rfl, _, hrun, hslot, hp⟩, by simp, by simp, by simp⟩
    | some i =>
      obtain ⟨color, shift, q'⟩ := i
      simp only
      by_cases he : ((q == q') && t.atEdge shift) = true
      · simp only [he, if_true, quickResult]
        refine ⟨⟨_, hrun, t.marks_cells pos⟩, hbl, by simp, ?_, by simp, by simp⟩
        intro _
        simp only [Bool.and_eq_true, beq_iff_eq] at he
        obtain ⟨rfl, he⟩ := he
        refine NeverHalts.of_later hrun (neverHalts_spinout (col := color) (shift := shift) ?_ ?_)
        · have hz : t.scan = 0 := by
            simp only [Tape.atEdge, Bool.and_eq_true, beq_iff_eq] at he; exact he.1
          rw [hz] at hp; exact hp
        · intro k
          cases shift
          · exact (hc.atEdge_left_iff pos).mp he _ (by simp [Tape.cfg, disp])
          · exact (hc.atEdge_right_iff pos).mp he _ (by simp [Tape.cfg, disp])
      · simp only [he]
        obtain ⟨k1, k2, k3, k4, k5⟩ := Rs.step_full hc hp he pos
        generalize hst : Rs.step t shift color (q == q') = st at k1 k2 k3 k4 k5
        obtain ⟨t', k⟩ := st
        simp only at k1 k2 k3 k4 k5
        have hadv := blanksExact_advance hbl hrun k1 k2 k3 k4
        have hrun' : runFor p (steps + k) initCfg
            = some (t'.cfg q' (pos + disp shift k)) := runFor_trans hrun k3
        simp only [Bool.false_eq_true, if_false]
        by_cases hb : (color == 0 && t'.blank) = true
        · simp only [hb, if_true]
          have hb' : t'.blank = true := by simp at hb; exact hb.2
          have hblank : (t'.cfg q' (pos + disp shift k)).Blank := (k2.blank_iff _).mp hb'
          by_cases hl : (blanks.lookup q').isSome = true
          · simp only [hl, if_true, quickResult]
            refine ⟨⟨_, hrun', t'.marks_cells _⟩, hadv.2.1 hb' hl, by simp, ?_, by simp, by simp⟩
            intro _
            obtain ⟨m, hm⟩ := Option.isSome_iff_exists.mp hl
            obtain ⟨⟨hm1, ⟨d, hd1, hd2, hd3⟩, _⟩, hm3⟩ := (hbl q' m).mp hm
            refine NeverHalts.of_later hd1 ?_
            have hr : runFor p (steps + k - m) d = some (t'.cfg q' (pos + disp shift k)) := by
              have := hrun'
              rw [show steps + k = m + (steps + k - m) by omega, runFor_add, hd1] at this
              exact this
            exact neverHalts_blank_twice (by omega) hr hd3 hblank hd2
          · simp only [hl]
            by_cases h0 : q' = 0
            · subst h0
              simp only [beq_self_eq_true, if_true, quickResult, Bool.false_eq_true, if_false]
              refine ⟨⟨_, hrun', t'.marks_cells _⟩, hadv.2.2 hb' (by simpa using hl), by simp,
                ?_, by simp, by simp⟩
              intro _
              exact neverHalts_blank_twice (by omega) hrun' (fun _ => rfl) hblank rfl
            · have h0' : (q' == 0) = false := by simpa using h0
              simp only [h0', Bool.false_eq_true, if_false]
              have := ih (cycle + 1) ⟨t', (q', steps + k) :: blanks, q', steps + k⟩
                ⟨k2, ⟨_, hrun'⟩, hadv.2.2 hb' (by simpa using hl)⟩
              simp only at this
              exact { this with xlimit := fun h => by have := this.xlimit h; omega }
        · simp only [hb]
          have hnb : t'.blank = false := by
            by_cases h0 : color = 0
            · simp [h0] at hb; exact hb
            · exact k5 h0
          have := ih (cycle + 1) ⟨t', blanks, q', steps + k⟩ ⟨k2, ⟨_, hrun'⟩, hadv.1 hnb⟩
          simp only at this
          simp only [Bool.false_eq_true, if_false]
          exact { this with xlimit := fun h => by have := this.xlimit h; omega }

theorem runQuick_spec (p : Prog) (lim : Nat) : QSpec p lim (runQuick p lim) := by
  have := quickLoop_spec p lim 0 _ (qinv_init p)
  simpa [runQuick] using this

end BB
