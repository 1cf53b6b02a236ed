import Verif.Spec.Sweep
import Verif.Lemmas.LinRecComplete

/-! # Counting sweeps -/

namespace BB

open PyRec

theorem SweepBegins.of_chg {p : Prog} {k : Nat} (h : Chg p k) : SweepBegins p k := by
  obtain ⟨h1, c, d, h2, h3, h4⟩ := h
  exact .inr ⟨k - 1, c, d, by omega, h2, h3, h4⟩

theorem not_sweepBegins {p : Prog} {k : Nat} (h : Keep p k) : ¬ SweepBegins p k := by
  obtain ⟨h1, c, d, h2, h3, h4⟩ := h
  rintro (rfl | ⟨j, c', d', rfl, h5, h6, h7⟩)
  · omega
  · rw [Nat.add_sub_cancel, h5] at h2
    rw [h6] at h3
    cases h2
    cases h3
    exact h7 h4

theorem SweepsAre.zero (p : Prog) : SweepsAre p 0 0 :=
  ⟨[], List.nodup_nil, by simp, rfl⟩

theorem SweepsAre.next {p : Prog} {T m k : Nat} (h : SweepsAre p T m) (hb : SweepBegins p T)
    (hk : 1 ≤ k) (hkeep : ∀ j, 1 ≤ j → j < k → Keep p (T + j)) : SweepsAre p (T + k) (m + 1) := by
  obtain ⟨l, h1, h2, h3⟩ := h
  refine ⟨T :: l, List.nodup_cons.2 ⟨fun hT => ?_, h1⟩, fun j => ?_, by simp [h3]⟩
  · have := ((h2 T).1 hT).1
    omega
  · rw [List.mem_cons, h2]
    constructor
    · rintro (rfl | ⟨h4, h5⟩)
      · exact ⟨by omega, hb⟩
      · exact ⟨by omega, h5⟩
    · rintro ⟨h4, h5⟩
      by_cases hj : j < T
      · exact .inr ⟨hj, h5⟩
      · left
        by_contra hne
        refine not_sweepBegins (hkeep (j - T) (by omega) (by omega)) ?_
        rwa [show T + (j - T) = j by omega]

theorem SweepsAre.unique {p : Prog} {n m m' : Nat} (h : SweepsAre p n m) (h' : SweepsAre p n m') :
    m = m' := by
  obtain ⟨l, h1, h2, h3⟩ := h
  obtain ⟨l', h4, h5, h6⟩ := h'
  rw [← h3, ← h6]
  exact ((List.perm_ext_iff_of_nodup h1 h4).2 fun k => (h2 k).trans (h5 k).symm).length_eq

theorem SweepsAre.mono {p : Prog} {n n' m m' : Nat} (h : SweepsAre p n m) (h' : SweepsAre p n' m')
    (hn : n ≤ n') : m ≤ m' := by
  obtain ⟨l, h1, h2, h3⟩ := h
  obtain ⟨l', h4, h5, h6⟩ := h'
  rw [← h3, ← h6]
  refine (h1.subperm fun k hk => ?_).length_le
  have := (h2 k).1 hk
  exact (h5 k).2 ⟨by omega, this.2⟩

/-- What a positive answer means, with programs that stop counted as well. -/
theorem recLoop_true {p : Prog} (lim fuel cycle c0 t0 T : Nat) (s : LState) (hpos : 1 ≤ cycle)
    (hs : RInv p cycle c0 t0 T s) (hT : SweepsAre p T cycle) (hlim : cycle + fuel = lim)
    (h : recLoop p true fuel cycle s = true) :
    ∃ n m, SweepsAre p n m ∧ m < lim ∧ ((∃ slot, HaltsAt p initCfg n slot) ∨
      ∃ per, RecursFrom p n per) := by
  induction fuel generalizing cycle c0 t0 T s with
  | zero => simp [recLoop] at h
  | succ fuel ih =>
    rw [recLoop] at h
    cases hp : p (s.state, s.tape.tape.scan) with
    | none =>
      exact ⟨T, cycle, hT, by omega, .inl ⟨_, _, hs.win.run, cfg_slot .., hp⟩⟩
    | some i =>
      obtain ⟨color, shift, q'⟩ := i
      simp only [hp] at h
      by_cases he : ((s.state == q') && s.tape.tape.atEdge shift) = true
      · simp only [Bool.and_eq_true, beq_iff_eq] at he
        obtain ⟨rfl, he⟩ := he
        exact ⟨T, cycle, hT, by omega, .inr ⟨1, recurs_edge hs.win.canon hp he hs.win.run⟩⟩
      · simp only [he, Bool.false_eq_true, if_false] at h
        obtain ⟨c1, t1, hr1, hr2, hr3, hr4, _⟩ := hs.rebase hpos
        rw [← hr3, ← hr4] at hp he
        rw [← hr3] at h
        obtain ⟨k, hk, ha, -, hkeep⟩ := hr1.advance_sweep hr2 hp he
        generalize (s.rebase cycle).advance color shift q' ((s.rebase cycle).state == q') = v at *
        by_cases hal : (v.state == v.refState
            && v.tape.alignsWith v.refTape v.leftmost v.rightmost) = true
        · simp only [Bool.and_eq_true, beq_iff_eq] at hal
          have hw := ha.win
          have hle := hr1.win.le
          have h0 := hw.bound t1 _ (Nat.le_refl _) hw.le hw.run0
          simp only [Tape.cfg] at h0
          have hrec := hw.sound (by omega) hal.1
            (rsAligns_same hal.2 h0.1 h0.2 hw.canon hw.canon0)
          exact ⟨T, cycle, hT, by omega, .inr ⟨_, hrec.mono hle⟩⟩
        · simp only [hal, Bool.false_eq_true, if_false] at h
          exact ih (cycle + 1) c1 t1 (T + k) v (by omega) ha
            (hT.next (.of_chg hs.chg) hk hkeep) (by omega) h

/-- A program that stops in time is reported. -/
theorem recLoop_halts {p : Prog} (fuel cycle c0 t0 T : Nat) (s : LState) (hpos : 1 ≤ cycle)
    (hs : RInv p cycle c0 t0 T s) (hT : SweepsAre p T cycle) {n m : Nat} {slot : Slot}
    (hn : SweepsAre p n m) (hh : HaltsAt p initCfg n slot) (hlim : m < cycle + fuel)
    (hTn : T ≤ n) : recLoop p true fuel cycle s = true := by
  induction fuel generalizing cycle c0 t0 T s with
  | zero =>
    have := hT.mono hn hTn
    omega
  | succ fuel ih =>
    rw [recLoop]
    cases hp : p (s.state, s.tape.tape.scan) with
    | none => rfl
    | some i =>
      obtain ⟨color, shift, q'⟩ := i
      simp only
      by_cases he : ((s.state == q') && s.tape.tape.atEdge shift) = true
      · simp only [he, if_true]
      · simp only [he, Bool.false_eq_true, if_false]
        obtain ⟨c1, t1, hr1, hr2, hr3, hr4, _⟩ := hs.rebase hpos
        rw [← hr3, ← hr4] at hp he
        rw [← hr3]
        obtain ⟨k, hk, ha, -, hkeep⟩ := hr1.advance_sweep hr2 hp he
        generalize (s.rebase cycle).advance color shift q' ((s.rebase cycle).state == q') = v at *
        split
        · rfl
        · refine ih (cycle + 1) c1 t1 (T + k) v (by omega) ha
            (hT.next (.of_chg hs.chg) hk hkeep) (by omega) ?_
          by_contra hcon
          obtain ⟨d, h1, h2, h3⟩ := hh
          have := runFor_isSome_of_le (show n + 1 ≤ T + k by omega) (by rw [ha.win.run]; rfl)
          rw [runFor_succ', h1, Option.bind_some, step_none (by rw [h2]; exact h3)] at this
          cases this

theorem sweeps_start (p : Prog) : SweepsAre p 1 1 := by
  have := (SweepsAre.zero p).next (k := 1) (.inl rfl) (Nat.le_refl 1) (fun j h1 h2 => by omega)
  rwa [Nat.zero_add] at this

/-- With `drop_halt`, what the answer means. -/
theorem quickTermOrRec_true {p : Prog} {lim : Nat} (h0 : p (0, 0) = some (1, true, 1))
    (h : quickTermOrRec p lim true = true) :
    ∃ n m, SweepsAre p n m ∧ m < lim ∧ ((∃ slot, HaltsAt p initCfg n slot) ∨
      ∃ per, RecursFrom p n per) := by
  have hl : 1 + (lim - 1) = lim := by
    rcases Nat.eq_zero_or_pos lim with rfl | hl
    · simp [quickTermOrRec, recLoop] at h
    · omega
  exact recLoop_true lim (lim - 1) 1 1 1 1 _ (Nat.le_refl _) (RInv.start h0) (sweeps_start p) hl h

theorem quickTermOrRec_halts {p : Prog} {lim n m : Nat} {slot : Slot}
    (h0 : p (0, 0) = some (1, true, 1)) (hn : SweepsAre p n m) (hh : HaltsAt p initCfg n slot)
    (hm : m < lim) : quickTermOrRec p lim true = true := by
  refine recLoop_halts (lim - 1) 1 1 1 1 _ (Nat.le_refl _) (RInv.start h0) (sweeps_start p) hn hh
    (by omega) ?_
  rcases Nat.eq_zero_or_pos n with rfl | h
  · obtain ⟨d, h1, h2, h3⟩ := hh
    cases h1
    rw [← h2] at h3
    change p (0, 0) = none at h3
    rw [h0] at h3
    cases h3
  · exact h

/-- After the machine has settled no sweep begins. -/
theorem chg_le_of_recurs {p : Prog} {n T : Nat} (h : RecursFrom p n 1) (hT : Chg p T) : T ≤ n := by
  by_contra hcon
  obtain ⟨h1, c, d, h2, h3, h4⟩ := hT
  refine h4 (PyRec.RecursFrom.slot h (t := T - 1) (by omega) h2 ?_)
  rwa [show T - 1 + 1 = T by omega]

/-- A program that spins out in time is reported. -/
theorem recLoop_spins {p : Prog} (dropHalt : Bool) (fuel cycle c0 t0 T : Nat) (s : LState)
    (hpos : 1 ≤ cycle) (hs : RInv p cycle c0 t0 T s) (hT : SweepsAre p T cycle) {n m : Nat}
    (hn : SweepsAre p n m) (hh : RecursFrom p n 1) (hlim : m < cycle + fuel) :
    recLoop p dropHalt fuel cycle s = true := by
  induction fuel generalizing cycle c0 t0 T s with
  | zero =>
    have := hT.mono hn (chg_le_of_recurs hh hs.chg)
    omega
  | succ fuel ih =>
    rw [recLoop]
    cases hp : p (s.state, s.tape.tape.scan) with
    | none =>
      exact absurd ⟨T, _, _, hs.win.run, cfg_slot .., hp⟩
        (neverHalts_iff_not_haltsAt.1 hh.neverHalts)
    | some i =>
      obtain ⟨color, shift, q'⟩ := i
      simp only
      by_cases he : ((s.state == q') && s.tape.tape.atEdge shift) = true
      · simp only [he, if_true]
      · simp only [he, Bool.false_eq_true, if_false]
        obtain ⟨c1, t1, hr1, hr2, hr3, hr4, _⟩ := hs.rebase hpos
        rw [← hr3, ← hr4] at hp he
        rw [← hr3]
        obtain ⟨k, hk, ha, -, hkeep⟩ := hr1.advance_sweep hr2 hp he
        generalize (s.rebase cycle).advance color shift q' ((s.rebase cycle).state == q') = v at *
        split
        · rfl
        · exact ih (cycle + 1) c1 t1 (T + k) v (by omega) ha
            (hT.next (.of_chg hs.chg) hk hkeep) (by omega)

theorem quickTermOrRec_spins {p : Prog} {lim n m : Nat} {dropHalt : Bool}
    (h0 : p (0, 0) = some (1, true, 1)) (hn : SweepsAre p n m) (hh : RecursFrom p n 1)
    (hm : m < lim) : quickTermOrRec p lim dropHalt = true :=
  recLoop_spins dropHalt (lim - 1) 1 1 1 1 _ (Nat.le_refl _) (RInv.start h0) (sweeps_start p) hn hh
    (by omega)

theorem SweepsAre.exists (p : Prog) (n : Nat) : ∃ m, SweepsAre p n m := by
  classical
  exact ⟨_, (List.range n).filter fun k => decide (SweepBegins p k), List.nodup_range.filter _,
    fun k => by simp, rfl⟩

end BB
