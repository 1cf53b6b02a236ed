import Verif.Props.SkipAll

/-!
# C66: programs the filter is wrong about, and one that it keeps
-/

namespace BB

/-! ## Programs dropped for no good reason -/

/-- What decides the witnesses below. -/
theorem skipAll_of_checkInf {t : Table} {fuel S C k : Nat} {halt : Bool} (hS : S < 4)
    (hk : optBlock t.get? 300 = some k) (hc : t.checkInf S C k 306 = .ok true) :
    t.skipAll fuel S C halt = .ok true := by
  have hlate : t.skipLate fuel S C halt = .ok true := by
    simp only [Table.skipLate, hk, hc, ite_self]
  simp only [Table.skipAll, hlate, show ¬ S ≥ 4 by omega, if_false, ite_self]

/-- Whether the answer is yes. -/
def saysYes : Except Err Bool → Bool
  | .ok b => b
  | .error _ => false

theorem saysYes_iff {r : Except Err Bool} (h : saysYes r = true) : r = .ok true := by
  cases r with
  | error e => cases h
  | ok b => exact congrArg _ h

/-- Decidable forms of `Fits` and `UsesAll`. -/
theorem Table.fits_of_entries {t : Table} {S C : Nat} (h1 : t.Sorted)
    (h2 : t.get? (0, 0) = some (1, true, 1))
    (h3 : ∀ e ∈ t, (e.1.1 < S ∧ e.1.2 < C) ∧ e.2.1 < C ∧ e.2.2.2 < S) : t.Fits S C :=
  ⟨h1, h2, fun _ _ hi => (h3 _ (Table.get?_mem hi)).1, fun _ _ hi => (h3 _ (Table.get?_mem hi)).2⟩

/-- "1RB 2RA 3LA 2RB  2LB 1LA 0RB 0RA". -/
def lateSpinner : Table :=
  [((0, 0), (1, true, 1)), ((0, 1), (2, true, 0)), ((0, 2), (3, false, 0)), ((0, 3), (2, true, 1)),
    ((1, 0), (2, false, 1)), ((1, 1), (1, false, 0)), ((1, 2), (0, true, 1)), ((1, 3), (0, true, 0))]

theorem lateSpinner_fits : lateSpinner.Fits 2 4 :=
  Table.fits_of_entries (by decide) (by decide) (by decide)

set_option maxRecDepth 100000 in
/-- **C66, violation (spin-out).**  This program uses everything, spins out after 2501 moves but not within
the first 301 sweeps, and is dropped: `check_inf` takes it to be infinite. -/
theorem C66_spinning_violation : ∃ (t : Table) (c : Cfg), t.Fits 2 4 ∧ t.UsesAll 2 4 false ∧
    runFor t.get? 2501 initCfg = some c ∧ SpinsOut t.get? c ∧
    (∀ k d m, runFor t.get? k initCfg = some d → SpinsOut t.get? d → SweepsAre t.get? k m → 301 ≤ m) ∧
    ∀ fuel, t.skipAll fuel 2 4 false = .ok true := by
  have hs : (PyRec.looseRun lateSpinner.get? 4000).result = .spnout := by decide +kernel
  have hn : (PyRec.looseRun lateSpinner.get? 4000).steps = 2501 := by decide +kernel
  have hrec := (C59_sound lateSpinner.get? 4000 lateSpinner_fits.start).2.1 hs
  rw [hn] at hrec
  obtain ⟨f, hf⟩ := hrec.neverHalts.run
  refine ⟨lateSpinner, f 2501, lateSpinner_fits,
    (C66_incomplete _ 2 4 (by omega) (by omega) lateSpinner_fits false).1 (by decide +kernel), hf _,
    spinsOut_of_recurs hrec (hf _), ?_, fun fuel => ?_⟩
  · intro k d m h1 h2 h3
    by_contra hcon
    have h4 := quickTermOrRec_spins (lim := 301) (dropHalt := true) lateSpinner_fits.start h3
      (recurs_of_spinsOut h1 h2) (by omega)
    have h5 : quickTermOrRec lateSpinner.get? 301 true = false := by decide +kernel
    rw [h4] at h5
    cases h5
  · exact skipAll_of_checkInf (k := 1) (by omega) (by decide +kernel)
      (saysYes_iff (by decide +kernel))

/-- "1RB 3LC 3RB 1LB  2LA 0RB 1LA 2RA  2RB 0LB 1LA ...". -/
def lateHalter : Table :=
  [((0, 0), (1, true, 1)), ((0, 1), (3, false, 2)), ((0, 2), (3, true, 1)), ((0, 3), (1, false, 1)),
    ((1, 0), (2, false, 0)), ((1, 1), (0, true, 1)), ((1, 2), (1, false, 0)), ((1, 3), (2, true, 0)),
    ((2, 0), (2, true, 1)), ((2, 1), (0, false, 1)), ((2, 2), (1, false, 0))]

theorem lateHalter_fits : lateHalter.Fits 3 4 :=
  Table.fits_of_entries (by decide) (by decide) (by decide)

set_option maxRecDepth 100000 in
/-- **C66, violation (halting).**  This program uses everything, halts after 399 moves making up at least 301
sweeps, and is dropped: `check_inf` takes it to be infinite. -/
theorem C66_halting_violation : ∃ t : Table, t.Fits 3 4 ∧ t.UsesAll 3 4 true ∧
    HaltsAt t.get? initCfg 399 (2, 3) ∧ (∃ m, SweepsAre t.get? 399 m ∧ 301 ≤ m) ∧
    ∀ fuel, t.skipAll fuel 3 4 true = .ok true := by
  have hh : HaltsAt lateHalter.get? initCfg 399 (2, 3) :=
    haltsAt_of_quick (lim := 1000) (by decide +kernel) (by decide +kernel) (by decide +kernel)
  refine ⟨lateHalter, lateHalter_fits,
    (C66_incomplete _ 3 4 (by omega) (by omega) lateHalter_fits true).1 (by decide +kernel), hh, ?_,
    fun fuel => skipAll_of_checkInf (k := 2) (by omega) (by decide +kernel)
      (saysYes_iff (by decide +kernel))⟩
  obtain ⟨m, hm⟩ := SweepsAre.exists lateHalter.get? 399
  refine ⟨m, hm, ?_⟩
  by_contra hcon
  have h4 := quickTermOrRec_halts (lim := 301) lateHalter_fits.start hm hh (by omega)
  have h5 : quickTermOrRec lateHalter.get? 301 true = false := by decide +kernel
  rw [h4] at h5
  cases h5

/-- Whether the answer is no. -/
def saysNo : Except Err Bool → Bool
  | .ok b => !b
  | .error _ => false

theorem saysNo_iff {r : Except Err Bool} (h : saysNo r = true) : r = .ok false := by
  cases r with
  | error e => cases h
  | ok b => exact congrArg _ (by simpa [saysNo] using h)

set_option maxRecDepth 100000 in
/-- A program that is kept: "1RB 2RB 2RC  2LC 0RA 1RC  1LC 2LA 2LB" spins out in its 318th sweep. -/
theorem C66_kept_example : Table.skipAll
    [((0, 0), (1, true, 1)), ((0, 1), (2, true, 1)), ((0, 2), (2, true, 2)), ((1, 0), (2, false, 2)),
      ((1, 1), (0, true, 0)), ((1, 2), (1, true, 2)), ((2, 0), (1, false, 2)), ((2, 1), (2, false, 0)),
      ((2, 2), (2, false, 1))] 0 3 3 false = .ok false :=
  saysNo_iff (by decide +kernel)

/-- Dropped at once: "1RB 1LA  1LA 1RB" never prints 0; halting or not, nothing else is looked at. -/
example : Table.skipAll [((0, 0), (1, true, 1)), ((0, 1), (1, false, 0)), ((1, 0), (1, false, 0)),
    ((1, 1), (1, true, 1))] 0 2 2 false = .ok true :=
  saysYes_iff (by decide +kernel)

/-- "1RB 1RB 1LB  1LB 2LA 2RA". -/
def blockCase : Table :=
  [((0, 0), (1, true, 1)), ((0, 1), (1, true, 1)), ((0, 2), (1, false, 1)), ((1, 0), (1, false, 1)),
    ((1, 1), (2, false, 0)), ((1, 2), (2, true, 0))]

/-- Dropped for a rule that is found on the tape in blocks of two. -/
theorem C66_block_example : optBlock blockCase.get? 300 = some 2 ∧
    blockCase.checkInf 2 3 2 306 = .ok true ∧ blockCase.skipAll 0 2 3 false = .ok true := by
  have h1 : optBlock blockCase.get? 300 = some 2 := by decide +kernel
  have h2 : blockCase.checkInf 2 3 2 306 = .ok true := saysYes_iff (by decide +kernel)
  exact ⟨h1, h2, skipAll_of_checkInf (by decide) h1 h2⟩

end BB
