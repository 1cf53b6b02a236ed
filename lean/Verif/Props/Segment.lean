import Verif.Lemmas.SegmentTerm
import Verif.Lemmas.Table

/-!
# C11, C43, C44: the segment analysis

`segment_cant_halt` looks at the machine through a window of `seg` cells, at every offset at once.
It is right for every program whose instructions stay within the given numbers of states and
colours.  The Python wrapper computes these numbers from the slots that have an instruction, which
misses a colour (or state) that is written (or entered) but has no instruction.
-/

namespace BB

/-! ## C11 -/

/-- C11.  A segment size is returned only if the machine never halts. -/
theorem C11_segment_cant_halt (t : Table) (states colors : Nat) (hs : 0 < states) (hc : 0 < colors)
    (hr : ∀ s i, t.get? s = some i → i.1 < colors ∧ i.2.2 < states)
    (fuel segs seg : Nat) (h : t.segmentCantHalt fuel states colors segs = some (some seg)) :
    NeverHalts t.get? initCfg := by
  unfold Table.segmentCantHalt at h
  split at h
  · cases h
  · exact segmentLoop_sound (segSound_analyze hr) hs hc _ 2 (by omega) h

/-- The program of the repository's own test, `1RB 1RC  0LA 0RA  0LB ...`. -/
def segExample : Table :=
  [((0, 0), (1, true, 1)), ((0, 1), (1, true, 2)), ((1, 0), (0, false, 0)), ((1, 1), (0, true, 0)),
    ((2, 0), (0, false, 1))]

example : segExample.segmentCantHalt 100 3 2 2 = some (some 2) := by decide +kernel

example : NeverHalts segExample.get? initCfg :=
  C11_segment_cant_halt segExample 3 2 (by decide) (by decide)
    (fun s i h => by
      have := Table.get?_mem h
      simp only [segExample, List.mem_cons, Prod.mk.injEq, List.not_mem_nil, or_false] at this
      rcases this with ⟨-, rfl⟩ | ⟨-, rfl⟩ | ⟨-, rfl⟩ | ⟨-, rfl⟩ | ⟨-, rfl⟩ <;> decide)
    100 2 2 (by decide +kernel)

/-- Nothing is claimed of a machine that halts: `1RB ...  1LB 0RC  1LC 1LA`. -/
example : Table.segmentCantHalt [((0, 0), (1, true, 1)), ((1, 0), (1, false, 1)),
    ((1, 1), (0, true, 2)), ((2, 0), (1, false, 2)), ((2, 1), (1, false, 0))] 100 3 2 2
    = some none := by decide +kernel

/-! ## C44 -/

/-- C44.  The analysis always comes to a result, the same for every large enough fuel; in
particular no assertion, index or `unwrap` fails. -/
theorem C44_segment_ends (t : Table) (states colors : Nat) (hs : 0 < states) (hc : 0 < colors)
    (hr : ∀ s i, t.get? s = some i → i.1 < colors ∧ i.2.2 < states)
    (segs : Nat) (hseg : 2 ≤ segs) :
    ∃ r F, ∀ fuel, F ≤ fuel → t.segmentCantHalt fuel states colors segs = some r := by
  obtain ⟨F, hF⟩ := segmentLoop_ends hs hc hr (segTotal_analyze hr) (segs - 1) 2 (by omega)
  obtain ⟨r, h⟩ := Option.ne_none_iff_exists'.1 (hF F (Nat.le_refl F))
  refine ⟨r, F, fun fuel hf => ?_⟩
  rw [Table.segmentCantHalt, if_neg (by omega)]
  exact segmentLoop_mono hf _ h

/-- Any fuel that gives a result gives this result. -/
theorem C44_segment_result (t : Table) (states colors segs fuel fuel' : Nat) (r r' : Option Nat)
    (h : t.segmentCantHalt fuel states colors segs = some r)
    (h' : t.segmentCantHalt fuel' states colors segs = some r') : r = r' := by
  unfold Table.segmentCantHalt at h h'
  split at h
  · cases h
  · next hs =>
    rw [if_neg hs] at h'
    have h1 := segmentLoop_mono (Nat.le_max_left fuel fuel') _ h
    have h2 := segmentLoop_mono (Nat.le_max_right fuel fuel') _ h'
    rw [h1] at h2
    exact Option.some.inj h2

/-- Without enough states the code indexes a missing entry (`&branches[&config.state]`). -/
example : Table.segmentCantHalt [((0, 0), (1, true, 1)), ((1, 0), (1, true, 2)),
    ((2, 0), (1, true, 0))] 100 1 2 2 = none := by
  decide +kernel

/-! ## C43 -/

theorem foldl_max_ge (t : Table) : ∀ m : Nat × Nat,
    let r := t.foldl (fun (m : Nat × Nat) e => (max m.1 e.1.1, max m.2 e.1.2)) m
    m.1 ≤ r.1 ∧ m.2 ≤ r.2 ∧ ∀ e ∈ t, e.1.1 ≤ r.1 ∧ e.1.2 ≤ r.2 := by
  induction t with
  | nil => intro m; simp
  | cons e t ih =>
    intro m
    obtain ⟨h1, h2, h3⟩ := ih (max m.1 e.1.1, max m.2 e.1.2)
    simp only [List.foldl_cons] at h1 h2 h3 ⊢
    refine ⟨Nat.le_trans (Nat.le_max_left _ _) h1, Nat.le_trans (Nat.le_max_left _ _) h2, ?_⟩
    intro f hf
    rcases List.mem_cons.1 hf with rfl | hf
    · exact ⟨Nat.le_trans (Nat.le_max_right _ _) h1, Nat.le_trans (Nat.le_max_right _ _) h2⟩
    · exact h3 f hf

/-- C43.  Missing: programs that print a colour, or enter a state, beyond those that have an
instruction; for these the claim is false. -/
theorem C43_py_segment_cant_halt_partial (t : Table)
    (hstate : ∀ s i, t.get? s = some i → ∃ s' i', t.get? s' = some i' ∧ i.2.2 ≤ s'.1)
    (hcolor : ∀ s i, t.get? s = some i → ∃ s' i', t.get? s' = some i' ∧ i.1 ≤ s'.2)
    (fuel segs seg : Nat) (h : t.pySegmentCantHalt fuel segs = some (some seg)) :
    NeverHalts t.get? initCfg := by
  refine C11_segment_cant_halt t _ _ (by omega) (by omega) (fun s i hi => ?_) fuel segs seg h
  obtain ⟨-, -, hall⟩ := foldl_max_ge t (0, 0)
  obtain ⟨s1, i1, h1, h2⟩ := hcolor s i hi
  obtain ⟨s2, i2, h3, h4⟩ := hstate s i hi
  have a1 := (hall _ (Table.get?_mem h1)).2
  have a2 := (hall _ (Table.get?_mem h3)).1
  exact ⟨Nat.lt_of_le_of_lt (Nat.le_trans h2 a1) (Nat.lt_add_of_pos_left Nat.one_pos),
    Nat.lt_of_le_of_lt (Nat.le_trans h4 a2) (Nat.lt_add_of_pos_left Nat.one_pos)⟩

example : segExample.pySegmentCantHalt 100 2 = some (some 2) := by decide +kernel

/-- `1RB ...  0RC ...  0LD ...  0LA ...`: the machine comes back to the 1 it has written, for which
there is no instruction. -/
def segViolation : Table :=
  [((0, 0), (1, true, 1)), ((1, 0), (0, true, 2)), ((2, 0), (0, false, 3)), ((3, 0), (0, false, 0))]

/-- The negation of C43: a machine that halts after four moves is said never to halt. -/
theorem C43_violation : segViolation.pySegmentCantHalt 100 2 = some (some 2) ∧
    HaltsAt segViolation.get? initCfg 4 (0, 1) := by
  refine ⟨by decide +kernel, ?_⟩
  exact ⟨_, rfl, by decide +kernel, by decide +kernel⟩

/-- With the true numbers of states and colours there is no refutation. -/
example : segViolation.segmentCantHalt 100 4 2 2 = some none := by decide +kernel

end BB
