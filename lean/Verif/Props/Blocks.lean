import Verif.Lemmas.Blocks

/-!
# C36: the block size

`opt_block` never fails; the size it returns is at least 1, and it is the smallest among the best
sizes for a tape that the machine passes through.
-/

namespace BB

/-- Where `k` divides the tape into pieces: how often a piece equals the next one.  Only places
`j * k < length - 2 * k` are looked at. -/
def RepeatsAt (tape : List Color) (k j : Nat) : Prop :=
  j * k < tape.length - 2 * k ∧ (tape.drop (j * k)).take k = (tape.drop (j * k + k)).take k

/-- C36.  `opt_block` does not panic. -/
theorem C36_opt_block_total (p : Prog) (steps : Nat) :
    ∃ k, optBlock p steps = some k ∧ 1 ≤ k := by
  unfold optBlock
  cases hm : measureBlocks p steps with
  | none => exact ⟨1, rfl, Nat.le_refl 1⟩
  | some r =>
    obtain ⟨c, hc⟩ := measureLoop_spec steps rfl (Nat.le_refl 0) hm
    have hu : unrollTape p r = some c.2.unrolled := by rw [unrollTape, hc]; rfl
    simp only [hu]
    obtain ⟨x, hx, hcase⟩ := foldlM_opt (c.2.unrolled.length / 2 - 1) 1
      (1, 1 + c.2.unrolled.length) (f := fun k => c.2.unrolled.length - k * repeats c.2.unrolled k)
      (fun k h1 h2 => comprEff_eq h1 (by omega))
    rw [hx]
    refine ⟨x.1, rfl, ?_⟩
    rcases hcase with ⟨rfl, -⟩ | ⟨h, -⟩
    · exact Nat.le_refl 1
    · exact h

/-- C36.  If the machine neither halts nor is seen to spin out within the steps, the result is the
smallest size among those, from 1 up to half the length of the tape, for which most cells are saved
by writing a repeated piece once; the tape is one that the machine reaches. -/
theorem C36_opt_block_best (p : Prog) (steps r : Nat) (hm : measureBlocks p steps = some r) :
    ∃ (tape : List Color) (n : Nat) (c : Cfg) (a : Int) (saved : Nat → Nat) (k : Nat),
      runFor p n initCfg = some c ∧
      (∀ x, c.tape x = if a ≤ x then tape.getD (x - a).toNat 0 else 0) ∧
      (∀ j, 1 ≤ j → j < tape.length / 2 →
        ∃ places : Finset Nat, (∀ i, i ∈ places ↔ RepeatsAt tape j i) ∧
          saved j = j * places.card ∧ saved j ≤ tape.length) ∧
      optBlock p steps = some k ∧
      (tape.length / 2 ≤ 1 → k = 1) ∧
      (1 < tape.length / 2 → 1 ≤ k ∧ k < tape.length / 2 ∧
        (∀ j, 1 ≤ j → j < tape.length / 2 → saved j ≤ saved k) ∧
        ∀ j, 1 ≤ j → j < k → saved j < saved k) := by
  obtain ⟨⟨q, t⟩, hc⟩ := measureLoop_spec steps rfl (Nat.le_refl 0) hm
  obtain ⟨-, n, pos, hn⟩ := unrollLoop_run r hc
  obtain ⟨a, ha⟩ := unrolled_cells t pos
  have hu : unrollTape p r = some t.unrolled := by rw [unrollTape, hc]; rfl
  obtain ⟨x, hx, hcase⟩ := foldlM_opt (t.unrolled.length / 2 - 1) 1
      (1, 1 + t.unrolled.length) (f := fun k => t.unrolled.length - k * repeats t.unrolled k)
      (fun k h1 h2 => comprEff_eq h1 (by omega))
  have hmul : ∀ j, 1 ≤ j → j < t.unrolled.length / 2 →
      j * repeats t.unrolled j ≤ t.unrolled.length := by
    intro j h1 h2
    have e1 : repeats t.unrolled j ≤ (t.unrolled.length - 2 * j + j - 1) / j := by
      have := List.length_filter_le (fun i => decide ((t.unrolled.drop (i * j)).take j
        = (t.unrolled.drop (i * j + j)).take j))
        (List.range ((t.unrolled.length - 2 * j + j - 1) / j))
      rw [List.length_range] at this
      exact this
    have e2 := Nat.mul_le_mul_left j e1
    have e3 := Nat.mul_div_le (t.unrolled.length - 2 * j + j - 1) j
    omega
  refine ⟨t.unrolled, n, _, a, fun k => k * repeats t.unrolled k, x.1, hn, ha, fun j h1 h2 => ?_,
    ?_, fun hl => ?_, fun hl => ?_⟩
  · refine ⟨((List.range ((t.unrolled.length - 2 * j + j - 1) / j)).filter fun i =>
      decide ((t.unrolled.drop (i * j)).take j = (t.unrolled.drop (i * j + j)).take j)).toFinset,
      fun i => ?_, ?_, hmul j h1 h2⟩
    · rw [List.mem_toFinset, List.mem_filter, List.mem_range, RepeatsAt, decide_eq_true_iff,
        Nat.lt_iff_add_one_le, Nat.le_div_iff_mul_le h1, Nat.succ_mul]
      constructor
      · rintro ⟨h3, h4⟩; exact ⟨by omega, h4⟩
      · rintro ⟨h3, h4⟩; exact ⟨by omega, h4⟩
    · rw [List.toFinset_card_of_nodup (List.nodup_range.filter _)]
      rfl
  · simp only [optBlock, hm, hu, hx]
    rfl
  · have h0 : t.unrolled.length / 2 - 1 = 0 := by omega
    rw [h0] at hx
    cases hx
    rfl
  · rcases hcase with ⟨rfl, hall⟩ | ⟨h1, h2, h3, h4, h5, h6⟩
    · exfalso
      have := hall 1 (Nat.le_refl 1) (by omega)
      simp only at this
      omega
    · refine ⟨h1, by omega, fun j j1 j2 => ?_, fun j j1 j2 => ?_⟩
      · have := h5 j j1 (by omega)
        have b1 := hmul j j1 j2
        have b2 := hmul x.1 h1 (by omega)
        show _ * _ ≤ _ * _
        omega
      · have := h6 j j1 j2
        have b1 := hmul j j1 (by omega)
        have b2 := hmul x.1 h1 (by omega)
        show _ * _ < _ * _
        omega

/-- A tape `1 0 1 0 1 0 …` is best cut into pairs: `1RB ...  0RA ...`. -/
example : measureBlocks (fun s => if s = (0, 0) then some (1, true, 1)
      else if s = (1, 0) then some (0, true, 0) else none) 9 = some 9 ∧
    optBlock (fun s => if s = (0, 0) then some (1, true, 1)
      else if s = (1, 0) then some (0, true, 0) else none) 9 = some 2 := by
  decide +kernel

/-- `1` is also what is returned for a machine that halts. -/
example : optBlock (fun _ => none) 5 = some 1 := by decide

end BB
