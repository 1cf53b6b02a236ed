import Verif.Lemmas.Tape
import Mathlib.Data.Finset.Card
import Mathlib.Data.Finset.Image
import Mathlib.Data.Finset.Range
import Mathlib.Algebra.Group.Embedding
import Mathlib.Algebra.Order.Ring.Nat

/-! # `blank`, `at_edge` and `marks` in terms of cells -/

namespace BB

theorem half_marks (s : List Block) :
    ∃ S : Finset Nat, (∀ i, i ∈ S ↔ half s i ≠ 0) ∧ S.card = Tape.spanMarks s := by
  induction s with
  | nil => exact ⟨∅, by simp, by simp [Tape.spanMarks]⟩
  | cons b s ih =>
    obtain ⟨S, hS, hc⟩ := ih
    obtain ⟨c, n⟩ := b
    refine ⟨(if c = 0 then ∅ else Finset.range n) ∪ S.map (addRightEmbedding n), ?_, ?_⟩
    · intro i
      rw [half_cons, hrep_apply]
      simp only [Finset.mem_union, Finset.mem_map, addRightEmbedding_apply]
      by_cases hi : i < n
      · rw [if_pos hi]
        constructor
        · rintro (h | ⟨a, _, h⟩)
          · by_cases hz : c = 0
            · simp [hz] at h
            · exact hz
          · omega
        · intro h
          left
          rw [if_neg h]
          exact Finset.mem_range.mpr hi
      · rw [if_neg hi]
        constructor
        · rintro (h | ⟨a, ha, h⟩)
          · by_cases hz : c = 0
            · simp [hz] at h
            · rw [if_neg hz] at h
              exact absurd (Finset.mem_range.mp h) hi
          · have e : i - n = a := by omega
            rw [e]; exact (hS a).mp ha
        · intro h
          exact .inr ⟨i - n, (hS _).mpr h, by omega⟩
    · rw [Finset.card_union_of_disjoint, Finset.card_map, hc]
      · by_cases hz : c = 0
        · subst hz; simp [Tape.spanMarks]
        · simp [Tape.spanMarks, hz]
      · rw [Finset.disjoint_left]
        intro i h1 h2
        simp only [Finset.mem_map, addRightEmbedding_apply] at h2
        obtain ⟨a, _, rfl⟩ := h2
        by_cases hz : c = 0
        · simp [hz] at h1
        · rw [if_neg hz] at h1
          have := Finset.mem_range.mp h1
          omega

theorem Tape.cells_pos (t : Tape) (pos : Int) : t.cells pos pos = t.scan := RT.at_pos _ _

theorem Tape.cells_right (t : Tape) (pos : Int) (n : Nat) :
    t.cells pos (pos + 1 + n) = half t.rspan n := by
  simp only [Tape.cells, RT.at, Tape.rt]
  rw [if_neg (by omega), if_pos (by omega)]
  congr 1; omega

theorem Tape.cells_left (t : Tape) (pos : Int) (n : Nat) :
    t.cells pos (pos - 1 - n) = half t.lspan n := by
  simp only [Tape.cells, RT.at, Tape.rt]
  rw [if_neg (by omega), if_neg (by omega)]
  congr 1; omega

theorem Tape.marks_cells (t : Tape) (pos : Int) :
    ∃ S : Finset Int, (∀ x, x ∈ S ↔ t.cells pos x ≠ 0) ∧ S.card = t.marks := by
  obtain ⟨L, hL, cL⟩ := half_marks t.lspan
  obtain ⟨R, hR, cR⟩ := half_marks t.rspan
  let fl : Nat ↪ Int := ⟨fun n => pos - 1 - n, fun a b h => by simp at h; omega⟩
  let fr : Nat ↪ Int := ⟨fun n => pos + 1 + n, fun a b h => by simp at h; omega⟩
  refine ⟨(if t.scan = 0 then ∅ else {pos}) ∪ (L.map fl ∪ R.map fr), ?_, ?_⟩
  · intro x
    simp only [Finset.mem_union, Finset.mem_map]
    rcases Int.lt_trichotomy x pos with h | h | h
    · obtain ⟨n, rfl⟩ : ∃ n : Nat, x = pos - 1 - n := ⟨(pos - 1 - x).toNat, by omega⟩
      rw [t.cells_left, ← hL]
      constructor
      · rintro (h' | ⟨a, ha, h'⟩ | ⟨a, ha, h'⟩)
        · split at h'
          · simp at h'
          · simp at h'; omega
        · have : pos - 1 - (a:Int) = pos - 1 - n := h'
          have : a = n := by omega
          subst this; exact ha
        · have : pos + 1 + (a:Int) = pos - 1 - n := h'
          omega
      · intro h'
        exact .inr (.inl ⟨n, h', rfl⟩)
    · subst h
      rw [t.cells_pos]
      constructor
      · rintro (h' | ⟨a, ha, h'⟩ | ⟨a, ha, h'⟩)
        · split at h'
          · simp at h'
          · assumption
        · have : x - 1 - (a:Int) = x := h'
          omega
        · have : x + 1 + (a:Int) = x := h'
          omega
      · intro h'
        left; rw [if_neg h']; simp
    · obtain ⟨n, rfl⟩ : ∃ n : Nat, x = pos + 1 + n := ⟨(x - pos - 1).toNat, by omega⟩
      rw [t.cells_right, ← hR]
      constructor
      · rintro (h' | ⟨a, ha, h'⟩ | ⟨a, ha, h'⟩)
        · split at h'
          · simp at h'
          · simp at h'; omega
        · have : pos - 1 - (a:Int) = pos + 1 + n := h'
          omega
        · have : pos + 1 + (a:Int) = pos + 1 + n := h'
          have : a = n := by omega
          subst this; exact ha
      · intro h'
        exact .inr (.inr ⟨n, h', rfl⟩)
  · rw [Finset.card_union_of_disjoint, Finset.card_union_of_disjoint, Finset.card_map,
      Finset.card_map, cL, cR, Tape.marks]
    · by_cases hz : t.scan = 0 <;> simp [hz, Nat.add_assoc]
    · rw [Finset.disjoint_left]
      intro x h1 h2
      simp only [Finset.mem_map] at h1 h2
      obtain ⟨a, _, h1⟩ := h1
      obtain ⟨b, _, h2⟩ := h2
      have e1 : pos - 1 - (a:Int) = x := h1
      have e2 : pos + 1 + (b:Int) = x := h2
      omega
    · rw [Finset.disjoint_left]
      intro x h1 h2
      simp only [Finset.mem_union, Finset.mem_map] at h2
      have hx : x = pos := by
        split at h1
        · simp at h1
        · simpa using h1
      rcases h2 with ⟨a, _, h2⟩ | ⟨a, _, h2⟩
      · have e2 : pos - 1 - (a:Int) = x := h2
        omega
      · have e2 : pos + 1 + (a:Int) = x := h2
        omega

theorem Tape.Canonical.blank_iff {t : Tape} (h : t.Canonical) (pos : Int) :
    t.blank = true ↔ ∀ x, t.cells pos x = 0 := by
  constructor
  · intro hb
    simp only [Tape.blank, Bool.and_eq_true, beq_iff_eq, List.isEmpty_iff] at hb
    obtain ⟨⟨h1, h2⟩, h3⟩ := hb
    intro x
    simp only [Tape.cells, Tape.rt, RT.at, h1, h2, h3, half_nil]
    split <;> [rfl; skip]
    split <;> rfl
  · intro hx
    have h1 : t.scan = 0 := by rw [← t.cells_pos pos]; exact hx _
    have h2 : t.lspan = [] := h.l.eq_nil_of_half fun i => by rw [← t.cells_left pos]; exact hx _
    have h3 : t.rspan = [] := h.r.eq_nil_of_half fun i => by rw [← t.cells_right pos]; exact hx _
    simp [Tape.blank, h1, h2, h3]

theorem Tape.Canonical.atEdge_right_iff {t : Tape} (h : t.Canonical) (pos : Int) :
    t.atEdge true = true ↔ ∀ x, pos ≤ x → t.cells pos x = 0 := by
  constructor
  · intro hb
    simp only [Tape.atEdge, Bool.and_eq_true, beq_iff_eq, if_true, List.isEmpty_iff] at hb
    obtain ⟨h1, h3⟩ := hb
    intro x hx
    simp only [Tape.cells, Tape.rt, RT.at, h1, h3, half_nil]
    split <;> [rfl; skip]
    rw [if_pos (by omega)]
  · intro hx
    have h1 : t.scan = 0 := by rw [← t.cells_pos pos]; exact hx _ (by omega)
    have h3 : t.rspan = [] := h.r.eq_nil_of_half fun i => by
      rw [← t.cells_right pos]; exact hx _ (by omega)
    simp [Tape.atEdge, h1, h3]

theorem Tape.Canonical.atEdge_left_iff {t : Tape} (h : t.Canonical) (pos : Int) :
    t.atEdge false = true ↔ ∀ x, x ≤ pos → t.cells pos x = 0 := by
  constructor
  · intro hb
    simp only [Tape.atEdge, Bool.and_eq_true, beq_iff_eq, Bool.false_eq_true, if_false,
      List.isEmpty_iff] at hb
    obtain ⟨h1, h3⟩ := hb
    intro x hx
    simp only [Tape.cells, Tape.rt, RT.at, h1, h3, half_nil]
    split <;> [rfl; skip]
    rw [if_neg (by omega)]
  · intro hx
    have h1 : t.scan = 0 := by rw [← t.cells_pos pos]; exact hx _ (by omega)
    have h3 : t.lspan = [] := h.l.eq_nil_of_half fun i => by
      rw [← t.cells_left pos]; exact hx _ (by omega)
    simp [Tape.atEdge, h1, h3]

theorem Tape.Canonical.ext_cells {t u : Tape} (ht : t.Canonical) (hu : u.Canonical) (pos : Int)
    (h : t.cells pos = u.cells pos) : t = u := by
  have hs : t.scan = u.scan := by rw [← t.cells_pos pos, h, u.cells_pos]
  have hl : t.lspan = u.lspan := ht.l.half_inj hu.l (by
    funext i; rw [← t.cells_left pos, h, u.cells_left])
  have hr : t.rspan = u.rspan := ht.r.half_inj hu.r (by
    funext i; rw [← t.cells_right pos, h, u.cells_right])
  cases t; cases u; simp_all

end BB
