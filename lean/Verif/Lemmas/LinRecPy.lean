import Verif.Model.LinRecPy
import Verif.Lemmas.Recur

/-! # The Python recurrence checkers: slices -/

namespace BB.PyRec

/-- The cell at a place. -/
def PtrTape.at (P : PtrTape) (x : Int) : Color :=
  if 0 ≤ x + P.init then P.tape.getD (x + P.init).toNat 0 else 0

theorem unroll_length (s : List Block) : (unroll s).length = (s.map Block.count).sum := by
  induction s with
  | nil => rfl
  | cons b s ih => simp [ih]

theorem flatMap_reverse (s : List Block) :
    (s.reverse.flatMap fun b => List.replicate b.count b.color) = (unroll s).reverse := by
  induction s with
  | nil => rfl
  | cons b s ih =>
    rw [List.reverse_cons, List.flatMap_append, ih, unroll_cons, List.reverse_append]
    simp

theorem fromHead_tape (t : HeadTape) : (PtrTape.fromHead t).tape
    = (unroll t.tape.lspan).reverse ++ [t.tape.scan] ++ unroll t.tape.rspan := by
  simp only [PtrTape.fromHead, flatMap_reverse]
  rfl

theorem fromHead_init (t : HeadTape) :
    (PtrTape.fromHead t).init = ((unroll t.tape.lspan).length : Int) - t.head := by
  simp only [PtrTape.fromHead, unroll_length]

theorem fromHead_length (t : HeadTape) : (PtrTape.fromHead t).tape.length
    = (unroll t.tape.lspan).length + 1 + (unroll t.tape.rspan).length := by
  rw [fromHead_tape]; simp; omega

theorem fromHead_at (t : HeadTape) (x : Int) :
    (PtrTape.fromHead t).at x = t.tape.cells t.head x := by
  simp only [PtrTape.at, fromHead_tape, fromHead_init, Tape.cells, RT.at, Tape.rt, half]
  generalize hl : unroll t.tape.lspan = l
  generalize unroll t.tape.rspan = r
  generalize t.tape.scan = s
  generalize t.head = h
  by_cases h0 : x = h
  · subst h0
    rw [if_pos (by omega), if_pos rfl]
    rw [show (x + (↑l.length - x)).toNat = l.length by omega]
    simp [List.getD_eq_getElem?_getD]
  · rw [if_neg h0]
    by_cases h1 : h < x
    · rw [if_pos (by omega), if_pos h1]
      rw [List.getD_eq_getElem?_getD, List.getD_eq_getElem?_getD,
        List.getElem?_append_right (by simp; omega)]
      congr 2
      simp
      omega
    · rw [if_neg h1]
      by_cases h2 : 0 ≤ x + (↑l.length - h)
      · rw [if_pos h2, List.getD_eq_getElem?_getD, List.getD_eq_getElem?_getD,
          List.append_assoc, List.getElem?_append_left (by simp; omega),
          List.getElem?_reverse (by omega)]
        congr 2
        omega
      · rw [if_neg h2, List.getD_eq_getElem?_getD, List.getElem?_eq_none (by omega)]
        rfl

/-! ## Slices as lists of cells -/

theorem getLtr_eq (P : PtrTape) (s : Int) (h : s + P.init ≤ P.tape.length) :
    P.getLtr s = (List.range (P.tape.length - P.init - s).toNat).map fun i : Nat => P.at (s + i) := by
  simp only [PtrTape.getLtr]
  by_cases h0 : -(s + P.init) ≤ 0
  · rw [if_pos h0]
    apply List.ext_getElem
    · simp; omega
    · intro i h1 h2
      simp only [List.getElem_drop, List.getElem_map, List.getElem_range, PtrTape.at]
      simp only [List.length_drop] at h1
      rw [if_pos (by omega), List.getD_eq_getElem?_getD,
        show (s + ↑i + P.init).toNat = (s + P.init).toNat + i by omega,
        List.getElem?_eq_getElem (by omega)]
      rfl
  · rw [if_neg h0]
    apply List.ext_getElem
    · simp; omega
    · intro i h1 h2
      simp only [List.getElem_append, List.length_replicate, List.getElem_replicate,
        List.getElem_map, List.getElem_range, PtrTape.at]
      simp only [List.length_append, List.length_replicate] at h1
      split
      · rw [if_neg (by omega)]
      · rw [if_pos (by omega), List.getD_eq_getElem?_getD,
          show (s + ↑i + P.init).toNat = i - (-(s + P.init)).toNat by omega,
          List.getElem?_eq_getElem (by omega)]
        rfl

theorem getRtl_eq (P : PtrTape) (e : Int) (h : 0 ≤ e + P.init + 1) :
    P.getRtl e = (List.range (e + P.init + 1).toNat).map fun i : Nat => P.at (i - P.init) := by
  have hat : ∀ i : Nat, P.at (i - P.init) = P.tape.getD i 0 := by
    intro i
    simp only [PtrTape.at]
    rw [if_pos (by omega), show (↑i - P.init + P.init).toNat = i by omega]
  simp only [PtrTape.getRtl, PtrTape.upTo, hat]
  by_cases h0 : e + (P.init + 1) - P.tape.length ≤ 0
  · rw [if_pos h0, if_pos (by omega)]
    apply List.ext_getElem
    · simp; omega
    · intro i h1 h2
      simp only [List.length_take] at h1
      simp only [List.getElem_take, List.getElem_map, List.getElem_range]
      rw [List.getD_eq_getElem?_getD, List.getElem?_eq_getElem (by omega)]
      rfl
  · rw [if_neg h0, if_pos (by omega)]
    apply List.ext_getElem
    · simp; omega
    · intro i h1 h2
      simp only [List.getElem_append, List.getElem_replicate, List.getElem_take,
        List.getElem_map, List.getElem_range, List.getD_eq_getElem?_getD]
      simp only [List.length_append, List.length_replicate, List.length_take] at h1
      split
      · rename_i h3
        simp only [List.length_take] at h3
        rw [List.getElem?_eq_getElem (by omega)]
        rfl
      · rename_i h3
        simp only [List.length_take] at h3
        rw [List.getElem?_eq_none (by omega)]
        rfl

theorem getCnt_eq (P : PtrTape) (s e : Int) :
    P.getCnt s e = (List.range (e + 1 - s).toNat).map fun i : Nat => P.at (s + i) := by
  simp only [PtrTape.getCnt, PtrTape.at]
  rw [show (e + (P.init + 1) - (s + P.init)).toNat = (e + 1 - s).toNat by omega]
  apply List.map_congr_left
  intro i _
  rw [show s + P.init + (i : Int) = s + i + P.init by omega]
  by_cases h0 : 0 ≤ s + i + P.init
  · by_cases h1 : s + ↑i + P.init < ↑P.tape.length
    · rw [if_pos ⟨h0, h1⟩, if_pos h0]
    · rw [if_neg (by omega), if_pos h0, List.getD_eq_getElem?_getD,
        List.getElem?_eq_none (by omega)]
      rfl
  · rw [if_neg (by omega), if_neg h0]

theorem map_range_eq {n m : Nat} {f g : Nat → Color} :
    (List.range n).map f = (List.range m).map g ↔ n = m ∧ ∀ i, i < n → f i = g i := by
  constructor
  · intro h
    have hl : n = m := by simpa using congrArg List.length h
    subst hl
    refine ⟨rfl, fun i hi => ?_⟩
    have h1 : ((List.range n).map f)[i]'(by simpa using hi)
        = ((List.range n).map g)[i]'(by simpa using hi) := by
      congr 1
    simpa using h1
  · rintro ⟨rfl, h⟩
    exact List.map_congr_left fun i hi => h i (List.mem_range.mp hi)

/-- Cells beyond the right end are 0. -/
theorem fromHead_right (t : HeadTape) (x : Int)
    (hx : t.head + (unroll t.tape.rspan).length < x) : t.tape.cells t.head x = 0 := by
  rw [← fromHead_at, PtrTape.at]
  split
  · rw [List.getD_eq_getElem?_getD, List.getElem?_eq_none (by
      rw [fromHead_length, fromHead_init]; omega)]
    rfl
  · rfl

/-- Cells beyond the left end are 0. -/
theorem fromHead_left (t : HeadTape) (x : Int)
    (hx : x < t.head - (unroll t.tape.lspan).length) : t.tape.cells t.head x = 0 := by
  rw [← fromHead_at, PtrTape.at, if_neg (by rw [fromHead_init]; omega)]

/-- What `aligns_with_optional_offsets` compares. -/
theorem aligns_iff (t prev : HeadTape) (lm rm : Int) (hlm : lm ≤ prev.head) (hrm : prev.head ≤ rm) :
    (PtrTape.fromHead t).aligns (PtrTape.fromHead prev) (t.head - prev.head) lm rm = true ↔
      (0 < t.head - prev.head →
        (unroll t.tape.rspan).length = (unroll prev.tape.rspan).length ∧
        ∀ x, lm ≤ x → t.tape.cells t.head (x + (t.head - prev.head))
          = prev.tape.cells prev.head x) ∧
      (t.head - prev.head < 0 →
        (unroll t.tape.lspan).length = (unroll prev.tape.lspan).length ∧
        ∀ x, x ≤ rm → t.tape.cells t.head (x + (t.head - prev.head))
          = prev.tape.cells prev.head x) ∧
      (t.head - prev.head = 0 →
        ∀ x, lm ≤ x → x ≤ rm → t.tape.cells t.head (x + (t.head - prev.head))
          = prev.tape.cells prev.head x) := by
  unfold PtrTape.aligns
  generalize hk : t.head - prev.head = k
  by_cases h1 : 0 < k
  · rw [if_pos h1, beq_iff_eq, getLtr_eq _ _ (by rw [fromHead_init, fromHead_length]; omega),
      getLtr_eq _ _ (by rw [fromHead_init, fromHead_length]; omega), map_range_eq]
    simp only [fromHead_init, fromHead_length, fromHead_at]
    constructor
    · rintro ⟨h2, h3⟩
      refine ⟨fun _ => ?_, fun h => by omega, fun h => by omega⟩
      have hlen : (unroll t.tape.rspan).length = (unroll prev.tape.rspan).length := by omega
      refine ⟨hlen, fun x hx => ?_⟩
      by_cases hb : prev.head + (unroll prev.tape.rspan).length < x
      · rw [fromHead_right prev x hb, fromHead_right t _ (by omega)]
      · have := h3 (x - lm).toNat (by omega)
        rw [show lm + ((x - lm).toNat : Int) = x by omega,
          show lm + k + ((x - lm).toNat : Int) = x + k by omega] at this
        exact this.symm
    · rintro ⟨h2, _, _⟩
      obtain ⟨h3, h4⟩ := h2 h1
      refine ⟨by omega, fun i hi => ?_⟩
      have := h4 (lm + i) (by omega)
      rw [show lm + k + (i : Int) = lm + i + k by omega]
      exact this.symm
  · rw [if_neg h1]
    by_cases h2 : k < 0
    · rw [if_pos h2, beq_iff_eq, getRtl_eq _ _ (by rw [fromHead_init]; omega),
        getRtl_eq _ _ (by rw [fromHead_init]; omega), map_range_eq]
      simp only [fromHead_init, fromHead_at]
      constructor
      · rintro ⟨h3, h4⟩
        refine ⟨fun h => by omega, fun _ => ?_, fun h => by omega⟩
        have hlen : (unroll t.tape.lspan).length = (unroll prev.tape.lspan).length := by omega
        refine ⟨hlen, fun x hx => ?_⟩
        by_cases hb : x < prev.head - (unroll prev.tape.lspan).length
        · rw [fromHead_left prev x hb, fromHead_left t _ (by omega)]
        · have := h4 (x - (prev.head - (unroll prev.tape.lspan).length)).toNat (by omega)
          rw [show ((x - (prev.head - (unroll prev.tape.lspan).length)).toNat : Int)
              - ((unroll prev.tape.lspan).length - prev.head) = x by omega,
            show ((x - (prev.head - (unroll prev.tape.lspan).length)).toNat : Int)
              - ((unroll t.tape.lspan).length - t.head) = x + k by omega] at this
          exact this.symm
      · rintro ⟨_, h3, _⟩
        obtain ⟨h4, h5⟩ := h3 h2
        refine ⟨by omega, fun i hi => ?_⟩
        have := h5 (i - ((unroll prev.tape.lspan).length - prev.head)) (by omega)
        rw [← this]
        congr 1
        omega
    · rw [if_neg h2, beq_iff_eq, getCnt_eq, getCnt_eq, map_range_eq]
      have hk0 : k = 0 := by omega
      subst hk0
      simp only [fromHead_at, Int.add_zero]
      constructor
      · rintro ⟨_, h3⟩
        refine ⟨fun h => by omega, fun h => by omega, fun _ x hx hx' => ?_⟩
        have := h3 (x - lm).toNat (by omega)
        rw [show lm + ((x - lm).toNat : Int) = x by omega] at this
        exact this.symm
      · rintro ⟨_, _, h3⟩
        exact ⟨trivial, fun i hi => (h3 trivial _ (by omega) (by omega)).symm⟩

/-! ## A step of the tape -/

/-- Everything the Python machines need to know about one `tape.step(shift, color, skip)`. -/
structure StepFacts (p : Prog) (q q' : State) (t : HeadTape) (shift : Bool) (c : Color)
    (t' : HeadTape) (k : Nat) : Prop where
  pos : 1 ≤ k
  canon : t'.tape.Canonical
  head : t'.head = t.head + disp shift k
  run : runFor p k (t.tape.cfg q t.head) = some (t'.tape.cfg q' t'.head)
  mid : ∀ m, 0 < m → m < k → ∃ d, runFor p m (t.tape.cfg q t.head) = some d ∧ d.state = q ∧
    ¬ d.Blank
  at_ : ∀ m, m ≤ k → ∃ d, runFor p m (t.tape.cfg q t.head) = some d ∧
    d.pos = t.head + disp shift m
  blank : c ≠ 0 → t'.tape.blank = false

theorem headStep_facts {p : Prog} {q q' : State} {t : HeadTape} {shift : Bool} {c : Color}
    {skip : Bool} (ht : t.tape.Canonical) (hp : p (q, t.tape.scan) = some (c, shift, q'))
    (hskip : skip = false ∨ skip = (q == q')) :
    StepFacts p q q' t shift c (headStep t shift c skip).1 (headStep t shift c skip).2 := by
  have hpy := py_step_eq_rs_step t.tape ht.l.posCounts ht.r.posCounts shift c skip
  have hq : skip = true → q' = q := by
    intro h
    rcases hskip with h' | h'
    · rw [h] at h'; cases h'
    · rw [h] at h'; exact (beq_iff_eq.mp h'.symm).symm
  obtain ⟨k1, k2⟩ := Rs.step_run (skip := skip) ht.l.posCounts ht.r.posCounts hp hq t.head
  have hhead : (headStep t shift c skip).1.head
      = t.head + disp shift (headStep t shift c skip).2 := by
    cases shift <;> simp [headStep, disp]; omega
  have htape : (headStep t shift c skip).1.tape = (Rs.step t.tape shift c skip).1 := by
    simp only [headStep, hpy]
  have hk : (headStep t shift c skip).2 = (Rs.step t.tape shift c skip).2 := by
    simp only [headStep, hpy]
  have hcan : (Rs.step t.tape shift c skip).1.Canonical := ht.rsStep shift c _
  have hbl : c ≠ 0 → (Rs.step t.tape shift c skip).1.blank = false := by
    intro hc
    have key : ∀ s n, (Rs.push s c n).isEmpty = false := by
      intro s n
      cases s with
      | nil => simp [Rs.push, hc]
      | cons b s => simp only [Rs.push]; split <;> rfl
    cases shift <;> simp [Tape.blank, Rs.step, key]
  rw [← hk] at k1
  have hrun : runFor p (headStep t shift c skip).2 (t.tape.cfg q t.head)
      = some ((headStep t shift c skip).1.tape.cfg q' (headStep t shift c skip).1.head) := by
    rw [hhead, htape, hk, k2]
  -- a single move
  have hone : (headStep t shift c skip).2 = 1 →
      StepFacts p q q' t shift c (headStep t shift c skip).1 (headStep t shift c skip).2 := by
    intro h1
    refine ⟨k1, htape ▸ hcan, hhead, hrun, fun m a b => by omega, fun m hm => ?_, fun hc => ?_⟩
    · rcases Nat.lt_or_ge m 1 with h | h
      · obtain rfl : m = 0 := by omega
        exact ⟨_, rfl, by cases shift <;> simp [Tape.cfg, disp]⟩
      · obtain rfl : m = (headStep t shift c skip).2 := by omega
        exact ⟨_, hrun, by simp [Tape.cfg, hhead]⟩
    · rw [htape]; exact hbl hc
  by_cases hs : skip = false
  · apply hone
    rw [hk]
    exact (Rs.step_stepped ht shift c skip 0).1 hs
  · have hs : skip = true := by simpa using hs
    have hqq : (q == q') = true := by
      rcases hskip with h | h
      · rw [h] at hs; cases hs
      · rw [← h]; exact hs
    by_cases he : t.tape.atEdge shift = true
    · apply hone
      rw [hk]
      cases shift
      · have : t.tape.lspan = [] := by
          simp [Tape.atEdge] at he; exact he.2
        simp [Rs.step, this, Rs.pull]
      · have : t.tape.rspan = [] := by
          simp [Tape.atEdge] at he; exact he.2
        simp [Rs.step, this, Rs.pull]
    · have he' : ¬ ((q == q') && t.tape.atEdge shift) = true := by simp [hqq, he]
      obtain ⟨_, _, _, j4, _⟩ := Rs.step_full ht hp he' t.head
      have j6 := Rs.step_positions ht hp he' t.head
      rw [hqq, ← hs, ← hk] at j4 j6
      exact ⟨k1, htape ▸ hcan, hhead, hrun, j4, j6, fun hc => htape ▸ hbl hc⟩

end BB.PyRec
