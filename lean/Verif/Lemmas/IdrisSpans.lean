import Verif.Lemmas.IdrisTape
import Mathlib.Algebra.Order.Group.Nat

/-! # The six kinds of span of the Idris implementation -/

namespace BB.Idris

/-! ## One colour per cell -/

/-- The cells of a list of colours. -/
def cden (s : List Nat) (i : Nat) : Nat := s.getD i 0

theorem cden_nil (i : Nat) : cden [] i = 0 := by simp [cden]
theorem cden_zero (c : Nat) (s : List Nat) : cden (c :: s) 0 = c := by simp [cden]
theorem cden_succ (c : Nat) (s : List Nat) (i : Nat) : cden (c :: s) (i + 1) = cden s i := by
  simp [cden]

theorem colorSpan_blank (s : List Nat) :
    colorSpan.spanBlank s = true ↔ ∀ i, cden s i = 0 := by
  show colorSpan.go s = true ↔ _
  induction s with
  | nil => simp [colorSpan.go, cden_nil]
  | cons c s ih =>
    cases c with
    | zero =>
      rw [colorSpan.go, ih]
      constructor
      · intro h i
        cases i with
        | zero => exact cden_zero _ _
        | succ i => rw [cden_succ]; exact h i
      · intro h i
        rw [← cden_succ 0]; exact h (i + 1)
    | succ c =>
      simp only [colorSpan.go, Bool.false_eq_true, false_iff]
      intro h
      have := h 0
      rw [cden_zero] at this
      omega

theorem marks_cons {g : Nat → Nat} {c m : Nat}
    (h : ∃ M : Finset Nat, (∀ i, i ∈ M ↔ g (i + 1) ≠ 0) ∧ M.card = m) (h0 : g 0 = c) :
    ∃ M : Finset Nat, (∀ i, i ∈ M ↔ g i ≠ 0) ∧ M.card = (if c = 0 then 0 else 1) + m := by
  obtain ⟨M, hM, hc⟩ := h
  refine ⟨(if c = 0 then ∅ else {0}) ∪ M.map (addRightEmbedding 1), ?_, ?_⟩
  · intro i
    simp only [Finset.mem_union, Finset.mem_map, addRightEmbedding_apply]
    cases i with
    | zero =>
      rw [h0]
      constructor
      · rintro (h | ⟨a, _, h⟩)
        · intro hz; simp [hz] at h
        · omega
      · intro h; left; simp [h]
    | succ i =>
      rw [← hM]
      constructor
      · rintro (h | ⟨a, ha, h⟩)
        · split at h <;> simp at h
        · obtain rfl : a = i := by omega
          exact ha
      · intro h; right; exact ⟨i, h, rfl⟩
  · rw [Finset.card_union_of_disjoint, Finset.card_map, hc]
    · split <;> simp
    · rw [Finset.disjoint_left]
      intro i h1 h2
      simp only [Finset.mem_map, addRightEmbedding_apply] at h2
      obtain ⟨a, _, rfl⟩ := h2
      split at h1 <;> simp at h1

theorem colorSpan_marks (s : List Nat) : ∃ M : Finset Nat, (∀ i, i ∈ M ↔ cden s i ≠ 0) ∧
    M.card = colorSpan.spanMarks s := by
  induction s with
  | nil => exact ⟨∅, by simp [cden_nil], rfl⟩
  | cons c s ih =>
    obtain ⟨M, hM, hc⟩ := marks_cons (g := cden (c :: s)) (by simpa only [cden_succ] using ih)
      (cden_zero c s)
    refine ⟨M, hM, hc.trans ?_⟩
    by_cases hz : c = 0
    · simp [colorSpan, hz]
    · simp [colorSpan, hz]; omega

theorem colorSpan_laws : SpanLaws colorSpan (fun _ => True) (fun _ => True) cden where
  blankSpan := ⟨trivial, cden_nil⟩
  spanBlank := fun _ => colorSpan_blank _
  spanMarks := fun _ => colorSpan_marks _
  pull := by
    rintro (_ | ⟨c, s⟩) _
    · exact ⟨rfl, trivial, fun i => by simp [colorSpan, cden]⟩
    · exact ⟨(cden_zero c s).symm, trivial, fun i => (cden_succ c s i).symm⟩
  push := fun _ _ => ⟨trivial, cden_zero _ _, fun i => cden_succ _ _ i⟩
  beq := by
    intro s s' h i
    rw [eq_of_beq (h : (s == s') = true)]

theorem cellSkip_run (cx : Nat) : ∀ (l : List Nat) (c : Nat) (r : List Nat), ∃ n l' r',
    cellSkipLeft (l, c, r) cx = (n + 1, (l', cden l n, r')) ∧
    (∀ i, i < n → cden l i = c) ∧ (c ≠ 0 ∨ (∃ i, cden l i ≠ c) → cden l n ≠ c) ∧
    (∀ i, cden l' i = cden l (i + n + 1)) ∧ (∀ i, i ≤ n → cden r' i = cx) ∧
    (∀ i, cden r' (i + n + 1) = cden r i) := by
  intro l
  induction l with
  | nil =>
    intro c r
    refine ⟨0, [], cx :: r, ?_, by simp, ?_, ?_, ?_, ?_⟩
    · rw [cellSkipLeft]; rfl
    · rw [cden_nil]
      rintro (h | ⟨i, h⟩)
      · exact h.symm
      · rwa [cden_nil] at h
    · simp [cden_nil]
    · intro i hi
      obtain rfl : i = 0 := by omega
      exact cden_zero _ _
    · intro i; exact cden_succ _ _ _
  | cons cn l ih =>
    intro c r
    by_cases hc : cn = c
    · subst hc
      obtain ⟨n, l', r', e, h1, h2, h3, h4, h5⟩ := ih cn (cx :: r)
      refine ⟨n + 1, l', r', ?_, ?_, ?_, ?_, ?_, ?_⟩
      · rw [cellSkipLeft, if_neg (by simp), e, cden_succ]
      · intro i hi
        cases i with
        | zero => exact cden_zero _ _
        | succ i => rw [cden_succ]; exact h1 i (by omega)
      · rw [cden_succ]
        rintro (h | ⟨i, h⟩)
        · exact h2 (.inl h)
        · cases i with
          | zero => rw [cden_zero] at h; exact absurd rfl h
          | succ i => rw [cden_succ] at h; exact h2 (.inr ⟨i, h⟩)
      · intro i
        rw [h3, show i + (n + 1) + 1 = (i + n + 1) + 1 by omega, cden_succ]
      · intro i hi
        by_cases hi' : i ≤ n
        · exact h4 i hi'
        · obtain rfl : i = 0 + n + 1 := by omega
          rw [h5]; exact cden_zero _ _
      · intro i
        rw [show i + (n + 1) + 1 = (i + 1) + n + 1 by omega, h5]; exact cden_succ _ _ _
    · refine ⟨0, l, cx :: r, ?_, by simp, ?_, ?_, ?_, ?_⟩
      · rw [cellSkipLeft, if_pos hc, cden_zero]; rfl
      · rw [cden_zero]; exact fun _ => hc
      · intro i; exact (cden_succ _ _ _).symm
      · intro i hi
        obtain rfl : i = 0 := by omega
        exact cden_zero _ _
      · intro i; exact cden_succ _ _ _

theorem cellSkip_laws :
    SkipLaws colorSpan (fun _ => True) (fun _ => True) cden cellSkipLeft where
  run := by
    intro l c r cx _ _ _
    obtain ⟨n, l', r', h⟩ := cellSkip_run cx l c r
    exact ⟨n, l', r', h.1, trivial, trivial, h.2⟩
  init := by
    intro cx _
    show (cellSkipLeft ([], 0, []) cx).1 = 1
    rw [cellSkipLeft]; rfl

/-! ## Blocks -/

/-- The cells of a list of blocks. -/
def bden : List (Nat × Nat) → Nat → Nat
  | [], _ => 0
  | (c, n) :: s, i => if i < n then c else bden s (i - n)

/-- No block is empty and neighbours differ in colour. -/
def binv : List (Nat × Nat) → Prop
  | [] => True
  | (c, n) :: s => 1 ≤ n ∧ s.head?.map Prod.fst ≠ some c ∧ binv s

theorem bden_lt {c n i : Nat} {s} (h : i < n) : bden ((c, n) :: s) i = c := by
  rw [bden, if_pos h]
theorem bden_add {c n i : Nat} {s} : bden ((c, n) :: s) (n + i) = bden s i := by
  rw [bden, if_neg (by omega), Nat.add_sub_cancel_left]

theorem blockSpan_blank {s : List (Nat × Nat)} (hs : binv s) :
    blockSpan.spanBlank s = true ↔ ∀ i, bden s i = 0 := by
  show blockSpan.go s = true ↔ _
  induction s with
  | nil => simp [blockSpan.go, bden]
  | cons b s ih =>
    obtain ⟨c, n⟩ := b
    obtain ⟨h1, _, h3⟩ := hs
    cases c with
    | zero =>
      rw [blockSpan.go, ih h3]
      constructor
      · intro h i
        by_cases hi : i < n
        · exact bden_lt hi
        · rw [bden, if_neg hi]; exact h _
      · intro h i
        rw [← bden_add (c := 0) (n := n)]; exact h _
    | succ c =>
      simp only [blockSpan.go, Bool.false_eq_true, false_iff]
      intro h
      have := h 0
      rw [bden_lt (by omega)] at this
      omega

theorem foldl_marks (s : List (Nat × Nat)) (a : Nat) :
    s.foldl (fun a b => a + (if b.1 = 0 then 0 else b.2)) a =
      a + s.foldl (fun a b => a + (if b.1 = 0 then 0 else b.2)) 0 := by
  induction s generalizing a with
  | nil => simp
  | cons b s ih => rw [List.foldl_cons, List.foldl_cons, ih, ih (0 + _)]; omega

theorem blockSpan_marks (s : List (Nat × Nat)) : ∃ M : Finset Nat, (∀ i, i ∈ M ↔ bden s i ≠ 0) ∧
    M.card = blockSpan.spanMarks s := by
  induction s with
  | nil => exact ⟨∅, by simp [bden], rfl⟩
  | cons b s ih =>
    obtain ⟨c, n⟩ := b
    obtain ⟨M, hM, hc⟩ := ih
    refine ⟨(if c = 0 then ∅ else Finset.range n) ∪ M.map (addRightEmbedding n), ?_, ?_⟩
    · intro i
      simp only [Finset.mem_union, Finset.mem_map, addRightEmbedding_apply]
      by_cases hi : i < n
      · rw [bden_lt hi]
        constructor
        · rintro (h | ⟨a, _, h⟩)
          · intro hz; simp [hz] at h
          · omega
        · intro h; left; simp [h, hi]
      · obtain ⟨j, rfl⟩ : ∃ j, i = n + j := ⟨i - n, by omega⟩
        rw [bden_add, ← hM]
        constructor
        · rintro (h | ⟨a, ha, h⟩)
          · split at h
            · simp at h
            · exact absurd (Finset.mem_range.mp h) hi
          · obtain rfl : a = j := by omega
            exact ha
        · intro h; right; exact ⟨j, h, by omega⟩
    · rw [Finset.card_union_of_disjoint, Finset.card_map, hc]
      · show _ = ((c, n) :: s).foldl (fun a b => a + (if b.1 = 0 then 0 else b.2)) 0
        rw [List.foldl_cons, foldl_marks]
        show _ + s.foldl (fun a b => a + (if b.1 = 0 then 0 else b.2)) 0 = _
        split <;> simp_all
      · rw [Finset.disjoint_left]
        intro i h1 h2
        simp only [Finset.mem_map, addRightEmbedding_apply] at h2
        obtain ⟨a, _, rfl⟩ := h2
        split at h1
        · simp at h1
        · have := Finset.mem_range.mp h1; omega

theorem blockSpan_pull {s : List (Nat × Nat)} (hs : binv s) :
    (blockSpan.pullNext s).1 = bden s 0 ∧ binv (blockSpan.pullNext s).2 ∧
      ∀ i, bden (blockSpan.pullNext s).2 i = bden s (i + 1) := by
  rcases s with _ | ⟨⟨c, n⟩, s⟩
  · exact ⟨rfl, trivial, fun i => rfl⟩
  · obtain ⟨h1, h2, h3⟩ := hs
    rcases n with _ | _ | k
    · omega
    · refine ⟨(bden_lt (by omega)).symm, h3, fun i => ?_⟩
      show bden s i = _
      rw [show i + 1 = 0 + 1 + i by omega, bden_add]
    · refine ⟨(bden_lt (by omega)).symm, ⟨by omega, h2, h3⟩, fun i => ?_⟩
      show bden ((c, k + 1) :: s) i = _
      by_cases hi : i < k + 1
      · rw [bden_lt hi, bden_lt (by omega)]
      · obtain ⟨j, rfl⟩ : ∃ j, i = k + 1 + j := ⟨i - (k + 1), by omega⟩
        rw [bden_add, show k + 1 + j + 1 = k + 1 + 1 + j by omega, bden_add]

theorem blockSpan_push {s : List (Nat × Nat)} (hs : binv s) (c n : Nat) (hn : 1 ≤ n) :
    binv (blockSpan.pushCurr c n s) ∧ (∀ i, i < n → bden (blockSpan.pushCurr c n s) i = c) ∧
      ∀ i, bden (blockSpan.pushCurr c n s) (n + i) = bden s i := by
  rcases s with _ | ⟨⟨q, m⟩, s⟩
  · exact ⟨⟨hn, by simp, trivial⟩, fun i hi => bden_lt hi, fun i => bden_add⟩
  · obtain ⟨h1, h2, h3⟩ := hs
    by_cases hc : c = q
    · subst hc
      have e : blockSpan.pushCurr c n ((c, m) :: s) = (c, n + m) :: s := if_pos rfl
      rw [e]
      refine ⟨⟨by omega, h2, h3⟩, fun i hi => bden_lt (by omega), fun i => ?_⟩
      by_cases hi : i < m
      · rw [bden_lt hi, bden_lt (by omega)]
      · obtain ⟨j, rfl⟩ : ∃ j, i = m + j := ⟨i - m, by omega⟩
        rw [← Nat.add_assoc, bden_add, bden_add]
    · have e : blockSpan.pushCurr c n ((q, m) :: s) = (c, n) :: (q, m) :: s := if_neg hc
      rw [e]
      refine ⟨⟨hn, by simpa using Ne.symm hc, h1, h2, h3⟩, fun i hi => bden_lt hi,
        fun i => bden_add⟩

theorem blockSpan_laws : SpanLaws blockSpan (fun _ => True) binv bden where
  blankSpan := ⟨trivial, fun _ => rfl⟩
  spanBlank := blockSpan_blank
  spanMarks := fun _ => blockSpan_marks _
  pull := blockSpan_pull
  push := by
    intro s c hs _
    obtain ⟨h1, h2, h3⟩ := blockSpan_push hs c 1 (le_refl 1)
    exact ⟨h1, h2 0 (by omega), fun i => by rw [Nat.add_comm]; exact h3 i⟩
  beq := by
    intro s s' h i
    rw [eq_of_beq (h : (s == s') = true)]

theorem step_skipLaw {σ : Type} {S : Spannable σ} {inv den ok} (hS : SpanLaws S ok inv den)
    {l r : σ} {c cx : Nat} (hl : inv l) (hr : inv r) (hcx : ok cx)
    (hne : c ≠ 0 ∨ (∃ i, den l i ≠ c) → den l 0 ≠ c) :
    ∃ n l' r', ScanNSpan.stepLeft S (l, c, r) cx = (n + 1, (l', den l n, r')) ∧ inv l' ∧ inv r' ∧
    (∀ i, i < n → den l i = c) ∧ (c ≠ 0 ∨ (∃ i, den l i ≠ c) → den l n ≠ c) ∧
    (∀ i, den l' i = den l (i + n + 1)) ∧ (∀ i, i ≤ n → den r' i = cx) ∧
    (∀ i, den r' (i + n + 1) = den r i) := by
  obtain ⟨h1, h2, h3⟩ := hS.pull hl
  obtain ⟨h4, h5, h6⟩ := hS.push hr hcx
  refine ⟨0, (S.pullNext l).2, S.pushCurr cx 1 r, ?_, h2, h4, by simp, hne, h3, ?_, h6⟩
  · rw [← h1]; rfl
  · intro i hi
    obtain rfl : i = 0 := by omega
    exact h5

theorem blockSkip_laws : SkipLaws blockSpan (fun _ => True) binv bden blockSkipLeft where
  run := by
    intro l c r cx hl hr hcx
    rcases l with _ | ⟨⟨bc, bn⟩, l⟩
    · refine step_skipLaw blockSpan_laws hl hr hcx ?_
      rintro (h | ⟨i, h⟩)
      · exact h.symm
      · exact h
    · by_cases hc : bc = c
      · subst hc
        have e : blockSkipLeft ((bc, bn) :: l, bc, r) cx = (1 + bn, ((blockSpan.pullNext l).2,
            (blockSpan.pullNext l).1, blockSpan.pushCurr cx (1 + bn) r)) := by
          rw [blockSkipLeft, if_neg (by simp)]
        obtain ⟨h1, h2, h3⟩ := hl
        obtain ⟨a1, a2, a3⟩ := blockSpan_pull h3
        obtain ⟨b1, b2, b3⟩ := blockSpan_push hr cx (1 + bn) (by omega)
        have e0 : bden ((bc, bn) :: l) bn = bden l 0 := bden_add (i := 0)
        refine ⟨bn, _, _, ?_, a2, b1, fun i hi => bden_lt hi, ?_, ?_, ?_, ?_⟩
        · rw [e, a1, e0, Nat.add_comm]
        · rw [e0]
          rcases l with _ | ⟨⟨q, m⟩, l⟩
          · rintro (h | ⟨i, h⟩)
            · exact h.symm
            · intro hz
              rw [bden] at hz
              apply h
              by_cases hi : i < bn
              · exact bden_lt hi
              · rw [bden, if_neg hi, bden, hz]
          · intro _
            rw [bden_lt (by have := h3.1; omega)]
            simpa using h2
        · intro i
          rw [a3, show i + bn + 1 = bn + (i + 1) by omega, bden_add]
        · intro i hi
          exact b2 i (by omega)
        · intro i
          rw [show i + bn + 1 = 1 + bn + i by omega]; exact b3 i
      · have e : blockSkipLeft ((bc, bn) :: l, c, r) cx =
            ScanNSpan.stepLeft blockSpan ((bc, bn) :: l, c, r) cx := by
          rw [blockSkipLeft, if_pos hc]
        rw [e]
        refine step_skipLaw blockSpan_laws hl hr hcx fun _ => ?_
        rw [bden_lt (by have := hl.1; omega)]; exact hc
  init := fun _ => rfl

/-! ## Spans that are other spans in disguise -/

/-- `φ` takes the operations of one kind of span to those of another. -/
structure SpanHom {σ σ' : Type} (S : Spannable σ) (S' : Spannable σ') (good : σ → Prop)
    (inv' : σ' → Prop) (φ : σ → σ') : Prop where
  blankSpan : good S.blankSpan ∧ φ S.blankSpan = S'.blankSpan
  spanBlank : ∀ {s}, good s → inv' (φ s) → S.spanBlank s = S'.spanBlank (φ s)
  spanMarks : ∀ {s}, good s → S.spanMarks s = S'.spanMarks (φ s)
  pull : ∀ {s}, good s → inv' (φ s) → (S.pullNext s).1 = (S'.pullNext (φ s)).1 ∧
    φ (S.pullNext s).2 = (S'.pullNext (φ s)).2 ∧ good (S.pullNext s).2
  push : ∀ {s} c n, good s → φ (S.pushCurr c n s) = S'.pushCurr c n (φ s) ∧
    good (S.pushCurr c n s)
  beq : ∀ {s s'}, S.beq s s' = true → φ s = φ s'

theorem SpanHom.laws {σ σ' : Type} {S : Spannable σ} {S' : Spannable σ'} {good inv' φ ok den'}
    (h : SpanHom S S' good inv' φ) (hS : SpanLaws S' ok inv' den') :
    SpanLaws S ok (fun s => good s ∧ inv' (φ s)) (fun s => den' (φ s)) where
  blankSpan := by
    obtain ⟨h1, h2⟩ := h.blankSpan
    simp only [h2]
    exact ⟨⟨h1, hS.blankSpan.1⟩, hS.blankSpan.2⟩
  spanBlank := by
    rintro s ⟨h1, h2⟩
    rw [h.spanBlank h1 h2]; exact hS.spanBlank h2
  spanMarks := by
    rintro s ⟨h1, h2⟩
    rw [h.spanMarks h1]; exact hS.spanMarks h2
  pull := by
    rintro s ⟨h1, h2⟩
    obtain ⟨a, b, c⟩ := h.pull h1 h2
    rw [a, b]
    exact ⟨(hS.pull h2).1, ⟨c, (hS.pull h2).2.1⟩, (hS.pull h2).2.2⟩
  push := by
    rintro s c ⟨h1, h2⟩ hc
    obtain ⟨a, b⟩ := h.push c 1 h1
    simp only [a]
    exact ⟨⟨b, (hS.push h2 hc).1⟩, (hS.push h2 hc).2⟩
  beq := by
    intro s s' he i
    simp only [h.beq he]

/-- `φ` takes one way to skip to another. -/
def SkipHom {σ σ' : Type} (good : σ → Prop) (inv' : σ' → Prop) (φ : σ → σ')
    (sk : ScanNSpan σ → Nat → Nat × ScanNSpan σ) (sk' : ScanNSpan σ' → Nat → Nat × ScanNSpan σ') :
    Prop :=
  ∀ l c r cx, good l → inv' (φ l) → good r → inv' (φ r) →
    (sk (l, c, r) cx).1 = (sk' (φ l, c, φ r) cx).1 ∧
    φ (sk (l, c, r) cx).2.1 = (sk' (φ l, c, φ r) cx).2.1 ∧
    (sk (l, c, r) cx).2.2.1 = (sk' (φ l, c, φ r) cx).2.2.1 ∧
    φ (sk (l, c, r) cx).2.2.2 = (sk' (φ l, c, φ r) cx).2.2.2 ∧
    good (sk (l, c, r) cx).2.1 ∧ good (sk (l, c, r) cx).2.2.2

theorem skip_of_hom {σ σ' : Type} {S : Spannable σ} {S' : Spannable σ'} {good inv' φ ok den' sk sk'}
    (h : SpanHom S S' good inv' φ) (hK : SkipLaws S' ok inv' den' sk')
    (hs : SkipHom good inv' φ sk sk')
    (hi : inv' S'.blankSpan) :
    SkipLaws S ok (fun s => good s ∧ inv' (φ s)) (fun s => den' (φ s)) sk where
  run := by
    rintro l c r cx ⟨l1, l2⟩ ⟨r1, r2⟩ hcx
    obtain ⟨n, l', r', e, hl', hr', rest⟩ := hK.run l2 r2 hcx (c := c)
    obtain ⟨a1, a2, a3, a4, a5, a6⟩ := hs l c r cx l1 l2 r1 r2
    rw [e] at a1 a2 a3 a4
    simp only at a1 a2 a3 a4
    refine ⟨n, (sk (l, c, r) cx).2.1, (sk (l, c, r) cx).2.2.2, ?_, ⟨a5, a2 ▸ hl'⟩,
      ⟨a6, a4 ▸ hr'⟩, ?_⟩
    · rw [← a1, ← a3]
    · rw [a2, a4]; exact rest
  init := by
    intro cx hcx
    obtain ⟨g, e⟩ := h.blankSpan
    rw [(hs _ _ _ cx g (e ▸ hi) g (e ▸ hi)).1, e]
    exact hK.init hcx

theorem step_of_hom {σ σ' : Type} {S : Spannable σ} {S' : Spannable σ'} {good inv' φ}
    (h : SpanHom S S' good inv' φ) {l c r cx} (l1 : good l) (l2 : inv' (φ l)) (r1 : good r) :
      (ScanNSpan.stepLeft S (l, c, r) cx).1 = (ScanNSpan.stepLeft S' (φ l, c, φ r) cx).1 ∧
      φ (ScanNSpan.stepLeft S (l, c, r) cx).2.1 =
        (ScanNSpan.stepLeft S' (φ l, c, φ r) cx).2.1 ∧
      (ScanNSpan.stepLeft S (l, c, r) cx).2.2.1 =
        (ScanNSpan.stepLeft S' (φ l, c, φ r) cx).2.2.1 ∧
      φ (ScanNSpan.stepLeft S (l, c, r) cx).2.2.2 =
        (ScanNSpan.stepLeft S' (φ l, c, φ r) cx).2.2.2 ∧
      good (ScanNSpan.stepLeft S (l, c, r) cx).2.1 ∧
      good (ScanNSpan.stepLeft S (l, c, r) cx).2.2.2 := by
  obtain ⟨a, b, d⟩ := h.pull l1 l2
  obtain ⟨e, f⟩ := h.push cx 1 r1
  exact ⟨rfl, b, a, e, d, f⟩

/-! ## Colours and counts in two lists -/

/-- The blocks of a pair of lists. -/
def splitBlocks (s : List Nat × List Nat) : List (Nat × Nat) := List.zip s.1 s.2

/-- As many counts as colours. -/
def splitGood (s : List Nat × List Nat) : Prop := s.1.length = s.2.length

theorem split_hom : SpanHom splitSpan blockSpan splitGood binv splitBlocks where
  blankSpan := ⟨rfl, rfl⟩
  spanBlank := by
    rintro ⟨a, b⟩ hg _
    show a.all (· == 0) = blockSpan.go (List.zip a b)
    induction a generalizing b with
    | nil => simp [blockSpan.go]
    | cons c a ih =>
      rcases b with _ | ⟨n, b⟩
      · cases hg
      · have := ih b (Nat.succ.inj hg) (by rename_i h; exact h.2.2)
        cases c with
        | zero => simpa [blockSpan.go] using this
        | succ c => simp [blockSpan.go]
  spanMarks := fun _ => rfl
  pull := by
    rintro ⟨a, b⟩ hg hi
    rcases a with _ | ⟨c, a⟩ <;> rcases b with _ | ⟨n, b⟩
    · exact ⟨rfl, rfl, rfl⟩
    · cases hg
    · cases hg
    · rcases n with _ | _ | k
      · exact absurd hi.1 (by omega)
      · exact ⟨rfl, rfl, Nat.succ.inj hg⟩
      · exact ⟨rfl, rfl, hg⟩
  push := by
    rintro ⟨a, b⟩ c n hg
    rcases a with _ | ⟨q, a⟩ <;> rcases b with _ | ⟨m, b⟩
    · exact ⟨rfl, rfl⟩
    · cases hg
    · cases hg
    · by_cases hc : c = q
      · subst hc
        have e : splitSpan.pushCurr c n (c :: a, m :: b) = (c :: a, (n + m) :: b) := if_pos rfl
        rw [e]
        exact ⟨(if_pos rfl : blockSpan.pushCurr c n ((c, m) :: List.zip a b) = _).symm, hg⟩
      · have e : splitSpan.pushCurr c n (q :: a, m :: b) = (c :: q :: a, n :: m :: b) := if_neg hc
        rw [e]
        exact ⟨(if_neg hc : blockSpan.pushCurr c n ((q, m) :: List.zip a b) = _).symm,
          congrArg Nat.succ hg⟩
  beq := by
    rintro ⟨a, b⟩ ⟨a', b'⟩ h
    have h : (a == a' && b == b') = true := h
    simp only [Bool.and_eq_true, beq_iff_eq] at h
    rw [h.1, h.2]

theorem splitSkip_hom : SkipHom splitGood binv splitBlocks splitSkipLeft blockSkipLeft := by
  rintro ⟨a, b⟩ c r cx gl il gr ir
  rcases a with _ | ⟨bc, a⟩ <;> rcases b with _ | ⟨bn, b⟩
  · exact step_of_hom split_hom gl il gr
  · cases gl
  · cases gl
  · have il' : binv ((bc, bn) :: splitBlocks (a, b)) := il
    by_cases hc : bc = c
    · subst hc
      have e : splitSkipLeft ((bc :: a, bn :: b), bc, r) cx =
          (1 + bn, ((splitSpan.pullNext (a, b)).2, (splitSpan.pullNext (a, b)).1,
            splitSpan.pushCurr cx (1 + bn) r)) := by
        rw [splitSkipLeft, if_neg (by simp)]
      have e' : blockSkipLeft (splitBlocks (bc :: a, bn :: b), bc, splitBlocks r) cx =
          (1 + bn, ((blockSpan.pullNext (splitBlocks (a, b))).2,
            (blockSpan.pullNext (splitBlocks (a, b))).1,
            blockSpan.pushCurr cx (1 + bn) (splitBlocks r))) := by
        show blockSkipLeft ((bc, bn) :: splitBlocks (a, b), bc, splitBlocks r) cx = _
        rw [blockSkipLeft, if_neg (by simp)]
      rw [e, e']
      obtain ⟨x, y, z⟩ := split_hom.pull (s := (a, b)) (Nat.succ.inj gl) il'.2.2
      obtain ⟨u, v⟩ := split_hom.push cx (1 + bn) gr
      exact ⟨rfl, y, x, u, z, v⟩
    · have e : splitSkipLeft ((bc :: a, bn :: b), c, r) cx =
          ScanNSpan.stepLeft splitSpan ((bc :: a, bn :: b), c, r) cx := by
        rw [splitSkipLeft, if_pos hc]
      have e' : blockSkipLeft (splitBlocks (bc :: a, bn :: b), c, splitBlocks r) cx =
          ScanNSpan.stepLeft blockSpan (splitBlocks (bc :: a, bn :: b), c, splitBlocks r) cx := by
        show blockSkipLeft ((bc, bn) :: splitBlocks (a, b), c, splitBlocks r) cx = _
        rw [blockSkipLeft, if_pos hc]; rfl
      rw [e, e']
      exact step_of_hom split_hom gl il gr

theorem splitSkip_laws : SkipLaws splitSpan (fun _ => True)
    (fun s => splitGood s ∧ binv (splitBlocks s)) (fun s => bden (splitBlocks s))
    splitSkipLeft :=
  skip_of_hom split_hom blockSkip_laws splitSkip_hom trivial

/-! ## Vectors -/

theorem allZ_toList {k : Nat} (v : Vect Nat k) : allZ v = colorSpan.go v.toList := by
  induction v with
  | nil => rfl
  | cons c v ih =>
    cases c with
    | zero => exact ih
    | succ c => rfl

theorem allZB_toList {k : Nat} (v : Vect (Nat × Nat) k) : allZB v = blockSpan.go v.toList := by
  induction v with
  | nil => rfl
  | cons b v ih =>
    obtain ⟨c, n⟩ := b
    cases c with
    | zero => exact ih
    | succ c => rfl

theorem foldl_toList {α β : Type} (f : β → α → β) {k : Nat} (v : Vect α k) (b : β) :
    v.foldl f b = v.toList.foldl f b := by
  induction v generalizing b with
  | nil => rfl
  | cons a v ih => exact ih _

/-- The list of a vector. -/
def vlist {α : Type} (v : VectSpan α) : List α := v.2.toList

theorem cellVect_hom : SpanHom cellVectSpan colorSpan (fun _ => True) (fun _ => True) vlist where
  blankSpan := ⟨trivial, rfl⟩
  spanBlank := fun _ _ => allZ_toList _
  spanMarks := fun _ => rfl
  pull := by
    rintro ⟨k, v⟩ _ _
    cases v with
    | nil => exact ⟨rfl, rfl, trivial⟩
    | cons c v => exact ⟨rfl, rfl, trivial⟩
  push := fun _ _ _ => ⟨rfl, trivial⟩
  beq := by
    intro v w h
    exact eq_of_beq (h : (v.2.toList == w.2.toList) = true)

theorem cellVectSkip {k : Nat} (l : Vect Nat k) (c : Nat) (r : VectSpan Nat) (cx : Nat) :
    (cellVectSkipLeft (⟨k, l⟩, c, r) cx).1 = (cellSkipLeft (l.toList, c, vlist r) cx).1 ∧
    vlist (cellVectSkipLeft (⟨k, l⟩, c, r) cx).2.1 =
      (cellSkipLeft (l.toList, c, vlist r) cx).2.1 ∧
    (cellVectSkipLeft (⟨k, l⟩, c, r) cx).2.2.1 =
      (cellSkipLeft (l.toList, c, vlist r) cx).2.2.1 ∧
    vlist (cellVectSkipLeft (⟨k, l⟩, c, r) cx).2.2.2 =
      (cellSkipLeft (l.toList, c, vlist r) cx).2.2.2 := by
  induction l generalizing c r with
  | nil =>
    rw [cellVectSkipLeft]
    simp only [Vect.toList]
    rw [cellSkipLeft]
    exact ⟨rfl, rfl, rfl, rfl⟩
  | @cons k cn l ih =>
    rw [cellVectSkipLeft]
    simp only [Vect.toList]
    rw [cellSkipLeft]
    by_cases hc : cn = c
    · rw [if_neg (by simpa using hc), if_neg (by simpa using hc)]
      obtain ⟨a, b, d, e⟩ := ih cn ⟨_, .cons cx r.2⟩
      exact ⟨congrArg (· + 1) a, b, d, e⟩
    · rw [if_pos hc, if_pos hc]
      exact ⟨rfl, rfl, rfl, rfl⟩

theorem cellVectSkip_hom :
    SkipHom (fun _ => True) (fun _ => True) vlist cellVectSkipLeft cellSkipLeft := by
  rintro ⟨k, l⟩ c r cx _ _ _ _
  obtain ⟨a, b, d, e⟩ := cellVectSkip l c r cx
  exact ⟨a, b, d, e, trivial, trivial⟩

theorem cellVectSkip_laws : SkipLaws cellVectSpan (fun _ => True)
    (fun _ => True ∧ True) (fun s => cden (vlist s)) cellVectSkipLeft :=
  skip_of_hom cellVect_hom cellSkip_laws cellVectSkip_hom trivial

theorem blockVect_hom : SpanHom blockVectSpan blockSpan (fun _ => True) binv vlist where
  blankSpan := ⟨trivial, rfl⟩
  spanBlank := fun _ _ => allZB_toList _
  spanMarks := fun _ => foldl_toList _ _ _
  pull := by
    rintro ⟨k, v⟩ _ _
    cases v with
    | nil => exact ⟨rfl, rfl, trivial⟩
    | cons b v =>
      obtain ⟨c, n⟩ := b
      rcases n with _ | _ | n <;> exact ⟨rfl, rfl, trivial⟩
  push := by
    rintro ⟨k, v⟩ c n _
    cases v with
    | nil => exact ⟨rfl, trivial⟩
    | cons b v =>
      obtain ⟨q, m⟩ := b
      refine ⟨?_, trivial⟩
      by_cases hc : c = q
      · subst hc
        have e : blockVectSpan.pushCurr c n ⟨_, .cons (c, m) v⟩ = ⟨_, .cons (c, n + m) v⟩ :=
          if_pos rfl
        rw [e]
        exact (if_pos rfl : blockSpan.pushCurr c n ((c, m) :: v.toList) = _).symm
      · have e : blockVectSpan.pushCurr c n ⟨_, .cons (q, m) v⟩ =
            ⟨_, .cons (c, n) (.cons (q, m) v)⟩ := if_neg hc
        rw [e]
        exact (if_neg hc : blockSpan.pushCurr c n ((q, m) :: v.toList) = _).symm
  beq := by
    intro v w h
    exact eq_of_beq (h : (v.2.toList == w.2.toList) = true)

theorem blockVectSkip_hom : SkipHom (fun _ => True) binv vlist blockVectSkipLeft blockSkipLeft := by
  rintro ⟨k, l⟩ c r cx gl il gr ir
  cases l with
  | nil => exact step_of_hom blockVect_hom trivial il trivial
  | @cons j b l =>
    obtain ⟨bc, bn⟩ := b
    have il' : binv ((bc, bn) :: vlist ⟨j, l⟩) := il
    by_cases hc : bc = c
    · subst hc
      have e : blockVectSkipLeft (⟨j + 1, .cons (bc, bn) l⟩, bc, r) cx =
          (1 + bn, ((blockVectSpan.pullNext ⟨j, l⟩).2, (blockVectSpan.pullNext ⟨j, l⟩).1,
            blockVectSpan.pushCurr cx (1 + bn) r)) := by
        rw [blockVectSkipLeft, if_neg (by simp)]
      have e' : blockSkipLeft (vlist ⟨j + 1, .cons (bc, bn) l⟩, bc, vlist r) cx =
          (1 + bn, ((blockSpan.pullNext (vlist ⟨j, l⟩)).2,
            (blockSpan.pullNext (vlist ⟨j, l⟩)).1,
            blockSpan.pushCurr cx (1 + bn) (vlist r))) := by
        show blockSkipLeft ((bc, bn) :: vlist ⟨j, l⟩, bc, vlist r) cx = _
        rw [blockSkipLeft, if_neg (by simp)]
      rw [e, e']
      obtain ⟨x, y, z⟩ := blockVect_hom.pull (s := ⟨j, l⟩) trivial il'.2.2
      obtain ⟨u, v⟩ := blockVect_hom.push (s := r) cx (1 + bn) trivial
      exact ⟨rfl, y, x, u, z, v⟩
    · have e : blockVectSkipLeft (⟨j + 1, .cons (bc, bn) l⟩, c, r) cx =
          ScanNSpan.stepLeft blockVectSpan (⟨j + 1, .cons (bc, bn) l⟩, c, r) cx := by
        rw [blockVectSkipLeft, if_pos hc]
      have e' : blockSkipLeft (vlist ⟨j + 1, .cons (bc, bn) l⟩, c, vlist r) cx =
          ScanNSpan.stepLeft blockSpan (vlist ⟨j + 1, .cons (bc, bn) l⟩, c, vlist r) cx := by
        show blockSkipLeft ((bc, bn) :: vlist ⟨j, l⟩, c, vlist r) cx = _
        rw [blockSkipLeft, if_pos hc]; rfl
      rw [e, e']
      exact step_of_hom blockVect_hom trivial il trivial

theorem blockVectSkip_laws : SkipLaws blockVectSpan (fun _ => True)
    (fun s => True ∧ binv (vlist s)) (fun s => bden (vlist s)) blockVectSkipLeft :=
  skip_of_hom blockVect_hom blockSkip_laws blockVectSkip_hom trivial

/-! ## The decimal digits of a number -/

/-- The digits of a number, least significant first. -/
def nden (n i : Nat) : Nat := n / 10 ^ i % 10

theorem nden_zero (n : Nat) : nden n 0 = n % 10 := by simp [nden]
theorem nden_succ (n i : Nat) : nden n (i + 1) = nden (n / 10) i := by
  simp only [nden]
  rw [Nat.pow_succ, Nat.mul_comm, Nat.div_div_eq_div_mul]
theorem nden_nil (i : Nat) : nden 0 i = 0 := by simp [nden]

theorem nden_blank (n : Nat) : n = 0 ↔ ∀ i, nden n i = 0 := by
  induction n using Nat.strongRecOn with
  | ind n ih =>
    constructor
    · rintro rfl; exact nden_nil
    · intro h
      by_contra hn
      have h0 := h 0
      rw [nden_zero] at h0
      have := (ih (n / 10) (by omega)).mpr fun i => by rw [← nden_succ]; exact h (i + 1)
      omega

theorem digitChar_zero {d : Nat} (h : d < 10) : Nat.digitChar d ≠ '0' ↔ d ≠ 0 := by
  revert d; decide

theorem nden_marks (n : Nat) : ∃ M : Finset Nat, (∀ i, i ∈ M ↔ nden n i ≠ 0) ∧
    M.card = numSpan.spanMarks n := by
  induction n using Nat.strongRecOn with
  | ind n ih =>
    by_cases hn : n < 10
    · have e : numSpan.spanMarks n = if n = 0 then 0 else 1 := by
        show ((Nat.toDigits 10 n).filter (· ≠ '0')).length = _
        rw [Nat.toDigits_of_lt_base hn]
        have := digitChar_zero hn
        by_cases hz : n = 0
        · subst hz; rfl
        · rw [if_neg hz, List.filter_cons_of_pos (by simpa using this.mpr hz)]; rfl
      rw [e]
      obtain ⟨M, hM, hc⟩ := marks_cons (g := nden n) (c := n) (m := 0)
        ⟨∅, by intro i; rw [nden_succ, show n / 10 = 0 by omega, nden_nil]; simp, rfl⟩
        (by rw [nden_zero]; omega)
      exact ⟨M, hM, hc⟩
    · have e : numSpan.spanMarks n = (if n % 10 = 0 then 0 else 1) + numSpan.spanMarks (n / 10) := by
        show ((Nat.toDigits 10 n).filter (· ≠ '0')).length =
          _ + ((Nat.toDigits 10 (n / 10)).filter (· ≠ '0')).length
        have h10 : n % 10 < 10 := by omega
        have := Nat.toDigits_append_toDigits (b := 10) (n := n / 10) (d := n % 10) (by omega)
          (by omega) h10
        rw [show 10 * (n / 10) + n % 10 = n by omega] at this
        rw [← this, List.filter_append, List.length_append, Nat.toDigits_of_lt_base h10]
        have hd := digitChar_zero h10
        by_cases hz : n % 10 = 0
        · rw [if_pos hz, hz]
          have : List.filter (fun x => decide (x ≠ '0')) [Nat.digitChar 0] = [] := by decide
          rw [this]; simp
        · rw [if_neg hz, List.filter_cons_of_pos (by simpa using hd.mpr hz)]
          simp; omega
      rw [e]
      refine marks_cons ?_ (nden_zero n)
      obtain ⟨M, hM, hc⟩ := ih (n / 10) (by omega)
      exact ⟨M, fun i => by rw [hM, nden_succ], hc⟩

theorem numSpan_laws : SpanLaws numSpan (· < 10) (fun _ => True) nden where
  blankSpan := ⟨trivial, nden_nil⟩
  spanBlank := by
    intro n _
    rw [← nden_blank]
    cases n <;> simp [numSpan]
  spanMarks := fun _ => nden_marks _
  pull := fun _ => ⟨(nden_zero _).symm, trivial, fun i => (nden_succ _ i).symm⟩
  push := by
    intro s c _ hc
    refine ⟨trivial, ?_, ?_⟩
    · rw [nden_zero]; show (c + 10 * s) % 10 = c; omega
    · intro i
      rw [nden_succ]; congr 1
      show (c + 10 * s) / 10 = s; omega
  beq := by
    intro s s' h i
    rw [eq_of_beq (h : (s == s') = true)]

theorem numSkip_run {cx : Nat} (hcx : cx < 10) : ∀ (l c r : Nat), ∃ n l' r',
    numSkipLeft (l, c, r) cx = (n + 1, (l', nden l n, r')) ∧
    (∀ i, i < n → nden l i = c) ∧ (c ≠ 0 ∨ (∃ i, nden l i ≠ c) → nden l n ≠ c) ∧
    (∀ i, nden l' i = nden l (i + n + 1)) ∧ (∀ i, i ≤ n → nden r' i = cx) ∧
    (∀ i, nden r' (i + n + 1) = nden r i) := by
  intro l
  induction l using Nat.strongRecOn with
  | ind l ih =>
    intro c r
    by_cases hd : l = 0 ∨ c ≠ l % 10
    · have e : numSkipLeft (l, c, r) cx = ScanNSpan.stepLeft numSpan (l, c, r) cx := by
        rcases l with _ | l
        · rw [numSkipLeft]
        · rw [numSkipLeft]; simp only; rw [if_pos (hd.resolve_left (by omega))]
      rw [e]
      obtain ⟨n, l', r', h1, _, _, h2⟩ := step_skipLaw numSpan_laws (l := l) (r := r) (c := c)
        trivial trivial hcx (by
          rw [nden_zero]
          rcases hd with rfl | hd
          · rintro (h | ⟨i, h⟩)
            · exact h.symm
            · rwa [nden_nil] at h
          · exact fun _ => hd.symm)
      exact ⟨n, l', r', h1, h2⟩
    · push Not at hd
      obtain ⟨hl, rfl⟩ := hd
      obtain ⟨k, rfl⟩ : ∃ k, l = k + 1 := ⟨l - 1, by omega⟩
      obtain ⟨n, l', r', e, h1, h2, h3, h4, h5⟩ := ih ((k + 1) / 10) (by omega) ((k + 1) % 10)
        (numSpan.pushCurr cx 1 r)
      obtain ⟨_, p1, p2⟩ := numSpan_laws.push (s := r) trivial hcx
      refine ⟨n + 1, l', r', ?_, ?_, ?_, ?_, ?_, ?_⟩
      · rw [numSkipLeft]; simp only
        rw [if_neg (by simp), e, nden_succ]
      · intro i hi
        cases i with
        | zero => exact nden_zero _
        | succ i => rw [nden_succ]; exact h1 i (by omega)
      · rw [nden_succ]
        rintro (h | ⟨i, h⟩)
        · exact h2 (.inl h)
        · cases i with
          | zero => rw [nden_zero] at h; exact absurd rfl h
          | succ i => rw [nden_succ] at h; exact h2 (.inr ⟨i, h⟩)
      · intro i
        rw [h3, show i + (n + 1) + 1 = (i + n + 1) + 1 by omega, nden_succ (k + 1)]
      · intro i hi
        by_cases hi' : i ≤ n
        · exact h4 i hi'
        · obtain rfl : i = 0 + n + 1 := by omega
          rw [h5]; exact p1
      · intro i
        rw [show i + (n + 1) + 1 = (i + 1) + n + 1 by omega, h5]; exact p2 i

theorem numSkip_laws : SkipLaws numSpan (· < 10) (fun _ => True) nden numSkipLeft where
  run := by
    intro l c r cx _ _ hcx
    obtain ⟨n, l', r', h⟩ := numSkip_run hcx l c r
    exact ⟨n, l', r', h.1, trivial, trivial, h.2⟩
  init := by
    intro cx _
    show (numSkipLeft (0, 0, 0) cx).1 = 1
    rw [numSkipLeft]; rfl

/-! ## The six tapes -/

theorem cellTape_exact : Exact cellTape (fun _ => True) (SpanRep (fun _ => True) cden) :=
  scan_exact colorSpan_laws cellSkip_laws

theorem blockTape_exact : Exact blockTape (fun _ => True) (SpanRep binv bden) :=
  scan_exact blockSpan_laws blockSkip_laws

theorem splitTape_exact : Exact splitTape (fun _ => True)
    (SpanRep (fun s => splitGood s ∧ binv (splitBlocks s)) fun s => bden (splitBlocks s)) :=
  scan_exact (split_hom.laws blockSpan_laws) splitSkip_laws

theorem numTape_exact : Exact numTape (· < 10) (SpanRep (fun _ => True) nden) :=
  scan_exact numSpan_laws numSkip_laws

theorem cellVectTape_exact : Exact cellVectTape (fun _ => True)
    (SpanRep (fun _ => True ∧ True) fun s => cden (vlist s)) :=
  scan_exact (cellVect_hom.laws colorSpan_laws) cellVectSkip_laws

theorem blockVectTape_exact : Exact blockVectTape (fun _ => True)
    (SpanRep (fun s => True ∧ binv (vlist s)) fun s => bden (vlist s)) :=
  scan_exact (blockVect_hom.laws blockSpan_laws) blockVectSkip_laws

end BB.Idris
