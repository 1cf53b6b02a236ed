import Verif.Model.Idris
import Mathlib.Data.Finset.Card
import Mathlib.Data.Finset.Image
import Mathlib.Data.Finset.Range
import Mathlib.Algebra.Group.Embedding
import Mathlib.Algebra.Order.Ring.Nat
import Mathlib.Algebra.Order.Group.Int
import Mathlib.Tactic.Common

/-! # What the operations of an Idris tape do to the cells -/

namespace BB.Idris

/-- Which way a shift moves. -/
def sgn : Shift → Int
  | .L => -1
  | .R => 1

/-- The cells after `n` moves in one direction that print `cx`. -/
def sweep (f : Int → Nat) (p : Int) (d : Shift) (n : Nat) (cx : Nat) : Int → Nat := fun x =>
  match d with
  | .L => if p - n < x ∧ x ≤ p then cx else f x
  | .R => if p ≤ x ∧ x < p + n then cx else f x

/-- One move leaves the cells ahead. -/
theorem sweep_ahead1 (f : Int → Nat) (p : Int) (d : Shift) (cx i : Nat) :
    sweep f p d 1 cx (p + sgn d * ((i + 1 : Nat) : Int)) = f (p + sgn d * ((i + 1 : Nat) : Int)) := by
  cases d <;> simp only [sweep] <;> rw [if_neg (by simp only [sgn]; omega)]

/-- A tape shows the cells `f` from position `p`: what its operations say and do is right, though
edges need not be noticed and `skip` may go by any number of cells of the scanned colour, or not
return. -/
structure Laws {τ : Type} (T : Tape τ) (ok : Nat → Prop) (Rep : τ → Int → (Int → Nat) → Prop) :
    Prop where
  init : Rep T.blankInit 0 (fun _ => 0)
  blank : ∀ {t p f}, Rep t p f → (T.blank t = true ↔ ∀ x, f x = 0)
  marks : ∀ {t p f}, Rep t p f → ∃ S : Finset Int, (∀ x, x ∈ S ↔ f x ≠ 0) ∧ S.card = T.marks t
  scan : ∀ {t p f}, Rep t p f → (T.read t).1 = f p
  edgeL : ∀ {t p f}, Rep t p f → (T.read t).2 = some .L → f p = 0 ∧ ∀ x, x < p → f x = 0
  edgeR : ∀ {t p f}, Rep t p f → (T.read t).2 = some .R → f p = 0 ∧ ∀ x, p < x → f x = 0
  step : ∀ {t p f} d {cx}, Rep t p f → ok cx →
    (T.step d t cx).1 = 1 ∧ Rep (T.step d t cx).2 (p + sgn d) (sweep f p d 1 cx)
  skip : ∀ {t p f d cx n t'}, Rep t p f → ok cx → T.skip d t cx = some (n, t') →
    1 ≤ n ∧ (∀ i : Nat, i < n → f (p + sgn d * i) = f p) ∧
      Rep t' (p + sgn d * n) (sweep f p d n cx)
  skipInit : ∀ {d cx n t'}, ok cx → T.skip d T.blankInit cx = some (n, t') → n = 1
  beq : ∀ {t t' p f q g}, T.beq t t' = true → Rep t p f → Rep t' q g →
    ∀ x, f (p + x) = g (q + x)

/-- Edges are always noticed, and `skip` goes by all cells of the scanned colour. -/
structure Exact {τ : Type} (T : Tape τ) (ok : Nat → Prop) (Rep : τ → Int → (Int → Nat) → Prop) :
    Prop extends Laws T ok Rep where
  seesL : ∀ {t p f}, Rep t p f → f p = 0 → (∀ x, x < p → f x = 0) → (T.read t).2 = some .L
  seesR : ∀ {t p f}, Rep t p f → f p = 0 → (∀ x, p < x → f x = 0) →
    (∃ x, x < p ∧ f x ≠ 0) → (T.read t).2 = some .R
  returns : ∀ {t p f} d {cx}, Rep t p f → ok cx → (T.skip d t cx).isSome
  far : ∀ {t p f d cx n t'}, Rep t p f → ok cx → T.skip d t cx = some (n, t') →
    (f p ≠ 0 ∨ ∃ i : Nat, f (p + sgn d * i) ≠ f p) → f (p + sgn d * n) ≠ f p

/-! ## Spans -/

/-- A span shows the cells on one side of the head, nearest first. -/
structure SpanLaws {σ : Type} (S : Spannable σ) (ok : Nat → Prop) (inv : σ → Prop)
    (den : σ → Nat → Nat) : Prop where
  blankSpan : inv S.blankSpan ∧ ∀ i, den S.blankSpan i = 0
  spanBlank : ∀ {s}, inv s → (S.spanBlank s = true ↔ ∀ i, den s i = 0)
  spanMarks : ∀ {s}, inv s → ∃ M : Finset Nat, (∀ i, i ∈ M ↔ den s i ≠ 0) ∧
    M.card = S.spanMarks s
  pull : ∀ {s}, inv s → (S.pullNext s).1 = den s 0 ∧ inv (S.pullNext s).2 ∧
    ∀ i, den (S.pullNext s).2 i = den s (i + 1)
  push : ∀ {s c}, inv s → ok c → inv (S.pushCurr c 1 s) ∧ den (S.pushCurr c 1 s) 0 = c ∧
    ∀ i, den (S.pushCurr c 1 s) (i + 1) = den s i
  beq : ∀ {s s'}, S.beq s s' = true → ∀ i, den s i = den s' i

/-- `skipLeft` goes by all cells of the scanned colour and prints on them. -/
structure SkipLaws {σ : Type} (S : Spannable σ) (ok : Nat → Prop) (inv : σ → Prop)
    (den : σ → Nat → Nat) (skipLeft : ScanNSpan σ → Nat → Nat × ScanNSpan σ) : Prop where
  run : ∀ {l c r cx}, inv l → inv r → ok cx → ∃ n l' r',
    skipLeft (l, c, r) cx = (n + 1, (l', den l n, r')) ∧ inv l' ∧ inv r' ∧
    (∀ i, i < n → den l i = c) ∧ (c ≠ 0 ∨ (∃ i, den l i ≠ c) → den l n ≠ c) ∧
    (∀ i, den l' i = den l (i + n + 1)) ∧ (∀ i, i ≤ n → den r' i = cx) ∧
    (∀ i, den r' (i + n + 1) = den r i)
  init : ∀ {cx}, ok cx → (skipLeft (S.blankSpan, 0, S.blankSpan) cx).1 = 1

section

variable {σ : Type} {S : Spannable σ} {ok : Nat → Prop} {inv : σ → Prop} {den : σ → Nat → Nat}

/-- A scanned cell with a span on each side shows `f` from `p`. -/
structure SpanRep (inv : σ → Prop) (den : σ → Nat → Nat) (t : ScanNSpan σ) (p : Int)
    (f : Int → Nat) : Prop where
  invL : inv t.1
  invR : inv t.2.2
  scan : f p = t.2.1
  left : ∀ i : Nat, f (p - 1 - i) = den t.1 i
  right : ∀ i : Nat, f (p + 1 + i) = den t.2.2 i

theorem SpanRep.mirror {l r : σ} {c : Nat} {p : Int} {f : Int → Nat}
    (h : SpanRep inv den (l, c, r) p f) : SpanRep inv den (r, c, l) (-p) (fun x => f (-x)) where
  invL := h.invR
  invR := h.invL
  scan := by simpa using h.scan
  left i := by
    have := h.right i
    simp only [show -(-p - 1 - (i : Int)) = p + 1 + i by omega]
    exact this
  right i := by
    have := h.left i
    simp only [show -(-p + 1 + (i : Int)) = p - 1 - i by omega]
    exact this

theorem SpanRep.congr {t : ScanNSpan σ} {p q : Int} {f g : Int → Nat}
    (h : SpanRep inv den t p f) (hp : q = p) (hf : ∀ x, g x = f x) : SpanRep inv den t q g := by
  obtain rfl : g = f := funext hf
  rw [hp]; exact h

theorem SpanRep.lt {t : ScanNSpan σ} {p : Int} {f : Int → Nat} (h : SpanRep inv den t p f)
    {x : Int} (hx : x < p) : f x = den t.1 (p - 1 - x).toNat := by
  rw [← h.left]; congr 1; omega

theorem SpanRep.gt {t : ScanNSpan σ} {p : Int} {f : Int → Nat} (h : SpanRep inv den t p f)
    {x : Int} (hx : p < x) : f x = den t.2.2 (x - p - 1).toNat := by
  rw [← h.right]; congr 1; omega

theorem SpanRep.leftZero {t : ScanNSpan σ} {p : Int} {f : Int → Nat} (h : SpanRep inv den t p f) :
    (∀ i, den t.1 i = 0) ↔ ∀ x, x < p → f x = 0 := by
  constructor
  · intro hz x hx
    rw [h.lt hx]; exact hz _
  · intro hz i
    rw [← h.left]; exact hz _ (by omega)

theorem SpanRep.rightZero {t : ScanNSpan σ} {p : Int} {f : Int → Nat}
    (h : SpanRep inv den t p f) : (∀ i, den t.2.2 i = 0) ↔ ∀ x, p < x → f x = 0 := by
  constructor
  · intro hz x hx
    rw [h.gt hx]; exact hz _
  · intro hz i
    rw [← h.right]; exact hz _ (by omega)

theorem read_zero (l r : σ) : ScanNSpan.read S (l, 0, r) =
    (0, if S.spanBlank l then some .L else if S.spanBlank r then some .R else none) := rfl

theorem read_pos (l r : σ) {c : Nat} (hc : c ≠ 0) : ScanNSpan.read S (l, c, r) = (c, none) := by
  cases c with
  | zero => exact absurd rfl hc
  | succ c => rfl

theorem blank_zero (l r : σ) : ScanNSpan.blank S (l, 0, r) = (S.spanBlank l && S.spanBlank r) := rfl

theorem blank_pos (l r : σ) {c : Nat} (hc : c ≠ 0) : ScanNSpan.blank S (l, c, r) = false := by
  cases c with
  | zero => exact absurd rfl hc
  | succ c => rfl

theorem scan_marks (hS : SpanLaws S ok inv den) {t : ScanNSpan σ} {p : Int} {f : Int → Nat}
    (h : SpanRep inv den t p f) :
    ∃ M : Finset Int, (∀ x, x ∈ M ↔ f x ≠ 0) ∧ M.card = ScanNSpan.marks S t := by
  obtain ⟨l, c, r⟩ := t
  obtain ⟨A, hA, hAc⟩ := hS.spanMarks h.invL
  obtain ⟨B, hB, hBc⟩ := hS.spanMarks h.invR
  have hi : Function.Injective fun i : Nat => p - 1 - (i : Int) := by
    intro a b hab; simp only at hab; omega
  have hj : Function.Injective fun i : Nat => p + 1 + (i : Int) := by
    intro a b hab; simp only at hab; omega
  refine ⟨A.map ⟨_, hi⟩ ∪ (if c = 0 then ∅ else {p}) ∪ B.map ⟨_, hj⟩, ?_, ?_⟩
  · intro x
    simp only [Finset.mem_union, Finset.mem_map, Function.Embedding.coeFn_mk]
    rcases lt_trichotomy x p with hx | hx | hx
    · rw [h.lt hx, ← hA]
      constructor
      · rintro ((⟨a, ha, rfl⟩ | h') | ⟨b, _, rfl⟩)
        · rwa [show (p - 1 - (p - 1 - (a : Int))).toNat = a by omega]
        · split at h'
          · simp at h'
          · have := Finset.mem_singleton.mp h'; omega
        · omega
      · intro h'
        exact .inl (.inl ⟨_, h', by omega⟩)
    · subst hx
      rw [h.scan]
      constructor
      · rintro ((⟨a, ha, h'⟩ | h') | ⟨b, _, h'⟩)
        · omega
        · intro hz
          have hz : c = 0 := hz
          rw [if_pos hz] at h'; simp at h'
        · omega
      · intro h'
        have h' : ¬ c = 0 := h'
        exact .inl (.inr (by rw [if_neg h']; simp))
    · rw [h.gt hx, ← hB]
      constructor
      · rintro ((⟨a, ha, rfl⟩ | h') | ⟨b, hb, rfl⟩)
        · omega
        · split at h'
          · simp at h'
          · have := Finset.mem_singleton.mp h'; omega
        · rwa [show (p + 1 + (b : Int) - p - 1).toNat = b by omega]
      · intro h'
        exact .inr ⟨_, h', by omega⟩
  · rw [Finset.card_union_of_disjoint, Finset.card_union_of_disjoint, Finset.card_map,
      Finset.card_map, hAc, hBc]
    · simp only [ScanNSpan.marks]
      split <;> simp
    · rw [Finset.disjoint_left]
      intro x hx hx'
      simp only [Finset.mem_map, Function.Embedding.coeFn_mk] at hx
      obtain ⟨a, _, rfl⟩ := hx
      split at hx'
      · simp at hx'
      · have := Finset.mem_singleton.mp hx'; omega
    · rw [Finset.disjoint_left]
      intro x hx hx'
      simp only [Finset.mem_union, Finset.mem_map, Function.Embedding.coeFn_mk] at hx hx'
      obtain ⟨b, _, rfl⟩ := hx'
      rcases hx with ⟨a, _, h'⟩ | h'
      · omega
      · split at h'
        · simp at h'
        · have := Finset.mem_singleton.mp h'; omega

/-- A move to the left. -/
theorem stepLeft_rep (hS : SpanLaws S ok inv den) {t : ScanNSpan σ} {p : Int} {f : Int → Nat}
    {cx : Nat} (h : SpanRep inv den t p f) (hcx : ok cx) :
    (ScanNSpan.stepLeft S t cx).1 = 1 ∧
      SpanRep inv den (ScanNSpan.stepLeft S t cx).2 (p - 1) (sweep f p .L 1 cx) := by
  obtain ⟨l, c, r⟩ := t
  obtain ⟨h1, h2, h3⟩ := hS.pull h.invL
  obtain ⟨h4, h5, h6⟩ := hS.push h.invR hcx
  refine ⟨rfl, ⟨h2, h4, ?_, ?_, ?_⟩⟩
  · have := h.left 0
    simp only [sweep, ScanNSpan.stepLeft] at *
    rw [if_neg (by omega), h1, ← this]; congr 1; omega
  · intro i
    have := h.left (i + 1)
    simp only [sweep, ScanNSpan.stepLeft] at *
    rw [if_neg (by omega), h3, ← this]; congr 1; omega
  · intro i
    simp only [sweep, ScanNSpan.stepLeft] at *
    cases i with
    | zero => rw [if_pos (by omega)]; exact h5.symm
    | succ i =>
      rw [if_neg (by omega)]
      have := h.right i
      simp only at this
      rw [h6, ← this]; congr 1; omega

/-- A skip to the left. -/
theorem skipLeft_rep {skipLeft : ScanNSpan σ → Nat → Nat × ScanNSpan σ}
    (hK : SkipLaws S ok inv den skipLeft) {t : ScanNSpan σ} {p : Int} {f : Int → Nat} {cx : Nat}
    (h : SpanRep inv den t p f) (hcx : ok cx) :
    ∃ n : Nat, (skipLeft t cx).1 = n + 1 ∧ (∀ i : Nat, i < n + 1 → f (p - i) = f p) ∧
      (f p ≠ 0 ∨ (∃ i : Nat, f (p - i) ≠ f p) → f (p - (n + 1 : Nat)) ≠ f p) ∧
      SpanRep inv den (skipLeft t cx).2 (p - (n + 1 : Nat)) (sweep f p .L (n + 1) cx) := by
  obtain ⟨l, c, r⟩ := t
  obtain ⟨n, l', r', e, hl, hr, hsame, hfar, h1, h2, h3⟩ := hK.run h.invL h.invR hcx (c := c)
  have hl' : ∀ i, f (p - 1 - (i : Nat)) = den l i := h.left
  have hr' : ∀ i, f (p + 1 + (i : Nat)) = den r i := h.right
  have hc : f p = c := h.scan
  rw [e]
  refine ⟨n, rfl, ?_, ?_, ⟨hl, hr, ?_, ?_, ?_⟩⟩
  · intro i hi
    cases i with
    | zero => simp
    | succ i =>
      rw [show p - ((i + 1 : Nat) : Int) = p - 1 - i by omega, hl', hc]
      exact hsame i (by omega)
  · rw [show p - ((n + 1 : Nat) : Int) = p - 1 - n by omega, hl', hc]
    rintro (h' | ⟨i, h'⟩)
    · exact hfar (.inl h')
    · cases i with
      | zero => simp [hc] at h'
      | succ i =>
        rw [show p - ((i + 1 : Nat) : Int) = p - 1 - i by omega, hl'] at h'
        exact hfar (.inr ⟨i, h'⟩)
  · simp only [sweep]
    rw [if_neg (by omega), show p - ((n + 1 : Nat) : Int) = p - 1 - n by omega, hl']
  · intro i
    simp only [sweep]
    rw [if_neg (by omega), h1, ← hl']; congr 1; omega
  · intro i
    simp only [sweep]
    by_cases hi : i ≤ n
    · rw [if_pos (by omega), h2 i hi]
    · rw [if_neg (by omega)]
      obtain ⟨j, rfl⟩ : ∃ j, i = j + n + 1 := ⟨i - n - 1, by omega⟩
      rw [h3, ← hr']; congr 1; omega

theorem sweep_mirror (f : Int → Nat) (p : Int) (n cx : Nat) (x : Int) :
    sweep (fun y => f (-y)) (-p) .L n cx (-x) = sweep f p .R n cx x := by
  simp only [sweep, Int.neg_neg]
  by_cases h : p ≤ x ∧ x < p + n
  · rw [if_pos h, if_pos (by omega)]
  · rw [if_neg h, if_neg (by omega)]

/-- Tapes made of spans. -/
theorem scan_exact {skipLeft : ScanNSpan σ → Nat → Nat × ScanNSpan σ}
    (hS : SpanLaws S ok inv den) (hK : SkipLaws S ok inv den skipLeft) :
    Exact (ScanNSpan.tape S skipLeft) ok (SpanRep inv den) where
  init := ⟨hS.blankSpan.1, hS.blankSpan.1, rfl, fun i => (hS.blankSpan.2 i).symm,
    fun i => (hS.blankSpan.2 i).symm⟩
  blank := by
    rintro ⟨l, c, r⟩ p f h
    show ScanNSpan.blank S (l, c, r) = true ↔ _
    have hc : f p = c := h.scan
    by_cases hz : c = 0
    · subst hz
      rw [blank_zero, Bool.and_eq_true, hS.spanBlank h.invL, hS.spanBlank h.invR]
      have hL := h.leftZero
      have hR := h.rightZero
      simp only at hL hR
      rw [hL, hR]
      constructor
      · rintro ⟨h1, h2⟩ x
        rcases lt_trichotomy x p with hx | hx | hx
        · exact h1 x hx
        · rw [hx]; exact hc
        · exact h2 x hx
      · intro h'
        exact ⟨fun x _ => h' x, fun x _ => h' x⟩
    · rw [blank_pos _ _ hz]
      constructor
      · intro h'; cases h'
      · intro h'; exact absurd (h' p) (by omega)
  marks := fun h => scan_marks hS h
  scan := by
    rintro ⟨l, c, r⟩ p f h
    show (ScanNSpan.read S (l, c, r)).1 = _
    have hc : f p = c := h.scan
    by_cases hz : c = 0
    · subst hz; rw [read_zero, hc]
    · rw [read_pos _ _ hz, hc]
  edgeL := by
    rintro ⟨l, c, r⟩ p f h he
    change (ScanNSpan.read S (l, c, r)).2 = _ at he
    have hc : f p = c := h.scan
    by_cases hz : c = 0
    · subst hz
      rw [read_zero] at he
      refine ⟨hc, h.leftZero.mp ((hS.spanBlank h.invL).mp ?_)⟩
      simp only at he ⊢
      by_contra hb
      rw [if_neg hb] at he
      split at he <;> cases he
    · rw [read_pos _ _ hz] at he; cases he
  edgeR := by
    rintro ⟨l, c, r⟩ p f h he
    change (ScanNSpan.read S (l, c, r)).2 = _ at he
    have hc : f p = c := h.scan
    by_cases hz : c = 0
    · subst hz
      rw [read_zero] at he
      refine ⟨hc, h.rightZero.mp ((hS.spanBlank h.invR).mp ?_)⟩
      simp only at he ⊢
      by_contra hb
      rw [if_neg hb] at he
      split at he <;> cases he
    · rw [read_pos _ _ hz] at he; cases he
  step := by
    rintro ⟨l, c, r⟩ p f d cx h hcx
    cases d with
    | L => exact stepLeft_rep hS h hcx
    | R =>
      obtain ⟨h1, h2⟩ := stepLeft_rep hS h.mirror hcx
      refine ⟨h1, ?_⟩
      have := h2.mirror
      refine this.congr (by simp only [sgn]; omega) ?_
      intro x
      exact (sweep_mirror f p 1 cx x).symm
  skip := by
    rintro ⟨l, c, r⟩ p f d cx n t' h hcx he
    cases d with
    | L =>
      obtain ⟨m, h1, h2, _, h4⟩ := skipLeft_rep hK h hcx
      have he' : skipLeft (l, c, r) cx = (n, t') := Option.some.inj he
      rw [he'] at h1 h4
      simp only at h1 h4
      subst h1
      refine ⟨by omega, ?_, h4.congr (by simp only [sgn]; omega) fun _ => rfl⟩
      intro i hi
      rw [show p + sgn .L * (i : Int) = p - i by simp only [sgn]; omega]; exact h2 i hi
    | R =>
      obtain ⟨m, h1, h2, _, h4⟩ := skipLeft_rep hK h.mirror hcx
      have he' : ScanNSpan.back (skipLeft (r, c, l) cx) = (n, t') := Option.some.inj he
      have e1 : (skipLeft (r, c, l) cx).1 = n := by
        have := congrArg Prod.fst he'; exact this
      have e2 : t' = ((skipLeft (r, c, l) cx).2.2.2, (skipLeft (r, c, l) cx).2.2.1,
          (skipLeft (r, c, l) cx).2.1) := by
        have := congrArg Prod.snd he'; exact this.symm
      rw [e1] at h1
      subst h1
      refine ⟨by omega, ?_, ?_⟩
      · intro i hi
        have := h2 i hi
        simp only [Int.neg_neg] at this
        rw [show p + sgn .R * (i : Int) = -(-p - i) by simp only [sgn]; omega]; exact this
      · rw [e2]
        refine h4.mirror.congr (by simp only [sgn]; omega) ?_
        intro x
        exact (sweep_mirror f p _ cx x).symm
  skipInit := by
    intro d cx n t' hcx he
    have := hK.init hcx
    cases d with
    | L =>
      have he' : skipLeft (S.blankSpan, 0, S.blankSpan) cx = (n, t') := Option.some.inj he
      rw [he'] at this; exact this
    | R =>
      have he' : ScanNSpan.back (skipLeft (S.blankSpan, 0, S.blankSpan) cx) = (n, t') :=
        Option.some.inj he
      have := congrArg Prod.fst he'
      exact this.symm.trans (hK.init hcx)
  beq := by
    rintro ⟨l, c, r⟩ ⟨l', c', r'⟩ p f q g he h1 h2 x
    have he : (S.beq l l' && (c == c' && S.beq r r')) = true := he
    simp only [Bool.and_eq_true, beq_iff_eq] at he
    obtain ⟨e1, rfl, e2⟩ := he
    rcases lt_trichotomy x 0 with hx | hx | hx
    · rw [h1.lt (by omega), h2.lt (by omega)]
      simp only
      rw [hS.beq e1]; congr 1; omega
    · subst hx; simp only [Int.add_zero]; rw [h1.scan, h2.scan]
    · rw [h1.gt (by omega), h2.gt (by omega)]
      simp only
      rw [hS.beq e2]; congr 1; omega
  seesL := by
    rintro ⟨l, c, r⟩ p f h hz hl
    obtain rfl : c = 0 := by rw [← hz]; exact h.scan.symm
    show (ScanNSpan.read S (l, 0, r)).2 = _
    rw [read_zero]
    simp only
    rw [if_pos ((hS.spanBlank h.invL).mpr (h.leftZero.mpr hl))]
  seesR := by
    rintro ⟨l, c, r⟩ p f h hz hr ⟨x, hx, hx'⟩
    obtain rfl : c = 0 := by rw [← hz]; exact h.scan.symm
    show (ScanNSpan.read S (l, 0, r)).2 = _
    rw [read_zero]
    simp only
    rw [if_neg, if_pos ((hS.spanBlank h.invR).mpr (h.rightZero.mpr hr))]
    intro hb
    exact hx' (h.leftZero.mp ((hS.spanBlank h.invL).mp hb) x hx)
  returns := by
    intro t p f d cx _ _
    cases d <;> rfl
  far := by
    rintro ⟨l, c, r⟩ p f d cx n t' h hcx he hex
    cases d with
    | L =>
      obtain ⟨m, h1, _, h3, _⟩ := skipLeft_rep hK h hcx
      have he' : skipLeft (l, c, r) cx = (n, t') := Option.some.inj he
      rw [he'] at h1
      simp only at h1
      subst h1
      rw [show p + sgn .L * ((m + 1 : Nat) : Int) = p - (m + 1 : Nat) by simp only [sgn]; omega]
      refine h3 (hex.imp_right ?_)
      rintro ⟨i, hi⟩
      exact ⟨i, by rwa [show p - (i : Int) = p + sgn .L * i by simp only [sgn]; omega]⟩
    | R =>
      obtain ⟨m, h1, _, h3, _⟩ := skipLeft_rep hK h.mirror hcx
      have he' : ScanNSpan.back (skipLeft (r, c, l) cx) = (n, t') := Option.some.inj he
      have e1 : (skipLeft (r, c, l) cx).1 = n := by
        have := congrArg Prod.fst he'; exact this
      rw [e1] at h1
      subst h1
      simp only [Int.neg_neg] at h3
      rw [show p + sgn .R * ((m + 1 : Nat) : Int) = -(-p - (m + 1 : Nat)) by
        simp only [sgn]; omega]
      refine h3 (hex.imp_right ?_)
      rintro ⟨i, hi⟩
      exact ⟨i, by rwa [show -(-p - (i : Int)) = p + sgn .R * i by simp only [sgn]; omega]⟩

end

end BB.Idris
