import Verif.Lemmas.IdrisSpans

/-! # `PtrTape` of the Idris implementation -/

namespace BB.Idris

/-- A list with a position shows `f` from `p`. -/
def PtrRep (t : PtrTape) (p : Int) (f : Int → Nat) : Prop :=
  t.1 < t.2.length ∧ (∀ x, x < p - t.1 → f x = 0) ∧ ∀ i : Nat, f (p - t.1 + i) = cden t.2 i

theorem PtrRep.scan {t : PtrTape} {p : Int} {f : Int → Nat} (h : PtrRep t p f) :
    f p = cden t.2 t.1 := by
  rw [← h.2.2]; congr 1; omega

theorem PtrRep.congr {t : PtrTape} {p q : Int} {f g : Int → Nat} (h : PtrRep t p f) (hp : q = p)
    (hf : ∀ x, g x = f x) : PtrRep t q g := by
  obtain rfl : g = f := funext hf
  rw [hp]; exact h

theorem cden_set {l : List Nat} {pos : Nat} (h : pos < l.length) (cx i : Nat) :
    cden (l.set pos cx) i = if i = pos then cx else cden l i := by
  unfold cden
  rw [List.getD_eq_getElem?_getD, List.getElem?_set]
  by_cases hi : pos = i
  · rw [if_pos hi, if_pos hi.symm, if_pos h]; rfl
  · rw [if_neg hi, if_neg (fun e => hi e.symm), List.getD_eq_getElem?_getD]

theorem cden_append_zero (l : List Nat) (i : Nat) : cden (l ++ [0]) i = cden l i := by
  unfold cden
  rw [List.getD_eq_getElem?_getD, List.getD_eq_getElem?_getD, List.getElem?_append]
  split
  · rfl
  · rename_i h
    rw [List.getElem?_eq_none (l := l) (by omega)]
    cases hk : i - l.length with
    | zero => rfl
    | succ k => rfl

theorem ptr_read (pos : Nat) : ∀ (l : List Nat), pos < l.length →
    (PtrTape.read (pos, l)).1 = cden l pos ∧
    ((PtrTape.read (pos, l)).2 = some .L → ∀ i, i ≤ pos → cden l i = 0) ∧
    ((PtrTape.read (pos, l)).2 = some .R → ∀ i, pos ≤ i → cden l i = 0) := by
  induction pos with
  | zero =>
    intro l hl
    rcases l with _ | ⟨c, l⟩
    · simp at hl
    · cases c with
      | zero =>
        rw [PtrTape.read]
        refine ⟨(cden_zero _ _).symm, fun _ i hi => ?_, fun h => (by cases h)⟩
        obtain rfl : i = 0 := by omega
        exact cden_zero _ _
      | succ c =>
        rw [PtrTape.read]
        · exact ⟨(cden_zero _ _).symm, fun h => (by cases h), fun h => (by cases h)⟩
        · intro h; cases h
  | succ pos ih =>
    intro l hl
    rcases l with _ | ⟨c, l⟩
    · simp at hl
    · cases c with
      | zero =>
        rw [PtrTape.read]
        obtain ⟨h1, h2, h3⟩ := ih l (by simpa using hl)
        refine ⟨h1.trans (cden_succ _ _ _).symm, fun h i hi => ?_, fun h i hi => ?_⟩
        · cases i with
          | zero => exact cden_zero _ _
          | succ i => rw [cden_succ]; exact h2 h i (by omega)
        · cases i with
          | zero => omega
          | succ i => rw [cden_succ]; exact h3 h i (by omega)
      | succ c =>
        have e : PtrTape.read (pos + 1, (c + 1) :: l) =
            match ((c + 1) :: l).getD (pos + 1) 0 with
            | 0 => if pos + 1 + 1 < ((c + 1) :: l).length then (0, none) else (0, some .R)
            | c' => (c', none) := by
          rw [PtrTape.read]
          · rfl
          all_goals intros
          all_goals simp_all
        rw [e]
        have hd : ((c + 1) :: l).getD (pos + 1) 0 = cden ((c + 1) :: l) (pos + 1) := rfl
        rw [hd]
        cases hc : cden ((c + 1) :: l) (pos + 1) with
        | zero =>
          simp only
          split
          · exact ⟨rfl, fun h => (by cases h), fun h => (by cases h)⟩
          · rename_i hlen
            refine ⟨rfl, fun h => by (simp only at h; cases h), fun _ i hi => ?_⟩
            rcases Nat.eq_or_lt_of_le hi with rfl | hlt
            · exact hc
            · unfold cden
              rw [List.getD_eq_getElem?_getD, List.getElem?_eq_none (by omega)]; rfl
        | succ d =>
          exact ⟨rfl, fun h => (by cases h), fun h => (by cases h)⟩

theorem sweep_one (f : Int → Nat) (p : Int) (d : Shift) (cx : Nat) (x : Int) :
    sweep f p d 1 cx x = if x = p then cx else f x := by
  cases d <;> simp only [sweep]
  · by_cases hx : x = p
    · rw [if_pos hx, if_pos (by omega)]
    · rw [if_neg hx, if_neg (by omega)]
  · by_cases hx : x = p
    · rw [if_pos hx, if_pos (by omega)]
    · rw [if_neg hx, if_neg (by omega)]

theorem ptr_moved {l l' : List Nat} {pos pos' : Nat} {p : Int} {f : Int → Nat} {cx : Nat} {d : Shift}
    (k : Nat) (h : PtrRep (pos, l) p f) (hpos : (pos' : Int) = pos + k + sgn d)
    (hlen : pos' < l'.length) (hk : ∀ i, i < k → cden l' i = 0)
    (hd : ∀ i, cden l' (i + k) = if i = pos then cx else cden l i) :
    PtrRep (pos', l') (p + sgn d) (sweep f p d 1 cx) := by
  obtain ⟨h1, h2, h3⟩ := h
  simp only at h1 h2 h3
  refine ⟨hlen, ?_, ?_⟩
  · intro x hx
    have hx : x < p + sgn d - pos' := hx
    rw [sweep_one, if_neg (by omega)]
    exact h2 x (by omega)
  · intro i
    show sweep f p d 1 cx (p + sgn d - pos' + i) = cden l' i
    rw [sweep_one]
    by_cases hi : i < k
    · rw [if_neg (by omega), hk i hi]
      exact h2 _ (by omega)
    · obtain ⟨j, rfl⟩ : ∃ j, i = j + k := ⟨i - k, by omega⟩
      rw [hd]
      by_cases hj : j = pos
      · rw [if_pos (by omega), if_pos hj]
      · rw [if_neg (by omega), if_neg hj, ← h3]; congr 1; omega

theorem ptr_stepLeft {t : PtrTape} {p : Int} {f : Int → Nat} (h : PtrRep t p f) (cx : Nat) :
    (PtrTape.stepLeft t cx).1 = 1 ∧
      PtrRep (PtrTape.stepLeft t cx).2 (p + sgn .L) (sweep f p .L 1 cx) := by
  obtain ⟨pos, l⟩ := t
  refine ⟨rfl, ?_⟩
  have h1 : pos < l.length := h.1
  cases pos with
  | zero =>
    refine ptr_moved (pos' := 0) (l' := 0 :: l.set 0 cx) 1 h (by simp [sgn]) (by simp) ?_ ?_
    · intro i hi
      obtain rfl : i = 0 := by omega
      exact cden_zero _ _
    · intro i
      rw [cden_succ, cden_set h1]
  | succ pos =>
    refine ptr_moved (pos' := pos) (l' := l.set (pos + 1) cx) 0 h (by simp only [sgn]; omega)
      (by rw [List.length_set]; omega) (by intro i hi; omega) ?_
    intro i
    exact cden_set h1 cx i

theorem ptr_stepRight {t : PtrTape} {p : Int} {f : Int → Nat} (h : PtrRep t p f) (cx : Nat) :
    (PtrTape.stepRight t cx).1 = 1 ∧
      PtrRep (PtrTape.stepRight t cx).2 (p + sgn .R) (sweep f p .R 1 cx) := by
  obtain ⟨pos, l⟩ := t
  refine ⟨rfl, ?_⟩
  have h1 : pos < l.length := h.1
  have key : ∀ l', pos + 1 < l'.length → (∀ i, cden l' i = cden (l.set pos cx) i) →
      PtrRep (pos + 1, l') (p + sgn .R) (sweep f p .R 1 cx) := by
    intro l' hl' hd
    refine ptr_moved 0 h (by simp only [sgn]; omega) hl' (by intro i hi; omega) ?_
    intro i
    exact (hd i).trans (cden_set h1 cx i)
  simp only [PtrTape.stepRight]
  split
  · rename_i hlt
    exact key _ (by simpa using hlt) fun _ => rfl
  · rename_i hlt
    exact key _ (by simp; omega) fun i => cden_append_zero _ _

/-- A move and then a skip that begins on the same colour is a skip. -/
theorem skip_cons {Rep : PtrTape → Int → (Int → Nat) → Prop} {p : Int} {f : Int → Nat} {d : Shift}
    {cx n : Nat} {t' : PtrTape} (hf : sweep f p d 1 cx (p + sgn d) = f p)
    (hsame : ∀ i : Nat, i < n →
      sweep f p d 1 cx (p + sgn d + sgn d * i) = sweep f p d 1 cx (p + sgn d))
    (hrep : Rep t' (p + sgn d + sgn d * n) (sweep (sweep f p d 1 cx) (p + sgn d) d n cx)) :
    (∀ i : Nat, i < n + 1 → f (p + sgn d * i) = f p) ∧
      Rep t' (p + sgn d * ((n + 1 : Nat) : Int)) (sweep f p d (n + 1) cx) := by
  constructor
  · intro i hi
    cases i with
    | zero => simp
    | succ i =>
      have := hsame i (by omega)
      rw [hf] at this
      have e : p + sgn d * ((i + 1 : Nat) : Int) = p + sgn d + sgn d * i := by
        cases d <;> simp only [sgn] <;> omega
      rw [e, ← this]
      have := sweep_ahead1 f p d cx i
      rw [← e]; exact this.symm
  · have e1 : p + sgn d * ((n + 1 : Nat) : Int) = p + sgn d + sgn d * n := by
      cases d <;> simp only [sgn] <;> omega
    have e2 : sweep f p d (n + 1) cx = sweep (sweep f p d 1 cx) (p + sgn d) d n cx := by
      funext x
      cases d
      · simp only [sweep]
        by_cases hx : p + sgn .L - n < x ∧ x ≤ p + sgn .L
        · rw [if_pos hx]
          simp only [sgn] at hx
          rw [if_pos (by omega)]
        · rw [if_neg hx]
          simp only [sgn] at hx
          by_cases hx' : p - (1 : Nat) < x ∧ x ≤ p
          · rw [if_pos hx', if_pos (by omega)]
          · rw [if_neg hx', if_neg (by omega)]
      · simp only [sweep]
        by_cases hx : p + sgn .R ≤ x ∧ x < p + sgn .R + n
        · rw [if_pos hx]
          simp only [sgn] at hx
          rw [if_pos (by omega)]
        · rw [if_neg hx]
          simp only [sgn] at hx
          by_cases hx' : p ≤ x ∧ x < p + (1 : Nat)
          · rw [if_pos hx', if_pos (by omega)]
          · rw [if_neg hx', if_neg (by omega)]
    rw [e1, e2]; exact hrep

theorem ptr_skipLeft (cx : Nat) : ∀ (pos : Nat) (l : List Nat) {p : Int} {f : Int → Nat},
    PtrRep (pos, l) p f → ∃ n t', PtrTape.skipLeft (pos, l) cx = (n, t') ∧ 1 ≤ n ∧
      (∀ i : Nat, i < n → f (p + sgn .L * i) = f p) ∧
      PtrRep t' (p + sgn .L * n) (sweep f p .L n cx) := by
  intro pos
  induction pos with
  | zero =>
    intro l p f h
    obtain ⟨h1, h2⟩ := ptr_stepLeft h cx
    refine ⟨1, _, by rw [PtrTape.skipLeft]; exact Prod.ext h1 rfl, le_refl _, ?_, ?_⟩
    · intro i hi
      obtain rfl : i = 0 := by omega
      simp
    · refine PtrRep.congr h2 ?_ fun _ => rfl
      simp only [sgn]; omega
  | succ pos ih =>
    intro l p f h
    obtain ⟨_, h2⟩ := ptr_stepLeft h cx
    have h2 : PtrRep (pos, l.set (pos + 1) cx) (p + sgn .L) (sweep f p .L 1 cx) := h2
    rw [PtrTape.skipLeft]
    simp only
    by_cases hc : PtrTape.read (pos, l.set (pos + 1) cx) ≠ PtrTape.read (pos + 1, l)
    · rw [if_pos hc]
      refine ⟨1, _, rfl, le_refl _, ?_, by simpa using h2⟩
      intro i hi
      obtain rfl : i = 0 := by omega
      simp
    · rw [if_neg hc]
      push Not at hc
      obtain ⟨n, t', e, h3, h4, h5⟩ := ih _ h2
      rw [e]
      have hf : sweep f p .L 1 cx (p + sgn .L) = f p := by
        rw [h2.scan, h.scan, ← (ptr_read _ _ h2.1).1, hc, (ptr_read _ _ h.1).1]
      obtain ⟨a, b⟩ := skip_cons (Rep := PtrRep) hf h4 h5
      exact ⟨n + 1, t', rfl, by omega, a, b⟩

theorem ptr_skipRight (cx : Nat) : ∀ (fuel : Nat) (t : PtrTape) {p : Int} {f : Int → Nat} {n t'},
    PtrRep t p f → PtrTape.skipRight fuel t cx = some (n, t') → 1 ≤ n ∧
      (∀ i : Nat, i < n → f (p + sgn .R * i) = f p) ∧
      PtrRep t' (p + sgn .R * n) (sweep f p .R n cx) := by
  intro fuel
  induction fuel with
  | zero => intro t p f n t' _ h; cases h
  | succ fuel ih =>
    intro t p f n t' h hk
    obtain ⟨h1, h2⟩ := ptr_stepRight h cx
    rw [PtrTape.skipRight] at hk
    simp only at hk
    by_cases hc : PtrTape.read (PtrTape.stepRight t cx).2 ≠ PtrTape.read t
    · rw [if_pos hc] at hk
      have hk := Option.some.inj hk
      rw [hk] at h1 h2
      simp only at h1 h2
      subst h1
      refine ⟨le_refl _, ?_, by simpa using h2⟩
      intro i hi
      obtain rfl : i = 0 := by omega
      simp
    · rw [if_neg hc] at hk
      push Not at hc
      cases hk' : PtrTape.skipRight fuel (PtrTape.stepRight t cx).2 cx with
      | none => rw [hk'] at hk; cases hk
      | some r =>
        obtain ⟨m, u⟩ := r
        rw [hk'] at hk
        simp only [Option.map_some, Option.some.injEq, Prod.mk.injEq] at hk
        obtain ⟨rfl, rfl⟩ := hk
        obtain ⟨h3, h4, h5⟩ := ih _ h2 hk'
        have hf : sweep f p .R 1 cx (p + sgn .R) = f p := by
          have a := (ptr_read _ _ h2.1).1
          have b := (ptr_read _ _ h.1).1
          rw [h2.scan, h.scan, ← a, ← b]
          exact congrArg Prod.fst hc
        obtain ⟨a, b⟩ := skip_cons (Rep := PtrRep) hf h4 h5
        exact ⟨by omega, a, b⟩

theorem ptr_read_zeros (k j : Nat) : PtrTape.read (k, List.replicate (k + 1 + j) 0) = (0, some .L) := by
  induction k with
  | zero => rw [show 0 + 1 + j = j + 1 by omega, List.replicate_succ, PtrTape.read]
  | succ k ih =>
    rw [show k + 1 + 1 + j = (k + 1 + j) + 1 by omega, List.replicate_succ, PtrTape.read]
    exact ih

/-- Over blank cells that are to stay blank `skipRight` does not return. -/
theorem ptr_skipRight_zeros (fuel : Nat) : ∀ k,
    PtrTape.skipRight fuel (k, List.replicate (k + 1) 0) 0 = none := by
  induction fuel with
  | zero => intro k; rfl
  | succ fuel ih =>
    intro k
    rw [PtrTape.skipRight]
    have e : (PtrTape.stepRight (k, List.replicate (k + 1) 0) 0).2 =
        (k + 1, List.replicate (k + 2) 0) := by
      simp only [PtrTape.stepRight]
      rw [if_neg (by simp)]
      have h0 : (List.replicate (k + 1) 0).set k 0 = List.replicate (k + 1) 0 := by
        rw [List.set_replicate_self]
      rw [h0, ← List.replicate_succ']
    simp only [e]
    rw [if_neg, ih]
    · rfl
    · have a := ptr_read_zeros (k + 1) 0
      have b := ptr_read_zeros k 0
      rw [Nat.add_zero] at a b
      rw [a, b]; simp

theorem ptr_marks {t : PtrTape} {p : Int} {f : Int → Nat} (h : PtrRep t p f) :
    ∃ M : Finset Int, (∀ x, x ∈ M ↔ f x ≠ 0) ∧ M.card = (t.2.filter (· ≠ 0)).length := by
  obtain ⟨A, hA, hc⟩ := colorSpan_marks t.2
  have hi : Function.Injective fun i : Nat => p - t.1 + (i : Int) := by
    intro a b hab; simp only at hab; omega
  refine ⟨A.map ⟨_, hi⟩, ?_, by rw [Finset.card_map, hc]; rfl⟩
  intro x
  simp only [Finset.mem_map, Function.Embedding.coeFn_mk]
  constructor
  · rintro ⟨a, ha, rfl⟩
    rw [h.2.2]; exact (hA a).mp ha
  · intro hx
    have hge : ¬ x < p - t.1 := fun hlt => hx (h.2.1 x hlt)
    refine ⟨(x - (p - t.1)).toNat, ?_, by omega⟩
    rw [hA, ← h.2.2]
    rwa [show p - (t.1 : Int) + ((x - (p - t.1)).toNat : Int) = x by omega]

theorem ptrTape_laws (fuel : Nat) : Laws (ptrTape fuel) (fun _ => True) PtrRep where
  init := by
    refine ⟨by simp [ptrTape], fun _ _ => rfl, fun i => ?_⟩
    show 0 = cden [0] i
    cases i with
    | zero => rfl
    | succ i => rw [cden_succ, cden_nil]
  blank := by
    intro t p f h
    show colorSpan.spanBlank t.2 = true ↔ _
    rw [colorSpan_blank]
    constructor
    · intro hz x
      by_cases hx : x < p - t.1
      · exact h.2.1 x hx
      · have := h.2.2 (x - (p - t.1)).toNat
        rw [show p - (t.1 : Int) + ((x - (p - t.1)).toNat : Int) = x by omega, hz] at this
        exact this
    · intro hz i
      rw [← h.2.2]; exact hz _
  marks := ptr_marks
  scan := by
    intro t p f h
    rw [h.scan]; exact (ptr_read t.1 t.2 h.1).1
  edgeL := by
    intro t p f h he
    have hz := (ptr_read t.1 t.2 h.1).2.1 he
    refine ⟨by rw [h.scan]; exact hz _ (le_refl _), fun x hx => ?_⟩
    by_cases hx' : x < p - t.1
    · exact h.2.1 x hx'
    · have := h.2.2 (x - (p - t.1)).toNat
      rw [show p - (t.1 : Int) + ((x - (p - t.1)).toNat : Int) = x by omega] at this
      rw [this]; exact hz _ (by omega)
  edgeR := by
    intro t p f h he
    have hz := (ptr_read t.1 t.2 h.1).2.2 he
    refine ⟨by rw [h.scan]; exact hz _ (le_refl _), fun x hx => ?_⟩
    have := h.2.2 (x - (p - t.1)).toNat
    rw [show p - (t.1 : Int) + ((x - (p - t.1)).toNat : Int) = x by omega] at this
    rw [this]; exact hz _ (by omega)
  step := by
    intro t p f d cx h _
    cases d with
    | L => exact ptr_stepLeft h cx
    | R => exact ptr_stepRight h cx
  skip := by
    intro t p f d cx n t' h _ he
    cases d with
    | L =>
      obtain ⟨m, u, e, h1, h2, h3⟩ := ptr_skipLeft cx t.1 t.2 h
      have he' : PtrTape.skipLeft (t.1, t.2) cx = (n, t') := Option.some.inj he
      rw [e] at he'
      cases he'
      exact ⟨h1, h2, h3⟩
    | R => exact ptr_skipRight cx fuel t h he
  skipInit := by
    intro d cx n t' _ he
    cases d with
    | L =>
      have he' : PtrTape.skipLeft (0, [0]) cx = (n, t') := Option.some.inj he
      rw [PtrTape.skipLeft] at he'
      cases he'; rfl
    | R =>
      have he' : PtrTape.skipRight fuel (0, [0]) cx = some (n, t') := he
      by_cases hz : cx = 0
      · subst hz
        have := ptr_skipRight_zeros fuel 0
        simp only [Nat.zero_add, List.replicate_one] at this
        rw [this] at he'; cases he'
      · cases fuel with
        | zero => cases he'
        | succ fuel =>
          rw [PtrTape.skipRight] at he'
          have e : PtrTape.stepRight (0, [0]) cx = (1, (1, [cx, 0])) := rfl
          simp only [e] at he'
          rw [if_pos] at he'
          · cases he'; rfl
          · intro hr
            have h1 : (PtrTape.read (0, [0])).2 = some .L := by rw [PtrTape.read]
            rw [← hr] at h1
            have := (ptr_read 1 [cx, 0] (by simp)).2.1 h1 0 (by omega)
            rw [cden_zero] at this
            exact hz this
  beq := by
    rintro ⟨a, l⟩ ⟨b, l'⟩ p f q g he h1 h2 x
    have he : (a == b && l == l') = true := he
    simp only [Bool.and_eq_true, beq_iff_eq] at he
    obtain ⟨rfl, rfl⟩ := he
    by_cases hx : p + x < p - a
    · rw [h1.2.1 _ hx, h2.2.1 _ (by simp only; omega)]
    · have e1 := h1.2.2 (x + a).toNat
      have e2 := h2.2.2 (x + a).toNat
      simp only at e1 e2
      rw [show p - (a : Int) + ((x + a).toNat : Int) = p + x by omega] at e1
      rw [show q - (a : Int) + ((x + a).toNat : Int) = q + x by omega] at e2
      rw [e1, e2]

end BB.Idris
