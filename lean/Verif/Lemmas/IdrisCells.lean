import Verif.Lemmas.IdrisRun
import Verif.Lemmas.IdrisPtr

/-! # The number of cells of the Idris tapes -/

namespace BB.Idris

/-- A tape has cells to the left and to the right of the head, and moving adds cells at the ends only. -/
structure Sized {τ : Type} (T : Tape τ) (Rep : τ → Int → (Int → Nat) → Prop) (left right : τ → Nat) :
    Prop where
  cells : ∀ {t p f}, Rep t p f → T.cells t = left t + 1 + right t
  init : left T.blankInit = 0 ∧ right T.blankInit = 0
  stepL : ∀ {t p f cx}, Rep t p f →
    left (T.step .L t cx).2 = left t - 1 ∧ right (T.step .L t cx).2 = right t + 1
  stepR : ∀ {t p f cx}, Rep t p f →
    left (T.step .R t cx).2 = left t + 1 ∧ right (T.step .R t cx).2 = right t - 1
  skipL : ∀ {t p f cx n t'}, Rep t p f → T.skip .L t cx = some (n, t') →
    left t' = left t - n ∧ right t' = right t + n
  skipR : ∀ {t p f cx n t'}, Rep t p f → T.skip .R t cx = some (n, t') →
    left t' = left t + n ∧ right t' = right t - n

/-! ## Spans -/

structure SizeLaws {σ : Type} (S : Spannable σ) (inv : σ → Prop)
    (skipLeft : ScanNSpan σ → Nat → Nat × ScanNSpan σ) : Prop where
  blank : S.spanCells S.blankSpan = 0
  pull : ∀ {s}, inv s → S.spanCells (S.pullNext s).2 = S.spanCells s - 1
  push : ∀ {s} c, inv s → S.spanCells (S.pushCurr c 1 s) = S.spanCells s + 1
  skip : ∀ {l c r cx n t'}, inv l → inv r → skipLeft (l, c, r) cx = (n, t') →
    S.spanCells t'.1 = S.spanCells l - n ∧ S.spanCells t'.2.2 = S.spanCells r + n

theorem scan_sized {σ : Type} {S : Spannable σ} {inv : σ → Prop} {den : σ → Nat → Nat}
    {skipLeft : ScanNSpan σ → Nat → Nat × ScanNSpan σ} (hS : SizeLaws S inv skipLeft) :
    Sized (ScanNSpan.tape S skipLeft) (SpanRep inv den) (fun t => S.spanCells t.1)
      (fun t => S.spanCells t.2.2) where
  cells := fun _ => rfl
  init := ⟨hS.blank, hS.blank⟩
  stepL := fun h => ⟨hS.pull h.invL, hS.push _ h.invR⟩
  stepR := fun h => ⟨hS.push _ h.invL, hS.pull h.invR⟩
  skipL := by
    intro t p f cx n t' h hk
    obtain ⟨l, c, r⟩ := t
    exact hS.skip h.invL h.invR (Option.some.inj hk)
  skipR := by
    intro t p f cx n t' h hk
    obtain ⟨l, c, r⟩ := t
    have hk := Option.some.inj hk
    simp only [ScanNSpan.flip] at hk
    rcases he : skipLeft (r, c, l) cx with ⟨m, a, x, b⟩
    rw [he] at hk
    simp only [ScanNSpan.back, Prod.mk.injEq] at hk
    obtain ⟨rfl, rfl⟩ := hk
    obtain ⟨h1, h2⟩ := hS.skip h.invR h.invL he
    exact ⟨h2, h1⟩

theorem step_size {σ : Type} {S : Spannable σ} {l r : σ} {c cx n : Nat} {t'}
    (pull : S.spanCells (S.pullNext l).2 = S.spanCells l - 1)
    (push : S.spanCells (S.pushCurr cx 1 r) = S.spanCells r + 1)
    (h : ScanNSpan.stepLeft S (l, c, r) cx = (n, t')) :
    S.spanCells t'.1 = S.spanCells l - n ∧ S.spanCells t'.2.2 = S.spanCells r + n := by
  simp only [ScanNSpan.stepLeft, Prod.mk.injEq] at h
  obtain ⟨rfl, rfl⟩ := h
  exact ⟨pull, push⟩

theorem colorSpan_pull_size (s : List Nat) :
    colorSpan.spanCells (colorSpan.pullNext s).2 = colorSpan.spanCells s - 1 := by
  cases s <;> simp [colorSpan]

theorem colorSpan_push_size (s : List Nat) (c k : Nat) :
    colorSpan.spanCells (colorSpan.pushCurr c k s) = colorSpan.spanCells s + 1 := by
  simp [colorSpan]

theorem cellSkip_size (cx : Nat) : ∀ (l : List Nat) (c : Nat) (r : List Nat) {n t'},
    cellSkipLeft (l, c, r) cx = (n, t') →
    colorSpan.spanCells t'.1 = colorSpan.spanCells l - n ∧
      colorSpan.spanCells t'.2.2 = colorSpan.spanCells r + n := by
  intro l
  induction l with
  | nil =>
    intro c r n t' h
    rw [cellSkipLeft] at h
    exact step_size (colorSpan_pull_size _) (colorSpan_push_size _ _ _) h
  | cons cn l ih =>
    intro c r n t' h
    rw [cellSkipLeft] at h
    split at h
    · exact step_size (colorSpan_pull_size _) (colorSpan_push_size _ _ _) h
    · rcases he : cellSkipLeft (l, cn, cx :: r) cx with ⟨m, t1⟩
      rw [he] at h
      simp only [Prod.mk.injEq] at h
      obtain ⟨rfl, rfl⟩ := h
      obtain ⟨h1, h2⟩ := ih _ _ he
      simp only [colorSpan, List.length_cons] at h1 h2 ⊢
      omega

theorem foldl_cells (s : List (Nat × Nat)) : ∀ a,
    s.foldl (fun a b => a + b.2) a = a + (s.map Prod.snd).sum := by
  induction s with
  | nil => intro a; simp
  | cons x s ih => intro a; rw [List.foldl_cons, ih, List.map_cons, List.sum_cons]; omega

theorem blockSpan_cells (s : List (Nat × Nat)) : blockSpan.spanCells s = (s.map Prod.snd).sum := by
  have := foldl_cells s 0
  rw [Nat.zero_add] at this
  exact this

theorem blockSpan_pull_size {s : List (Nat × Nat)} (hs : binv s) :
    blockSpan.spanCells (blockSpan.pullNext s).2 = blockSpan.spanCells s - 1 := by
  rw [blockSpan_cells, blockSpan_cells]
  match s, hs with
  | [], _ => rfl
  | (c, 0) :: s, hs => exact absurd hs.1 (by omega)
  | (c, 1) :: s, _ => simp [blockSpan]
  | (c, k + 2) :: s, _ => simp [blockSpan]

theorem blockSpan_push_size (s : List (Nat × Nat)) (c k : Nat) :
    blockSpan.spanCells (blockSpan.pushCurr c k s) = blockSpan.spanCells s + k := by
  rw [blockSpan_cells, blockSpan_cells]
  match s with
  | [] => simp [blockSpan]
  | (q, n) :: s =>
    by_cases h : c = q
    · simp only [blockSpan, if_pos h, List.map_cons, List.sum_cons]; omega
    · simp only [blockSpan, if_neg h, List.map_cons, List.sum_cons]; omega

theorem blockSkip_size {cx : Nat} {l : List (Nat × Nat)} {c : Nat} {r : List (Nat × Nat)} {n t'}
    (hl : binv l) (h : blockSkipLeft (l, c, r) cx = (n, t')) :
    blockSpan.spanCells t'.1 = blockSpan.spanCells l - n ∧
      blockSpan.spanCells t'.2.2 = blockSpan.spanCells r + n := by
  match l, hl with
  | [], hl =>
    rw [blockSkipLeft] at h
    exact step_size (blockSpan_pull_size hl) (blockSpan_push_size _ _ _) h
  | (bc, bn) :: l, hl =>
    rw [blockSkipLeft] at h
    split at h
    · exact step_size (blockSpan_pull_size hl) (blockSpan_push_size _ _ _) h
    · simp only [Prod.mk.injEq] at h
      obtain ⟨rfl, rfl⟩ := h
      simp only
      rw [blockSpan_pull_size hl.2.2, blockSpan_push_size, blockSpan_cells, blockSpan_cells,
        List.map_cons, List.sum_cons]
      simp only [and_true]
      omega

theorem size_of_hom {σ σ' : Type} {S : Spannable σ} {S' : Spannable σ'} {good inv' φ sk sk'}
    (h : SpanHom S S' good inv' φ) (hS : SizeLaws S' inv' sk') (hk : SkipHom good inv' φ sk sk')
    (hc : ∀ {s}, good s → S.spanCells s = S'.spanCells (φ s)) :
    SizeLaws S (fun s => good s ∧ inv' (φ s)) sk where
  blank := by rw [hc h.blankSpan.1, h.blankSpan.2]; exact hS.blank
  pull := by
    rintro s ⟨g, i⟩
    obtain ⟨_, a, b⟩ := h.pull g i
    rw [hc b, a, hS.pull i, hc g]
  push := by
    rintro s c ⟨g, i⟩
    obtain ⟨a, b⟩ := h.push c 1 g
    rw [hc b, a, hS.push c i, hc g]
  skip := by
    rintro l c r cx n t' ⟨lg, li⟩ ⟨rg, ri⟩ e
    obtain ⟨a1, a2, _, a4, a5, a6⟩ := hk l c r cx lg li rg ri
    rw [e] at a1 a2 a4 a5 a6
    simp only at a1 a2 a4 a5 a6
    obtain ⟨b1, b2⟩ := hS.skip li ri (c := c) (cx := cx) (n := n)
      (t' := (sk' (φ l, c, φ r) cx).2) (Prod.ext a1.symm rfl)
    rw [hc a5, hc a6, a2, a4, b1, b2, hc lg, hc rg]
    exact ⟨rfl, rfl⟩

theorem colorSpan_sizes : SizeLaws colorSpan (fun _ => True) cellSkipLeft where
  blank := rfl
  pull := fun _ => colorSpan_pull_size _
  push := fun c _ => colorSpan_push_size _ c 1
  skip := fun _ _ h => cellSkip_size _ _ _ _ h

theorem blockSpan_sizes : SizeLaws blockSpan binv blockSkipLeft where
  blank := rfl
  pull := fun h => blockSpan_pull_size h
  push := fun c _ => blockSpan_push_size _ c 1
  skip := fun hl _ h => blockSkip_size hl h

theorem splitSpan_sizes : SizeLaws splitSpan (fun s => splitGood s ∧ binv (splitBlocks s))
    splitSkipLeft := by
  refine size_of_hom split_hom blockSpan_sizes splitSkip_hom ?_
  rintro ⟨a, b⟩ hg
  rw [blockSpan_cells]
  show b.sum = _
  rw [splitBlocks, List.map_snd_zip (le_of_eq (Eq.symm hg))]

theorem vect_length {α : Type} {k : Nat} (v : Vect α k) : v.length = v.toList.length := by
  induction v with
  | nil => rfl
  | cons a v ih => exact congrArg (· + 1) ih

theorem cellVectSpan_sizes : SizeLaws cellVectSpan (fun _ => True ∧ True) cellVectSkipLeft :=
  size_of_hom cellVect_hom colorSpan_sizes cellVectSkip_hom fun _ => vect_length _

theorem blockVectSpan_sizes : SizeLaws blockVectSpan (fun s => True ∧ binv (vlist s))
    blockVectSkipLeft :=
  size_of_hom blockVect_hom blockSpan_sizes blockVectSkip_hom fun _ => foldl_toList _ _ _

/-! ## The list with a position -/

theorem ptr_stepL_size {t : PtrTape} (h : t.1 < t.2.length) (cx : Nat) :
    (PtrTape.stepLeft t cx).2.1 = t.1 - 1 ∧
      (PtrTape.stepLeft t cx).2.2.length - (PtrTape.stepLeft t cx).2.1 - 1 =
        t.2.length - t.1 - 1 + 1 := by
  obtain ⟨pos, l⟩ := t
  cases pos with
  | zero => simp [PtrTape.stepLeft] at h ⊢; omega
  | succ pos => simp [PtrTape.stepLeft] at h ⊢; omega

theorem ptr_stepR_size {t : PtrTape} (h : t.1 < t.2.length) (cx : Nat) :
    (PtrTape.stepRight t cx).2.1 = t.1 + 1 ∧
      (PtrTape.stepRight t cx).2.2.length - (PtrTape.stepRight t cx).2.1 - 1 =
        t.2.length - t.1 - 1 - 1 := by
  obtain ⟨pos, l⟩ := t
  simp only [PtrTape.stepRight] at h ⊢
  split
  · simp; omega
  · simp; omega

theorem ptr_skipL_size (cx : Nat) : ∀ (pos : Nat) (l : List Nat) {n t'}, pos < l.length →
    PtrTape.skipLeft (pos, l) cx = (n, t') →
      t'.1 = pos - n ∧ t'.2.length - t'.1 - 1 = l.length - pos - 1 + n := by
  intro pos
  induction pos with
  | zero =>
    intro l n t' h hk
    rw [PtrTape.skipLeft] at hk
    have := ptr_stepL_size (t := (0, l)) h cx
    have e : n = 1 := by have := congrArg Prod.fst hk; exact this.symm
    rw [hk] at this
    subst e
    exact this
  | succ pos ih =>
    intro l n t' h hk
    rw [PtrTape.skipLeft] at hk
    simp only at hk
    split at hk
    · simp only [Prod.mk.injEq] at hk
      obtain ⟨rfl, rfl⟩ := hk
      simp; omega
    · rcases he : PtrTape.skipLeft (pos, l.set (pos + 1) cx) cx with ⟨m, u⟩
      rw [he] at hk
      simp only [Prod.mk.injEq] at hk
      obtain ⟨rfl, rfl⟩ := hk
      have := ih _ (by rw [List.length_set]; omega) he
      rw [List.length_set] at this
      omega

theorem ptr_skipR_size (cx : Nat) : ∀ (fuel : Nat) (t : PtrTape) {n t'}, t.1 < t.2.length →
    PtrTape.skipRight fuel t cx = some (n, t') →
      t'.1 = t.1 + n ∧ t'.2.length - t'.1 - 1 = t.2.length - t.1 - 1 - n := by
  intro fuel
  induction fuel with
  | zero => intro t n t' _ h; cases h
  | succ fuel ih =>
    intro t n t' h hk
    have hs := ptr_stepR_size h cx
    have hl : (PtrTape.stepRight t cx).2.1 < (PtrTape.stepRight t cx).2.2.length := by
      obtain ⟨pos, l⟩ := t
      simp only [PtrTape.stepRight]
      split <;> simp at * <;> omega
    rw [PtrTape.skipRight] at hk
    simp only at hk
    split at hk
    · have hk := Option.some.inj hk
      have e : n = 1 := by have := congrArg Prod.fst hk; exact this.symm
      rw [hk] at hs
      subst e
      exact hs
    · cases hk' : PtrTape.skipRight fuel (PtrTape.stepRight t cx).2 cx with
      | none => rw [hk'] at hk; cases hk
      | some r =>
        obtain ⟨m, u⟩ := r
        rw [hk'] at hk
        simp only [Option.map_some, Option.some.injEq, Prod.mk.injEq] at hk
        obtain ⟨rfl, rfl⟩ := hk
        have := ih _ hl hk'
        omega

theorem ptrTape_sized (fuel : Nat) : Sized (ptrTape fuel) PtrRep (fun t => t.1)
    (fun t => t.2.length - t.1 - 1) where
  cells := by
    intro t p f h
    have := h.1
    show t.2.length = _
    omega
  init := ⟨rfl, rfl⟩
  stepL := fun h => ptr_stepL_size h.1 _
  stepR := fun h => ptr_stepR_size h.1 _
  skipL := fun h hk => ptr_skipL_size _ _ _ h.1 (Option.some.inj hk)
  skipR := fun h hk => ptr_skipR_size _ _ _ h.1 hk

/-! ## Runs -/

section

variable {τ : Type} {T : Tape τ} {ok : Nat → Prop} {Rep : τ → Int → (Int → Nat) → Prop}
  {left right : τ → Nat}

/-- The positions visited in moves `0 … n` are those from `a` to `b`. -/
def VisitedFromTo (P : Prog) (n : Nat) (a b : Int) : Prop :=
  ∀ x, (∃ m d, m ≤ n ∧ runFor P m initCfg = some d ∧ d.pos = x) ↔ a ≤ x ∧ x ≤ b

/-- The positions of the moves of one round. -/
theorem exec_path (hT : Laws T ok Rep) (hz : Sized T Rep left right) {prog : Program}
    (hok : ∀ q c, ok (prog q c).1) {s : Nat} (hs : s ≠ 0) {t : τ} {p : Int} {f : Int → Nat}
    (h : Rep t p f) {s' : Nat} {t' : τ} {n : Nat} (he : exec T prog s t = some (s', t', n, false)) :
    ∃ d : Shift, (∀ m, m ≤ n → ∃ e, runFor (asProg prog) m ⟨exch s, p, f⟩ = some e ∧
        e.pos = p + sgn d * m) ∧
      match d with
      | .L => left t' = left t - n ∧ right t' = right t + n
      | .R => left t' = left t + n ∧ right t' = right t - n := by
  unfold exec at he
  rcases hr : T.read t with ⟨scan, edge⟩
  have hscan : scan = f p := by
    have := hT.scan h; rw [hr] at this; exact this
  subst hscan
  rcases hp : prog s (f p) with ⟨cx, d, s1⟩
  rw [hr] at he
  simp only [hp] at he
  have hcx : ok cx := by have := hok s (f p); rw [hp] at this; exact this
  refine ⟨d, ?_⟩
  split at he
  · simp at he
  · by_cases hst : s = s1
    · subst hst
      rw [if_pos rfl] at he
      cases hk : T.skip d t cx with
      | none => rw [hk] at he; cases he
      | some nt =>
        obtain ⟨n', t1⟩ := nt
        rw [hk] at he
        simp only [Option.map_some, Option.some.injEq, Prod.mk.injEq] at he
        obtain ⟨rfl, rfl, rfl, -⟩ := he
        obtain ⟨h1, h2, h3⟩ := hT.skip h hcx hk
        refine ⟨fun m hm => ⟨_, runFor_sweep hs hp h2 m hm, rfl⟩, ?_⟩
        cases d with
        | L => exact hz.skipL h hk
        | R => exact hz.skipR h hk
    · rw [if_neg hst] at he
      simp only [Option.map_some, Option.some.injEq, Prod.mk.injEq] at he
      obtain ⟨rfl, rfl, rfl, -⟩ := he
      obtain ⟨h1, h2⟩ := hT.step d h hcx
      rw [h1]
      refine ⟨fun m hm => ?_, ?_⟩
      · rcases Nat.eq_zero_or_pos m with rfl | hm'
        · exact ⟨_, rfl, by simp⟩
        · obtain rfl : m = 1 := by omega
          exact ⟨_, runFor_move hs hp, by simp⟩
      · cases d with
        | L => exact hz.stepL h
        | R => exact hz.stepR h

theorem visited_next (hT : Laws T ok Rep) (hz : Sized T Rep left right) {prog : Program}
    (hok : ∀ q c, ok (prog q c).1) {s : Nat} {t : τ} {steps : Nat} {p : Int} {f : Int → Nat}
    (h : Inv T Rep (asProg prog) s t steps p f)
    (hv : VisitedFromTo (asProg prog) steps (p - left t) (p + right t))
    {s' : Nat} {t' : τ} {n : Nat} (he : exec T prog s t = some (s', t', n, false)) {p' : Int}
    {f' : Int → Nat} {q' : State}
    (hto : runFor (asProg prog) (n + steps) initCfg = some ⟨q', p', f'⟩) :
    VisitedFromTo (asProg prog) (n + steps) (p' - left t') (p' + right t') := by
  obtain ⟨d, hpath, hsize⟩ := exec_path hT hz hok h.live h.rep he
  have hrun : ∀ m, m ≤ n → ∃ e, runFor (asProg prog) (steps + m) initCfg = some e ∧
      e.pos = p + sgn d * m := by
    intro m hm
    obtain ⟨e, h1, h2⟩ := hpath m hm
    exact ⟨e, by rw [runFor_add, h.run]; exact h1, h2⟩
  have hp' : p' = p + sgn d * n := by
    obtain ⟨e, h1, h2⟩ := hrun n (le_refl _)
    rw [Nat.add_comm, hto] at h1
    cases h1
    exact h2
  intro x
  constructor
  · rintro ⟨m, e, hm, he, rfl⟩
    by_cases hms : m ≤ steps
    · have := (hv e.pos).1 ⟨m, e, hms, he, rfl⟩
      cases d with
      | L => simp only [sgn] at hp' hsize; omega
      | R => simp only [sgn] at hp' hsize; omega
    · obtain ⟨e', h1, h2⟩ := hrun (m - steps) (by omega)
      rw [show steps + (m - steps) = m by omega, he] at h1
      cases h1
      cases d with
      | L => simp only [sgn] at hp' hsize h2; omega
      | R => simp only [sgn] at hp' hsize h2; omega
  · intro hx
    by_cases hold : p - left t ≤ x ∧ x ≤ p + right t
    · obtain ⟨m, e, hm, he, hx'⟩ := (hv x).2 hold
      exact ⟨m, e, by omega, he, hx'⟩
    · cases d with
      | L =>
        simp only [sgn] at hp' hsize hrun
        obtain ⟨e, h1, h2⟩ := hrun (p - x).toNat (by omega)
        exact ⟨_, e, by omega, h1, by omega⟩
      | R =>
        simp only [sgn] at hp' hsize hrun
        obtain ⟨e, h1, h2⟩ := hrun (x - p).toNat (by omega)
        exact ⟨_, e, by omega, h1, by omega⟩

/-- The cells of the tape of a report are those the head has been on. -/
theorem run_cells (hT : Laws T ok Rep) (hz : Sized T Rep left right) {prog : Program}
    (hok : ∀ q c, ok (prog q c).1) :
    ∀ (lim : Nat) {s : Nat} {t : τ} {steps : Nat} {p : Int} {f : Int → Nat},
      Inv T Rep (asProg prog) s t steps p f →
      VisitedFromTo (asProg prog) steps (p - left t) (p + right t) → ∀ {steps' lf : Nat} {t' : τ},
      run T lim prog s t steps = some (some (steps', lf, t')) →
      ∃ p' : Int, T.cells t' = left t' + 1 + right t' ∧
        VisitedFromTo (asProg prog) steps' (p' - left t') (p' + right t') := by
  intro lim
  induction lim with
  | zero => intro s t steps p f _ _ steps' lf t' h; cases h
  | succ lim ih =>
    intro s t steps p f hI hv steps' lf t' h
    rw [run] at h
    cases he : exec T prog s t with
    | none => rw [he] at h; cases h
    | some r =>
      obtain ⟨s1, t1, n, rec⟩ := r
      rw [he] at h
      simp only [Option.bind_some] at h
      rcases hI.next hT hok he with ⟨rfl, rfl, rfl, rfl, hspin⟩ | ⟨rfl, hn, p', f', hr, hto, hnb, hI'⟩
      · rw [if_pos (by simp)] at h
        simp only [Option.some.injEq, Prod.mk.injEq] at h
        obtain ⟨rfl, rfl, rfl⟩ := h
        exact ⟨p, hz.cells hI.rep, by rw [Nat.zero_add]; exact hv⟩
      · have hv' := visited_next hT hz hok hI hv he hto
        by_cases hcond : (s1 == halt || T.blank t1 || false) = true
        · rw [if_pos hcond] at h
          simp only [Option.some.injEq, Prod.mk.injEq] at h
          obtain ⟨rfl, rfl, rfl⟩ := h
          exact ⟨p', hz.cells hr, hv'⟩
        · rw [if_neg hcond] at h
          simp only [Bool.or_false, Bool.or_eq_true, beq_iff_eq, not_or] at hcond
          exact ih (hI' hcond.1 (by simpa using hcond.2)) hv' h

end

end BB.Idris
