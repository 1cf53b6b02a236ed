import Verif.Spec.Recur
import Verif.Lemmas.LinRec
import Mathlib.Data.Nat.Find

/-! # Recurrence: from tapes to runs and back -/

namespace BB

/-- Lin's recurrence, with what it says about every later move. -/
theorem recursFrom_of_cells {p : Prog} {c c' : Cfg} {n per : Nat} {k : Int} (A : Int → Prop)
    (hper : 0 < per) (hc : runFor p n initCfg = some c) (hrun : runFor p per c = some c')
    (hA : ∀ m, m < per → ∀ e, runFor p m c = some e → A e.pos)
    (hq : c'.state = c.state) (hpos : c'.pos = c.pos + k)
    (htape : ∀ x, A x → c'.tape (x + k) = c.tape x)
    (hsub : ∀ x, A x → A (x + k)) : RecursFrom p n per := by
  have hnh : NeverHalts p c := neverHalts_recurrence A hper hrun hA hq hpos htape hsub
  have hag : AgreeOn (fun x => A (x - k)) (c.translate k) c' := by
    refine ⟨hq.symm, by simp [Cfg.translate, hpos], fun x hx => ?_⟩
    have := htape _ hx
    rw [Int.sub_add_cancel] at this
    simp [Cfg.translate, this]
  -- while the run of `c` stays in `A`, that of `c'` is its translate
  have hfol : ∀ m, (∀ j, j < m → ∀ e, runFor p j c = some e → A e.pos) →
      ∀ e, runFor p m c = some e → ∃ e', runFor p m c' = some e' ∧
        AgreeOn (fun x => A (x - k)) (e.translate k) e' := by
    intro m hm e he
    refine hag.run (n := m) (c' := e.translate k) (by rw [runFor_translate, he]; rfl) ?_
    intro j hj f hf
    rw [runFor_translate] at hf
    cases hj' : runFor p j c with
    | none => rw [hj'] at hf; simp at hf
    | some g =>
      rw [hj'] at hf
      simp only [Option.map_some, Option.some.injEq] at hf
      subst hf
      simp only [Cfg.translate]
      rw [show g.pos + k - k = g.pos by omega]
      exact hm j hj g hj'
  have hall : ∀ m e, runFor p m c = some e → A e.pos := by
    intro m
    induction m using Nat.strong_induction_on with
    | _ m ih =>
      intro e he
      by_cases hm : m < per
      · exact hA m hm e he
      · obtain ⟨g, hg⟩ := Option.isSome_iff_exists.mp (hnh (m - per))
        obtain ⟨e', h1, h2⟩ := hfol (m - per) (fun j hj f hf => ih j (by omega) f hf) g hg
        have : runFor p m c = some e' := by
          have := runFor_trans hrun h1
          rwa [show per + (m - per) = m by omega] at this
        rw [this] at he
        cases he
        rw [← h2.pos]
        exact hsub _ (ih (m - per) (by omega) g hg)
  refine ⟨hper, k, fun t ht => ?_⟩
  obtain ⟨e, he⟩ := Option.isSome_iff_exists.mp (hnh (t - n))
  obtain ⟨e', h1, h2⟩ := hfol (t - n) (fun j _ f hf => hall j f hf) e he
  refine ⟨e, e', ?_, ?_, ?_, ?_⟩
  · have := runFor_trans hc he
    rwa [show n + (t - n) = t by omega] at this
  · have := runFor_trans hc (runFor_trans hrun h1)
    rwa [show n + (per + (t - n)) = t + per by omega] at this
  · have h3 := h2.tape (e.pos + k) (by
      show A _
      rw [show e.pos + k - k = e.pos by omega]; exact hall _ _ he)
    have h4 := h2.pos
    simp only [Cfg.translate] at h3 h4
    rw [show e.pos + k - k = e.pos by omega] at h3
    simp only [Cfg.slot, ← h4, ← h3, ← h2.state]
    rfl
  · exact h2.pos.symm

theorem RecursFrom.neverHalts {p : Prog} {n per : Nat} (h : RecursFrom p n per) :
    NeverHalts p initCfg := by
  apply neverHalts_of_unbounded
  obtain ⟨_, k, hk⟩ := h
  intro m
  obtain ⟨c, _, hc, _⟩ := hk (n + m) (by omega)
  exact ⟨n + m, by omega, by rw [hc]; rfl⟩

theorem RecursFrom.mono {p : Prog} {n per m : Nat} (h : RecursFrom p n per) (hm : n ≤ m) :
    RecursFrom p m per := by
  obtain ⟨h1, k, hk⟩ := h
  exact ⟨h1, k, fun t ht => hk t (by omega)⟩

/-- A run as a function. -/
theorem NeverHalts.run {p : Prog} (h : NeverHalts p initCfg) :
    ∃ f : Nat → Cfg, ∀ t, runFor p t initCfg = some (f t) :=
  ⟨fun t => (runFor p t initCfg).get (h t), fun t => by simp⟩

theorem run_step {p : Prog} {f : Nat → Cfg} (hf : ∀ t, runFor p t initCfg = some (f t)) (t : Nat) :
    ∃ i, p (f t).slot = some i ∧ f (t + 1) = (f t).exec i := by
  have := hf (t + 1)
  rw [runFor_succ', hf t, Option.bind_some] at this
  cases hp : p (f t).slot with
  | none => simp [step_none hp] at this
  | some i =>
    rw [step_some hp] at this
    exact ⟨i, rfl, by simpa using this.symm⟩

theorem run_pos {p : Prog} {f : Nat → Cfg} (hf : ∀ t, runFor p t initCfg = some (f t)) (t : Nat) :
    (f (t + 1)).pos ≤ (f t).pos + 1 ∧ (f t).pos ≤ (f (t + 1)).pos + 1 := by
  obtain ⟨i, _, h⟩ := run_step hf t
  rw [h]
  simp only [Cfg.exec]
  split <;> omega

/-- A cell the head is not on does not change. -/
theorem run_cell {p : Prog} {f : Nat → Cfg} (hf : ∀ t, runFor p t initCfg = some (f t)) (x : Int)
    (a m : Nat) (hx : ∀ t, a ≤ t → t < a + m → (f t).pos ≠ x) :
    (f (a + m)).tape x = (f a).tape x := by
  induction m with
  | zero => rfl
  | succ m ih =>
    obtain ⟨i, _, h⟩ := run_step hf (a + m)
    rw [← Nat.add_assoc, h]
    simp only [Cfg.exec]
    rw [if_neg (fun e => hx (a + m) (by omega) (by omega) e.symm)]
    exact ih fun t h1 h2 => hx t h1 (by omega)

/-- A walk with steps of at most 1 meets every place between two places it meets. -/
theorem walk_between {f : Nat → Int} (hf : ∀ t, f (t + 1) ≤ f t + 1 ∧ f t ≤ f (t + 1) + 1)
    (n a b : Nat) (ha : n ≤ a) (hb : n ≤ b) (x : Int) (h1 : f a ≤ x) (h2 : x ≤ f b) :
    ∃ t, n ≤ t ∧ f t = x := by
  have up : ∀ m a, n ≤ a → f a ≤ x → x ≤ f (a + m) → ∃ t, n ≤ t ∧ f t = x := by
    intro m
    induction m with
    | zero => intro a ha h1 h2; exact ⟨a, ha, by simp at h2; omega⟩
    | succ m ih =>
      intro a ha h1 h2
      by_cases h : f a = x
      · exact ⟨a, ha, h⟩
      · have := hf a
        exact ih (a + 1) (by omega) (by omega) (by rwa [show a + 1 + m = a + (m + 1) by omega])
  have down : ∀ m b, n ≤ b → x ≤ f b → f (b + m) ≤ x → ∃ t, n ≤ t ∧ f t = x := by
    intro m
    induction m with
    | zero => intro b ha h1 h2; exact ⟨b, ha, by simp at h2; omega⟩
    | succ m ih =>
      intro b hb h1 h2
      by_cases h : f b = x
      · exact ⟨b, hb, h⟩
      · have := hf b
        exact ih (b + 1) (by omega) (by omega) (by rwa [show b + 1 + m = b + (m + 1) by omega])
  by_cases hab : a ≤ b
  · exact up (b - a) a ha h1 (by rwa [show a + (b - a) = b by omega])
  · exact down (a - b) b hb h2 (by rwa [show b + (a - b) = a by omega])

/-- A recurrence as facts about the run as a function. -/
theorem RecursFrom.fn {p : Prog} {n per : Nat} (h : RecursFrom p n per) {f : Nat → Cfg}
    (hf : ∀ t, runFor p t initCfg = some (f t)) :
    ∃ k : Int, ∀ t, n ≤ t → (f (t + per)).slot = (f t).slot ∧ (f (t + per)).pos = (f t).pos + k := by
  obtain ⟨_, k, hk⟩ := h
  refine ⟨k, fun t ht => ?_⟩
  obtain ⟨c, d, h1, h2, h3, h4⟩ := hk t ht
  rw [hf] at h1 h2
  cases h1; cases h2
  exact ⟨h3, h4⟩

theorem RecursFrom.of_fn {p : Prog} {n per : Nat} {f : Nat → Cfg} {k : Int} (hper : 0 < per)
    (hf : ∀ t, runFor p t initCfg = some (f t))
    (h : ∀ t, n ≤ t → (f (t + per)).slot = (f t).slot ∧ (f (t + per)).pos = (f t).pos + k) :
    RecursFrom p n per :=
  ⟨hper, k, fun t ht => ⟨_, _, hf t, hf _, (h t ht).1, (h t ht).2⟩⟩

/-- Many periods. -/
theorem recurs_mul {f : Nat → Cfg} {n per : Nat} {k : Int}
    (h : ∀ t, n ≤ t → (f (t + per)).slot = (f t).slot ∧ (f (t + per)).pos = (f t).pos + k)
    (j t : Nat) (ht : n ≤ t) :
    (f (t + j * per)).slot = (f t).slot ∧ (f (t + j * per)).pos = (f t).pos + j * k := by
  induction j with
  | zero => simp
  | succ j ih =>
    have := h (t + j * per) (Nat.le_trans ht (Nat.le_add_right _ _))
    rw [show t + (j + 1) * per = t + j * per + per by rw [Nat.succ_mul, Nat.add_assoc],
      this.1, this.2, ih.1, ih.2]
    refine ⟨rfl, ?_⟩
    rw [show ((j + 1 : Nat) : Int) = (j : Int) + 1 by omega, Int.add_mul]
    omega

/-- A recurrence that begins later has its period from where another one begins. -/
theorem RecursFrom.transfer {p : Prog} {n m per per' : Nat} (h : RecursFrom p n per)
    (h' : RecursFrom p m per') : RecursFrom p n per' := by
  obtain ⟨f, hf⟩ := h.neverHalts.run
  obtain ⟨k, hk⟩ := h.fn hf
  obtain ⟨k', hk'⟩ := h'.fn hf
  refine RecursFrom.of_fn (k := k') h'.1 hf fun t ht => ?_
  have hle : m ≤ t + m * per :=
    Nat.le_trans (Nat.le_mul_of_pos_right _ h.1) (Nat.le_add_left _ _)
  have h1 := hk' (t + m * per) hle
  have h2 := recurs_mul hk m t ht
  have h3 := recurs_mul hk m (t + per') (by omega)
  rw [show t + m * per + per' = t + per' + m * per by omega] at h1
  rw [h3.1, h3.2, h2.1, h2.2] at h1
  exact ⟨h1.1, by omega⟩

/-- A cell that is visited reappears shifted. -/
theorem recurs_cell {p : Prog} {f : Nat → Cfg} (hf : ∀ t, runFor p t initCfg = some (f t))
    {n per : Nat} {k : Int}
    (h : ∀ t, n ≤ t → (f (t + per)).slot = (f t).slot ∧ (f (t + per)).pos = (f t).pos + k)
    (x : Int) (hx : ∃ t, n ≤ t ∧ (f t).pos = x) :
    (f (n + per)).tape (x + k) = (f n).tape x := by
  classical
  have hex : ∃ m, (f (n + m)).pos = x := by
    obtain ⟨t, h1, h2⟩ := hx
    exact ⟨t - n, by rwa [show n + (t - n) = t by omega]⟩
  obtain ⟨m, hm, hmin⟩ : ∃ m, (f (n + m)).pos = x ∧ ∀ j, j < m → (f (n + j)).pos ≠ x :=
    ⟨Nat.find hex, Nat.find_spec hex, fun j hj => Nat.find_min hex hj⟩
  have h1 := run_cell hf x n m fun t ha hb => by
    have := hmin (t - n) (by omega)
    rwa [show n + (t - n) = t by omega] at this
  have h2 := run_cell hf (x + k) (n + per) m fun t ha hb => by
    have h3 := hmin (t - per - n) (by omega)
    rw [show n + (t - per - n) = t - per by omega] at h3
    have h4 := (h (t - per) (by omega)).2
    rw [show t - per + per = t by omega] at h4
    omega
  have h3 := h (n + m) (by omega)
  rw [show n + m + per = n + per + m by omega] at h3
  have h4 := congrArg Prod.snd h3.1
  simp only [Cfg.slot] at h4
  rw [h3.2, hm] at h4
  rw [← h1, ← h2]
  exact h4

/-- With a shift to the right everything to the right of a visited place is visited. -/
theorem recurs_visits_right {p : Prog} {f : Nat → Cfg}
    (hf : ∀ t, runFor p t initCfg = some (f t)) {n per : Nat} {k : Int}
    (h : ∀ t, n ≤ t → (f (t + per)).slot = (f t).slot ∧ (f (t + per)).pos = (f t).pos + k)
    (hk : 0 < k) (m : Nat) (hm : n ≤ m) (x : Int) (hx : (f m).pos ≤ x) :
    ∃ t, n ≤ t ∧ (f t).pos = x := by
  refine walk_between (f := fun t => (f t).pos) (run_pos hf) n m
    (m + (x - (f m).pos).toNat * per) hm (by omega) x hx ?_
  have := (recurs_mul h (x - (f m).pos).toNat m hm).2
  have e : (((x - (f m).pos).toNat : Nat) : Int) = x - (f m).pos := by omega
  simp only [this, e]
  have : x - (f m).pos ≤ (x - (f m).pos) * k := by
    have := Int.mul_le_mul_of_nonneg_left (show (1 : Int) ≤ k by omega)
      (show 0 ≤ x - (f m).pos by omega)
    omega
  omega

theorem recurs_visits_left {p : Prog} {f : Nat → Cfg}
    (hf : ∀ t, runFor p t initCfg = some (f t)) {n per : Nat} {k : Int}
    (h : ∀ t, n ≤ t → (f (t + per)).slot = (f t).slot ∧ (f (t + per)).pos = (f t).pos + k)
    (hk : k < 0) (m : Nat) (hm : n ≤ m) (x : Int) (hx : x ≤ (f m).pos) :
    ∃ t, n ≤ t ∧ (f t).pos = x := by
  refine walk_between (f := fun t => (f t).pos) (run_pos hf) n
    (m + ((f m).pos - x).toNat * per) m (by omega) hm x ?_ hx
  have := (recurs_mul h ((f m).pos - x).toNat m hm).2
  have e : ((((f m).pos - x).toNat : Nat) : Int) = (f m).pos - x := by omega
  simp only [this, e]
  have : ((f m).pos - x) * k ≤ -((f m).pos - x) := by
    have := Int.mul_le_mul_of_nonneg_left (show k ≤ (-1 : Int) by omega)
      (show 0 ≤ (f m).pos - x by omega)
    omega
  omega

end BB
