import Verif.Lemmas.NormalForm

/-! # The normaliser on programs of two or three colours -/

namespace BB

/-- States in order of mention, and the first instruction prints 1 and moves right. -/
structure Canonical (p : Prog) (S : Nat) : Prop where
  order : InOrderTo p S
  first : ∃ q, p (0, 0) = some (1, true, q)

/-- Nothing is defined outside the table. -/
def InGrid (p : Prog) (S C : Nat) : Prop := ∀ s, ¬ (s.1 < S ∧ s.2 < C) → p s = none

/-- With at most three colours, two canonical programs that are the same up to names and
mirroring are the same. -/
theorem Canonical.unique {p p' : Prog} {S C : Nat} (hC : C ≤ 3)
    (hin : InGrid p S C) (hin' : InGrid p' S C)
    (hu : Used p S C) (hbelow : Below p C S) (hre : AllReached p S) (h : Canonical p S)
    (h' : Canonical p' S) (hs : SameUpTo p p') : p' = p := by
  obtain ⟨σ, τ, m, hσ, hτ, hσ0, hτ0, hr⟩ := hs
  obtain ⟨q, hq⟩ := h.first
  obtain ⟨q', hq'⟩ := h'.first
  have h00 := hr 0 0
  rw [hσ0, hτ0, hq, hq'] at h00
  simp only [Option.map_some, Option.some.injEq, Prod.mk.injEq] at h00
  obtain ⟨h1, h2, -⟩ := h00
  have hm : m = false := by
    cases m with
    | false => rfl
    | true => exact absurd h2 (by decide)
  subst hm
  have h1C : 1 < C := (hbelow _ _ hq).1
  have hτC : ∀ c, c < C → τ c = c := by
    intro c hc
    have hc3 : c = 0 ∨ c = 1 ∨ c = 2 := by omega
    rcases hc3 with rfl | rfl | rfl
    · exact hτ0
    · exact h1.symm
    · obtain ⟨s, hs, hi⟩ := hu.cols 2 hc
      have hlt : τ 2 < C := by
        by_contra hn
        have := hr s 2
        rw [hin' _ (fun hh => hn hh.2)] at this
        obtain ⟨i, hi⟩ := Option.isSome_iff_exists.1 hi
        rw [hi] at this
        simp at this
      have hne0 : τ 2 ≠ 0 := by
        intro hz
        have := hτ.1 (hz.trans hτ0.symm)
        omega
      have hne1 : τ 2 ≠ 1 := by
        intro hz
        have := hτ.1 (hz.trans h1)
        omega
      omega
  have hr' : Renames p p' σ id false := by
    intro s c
    by_cases hc : c < C
    · have := hr s c
      rw [hτC c hc] at this
      show p' (σ s, c) = _
      rw [this]
      cases hp : p (s, c) with
      | none => rfl
      | some i =>
        simp only [Option.map_some, id, Option.some.injEq, Prod.mk.injEq, and_true]
        exact hτC _ (hbelow _ _ hp).1
    · rw [hin (s, c) (fun hh => hc hh.2), hin' _ (fun hh => hc hh.2)]
      rfl
  have hnames := names_eq hr' hσ0 hσ.1 hre h.order h'.order
  funext ⟨s, c⟩
  by_cases hs : s < S
  · have := hr' s c
    rw [hnames s hs] at this
    simp only [id, Bool.bne_false] at this
    rw [this]
    cases hp : p (s, c) with
    | none => rfl
    | some i =>
      simp only [Option.map_some, Option.some.injEq]
      rw [hnames _ (hbelow _ _ hp).2]
  · rw [hin (s, c) (fun hh => hs hh.1), hin' _ (fun hh => hs hh.1)]

theorem InOrderTo.mirror {p p' : Prog} {k : Nat} {m : Bool} (h : InOrderTo p k)
    (hr : Renames p p' id id m) : InOrderTo p' k := by
  intro j h1 h2
  obtain ⟨s, i, a, b, c⟩ := h j h1 h2
  refine ⟨s, (i.1, i.2.1 != m, i.2.2), ?_, b, ?_⟩
  · have := hr s.1 s.2
    rw [a] at this
    simpa using this
  · intro s' i' hb hi'
    have := hr s'.1 s'.2
    simp only [id] at this
    rw [hi'] at this
    cases hp : p (s'.1, s'.2) with
    | none => rw [hp] at this; simp at this
    | some j =>
      rw [hp] at this
      simp only [Option.map_some, Option.some.injEq] at this
      rw [this]
      exact c s' j hb hp

namespace Norm

theorem Dense.inside {n : Norm} {S C : Nat} (h : Dense n S C) : InGrid n.getitem S C :=
  fun _ hs => h.getitem_none hs

/-- Two tables of the same shape with the same entries are the same. -/
theorem Dense.ext {n n' : Norm} {S C : Nat} (h : Dense n S C) (h' : Dense n' S C)
    (hg : n.getitem = n'.getitem) : n = n' := by
  rw [← h.ofRows_toRows, ← h'.ofRows_toRows]
  congr 1
  have key : ∀ (n : Norm), Dense n S C →
      n.toRows = (List.range S).map fun s => (List.range C).map fun c => n.getitem (s, c) := by
    intro n h
    have e1 : n.toRows = n.map fun e => (List.range C).map fun c => n.getitem (e.1, c) := by
      simp only [toRows]
      apply List.map_congr_left
      rintro ⟨s, sw⟩ he
      have hlk : n.lookup s = some sw :=
        lookup_of_mem' (by rw [h.rows]; exact List.nodup_range) he
      simp only
      rw [← h.cols _ he, List.map_map]
      apply List.map_congr_left
      rintro ⟨c, oi⟩ hf
      have hlk' : sw.lookup c = some oi :=
        lookup_of_mem' (by rw [h.cols _ he]; exact List.nodup_range) hf
      simp only [Function.comp_apply]
      rw [getitem_row hlk, hlk']
      rfl
    rw [e1, ← h.rows, List.map_map]
    rfl
  rw [key n h, key n' h', hg]

/-- Everything the normaliser needs. -/
structure Full (n : Norm) (S C : Nat) : Prop where
  dense : Dense n S C
  used : Used n.getitem S C
  below : Below n.getitem C S
  reached : AllReached n.getitem S

theorem Full.good {n : Norm} {S C : Nat} (h : Full n S C) : Good n S C := ⟨h.dense, h.used⟩

theorem Full.states {n : Norm} {S C : Nat} (h : Full n S C) :
    ∃ n', n.normalizeStates = some n' ∧ Full n' S C ∧ SameUpTo n.getitem n'.getitem ∧
      InOrderTo n'.getitem S ∧
      ∀ i, n.getitem (0, 0) = some i → ∃ q, n'.getitem (0, 0) = some (i.1, i.2.1, q) := by
  obtain ⟨n', σ, h1, h2, h3, h4, -, h5, h6, h7, h8⟩ :=
    normalizeStates_order n h.dense h.below h.reached
  obtain ⟨n'', k1, k2, k3, -⟩ := statesLoop_spec n.numStates n h.good
  have : n'' = n' := by
    have : some n'' = some n' := by rw [← k1, ← h1]; rfl
    simpa using this
  subst this
  refine ⟨n'', h1, ⟨h2, k2.used, h6, h7⟩, k3, h8, ?_⟩
  intro i hi
  have := h5 0 0
  rw [hi, h4] at this
  exact ⟨_, by simpa using this⟩

theorem colorsPass_nil {S C : Nat} {n : Norm} (h : Dense n S C) (l : List Slot)
    (hl : ∀ s ∈ l, s.1 < S ∧ s.2 < C) : colorsPass l [] n = some n := by
  induction l with
  | nil => rfl
  | cons s l ih =>
    have hs := hl s (List.mem_cons_self ..)
    obtain ⟨oi, h1, -⟩ := h.at? hs.1 hs.2
    have ih := ih fun u hu => hl u (List.mem_cons_of_mem _ hu)
    cases oi <;> simp [colorsPass, h1, ih]

theorem colorsPass_one {S C : Nat} {n : Norm} (h : Dense n S C) (l : List Slot) (y : Nat)
    (hl : ∀ s ∈ l, s.1 < S ∧ s.2 < C) : colorsPass l [y] n = some n := by
  induction l with
  | nil => rfl
  | cons s l ih =>
    have hs := hl s (List.mem_cons_self ..)
    obtain ⟨oi, h1, -⟩ := h.at? hs.1 hs.2
    have hl' := fun u hu => hl u (List.mem_cons_of_mem _ hu)
    have ih := ih hl'
    cases oi with
    | none => simp [colorsPass, h1, ih]
    | some i =>
      by_cases hi : i.1 = y
      · simp [colorsPass, h1, hi, colorsPass_nil h l hl']
      · simp [colorsPass, h1, hi, ih]

/-- With at most three colours `normalize_colors` exchanges 1 and 2 if the first instruction
prints 2, and does nothing otherwise. -/
theorem Full.colors {n : Norm} {S C : Nat} (hC : C ≤ 3) (hS : 0 < S) (h : Full n S C) :
    ∃ n', n.normalizeColors = some n' ∧ Full n' S C ∧ SameUpTo n.getitem n'.getitem ∧
      (∃ d q, n'.getitem (0, 0) = some (1, d, q)) ∧
      ((∃ d q, n.getitem (0, 0) = some (1, d, q)) → n' = n) := by
  obtain ⟨i, hi, hi0⟩ := h.used.start
  obtain ⟨co, d, q⟩ := i
  have hlt := (h.below _ _ hi).1
  simp only at hi0 hlt
  have hC0 : 0 < C := by nf_omega
  have hmem : ((0, 0) : Slot) ∈ gridSlots S C := mem_gridSlots.2 ⟨hS, hC0⟩
  have hslots : ∃ l, n.slots = (0, 0) :: l ∧ ∀ s ∈ l, s.1 < S ∧ s.2 < C := by
    obtain ⟨S', rfl⟩ : ∃ S', S = S' + 1 := ⟨S - 1, by omega⟩
    obtain ⟨C', rfl⟩ : ∃ C', C = C' + 1 := ⟨C - 1, by omega⟩
    have e : n.slots = (0, 0) :: (gridSlots (S' + 1) (C' + 1)).tail := by
      rw [h.dense.slots_eq, gridSlots, List.range_succ_eq_map, List.range_succ_eq_map]
      rfl
    refine ⟨_, e, ?_⟩
    intro s hs
    exact mem_gridSlots.1 (List.mem_of_mem_tail hs)
  obtain ⟨l, hl1, hl2⟩ := hslots
  obtain ⟨oi, h1, h2⟩ := h.dense.at? hS hC0
  rw [hi] at h2
  subst h2
  have hco : co = 1 ∨ co = 2 ∧ C = 3 := by nf_omega
  simp only [normalizeColors, h.dense.numColors hS, Option.bind_some]
  rw [if_neg (by omega), hl1]
  rcases hco with rfl | ⟨rfl, rfl⟩
  · refine ⟨n, ?_, h, SameUpTo.refl _, ⟨d, q, hi⟩, fun _ => rfl⟩
    have hC2 : C = 2 ∨ C = 3 := by nf_omega
    rcases hC2 with rfl | rfl
    · rw [show todoList 2 = [1] from rfl]
      simp [colorsPass, h1, colorsPass_nil h.dense l hl2]
    · rw [show todoList 3 = [1, 2] from rfl]
      simp [colorsPass, h1, colorsPass_one h.dense l 2 hl2]
  · obtain ⟨n', k1, k2, k3⟩ := h.dense.swapColors (show 2 < 3 by omega) (show 1 < 3 by omega)
    obtain ⟨n'', k1', k2', k3', k4'⟩ := h.good.swapColors (show 2 < 3 by omega)
      (show 1 < 3 by omega) (by omega) (by omega)
    rw [k1] at k1'
    cases k1'
    refine ⟨n', ?_, ⟨k2, k2'.used, k4' _ _ (Nat.le_refl _) (Nat.le_refl _) h.below,
      h.reached.rename k3 rfl (fun k hk => ⟨k, hk, rfl⟩)⟩, k3', ?_, ?_⟩
    · rw [show todoList 3 = [1, 2] from rfl]
      simp [colorsPass, h1, k1, colorsPass_one k2 l 2 hl2]
    · have := k3 0 0
      rw [hi] at this
      refine ⟨d, q, ?_⟩
      simpa [swapNat] using this
    · rintro ⟨d', q', hd⟩
      rw [hi] at hd
      simp at hd

/-- One round. -/
theorem Full.round {n : Norm} {S C : Nat} (hC : C ≤ 3) (hS : 0 < S) (h : Full n S C) :
    ∃ n', n.round = some n' ∧ Full n' S C ∧ SameUpTo n.getitem n'.getitem ∧
      (∃ d q, n'.getitem (0, 0) = some (1, d, q)) ∧
      ((∃ d q, n.getitem (0, 0) = some (1, d, q)) → InOrderTo n'.getitem S) := by
  have hC0 : 0 < C := by
    obtain ⟨i, hi, hi0⟩ := h.used.start
    have := (h.below _ _ hi).1
    nf_omega
  obtain ⟨n1, a1, a2, a3, a4, a5⟩ := h.states
  obtain ⟨n2, b1, b2, b3, b4, b5⟩ := a2.colors hC hS
  refine ⟨n2, ?_, b2, a3.trans b3, b4, ?_⟩
  · simp only [Norm.round]
    rw [a1, Option.bind_some, b1, Option.bind_some, cutUnusedStates_spec hS b2.good,
      Option.bind_some, cutUnusedColors_spec hS b2.good, Option.bind_some,
      cinch_spec hS hC0 b2.good]
  · rintro ⟨d, q, hd⟩
    obtain ⟨q', hq'⟩ := a5 _ hd
    rw [b5 ⟨_, _, hq'⟩]
    exact a4

theorem Full.rounds {S C : Nat} (hC : C ≤ 3) (hS : 0 < S) (k : Nat) (n : Norm) (h : Full n S C) :
    ∃ n', rounds k n = some n' ∧ Full n' S C ∧ SameUpTo n.getitem n'.getitem ∧
      ((∃ d q, n.getitem (0, 0) = some (1, d, q)) → InOrderTo n.getitem S →
        (∃ d q, n'.getitem (0, 0) = some (1, d, q)) ∧ InOrderTo n'.getitem S) ∧
      ((∃ d q, n.getitem (0, 0) = some (1, d, q)) → 1 ≤ k →
        (∃ d q, n'.getitem (0, 0) = some (1, d, q)) ∧ InOrderTo n'.getitem S) ∧
      (2 ≤ k → (∃ d q, n'.getitem (0, 0) = some (1, d, q)) ∧ InOrderTo n'.getitem S) := by
  induction k generalizing n with
  | zero =>
    exact ⟨n, rfl, h, SameUpTo.refl _, fun a b => ⟨a, b⟩, fun _ h => absurd h (by omega),
      fun h => absurd h (by omega)⟩
  | succ k ih =>
    obtain ⟨n1, a1, a2, a3, a4, a5⟩ := h.round hC hS
    obtain ⟨n2, b1, b2, b3, b4, b5, b6⟩ := ih n1 a2
    refine ⟨n2, by simp [Norm.rounds, a1, b1], b2, a3.trans b3, ?_, ?_, ?_⟩
    · intro h1 _
      exact b4 a4 (a5 h1)
    · intro h1 _
      exact b4 a4 (a5 h1)
    · intro hk
      exact b5 a4 (by omega)

/-- The normaliser on programs of at most three colours. -/
theorem Full.normalize {n : Norm} {S C : Nat} (hC : C ≤ 3) (hS : 0 < S) (h : Full n S C) :
    ∃ n', n.normalize = some n' ∧ Full n' S C ∧ SameUpTo n.getitem n'.getitem ∧
      Canonical n'.getitem S := by
  have hC2 : 2 ≤ C := by
    obtain ⟨i, hi, hi0⟩ := h.used.start
    have := (h.below _ _ hi).1
    nf_omega
  obtain ⟨n1, a1, a2, a3, -, -, a4⟩ := Full.rounds hC hS C n h
  obtain ⟨⟨d, q, hd⟩, ho⟩ := a4 hC2
  obtain ⟨n', k1, k2, k3⟩ := a2.dense.directions hd
  refine ⟨n', ?_, ⟨k2, ?_, ?_, ?_⟩, a3.trans ⟨id, id, _, Function.bijective_id,
    Function.bijective_id, rfl, rfl, k3⟩, ⟨ho.mirror k3, q, ?_⟩⟩
  · simp only [Norm.normalize, h.dense.numColors hS, Option.bind_some, a1, k1]
  · exact a2.used.rename k3 rfl rfl (fun _ => rfl) (fun _ => rfl) (fun _ h => h) (fun _ h => h)
  · exact a2.below.rename k3 (fun _ => rfl) (fun _ => rfl) (fun _ h => h) (fun _ h => h)
  · exact a2.reached.rename k3 rfl (fun k hk => ⟨k, hk, rfl⟩)
  · have := k3 0 0
    rw [hd] at this
    simp only [id, Option.map_some] at this
    rw [this]
    cases d <;> rfl

end Norm
end BB
