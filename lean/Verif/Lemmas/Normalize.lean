import Verif.Model.Normalize
import Verif.Lemmas.Rename
import Verif.Lemmas.Parse
import Mathlib.Tactic.Common

namespace BB

/-! ## Dictionaries -/

theorem lookup_dictSet {β : Type} (d : List (Nat × β)) (k : Nat) (v : β) (k' : Nat) :
    (dictSet d k v).lookup k' = if k' = k then some v else d.lookup k' := by
  induction d with
  | nil =>
    simp only [dictSet, List.lookup_cons, List.lookup_nil]
    by_cases h : k' = k
    · simp [h]
    · simp [h, beq_false_of_ne h]
  | cons e d ih =>
    obtain ⟨k1, v1⟩ := e
    simp only [dictSet]
    by_cases hk : k = k1
    · subst hk
      simp only [if_true, List.lookup_cons]
      by_cases h : k' = k
      · simp [h]
      · simp [h, beq_false_of_ne h]
    · simp only [hk, if_false, List.lookup_cons]
      by_cases h : k' = k1
      · subst h
        simp [Ne.symm hk]
      · simp only [beq_false_of_ne h]
        rw [ih]

theorem keys_dictSet {β : Type} (d : List (Nat × β)) (k : Nat) (v : β)
    (h : (d.lookup k).isSome) : (dictSet d k v).map Prod.fst = d.map Prod.fst := by
  induction d with
  | nil => simp at h
  | cons e d ih =>
    obtain ⟨k1, v1⟩ := e
    simp only [dictSet]
    by_cases hk : k = k1
    · simp [hk]
    · simp only [hk, if_false, List.map_cons]
      rw [ih]
      simpa [List.lookup_cons, beq_false_of_ne hk] using h

theorem mem_dictSet {β : Type} {d : List (Nat × β)} {k : Nat} {v : β} {e : Nat × β}
    (h : e ∈ dictSet d k v) : e = (k, v) ∨ e ∈ d := by
  induction d with
  | nil => simpa [dictSet] using h
  | cons f d ih =>
    obtain ⟨k1, v1⟩ := f
    simp only [dictSet] at h
    split at h
    · rcases List.mem_cons.1 h with h | h
      · exact .inl h
      · exact .inr (List.mem_cons_of_mem _ h)
    · rcases List.mem_cons.1 h with h | h
      · exact .inr (by simp [h])
      · rcases ih h with h | h
        · exact .inl h
        · exact .inr (List.mem_cons_of_mem _ h)

theorem lookup_isSome_iff {β : Type} (d : List (Nat × β)) (k : Nat) :
    (d.lookup k).isSome ↔ k ∈ d.map Prod.fst := by
  induction d with
  | nil => simp
  | cons e d ih =>
    obtain ⟨k1, v1⟩ := e
    simp only [List.lookup_cons, List.map_cons, List.mem_cons]
    by_cases h : k = k1
    · simp [h]
    · simp only [beq_false_of_ne h, h, false_or]
      exact ih

theorem mem_of_lookup' {β : Type} {d : List (Nat × β)} {k : Nat} {v : β}
    (h : d.lookup k = some v) : (k, v) ∈ d := by
  induction d with
  | nil => simp at h
  | cons e d ih =>
    obtain ⟨k1, v1⟩ := e
    simp only [List.lookup_cons] at h
    by_cases hk : k = k1
    · subst hk
      simp only [beq_self_eq_true, Option.some.injEq] at h
      simp [h]
    · simp only [beq_false_of_ne hk] at h
      exact List.mem_cons_of_mem _ (ih h)

theorem lookup_of_mem' {β : Type} {d : List (Nat × β)} (hn : (d.map Prod.fst).Nodup) {k : Nat}
    {v : β} (h : (k, v) ∈ d) : d.lookup k = some v := by
  induction d with
  | nil => simp at h
  | cons e d ih =>
    obtain ⟨k1, v1⟩ := e
    simp only [List.map_cons, List.nodup_cons] at hn
    simp only [List.lookup_cons]
    rcases List.mem_cons.1 h with h' | h'
    · simp only [Prod.mk.injEq] at h'
      simp [h'.1, h'.2]
    · have : k ≠ k1 := by
        rintro rfl
        exact hn.1 (List.mem_map.2 ⟨(k, v), h', rfl⟩)
      simp only [beq_false_of_ne this]
      exact ih hn.2 h'

theorem dictSwap_spec {β : Type} (d : List (Nat × β)) (a b : Nat)
    (ha : a ∈ d.map Prod.fst) (hb : b ∈ d.map Prod.fst) :
    ∃ d', dictSwap d a b = some d' ∧ d'.map Prod.fst = d.map Prod.fst ∧
      (∀ k, d'.lookup k = d.lookup (Norm.swapNat a b k)) ∧
      (∀ e ∈ d', ∃ e' ∈ d, e.2 = e'.2) := by
  obtain ⟨va, hva⟩ := Option.isSome_iff_exists.1 ((lookup_isSome_iff d a).2 ha)
  obtain ⟨vb, hvb⟩ := Option.isSome_iff_exists.1 ((lookup_isSome_iff d b).2 hb)
  refine ⟨dictSet (dictSet d a vb) b va, by simp [dictSwap, hva, hvb], ?_, ?_, ?_⟩
  · rw [keys_dictSet, keys_dictSet _ _ _ (by rw [hva]; rfl)]
    rw [lookup_dictSet]
    split
    · rfl
    · rw [hvb]; rfl
  · intro k
    rw [lookup_dictSet, lookup_dictSet]
    simp only [Norm.swapNat]
    by_cases hkb : k = b
    · simp [hkb, hva]
    · by_cases hka : k = a
      · subst hka
        simp [hkb, hvb]
      · simp [hkb, hka]
  · intro e he
    rcases mem_dictSet he with rfl | he
    · exact ⟨_, mem_of_lookup' hva, rfl⟩
    · rcases mem_dictSet he with rfl | he
      · exact ⟨_, mem_of_lookup' hvb, rfl⟩
      · exact ⟨e, he, rfl⟩

namespace Norm

theorem swapNat_invol (a b x : Nat) : swapNat a b (swapNat a b x) = x := by
  simp only [swapNat]
  by_cases h1 : x = b
  · by_cases h2 : a = b <;> simp [h1, h2]
  · by_cases h2 : x = a <;> simp [h1, h2]

theorem swapNat_zero {a b : Nat} (ha : a ≠ 0) (hb : b ≠ 0) : swapNat a b 0 = 0 := by
  simp [swapNat, Ne.symm ha, Ne.symm hb]

theorem swapNat_ne_zero {a b x : Nat} (ha : a ≠ 0) (hb : b ≠ 0) (hx : x ≠ 0) :
    swapNat a b x ≠ 0 := by
  simp only [swapNat]
  split
  · exact ha
  · split
    · exact hb
    · exact hx

theorem swapNat_lt {a b x n : Nat} (ha : a < n) (hb : b < n) (hx : x < n) :
    swapNat a b x < n := by
  simp only [swapNat]
  split
  · exact ha
  · split
    · exact hb
    · exact hx

/-! ## Programs with `S` rows of `C` entries -/

/-- Rows `0 .. S-1`, each with entries `0 .. C-1`, in order. -/
structure Dense (n : Norm) (S C : Nat) : Prop where
  rows : n.map Prod.fst = List.range S
  cols : ∀ e ∈ n, e.2.map Prod.fst = List.range C

theorem Dense.numStates {n : Norm} {S C : Nat} (h : Dense n S C) : n.numStates = S := by
  have := congrArg List.length h.rows
  simpa [Norm.numStates] using this

theorem Dense.mem_rows {n : Norm} {S C : Nat} (h : Dense n S C) {s : Nat} :
    s ∈ n.map Prod.fst ↔ s < S := by
  rw [h.rows]; simp

theorem Dense.row {n : Norm} {S C s : Nat} (h : Dense n S C) (hs : s < S) :
    ∃ sw, n.lookup s = some sw ∧ sw.map Prod.fst = List.range C := by
  obtain ⟨sw, hsw⟩ := Option.isSome_iff_exists.1 ((lookup_isSome_iff n s).2 (h.mem_rows.2 hs))
  exact ⟨sw, hsw, h.cols _ (mem_of_lookup' hsw)⟩

theorem Dense.numColors {n : Norm} {S C : Nat} (h : Dense n S C) (hS : 0 < S) :
    n.numColors = some C := by
  obtain ⟨sw, h1, h2⟩ := h.row hS
  have := congrArg List.length h2
  simp only [List.length_map, List.length_range] at this
  simp [Norm.numColors, h1, this]

theorem Dense.at? {n : Norm} {S C s c : Nat} (h : Dense n S C) (hs : s < S) (hc : c < C) :
    ∃ oi, n.at? (s, c) = some oi ∧ n.getitem (s, c) = oi := by
  obtain ⟨sw, h1, h2⟩ := h.row hs
  obtain ⟨oi, h3⟩ := Option.isSome_iff_exists.1
    ((lookup_isSome_iff sw c).2 (by rw [h2]; simpa using hc))
  refine ⟨oi, by simp [Norm.at?, h1, h3], by simp [Norm.getitem, Norm.at?, h1, h3]⟩

theorem Dense.getitem_none {n : Norm} {S C s c : Nat} (h : Dense n S C) (hsc : ¬ (s < S ∧ c < C)) :
    n.getitem (s, c) = none := by
  by_cases hs : s < S
  · obtain ⟨sw, h1, h2⟩ := h.row hs
    have hc : ¬ c < C := fun hc => hsc ⟨hs, hc⟩
    have : sw.lookup c = none := by
      cases hl : sw.lookup c with
      | none => rfl
      | some v =>
        have := (lookup_isSome_iff sw c).1 (by rw [hl]; rfl)
        rw [h2] at this
        exact absurd (List.mem_range.1 this) hc
    simp [Norm.getitem, Norm.at?, h1, this]
  · have : n.lookup s = none := by
      cases hl : n.lookup s with
      | none => rfl
      | some v =>
        have := (lookup_isSome_iff n s).1 (by rw [hl]; rfl)
        exact absurd (h.mem_rows.1 this) hs
    simp [Norm.getitem, Norm.at?, this]

theorem Dense.mem_slots {n : Norm} {S C : Nat} (h : Dense n S C) (s : Slot) :
    s ∈ n.slots ↔ s.1 < S ∧ s.2 < C := by
  obtain ⟨st, co⟩ := s
  simp only [Norm.slots, List.mem_flatMap, List.mem_map, Prod.mk.injEq]
  constructor
  · rintro ⟨e, he, f, hf, rfl, rfl⟩
    refine ⟨h.mem_rows.1 (List.mem_map.2 ⟨e, he, rfl⟩), ?_⟩
    have : f.1 ∈ e.2.map Prod.fst := List.mem_map.2 ⟨f, hf, rfl⟩
    rw [h.cols e he] at this
    exact List.mem_range.1 this
  · rintro ⟨hs, hc⟩
    obtain ⟨sw, h1, h2⟩ := h.row hs
    have : co ∈ sw.map Prod.fst := by rw [h2]; exact List.mem_range.2 hc
    obtain ⟨f, hf, rfl⟩ := List.mem_map.1 this
    exact ⟨(st, sw), mem_of_lookup' h1, f, hf, rfl, rfl⟩

theorem Dense.mem_used {n : Norm} {S C : Nat} (h : Dense n S C) (s : Slot) (i : Instr) :
    (s, i) ∈ n.usedInstrSlots ↔ n.getitem s = some i := by
  obtain ⟨st, co⟩ := s
  simp only [Norm.usedInstrSlots, List.mem_flatMap, List.mem_filterMap, Option.map_eq_some_iff,
    Prod.mk.injEq]
  constructor
  · rintro ⟨⟨st', sw⟩, he, ⟨co', oi⟩, hf, i', h1, ⟨h2, h3⟩, h4⟩
    simp only at h1 h2 h3 h4
    subst h2 h3 h4 h1
    have e1 : n.lookup st' = some sw := lookup_of_mem' (by rw [h.rows]; exact List.nodup_range) he
    have e2 : sw.lookup co' = some (some i') :=
      lookup_of_mem' (by rw [h.cols _ he]; exact List.nodup_range) hf
    simp [Norm.getitem, Norm.at?, e1, e2]
  · intro hg
    simp only [Norm.getitem, Norm.at?] at hg
    cases h1 : n.lookup st with
    | none => rw [h1] at hg; simp at hg
    | some sw =>
      rw [h1] at hg
      simp only [Option.bind_some] at hg
      cases h2 : sw.lookup co with
      | none => rw [h2] at hg; simp at hg
      | some oi =>
        rw [h2] at hg
        simp only [Option.join_some] at hg
        subst hg
        exact ⟨(st, sw), mem_of_lookup' h1, (co, some i), mem_of_lookup' h2, i, rfl, ⟨rfl, rfl⟩,
          rfl⟩

theorem Dense.setitem {n : Norm} {S C : Nat} (h : Dense n S C) (s : Slot) (oi : Option Instr)
    (hs : s.1 < S) (hc : s.2 < C) :
    ∃ n', n.setitem s oi = some n' ∧ Dense n' S C ∧
      ∀ s', n'.getitem s' = if s' = s then oi else n.getitem s' := by
  obtain ⟨st, co⟩ := s
  obtain ⟨sw, h1, h2⟩ := h.row hs
  have hl : (sw.lookup co).isSome := (lookup_isSome_iff sw co).2 (by rw [h2]; simpa using hc)
  refine ⟨dictSet n st (dictSet sw co oi), by simp [Norm.setitem, h1], ⟨?_, ?_⟩, ?_⟩
  · rw [keys_dictSet _ _ _ (by rw [h1]; rfl)]
    exact h.rows
  · intro e he
    rcases mem_dictSet he with rfl | he
    · simp only
      rw [keys_dictSet _ _ _ hl]
      exact h2
    · exact h.cols e he
  · rintro ⟨st', co'⟩
    simp only [Norm.getitem, Norm.at?, lookup_dictSet, Prod.mk.injEq]
    by_cases e1 : st' = st
    · subst e1
      simp only [if_true, Option.bind_some, lookup_dictSet, true_and, h1]
      by_cases e2 : co' = co
      · simp [e2]
      · simp [e2]
    · simp [e1]

theorem Dense.setAll {n : Norm} {S C : Nat} (h : Dense n S C) (l : List (Slot × Instr))
    (hl : ∀ e ∈ l, e.1.1 < S ∧ e.1.2 < C) :
    ∃ n', setAll l n = some n' ∧ Dense n' S C ∧
      (∀ s, (∃ i, (s, i) ∈ l) → ∃ i, (s, i) ∈ l ∧ n'.getitem s = some i) ∧
      (∀ s, (∀ i, (s, i) ∉ l) → n'.getitem s = n.getitem s) := by
  induction l generalizing n with
  | nil => exact ⟨n, rfl, h, by simp, by simp⟩
  | cons e l ih =>
    obtain ⟨s, i⟩ := e
    have hs := hl _ (List.mem_cons_self ..)
    obtain ⟨n1, h1, h2, h3⟩ := h.setitem s (some i) hs.1 hs.2
    obtain ⟨n2, k1, k2, k3, k4⟩ := ih h2 (fun e he => hl e (List.mem_cons_of_mem _ he))
    refine ⟨n2, by simp [Norm.setAll, h1, k1], k2, ?_, ?_⟩
    · rintro s' ⟨i', hi'⟩
      by_cases hex : ∃ j, (s', j) ∈ l
      · obtain ⟨j, j1, j2⟩ := k3 s' hex
        exact ⟨j, List.mem_cons_of_mem _ j1, j2⟩
      · have hno : ∀ j, (s', j) ∉ l := fun j hj => hex ⟨j, hj⟩
        rcases List.mem_cons.1 hi' with hi' | hi'
        · simp only [Prod.mk.injEq] at hi'
          refine ⟨i', by simp [hi'.1, hi'.2], ?_⟩
          rw [k4 s' hno, h3]
          simp [hi'.1, hi'.2]
        · exact absurd hi' (hno i')
    · intro s' hno
      rw [k4 s' (fun j hj => hno j (List.mem_cons_of_mem _ hj)), h3]
      have : s' ≠ s := by
        rintro rfl
        exact hno i (List.mem_cons_self ..)
      simp [this]

/-- Rewriting all used instructions with a function. -/
theorem Dense.mapUsed {n : Norm} {S C : Nat} (h : Dense n S C) (f : Instr → Instr) :
    ∃ n', Norm.setAll (n.usedInstrSlots.map fun e => (e.1, f e.2)) n = some n' ∧ Dense n' S C ∧
      ∀ s, n'.getitem s = (n.getitem s).map f := by
  have hmem : ∀ s i, (s, i) ∈ n.usedInstrSlots.map (fun e => (e.1, f e.2)) ↔
      ∃ j, n.getitem s = some j ∧ f j = i := by
    intro s i
    simp only [List.mem_map, Prod.mk.injEq]
    constructor
    · rintro ⟨⟨s', j⟩, he, h1, h2⟩
      simp only at h1 h2
      subst h1
      exact ⟨j, (h.mem_used _ _).1 he, h2⟩
    · rintro ⟨j, h1, h2⟩
      exact ⟨(s, j), (h.mem_used _ _).2 h1, rfl, h2⟩
  obtain ⟨n', h1, h2, h3, h4⟩ := h.setAll (n.usedInstrSlots.map fun e => (e.1, f e.2)) (by
    rintro ⟨⟨st, co⟩, i⟩ he
    obtain ⟨j, hj, -⟩ := (hmem _ _).1 he
    by_contra hcon
    rw [h.getitem_none hcon] at hj
    cases hj)
  refine ⟨n', h1, h2, ?_⟩
  intro s
  cases hg : n.getitem s with
  | none =>
    rw [h4 s, hg]
    · rfl
    · intro i hi
      obtain ⟨j, hj, -⟩ := (hmem _ _).1 hi
      rw [hg] at hj
      cases hj
  | some j =>
    obtain ⟨i, hi, hi'⟩ := h3 s ⟨f j, (hmem _ _).2 ⟨j, hg, rfl⟩⟩
    obtain ⟨j', hj', rfl⟩ := (hmem _ _).1 hi
    rw [hg] at hj'
    cases hj'
    rw [hi']
    rfl

theorem Dense.swapStates {n : Norm} {S C a b : Nat} (h : Dense n S C) (ha : a < S) (hb : b < S) :
    ∃ n', n.swapStates a b = some n' ∧ Dense n' S C ∧
      Renames n.getitem n'.getitem (swapNat a b) id false := by
  obtain ⟨n1, h1, h2, h3, h4⟩ := dictSwap_spec n a b (h.mem_rows.2 ha) (h.mem_rows.2 hb)
  have hd1 : Dense n1 S C := by
    refine ⟨h2.trans h.rows, ?_⟩
    intro e he
    obtain ⟨e', he', heq⟩ := h4 e he
    rw [heq]
    exact h.cols e' he'
  obtain ⟨n2, k1, k2, k3⟩ := hd1.mapUsed fun i => (i.1, i.2.1, swapNat a b i.2.2)
  refine ⟨n2, ?_, k2, ?_⟩
  · simp only [Norm.swapStates, h1, Option.bind_some]
    exact k1
  · intro s c
    rw [k3]
    have : Norm.getitem n1 (swapNat a b s, id c) = n.getitem (s, c) := by
      simp only [Norm.getitem, Norm.at?, h3, swapNat_invol, id]
    rw [this]
    congr 1
    funext i
    simp

theorem swapColumns_spec {S C a b : Nat} (ha : a < C) (hb : b < C) (l : List State) (n : Norm)
    (h : Dense n S C) (hl : ∀ s ∈ l, s < S) (hnd : l.Nodup) :
    ∃ n', swapColumns a b l n = some n' ∧ Dense n' S C ∧
      ∀ s c, n'.getitem (s, c) = n.getitem (s, if s ∈ l then swapNat a b c else c) := by
  induction l generalizing n with
  | nil => exact ⟨n, rfl, h, by simp⟩
  | cons st l ih =>
    obtain ⟨sw, h1, h2⟩ := h.row (hl st (List.mem_cons_self ..))
    obtain ⟨sw', k1, k2, k3, -⟩ := dictSwap_spec sw a b (by rw [h2]; simpa using ha)
      (by rw [h2]; simpa using hb)
    have hd : Dense (dictSet n st sw') S C := by
      refine ⟨by rw [keys_dictSet _ _ _ (by rw [h1]; rfl)]; exact h.rows, ?_⟩
      intro e he
      rcases mem_dictSet he with rfl | he
      · exact k2.trans h2
      · exact h.cols e he
    obtain ⟨n', m1, m2, m3⟩ := ih _ hd (fun s hs => hl s (List.mem_cons_of_mem _ hs))
      (List.nodup_cons.1 hnd).2
    refine ⟨n', by simp [swapColumns, h1, k1, m1], m2, ?_⟩
    intro s c
    rw [m3]
    simp only [Norm.getitem, Norm.at?, lookup_dictSet]
    by_cases hs : s = st
    · subst hs
      have : s ∉ l := (List.nodup_cons.1 hnd).1
      simp [this, h1, k3]
    · simp [hs]

theorem Dense.swapColors {n : Norm} {S C a b : Nat} (h : Dense n S C) (ha : a < C) (hb : b < C) :
    ∃ n', n.swapColors a b = some n' ∧ Dense n' S C ∧
      Renames n.getitem n'.getitem id (swapNat a b) false := by
  obtain ⟨n1, h1, h2, h3⟩ := swapColumns_spec ha hb (List.range S) n h
    (fun s hs => List.mem_range.1 hs) List.nodup_range
  obtain ⟨n2, k1, k2, k3⟩ := h2.mapUsed fun i => (swapNat a b i.1, i.2.1, i.2.2)
  refine ⟨n2, ?_, k2, ?_⟩
  · simp only [Norm.swapColors, h.numStates, h1, Option.bind_some]
    exact k1
  · intro s c
    rw [k3]
    have : n1.getitem (id s, swapNat a b c) = n.getitem (s, c) := by
      rw [id, h3]
      by_cases hs : s ∈ List.range S
      · simp [hs, swapNat_invol]
      · have hs' : ¬ s < S := by simpa using hs
        rw [h.getitem_none (by tauto), h.getitem_none (by tauto)]
    rw [this]
    congr 1
    funext i
    simp

theorem Dense.directions {n : Norm} {S C : Nat} (h : Dense n S C) {i : Instr}
    (hi : n.getitem (0, 0) = some i) :
    ∃ n', n.normalizeDirections = some n' ∧ Dense n' S C ∧
      Renames n.getitem n'.getitem id id (!i.2.1) := by
  simp only [Norm.normalizeDirections, hi, Option.bind_some]
  by_cases hd : i.2.1 = true
  · refine ⟨n, by simp [hd], h, ?_⟩
    rw [hd]
    exact Renames.refl _
  · obtain ⟨n', k1, k2, k3⟩ := h.mapUsed fun i => (i.1, !i.2.1, i.2.2)
    refine ⟨n', by simp only [hd]; exact k1, k2, ?_⟩
    intro s c
    simp only [id, k3]
    have hd' : i.2.1 = false := by simpa using hd
    rw [hd']
    simp only [Bool.not_false]
    congr 1
    funext j
    cases j.2.1 <;> rfl

/-! ## Making one from parsed rows -/

theorem enumDict_keys {β : Type} (k : Nat) (l : List β) :
    (enumDict k l).map Prod.fst = (List.range l.length).map (k + ·) := by
  induction l generalizing k with
  | nil => rfl
  | cons x xs ih =>
    simp only [enumDict, List.map_cons, List.length_cons, List.range_succ_eq_map, ih, List.map_map]
    simp only [Nat.add_zero, List.cons.injEq, true_and]
    apply List.map_congr_left
    intro y _
    simp only [Function.comp_def]
    omega

theorem mem_enumDict {β : Type} {k : Nat} {l : List β} {e : Nat × β} (h : e ∈ enumDict k l) :
    e.2 ∈ l := by
  induction l generalizing k with
  | nil => simp [enumDict] at h
  | cons x xs ih =>
    rcases List.mem_cons.1 h with rfl | h
    · exact List.mem_cons_self ..
    · exact List.mem_cons_of_mem _ (ih h)

theorem lookup_enumDict {β : Type} (k : Nat) (l : List β) (j : Nat) :
    (enumDict k l).lookup j = if k ≤ j then l[j - k]? else none := by
  induction l generalizing k with
  | nil => simp [enumDict]
  | cons x xs ih =>
    simp only [enumDict, List.lookup_cons]
    by_cases h : j = k
    · subst h
      simp
    · simp only [beq_false_of_ne h]
      rw [ih]
      by_cases hle : k ≤ j
      · have h1 : k + 1 ≤ j := by omega
        have h2 : j - k = (j - (k + 1)) + 1 := by omega
        simp [hle, h1, h2]
      · have h1 : ¬ k + 1 ≤ j := by omega
        simp [hle, h1]

theorem dense_ofRows (rows : List (List (Option Instr))) (S C : Nat) (hS : rows.length = S)
    (hC : ∀ row ∈ rows, row.length = C) : Dense (ofRows rows) S C := by
  constructor
  · simp only [ofRows, enumDict_keys, List.length_map, hS]
    simp
  · intro e he
    have := mem_enumDict he
    obtain ⟨row, hr, heq⟩ := List.mem_map.1 this
    rw [← heq, enumDict_keys, hC row hr]
    simp

theorem getitem_ofRows (rows : List (List (Option Instr))) (s c : Nat) :
    (ofRows rows).getitem (s, c) = gridGet rows s c := by
  simp only [Norm.getitem, Norm.at?, ofRows, lookup_enumDict, Nat.zero_le, if_true, Nat.sub_zero,
    List.getElem?_map, gridGet]
  cases rows[s]? with
  | none => rfl
  | some row => simp [lookup_enumDict]

end Norm

end BB
