import Verif.Model.PastConfigs
import Verif.Lemmas.Rules

/-! # C21: the past-configuration table -/

namespace BB

/-- Calls on a table. -/
inductive PastCall
  | next (state : State) (cycle : Int)
  | delete (state : State)

/-- A sequence of calls, ignoring the answers. -/
def PastConfigs.calls : List PastCall → PastConfigs → Except Unit PastConfigs
  | [], t => .ok t
  | .next q c :: rest, t =>
    match t.nextDeltas q c with
    | .error e => .error e
    | .ok (_, t) => calls rest t
  | .delete q :: rest, t => calls rest (t.delete q)

/-- The cycles sighted for a state by a sequence of calls since it was last deleted, oldest
first, given those sighted before. -/
def sightings (q : State) : List PastCall → List Int → List Int
  | [], h => h
  | .next q' c :: rest, h => sightings q rest (if q' = q then h ++ [c] else h)
  | .delete q' :: rest, h => sightings q rest (if q' = q then [] else h)

theorem lookup_assocInsert {κ β : Type} [DecidableEq κ] (l : List (κ × β)) (k k' : κ)
    (v : β) : (assocInsert l k v).lookup k' = if k' = k then some v else l.lookup k' := by
  unfold assocInsert
  rw [List.lookup_cons]
  by_cases h : k' = k
  · subst h; simp
  · have : (k' == k) = false := by simpa using h
    simp only [this, h, if_false]
    induction l with
    | nil => rfl
    | cons e l ih =>
      obtain ⟨a, b⟩ := e
      rw [List.filter_cons]
      by_cases ha : a = k
      · subst ha
        simp only [bne_self_eq_false, Bool.false_eq_true, if_false, ih, List.lookup_cons, this]
      · have hb : (a != k) = true := by simpa using ha
        simp only [hb, if_true, List.lookup_cons, ih]

theorem lookup_delete (t : PastConfigs) (q q' : State) :
    (t.delete q).lookup q' = if q' = q then none else t.lookup q' := by
  unfold PastConfigs.delete
  induction t with
  | nil => simp
  | cons e t ih =>
    obtain ⟨a, b⟩ := e
    rw [List.filter_cons]
    by_cases ha : a = q
    · subst ha
      simp only [bne_self_eq_false, Bool.false_eq_true, if_false, ih, List.lookup_cons]
      by_cases hq : q' = a
      · simp [hq]
      · have : (q' == a) = false := by simpa using hq
        simp [hq, this]
    · have hb : (a != q) = true := by simpa using ha
      simp only [hb, if_true, List.lookup_cons, ih]
      by_cases hq : q' = q
      · subst hq
        have : (q' == a) = false := by simpa using fun h : q' = a => ha h.symm
        simp [this]
      · simp [hq]

theorem pastConfig_step {past : PastConfig} (h : past.length ≤ 4) (cycle : Int) :
    ∃ r past', PastConfig.nextDeltas past cycle = .ok (r, past') ∧ past'.length ≤ 4 ∧
      past' <:+ past ++ [cycle] ∧
      (∀ ds, r = some ds → ∃ e d c b, past = [e, d, c, b] ∧
        searchMultiplier e d c b cycle = some ds) := by
  unfold PastConfig.nextDeltas
  simp only []
  by_cases hl : (past ++ [cycle]).length < 5
  · rw [if_pos hl]
    simp only [List.length_append, List.length_singleton] at hl
    exact ⟨none, past ++ [cycle], rfl, by simp; omega, List.suffix_refl _, by simp⟩
  · rw [if_neg hl]
    simp only [List.length_append, List.length_singleton] at hl
    have h4 : past.length = 4 := by omega
    match past, h4 with
    | [e, d, c, b], _ =>
      refine ⟨searchMultiplier e d c b cycle, [d, c, b, cycle], rfl, by simp, ?_, ?_⟩
      · exact ⟨[e], rfl⟩
      · intro ds hds; exact ⟨e, d, c, b, rfl, hds⟩

/-- **C21 (no failure).**  No sequence of calls on a fresh table reaches the `panic!`. -/
theorem C21_no_panic (q : State) (c : Int) (calls : List PastCall) :
    ∃ t, PastConfigs.calls calls (PastConfigs.new q c) = .ok t := by
  have key : ∀ (calls : List PastCall) (t : PastConfigs),
      (∀ q past, t.lookup q = some past → past.length ≤ 4) →
      ∃ t', PastConfigs.calls calls t = .ok t' := by
    intro calls
    induction calls with
    | nil => intro t _; exact ⟨t, rfl⟩
    | cons call rest ih =>
      intro t ht
      cases call with
      | delete q =>
        rw [PastConfigs.calls]
        apply ih
        intro q' past h
        rw [lookup_delete] at h
        split at h
        · simp at h
        · exact ht _ _ h
      | next q c =>
        rw [PastConfigs.calls]
        unfold PastConfigs.nextDeltas
        generalize hent : (t.lookup q).getD [c] = entry
        have hlen : entry.length ≤ 4 := by
          cases hq : t.lookup q with
          | none => rw [hq] at hent; simp only [Option.getD_some, Option.getD_none] at hent; subst hent; simp
          | some past => rw [hq] at hent; simp only [Option.getD_some, Option.getD_none] at hent; subst hent; exact ht _ _ hq
        obtain ⟨r, past', h1, h2, _⟩ := pastConfig_step hlen c
        rw [h1]
        apply ih
        intro q' p h
        rw [lookup_assocInsert] at h
        split at h
        · cases h; exact h2
        · exact ht _ _ h
  apply key
  intro q' past h
  simp only [PastConfigs.new, List.lookup_cons, List.lookup_nil] at h
  split at h
  · cases h; simp
  · simp at h

/-- One linear recurrence `xₙ₊₁ = i·xₙ + (p + n·δ)` through the five sightings
`e, d, c, b, a` and the three predicted ones. -/
structure Fits (i p δ e d c b a n1 n2 n3 : Int) : Prop where
  h1 : d = i * e + (p - 3 * δ)
  h2 : c = i * d + (p - 2 * δ)
  h3 : b = i * c + (p - δ)
  h4 : a = i * b + p
  h5 : n1 = i * a + (p + δ)
  h6 : n2 = i * n1 + (p + 2 * δ)
  h7 : n3 = i * n2 + (p + 3 * δ)

/-- **C21 (deltas).**  Deltas are returned only on the fifth recorded sighting; the five recorded
cycles then satisfy one recurrence with multiplier between 1 and 4, and the deltas are the
non-negative gaps to the next three terms. -/
theorem C21_deltas (past past' : PastConfig) (a x y z : Int) (hl : past.length ≤ 4)
    (h : PastConfig.nextDeltas past a = .ok (some (x, y, z), past')) :
    ∃ e d c b i p δ, past = [e, d, c, b] ∧ past' = [d, c, b, a] ∧ 1 ≤ i ∧ i ≤ 4 ∧
      Fits i p δ e d c b a (a + x) (a + x + y) (a + x + y + z) ∧ 0 ≤ x ∧ 0 ≤ y ∧ 0 ≤ z := by
  obtain ⟨r, q, h1, h2, h3, h4⟩ := pastConfig_step hl a
  rw [h1] at h
  simp only [Except.ok.injEq, Prod.mk.injEq] at h
  obtain ⟨rfl, rfl⟩ := h
  obtain ⟨e, d, c, b, rfl, hs⟩ := h4 _ rfl
  have hq : q = [d, c, b, a] := by
    simp [PastConfig.nextDeltas] at h1
    exact h1.2.symm
  unfold searchMultiplier at hs
  cases hf : [1, 2, 3, 4].findSome? (tryMultiplier e d c b a) with
  | none => rw [hf] at hs; simp at hs
  | some res =>
    rw [hf] at hs
    simp only [Option.getD_some] at hs
    subst hs
    obtain ⟨i, hi, ht⟩ := List.exists_of_findSome?_eq_some hf
    unfold tryMultiplier at ht
    simp only [] at ht
    split at ht
    · simp at ht
    rename_i e1
    split at ht
    · simp at ht
    rename_i e2
    split at ht
    · simp at ht
    rename_i e3
    simp only [Option.some.injEq, Prod.mk.injEq] at ht
    simp only [Bool.not_eq_true, bne_eq_false_iff_eq] at e1 e2
    simp only [Bool.or_eq_true, decide_eq_true_eq, not_or, not_lt] at e3
    obtain ⟨⟨g1, g2⟩, g3⟩ := e3
    obtain ⟨rfl, rfl, rfl⟩ := ht
    refine ⟨e, d, c, b, i, a - b * i, (a - b * i) - (b - c * i), rfl, hq, ?_, ?_, ?_, by omega,
      by omega, by omega⟩
    · simp at hi; omega
    · simp at hi; omega
    · refine ⟨?_, ?_, ?_, ?_, ?_, ?_, ?_⟩
      · linear_combination -2 * e1 + e1 - e2
      · linear_combination -e1
      all_goals ring

/-- **C21 (completeness).**  If the five recorded cycles fit a recurrence with multiplier 1 whose
next terms do not decrease, its gaps are returned. -/
theorem C21_complete (e d c b a p δ n1 n2 n3 : Int) (hf : Fits 1 p δ e d c b a n1 n2 n3)
    (g1 : a ≤ n1) (g2 : n1 ≤ n2) (g3 : n2 ≤ n3) :
    PastConfig.nextDeltas [e, d, c, b] a
      = .ok (some (n1 - a, n2 - n1, n3 - n2), [d, c, b, a]) := by
  obtain ⟨rfl, rfl, rfl, rfl, rfl, rfl, rfl⟩ := hf
  have : searchMultiplier e (1 * e + (p - 3 * δ)) (1 * (1 * e + (p - 3 * δ)) + (p - 2 * δ))
      (1 * (1 * (1 * e + (p - 3 * δ)) + (p - 2 * δ)) + (p - δ))
      (1 * (1 * (1 * (1 * e + (p - 3 * δ)) + (p - 2 * δ)) + (p - δ)) + p)
      = some (p + δ, p + 2 * δ, p + 3 * δ) := by
    unfold searchMultiplier
    rw [List.findSome?_cons]
    have ht : tryMultiplier e (1 * e + (p - 3 * δ)) (1 * (1 * e + (p - 3 * δ)) + (p - 2 * δ))
        (1 * (1 * (1 * e + (p - 3 * δ)) + (p - 2 * δ)) + (p - δ))
        (1 * (1 * (1 * (1 * e + (p - 3 * δ)) + (p - 2 * δ)) + (p - δ)) + p) 1 = some (some
          (p + δ, p + 2 * δ, p + 3 * δ)) := by
      unfold tryMultiplier
      simp only []
      rw [if_neg (by simp; omega), if_neg (by simp; omega), if_neg (by
        simp only [Bool.or_eq_true, decide_eq_true_eq, not_or, not_lt]; omega)]
      simp only [Option.some.injEq, Prod.mk.injEq]
      omega
    rw [ht]; rfl
  simp only [PastConfig.nextDeltas, List.cons_append, List.nil_append, List.length_cons,
    List.length_nil, this]
  simp only [Nat.reduceAdd, Nat.lt_irrefl, if_false, Except.ok.injEq, Prod.mk.injEq,
    Option.some.injEq, and_true]
  omega

/-- **C21, violated.**  "After five sightings" does not hold: the first sighting of a state other
than the one the table was made for is recorded twice, so four sightings suffice. -/
theorem C21_sightings_violation :
    ∃ calls : List PastCall, ∃ t, PastConfigs.calls calls (PastConfigs.new 0 0) = .ok t ∧
      sightings 1 calls [] = [1, 2, 4] ∧
      ∃ t', PastConfigs.nextDeltas t 1 7 = .ok (some (4, 5, 6), t') :=
  ⟨[.next 1 1, .next 1 2, .next 1 4], _, rfl, by decide, _, rfl⟩

/-- What holds: the recorded cycles of a state are a suffix of its sightings, with the first one
possibly repeated. -/
theorem C21_recorded_partial (q0 : State) (c0 : Int) (calls : List PastCall) (t : PastConfigs)
    (h : PastConfigs.calls calls (PastConfigs.new q0 c0) = .ok t) (q : State) (past : PastConfig)
    (hq : t.lookup q = some past) :
    ∃ first rest, sightings q calls (if q = q0 then [c0] else []) = first :: rest ∧
      past <:+ first :: first :: rest := by
  -- generalise over the table and the history so far
  have key : ∀ (calls : List PastCall) (t t' : PastConfigs) (hist : List Int),
      (∀ q past, t.lookup q = some past → past.length ≤ 4) →
      (∀ past, t.lookup q = some past → ∃ first rest, hist = first :: rest ∧
        past <:+ first :: first :: rest) →
      (t.lookup q = none → hist = []) →
      PastConfigs.calls calls t = .ok t' → ∀ past, t'.lookup q = some past →
      ∃ first rest, sightings q calls hist = first :: rest ∧ past <:+ first :: first :: rest := by
    intro calls
    induction calls with
    | nil =>
      intro t t' hist _ ht _ h past hp
      simp only [PastConfigs.calls, Except.ok.injEq] at h
      subst h
      exact ht past hp
    | cons call rest ih =>
      intro t t' hist hlen ht hnone h past hp
      cases call with
      | delete q' =>
        rw [PastConfigs.calls] at h
        rw [sightings]
        refine ih _ t' _ ?_ ?_ ?_ h past hp
        · intro q1 p1 h1
          rw [lookup_delete] at h1
          split at h1
          · simp at h1
          · exact hlen _ _ h1
        · intro p1 h1
          rw [lookup_delete] at h1
          split at h1
          · simp at h1
          · rename_i hne
            rw [if_neg (fun h => hne h.symm)]
            exact ht p1 h1
        · intro h1
          rw [lookup_delete] at h1
          split at h1
          · rename_i heq; rw [if_pos heq.symm]
          · rename_i hne
            rw [if_neg (fun h => hne h.symm)]
            exact hnone h1
      | next q' c =>
        rw [PastConfigs.calls] at h
        unfold PastConfigs.nextDeltas at h
        generalize hent : (t.lookup q').getD [c] = entry at h
        have hlen' : entry.length ≤ 4 := by
          cases hq : t.lookup q' with
          | none => rw [hq] at hent; simp only [Option.getD_some, Option.getD_none] at hent; subst hent; simp
          | some past => rw [hq] at hent; simp only [Option.getD_some, Option.getD_none] at hent; subst hent; exact hlen _ _ hq
        obtain ⟨r, past', h1, h2, h3, _⟩ := pastConfig_step hlen' c
        rw [h1] at h
        simp only [] at h
        rw [sightings]
        refine ih _ t' _ ?_ ?_ ?_ h past hp
        · intro q1 p1 hl
          rw [lookup_assocInsert] at hl
          split at hl
          · cases hl; exact h2
          · exact hlen _ _ hl
        · intro p1 hl
          rw [lookup_assocInsert] at hl
          split at hl
          · rename_i heq
            subst heq
            cases hl
            rw [if_pos rfl]
            cases hq : t.lookup q with
            | none =>
              rw [hq] at hent
              simp only [Option.getD_some, Option.getD_none] at hent
              subst hent
              rw [hnone hq]
              exact ⟨c, [], rfl, h3⟩
            | some p0 =>
              rw [hq] at hent
              simp only [Option.getD_some, Option.getD_none] at hent
              subst hent
              obtain ⟨first, rst, e1, e2⟩ := ht p0 hq
              refine ⟨first, rst ++ [c], by rw [e1]; rfl, ?_⟩
              refine h3.trans ?_
              obtain ⟨pre, hpre⟩ := e2
              exact ⟨pre, by rw [← List.append_assoc, hpre]; rfl⟩
          · rename_i hne
            rw [if_neg (fun h => hne h.symm)]
            exact ht p1 hl
        · intro hl
          rw [lookup_assocInsert] at hl
          split at hl
          · simp at hl
          · rename_i hne
            rw [if_neg (fun h => hne h.symm)]
            exact hnone hl
  refine key calls (PastConfigs.new q0 c0) t _ ?_ ?_ ?_ h past hq
  · intro q' past h
    simp only [PastConfigs.new, List.lookup_cons, List.lookup_nil] at h
    split at h
    · cases h; simp
    · simp at h
  · intro p1 hl
    simp only [PastConfigs.new, List.lookup_cons, List.lookup_nil] at hl
    by_cases hqq : q = q0
    · subst hqq
      simp only [beq_self_eq_true, Option.some.injEq] at hl
      subst hl
      rw [if_pos rfl]
      exact ⟨c0, [], rfl, ⟨[c0], rfl⟩⟩
    · have : (q == q0) = false := by simpa using hqq
      simp [this] at hl
  · intro hl
    simp only [PastConfigs.new, List.lookup_cons, List.lookup_nil] at hl
    by_cases hqq : q = q0
    · subst hqq; simp at hl
    · rw [if_neg hqq]

example : PastConfig.nextDeltas [3, 10, 18, 27] 37 = .ok (some (11, 12, 13), [10, 18, 27, 37]) := by
  decide

example : PastConfig.nextDeltas [1, 3, 7, 15] 31 = .ok (some (32, 64, 128), [3, 7, 15, 31]) := by
  decide

end BB
