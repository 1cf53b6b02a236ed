import Verif.Lemmas.NormalizeRun
import Mathlib.Logic.Relation
import Mathlib.Data.List.Basic

/-! # The order in which states are first mentioned, and what `normalize_states` does to it -/

namespace BB

/-- `omega`, seeing through the names of states and colours. -/
macro "nf_omega" : tactic => `(tactic| first | omega | ((try unfold State at *); (try unfold Color at *); omega))

/-- The order in which the slots of a program are written. -/
def SlotBefore (a b : Slot) : Prop := a.1 < b.1 ∨ a.1 = b.1 ∧ a.2 < b.2

/-- Some instruction goes to `k`, and every instruction before it goes to a smaller state. -/
def FirstSeen (p : Prog) (k : Nat) : Prop :=
  ∃ s i, p s = some i ∧ i.2.2 = k ∧ ∀ s' i', SlotBefore s' s → p s' = some i' → i'.2.2 < k

/-- The states below `k` are first mentioned in their order. -/
def InOrderTo (p : Prog) (k : Nat) : Prop := ∀ j, 0 < j → j < k → FirstSeen p j

/-- Some instruction of `s` goes to `t`. -/
def Prog.Goes (p : Prog) (s t : Nat) : Prop := ∃ c i, p (s, c) = some i ∧ i.2.2 = t

/-- Every state below `S` can be reached from the first one along instructions. -/
def AllReached (p : Prog) (S : Nat) : Prop := ∀ k, k < S → Relation.ReflTransGen p.Goes 0 k

theorem AllReached.rename {p p' : Prog} {S : Nat} (h : AllReached p S) {σ τ : Nat → Nat} {m : Bool}
    (hr : Renames p p' σ τ m) (hσ0 : σ 0 = 0) (hS : ∀ k, k < S → ∃ j, j < S ∧ σ j = k) :
    AllReached p' S := by
  intro k hk
  obtain ⟨j, hj, rfl⟩ := hS k hk
  have := h j hj
  clear hj hk
  induction this with
  | refl => rw [hσ0]
  | tail _ hg ih =>
    refine ih.tail ?_
    obtain ⟨c, i, hc, rfl⟩ := hg
    exact ⟨τ c, _, by rw [hr, hc]; rfl, rfl⟩

/-- A set of states that contains the first one and is closed contains everything reached. -/
theorem reached_lt {p : Prog} {k j : Nat} (hk : 0 < k) (hc : ∀ s c i, s < k → p (s, c) = some i →
    i.2.2 < k) (h : Relation.ReflTransGen p.Goes 0 j) : j < k := by
  induction h with
  | refl => exact hk
  | tail _ hg ih =>
    obtain ⟨c, i, hi, rfl⟩ := hg
    exact hc _ c i ih hi

/-- The instruction that first mentions `k` or more belongs to a state below `k`. -/
theorem row_lt {p : Prog} {S k : Nat} (h : AllReached p S) (hk : 0 < k) (hkS : k < S) (s : Slot)
    (hb : ∀ s' i', SlotBefore s' s → p s' = some i' → i'.2.2 < k) : s.1 < k := by
  by_contra hge
  have := reached_lt hk (fun s' c i hs hi => hb (s', c) i (Or.inl (by
    show s' < s.1
    have : k ≤ s.1 := Nat.le_of_not_lt hge
    exact Nat.lt_of_lt_of_le hs this)) hi) (h k hkS)
  nf_omega

theorem slotBefore_total {a b : Slot} (h : ¬ SlotBefore a b) : a = b ∨ SlotBefore b a := by
  obtain ⟨a1, a2⟩ := a
  obtain ⟨b1, b2⟩ := b
  simp only [SlotBefore, Prod.mk.injEq] at *
  have h' : ¬ ((a1 : Nat) < b1 ∨ (a1 : Nat) = b1 ∧ (a2 : Nat) < b2) := h
  show ((a1 : Nat) = b1 ∧ (a2 : Nat) = b2) ∨ ((b1 : Nat) < a1 ∨ (b1 : Nat) = a1 ∧ (b2 : Nat) < a2)
  nf_omega

/-- Where `k` is first seen, nothing larger can come before. -/
theorem FirstSeen.conflict {p : Prog} {k : Nat} (h : FirstSeen p k) {s : Slot} {i : Instr}
    (hs : p s = some i) (hi : k < i.2.2)
    (hb : ∀ s' i', SlotBefore s' s → p s' = some i' → i'.2.2 < k) : False := by
  obtain ⟨u, j, h1, h2, h3⟩ := h
  by_cases hus : SlotBefore u s
  · have := hb u j hus h1
    nf_omega
  · rcases slotBefore_total hus with rfl | hsu
    · rw [h1] at hs
      cases hs
      nf_omega
    · have := h3 s i hsu hs
      nf_omega

/-- Two programs in order that differ by the names of states have the same names. -/
theorem names_eq {p p' : Prog} {S : Nat} {σ : Nat → Nat} (hr : Renames p p' σ id false)
    (hσ0 : σ 0 = 0) (hinj : Function.Injective σ) (hre : AllReached p S)
    (ho : InOrderTo p S) (ho' : InOrderTo p' S) : ∀ k, k < S → σ k = k := by
  intro k
  induction k using Nat.strongRecOn with
  | _ k ih =>
    intro hk
    by_cases hk0 : k = 0
    · rw [hk0, hσ0]
    have ih' : ∀ j, j < k → σ j = j := fun j hj => ih j hj (by nf_omega)
    obtain ⟨s, i, h1, h2, h3⟩ := ho k (by nf_omega) hk
    have hrow := row_lt hre (by nf_omega) hk s h3
    have hge : k ≤ σ k := by
      by_contra hlt
      have := ih' (σ k) (by nf_omega)
      have := hinj this
      nf_omega
    by_contra hne
    have hgt : k < σ k := by nf_omega
    have hsame : ∀ s' : Slot, s'.1 < k → p' s' = (p s').map fun i => (i.1, i.2.1, σ i.2.2) := by
      rintro ⟨a, b⟩ ha
      have := hr a b
      rw [ih' a ha] at this
      simpa using this
    refine (ho' k (by nf_omega) hk).conflict (s := s) (i := (i.1, i.2.1, σ i.2.2)) ?_ ?_ ?_
    · rw [hsame s hrow, h1]; rfl
    · show k < σ i.2.2
      rw [h2]; exact hgt
    · intro s' i' hb hi'
      have hs' : s'.1 < k := by
        rcases hb with hb | hb
        · exact Nat.lt_trans hb hrow
        · rw [hb.1]; exact hrow
      rw [hsame s' hs'] at hi'
      cases hp : p s' with
      | none => rw [hp] at hi'; simp at hi'
      | some j =>
        rw [hp] at hi'
        simp only [Option.map_some, Option.some.injEq] at hi'
        subst hi'
        have := h3 s' j hb hp
        show σ j.2.2 < k
        rw [ih' _ this]
        exact this

namespace Norm

/-- All slots of a table, in the order they are written. -/
def gridSlots (S C : Nat) : List Slot :=
  (List.range S).flatMap fun s => (List.range C).map fun c => (s, c)

theorem Dense.slots_eq {n : Norm} {S C : Nat} (h : Dense n S C) : n.slots = gridSlots S C := by
  have hcols := h.cols
  simp only [Norm.slots, gridSlots]
  rw [← h.rows, List.flatMap_map]
  refine List.flatMap_congr ?_
  intro e he
  rw [← hcols e he, List.map_map]
  rfl

theorem gridSlots_sorted (S C : Nat) : (gridSlots S C).Pairwise SlotBefore := by
  rw [gridSlots, List.pairwise_flatMap]
  constructor
  · intro a _
    rw [List.pairwise_map]
    refine List.pairwise_lt_range.imp ?_
    intro x y hxy
    exact Or.inr ⟨rfl, hxy⟩
  · refine List.pairwise_lt_range.imp ?_
    intro x y hxy a ha b hb
    obtain ⟨_, _, rfl⟩ := List.mem_map.1 ha
    obtain ⟨_, _, rfl⟩ := List.mem_map.1 hb
    exact Or.inl hxy

theorem mem_gridSlots {S C : Nat} {s : Slot} : s ∈ gridSlots S C ↔ s.1 < S ∧ s.2 < C := by
  obtain ⟨a, b⟩ := s
  simp [gridSlots]

theorem SlotBefore.asymm {a b : Slot} (h : SlotBefore a b) (h' : SlotBefore b a) : False := by
  obtain ⟨a1, a2⟩ := a
  obtain ⟨b1, b2⟩ := b
  have h : ((a1 : Nat) < b1 ∨ (a1 : Nat) = b1 ∧ (a2 : Nat) < b2) := h
  have h' : ((b1 : Nat) < a1 ∨ (b1 : Nat) = a1 ∧ (b2 : Nat) < a2) := h'
  nf_omega

/-- The slots before `s` come before it in the list. -/
theorem mem_prefix {S C : Nat} {l1 l2 : List Slot} {s u : Slot}
    (hl : gridSlots S C = l1 ++ s :: l2) (hu : u ∈ gridSlots S C) (hb : SlotBefore u s) :
    u ∈ l1 := by
  have hp := gridSlots_sorted S C
  rw [hl, List.pairwise_append] at hp
  rw [hl, List.mem_append, List.mem_cons] at hu
  rcases hu with hu | rfl | hu
  · exact hu
  · exact (SlotBefore.asymm hb hb).elim
  · exact (SlotBefore.asymm hb ((List.pairwise_cons.1 hp.2.1).1 u hu)).elim

theorem Dense.mem_of_getitem {n : Norm} {S C : Nat} (h : Dense n S C) {s : Slot} {i : Instr}
    (hi : n.getitem s = some i) : s ∈ gridSlots S C := by
  rw [mem_gridSlots]
  by_contra hn
  rw [h.getitem_none hn] at hi
  cases hi

/-- What one pass over the instructions does. -/
theorem statesPass_order {S C : Nat} {n : Norm} (h : Dense n S C)
    (hbelow : ∀ s i, n.getitem s = some i → i.2.2 < S) (l l1 : List Slot)
    (k : Nat) (hk : 0 < k) (hkS : k ≤ S) (hl : gridSlots S C = l1 ++ l)
    (hseen : ∀ s ∈ l1, ∀ i, n.getitem s = some i → i.2.2 < k)
    (hord : InOrderTo n.getitem k) :
    (∃ k', k ≤ k' ∧ k' ≤ S ∧ statesPass l (List.range' k (S - k)) n = some (n, false) ∧
      InOrderTo n.getitem k' ∧ ∀ s i, n.getitem s = some i → i.2.2 < k') ∨
    (∃ k' s i, k ≤ k' ∧ k' < i.2.2 ∧ i.2.2 < S ∧
      statesPass l (List.range' k (S - k)) n
        = (n.swapStates i.2.2 k').map (fun n' => (n', true)) ∧
      InOrderTo n.getitem k' ∧ n.getitem s = some i ∧
      ∀ s' i', SlotBefore s' s → n.getitem s' = some i' → i'.2.2 < k') := by
  induction l generalizing l1 k with
  | nil =>
    left
    refine ⟨k, Nat.le_refl _, hkS, rfl, hord, ?_⟩
    intro s i hi
    have := h.mem_of_getitem hi
    rw [hl, List.append_nil] at this
    exact hseen s this i hi
  | cons s rest ih =>
    have hmem : s ∈ gridSlots S C := by rw [hl]; simp
    have hs := mem_gridSlots.1 hmem
    have hl' : gridSlots S C = (l1 ++ [s]) ++ rest := by rw [hl]; simp
    have hbefore : ∀ s' i', SlotBefore s' s → n.getitem s' = some i' → i'.2.2 < k := by
      intro s' i' hb hi'
      exact hseen s' (mem_prefix hl (h.mem_of_getitem hi') hb) i' hi'
    obtain ⟨oi, h1, h2⟩ := h.at? hs.1 hs.2
    cases oi with
    | none =>
      simp only [statesPass, h1]
      apply ih (l1 ++ [s]) k hk hkS hl' _ hord
      intro u hu i hi
      rcases List.mem_append.1 hu with hu | hu
      · exact hseen u hu i hi
      · rw [List.mem_singleton.1 hu] at hi
        rw [show n.getitem s = none from h2] at hi
        cases hi
    | some i =>
      have hi : n.getitem s = some i := h2
      have hiS := hbelow s i hi
      have hmem' : i.2.2 ∈ List.range' k (S - k) ↔ k ≤ i.2.2 := by
        rw [List.mem_range'_1]
        nf_omega
      by_cases hik : i.2.2 < k
      · have hc : (List.range' k (S - k)).contains i.2.2 = false := by
          rw [Bool.eq_false_iff]
          intro hc
          have := hmem'.1 (List.contains_iff_mem.1 hc)
          nf_omega
        simp only [statesPass, h1, hc, Bool.false_eq_true, if_false]
        apply ih (l1 ++ [s]) k hk hkS hl' _ hord
        intro u hu j hj
        rcases List.mem_append.1 hu with hu | hu
        · exact hseen u hu j hj
        · rw [List.mem_singleton.1 hu, hi] at hj
          cases hj
          exact hik
      · have hc : (List.range' k (S - k)).contains i.2.2 = true :=
          List.contains_iff_mem.2 (hmem'.2 (by nf_omega))
        have hcons : List.range' k (S - k) = k :: List.range' (k + 1) (S - (k + 1)) := by
          rw [show S - k = (S - (k + 1)) + 1 by nf_omega, List.range'_succ]
        rw [hcons] at hc ⊢
        by_cases hne : i.2.2 = k
        · have e : statesPass (s :: rest) (k :: List.range' (k + 1) (S - (k + 1))) n
              = statesPass rest (List.range' (k + 1) (S - (k + 1))) n := by
            simp only [statesPass, h1, hc, if_true]
            rw [if_neg (by simp [hne])]
          have hord' : InOrderTo n.getitem (k + 1) := by
            intro j hj hjk
            by_cases hjk' : j < k
            · exact hord j hj hjk'
            · have : j = k := by nf_omega
              subst this
              exact ⟨s, i, hi, hne, hbefore⟩
          rw [e]
          rcases ih (l1 ++ [s]) (k + 1) (by nf_omega) (by nf_omega) hl' (by
            intro u hu j hj
            rcases List.mem_append.1 hu with hu | hu
            · have := hseen u hu j hj
              nf_omega
            · rw [List.mem_singleton.1 hu, hi] at hj
              cases hj
              nf_omega) hord' with ⟨k', a, b⟩ | ⟨k', s', i', a, b⟩
          · exact Or.inl ⟨k', by nf_omega, b⟩
          · exact Or.inr ⟨k', s', i', by nf_omega, b⟩
        · right
          refine ⟨k, s, i, Nat.le_refl _, by nf_omega, hiS, ?_, hord, hi, hbefore⟩
          simp only [statesPass, h1, hc, if_true]
          rw [if_pos hne]

theorem swapNat_left (a b : Nat) : swapNat a b a = b := by
  unfold swapNat; split <;> simp_all

theorem swapNat_right (a b : Nat) : swapNat a b b = a := by
  unfold swapNat; simp

theorem swapNat_other {a b x : Nat} (h1 : x ≠ a) (h2 : x ≠ b) : swapNat a b x = x := by
  unfold swapNat; simp [h1, h2]

/-- Exchanging the states found out of order puts one more in order. -/
theorem inOrder_swap {p p' : Prog} {S k : Nat} {s : Slot} {i : Instr} (hre : AllReached p S)
    (hk : 0 < k) (hki : k < i.2.2) (hiS : i.2.2 < S) (hord : InOrderTo p k)
    (hs : p s = some i) (hb : ∀ s' i', SlotBefore s' s → p s' = some i' → i'.2.2 < k)
    (hr : Renames p p' (swapNat i.2.2 k) id false) : InOrderTo p' (k + 1) := by
  have hrow := row_lt hre hk (by nf_omega) s hb
  have hsame : ∀ s' : Slot, s'.1 < k →
      p' s' = (p s').map fun j => (j.1, j.2.1, swapNat i.2.2 k j.2.2) := by
    rintro ⟨a, b⟩ ha
    have ha : (a : Nat) < k := ha
    have := hr a b
    rw [swapNat_other (by nf_omega) (by nf_omega)] at this
    simpa using this
  have hlow : ∀ u : Slot, SlotBefore u s → u.1 < k := by
    intro u hu
    rcases hu with hu | hu
    · exact Nat.lt_trans hu hrow
    · rw [hu.1]; exact hrow
  have hsame' : ∀ u, SlotBefore u s → p' u = p u := by
    intro u hu
    rw [hsame u (hlow u hu)]
    cases hp : p u with
    | none => rfl
    | some j =>
      have := hb u j hu hp
      simp only [Option.map_some]
      rw [swapNat_other (by nf_omega) (by nf_omega)]
  intro j hj hjk
  by_cases hjk' : j < k
  · obtain ⟨u, v, h1, h2, h3⟩ := hord j hj hjk'
    have hus : SlotBefore u s := by
      by_contra hn
      rcases slotBefore_total hn with rfl | hsu
      · rw [h1] at hs; cases hs; nf_omega
      · have := h3 s i hsu hs
        nf_omega
    refine ⟨u, v, by rw [hsame' u hus]; exact h1, h2, ?_⟩
    intro w x hw hx
    have hws : SlotBefore w s := by
      obtain ⟨w1, w2⟩ := w
      obtain ⟨u1, u2⟩ := u
      obtain ⟨s1, s2⟩ := s
      have hw : ((w1 : Nat) < u1 ∨ (w1 : Nat) = u1 ∧ (w2 : Nat) < u2) := hw
      have hus : ((u1 : Nat) < s1 ∨ (u1 : Nat) = s1 ∧ (u2 : Nat) < s2) := hus
      show ((w1 : Nat) < s1 ∨ (w1 : Nat) = s1 ∧ (w2 : Nat) < s2)
      nf_omega
    rw [hsame' w hws] at hx
    exact h3 w x hw hx
  · have : j = k := by nf_omega
    subst this
    refine ⟨s, (i.1, i.2.1, j), ?_, rfl, ?_⟩
    · rw [hsame s hrow, hs, Option.map_some, swapNat_left]
    · intro u x hu hx
      rw [hsame' u hu] at hx
      exact hb u x hu hx

/-- `normalize_states` puts the states in order, if all can be reached. -/
theorem statesLoop_order {S C : Nat} (f : Nat) (n : Norm) (k : Nat) (h : Dense n S C)
    (hbelow : Below n.getitem C S) (hre : AllReached n.getitem S) (hk : 0 < k)
    (hf : S < f + k) (hord : InOrderTo n.getitem k) :
    ∃ n' σ, statesLoop f n = some n' ∧ Dense n' S C ∧ Function.Bijective σ ∧ σ 0 = 0 ∧
      (∀ j, j < S → σ j < S) ∧
      Renames n.getitem n'.getitem σ id false ∧ Below n'.getitem C S ∧ AllReached n'.getitem S ∧
      InOrderTo n'.getitem S := by
  induction f generalizing n k with
  | zero =>
    refine ⟨n, id, rfl, h, Function.bijective_id, rfl, fun _ h => h, Renames.refl _, hbelow, hre, ?_⟩
    intro j hj hjS
    exact hord j hj (by nf_omega)
  | succ f ih =>
    by_cases hS : S = 0
    · subst hS
      have hn : n = [] := by
        have := h.rows
        simpa using this
      subst hn
      refine ⟨[], id, ?_, h, Function.bijective_id, rfl, fun _ h => h, Renames.refl _, hbelow, hre,
        ?_⟩
      · simp [statesLoop, slots, statesPass, numStates]
      · intro j _ hj; nf_omega
    have htodo : todoList S = List.range' 1 (S - 1) := by
      obtain ⟨S', rfl⟩ : ∃ S', S = S' + 1 := ⟨S - 1, by nf_omega⟩
      simp [todoList, List.range_eq_range', List.range'_succ]
    simp only [statesLoop, h.numStates, h.slots_eq, htodo]
    rcases statesPass_order h (fun s i hi => (hbelow s i hi).2) (gridSlots S C) [] 1 (by nf_omega)
      (by nf_omega) rfl (by simp) (by intro j h1 h2; nf_omega) with
      ⟨k', h1, h2, h3, h4, h5⟩ | ⟨k', s, i, h1, h2, h3, h4, h5, h6, h7⟩
    · rw [h3]
      refine ⟨n, id, rfl, h, Function.bijective_id, rfl, fun _ h => h, Renames.refl _, hbelow, hre,
        ?_⟩
      have : k' = S := by
        by_contra hne
        have := reached_lt (by nf_omega) (fun s c i _ hi => h5 (s, c) i hi) (hre k' (by nf_omega))
        nf_omega
      rw [← this]
      exact h4
    · obtain ⟨n1, g1, g2, g3⟩ := h.swapStates h3 (show k' < S by nf_omega)
      rw [h4, g1]
      simp only [Option.map_some, Option.bind_some, if_true]
      have hlt : ∀ x, x < S → swapNat i.2.2 k' x < S := fun x hx => swapNat_lt h3 (by nf_omega) hx
      have h0 : swapNat i.2.2 k' 0 = 0 := swapNat_zero (by nf_omega) (by nf_omega)
      have hkk : k ≤ k' := by
        by_contra hlt
        exact (hord k' (by nf_omega) (by nf_omega)).conflict h6 h2 h7
      obtain ⟨n', σ, a1, a2, a3, a4, a8, a5, a6, a7⟩ := ih n1 (k' + 1) g2
        (hbelow.rename g3 (swapNat_invol _ _) (fun _ => rfl) (fun _ h => h) hlt)
        (hre.rename g3 h0 (fun x hx => ⟨_, hlt x hx, swapNat_invol _ _ x⟩)) (by nf_omega) (by nf_omega)
        (inOrder_swap hre (by nf_omega) h2 h3 h5 h6 h7 g3)
      refine ⟨n', σ ∘ swapNat i.2.2 k', a1, a2, a3.comp (swapNat_bijective _ _), by simp [h0, a4],
        fun j hj => a8 _ (hlt j hj), g3.trans a5, a6, a7⟩

theorem normalizeStates_order {S C : Nat} (n : Norm) (h : Dense n S C)
    (hbelow : Below n.getitem C S) (hre : AllReached n.getitem S) :
    ∃ n' σ, n.normalizeStates = some n' ∧ Dense n' S C ∧ Function.Bijective σ ∧ σ 0 = 0 ∧
      (∀ j, j < S → σ j < S) ∧
      Renames n.getitem n'.getitem σ id false ∧ Below n'.getitem C S ∧ AllReached n'.getitem S ∧
      InOrderTo n'.getitem S := by
  rw [normalizeStates, h.numStates]
  exact statesLoop_order S n 1 h hbelow hre (by nf_omega) (by nf_omega) (by intro j h1 h2; nf_omega)

end Norm
end BB
