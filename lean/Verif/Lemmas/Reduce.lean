import Verif.Model.Reduce
import Verif.Lemmas.Normalize
import Verif.Lemmas.Graph
import Mathlib.Logic.Relation
import Mathlib.Data.Finset.Card

/-! # The operations of `reduce_graph`, one by one -/

namespace BB
namespace ConGraph

open Relation

/-- `t` is among the connections of `s`. -/
def Arrow (g : ConGraph) (s t : State) : Prop := ∃ c, (s, c) ∈ g ∧ t ∈ c

/-- A key with connections. -/
def Live (g : ConGraph) (s : State) : Prop := ∃ t, g.Arrow s t

/-- The keys are different and every connection goes to a key. -/
structure WF (g : ConGraph) : Prop where
  nodup : g.keys.Nodup
  closed : ∀ s t, g.Arrow s t → t ∈ g.keys

/-- The number of arrows. -/
def size (g : ConGraph) : Nat := (g.map fun e => e.2.card).sum

/-- What an operation on graphs may do: paths of the new graph are paths of the old one, and between
different states that still have connections no path is lost. -/
structure Follows (g g' : ConGraph) : Prop where
  wf : WF g'
  keys : ∀ s, s ∈ g'.keys → s ∈ g.keys
  live : ∀ s, g'.Live s → g.Live s
  path : ∀ s t, g'.Arrow s t → TransGen g.Arrow s t
  reach : ∀ s t, g'.Live s → g'.Live t → ReflTransGen g.Arrow s t → ReflTransGen g'.Arrow s t

theorem Follows.refl {g : ConGraph} (h : WF g) : Follows g g :=
  ⟨h, fun _ h => h, fun _ h => h, fun _ _ h => .single h, fun _ _ _ _ h => h⟩

theorem Follows.trans {g g' g'' : ConGraph} (h : Follows g g') (h' : Follows g' g'') :
    Follows g g'' where
  wf := h'.wf
  keys := fun s hs => h.keys s (h'.keys s hs)
  live := fun s hs => h.live s (h'.live s hs)
  path := by
    intro s t ht
    have hp := h'.path s t ht
    clear ht
    induction hp with
    | single h1 => exact h.path _ _ h1
    | tail _ h1 ih => exact ih.trans (h.path _ _ h1)
  reach := fun s t hs ht hr =>
    h'.reach s t hs ht (h.reach s t (h'.live s hs) (h'.live t ht) hr)

/-! ## Changing the sets key by key -/

/-- Change every set, knowing its key. -/
abbrev mapV (g : ConGraph) (F : State → Finset State → Finset State) : ConGraph :=
  g.map fun e => (e.1, F e.1 e.2)

theorem keys_mapV (g : ConGraph) (F : State → Finset State → Finset State) :
    (g.mapV F).keys = g.keys := by
  simp [keys, Function.comp_def]

theorem mem_mapV {g : ConGraph} {F : State → Finset State → Finset State} {s : State}
    {c : Finset State} : (s, c) ∈ g.mapV F ↔ ∃ d, (s, d) ∈ g ∧ F s d = c := by
  simp only [mapV, List.mem_map, Prod.mk.injEq]
  constructor
  · rintro ⟨⟨a, b⟩, h1, rfl, rfl⟩
    exact ⟨b, h1, rfl⟩
  · rintro ⟨d, h1, rfl⟩
    exact ⟨(s, d), h1, rfl, rfl⟩

theorem arrow_mapV {g : ConGraph} {F : State → Finset State → Finset State} {s t : State} :
    (g.mapV F).Arrow s t ↔ ∃ d, (s, d) ∈ g ∧ t ∈ F s d := by
  constructor
  · rintro ⟨c, h1, h2⟩
    obtain ⟨d, h3, rfl⟩ := mem_mapV.1 h1
    exact ⟨d, h3, h2⟩
  · rintro ⟨d, h1, h2⟩
    exact ⟨_, mem_mapV.2 ⟨d, h1, rfl⟩, h2⟩

theorem modify_eq (g : ConGraph) (x : State) (f : Finset State → Finset State) :
    g.modify x f = g.mapV fun s d => if s = x then f d else d := by
  simp only [modify, mapV]
  apply List.map_congr_left
  rintro ⟨s, d⟩ -
  by_cases h : s = x <;> simp [h]

theorem at?_iff {g : ConGraph} (h : g.keys.Nodup) {s : State} {c : Finset State} :
    g.at? s = some c ↔ (s, c) ∈ g :=
  ⟨mem_of_lookup', lookup_of_mem' h⟩

theorem mem_keys {g : ConGraph} {s : State} : s ∈ g.keys ↔ ∃ c, (s, c) ∈ g := by
  simp only [keys, List.mem_map]
  constructor
  · rintro ⟨⟨a, b⟩, h, rfl⟩
    exact ⟨b, h⟩
  · rintro ⟨c, h⟩
    exact ⟨_, h, rfl⟩

theorem mem_unique {g : ConGraph} (h : g.keys.Nodup) {s : State} {c d : Finset State}
    (h1 : (s, c) ∈ g) (h2 : (s, d) ∈ g) : c = d := by
  have e1 := (at?_iff h).2 h1
  have e2 := (at?_iff h).2 h2
  rw [e1] at e2
  simpa using e2

theorem Arrow.key {g : ConGraph} {s t : State} (h : g.Arrow s t) : s ∈ g.keys := by
  obtain ⟨c, h1, -⟩ := h
  exact mem_keys.2 ⟨c, h1⟩

theorem size_mapV_le {g : ConGraph} {F : State → Finset State → Finset State}
    (h : ∀ s d, (s, d) ∈ g → (F s d).card ≤ d.card) : (g.mapV F).size ≤ g.size := by
  induction g with
  | nil => simp [size]
  | cons e g ih =>
    have h1 := h e.1 e.2 (List.mem_cons_self ..)
    have h2 := ih fun s d hd => h s d (List.mem_cons_of_mem _ hd)
    simp only [size, mapV, List.map_cons, List.sum_cons, List.map_map] at h1 h2 ⊢
    omega

theorem size_mapV_lt {g : ConGraph} {F : State → Finset State → Finset State}
    (h : ∀ s d, (s, d) ∈ g → (F s d).card ≤ d.card)
    (hlt : ∃ s d, (s, d) ∈ g ∧ (F s d).card < d.card) : (g.mapV F).size < g.size := by
  induction g with
  | nil => obtain ⟨s, d, hd, -⟩ := hlt; simp at hd
  | cons e g ih =>
    have h1 := h e.1 e.2 (List.mem_cons_self ..)
    have h2 := size_mapV_le (g := g) (F := F) fun s d hd => h s d (List.mem_cons_of_mem _ hd)
    obtain ⟨s, d, hd, hl⟩ := hlt
    rcases List.mem_cons.1 hd with rfl | hd
    · simp only [size, mapV, List.map_cons, List.sum_cons, List.map_map] at h1 h2 ⊢
      omega
    · have h3 := ih (fun s d hd => h s d (List.mem_cons_of_mem _ hd)) ⟨s, d, hd, hl⟩
      simp only [size, mapV, List.map_cons, List.sum_cons, List.map_map] at h1 h3 ⊢
      omega

theorem mapV_id {g : ConGraph} {F : State → Finset State → Finset State}
    (h : ∀ s d, (s, d) ∈ g → F s d = d) : g.mapV F = g := by
  conv_rhs => rw [← List.map_id g]
  apply List.map_congr_left
  rintro ⟨s, d⟩ hd
  simp [h s d hd]

theorem mapV_mapV (g : ConGraph) (F G : State → Finset State → Finset State) :
    (g.mapV F).mapV G = g.mapV fun s d => G s (F s d) := by
  simp [mapV, List.map_map, Function.comp_def]

theorem size_ge {g : ConGraph} {s : State} {c : Finset State} (h : (s, c) ∈ g) :
    c.card ≤ g.size := by
  induction g with
  | nil => simp at h
  | cons e g ih =>
    simp only [size, List.map_cons, List.sum_cons]
    rcases List.mem_cons.1 h with rfl | h
    · simp only
      omega
    · have := ih h
      simp only [size] at this
      omega

/-! ## Deleting a key -/

theorem mem_delete {g : ConGraph} {x s : State} {c : Finset State} :
    (s, c) ∈ g.delete x ↔ (s, c) ∈ g ∧ s ≠ x := by
  simp [delete, List.mem_filter]

theorem keys_delete {g : ConGraph} {x s : State} :
    s ∈ (g.delete x).keys ↔ s ∈ g.keys ∧ s ≠ x := by
  simp only [mem_keys, mem_delete]
  constructor
  · rintro ⟨c, h1, h2⟩
    exact ⟨⟨c, h1⟩, h2⟩
  · rintro ⟨⟨c, h1⟩, h2⟩
    exact ⟨c, h1, h2⟩

theorem nodup_delete {g : ConGraph} (h : g.keys.Nodup) (x : State) : (g.delete x).keys.Nodup :=
  h.sublist ((List.filter_sublist (l := g)).map Prod.fst)

theorem arrow_delete {g : ConGraph} {x s t : State} :
    (g.delete x).Arrow s t ↔ g.Arrow s t ∧ s ≠ x := by
  simp only [Arrow, mem_delete]
  constructor
  · rintro ⟨c, ⟨h1, h2⟩, h3⟩
    exact ⟨⟨c, h1, h3⟩, h2⟩
  · rintro ⟨⟨c, h1, h3⟩, h2⟩
    exact ⟨c, ⟨h1, h2⟩, h3⟩

theorem size_delete {g : ConGraph} (h : g.keys.Nodup) {x : State} {c : Finset State}
    (hx : (x, c) ∈ g) : (g.delete x).size + c.card = g.size := by
  induction g with
  | nil => simp at hx
  | cons e g ih =>
    simp only [keys, List.map_cons, List.nodup_cons] at h
    rcases List.mem_cons.1 hx with rfl | hx
    · have : ConGraph.delete g x = g := by
        simp only [delete, List.filter_eq_self]
        intro a ha
        have : a.1 ≠ x := fun hh => h.1 (List.mem_map.2 ⟨a, ha, hh⟩)
        simpa using this
      have e : ConGraph.delete ((x, c) :: g) x = ConGraph.delete g x := by
        simp [delete]
      rw [e, this]
      simp only [size, List.map_cons, List.sum_cons]
      omega
    · have hne : e.1 ≠ x := fun hh => h.1 (List.mem_map.2 ⟨_, hx, hh.symm⟩)
      have e' : ConGraph.delete (e :: g) x = e :: ConGraph.delete g x := by
        simp [delete, hne]
      have := ih h.2 hx
      rw [e']
      simp only [size, List.map_cons, List.sum_cons] at this ⊢
      omega

/-! ## Loops -/

theorem cutReflexive_eq (g : ConGraph) : g.cutReflexive = g.mapV fun s d => d.erase s := rfl

/-- Taking away loops at some keys. -/
theorem follows_loops {g : ConGraph} (h : WF g) (F : State → Finset State → Finset State)
    (hF : ∀ s d, (s, d) ∈ g → F s d = d ∨ F s d = d.erase s) : Follows g (g.mapV F) := by
  have hsub : ∀ s t, (g.mapV F).Arrow s t → g.Arrow s t := by
    intro s t ht
    obtain ⟨d, h1, h2⟩ := arrow_mapV.1 ht
    refine ⟨d, h1, ?_⟩
    rcases hF s d h1 with e | e
    · rwa [e] at h2
    · rw [e] at h2
      exact Finset.mem_of_mem_erase h2
  refine ⟨⟨by rw [keys_mapV]; exact h.nodup, ?_⟩, by rw [keys_mapV]; exact fun _ h => h, ?_,
    fun s t ht => .single (hsub s t ht), ?_⟩
  · intro s t ht
    rw [keys_mapV]
    exact h.closed s t (hsub s t ht)
  · rintro s ⟨t, ht⟩
    exact ⟨t, hsub s t ht⟩
  · intro s t _ ht hr
    clear ht
    induction hr with
    | refl => exact .refl
    | @tail u v _ huv ih =>
      by_cases hne : v = u
      · subst hne
        exact ih
      · refine ih.tail ?_
        obtain ⟨d, h1, h2⟩ := huv
        rw [arrow_mapV]
        refine ⟨d, h1, ?_⟩
        rcases hF u d h1 with e | e
        · rwa [e]
        · rw [e]
          exact Finset.mem_erase.2 ⟨hne, h2⟩

theorem cutReflexive_follows {g : ConGraph} (h : WF g) : Follows g g.cutReflexive :=
  follows_loops h _ fun _ _ _ => Or.inr rfl

/-- Taking loops away makes the graph smaller unless there are none. -/
theorem cutReflexive_size (g : ConGraph) : g.cutReflexive.size < g.size ∨
    (g.cutReflexive = g ∧ ∀ s d, (s, d) ∈ g → s ∉ d) := by
  rw [cutReflexive_eq]
  by_cases h : ∃ s d, (s, d) ∈ g ∧ s ∈ d
  · left
    obtain ⟨s, d, h1, h2⟩ := h
    exact size_mapV_lt (fun s d _ => Finset.card_erase_le)
      ⟨s, d, h1, Finset.card_erase_lt_of_mem h2⟩
  · right
    have h' : ∀ s d, (s, d) ∈ g → s ∉ d := fun s d h1 h2 => h ⟨s, d, h1, h2⟩
    exact ⟨mapV_id fun s d hd => Finset.erase_eq_of_notMem (h' s d hd), h'⟩

/-! ## Dead ends -/

/-- Without a set of keys. -/
def without (g : ConGraph) (D : Finset State) : ConGraph :=
  g.filterMap fun e => if e.1 ∈ D then none else some (e.1, e.2 \ D)

theorem without_empty (g : ConGraph) : g.without ∅ = g := by
  induction g with
  | nil => rfl
  | cons e g ih =>
    simp [without]

theorem without_insert (g : ConGraph) (x : State) (D : Finset State) :
    ConGraph.without ((g.mapV fun _ d => d.erase x).delete x) D = g.without (insert x D) := by
  induction g with
  | nil => rfl
  | cons e g ih =>
    obtain ⟨s, d⟩ := e
    have hd : d.erase x \ D = d \ insert x D := by
      ext y
      simp only [Finset.mem_sdiff, Finset.mem_erase, Finset.mem_insert]
      tauto
    simp only [without, delete, mapV, List.map_cons] at ih ⊢
    by_cases h1 : s = x
    · rw [List.filter_cons_of_neg (by simp [h1]), List.filterMap_cons_none (by simp [h1])]
      exact ih
    · rw [List.filter_cons_of_pos (by simp [h1])]
      by_cases h2 : s ∈ D
      · rw [List.filterMap_cons_none (by simp [h2]), List.filterMap_cons_none (by simp [h2])]
        exact ih
      · rw [List.filterMap_cons_some (b := (s, d \ insert x D)) (by simp [h2, hd]),
          List.filterMap_cons_some (b := (s, d \ insert x D)) (by simp [h1, h2]), ih]

theorem mem_without {g : ConGraph} {D : Finset State} {s : State} {c : Finset State} :
    (s, c) ∈ g.without D ↔ ∃ d, (s, d) ∈ g ∧ s ∉ D ∧ d \ D = c := by
  simp only [without, List.mem_filterMap]
  constructor
  · rintro ⟨⟨a, d⟩, h1, h2⟩
    by_cases ha : a ∈ D
    · simp [ha] at h2
    · simp only [ha, if_false, Option.some.injEq, Prod.mk.injEq] at h2
      obtain ⟨rfl, rfl⟩ := h2
      exact ⟨d, h1, ha, rfl⟩
  · rintro ⟨d, h1, h2, rfl⟩
    exact ⟨(s, d), h1, by simp [h2]⟩

theorem purgeLoop_eq (l : List State) (g : ConGraph) (h : g.keys.Nodup) (hl : l.Nodup)
    (hk : ∀ s ∈ l, s ∈ g.keys) : purgeLoop l g = some (g.without l.toFinset) := by
  induction l generalizing g with
  | nil => simp [purgeLoop, without_empty]
  | cons x l ih =>
    have hnd := List.nodup_cons.1 hl
    let g' : ConGraph := g.mapV fun _ d => d.erase x
    have hk' : g'.keys = g.keys := keys_mapV g _
    have hsome : (g'.at? x).isSome := by
      rw [at?, lookup_isSome_iff]
      show x ∈ g'.keys
      rw [hk']
      exact hk x (List.mem_cons_self ..)
    have e : purgeLoop (x :: l) g = purgeLoop l (g'.delete x) := by
      simp only [purgeLoop]
      exact if_pos hsome
    rw [e, ih _ (nodup_delete (by rw [hk']; exact h) x) hnd.2 (by
      intro s hs
      rw [keys_delete, hk']
      refine ⟨hk s (List.mem_cons_of_mem _ hs), ?_⟩
      rintro rfl
      exact hnd.1 hs), without_insert, List.toFinset_cons]

/-- The keys without connections. -/
def dead (g : ConGraph) : Finset State := (keys (g.filter fun e => e.2 = ∅)).toFinset

theorem mem_dead {g : ConGraph} {s : State} : s ∈ g.dead ↔ (s, ∅) ∈ g := by
  simp only [dead, List.mem_toFinset, mem_keys, List.mem_filter, decide_eq_true_eq]
  constructor
  · rintro ⟨c, h1, rfl⟩
    exact h1
  · intro h
    exact ⟨∅, h, rfl⟩

/-- `order` lists the elements of every set inside `U`. -/
def Lists (U : Finset State) (order : Finset State → List State) : Prop :=
  ∀ F, F ⊆ U → (order F).Nodup ∧ ∀ x, x ∈ order F ↔ x ∈ F

/-- `pick` takes an element of every set inside `U` that has one. -/
def Picks (U : Finset State) (pick : Finset State → State) : Prop :=
  ∀ F, F ⊆ U → F.Nonempty → pick F ∈ F

/-- All keys are in `U`. -/
def Keys (U : Finset State) (g : ConGraph) : Prop := ∀ s ∈ g.keys, s ∈ U

theorem Follows.keysIn {g g' : ConGraph} (h : Follows g g') {U : Finset State} (hU : Keys U g) :
    Keys U g' := fun s hs => hU s (h.keys s hs)

theorem purge_eq {U : Finset State} {order : Finset State → List State} (ho : Lists U order)
    {g : ConGraph} (h : g.keys.Nodup) (hU : Keys U g) :
    purge order g = some (g.without g.dead) := by
  have hdk : ∀ s, s ∈ g.dead → s ∈ g.keys := fun s hs => mem_keys.2 ⟨∅, mem_dead.1 hs⟩
  have := ho g.dead fun s hs => hU s (hdk s hs)
  have e : (order g.dead).toFinset = g.dead := by
    ext x
    rw [List.mem_toFinset, this.2]
  conv_rhs => rw [← e]
  exact purgeLoop_eq _ g h this.1 fun s hs => hdk s ((this.2 s).1 hs)

theorem keys_without {g : ConGraph} {D : Finset State} {s : State} :
    s ∈ (g.without D).keys ↔ s ∈ g.keys ∧ s ∉ D := by
  simp only [mem_keys, mem_without]
  constructor
  · rintro ⟨c, d, h1, h2, -⟩
    exact ⟨⟨d, h1⟩, h2⟩
  · rintro ⟨⟨d, h1⟩, h2⟩
    exact ⟨_, d, h1, h2, rfl⟩

theorem nodup_without {g : ConGraph} (h : g.keys.Nodup) (D : Finset State) :
    (g.without D).keys.Nodup := by
  have e : (g.without D).keys = g.keys.filter fun s => s ∉ D := by
    induction g with
    | nil => rfl
    | cons a g ih =>
      simp only [keys, List.map_cons, List.nodup_cons] at h
      have := ih h.2
      simp only [keys, without] at this ⊢
      by_cases ha : a.1 ∈ D
      · simp [ha, this]
      · simp [ha, this]
  rw [e]
  exact h.filter _

theorem arrow_without {g : ConGraph} {D : Finset State} {s t : State} :
    (g.without D).Arrow s t ↔ g.Arrow s t ∧ s ∉ D ∧ t ∉ D := by
  simp only [Arrow, mem_without]
  constructor
  · rintro ⟨c, ⟨d, h1, h2, rfl⟩, h3⟩
    rw [Finset.mem_sdiff] at h3
    exact ⟨⟨d, h1, h3.1⟩, h2, h3.2⟩
  · rintro ⟨⟨d, h1, h2⟩, h3, h4⟩
    exact ⟨_, ⟨d, h1, h3, rfl⟩, Finset.mem_sdiff.2 ⟨h2, h4⟩⟩

theorem not_dead_of_arrow {g : ConGraph} (h : g.keys.Nodup) {s t : State} (ha : g.Arrow s t) :
    s ∉ g.dead := by
  intro hs
  obtain ⟨c, h1, h2⟩ := ha
  rw [mem_unique h h1 (mem_dead.1 hs)] at h2
  simp at h2

theorem purge_follows {g : ConGraph} (h : WF g) : Follows g (g.without g.dead) where
  wf := by
    refine ⟨nodup_without h.nodup _, ?_⟩
    intro s t ht
    rw [arrow_without] at ht
    exact keys_without.2 ⟨h.closed s t ht.1, ht.2.2⟩
  keys := fun s hs => (keys_without.1 hs).1
  live := by
    rintro s ⟨t, ht⟩
    exact ⟨t, (arrow_without.1 ht).1⟩
  path := fun s t ht => .single (arrow_without.1 ht).1
  reach := by
    intro s t hs ht hr
    clear hs
    have htd : t ∉ g.dead := by
      obtain ⟨u, hu⟩ := ht
      exact (arrow_without.1 hu).2.1
    clear ht
    induction hr using ReflTransGen.head_induction_on with
    | refl => exact .refl
    | @head a b hab hbt ih =>
      refine .head ?_ ih
      rw [arrow_without]
      refine ⟨hab, not_dead_of_arrow h.nodup hab, ?_⟩
      rcases hbt.cases_head with rfl | ⟨c, hc, -⟩
      · exact htd
      · exact not_dead_of_arrow h.nodup hc

theorem size_without_le (g : ConGraph) (D : Finset State) : (g.without D).size ≤ g.size := by
  induction g with
  | nil => simp [without, size]
  | cons e g ih =>
    by_cases he : e.1 ∈ D
    · have : ConGraph.without (e :: g) D = ConGraph.without g D := by simp [without, he]
      rw [this]
      simp only [size, List.map_cons, List.sum_cons] at ih ⊢
      omega
    · have : ConGraph.without (e :: g) D = (e.1, e.2 \ D) :: ConGraph.without g D := by simp [without, he]
      rw [this]
      have h1 : (e.2 \ D).card ≤ e.2.card := Finset.card_le_card Finset.sdiff_subset
      simp only [size, List.map_cons, List.sum_cons] at ih ⊢
      omega

theorem size_without_lt {g : ConGraph} {D : Finset State} {s t : State} (ha : g.Arrow s t)
    (ht : t ∈ D) : (g.without D).size < g.size := by
  obtain ⟨c, hc, htc⟩ := ha
  induction g with
  | nil => simp at hc
  | cons e g ih =>
    have h2 := size_without_le g D
    by_cases he : e.1 ∈ D
    · have : ConGraph.without (e :: g) D = ConGraph.without g D := by simp [without, he]
      rw [this]
      rcases List.mem_cons.1 hc with rfl | hc
      · have : 0 < c.card := Finset.card_pos.2 ⟨t, htc⟩
        simp only [size, List.map_cons, List.sum_cons] at h2 ⊢
        omega
      · have := ih hc
        simp only [size, List.map_cons, List.sum_cons] at this ⊢
        omega
    · have : ConGraph.without (e :: g) D = (e.1, e.2 \ D) :: ConGraph.without g D := by simp [without, he]
      rw [this]
      have h1 : (e.2 \ D).card ≤ e.2.card := Finset.card_le_card Finset.sdiff_subset
      rcases List.mem_cons.1 hc with rfl | hc
      · have h3 : (c \ D).card < c.card := by
          apply Finset.card_lt_card
          refine ⟨Finset.sdiff_subset, fun hh => ?_⟩
          exact (Finset.mem_sdiff.1 (hh htc)).2 ht
        simp only [size, List.map_cons, List.sum_cons] at h2 ⊢
        omega
      · have := ih hc
        simp only [size, List.map_cons, List.sum_cons] at this ⊢
        omega

/-! ## Single exits -/

/-- Replace `x`, whose only connection is `e`, by `e`. -/
def bypass (g : ConGraph) (x e : State) : ConGraph :=
  g.mapV fun s d => if s = x then ∅ else if x ∈ d then insert e (d.erase x) else d

theorem keys_bypass {g : ConGraph} {x e : State} : (g.bypass x e).keys = g.keys := by
  rw [bypass, keys_mapV]

theorem arrow_bypass {g : ConGraph} {x e s t : State} :
    (g.bypass x e).Arrow s t ↔ s ≠ x ∧
      ((g.Arrow s t ∧ t ≠ x) ∨ (g.keys.Nodup → g.Arrow s x) ∧ g.Arrow s x ∧ t = e) := by
  rw [bypass, arrow_mapV]
  constructor
  · rintro ⟨d, h1, h2⟩
    by_cases hs : s = x
    · simp [hs] at h2
    · refine ⟨hs, ?_⟩
      rw [if_neg hs] at h2
      by_cases hx : x ∈ d
      · rw [if_pos hx] at h2
        rcases Finset.mem_insert.1 h2 with rfl | h2
        · exact Or.inr ⟨fun _ => ⟨d, h1, hx⟩, ⟨d, h1, hx⟩, rfl⟩
        · have := Finset.mem_erase.1 h2
          exact Or.inl ⟨⟨d, h1, this.2⟩, this.1⟩
      · rw [if_neg hx] at h2
        refine Or.inl ⟨⟨d, h1, h2⟩, ?_⟩
        rintro rfl
        exact hx h2
  · rintro ⟨hs, ⟨⟨d, h1, h2⟩, h3⟩ | ⟨-, ⟨d, h1, h2⟩, rfl⟩⟩
    · refine ⟨d, h1, ?_⟩
      rw [if_neg hs]
      by_cases hx : x ∈ d
      · rw [if_pos hx]
        exact Finset.mem_insert_of_mem (Finset.mem_erase.2 ⟨h3, h2⟩)
      · rw [if_neg hx]
        exact h2
    · refine ⟨d, h1, ?_⟩
      rw [if_neg hs, if_pos h2]
      exact Finset.mem_insert_self _ _

theorem bypass_follows {g : ConGraph} (h : WF g) {x e : State} (hx : (x, {e}) ∈ g) (hne : x ≠ e) :
    Follows g (g.bypass x e) := by
  have hxe : g.Arrow x e := ⟨_, hx, Finset.mem_singleton_self e⟩
  have hk : (g.bypass x e).keys = g.keys := keys_bypass
  refine ⟨⟨by rw [hk]; exact h.nodup, ?_⟩, by rw [hk]; exact fun _ h => h, ?_, ?_, ?_⟩
  · intro s t ht
    rw [hk]
    rcases (arrow_bypass.1 ht).2 with h1 | ⟨-, -, rfl⟩
    · exact h.closed _ _ h1.1
    · exact h.closed _ _ hxe
  · rintro s ⟨t, ht⟩
    rcases (arrow_bypass.1 ht).2 with h1 | ⟨-, h1, -⟩
    · exact ⟨t, h1.1⟩
    · exact ⟨x, h1⟩
  · intro s t ht
    rcases (arrow_bypass.1 ht).2 with h1 | ⟨-, h1, rfl⟩
    · exact .single h1.1
    · exact .tail (.single h1) hxe
  · rintro s t ⟨u, hu⟩ ⟨v, hv⟩ hr
    have hsx := (arrow_bypass.1 hu).1
    have htx := (arrow_bypass.1 hv).1
    have key : ∀ a, ReflTransGen g.Arrow a t →
        (a ≠ x → ReflTransGen (g.bypass x e).Arrow a t) ∧
        (a = x → ReflTransGen (g.bypass x e).Arrow e t) := by
      intro a ha
      induction ha using ReflTransGen.head_induction_on with
      | refl => exact ⟨fun _ => .refl, fun h => absurd h htx⟩
      | @head a b hab _ ih =>
        constructor
        · intro hax
          by_cases hbx : b = x
          · refine .head (arrow_bypass.2 ⟨hax, Or.inr ⟨fun _ => ?_, ?_, rfl⟩⟩) (ih.2 hbx)
            · rw [← hbx]; exact hab
            · rw [← hbx]; exact hab
          · exact .head (arrow_bypass.2 ⟨hax, Or.inl ⟨hab, hbx⟩⟩) (ih.1 hbx)
        · rintro rfl
          obtain ⟨c, h1, h2⟩ := hab
          rw [mem_unique h.nodup h1 hx, Finset.mem_singleton] at h2
          subst h2
          exact ih.1 (Ne.symm hne)
    exact (key s hr).1 hsx

theorem bypass_size {g : ConGraph} {x e : State} (hx : (x, {e}) ∈ g) :
    (g.bypass x e).size < g.size := by
  rw [bypass]
  apply size_mapV_lt
  · intro s d _
    split
    · simp
    · split
      · rename_i h
        have := Finset.card_insert_le e (d.erase x)
        have := Finset.card_erase_add_one h
        omega
      · exact Nat.le_refl _
  · exact ⟨x, {e}, hx, by simp⟩

theorem bypass_eq {g : ConGraph} (h : g.keys.Nodup) {x e : State} (hx : (x, {e}) ∈ g) :
    ((g.modify x fun d => d.erase e).map fun y =>
      (y.1, if x ∈ y.2 then insert e (y.2.erase x) else y.2)) = g.bypass x e := by
  rw [modify_eq]
  show ConGraph.mapV _ (fun _ d => if x ∈ d then insert e (d.erase x) else d) = _
  rw [mapV_mapV, bypass]
  apply List.map_congr_left
  rintro ⟨s, d⟩ hd
  by_cases hs : s = x
  · subst hs
    rw [mem_unique h hd hx]
    simp
  · simp [hs]

theorem picks_singleton {U : Finset State} {pick : Finset State → State} (hp : Picks U pick)
    {e : State} (he : e ∈ U) : pick {e} = e := by
  have := hp {e} (by simpa using he) ⟨e, Finset.mem_singleton_self e⟩
  simpa using this

/-- The loop of `inline_single_exit`. -/
theorem exitLoop_spec {U : Finset State} {pick : Finset State → State} (hp : Picks U pick)
    (l : List State) (g : ConGraph) (h : WF g) (hU : Keys U g) (hl : ∀ s ∈ l, s ∈ g.keys) :
    ∃ g', exitLoop pick l g = some g' ∧ Follows g g' ∧
      (g'.size < g.size ∨ (g' = g ∧ ∀ s ∈ l, ∀ d, (s, d) ∈ g → s ∉ d ∧ d.card ≠ 1)) := by
  induction l generalizing g with
  | nil => exact ⟨g, rfl, Follows.refl h, Or.inr ⟨rfl, by simp⟩⟩
  | cons x l ih =>
    obtain ⟨c, hc⟩ := mem_keys.1 (hl x (List.mem_cons_self ..))
    have hl' : ∀ s ∈ l, s ∈ g.keys := fun s hs => hl s (List.mem_cons_of_mem _ hs)
    have hat := (at?_iff h.nodup).2 hc
    simp only [exitLoop, hat]
    by_cases hxc : x ∈ c
    · rw [if_pos hxc]
      refine ⟨_, rfl, ?_, Or.inl ?_⟩
      · rw [modify_eq]
        apply follows_loops h
        intro s d _
        by_cases hs : s = x
        · subst hs; simp
        · simp [hs]
      · rw [modify_eq]
        apply size_mapV_lt
        · intro s d _
          split
          · exact Finset.card_erase_le
          · exact Nat.le_refl _
        · exact ⟨x, c, hc, by rw [if_pos rfl]; exact Finset.card_erase_lt_of_mem hxc⟩
    · rw [if_neg hxc]
      have rest : c = ∅ ∨ 1 < c.card → ∃ g', exitLoop pick l g = some g' ∧ Follows g g' ∧
          (g'.size < g.size ∨ (g' = g ∧ ∀ s ∈ x :: l, ∀ d, (s, d) ∈ g → s ∉ d ∧ d.card ≠ 1)) := by
        intro hcard
        obtain ⟨g', h1, h2, h3⟩ := ih g h hU hl'
        refine ⟨g', h1, h2, ?_⟩
        rcases h3 with h3 | ⟨h3, h4⟩
        · exact Or.inl h3
        · refine Or.inr ⟨h3, ?_⟩
          intro s hs d hd
          rcases List.mem_cons.1 hs with rfl | hs
          · rw [mem_unique h.nodup hd hc]
            refine ⟨hxc, ?_⟩
            rcases hcard with rfl | hcard
            · simp
            · omega
          · exact h4 s hs d hd
      by_cases hc0 : c = ∅
      · rw [if_pos hc0]
        exact rest (Or.inl hc0)
      · rw [if_neg hc0]
        by_cases hc1 : 1 < c.card
        · rw [if_pos hc1]
          exact rest (Or.inr hc1)
        · rw [if_neg hc1]
          have hpos : 0 < c.card := Finset.card_pos.2 (Finset.nonempty_iff_ne_empty.2 hc0)
          obtain ⟨e, rfl⟩ := Finset.card_eq_one.1 (show c.card = 1 by omega)
          have hek : e ∈ g.keys := h.closed x e ⟨_, hc, Finset.mem_singleton_self e⟩
          have hpe : pick {e} = e := picks_singleton hp (hU e hek)
          have hne : x ≠ e := by simpa using hxc
          rw [hpe, bypass_eq h.nodup hc]
          have hf := bypass_follows h hc hne
          have hk : (g.bypass x e).keys = g.keys := keys_bypass
          obtain ⟨g', h1, h2, h3⟩ := ih (g.bypass x e) hf.wf (hf.keysIn hU) (by
            rw [hk]; exact hl')
          refine ⟨g', h1, hf.trans h2, Or.inl ?_⟩
          have := bypass_size hc
          rcases h3 with h3 | ⟨rfl, -⟩
          · omega
          · exact this

/-! ## Single entries -/

theorem mem_entriesOf {g : ConGraph} {s t : State} : s ∈ g.entriesOf t ↔ g.Arrow s t := by
  simp only [entriesOf, List.mem_toFinset, mem_keys, List.mem_filter, decide_eq_true_eq]
  rfl

/-- Merge `x` with connections `outs` into `y`. -/
def absorb (g : ConGraph) (y x : State) (outs : Finset State) : ConGraph :=
  (g.mapV fun s d => if s = y then (d ∪ outs).erase x else d).delete x

theorem merge_eq {U : Finset State} {pick : Finset State → State} (hp : Picks U pick)
    {g : ConGraph} (h : WF g) (hU : Keys U g) {x y : State} {outs : Finset State}
    (hx : (x, outs) ∈ g) (hy : g.entriesOf x = {y}) :
    g.merge pick x = some (g.absorb y x outs) := by
  have hyx : g.Arrow y x := mem_entriesOf.1 (by rw [hy]; exact Finset.mem_singleton_self y)
  have hpy : pick {y} = y := picks_singleton hp (hU y hyx.key)
  obtain ⟨d, hd, hxd⟩ := hyx
  have hat : g.at? x = some outs := (at?_iff h.nodup).2 hx
  have hat' : (g.modify y fun d => d ∪ outs).at? y = some (d ∪ outs) := by
    rw [modify_eq, at?_iff (by rw [keys_mapV]; exact h.nodup), mem_mapV]
    exact ⟨d, hd, by simp⟩
  have hm : x ∈ d ∪ outs := Finset.mem_union_left _ hxd
  have e : (g.modify y fun d => d ∪ outs).modify y (fun d => d.erase x)
      = g.mapV fun s d => if s = y then (d ∪ outs).erase x else d := by
    rw [modify_eq, modify_eq, mapV_mapV]
    congr 1
    funext s d
    by_cases hs : s = y <;> simp [hs]
  simp only [merge, hy, hpy, hat, hat', hm, if_true, absorb, e]

theorem arrow_absorb {g : ConGraph} (h : g.keys.Nodup) {x y s t : State} {outs : Finset State}
    (hx : (x, outs) ∈ g) (hyk : y ∈ g.keys) : (g.absorb y x outs).Arrow s t ↔
      s ≠ x ∧ ((s ≠ y ∧ g.Arrow s t) ∨ (s = y ∧ t ≠ x ∧ (g.Arrow y t ∨ g.Arrow x t))) := by
  rw [absorb, arrow_delete, arrow_mapV]
  constructor
  · rintro ⟨⟨d, h1, h2⟩, hs⟩
    refine ⟨hs, ?_⟩
    by_cases hsy : s = y
    · subst hsy
      rw [if_pos rfl] at h2
      have := Finset.mem_erase.1 h2
      refine Or.inr ⟨rfl, this.1, ?_⟩
      rcases Finset.mem_union.1 this.2 with h3 | h3
      · exact Or.inl ⟨d, h1, h3⟩
      · exact Or.inr ⟨outs, hx, h3⟩
    · rw [if_neg hsy] at h2
      exact Or.inl ⟨hsy, ⟨d, h1, h2⟩⟩
  · rintro ⟨hs, ⟨hsy, d, h1, h2⟩ | ⟨rfl, htx, h2⟩⟩
    · exact ⟨⟨d, h1, by rw [if_neg hsy]; exact h2⟩, hs⟩
    · obtain ⟨d, hd⟩ := mem_keys.1 hyk
      refine ⟨⟨d, hd, ?_⟩, hs⟩
      rw [if_pos rfl, Finset.mem_erase]
      refine ⟨htx, Finset.mem_union.2 ?_⟩
      rcases h2 with ⟨c, h3, h4⟩ | ⟨c, h3, h4⟩
      · rw [mem_unique h hd h3]; exact Or.inl h4
      · rw [mem_unique h hx h3]; exact Or.inr h4

theorem absorb_follows {g : ConGraph} (h : WF g) {x y : State} {outs : Finset State}
    (hx : (x, outs) ∈ g) (hy : ∀ s, g.Arrow s x ↔ s = y) : Follows g (g.absorb y x outs) := by
  have hyx : g.Arrow y x := (hy y).2 rfl
  have har : ∀ s t, (g.absorb y x outs).Arrow s t ↔
      s ≠ x ∧ ((s ≠ y ∧ g.Arrow s t) ∨ (s = y ∧ t ≠ x ∧ (g.Arrow y t ∨ g.Arrow x t))) :=
    fun s t => arrow_absorb h.nodup hx hyx.key
  have hkeys : ∀ s, s ∈ (g.absorb y x outs).keys ↔ s ∈ g.keys ∧ s ≠ x := by
    intro s
    rw [absorb, keys_delete, keys_mapV]
  have hnx : ∀ s t, (g.absorb y x outs).Arrow s t → t ≠ x := by
    intro s t ht
    rcases ((har s t).1 ht).2 with ⟨h1, h2⟩ | ⟨-, h1, -⟩
    · rintro rfl
      exact h1 ((hy s).1 h2)
    · exact h1
  refine ⟨⟨nodup_delete (by rw [keys_mapV]; exact h.nodup) x, ?_⟩, fun s hs => ((hkeys s).1 hs).1,
    ?_, ?_, ?_⟩
  · intro s t ht
    rw [hkeys]
    refine ⟨?_, hnx s t ht⟩
    rcases ((har s t).1 ht).2 with ⟨-, h2⟩ | ⟨-, -, h2 | h2⟩
    · exact h.closed _ _ h2
    · exact h.closed _ _ h2
    · exact h.closed _ _ h2
  · rintro s ⟨t, ht⟩
    rcases ((har s t).1 ht).2 with ⟨-, h2⟩ | ⟨rfl, -, -⟩
    · exact ⟨t, h2⟩
    · exact ⟨x, hyx⟩
  · intro s t ht
    rcases ((har s t).1 ht).2 with ⟨-, h2⟩ | ⟨rfl, -, h2 | h2⟩
    · exact .single h2
    · exact .single h2
    · exact .tail (.single hyx) h2
  · rintro s t ⟨u, hu⟩ ⟨v, hv⟩ hr
    have hsx := ((har s u).1 hu).1
    have htx := ((har t v).1 hv).1
    have key : ∀ a, ReflTransGen g.Arrow a t →
        (a ≠ x → ReflTransGen (g.absorb y x outs).Arrow a t) ∧
        (a = x → y ≠ x → ReflTransGen (g.absorb y x outs).Arrow y t) := by
      intro a ha
      induction ha using ReflTransGen.head_induction_on with
      | refl => exact ⟨fun _ => .refl, fun h => absurd h htx⟩
      | @head a b hab _ ih =>
        constructor
        · intro hax
          by_cases hbx : b = x
          · subst hbx
            have := (hy a).1 hab
            subst this
            exact ih.2 rfl hax
          · refine .head ((har a b).2 ⟨hax, ?_⟩) (ih.1 hbx)
            by_cases hay : a = y
            · subst hay
              exact Or.inr ⟨rfl, hbx, Or.inl hab⟩
            · exact Or.inl ⟨hay, hab⟩
        · rintro rfl hyx'
          have hbx : b ≠ a := by
            rintro rfl
            exact hyx' ((hy b).1 hab).symm
          exact .head ((har y b).2 ⟨hyx', Or.inr ⟨rfl, hbx, Or.inr hab⟩⟩) (ih.1 hbx)
    exact (key s hr).1 hsx

theorem absorb_size {g : ConGraph} (h : g.keys.Nodup) {x y : State} {outs : Finset State}
    (hx : (x, outs) ∈ g) (hy : g.Arrow y x) : (g.absorb y x outs).size < g.size := by
  obtain ⟨d, hd, hxd⟩ := hy
  by_cases hyx : y = x
  · subst hyx
    have hdo := mem_unique h hd hx
    subst hdo
    have e : g.absorb y y d = g.delete y := by
      simp only [absorb, delete, mapV, List.filter_map]
      conv_rhs => rw [← List.map_id (List.filter _ g)]
      have hf : (List.filter ((fun e : State × Finset State => decide (e.1 ≠ y)) ∘
          fun e => (e.1, if e.1 = y then (e.2 ∪ d).erase y else e.2)) g)
          = List.filter (fun e => decide (e.1 ≠ y)) g := by
        apply List.filter_congr
        intro a _
        rfl
      rw [hf]
      apply List.map_congr_left
      rintro ⟨a, b⟩ hab
      have : a ≠ y := by simpa using (List.mem_filter.1 hab).2
      simp [this]
    rw [e]
    have := size_delete h hd
    have : 0 < d.card := Finset.card_pos.2 ⟨y, hxd⟩
    omega
  · let F : State → Finset State → Finset State := fun s d =>
      if s = y then (d ∪ outs).erase x else d
    have hx' : (x, outs) ∈ g.mapV F := by
      rw [mem_mapV]
      exact ⟨outs, hx, by simp [F, Ne.symm hyx]⟩
    have h1 := size_delete (g := g.mapV F) (by rw [keys_mapV]; exact h) hx'
    have h2 : (g.mapV F).size + 1 ≤ g.size + outs.card := by
      have hcard : ((d ∪ outs).erase x).card + 1 ≤ d.card + outs.card := by
        rw [Finset.card_erase_add_one (Finset.mem_union_left _ hxd)]
        exact Finset.card_union_le d outs
      have e1 := size_delete h hd
      have hy' : (y, (d ∪ outs).erase x) ∈ g.mapV F := by
        rw [mem_mapV]
        exact ⟨d, hd, by simp [F]⟩
      have e2 := size_delete (g := g.mapV F) (by rw [keys_mapV]; exact h) hy'
      have e3 : (g.mapV F).delete y = g.delete y := by
        simp only [delete, mapV, List.filter_map]
        conv_rhs => rw [← List.map_id (List.filter _ g)]
        have hf : (List.filter ((fun e : State × Finset State => decide (e.1 ≠ y)) ∘
            fun e => (e.1, F e.1 e.2)) g) = List.filter (fun e => decide (e.1 ≠ y)) g := by
          apply List.filter_congr
          intro a _
          rfl
        rw [hf]
        apply List.map_congr_left
        rintro ⟨a, b⟩ hab
        have : a ≠ y := by simpa using (List.mem_filter.1 hab).2
        simp [F, this]
      rw [e3] at e2
      omega
    show ((g.mapV F).delete x).size < g.size
    omega

/-- The rounds of `inline_single_entry`. -/
theorem entryRounds_spec {U : Finset State} {pick : Finset State → State}
    {order : Finset State → List State} (hp : Picks U pick) (ho : Lists U order)
    (k : Nat) (g : ConGraph) (h : WF g) (hU : Keys U g) :
    ∃ g', entryRounds pick order k g = some g' ∧ Follows g g' ∧
      (g'.size < g.size ∨ (g' = g ∧ (k = 0 ∨ ∀ s ∈ g.keys, (g.entriesOf s).card ≠ 1))) ∧
      ((∀ s ∈ g.keys, (g.entriesOf s).card ≠ 1) → g' = g) := by
  induction k generalizing g with
  | zero => exact ⟨g, rfl, Follows.refl h, Or.inr ⟨rfl, Or.inl rfl⟩, fun _ => rfl⟩
  | succ k ih =>
    have hord := ho g.keys.toFinset (fun s hs => hU s (List.mem_toFinset.1 hs))
    simp only [entryRounds]
    cases hf : (order g.keys.toFinset).find? fun dst => (g.entriesOf dst).card = 1 with
    | none =>
      refine ⟨g, rfl, Follows.refl h, Or.inr ⟨rfl, Or.inr ?_⟩, fun _ => rfl⟩
      intro s hs
      have := List.find?_eq_none.1 hf s ((hord.2 s).2 (List.mem_toFinset.2 hs))
      simpa using this
    | some x =>
      have hxm := List.mem_of_find?_eq_some hf
      have hxk : x ∈ g.keys := List.mem_toFinset.1 ((hord.2 x).1 hxm)
      have hx1 : (g.entriesOf x).card = 1 := by simpa using List.find?_some hf
      obtain ⟨y, hy⟩ := Finset.card_eq_one.1 hx1
      obtain ⟨outs, hx⟩ := mem_keys.1 hxk
      have hy' : ∀ s, g.Arrow s x ↔ s = y := by
        intro s
        rw [← mem_entriesOf, hy, Finset.mem_singleton]
      have hfol := absorb_follows h hx hy'
      simp only
      rw [merge_eq hp h hU hx hy, Option.bind_some]
      obtain ⟨g', h1, h2, h3, -⟩ := ih _ hfol.wf (hfol.keysIn hU)
      refine ⟨g', h1, hfol.trans h2, Or.inl ?_, fun hh => absurd hx1 (hh x hxk)⟩
      have := absorb_size h.nodup hx ((hy' y).2 rfl)
      rcases h3 with h3 | ⟨rfl, -⟩
      · omega
      · exact this

/-! ## The whole reduction -/

/-- Nothing left to do: no loops, no single exits, no single entries, no dead ends. -/
structure Fixed (g : ConGraph) : Prop where
  loop : ∀ s d, (s, d) ∈ g → s ∉ d
  exits : ∀ s d, (s, d) ∈ g → 2 ≤ d.card
  entries : ∀ s ∈ g.keys, (g.entriesOf s).card ≠ 1

theorem Fixed.dead {g : ConGraph} (h : Fixed g) : g.dead = ∅ := by
  ext s
  simp only [mem_dead, Finset.notMem_empty, iff_false]
  intro hs
  have := h.exits s ∅ hs
  simp at this

/-- One pass: `cut_reflexive_arrows`, `inline_single_exit`, `inline_single_entry`. -/
def pass (pick : Finset State → State) (order : Finset State → List State) (g : ConGraph) :
    Option ConGraph :=
  (inlineSingleExit pick order g.cutReflexive).bind (inlineSingleEntry pick order)

theorem pass_spec {U : Finset State} {pick : Finset State → State}
    {order : Finset State → List State} (hp : Picks U pick) (ho : Lists U order)
    (g : ConGraph) (h : WF g) (hU : Keys U g) :
    ∃ g', pass pick order g = some g' ∧ Follows g g' ∧
      (g'.size < g.size ∨ Fixed g') ∧ (Fixed g → g' = g) := by
  have f1 := cutReflexive_follows h
  have u1 := f1.keysIn hU
  obtain ⟨g2, a1, f2, a3⟩ := exitLoop_spec hp g.cutReflexive.keys g.cutReflexive f1.wf u1
    (fun s hs => hs)
  have u2 := f2.keysIn u1
  have f3 := purge_follows f2.wf
  have p2 := purge_eq ho f2.wf.nodup u2
  have u3 := f3.keysIn u2
  obtain ⟨g4, b1, f4, b3, b5⟩ := entryRounds_spec hp ho (g2.without g2.dead).length _ f3.wf u3
  have u4 := f4.keysIn u3
  have f5 := purge_follows f4.wf
  have p4 := purge_eq ho f4.wf.nodup u4
  have hpass : pass pick order g = some (g4.without g4.dead) := by
    simp only [pass, inlineSingleExit, inlineSingleEntry, a1, Option.bind_some, p2, b1, p4]
  have s3 := size_without_le g2 g2.dead
  have s5 := size_without_le g4 g4.dead
  refine ⟨_, hpass, f1.trans (f2.trans (f3.trans (f4.trans f5))), ?_, ?_⟩
  · rcases cutReflexive_size g with c1 | ⟨c1, c2⟩
    · left
      have : g2.size ≤ g.cutReflexive.size := by
        rcases a3 with a3 | ⟨rfl, -⟩
        · omega
        · exact Nat.le_refl _
      have : g4.size ≤ (g2.without g2.dead).size := by
        rcases b3 with b3 | ⟨e, -⟩
        · omega
        · rw [e]
      omega
    · rw [c1] at a3
      rcases a3 with a3 | ⟨rfl, a4⟩
      · left
        have : g4.size ≤ (g2.without g2.dead).size := by
          rcases b3 with b3 | ⟨e, -⟩
          · omega
          · rw [e]
        omega
      · rcases b3 with b3 | ⟨rfl, b4⟩
        · left; omega
        · by_cases hlt : (g2.without g2.dead).size < g2.size
          · left; omega
          · right
            have hno : ∀ s t, g2.Arrow s t → t ∉ g2.dead := by
              intro s t hst ht
              exact hlt (size_without_lt hst ht)
            have hmem : ∀ s d, (s, d) ∈ g2.without g2.dead → (s, d) ∈ g2 ∧ s ∉ g2.dead := by
              intro s d hd
              obtain ⟨c, h1, h2, rfl⟩ := mem_without.1 hd
              have : c \ g2.dead = c := by
                rw [Finset.sdiff_eq_self_iff_disjoint, Finset.disjoint_left]
                intro t ht
                exact hno s t ⟨c, h1, ht⟩
              rw [this]
              exact ⟨h1, h2⟩
            have hfix : Fixed (g2.without g2.dead) := by
              refine ⟨fun s d hd => c2 s d (hmem s d hd).1, ?_, ?_⟩
              · intro s d hd
                obtain ⟨h1, h2⟩ := hmem s d hd
                have h3 := (a4 s (mem_keys.2 ⟨d, h1⟩) d h1).2
                have h4 : d.card ≠ 0 := by
                  intro h0
                  rw [Finset.card_eq_zero] at h0
                  subst h0
                  exact h2 (mem_dead.2 h1)
                omega
              · intro s hs
                rcases b4 with b4 | b4
                · rw [List.length_eq_zero_iff] at b4
                  rw [b4] at hs
                  simp [keys] at hs
                · exact b4 s hs
            rw [hfix.dead, without_empty]
            exact hfix
  · intro hfix
    have c1 : g.cutReflexive = g := by
      rw [cutReflexive_eq]
      exact mapV_id fun s d hd => Finset.erase_eq_of_notMem (hfix.loop s d hd)
    have e2 : g2 = g := by
      have : exitLoop pick g.keys g = some g2 := by rw [← a1, c1]
      have key : ∀ l, (∀ s ∈ l, s ∈ g.keys) → exitLoop pick l g = some g := by
        intro l
        induction l with
        | nil => intro _; rfl
        | cons x l ih =>
          intro hl
          obtain ⟨c, hc⟩ := mem_keys.1 (hl x (List.mem_cons_self ..))
          have hat := (at?_iff h.nodup).2 hc
          have h2 := hfix.exits x c hc
          have h0 : c ≠ ∅ := by
            rintro rfl
            simp at h2
          simp only [exitLoop, hat, hfix.loop x c hc, if_false, h0]
          rw [if_pos (by omega)]
          exact ih fun s hs => hl s (List.mem_cons_of_mem _ hs)
      rw [key g.keys fun s hs => hs] at this
      simpa using this.symm
    subst e2
    have e3 : g2.without g2.dead = g2 := by rw [hfix.dead, without_empty]
    have e4 : g4 = g2 := by
      rw [e3] at b5
      exact b5 hfix.entries
    subst e4
    exact e3

theorem reduceLoop_spec {U : Finset State} {pick : Finset State → State}
    {order : Finset State → List State} (hp : Picks U pick) (ho : Lists U order)
    (k : Nat) (g : ConGraph) (h : WF g) (hU : Keys U g) (hk : g.size ≤ k ∨ Fixed g) :
    ∃ g', reduceLoop pick order k g = some g' ∧ Follows g g' ∧ (g'.size = 0 ∨ Fixed g') ∧
      (Fixed g → g' = g) := by
  induction k generalizing g with
  | zero =>
    refine ⟨g, rfl, Follows.refl h, ?_, fun _ => rfl⟩
    rcases hk with hk | hk
    · exact Or.inl (by omega)
    · exact Or.inr hk
  | succ k ih =>
    by_cases hg : g = []
    · refine ⟨g, by simp [reduceLoop, hg], Follows.refl h, Or.inl ?_, fun _ => rfl⟩
      rw [hg]
      rfl
    · obtain ⟨g1, h1, f1, d1, e1⟩ := pass_spec hp ho g h hU
      obtain ⟨g', h2, f2, d2, e2⟩ := ih g1 f1.wf (f1.keysIn hU) (by
        by_cases hfix : Fixed g
        · right
          rw [e1 hfix]
          exact hfix
        · rcases d1 with d1 | d1
          · left
            rcases hk with hk | hk
            · omega
            · exact absurd hk hfix
          · exact Or.inr d1)
      refine ⟨g', ?_, f1.trans f2, d2, ?_⟩
      · rw [reduceLoop, if_neg hg]
        simp only [pass, Option.bind_eq_some_iff] at h1 ⊢
        obtain ⟨a, ha, hb⟩ := h1
        exact ⟨a, ha, g1, hb, h2⟩
      · intro hfix
        have := e1 hfix
        subst this
        exact e2 hfix

theorem Fixed.filter {g : ConGraph} (h : Fixed g) : g.filter (fun e => e.2 ≠ ∅) = g := by
  rw [List.filter_eq_self]
  rintro ⟨s, d⟩ hd
  have := h.exits s d hd
  simp only [ne_eq, decide_not, Bool.not_eq_true', decide_eq_false_iff_not]
  rintro rfl
  simp at this

theorem filter_of_size_zero {g : ConGraph} (h : g.size = 0) :
    g.filter (fun e => e.2 ≠ ∅) = [] := by
  rw [List.filter_eq_nil_iff]
  rintro ⟨s, d⟩ hd
  have := size_ge hd
  simp only [ne_eq, decide_not, Bool.not_eq_true', decide_eq_false_iff_not, not_not]
  exact Finset.card_eq_zero.1 (by omega)

theorem follows_nil (g : ConGraph) : Follows g [] where
  wf := ⟨List.nodup_nil, by rintro s t ⟨c, h, -⟩; simp at h⟩
  keys := by simp [keys]
  live := by rintro s ⟨t, c, h, -⟩; simp at h
  path := by rintro s t ⟨c, h, -⟩; simp at h
  reach := by rintro s t ⟨u, c, h, -⟩; simp at h

theorem fixed_nil : Fixed [] := ⟨by simp, by simp, by simp [keys]⟩

theorem reduce_spec {U : Finset State} {pick : Finset State → State}
    {order : Finset State → List State} (hp : Picks U pick) (ho : Lists U order)
    (k : Nat) (g : ConGraph) (h : WF g) (hU : Keys U g) (hk : g.size ≤ k) :
    ∃ g', reduce pick order k g = some g' ∧ Follows g g' ∧ Fixed g' ∧ (Fixed g → g' = g) := by
  obtain ⟨g1, h1, f1, d1, e1⟩ := reduceLoop_spec hp ho k g h hU (Or.inl hk)
  rcases d1 with d1 | d1
  · refine ⟨[], ?_, follows_nil g, fixed_nil, ?_⟩
    · rw [reduce, h1, Option.map_some, filter_of_size_zero d1]
    · intro hfix
      have := e1 hfix
      subst this
      have := filter_of_size_zero d1
      rw [hfix.filter] at this
      exact this.symm
  · exact ⟨g1, by rw [reduce, h1, Option.map_some, d1.filter], f1, d1, e1⟩

theorem Fixed.live {g : ConGraph} (h : Fixed g) {s : State} (hs : s ∈ g.keys) : g.Live s := by
  obtain ⟨d, hd⟩ := mem_keys.1 hs
  have := h.exits s d hd
  obtain ⟨t, ht⟩ := Finset.card_pos.1 (show 0 < d.card by omega)
  exact ⟨t, d, hd, ht⟩

/-! ## Only sets with one element are popped -/

theorem exitLoop_pick {U : Finset State} {pick pick' : Finset State → State} (hp : Picks U pick)
    (hp' : Picks U pick') (l : List State) (g : ConGraph) (h : WF g) (hU : Keys U g)
    (hl : ∀ s ∈ l, s ∈ g.keys) : exitLoop pick l g = exitLoop pick' l g := by
  induction l generalizing g with
  | nil => rfl
  | cons x l ih =>
    obtain ⟨c, hc⟩ := mem_keys.1 (hl x (List.mem_cons_self ..))
    have hl' : ∀ s ∈ l, s ∈ g.keys := fun s hs => hl s (List.mem_cons_of_mem _ hs)
    have hat := (at?_iff h.nodup).2 hc
    simp only [exitLoop, hat]
    by_cases hxc : x ∈ c
    · rw [if_pos hxc, if_pos hxc]
    · rw [if_neg hxc, if_neg hxc]
      by_cases hc0 : c = ∅
      · rw [if_pos hc0, if_pos hc0]
        exact ih g h hU hl'
      · rw [if_neg hc0, if_neg hc0]
        by_cases hc1 : 1 < c.card
        · rw [if_pos hc1, if_pos hc1]
          exact ih g h hU hl'
        · rw [if_neg hc1, if_neg hc1]
          have hpos : 0 < c.card := Finset.card_pos.2 (Finset.nonempty_iff_ne_empty.2 hc0)
          obtain ⟨e, rfl⟩ := Finset.card_eq_one.1 (show c.card = 1 by omega)
          have hek : e ∈ g.keys := h.closed x e ⟨_, hc, Finset.mem_singleton_self e⟩
          have hne : x ≠ e := by simpa using hxc
          rw [picks_singleton hp (hU e hek), picks_singleton hp' (hU e hek), bypass_eq h.nodup hc]
          have hf := bypass_follows h hc hne
          exact ih (g.bypass x e) hf.wf (hf.keysIn hU) (by rw [keys_bypass]; exact hl')

theorem entryRounds_pick {U : Finset State} {pick pick' : Finset State → State}
    {order : Finset State → List State} (hp : Picks U pick) (hp' : Picks U pick')
    (ho : Lists U order) (k : Nat) (g : ConGraph) (h : WF g) (hU : Keys U g) :
    entryRounds pick order k g = entryRounds pick' order k g := by
  induction k generalizing g with
  | zero => rfl
  | succ k ih =>
    have hord := ho g.keys.toFinset (fun s hs => hU s (List.mem_toFinset.1 hs))
    simp only [entryRounds]
    cases hf : (order g.keys.toFinset).find? fun dst => (g.entriesOf dst).card = 1 with
    | none => rfl
    | some x =>
      have hxk : x ∈ g.keys := List.mem_toFinset.1 ((hord.2 x).1 (List.mem_of_find?_eq_some hf))
      have hx1 : (g.entriesOf x).card = 1 := by simpa using List.find?_some hf
      obtain ⟨y, hy⟩ := Finset.card_eq_one.1 hx1
      obtain ⟨outs, hx⟩ := mem_keys.1 hxk
      have hfol := absorb_follows h hx (y := y) (by
        intro s
        rw [← mem_entriesOf, hy, Finset.mem_singleton])
      simp only
      rw [merge_eq hp h hU hx hy, merge_eq hp' h hU hx hy, Option.bind_some, Option.bind_some]
      exact ih _ hfol.wf (hfol.keysIn hU)

theorem pass_pick {U : Finset State} {pick pick' : Finset State → State}
    {order : Finset State → List State} (hp : Picks U pick) (hp' : Picks U pick')
    (ho : Lists U order) (g : ConGraph) (h : WF g) (hU : Keys U g) :
    pass pick order g = pass pick' order g := by
  have f1 := cutReflexive_follows h
  have u1 := f1.keysIn hU
  obtain ⟨g2, a1, f2, -⟩ := exitLoop_spec hp g.cutReflexive.keys g.cutReflexive f1.wf u1
    (fun s hs => hs)
  have a1' := exitLoop_pick hp hp' g.cutReflexive.keys g.cutReflexive f1.wf u1 (fun s hs => hs)
  have u2 := f2.keysIn u1
  have f3 := purge_follows f2.wf
  have p2 := purge_eq ho f2.wf.nodup u2
  have u3 := f3.keysIn u2
  have b1 := entryRounds_pick hp hp' ho (g2.without g2.dead).length _ f3.wf u3
  simp only [pass, inlineSingleExit, inlineSingleEntry, ← a1', a1, Option.bind_some, p2, b1]

theorem reduceLoop_pick {U : Finset State} {pick pick' : Finset State → State}
    {order : Finset State → List State} (hp : Picks U pick) (hp' : Picks U pick')
    (ho : Lists U order) (k : Nat) (g : ConGraph) (h : WF g) (hU : Keys U g) :
    reduceLoop pick order k g = reduceLoop pick' order k g := by
  have hpass : ∀ (pk : Finset State → State) k (g : ConGraph), g ≠ [] →
      reduceLoop pk order (k + 1) g = (pass pk order g).bind (reduceLoop pk order k) := by
    intro pk k g hg
    rw [reduceLoop, if_neg hg, pass, Option.bind_assoc]
  induction k generalizing g with
  | zero => rfl
  | succ k ih =>
    by_cases hg : g = []
    · simp [reduceLoop, hg]
    · obtain ⟨g1, h1, f1, -⟩ := pass_spec hp ho g h hU
      rw [hpass pick k g hg, hpass pick' k g hg, ← pass_pick hp hp' ho g h hU, h1,
        Option.bind_some, Option.bind_some]
      exact ih g1 f1.wf (f1.keysIn hU)

end ConGraph

/-! ## The graph of a program -/

theorem getD_row {a : Arrows} {s : State} (h : s < a.length) : a.getD s [] = a[s] := by
  simp [List.getD, h]

theorem Arrows.mem_conGraph {a : Arrows} {s : State} {c : Finset State} :
    (s, c) ∈ a.conGraph ↔ ∃ row, a[s]? = some row ∧ c = targets row := by
  simp only [Arrows.conGraph, List.mem_map, List.mem_range, Prod.mk.injEq]
  constructor
  · rintro ⟨x, hx, rfl, rfl⟩
    refine ⟨a[x], by rw [List.getElem?_eq_getElem hx], ?_⟩
    rw [getD_row hx]
  · rintro ⟨row, h, rfl⟩
    obtain ⟨hs, rfl⟩ := List.getElem?_eq_some_iff.1 h
    exact ⟨s, hs, rfl, by rw [getD_row hs]⟩

theorem Arrows.keys_conGraph (a : Arrows) : a.conGraph.keys = List.range a.length := by
  simp [Arrows.conGraph, ConGraph.keys, Function.comp_def]

theorem Arrows.arrow_conGraph {a : Arrows} {s t : State} :
    a.conGraph.Arrow s t ↔ a.Edge s t := by
  constructor
  · rintro ⟨c, h1, h2⟩
    obtain ⟨row, h3, rfl⟩ := Arrows.mem_conGraph.1 h1
    exact ⟨row, h3, (mem_targets _ _).1 h2⟩
  · rintro ⟨row, h1, h2⟩
    exact ⟨_, Arrows.mem_conGraph.2 ⟨row, h1, rfl⟩, (mem_targets _ _).2 h2⟩

theorem targets_card_le (row : List (Option State)) : (targets row).card ≤ row.length :=
  (List.toFinset_card_le _).trans (List.length_filterMap_le _ _)

theorem Arrows.size_conGraph {a : Arrows} {C : Nat} (h : ∀ row ∈ a, row.length = C) :
    a.conGraph.size ≤ a.length * C := by
  have e : a.conGraph.size = (a.map fun row => (targets row).card).sum := by
    simp only [ConGraph.size, Arrows.conGraph, List.map_map]
    congr 1
    apply List.ext_getElem
    · simp
    · intro i h1 h2
      have hi : i < a.length := by simpa using h2
      simp only [List.getElem_map, List.getElem_range, Function.comp]
      rw [getD_row hi]
  rw [e]
  clear e
  induction a with
  | nil => simp
  | cons row a ih =>
    have h1 := targets_card_le row
    have h2 := h row (List.mem_cons_self ..)
    have h3 := ih fun r hr => h r (List.mem_cons_of_mem _ hr)
    simp only [List.map_cons, List.sum_cons, List.length_cons, Nat.succ_mul]
    omega

end BB
