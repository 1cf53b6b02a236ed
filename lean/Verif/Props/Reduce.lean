import Verif.Lemmas.Reduce
import Verif.Props.Graph

/-!
# C50, C51: the reduced graph of a program

`Graph.reduced`, `Graph.is_simple`.  The order in which Python iterates a set (`order`) and the
element `set.pop` takes (`pick`) are arbitrary.
-/

namespace BB

open Relation ConGraph

/-- Some instruction of state `s` goes to state `d`. -/
def Leads (rows : List (List (Option Instr))) (s d : State) : Prop :=
  ∃ row i, rows[s]? = some row ∧ some i ∈ row ∧ i.2.2 = d

/-- `C` instructions or empty slots for each state; the states instructions go to have rows. -/
structure Grid (rows : List (List (Option Instr))) (C : Nat) : Prop where
  nonempty : rows ≠ []
  width : ∀ row ∈ rows, row.length = C
  inside : ∀ s d, Leads rows s d → d < rows.length

theorem edge_arrowsOf {rows : List (List (Option Instr))} {a b : State} :
    (arrowsOf rows).Edge a b ↔ Leads rows a b := by
  simp only [Arrows.Edge, Leads, arrowsOf, List.getElem?_map, Option.map_eq_some_iff]
  constructor
  · rintro ⟨_, ⟨row, h1, rfl⟩, h2⟩
    obtain ⟨oi, h3, h4⟩ := List.mem_map.1 h2
    obtain ⟨i, rfl, h5⟩ := Option.map_eq_some_iff.1 h4
    exact ⟨row, i, h1, h3, h5⟩
  · rintro ⟨row, i, h1, h2, h3⟩
    exact ⟨_, ⟨row, h1, rfl⟩, List.mem_map.2 ⟨some i, h2, by simp [h3]⟩⟩

theorem conGraph_arrow {rows : List (List (Option Instr))} {s t : State} :
    (arrowsOf rows).conGraph.Arrow s t ↔ Leads rows s t := by
  rw [Arrows.arrow_conGraph, edge_arrowsOf]

theorem length_arrowsOf (rows : List (List (Option Instr))) :
    (arrowsOf rows).length = rows.length := by simp [arrowsOf]

theorem Grid.wf {rows : List (List (Option Instr))} {C : Nat} (h : Grid rows C) :
    WF (arrowsOf rows).conGraph := by
  refine ⟨by rw [Arrows.keys_conGraph]; exact List.nodup_range, ?_⟩
  intro s t ht
  rw [Arrows.keys_conGraph, List.mem_range, length_arrowsOf]
  exact h.inside s t (conGraph_arrow.1 ht)

theorem Grid.spec {rows : List (List (Option Instr))} {C : Nat} (h : Grid rows C)
    {pick : Finset State → State} {order : Finset State → List State}
    (hp : Picks (Finset.range rows.length) pick) (ho : Lists (Finset.range rows.length) order) :
    ∃ R, (arrowsOf rows).reduced pick order = some R ∧ Follows (arrowsOf rows).conGraph R ∧
      Fixed R ∧ (Fixed (arrowsOf rows).conGraph → R = (arrowsOf rows).conGraph) := by
  have hw : ∀ row ∈ arrowsOf rows, row.length = C := by
    intro row hrow
    obtain ⟨r, hr, rfl⟩ := List.mem_map.1 hrow
    rw [List.length_map, h.width r hr]
  have hsz := Arrows.size_conGraph hw
  have hk : Keys (Finset.range rows.length) (arrowsOf rows).conGraph := by
    intro s hs
    rw [Arrows.keys_conGraph, List.mem_range, length_arrowsOf] at hs
    exact Finset.mem_range.2 hs
  have hne : arrowsOf rows ≠ [] := by
    intro e
    have := length_arrowsOf rows
    rw [e] at this
    exact h.nonempty (List.length_eq_zero_iff.1 this.symm)
  obtain ⟨row, rest, e⟩ := List.exists_cons_of_ne_nil hne
  have hrow : row.length = C := hw row (by rw [e]; exact List.mem_cons_self ..)
  obtain ⟨R, h1, h2⟩ := reduce_spec hp ho ((arrowsOf rows).length * C) _ h.wf hk hsz
  refine ⟨R, ?_, h2⟩
  rw [← h1, e]
  simp only [Arrows.reduced]
  rw [hrow]

/-- **C50, the reduced graph.**  No exception is raised.  What is left is a graph on states of the
program in which every state has at least two exits, none of them itself and all of them left, and
never exactly one entry.  Every arrow of it is a path of instructions in the program, and where the
program has a path of instructions between two of the states left there is still one. -/
theorem C50_reduced (rows : List (List (Option Instr))) (C : Nat) (h : Grid rows C)
    (pick : Finset State → State) (order : Finset State → List State)
    (hp : ∀ F ⊆ Finset.range rows.length, F.Nonempty → pick F ∈ F)
    (ho : ∀ F ⊆ Finset.range rows.length, (order F).Nodup ∧ ∀ x, x ∈ order F ↔ x ∈ F) :
    ∃ R : List (State × Finset State), (arrowsOf rows).reduced pick order = some R ∧
      (R.map Prod.fst).Nodup ∧
      (∀ s d, (s, d) ∈ R → s < rows.length ∧ s ∉ d ∧ 2 ≤ d.card ∧
        (∀ t ∈ d, t ∈ R.map Prod.fst) ∧ ¬ ∃! u, ∃ c, (u, c) ∈ R ∧ s ∈ c) ∧
      (∀ s d t, (s, d) ∈ R → t ∈ d → TransGen (Leads rows) s t) ∧
      (∀ s ∈ R.map Prod.fst, ∀ t ∈ R.map Prod.fst, ReflTransGen (Leads rows) s t →
        ReflTransGen (fun a b => ∃ c, (a, c) ∈ R ∧ b ∈ c) s t) := by
  obtain ⟨R, h1, h2, h3, -⟩ := h.spec hp ho
  have harr : (arrowsOf rows).conGraph.Arrow = Leads rows := by
    funext a b
    exact propext conGraph_arrow
  refine ⟨R, h1, h2.wf.nodup, ?_, ?_, ?_⟩
  · intro s d hd
    have hs : s ∈ R.keys := mem_keys.2 ⟨d, hd⟩
    refine ⟨?_, h3.loop s d hd, h3.exits s d hd, ?_, ?_⟩
    · have := h2.keys s hs
      rw [Arrows.keys_conGraph, List.mem_range, length_arrowsOf] at this
      exact this
    · intro t ht
      exact h2.wf.closed s t ⟨d, hd, ht⟩
    · rintro ⟨u, hu, huniq⟩
      apply h3.entries s hs
      rw [Finset.card_eq_one]
      refine ⟨u, ?_⟩
      ext v
      rw [mem_entriesOf, Finset.mem_singleton]
      constructor
      · intro hv
        exact huniq v hv
      · rintro rfl
        exact hu
  · intro s d t hd ht
    have := h2.path s t ⟨d, hd, ht⟩
    rw [harr] at this
    exact this
  · intro s hs t ht hr
    refine h2.reach s t (h3.live hs) (h3.live ht) ?_
    rw [harr]
    exact hr

/-- In a graph on finitely many states where every state has two exits other than itself, some
three states lead to each other. -/
theorem three_mutual {R : ConGraph} (hwf : WF R) (hf : Fixed R) (hne : R ≠ []) :
    ∃ s t u, s ∈ R.keys ∧ t ∈ R.keys ∧ u ∈ R.keys ∧ s ≠ t ∧ t ≠ u ∧ s ≠ u ∧
      R.Arrow s t ∧ R.Arrow s u ∧ ReflTransGen R.Arrow t s ∧ ReflTransGen R.Arrow u s := by
  classical
  let reach : State → Finset State := fun s =>
    R.keys.toFinset.filter fun t => ReflTransGen R.Arrow s t
  have hk : R.keys.toFinset.Nonempty := by
    obtain ⟨e, rest, rfl⟩ := List.exists_cons_of_ne_nil hne
    exact ⟨e.1, by simp [keys]⟩
  obtain ⟨s, hs, hmin⟩ := Finset.exists_min_image R.keys.toFinset (fun s => (reach s).card) hk
  rw [List.mem_toFinset] at hs
  obtain ⟨d, hd⟩ := mem_keys.1 hs
  obtain ⟨t, ht, u, hu, htu⟩ := Finset.one_lt_card.1 (show 1 < d.card from hf.exits s d hd)
  have hback : ∀ v ∈ d, ReflTransGen R.Arrow v s := by
    intro v hv
    have ha : R.Arrow s v := ⟨d, hd, hv⟩
    have hsub : reach v ⊆ reach s := by
      intro w hw
      simp only [reach, Finset.mem_filter] at hw ⊢
      exact ⟨hw.1, .head ha hw.2⟩
    have heq := Finset.eq_of_subset_of_card_le hsub
      (hmin v (List.mem_toFinset.2 (hwf.closed s v ha)))
    have : s ∈ reach v := by
      rw [heq]
      simp only [reach, Finset.mem_filter]
      exact ⟨List.mem_toFinset.2 hs, .refl⟩
    simp only [reach, Finset.mem_filter] at this
    exact this.2
  have hns := hf.loop s d hd
  refine ⟨s, t, u, hs, hwf.closed s t ⟨d, hd, ht⟩, hwf.closed s u ⟨d, hd, hu⟩, ?_, htu, ?_,
    ⟨d, hd, ht⟩, ⟨d, hd, hu⟩, hback t ht, hback u hu⟩
  · rintro rfl
    exact hns ht
  · rintro rfl
    exact hns hu

theorem reflTransGen_of_path {g g' : ConGraph} (h : Follows g g') {s t : State}
    (hr : ReflTransGen g'.Arrow s t) : ReflTransGen g.Arrow s t := by
  induction hr with
  | refl => exact .refl
  | tail _ h1 ih => exact ih.trans (h.path _ _ h1).to_reflTransGen

/-- **C50, simple programs.**  `is_simple` raises nothing; if it is false, three different states of
the program lead to each other along instructions. -/
theorem C50_not_simple (rows : List (List (Option Instr))) (C : Nat) (h : Grid rows C)
    (pick : Finset State → State) (order : Finset State → List State)
    (hp : ∀ F ⊆ Finset.range rows.length, F.Nonempty → pick F ∈ F)
    (ho : ∀ F ⊆ Finset.range rows.length, (order F).Nodup ∧ ∀ x, x ∈ order F ↔ x ∈ F) :
    ∃ b, (arrowsOf rows).isSimple pick order = some b ∧
      (b = false → ∃ s t u, s < rows.length ∧ t < rows.length ∧ u < rows.length ∧
        s ≠ t ∧ t ≠ u ∧ s ≠ u ∧ TransGen (Leads rows) s t ∧ TransGen (Leads rows) t u ∧
        TransGen (Leads rows) u s) := by
  obtain ⟨R, h1, h2, h3, -⟩ := h.spec hp ho
  refine ⟨R.isEmpty, by rw [Arrows.isSimple, h1, Option.map_some], ?_⟩
  intro hb
  obtain ⟨s, t, u, hs, ht, hu, a1, a2, a3, b1, b2, b3, b4⟩ := three_mutual h2.wf h3
    (by rintro rfl; simp at hb)
  have hlt : ∀ x, x ∈ R.keys → x < rows.length := by
    intro x hx
    have := h2.keys x hx
    rw [Arrows.keys_conGraph, List.mem_range, length_arrowsOf] at this
    exact this
  have harr : (arrowsOf rows).conGraph.Arrow = Leads rows := by
    funext a b
    exact propext conGraph_arrow
  have p1 := h2.path s t b1
  have p2 := h2.path s u b2
  have p3 := reflTransGen_of_path h2 b3
  have p4 := reflTransGen_of_path h2 b4
  rw [harr] at p1 p2 p3 p4
  refine ⟨s, t, u, hlt s hs, hlt t ht, hlt u hu, a1, a2, a3, p1, TransGen.trans_right p3 p2, ?_⟩
  rcases reflTransGen_iff_eq_or_transGen.1 p4 with e | p4
  · exact absurd e a3
  · exact p4

/-- **C50, two states are simple.** -/
theorem C50_two_states (rows : List (List (Option Instr))) (C : Nat) (h : Grid rows C)
    (h2 : rows.length ≤ 2)
    (pick : Finset State → State) (order : Finset State → List State)
    (hp : ∀ F ⊆ Finset.range rows.length, F.Nonempty → pick F ∈ F)
    (ho : ∀ F ⊆ Finset.range rows.length, (order F).Nodup ∧ ∀ x, x ∈ order F ↔ x ∈ F) :
    (arrowsOf rows).isSimple pick order = some true := by
  obtain ⟨b, h1, h3⟩ := C50_not_simple rows C h pick order hp ho
  cases b with
  | true => exact h1
  | false =>
    obtain ⟨s, t, u, hs, ht, hu, a1, a2, a3, -⟩ := h3 rfl
    unfold State at *
    omega

/-- **C50, programs without round trips are simple:** if no two different states lead to each other
along instructions, `is_simple` is true. -/
theorem C50_one_way (rows : List (List (Option Instr))) (C : Nat) (h : Grid rows C)
    (hw : ∀ s t, TransGen (Leads rows) s t → TransGen (Leads rows) t s → s = t)
    (pick : Finset State → State) (order : Finset State → List State)
    (hp : ∀ F ⊆ Finset.range rows.length, F.Nonempty → pick F ∈ F)
    (ho : ∀ F ⊆ Finset.range rows.length, (order F).Nodup ∧ ∀ x, x ∈ order F ↔ x ∈ F) :
    (arrowsOf rows).isSimple pick order = some true := by
  obtain ⟨b, h1, h3⟩ := C50_not_simple rows C h pick order hp ho
  cases b with
  | true => exact h1
  | false =>
    obtain ⟨s, t, u, hs, ht, hu, a1, a2, a3, b1, b2, b3⟩ := h3 rfl
    exact absurd (hw s t b1 (b2.trans b3)) a1

theorem dispersed_fixed {rows : List (List (Option Instr))} {C : Nat} (h : Grid rows C)
    (hC : 2 ≤ C) (order : Finset State → List State)
    (ho : ∀ F, (order F).Nodup ∧ ∀ x, x ∈ order F ↔ x ∈ F)
    (hd : (arrowsOf rows).isDispersed order = some true)
    (hi : (arrowsOf rows).isIrreflexive = true) : Fixed (arrowsOf rows).conGraph := by
  have hhead : ((arrowsOf rows).headD []).length = C := by
    obtain ⟨row, rest, e⟩ := List.exists_cons_of_ne_nil h.nonempty
    have := h.width row (by rw [e]; exact List.mem_cons_self ..)
    rw [e]
    simp [arrowsOf, this]
  obtain ⟨en, e1, e2, e3⟩ := C29_converse order (fun F => (ho F).2) rows (by
    intro row hrow i hi
    obtain ⟨n, hn, rfl⟩ := List.getElem_of_mem hrow
    exact h.inside n _ ⟨rows[n], i, by rw [List.getElem?_eq_getElem hn], hi, rfl⟩)
  simp only [Arrows.isDispersed, Arrows.entriesDispersed, e1, Option.map_some, hhead,
    Option.some.injEq, Bool.and_eq_true, List.all_eq_true, beq_iff_eq, Arrows.exitsDispersed] at hd
  refine ⟨?_, ?_, ?_⟩
  · intro s d hsd hs
    obtain ⟨row, r1, rfl⟩ := Arrows.mem_conGraph.1 hsd
    have hlt := (List.getElem?_eq_some_iff.1 r1).1
    have : s ∈ (arrowsOf rows).reflexiveStates := by
      simp only [Arrows.reflexiveStates, List.mem_filter, List.mem_range]
      refine ⟨hlt, ?_⟩
      rw [getD_row hlt, (List.getElem?_eq_some_iff.1 r1).2]
      simpa using (mem_targets _ _).1 hs
    simp only [Arrows.isIrreflexive, List.isEmpty_iff] at hi
    rw [hi] at this
    simp at this
  · intro s d hsd
    obtain ⟨row, r1, rfl⟩ := Arrows.mem_conGraph.1 hsd
    rw [hd.2 row (List.mem_of_getElem? r1)]
    exact hC
  · intro s hs
    rw [Arrows.keys_conGraph, List.mem_range, length_arrowsOf] at hs
    have hlt : s < en.length := by rw [e2]; exact hs
    have hcard := hd.1 en[s] (List.getElem_mem hlt)
    have : (arrowsOf rows).conGraph.entriesOf s = en[s] := by
      ext x
      rw [mem_entriesOf, conGraph_arrow]
      have := (e3 x s).1
      rw [List.getElem?_eq_getElem hlt] at this
      simp only [Option.some.injEq, exists_eq_left'] at this
      exact this.symm
    rw [this, hcard]
    omega

/-- **C50, dispersed programs.**  With at least two colours, a program that `is_dispersed` and
`is_irreflexive` is its own reduced graph: all states are left. -/
theorem C50_dispersed (rows : List (List (Option Instr))) (C : Nat) (h : Grid rows C) (hC : 2 ≤ C)
    (pick : Finset State → State) (order : Finset State → List State)
    (hp : ∀ F ⊆ Finset.range rows.length, F.Nonempty → pick F ∈ F)
    (ho : ∀ F, (order F).Nodup ∧ ∀ x, x ∈ order F ↔ x ∈ F)
    (hd : (arrowsOf rows).isDispersed order = some true)
    (hi : (arrowsOf rows).isIrreflexive = true) :
    ∃ R : List (State × Finset State), (arrowsOf rows).reduced pick order = some R ∧
      R.map Prod.fst = List.range rows.length ∧
      (∀ s t, (∃ d, (s, d) ∈ R ∧ t ∈ d) ↔ Leads rows s t) ∧
      (arrowsOf rows).isSimple pick order = some false := by
  obtain ⟨R, h1, h2, h3, h4⟩ := h.spec hp fun F _ => ho F
  have hfix := dispersed_fixed h hC order ho hd hi
  have hR := h4 hfix
  subst hR
  refine ⟨_, h1, ?_, ?_, ?_⟩
  · have := Arrows.keys_conGraph (arrowsOf rows)
    rw [length_arrowsOf] at this
    exact this
  · intro s t
    exact conGraph_arrow
  · rw [Arrows.isSimple, h1, Option.map_some]
    obtain ⟨row, rest, e⟩ := List.exists_cons_of_ne_nil h.nonempty
    simp [Arrows.conGraph, arrowsOf, e]

/-! ## Cases -/

/-- Sets iterated upwards, as CPython does with small numbers. -/
def upTo (n : Nat) (F : Finset State) : List State := (List.range n).filter fun s => s ∈ F

/-- Sets iterated downwards. -/
def downTo (n : Nat) (F : Finset State) : List State := (upTo n F).reverse

/-- The smallest element. -/
def least (n : Nat) (F : Finset State) : State := (upTo n F).headD 0

theorem mem_upTo {n : Nat} {F : Finset State} (h : F ⊆ Finset.range n) {x : State} :
    x ∈ upTo n F ↔ x ∈ F := by
  simp only [upTo, List.mem_filter, List.mem_range, decide_eq_true_eq, and_iff_right_iff_imp]
  intro hx
  exact Finset.mem_range.1 (h hx)

theorem upTo_lists (n : Nat) :
    ∀ F ⊆ Finset.range n, (upTo n F).Nodup ∧ ∀ x, x ∈ upTo n F ↔ x ∈ F :=
  fun _ h => ⟨List.nodup_range.filter _, fun _ => mem_upTo h⟩

theorem downTo_lists (n : Nat) :
    ∀ F ⊆ Finset.range n, (downTo n F).Nodup ∧ ∀ x, x ∈ downTo n F ↔ x ∈ F :=
  fun _ h => ⟨List.nodup_reverse.2 (List.nodup_range.filter _), fun x => by
    rw [downTo, List.mem_reverse, mem_upTo h]⟩

theorem least_mem (n : Nat) : ∀ F ⊆ Finset.range n, F.Nonempty → least n F ∈ F := by
  rintro F h ⟨x, hx⟩
  have hx' := (mem_upTo h).2 hx
  cases e : upTo n F with
  | nil => rw [e] at hx'; simp at hx'
  | cons y l =>
    rw [least, e]
    exact (mem_upTo h).1 (by rw [e]; exact List.mem_cons_self ..)

/-- Rows with given targets. -/
def toRows (w : List (List State)) : List (List (Option Instr)) :=
  w.map fun row => row.map fun t => some (1, true, t)

/-- An instruction for each slot going to one of the states: a `Grid`. -/
theorem grid_toRows {w : List (List State)} {C : Nat} (h0 : w ≠ [])
    (h : ∀ row ∈ w, row.length = C ∧ ∀ t ∈ row, t < w.length) : Grid (toRows w) C where
  nonempty := by simpa [toRows] using h0
  width := by
    intro row hrow
    obtain ⟨r, hr, rfl⟩ := List.mem_map.1 hrow
    simpa using (h r hr).1
  inside := by
    rintro s d ⟨row, i, h1, h2, rfl⟩
    obtain ⟨r, hr, rfl⟩ := List.mem_map.1 (List.mem_of_getElem? h1)
    obtain ⟨t, ht, e⟩ := List.mem_map.1 h2
    simp only [Option.some.injEq] at e
    rw [← e]
    simpa [toRows] using (h r hr).2 t ht

/-- The five-state champion "1RB 1LC  1RC 1RB  1RD 0LE  1LA 1LD  1R_ 0LA": simple.  And a program
whose five states are spaghetti: every state keeps its two exits; and one with a kernel of three. -/
theorem C50_cases :
    (arrowsOf [[some (1, true, 1), some (1, false, 2)], [some (1, true, 2), some (1, true, 1)],
      [some (1, true, 3), some (0, false, 4)], [some (1, false, 0), some (1, false, 3)],
      [none, some (0, false, 0)]]).isSimple (least 5) (upTo 5) = some true ∧
    (arrowsOf (toRows [[1, 2], [2, 3], [3, 4], [4, 0], [0, 1]])).isDispersed (upTo 5)
      = some true ∧
    ((arrowsOf (toRows [[1, 2], [2, 3], [3, 4], [4, 0], [0, 1]])).reduced (least 5)
      (upTo 5)).map List.length = some 5 ∧
    ((arrowsOf (toRows [[1, 2], [2, 3], [3, 1], [0, 1]])).reduced (least 4) (upTo 4)).map
      (List.map fun e => (e.1, upTo 4 e.2)) = some [(1, [2, 3]), (2, [1, 3]), (3, [1, 2])] := by
  decide +kernel

/-! ## C51: independence -/

/-- **C51, `set.pop`.**  Which element `set.pop` takes does not matter: only sets with one element
are popped. -/
theorem C51_pop (rows : List (List (Option Instr))) (C : Nat) (h : Grid rows C)
    (pick pick' : Finset State → State) (order : Finset State → List State)
    (hp : ∀ F ⊆ Finset.range rows.length, F.Nonempty → pick F ∈ F)
    (hp' : ∀ F ⊆ Finset.range rows.length, F.Nonempty → pick' F ∈ F)
    (ho : ∀ F ⊆ Finset.range rows.length, (order F).Nodup ∧ ∀ x, x ∈ order F ↔ x ∈ F) :
    (arrowsOf rows).reduced pick order = (arrowsOf rows).reduced pick' order := by
  have hk : Keys (Finset.range rows.length) (arrowsOf rows).conGraph := by
    intro s hs
    rw [Arrows.keys_conGraph, List.mem_range, length_arrowsOf] at hs
    exact Finset.mem_range.2 hs
  have key := fun k => reduceLoop_pick hp hp' ho k _ h.wf hk
  simp only [Arrows.reduced]
  split
  · rfl
  · next row rest _ =>
    rw [ConGraph.reduce, ConGraph.reduce, key]

/-- **C51, the part that holds.**  Iteration order does not matter for `is_simple` unless three
states lead to each other, nor for `reduced` if the program is dispersed and irreflexive. -/
theorem C51_order_partial (rows : List (List (Option Instr))) (C : Nat) (h : Grid rows C)
    (pick pick' : Finset State → State) (order order' : Finset State → List State)
    (hp : ∀ F ⊆ Finset.range rows.length, F.Nonempty → pick F ∈ F)
    (hp' : ∀ F ⊆ Finset.range rows.length, F.Nonempty → pick' F ∈ F)
    (ho : ∀ F, (order F).Nodup ∧ ∀ x, x ∈ order F ↔ x ∈ F)
    (ho' : ∀ F, (order' F).Nodup ∧ ∀ x, x ∈ order' F ↔ x ∈ F) :
    ((¬ ∃ s t u, s ≠ t ∧ t ≠ u ∧ s ≠ u ∧ TransGen (Leads rows) s t ∧ TransGen (Leads rows) t u ∧
        TransGen (Leads rows) u s) →
      (arrowsOf rows).isSimple pick order = some true ∧
      (arrowsOf rows).isSimple pick' order' = some true) ∧
    (2 ≤ C → (arrowsOf rows).isDispersed order = some true →
      (arrowsOf rows).isIrreflexive = true →
      (arrowsOf rows).reduced pick order = (arrowsOf rows).reduced pick' order') := by
  constructor
  · intro hno
    obtain ⟨b, h1, h3⟩ := C50_not_simple rows C h pick order hp fun F _ => ho F
    obtain ⟨b', h1', h3'⟩ := C50_not_simple rows C h pick' order' hp' fun F _ => ho' F
    constructor
    · cases b with
      | true => exact h1
      | false =>
        obtain ⟨s, t, u, -, -, -, a⟩ := h3 rfl
        exact absurd ⟨s, t, u, a⟩ hno
    · cases b' with
      | true => exact h1'
      | false =>
        obtain ⟨s, t, u, -, -, -, a⟩ := h3' rfl
        exact absurd ⟨s, t, u, a⟩ hno
  · intro hC hd hi
    have hfix := dispersed_fixed h hC order ho hd hi
    obtain ⟨R, h1, -, -, h4⟩ := h.spec hp fun F _ => ho F
    obtain ⟨R', h1', -, -, h4'⟩ := h.spec hp' fun F _ => ho' F
    rw [h1, h1', h4 hfix, h4' hfix]

/-! ## Where it fails -/

/-- Eight states, three colours; every state is reached from the first. -/
def tangle : List (List State) :=
  [[1, 1, 1], [2, 3, 3], [1, 1, 1], [6, 4, 5], [6, 6, 7], [6, 7, 6], [7, 5, 7], [6, 6, 4]]

/-- **The result depends on the order in which Python iterates a set of states:** iterated one way
the program is simple, iterated the other way it is not. -/
theorem C51_violation_order :
    Grid (toRows tangle) 3 ∧
    (arrowsOf (toRows tangle)).isSimple (least 8) (upTo 8) = some false ∧
    (arrowsOf (toRows tangle)).isSimple (least 8) (downTo 8) = some true :=
  ⟨grid_toRows (by decide) (by decide), by decide +kernel, by decide +kernel⟩

/-- New names for the eight states. -/
def newNames : List State := [0, 2, 7, 1, 6, 5, 4, 3]

/-- The same program with the new names. -/
def tangle' : List (List State) :=
  [[2, 2, 2], [4, 6, 5], [7, 1, 1], [4, 4, 6], [3, 5, 3], [4, 3, 4], [4, 4, 3], [2, 2, 2]]

/-- **The result depends on the names of the states,** even if sets are iterated upwards as CPython
does with small numbers: two programs that differ by names only (A keeps its name), one of them
simple and the other not. -/
theorem C51_violation_names :
    newNames.Perm (List.range 8) ∧ newNames[0]? = some 0 ∧
    (∀ s < 8, tangle'.getD (newNames.getD s 0) [] =
      (tangle.getD s []).map fun t => newNames.getD t 0) ∧
    (arrowsOf (toRows tangle)).isSimple (least 8) (upTo 8) = some false ∧
    (arrowsOf (toRows tangle')).isSimple (least 8) (upTo 8) = some true :=
  ⟨by decide, rfl, by decide, by decide +kernel, by decide +kernel⟩

end BB
