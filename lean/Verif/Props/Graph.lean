import Verif.Lemmas.Graph

/-!
# C28 (is_connected decides reachability), C29 (entry and exit points)
-/

namespace BB

/-- Some instruction of state `a` goes to state `b`. -/
def Table.Goes (t : Table) (a b : State) : Prop := ∃ c i, t.get? (a, c) = some i ∧ i.2.2 = b

/-- Following arrows, loops from a state to itself can be left out. -/
theorem transGen_proper {α : Type} (E : α → α → Prop) {a b : α} (hab : a ≠ b) :
    Relation.TransGen E a b ↔ Relation.TransGen (fun x y => x ≠ y ∧ E x y) a b := by
  constructor
  · intro h
    have : ∀ x, Relation.TransGen E a x →
        x = a ∨ Relation.TransGen (fun x y => x ≠ y ∧ E x y) a x := by
      intro x hx
      induction hx with
      | @single y h =>
        by_cases hy : y = a
        · exact .inl hy
        · exact .inr (.single ⟨fun e => hy e.symm, h⟩)
      | @tail y z _ hyz ih =>
        by_cases hz : y = z
        · subst hz; exact ih
        · rcases ih with hya | ih
          · subst hya
            exact .inr (.single ⟨hz, hyz⟩)
          · exact .inr (ih.tail ⟨hz, hyz⟩)
    rcases this b h with h' | h'
    · exact absurd h'.symm hab
    · exact h'
  · intro h
    exact Relation.TransGen.mono (r := fun x y => x ≠ y ∧ E x y) (p := E)
      (fun _ _ h' => h'.2) a b h

theorem exits_iff_goes {t : Table} (ht : t.Sorted) (a b : State) :
    b ∈ t.exits a ↔ a ≠ b ∧ t.Goes a b := by
  rw [mem_exits]
  constructor
  · rintro ⟨h1, ⟨⟨s, c⟩, i⟩, he, h2, h3⟩
    simp only at h2 h3
    subst h2
    exact ⟨h1, c, i, Table.get?_of_mem ht he, h3⟩
  · rintro ⟨h1, c, i, h2, h3⟩
    exact ⟨h1, _, Table.get?_mem h2, rfl, h3⟩

/-- **C28, Rust.**  For a program whose states all lie below `states`, `is_connected` does not
panic, and says `true` exactly when each state has an exit to another state and state 0 can be
reached from the last one. -/
theorem C28_rust (t : Table) (states : Nat) (ht : t.Sorted) (hpos : 1 ≤ states)
    (hin : ∀ s c i, t.get? (s, c) = some i → s < states ∧ i.2.2 < states) :
    ∃ r, t.isConnected states = some r ∧
      (r = true ↔ (∀ a < states, ∃ b, a ≠ b ∧ t.Goes a b) ∧
        Relation.TransGen t.Goes (states - 1) 0) := by
  have hE : ∀ a b, b ∈ t.exits a → b < states := by
    intro a b hb
    obtain ⟨-, c, i, h2, h3⟩ := (exits_iff_goes ht a b).1 hb
    rw [← h3]
    exact (hin _ _ _ h2).2
  have hkeys : ∀ a, a ∈ t.exitKeys → a < states := by
    intro a ha
    obtain ⟨b, hb⟩ := (mem_exitKeys t a).1 ha
    obtain ⟨-, c, i, h2, -⟩ := (exits_iff_goes ht a b).1 hb
    exact (hin _ _ _ h2).1
  have hnd : t.exitKeys.Nodup := (exitKeys_sorted t).imp (fun h => Nat.ne_of_lt h)
  simp only [Table.isConnected]
  by_cases hlen : t.exitKeys.length < states
  · refine ⟨false, by simp [hlen], ?_⟩
    simp only [Bool.false_eq_true, false_iff, not_and]
    intro hall
    exfalso
    have : Finset.range states ⊆ t.exitKeys.toFinset := by
      intro a ha
      obtain ⟨b, hb⟩ := hall a (Finset.mem_range.1 ha)
      exact List.mem_toFinset.2 ((mem_exitKeys t a).2 ⟨b, (exits_iff_goes ht a b).2 hb⟩)
    have := Finset.card_le_card this
    rw [Finset.card_range, List.toFinset_card_of_nodup hnd] at this
    omega
  · have hall : ∀ a < states, ∃ b, b ∈ t.exits a := by
      intro a ha
      have hsub : t.exitKeys.toFinset ⊆ Finset.range states := fun x hx =>
        Finset.mem_range.2 (hkeys x (List.mem_toFinset.1 hx))
      have heq := Finset.eq_of_subset_of_card_le hsub (by
        rw [Finset.card_range, List.toFinset_card_of_nodup hnd]
        omega)
      have : a ∈ t.exitKeys.toFinset := by rw [heq]; exact Finset.mem_range.2 ha
      exact (mem_exitKeys t a).1 (List.mem_toFinset.1 this)
    have h0 : states ≠ 0 := by omega
    simp only [hlen, h0, if_false]
    cases hx : t.exitsAt (states - 1) with
    | none =>
      obtain ⟨b, hb⟩ := hall (states - 1) (Nat.sub_lt hpos Nat.one_pos)
      exact absurd hb ((exitsAt_none t _).1 hx b)
    | some es =>
      have hes := exitsAt_some t _ es hx
      subst hes
      obtain ⟨r, h1, h2⟩ := connLoop_spec t states (states - 1) hpos hE hall states
        (t.exits (states - 1)).reverse [] (by
          rw [List.nodup_reverse]
          exact (exits_sorted t _).imp (fun h => Nat.ne_of_lt h))
        List.nodup_nil
        (searchInv_init _ _ _ hE _ (by simp))
        (by simp)
      refine ⟨r, h1, h2.trans ?_⟩
      have hedge : (fun a b => b ∈ t.exits a) = fun a b => a ≠ b ∧ t.Goes a b := by
        funext a b
        exact propext (exits_iff_goes ht a b)
      rw [hedge]
      have hmany : states - 1 ≠ 0 := by
        intro hcon
        obtain ⟨b, hb⟩ := hall 0 hpos
        have h3 := hE 0 b hb
        have h4 := ((exits_iff_goes ht 0 b).1 hb).1
        have h5 : b = 0 := Nat.lt_one_iff.1 (Nat.lt_of_lt_of_le h3 (by omega))
        exact h4 h5.symm
      constructor
      · intro h
        exact ⟨fun a ha => (hall a ha).imp (fun b hb => (exits_iff_goes ht a b).1 hb),
          (transGen_proper _ hmany).2 h⟩
      · intro h
        exact (transGen_proper _ hmany).1 h.2

/-- **C28, Python.**  For rows (as `parse` reads them) whose targets are rows, `Graph.is_connected`
raises nothing and says `True` exactly when each state has an exit to another state and state 0
can be reached from the last one — whatever elements `set.pop` picks. -/
theorem C28_python (pick : Nat → Finset State → State)
    (hpick : ∀ i (s : Finset State), s.Nonempty → pick i s ∈ s)
    (rows : List (List (Option Instr))) (hpos : 1 ≤ rows.length)
    (hin : ∀ row ∈ rows, ∀ i, some i ∈ row → i.2.2 < rows.length) :
    ∃ r, (arrowsOf rows).isConnected pick = some r ∧
      (r = true ↔
        (∀ a < rows.length, ∃ b, a ≠ b ∧ ∃ row i, rows[a]? = some row ∧ some i ∈ row ∧ i.2.2 = b) ∧
        Relation.TransGen
          (fun a b => ∃ row i, rows[a]? = some row ∧ some i ∈ row ∧ i.2.2 = b)
          (rows.length - 1) 0) := by
  have hlen : (arrowsOf rows).length = rows.length := by simp [arrowsOf]
  have hedge : ∀ a b, (arrowsOf rows).Edge a b ↔
      ∃ row i, rows[a]? = some row ∧ some i ∈ row ∧ i.2.2 = b := by
    intro a b
    simp only [Arrows.Edge, arrowsOf, List.getElem?_map, Option.map_eq_some_iff]
    constructor
    · rintro ⟨_, ⟨row, h1, rfl⟩, h2⟩
      obtain ⟨oi, h3, h4⟩ := List.mem_map.1 h2
      obtain ⟨i, rfl, h5⟩ := Option.map_eq_some_iff.1 h4
      exact ⟨row, i, h1, h3, h5⟩
    · rintro ⟨row, i, h1, h2, h3⟩
      exact ⟨_, ⟨row, h1, rfl⟩, List.mem_map.2 ⟨some i, h2, by simp [h3]⟩⟩
  have hE : ∀ s d, s ≠ d ∧ (arrowsOf rows).Edge s d → d < (arrowsOf rows).length := by
    rintro s d ⟨-, h⟩
    obtain ⟨row, i, h1, h2, h3⟩ := (hedge s d).1 h
    rw [hlen, ← h3]
    exact hin row (List.mem_of_getElem? h1) i h2
  simp only [← hedge]
  simp only [Arrows.isConnected]
  by_cases hany : (List.range (arrowsOf rows).length).any
      (fun s => (arrowsOf rows).properExits s == some ∅) = true
  · refine ⟨false, by simp only [hany, if_true], ?_⟩
    simp only [Bool.false_eq_true, false_iff, not_and]
    intro hall
    exfalso
    obtain ⟨s, hs, h⟩ := List.any_eq_true.1 hany
    have hs' : s < rows.length := by rw [← hlen]; exact List.mem_range.1 hs
    obtain ⟨b, hb⟩ := hall s hs'
    have h : (arrowsOf rows).properExits s = some ∅ := by simpa using h
    have := (mem_properExits _ s b ∅ h).2 hb
    simp at this
  · simp only [hany, Bool.false_eq_true, if_false]
    have hall : ∀ a < rows.length, ∃ b, a ≠ b ∧ (arrowsOf rows).Edge a b := by
      intro a ha
      obtain ⟨es, hes⟩ := properExits_some (arrowsOf rows) a (by rw [hlen]; exact ha)
      by_cases he : es = ∅
      · exfalso
        apply hany
        refine List.any_eq_true.2 ⟨a, List.mem_range.2 (by rw [hlen]; exact ha), ?_⟩
        simp [hes, he]
      · obtain ⟨b, hb⟩ := Finset.nonempty_iff_ne_empty.2 he
        exact ⟨b, (mem_properExits _ a b es hes).1 hb⟩
    obtain ⟨es, hes⟩ := properExits_some (arrowsOf rows) ((arrowsOf rows).length - 1)
      (by rw [hlen]; exact Nat.sub_lt hpos Nat.one_pos)
    simp only [hes]
    obtain ⟨r, h1, h2⟩ := pyConnLoop_spec pick hpick (arrowsOf rows) ((arrowsOf rows).length - 1)
      (by rw [hlen]; exact hpos) hE (arrowsOf rows).length es ∅
      (searchInv_init _ _ _ hE _ (fun b => mem_properExits _ _ b es hes)) (by simp)
    refine ⟨r, h1, h2.trans ?_⟩
    rw [hlen]
    have hmany : rows.length - 1 ≠ 0 := by
      intro hcon
      obtain ⟨b, hb⟩ := hall 0 hpos
      have h3 := hE 0 b hb
      rw [hlen] at h3
      have h5 : b = 0 := Nat.lt_one_iff.1 (Nat.lt_of_lt_of_le h3 (by omega))
      exact hb.1 h5.symm
    constructor
    · intro h
      exact ⟨hall, (transGen_proper _ hmany).2 h⟩
    · intro h
      exact (transGen_proper _ hmany).1 h.2

/-- **C29.**  For rows whose targets are rows, `entry_points` raises nothing, has a set for each
state, and `d ∈ exit_points[s]`, `s ∈ entry_points[d]` and "some instruction of `s` goes to `d`"
are the same — whatever the order in which the sets are iterated. -/
theorem C29_converse (order : Finset State → List State)
    (ho : ∀ (S : Finset State) x, x ∈ order S ↔ x ∈ S)
    (rows : List (List (Option Instr)))
    (hin : ∀ row ∈ rows, ∀ i, some i ∈ row → i.2.2 < rows.length) :
    ∃ en, (arrowsOf rows).entryPoints order = some en ∧ en.length = rows.length ∧
      ∀ s d,
        ((∃ S, en[d]? = some S ∧ s ∈ S) ↔
          ∃ row i, rows[s]? = some row ∧ some i ∈ row ∧ i.2.2 = d) ∧
        ((∃ S, (arrowsOf rows).exitPoints s = some S ∧ d ∈ S) ↔
          ∃ row i, rows[s]? = some row ∧ some i ∈ row ∧ i.2.2 = d) := by
  have hlen : (arrowsOf rows).length = rows.length := by simp [arrowsOf]
  have hedge : ∀ a b, (arrowsOf rows).Edge a b ↔
      ∃ row i, rows[a]? = some row ∧ some i ∈ row ∧ i.2.2 = b := by
    intro a b
    simp only [Arrows.Edge, arrowsOf, List.getElem?_map, Option.map_eq_some_iff]
    constructor
    · rintro ⟨_, ⟨row, h1, rfl⟩, h2⟩
      obtain ⟨oi, h3, h4⟩ := List.mem_map.1 h2
      obtain ⟨i, rfl, h5⟩ := Option.map_eq_some_iff.1 h4
      exact ⟨row, i, h1, h3, h5⟩
    · rintro ⟨row, i, h1, h2, h3⟩
      exact ⟨_, ⟨row, h1, rfl⟩, List.mem_map.2 ⟨some i, h2, by simp [h3]⟩⟩
  obtain ⟨en, h1, h2, h3⟩ := entryLoop_spec order ho (arrowsOf rows) 0
    ((arrowsOf rows).map fun _ => ∅) (by
      intro row hrow d hd
      rw [List.length_map, hlen]
      obtain ⟨r, hr, rfl⟩ := List.mem_map.1 hrow
      obtain ⟨oi, h3, h4⟩ := List.mem_map.1 hd
      obtain ⟨i, rfl, h5⟩ := Option.map_eq_some_iff.1 h4
      rw [← h5]
      exact hin r hr i h3)
  refine ⟨en, h1, by rw [h2, List.length_map, hlen], ?_⟩
  intro s d
  refine ⟨?_, by rw [mem_exitPoints, hedge]⟩
  rw [h3, ← hedge]
  constructor
  · rintro (⟨S, hS, hs⟩ | ⟨-, h⟩)
    · exfalso
      simp only [List.getElem?_map, Option.map_eq_some_iff] at hS
      obtain ⟨_, _, rfl⟩ := hS
      simp at hs
    · simpa using h
  · intro h
    exact .inr ⟨Nat.zero_le _, by simpa using h⟩

/-- **C29, Rust.**  `get_exitpoints` lists, for a state, exactly the other states its instructions
go to, in order and without repetition. -/
theorem C29_rust (t : Table) (ht : t.Sorted) (s : State) :
    (t.exits s).Pairwise (· < ·) ∧
    ∀ d, d ∈ t.exits s ↔ s ≠ d ∧ t.Goes s d :=
  ⟨exits_sorted t s, exits_iff_goes ht s⟩

/-- The hypothesis on targets is needed: a target without a row makes `entry_points` raise and
`is_connected` panic. -/
theorem C29_target_needed :
    (arrowsOf [[some (1, true, 1)]]).entryPoints (fun S => S.sort (· ≤ ·)) = none ∧
    Table.isConnected [((0, 0), (1, true, 2)), ((1, 0), (1, true, 2))] 2 = none := by
  decide +kernel

/-- Concrete cases. -/
example : Table.isConnected [((0, 0), (1, true, 1)), ((0, 1), (1, false, 2)), ((1, 0), (1, true, 3)),
    ((1, 1), (1, true, 1)), ((2, 0), (0, true, 3)), ((2, 1), (0, true, 2)), ((3, 0), (1, false, 3)),
    ((3, 1), (1, false, 0))] 4 = some true := by
  decide +kernel

example : Table.isConnected [((0, 0), (1, true, 1)), ((0, 1), (1, false, 1)), ((1, 0), (1, false, 0)),
    ((1, 1), (1, false, 2)), ((2, 0), (1, true, 2)), ((2, 1), (0, false, 2))] 3 = some false := by
  decide +kernel

end BB
