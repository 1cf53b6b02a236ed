import Verif.Model.Graph
import Verif.Lemmas.Table
import Mathlib.Logic.Relation
import Mathlib.Data.Finset.Card
import Mathlib.Data.Finset.Range
import Mathlib.Data.Finset.Sort

namespace BB

/-! ## The search, whatever the order -/

/-- Where the search for state 0 stands. -/
structure SearchInv (E : State → State → Prop) (n : Nat) (last : State)
    (todo reached : Finset State) : Prop where
  sub : ∀ s, s ∈ todo ∨ s ∈ reached → Relation.TransGen E last s
  closed : ∀ a b, a = last ∨ a ∈ reached → E a b → b ∈ reached ∨ b ∈ todo
  zero : 0 ∉ reached
  bound : ∀ s, s ∈ todo ∨ s ∈ reached → s < n
  fresh : ∀ s ∈ todo, s ∉ reached

theorem SearchInv.step {E : State → State → Prop} {n : Nat} {last s : State}
    {todo reached todo' : Finset State} (h : SearchInv E n last todo reached) (hs : s ∈ todo)
    (h0 : s ≠ 0) (hE : ∀ a b, E a b → b < n)
    (ht : ∀ b, b ∈ todo' ↔ (b ∈ todo ∧ b ≠ s) ∨ (E s b ∧ b ∉ insert s reached)) :
    SearchInv E n last todo' (insert s reached) where
  sub := by
    intro b hb
    rcases hb with hb | hb
    · rcases (ht b).1 hb with hb | hb
      · exact h.sub b (.inl hb.1)
      · exact (h.sub s (.inl hs)).tail hb.1
    · rcases Finset.mem_insert.1 hb with rfl | hb
      · exact h.sub _ (.inl hs)
      · exact h.sub b (.inr hb)
  closed := by
    intro a b ha hab
    by_cases hb : b ∈ insert s reached
    · exact .inl hb
    · refine .inr ((ht b).2 ?_)
      rcases ha with ha | ha
      · rcases h.closed a b (.inl ha) hab with h' | h'
        · exact absurd (Finset.mem_insert_of_mem h') hb
        · exact .inl ⟨h', fun e => hb (by simp [e])⟩
      · rcases Finset.mem_insert.1 ha with rfl | ha
        · exact .inr ⟨hab, hb⟩
        · rcases h.closed a b (.inr ha) hab with h' | h'
          · exact absurd (Finset.mem_insert_of_mem h') hb
          · exact .inl ⟨h', fun e => hb (by simp [e])⟩
  zero := by
    intro hz
    rcases Finset.mem_insert.1 hz with hz | hz
    · exact h0 hz.symm
    · exact h.zero hz
  bound := by
    intro b hb
    rcases hb with hb | hb
    · rcases (ht b).1 hb with hb | hb
      · exact h.bound b (.inl hb.1)
      · exact hE _ _ hb.1
    · rcases Finset.mem_insert.1 hb with rfl | hb
      · exact h.bound _ (.inl hs)
      · exact h.bound b (.inr hb)
  fresh := by
    intro b hb
    rcases (ht b).1 hb with hb | hb
    · intro h'
      rcases Finset.mem_insert.1 h' with h' | h'
      · exact hb.2 h'
      · exact h.fresh b hb.1 h'
    · exact hb.2

theorem SearchInv.empty {E : State → State → Prop} {n : Nat} {last : State}
    {reached : Finset State} (h : SearchInv E n last ∅ reached) :
    ¬ Relation.TransGen E last 0 := by
  intro hT
  have : ∀ b, Relation.TransGen E last b → b ∈ reached := by
    intro b hb
    induction hb with
    | single hab =>
      rcases h.closed _ _ (.inl rfl) hab with h' | h'
      · exact h'
      · simp at h'
    | tail _ hab ih =>
      rcases h.closed _ _ (.inr ih) hab with h' | h'
      · exact h'
      · simp at h'
  exact h.zero (this 0 hT)

theorem SearchInv.card {E : State → State → Prop} {n : Nat} {last : State}
    {todo reached : Finset State} (h : SearchInv E n last todo reached) (hn : 1 ≤ n) :
    reached.card < n := by
  have hsub : insert 0 reached ⊆ Finset.range n := by
    intro b hb
    rcases Finset.mem_insert.1 hb with rfl | hb
    · exact Finset.mem_range.2 hn
    · exact Finset.mem_range.2 (h.bound b (.inr hb))
  have := Finset.card_le_card hsub
  rw [Finset.card_insert_of_notMem h.zero, Finset.card_range] at this
  omega

/-! ## Rust -/

theorem mem_insertUniq (x y : State) (l : List State) :
    y ∈ insertUniq x l ↔ y = x ∨ y ∈ l := by
  induction l with
  | nil => simp [insertUniq]
  | cons z zs ih =>
    simp only [insertUniq]
    split
    · simp
    · split
      · rename_i h
        have : x = z := by simpa using h
        subst this
        simp
      · simp only [List.mem_cons, ih]
        constructor
        · rintro (h | h | h)
          · exact .inr (.inl h)
          · exact .inl h
          · exact .inr (.inr h)
        · rintro (h | h | h)
          · exact .inr (.inl h)
          · exact .inl h
          · exact .inr (.inr h)

theorem sorted_insertUniq (x : State) (l : List State) (h : l.Pairwise (· < ·)) :
    (insertUniq x l).Pairwise (· < ·) := by
  induction l with
  | nil => simp [insertUniq]
  | cons z zs ih =>
    obtain ⟨h1, h2⟩ := List.pairwise_cons.1 h
    simp only [insertUniq]
    split
    · rename_i hlt
      refine List.pairwise_cons.2 ⟨?_, h⟩
      intro b hb
      rcases List.mem_cons.1 hb with rfl | hb
      · exact hlt
      · exact Nat.lt_trans hlt (h1 b hb)
    · split
      · exact h
      · rename_i hlt hne
        refine List.pairwise_cons.2 ⟨?_, ih h2⟩
        intro b hb
        rcases (mem_insertUniq x b zs).1 hb with rfl | hb
        · have : b ≠ z := by simpa using hne
          exact Nat.lt_of_le_of_ne (Nat.le_of_not_lt hlt) (Ne.symm this)
        · exact h1 b hb

theorem mem_exits (t : Table) (src dst : State) :
    dst ∈ t.exits src ↔ src ≠ dst ∧ ∃ e ∈ t, e.1.1 = src ∧ e.2.2.2 = dst := by
  induction t with
  | nil => simp [Table.exits]
  | cons e t ih =>
    simp only [Table.exits, List.foldr_cons] at ih ⊢
    split
    · rename_i h
      simp only [Bool.and_eq_true, beq_iff_eq, bne_iff_ne, ne_eq] at h
      rw [mem_insertUniq, ih]
      constructor
      · rintro (rfl | ⟨h1, e', he', h2⟩)
        · exact ⟨by rw [← h.1]; exact h.2, e, List.mem_cons_self .., h.1, rfl⟩
        · exact ⟨h1, e', List.mem_cons_of_mem _ he', h2⟩
      · rintro ⟨h1, e', he', h2, h3⟩
        rcases List.mem_cons.1 he' with rfl | he'
        · exact .inl h3.symm
        · exact .inr ⟨h1, e', he', h2, h3⟩
    · rename_i h
      simp only [Bool.and_eq_true, beq_iff_eq, bne_iff_ne, ne_eq, not_and, Decidable.not_not] at h
      rw [ih]
      constructor
      · rintro ⟨h1, e', he', h2⟩
        exact ⟨h1, e', List.mem_cons_of_mem _ he', h2⟩
      · rintro ⟨h1, e', he', h2, h3⟩
        rcases List.mem_cons.1 he' with rfl | he'
        · exact absurd (h2.symm.trans ((h h2).trans h3)) h1
        · exact ⟨h1, e', he', h2, h3⟩

theorem exits_sorted (t : Table) (src : State) : (t.exits src).Pairwise (· < ·) := by
  induction t with
  | nil => exact List.Pairwise.nil
  | cons e t ih =>
    simp only [Table.exits, List.foldr_cons] at ih ⊢
    split
    · exact sorted_insertUniq _ _ ih
    · exact ih

theorem mem_exitKeys (t : Table) (src : State) :
    src ∈ t.exitKeys ↔ ∃ dst, dst ∈ t.exits src := by
  have : src ∈ t.exitKeys ↔ ∃ e ∈ t, e.1.1 = src ∧ src ≠ e.2.2.2 := by
    induction t with
    | nil => simp [Table.exitKeys]
    | cons e t ih =>
      simp only [Table.exitKeys, List.foldr_cons] at ih ⊢
      split
      · rename_i h
        simp only [bne_iff_ne, ne_eq] at h
        rw [mem_insertUniq, ih]
        constructor
        · rintro (rfl | ⟨e', he', h2⟩)
          · exact ⟨e, List.mem_cons_self .., rfl, h⟩
          · exact ⟨e', List.mem_cons_of_mem _ he', h2⟩
        · rintro ⟨e', he', h2⟩
          rcases List.mem_cons.1 he' with rfl | he'
          · exact .inl h2.1.symm
          · exact .inr ⟨e', he', h2⟩
      · rename_i h
        simp only [bne_iff_ne, ne_eq, Decidable.not_not] at h
        rw [ih]
        constructor
        · rintro ⟨e', he', h2⟩
          exact ⟨e', List.mem_cons_of_mem _ he', h2⟩
        · rintro ⟨e', he', h2⟩
          rcases List.mem_cons.1 he' with rfl | he'
          · exact absurd (h2.1.symm.trans h) h2.2
          · exact ⟨e', he', h2⟩
  rw [this]
  constructor
  · rintro ⟨e, he, h1, h2⟩
    exact ⟨e.2.2.2, (mem_exits t src _).2 ⟨h2, e, he, h1, rfl⟩⟩
  · rintro ⟨dst, hd⟩
    obtain ⟨h1, e, he, h2, h3⟩ := (mem_exits t src dst).1 hd
    exact ⟨e, he, h2, by rw [h3]; exact h1⟩

theorem exitKeys_sorted (t : Table) : t.exitKeys.Pairwise (· < ·) := by
  induction t with
  | nil => exact List.Pairwise.nil
  | cons e t ih =>
    simp only [Table.exitKeys, List.foldr_cons] at ih ⊢
    split
    · exact sorted_insertUniq _ _ ih
    · exact ih

theorem exitsAt_none (t : Table) (s : State) : t.exitsAt s = none ↔ ∀ d, d ∉ t.exits s := by
  simp only [Table.exitsAt]
  split
  · rename_i h; simp [h]
  · rename_i h
    simp only [reduceCtorEq, false_iff]
    intro hcon
    exact h (List.eq_nil_iff_forall_not_mem.2 hcon)

theorem exitsAt_some (t : Table) (s : State) (es : List State) (h : t.exitsAt s = some es) :
    es = t.exits s := by
  simp only [Table.exitsAt] at h
  split at h
  · cases h
  · exact (Option.some.inj h).symm

theorem mem_pushExits (reached es todo : List State) (b : State) :
    b ∈ pushExits reached es todo ↔ b ∈ todo ∨ (b ∈ es ∧ b ∉ reached) := by
  induction es generalizing todo with
  | nil => simp [pushExits]
  | cons e es ih =>
    simp only [pushExits]
    rw [ih]
    by_cases hr : e ∈ reached
    · have : reached.contains e = true := by simpa using hr
      simp only [this, Bool.not_true, Bool.false_and, Bool.false_eq_true, if_false, List.mem_cons]
      constructor
      · rintro (h | h)
        · exact .inl h
        · exact .inr ⟨.inr h.1, h.2⟩
      · rintro (h | ⟨rfl | h1, h2⟩)
        · exact .inl h
        · exact absurd hr h2
        · exact .inr ⟨h1, h2⟩
    · by_cases ht : e ∈ todo
      · have : todo.contains e = true := by simpa using ht
        simp only [this, Bool.not_true, Bool.and_false, Bool.false_eq_true, if_false,
          List.mem_cons]
        constructor
        · rintro (h | h)
          · exact .inl h
          · exact .inr ⟨.inr h.1, h.2⟩
        · rintro (h | ⟨rfl | h1, h2⟩)
          · exact .inl h
          · exact .inl ht
          · exact .inr ⟨h1, h2⟩
      · have h1 : reached.contains e = false := by simpa using hr
        have h2 : todo.contains e = false := by simpa using ht
        simp only [h1, h2, Bool.not_false, Bool.and_true, if_true, List.mem_cons]
        constructor
        · rintro ((rfl | h) | h)
          · exact .inr ⟨.inl rfl, hr⟩
          · exact .inl h
          · exact .inr ⟨.inr h.1, h.2⟩
        · rintro (h | ⟨rfl | h1, h2⟩)
          · exact .inl (.inr h)
          · exact .inl (.inl rfl)
          · exact .inr ⟨h1, h2⟩

theorem nodup_pushExits (reached es todo : List State) (h : todo.Nodup) :
    (pushExits reached es todo).Nodup := by
  induction es generalizing todo with
  | nil => exact h
  | cons e es ih =>
    simp only [pushExits]
    refine ih _ ?_
    split
    · rename_i hc
      simp only [Bool.and_eq_true, Bool.not_eq_true', List.contains_eq_mem,
        decide_eq_false_iff_not] at hc
      exact List.nodup_cons.2 ⟨hc.2, h⟩
    · exact h

theorem connLoop_spec (t : Table) (n : Nat) (last : State) (hn : 1 ≤ n)
    (hE : ∀ a b, b ∈ t.exits a → b < n) (hne : ∀ a < n, ∃ b, b ∈ t.exits a) :
    ∀ (fuel : Nat) (todo reached : List State), todo.Nodup → reached.Nodup →
      SearchInv (fun a b => b ∈ t.exits a) n last todo.toFinset reached.toFinset →
      n ≤ fuel + reached.length →
      ∃ r, t.connLoop fuel todo reached = some r ∧
        (r = true ↔ Relation.TransGen (fun a b => b ∈ t.exits a) last 0) := by
  intro fuel
  induction fuel with
  | zero =>
    intro todo reached hd hr hinv hf
    have := hinv.card hn
    rw [List.toFinset_card_of_nodup hr] at this
    omega
  | succ fuel ih =>
    intro todo reached hd hr hinv hf
    cases todo with
    | nil =>
      refine ⟨false, rfl, ?_⟩
      simp only [Bool.false_eq_true, false_iff]
      exact SearchInv.empty (by simpa using hinv)
    | cons s todo =>
      simp only [Table.connLoop]
      have hs : s ∈ (s :: todo).toFinset := by simp
      by_cases h0 : s = 0
      · subst h0
        exact ⟨true, by simp, by simpa using hinv.sub 0 (.inl hs)⟩
      · have h0' : (s == 0) = false := by simpa using h0
        have hfr : reached.contains s = false := by
          simpa using hinv.fresh s hs
        simp only [h0', hfr, Bool.false_eq_true, if_false]
        have hsn : s < n := hinv.bound s (.inl hs)
        cases hx : t.exitsAt s with
        | none =>
          obtain ⟨b, hb⟩ := hne s hsn
          exact absurd hb ((exitsAt_none t s).1 hx b)
        | some es =>
          have hes := exitsAt_some t s es hx
          subst hes
          simp only
          refine ih _ _ ?_ ?_ ?_ ?_
          · exact nodup_pushExits _ _ _ (List.nodup_cons.1 hd).2
          · refine List.nodup_cons.2 ⟨by simpa using hfr, hr⟩
          · have : (s :: reached).toFinset = insert s reached.toFinset := by simp
            rw [this]
            refine hinv.step hs h0 hE ?_
            intro b
            simp only [List.mem_toFinset, mem_pushExits, List.mem_cons, Finset.mem_insert]
            have hns : s ∉ todo := (List.nodup_cons.1 hd).1
            constructor
            · rintro (h | h)
              · exact .inl ⟨.inr h, fun e => hns (e ▸ h)⟩
              · exact .inr h
            · rintro (⟨h1 | h1, h2⟩ | h)
              · exact absurd h1 h2
              · exact .inl h1
              · exact .inr h
          · simp only [List.length_cons]
            omega

theorem searchInv_init (E : State → State → Prop) (n : Nat) (last : State)
    (hE : ∀ a b, E a b → b < n) (todo : Finset State) (h : ∀ b, b ∈ todo ↔ E last b) :
    SearchInv E n last todo ∅ where
  sub := by
    intro s hs
    rcases hs with hs | hs
    · exact .single ((h s).1 hs)
    · simp at hs
  closed := by
    intro a b ha hab
    rcases ha with rfl | ha
    · exact .inr ((h b).2 hab)
    · simp at ha
  zero := by simp
  bound := by
    intro s hs
    rcases hs with hs | hs
    · exact hE _ _ ((h s).1 hs)
    · simp at hs
  fresh := by simp

/-! ## Python -/

/-- Some instruction of `s` goes to `d`. -/
def Arrows.Edge (a : Arrows) (s d : State) : Prop := ∃ row, a[s]? = some row ∧ some d ∈ row

theorem mem_targets (row : List (Option State)) (d : State) : d ∈ targets row ↔ some d ∈ row := by
  simp [targets]

theorem mem_exitPoints (a : Arrows) (s d : State) :
    (∃ es, a.exitPoints s = some es ∧ d ∈ es) ↔ a.Edge s d := by
  simp only [Arrows.exitPoints, Option.map_eq_some_iff, Arrows.Edge]
  constructor
  · rintro ⟨es, ⟨row, h1, rfl⟩, h2⟩
    exact ⟨row, h1, (mem_targets row d).1 h2⟩
  · rintro ⟨row, h1, h2⟩
    exact ⟨_, ⟨row, h1, rfl⟩, (mem_targets row d).2 h2⟩

theorem mem_properExits (a : Arrows) (s d : State) (es : Finset State)
    (h : a.properExits s = some es) : d ∈ es ↔ s ≠ d ∧ a.Edge s d := by
  simp only [Arrows.properExits, Option.map_eq_some_iff] at h
  obtain ⟨row, h1, rfl⟩ := h
  simp only [Finset.mem_erase, mem_targets, Arrows.Edge, h1, Option.some.injEq, exists_eq_left']
  constructor
  · rintro ⟨h2, h3⟩; exact ⟨fun e => h2 e.symm, h3⟩
  · rintro ⟨h2, h3⟩; exact ⟨fun e => h2 e.symm, h3⟩

theorem properExits_some (a : Arrows) (s : State) (h : s < a.length) :
    ∃ es, a.properExits s = some es := by
  simp [Arrows.properExits, h]

theorem pyConnLoop_spec (pick : Nat → Finset State → State)
    (hpick : ∀ i (s : Finset State), s.Nonempty → pick i s ∈ s)
    (a : Arrows) (last : State) (hn : 1 ≤ a.length)
    (hE : ∀ s d, s ≠ d ∧ a.Edge s d → d < a.length) :
    ∀ (fuel : Nat) (todo reached : Finset State),
      SearchInv (fun s d => s ≠ d ∧ a.Edge s d) a.length last todo reached →
      a.length ≤ fuel + reached.card →
      ∃ r, a.connLoop pick fuel todo reached = some r ∧
        (r = true ↔ Relation.TransGen (fun s d => s ≠ d ∧ a.Edge s d) last 0) := by
  intro fuel
  induction fuel with
  | zero =>
    intro todo reached hinv hf
    have := hinv.card hn
    omega
  | succ fuel ih =>
    intro todo reached hinv hf
    simp only [Arrows.connLoop]
    by_cases he : todo = ∅
    · subst he
      refine ⟨false, by simp, ?_⟩
      simp only [Bool.false_eq_true, false_iff]
      exact hinv.empty
    · have hs : pick fuel todo ∈ todo := hpick _ _ (Finset.nonempty_iff_ne_empty.2 he)
      simp only [he, if_false]
      by_cases h0 : pick fuel todo = 0
      · refine ⟨true, by simp [h0], ?_⟩
        rw [h0] at hs
        simpa using hinv.sub 0 (.inl hs)
      · simp only [h0, if_false]
        have hsn := hinv.bound _ (.inl hs)
        obtain ⟨es, hes⟩ := properExits_some a _ hsn
        simp only [hes]
        refine ih _ _ ?_ ?_
        · refine hinv.step hs h0 hE ?_
          intro b
          simp only [Finset.mem_union, Finset.mem_erase, Finset.mem_sdiff,
            mem_properExits a _ b es hes]
          constructor
          · rintro (h | h)
            · exact .inl ⟨h.2, h.1⟩
            · exact .inr h
          · rintro (h | h)
            · exact .inl ⟨h.2, h.1⟩
            · exact .inr h
        · rw [Finset.card_insert_of_notMem (hinv.fresh _ hs)]
          omega

/-! ## Entry points -/

theorem sub_eq_pred_succ {x k : Nat} (h : k + 1 ≤ x) : x - k = (x - (k + 1)) + 1 := by omega

theorem addEntries_spec (s : State) (es : List State) (entries : List (Finset State))
    (h : ∀ e ∈ es, e < entries.length) :
    ∃ entries', addEntries s es entries = some entries' ∧ entries'.length = entries.length ∧
      ∀ (d x : State), (∃ S, entries'[d]? = some S ∧ x ∈ S) ↔
        (∃ S, entries[d]? = some S ∧ x ∈ S) ∨ (x = s ∧ d ∈ es) := by
  induction es generalizing entries with
  | nil => exact ⟨entries, rfl, rfl, by simp⟩
  | cons e es ih =>
    have he := h e (List.mem_cons_self ..)
    simp only [addEntries, addEntry, he, dif_pos, Option.bind_some]
    obtain ⟨en', h1, h2, h3⟩ := ih (entries.set e (insert s entries[e])) (by
      intro e' he'
      rw [List.length_set]
      exact h e' (List.mem_cons_of_mem _ he'))
    refine ⟨en', h1, by rw [h2, List.length_set], ?_⟩
    intro d x
    rw [h3]
    by_cases hd : e = d
    · subst hd
      simp only [List.getElem?_set, he, if_true, Option.some.injEq, exists_eq_left',
        Finset.mem_insert, List.mem_cons, true_or, and_true, List.getElem?_eq_getElem]
      constructor
      · rintro ((h | h) | h)
        · exact .inr h
        · exact .inl h
        · exact .inr h.1
      · rintro (h | h)
        · exact .inl (.inr h)
        · exact .inl (.inl h)
    · simp only [List.getElem?_set, hd, if_false, List.mem_cons]
      constructor
      · rintro (h | h)
        · exact .inl h
        · exact .inr ⟨h.1, .inr h.2⟩
      · rintro (h | ⟨h1, h2 | h2⟩)
        · exact .inl h
        · exact absurd h2.symm hd
        · exact .inr ⟨h1, h2⟩

theorem entryLoop_spec (order : Finset State → List State)
    (ho : ∀ (S : Finset State) x, x ∈ order S ↔ x ∈ S) (a : Arrows) (k : State)
    (entries : List (Finset State))
    (h : ∀ row ∈ a, ∀ d, some d ∈ row → d < entries.length) :
    ∃ entries', entryLoop order k a entries = some entries' ∧
      entries'.length = entries.length ∧
      ∀ (d x : State), (∃ S, entries'[d]? = some S ∧ x ∈ S) ↔
        (∃ S, entries[d]? = some S ∧ x ∈ S) ∨ (k ≤ x ∧ a.Edge (x - k) d) := by
  induction a generalizing k entries with
  | nil => exact ⟨entries, rfl, rfl, by simp [Arrows.Edge]⟩
  | cons row a ih =>
    simp only [entryLoop]
    obtain ⟨en1, h1, h2, h3⟩ := addEntries_spec k (order (targets row)) entries (by
      intro e he
      exact h row (List.mem_cons_self ..) e ((mem_targets row e).1 ((ho _ _).1 he)))
    obtain ⟨en2, h4, h5, h6⟩ := ih (k + 1) en1 (by
      intro r hr d hd
      rw [h2]
      exact h r (List.mem_cons_of_mem _ hr) d hd)
    refine ⟨en2, by rw [h1]; exact h4, h5.trans h2, ?_⟩
    intro d x
    rw [h6, h3, ho, mem_targets]
    have key : (k ≤ x ∧ Arrows.Edge (row :: a) (x - k) d) ↔
        (x = k ∧ some d ∈ row) ∨ (k + 1 ≤ x ∧ Arrows.Edge a (x - (k + 1)) d) := by
      by_cases hx : x = k
      · subst hx
        constructor
        · rintro ⟨-, r, hr, hd⟩
          rw [Nat.sub_self] at hr
          simp only [List.getElem?_cons_zero, Option.some.injEq] at hr
          exact .inl ⟨rfl, hr ▸ hd⟩
        · rintro (⟨-, hd⟩ | ⟨hlt, -⟩)
          · refine ⟨Nat.le_refl _, row, ?_, hd⟩
            rw [Nat.sub_self]
            rfl
          · exact absurd hlt (Nat.not_succ_le_self _)
      · constructor
        · rintro ⟨hle, r, hr, hd⟩
          have hlt : k + 1 ≤ x := Nat.lt_of_le_of_ne hle (Ne.symm hx)
          refine .inr ⟨hlt, r, ?_, hd⟩
          have : x - k = (x - (k + 1)) + 1 := sub_eq_pred_succ hlt
          rw [this] at hr
          simpa using hr
        · rintro (⟨h', -⟩ | ⟨hlt, r, hr, hd⟩)
          · exact absurd h' hx
          · refine ⟨Nat.le_of_succ_le hlt, r, ?_, hd⟩
            have : x - k = (x - (k + 1)) + 1 := sub_eq_pred_succ hlt
            rw [this]
            simpa using hr
    rw [key]
    constructor
    · rintro ((h | h) | h)
      · exact .inl h
      · exact .inr (.inl h)
      · exact .inr (.inr h)
    · rintro (h | h | h)
      · exact .inl (.inl h)
      · exact .inl (.inr h)
      · exact .inr h

end BB
