import Verif.Model.Table

namespace BB

theorem Slot.lt_irrefl (a : Slot) : Slot.lt a a = false := by
  simp [Slot.lt]

theorem Slot.lt_trans {a b c : Slot} (h1 : Slot.lt a b = true) (h2 : Slot.lt b c = true) :
    Slot.lt a c = true := by
  obtain ⟨a1, a2⟩ := a
  obtain ⟨b1, b2⟩ := b
  obtain ⟨c1, c2⟩ := c
  simp only [Slot.lt, Bool.or_eq_true, Bool.and_eq_true, decide_eq_true_eq, beq_iff_eq] at *
  delta State Color at *
  omega

theorem Slot.lt_total {a b : Slot} (h1 : Slot.lt a b = false) (h2 : a ≠ b) :
    Slot.lt b a = true := by
  obtain ⟨a1, a2⟩ := a
  obtain ⟨b1, b2⟩ := b
  have h3 : ¬ (a1 = b1 ∧ a2 = b2) := fun h => h2 (by rw [h.1, h.2])
  simp only [Slot.lt, Bool.or_eq_false_iff, Bool.or_eq_true, Bool.and_eq_true,
    Bool.and_eq_false_iff, decide_eq_true_eq, decide_eq_false_iff_not, beq_iff_eq,
    beq_eq_false_iff_ne, ne_eq] at *
  delta State Color at *
  omega

theorem Table.get?_nil (s : Slot) : Table.get? [] s = none := rfl

theorem Table.get?_cons (k : Slot) (v : Instr) (t : Table) (s : Slot) :
    Table.get? ((k, v) :: t) s = if s = k then some v else Table.get? t s := by
  simp only [Table.get?, List.lookup_cons]
  by_cases h : s = k
  · simp [h]
  · have : (s == k) = false := by simpa using h
    simp [h, this]

theorem Table.get?_eq_none {t : Table} {s : Slot} :
    t.get? s = none ↔ ∀ e ∈ t, e.1 ≠ s := by
  induction t with
  | nil => simp [Table.get?_nil]
  | cons e t ih =>
    obtain ⟨k, v⟩ := e
    rw [Table.get?_cons]
    by_cases h : s = k
    · simp [h]
    · simp only [h, if_false, ih, List.mem_cons, forall_eq_or_imp]
      constructor
      · exact fun h' => ⟨fun h'' => h h''.symm, h'⟩
      · exact fun h' => h'.2

theorem Table.get?_mem {t : Table} {s : Slot} {i : Instr} (h : t.get? s = some i) :
    (s, i) ∈ t := by
  induction t with
  | nil => simp [Table.get?_nil] at h
  | cons e t ih =>
    obtain ⟨k, v⟩ := e
    rw [Table.get?_cons] at h
    by_cases hk : s = k
    · simp only [hk, if_true, Option.some.injEq] at h
      simp [hk, h]
    · simp only [hk, if_false] at h
      exact List.mem_cons_of_mem _ (ih h)

theorem Table.Sorted.tail {e : Slot × Instr} {t : Table} (h : Table.Sorted (e :: t)) :
    Table.Sorted t := (List.pairwise_cons.1 h).2

theorem Table.get?_of_mem {t : Table} (h : t.Sorted) {s : Slot} {i : Instr}
    (hm : (s, i) ∈ t) : t.get? s = some i := by
  induction t with
  | nil => simp at hm
  | cons e t ih =>
    obtain ⟨k, v⟩ := e
    rw [Table.get?_cons]
    rcases List.mem_cons.1 hm with hm | hm
    · simp only [Prod.mk.injEq] at hm
      simp [hm.1, hm.2]
    · have hlt := (List.pairwise_cons.1 h).1 _ hm
      have : s ≠ k := by
        rintro rfl
        simp [Slot.lt_irrefl] at hlt
      simp only [this, if_false]
      exact ih h.tail hm

theorem Table.mem_iff_get? {t : Table} (h : t.Sorted) {s : Slot} {i : Instr} :
    (s, i) ∈ t ↔ t.get? s = some i :=
  ⟨Table.get?_of_mem h, Table.get?_mem⟩

/-- A sorted table is determined by its lookups. -/
theorem Table.ext {t u : Table} (ht : t.Sorted) (hu : u.Sorted)
    (h : ∀ s, t.get? s = u.get? s) : t = u := by
  induction t generalizing u with
  | nil =>
    cases u with
    | nil => rfl
    | cons e u =>
      have := h e.1
      rw [Table.get?_cons] at this
      simp [Table.get?_nil] at this
  | cons e t ih =>
    cases u with
    | nil =>
      have := h e.1
      rw [Table.get?_cons] at this
      simp [Table.get?_nil] at this
    | cons f u =>
      obtain ⟨k, v⟩ := e
      obtain ⟨k', v'⟩ := f
      have hk : k = k' := by
        have h1 := (Table.mem_iff_get? hu).2 ((h k).symm.trans ((Table.mem_iff_get? ht).1
          (List.mem_cons_self ..)))
        have h2 := (Table.mem_iff_get? ht).2 ((h k').trans ((Table.mem_iff_get? hu).1
          (List.mem_cons_self ..)))
        rcases List.mem_cons.1 h1 with h1 | h1
        · exact (Prod.mk.inj h1).1
        · rcases List.mem_cons.1 h2 with h2 | h2
          · exact (Prod.mk.inj h2).1.symm
          · have a := (List.pairwise_cons.1 ht).1 _ h2
            have b := (List.pairwise_cons.1 hu).1 _ h1
            have c := Slot.lt_trans a b
            simp [Slot.lt_irrefl] at c
      subst hk
      have hv : v = v' := by
        have := h k
        rw [Table.get?_cons, Table.get?_cons] at this
        simpa using this
      subst hv
      congr 1
      refine ih ht.tail hu.tail ?_
      intro s
      have := h s
      rw [Table.get?_cons, Table.get?_cons] at this
      by_cases hs : s = k
      · subst hs
        rw [Table.get?_eq_none.2, Table.get?_eq_none.2]
        · intro e he h'
          have := (List.pairwise_cons.1 hu).1 _ he
          rw [h'] at this
          simp [Slot.lt_irrefl] at this
        · intro e he h'
          have := (List.pairwise_cons.1 ht).1 _ he
          rw [h'] at this
          simp [Slot.lt_irrefl] at this
      · simpa [hs] using this

theorem Table.mem_insert {t : Table} {s : Slot} {i : Instr} {e : Slot × Instr}
    (h : e ∈ t.insert s i) : e = (s, i) ∨ e ∈ t := by
  induction t with
  | nil => simpa [Table.insert] using h
  | cons f t ih =>
    obtain ⟨k, v⟩ := f
    simp only [Table.insert] at h
    split at h
    · rcases List.mem_cons.1 h with h | h
      · exact .inl h
      · exact .inr h
    · split at h
      · rcases List.mem_cons.1 h with h | h
        · exact .inl h
        · exact .inr (List.mem_cons_of_mem _ h)
      · rcases List.mem_cons.1 h with h | h
        · exact .inr (by simp [h])
        · rcases ih h with h | h
          · exact .inl h
          · exact .inr (List.mem_cons_of_mem _ h)

theorem Table.Sorted.insert {t : Table} (h : t.Sorted) (s : Slot) (i : Instr) :
    (t.insert s i).Sorted := by
  induction t with
  | nil => simp [Table.insert, Table.Sorted]
  | cons f t ih =>
    obtain ⟨k, v⟩ := f
    obtain ⟨h1, h2⟩ := List.pairwise_cons.1 h
    simp only [Table.insert]
    split
    · rename_i hlt
      refine List.pairwise_cons.2 ⟨?_, h⟩
      intro e he
      rcases List.mem_cons.1 he with he | he
      · rw [he]; exact hlt
      · exact Slot.lt_trans hlt (h1 _ he)
    · split
      · rename_i heq
        have : s = k := by simpa using heq
        subst this
        exact List.pairwise_cons.2 ⟨h1, h2⟩
      · rename_i hlt hne
        refine List.pairwise_cons.2 ⟨?_, ih h2⟩
        intro e he
        rcases Table.mem_insert he with he | he
        · rw [he]
          exact Slot.lt_total (by simpa using hlt) (by simpa using hne)
        · exact h1 _ he

theorem Table.get?_insert (t : Table) (s : Slot) (i : Instr) (s' : Slot) (h : t.Sorted) :
    (t.insert s i).get? s' = if s' = s then some i else t.get? s' := by
  induction t with
  | nil => simp [Table.insert, Table.get?_cons, Table.get?_nil]
  | cons f t ih =>
    obtain ⟨k, v⟩ := f
    simp only [Table.insert]
    split
    · rw [Table.get?_cons]
    · split
      · rename_i heq
        have : s = k := by simpa using heq
        subst this
        rw [Table.get?_cons, Table.get?_cons]
        by_cases h' : s' = s <;> simp [h']
      · rename_i hne
        have hne : s ≠ k := by simpa using hne
        rw [Table.get?_cons, Table.get?_cons, ih h.tail]
        by_cases h' : s' = k
        · subst h'
          simp [Ne.symm hne]
        · simp [h']

theorem Table.Sorted.remove {t : Table} (h : t.Sorted) (s : Slot) : (t.remove s).Sorted :=
  List.Pairwise.filter _ h

theorem Table.get?_remove (t : Table) (s s' : Slot) :
    (t.remove s).get? s' = if s' = s then none else t.get? s' := by
  induction t with
  | nil => simp [Table.remove, Table.get?_nil]
  | cons f t ih =>
    obtain ⟨k, v⟩ := f
    simp only [Table.remove, List.filter_cons] at ih ⊢
    by_cases hk : k = s
    · subst hk
      simp only [bne_self_eq_false, Bool.false_eq_true, if_false, ih]
      rw [Table.get?_cons]
      by_cases h' : s' = k <;> simp [h']
    · have : (k != s) = true := by simpa using hk
      simp only [this, if_true]
      rw [Table.get?_cons, Table.get?_cons, ih]
      by_cases h' : s' = k
      · subst h'; simp [hk]
      · simp [h']

theorem Table.insert_append_max (t : Table) (s : Slot) (i : Instr)
    (h : ∀ e ∈ t, Slot.lt e.1 s = true) : t.insert s i = t ++ [(s, i)] := by
  induction t with
  | nil => rfl
  | cons f t ih =>
    obtain ⟨k, v⟩ := f
    have hk := h _ (List.mem_cons_self ..)
    have h1 : Slot.lt s k = false := by
      cases hlt : Slot.lt s k with
      | false => rfl
      | true => have := Slot.lt_trans hk hlt; simp [Slot.lt_irrefl] at this
    have h2 : (s == k) = false := by
      simp only [beq_eq_false_iff_ne, ne_eq]
      rintro rfl
      simp [Slot.lt_irrefl] at hk
    simp only [Table.insert, h1, h2, Bool.false_eq_true, if_false, List.cons_append]
    rw [ih (fun e he => h e (List.mem_cons_of_mem _ he))]

/-- Collecting entries that are already in order keeps them. -/
theorem Table.collect_sorted (t : Table) (h : t.Sorted) : Table.collect t = t := by
  have key : ∀ (l acc : List (Slot × Instr)), Table.Sorted (acc ++ l) →
      l.foldl (fun t e => Table.insert t e.1 e.2) acc = acc ++ l := by
    intro l
    induction l with
    | nil => intro acc _; simp
    | cons e l ih =>
      intro acc hs
      simp only [List.foldl_cons]
      rw [Table.insert_append_max, ih]
      · simp
      · simpa using hs
      · intro f hf
        exact (List.pairwise_append.1 hs).2.2 f hf e (List.mem_cons_self ..)
  simpa [Table.collect] using key t [] (by simpa using h)

theorem Table.Sorted.collect (l : List (Slot × Instr)) : (Table.collect l).Sorted := by
  have key : ∀ (l : List (Slot × Instr)) (acc : Table), acc.Sorted →
      Table.Sorted (l.foldl (fun t e => Table.insert t e.1 e.2) acc) := by
    intro l
    induction l with
    | nil => intro acc h; exact h
    | cons e l ih => intro acc h; exact ih _ (h.insert _ _)
  exact key l [] List.Pairwise.nil

end BB
