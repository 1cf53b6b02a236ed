import Verif.Model.Parse
import Verif.Lemmas.Table

namespace BB

/-! ## Splitting what was joined -/

theorem consHead_ne_nil (c : Char) (l : List (List Char)) : consHead c l ≠ [] := by
  cases l <;> simp [consHead]

theorem splitSpace_append (e : List Char) (rest : List Char) (he : ' ' ∉ e) :
    splitSpace (e ++ ' ' :: rest) = e :: splitSpace rest := by
  induction e with
  | nil => simp [splitSpace]
  | cons c e ih =>
    have hc : (c == ' ') = false := by
      simp only [beq_eq_false_iff_ne, ne_eq]
      rintro rfl
      exact he (List.mem_cons_self ..)
    simp only [List.cons_append, splitSpace, hc, Bool.false_eq_true, if_false]
    rw [ih (fun h => he (List.mem_cons_of_mem _ h))]
    rfl

theorem splitSpace_single (e : List Char) (he : ' ' ∉ e) : splitSpace e = [e] := by
  induction e with
  | nil => rfl
  | cons c e ih =>
    have hc : (c == ' ') = false := by
      simp only [beq_eq_false_iff_ne, ne_eq]
      rintro rfl
      exact he (List.mem_cons_self ..)
    simp only [splitSpace, hc, Bool.false_eq_true, if_false]
    rw [ih (fun h => he (List.mem_cons_of_mem _ h))]
    rfl

theorem splitSpace_join (es : List (List Char)) (hne : es ≠ []) (h : ∀ e ∈ es, ' ' ∉ e) :
    splitSpace (joinWith [' '] es) = es := by
  induction es with
  | nil => exact absurd rfl hne
  | cons e es ih =>
    cases es with
    | nil => exact splitSpace_single e (h e (List.mem_cons_self ..))
    | cons f es =>
      simp only [joinWith, List.append_assoc, List.cons_append, List.nil_append]
      rw [splitSpace_append _ _ (h e (List.mem_cons_self ..)),
        ih (by simp) (fun e he => h e (List.mem_cons_of_mem _ he))]

/-- No two neighbouring spaces, and no space at the end. -/
def tidy : List Char → Bool
  | [] => true
  | [c] => c != ' '
  | c :: d :: r => !(c == ' ' && d == ' ') && tidy (d :: r)

theorem splitDouble_append (r : List Char) (rest : List Char) (hr : tidy r = true) :
    splitDouble (r ++ ' ' :: ' ' :: rest) = r :: splitDouble rest := by
  induction r with
  | nil => simp [splitDouble]
  | cons c r ih =>
    cases r with
    | nil =>
      have hc : (c == ' ') = false := by simpa [tidy, bne] using hr
      simp only [List.cons_append, List.nil_append]
      rw [splitDouble]
      simp only [hc, Bool.false_and, Bool.false_eq_true, if_false]
      rw [splitDouble]
      simp [consHead]
    | cons d r =>
      simp only [tidy, Bool.and_eq_true, Bool.not_eq_true'] at hr
      simp only [List.cons_append] at ih ⊢
      rw [splitDouble]
      simp only [hr.1, Bool.false_eq_true, if_false]
      rw [ih hr.2]
      rfl

theorem splitDouble_single (r : List Char) (hr : tidy r = true) : splitDouble r = [r] := by
  induction r with
  | nil => rfl
  | cons c r ih =>
    cases r with
    | nil => rfl
    | cons d r =>
      simp only [tidy, Bool.and_eq_true, Bool.not_eq_true'] at hr
      rw [splitDouble]
      simp only [hr.1, Bool.false_eq_true, if_false]
      rw [ih hr.2]
      rfl

theorem splitDouble_join (rs : List (List Char)) (hne : rs ≠ []) (h : ∀ r ∈ rs, tidy r = true) :
    splitDouble (joinWith [' ', ' '] rs) = rs := by
  induction rs with
  | nil => exact absurd rfl hne
  | cons e es ih =>
    cases es with
    | nil => exact splitDouble_single e (h e (List.mem_cons_self ..))
    | cons f es =>
      simp only [joinWith, List.append_assoc, List.cons_append, List.nil_append]
      rw [splitDouble_append _ _ (h e (List.mem_cons_self ..)),
        ih (by simp) (fun e he => h e (List.mem_cons_of_mem _ he))]

theorem tidy_noSpace (e : List Char) (he : ' ' ∉ e) : tidy e = true := by
  induction e with
  | nil => rfl
  | cons c e ih =>
    have hc : (c == ' ') = false := by
      simp only [beq_eq_false_iff_ne, ne_eq]
      rintro rfl
      exact he (List.mem_cons_self ..)
    cases e with
    | nil => simp [tidy, bne, hc]
    | cons d e =>
      simp only [tidy, hc, Bool.false_and, Bool.not_false, Bool.true_and]
      exact ih (fun h => he (List.mem_cons_of_mem _ h))

theorem tidy_append_space (e : List Char) (c : Char) (r : List Char) (hne : e ≠ [])
    (he : ' ' ∉ e) (hc : c ≠ ' ') (hr : tidy (c :: r) = true) :
    tidy (e ++ ' ' :: c :: r) = true := by
  induction e with
  | nil => exact absurd rfl hne
  | cons d e ih =>
    have hd : (d == ' ') = false := by
      simp only [beq_eq_false_iff_ne, ne_eq]
      rintro rfl
      exact he (List.mem_cons_self ..)
    have hcf : (c == ' ') = false := by simpa using hc
    cases e with
    | nil => simp [tidy, hd, hcf, hr]
    | cons f e =>
      simp only [List.cons_append, tidy, hd, Bool.false_and, Bool.not_false, Bool.true_and]
        at ih ⊢
      exact ih (by simp) (fun h => he (List.mem_cons_of_mem _ h))

theorem joinWith_cons_head (sep : List Char) (e : List Char) (es : List (List Char)) :
    ∃ r, joinWith sep (e :: es) = e ++ r := by
  cases es with
  | nil => exact ⟨[], by simp [joinWith]⟩
  | cons f es => exact ⟨sep ++ joinWith sep (f :: es), by simp [joinWith]⟩

theorem joinWith_concat_last (sep : List Char) (es : List (List Char)) (e : List Char) :
    ∃ r, joinWith sep (es ++ [e]) = r ++ e := by
  induction es with
  | nil => exact ⟨[], by simp [joinWith]⟩
  | cons f es ih =>
    obtain ⟨r, hr⟩ := ih
    cases es with
    | nil => exact ⟨f ++ sep, by simp [joinWith]⟩
    | cons g es =>
      refine ⟨f ++ sep ++ r, ?_⟩
      simp only [List.cons_append, joinWith] at hr ⊢
      rw [hr]
      simp

theorem tidy_join (es : List (List Char)) (hne : ∀ e ∈ es, e ≠ []) (h : ∀ e ∈ es, ' ' ∉ e) :
    tidy (joinWith [' '] es) = true := by
  induction es with
  | nil => rfl
  | cons e es ih =>
    cases es with
    | nil => exact tidy_noSpace e (h e (List.mem_cons_self ..))
    | cons f es =>
      have ih' := ih (fun e he => hne e (List.mem_cons_of_mem _ he))
        (fun e he => h e (List.mem_cons_of_mem _ he))
      obtain ⟨r, hr⟩ := joinWith_cons_head [' '] f es
      have hf : f ∈ e :: f :: es := by simp
      obtain ⟨c, f', rfl⟩ := List.exists_cons_of_ne_nil (hne f hf)
      have hc : c ≠ ' ' := by
        rintro rfl
        exact h _ hf (List.mem_cons_self ..)
      simp only [joinWith, List.append_assoc, List.cons_append, List.nil_append]
      rw [hr] at ih' ⊢
      exact tidy_append_space e c _ (hne e (List.mem_cons_self ..))
        (h e (List.mem_cons_self ..)) hc ih'

theorem trimWs_of_ends (s : List Char) (a b : Char) (m : List Char) (r : List Char)
    (h1 : s = a :: m) (h2 : s = r ++ [b]) (ha : isWs a = false) (hb : isWs b = false) :
    trimWs s = s := by
  have e1 : s.dropWhile isWs = s := by rw [h1]; simp [ha]
  simp only [trimWs, e1]
  rw [h2]
  simp [hb]

/-! ## Single instructions -/

/-- What the text format can express: one digit for the colour, and a state whose character is
not blank space and not the dot. -/
def InstrOk (i : Instr) : Prop :=
  i.1 < 10 ∧ i.2.2 < 256 ∧ isWs (showState i.2.2) = false ∧ showState i.2.2 ≠ '.'

theorem toDigits_lt_ten (n : Nat) (h : n < 10) :
    Nat.toDigits 10 n = [Char.ofNat (48 + n)] := by
  have : ∀ m < 10, Nat.toDigits 10 m = [Char.ofNat (48 + m)] := by decide
  exact this n h

theorem toNat_ofNat (n : Nat) (h : n < 256) : (Char.ofNat n).toNat = n := by
  have : ∀ m < 256, (Char.ofNat m).toNat = m := by decide +kernel
  exact this n h

theorem readState_showState (s : State) (h : s < 256) : readState (showState s) = s := by
  have : (Char.ofNat ((s % 256 + 65) % 256)).toNat = (s % 256 + 65) % 256 :=
    toNat_ofNat _ (Nat.mod_lt _ (by decide))
  simp only [readState, showState, this]
  delta State at *
  omega

theorem readColor_digit (n : Nat) (h : n < 10) : readColor (Char.ofNat (48 + n)) = some n := by
  have h1 : (Char.ofNat (48 + n)).toNat = 48 + n := toNat_ofNat _ (by omega)
  simp only [readColor, h1]
  rw [if_pos (by omega), Nat.add_sub_cancel_left]

theorem space_isWs : isWs ' ' = true := by decide

theorem showInstr_some (i : Instr) (h : InstrOk i) :
    showInstr (some i) = [Char.ofNat (48 + i.1), if i.2.1 then 'R' else 'L', showState i.2.2] := by
  obtain ⟨co, sh, st⟩ := i
  simp only [showInstr]
  rw [toDigits_lt_ten co h.1]
  rfl

theorem digit_ne (n : Nat) (h : n < 10) (c : Char) (hc : c.toNat < 48) :
    Char.ofNat (48 + n) ≠ c := by
  intro hcon
  have : (Char.ofNat (48 + n)).toNat = 48 + n := toNat_ofNat _ (by omega)
  rw [hcon] at this
  omega

theorem isWs_digit (n : Nat) (h : n < 10) : isWs (Char.ofNat (48 + n)) = false := by
  have : ∀ m < 10, isWs (Char.ofNat (48 + m)) = false := by decide
  exact this n h

theorem readInstr_showInstr (i : Option Instr) (h : ∀ j, i = some j → InstrOk j) :
    readInstr (showInstr i) = some i := by
  cases i with
  | none => decide
  | some i =>
    have hi := h i rfl
    rw [showInstr_some i hi]
    have hdot : ([Char.ofNat (48 + i.1), if i.2.1 then 'R' else 'L', showState i.2.2] :
        List Char).contains '.' = false := by
      simp only [List.contains_cons, List.contains_nil, Bool.or_false, Bool.or_eq_false_iff,
        beq_eq_false_iff_ne, ne_eq]
      refine ⟨fun h' => digit_ne i.1 hi.1 '.' (by decide) h'.symm, ?_,
        fun h' => hi.2.2.2 h'.symm⟩
      cases i.2.1 <;> decide
    simp only [readInstr, hdot, Bool.false_eq_true, if_false]
    rw [readColor_digit _ hi.1, readState_showState _ hi.2.1]
    obtain ⟨co, sh, st⟩ := i
    cases sh <;> rfl

theorem showInstr_noSpace (i : Option Instr) (h : ∀ j, i = some j → InstrOk j) :
    ' ' ∉ showInstr i := by
  cases i with
  | none => decide
  | some i =>
    have hi := h i rfl
    rw [showInstr_some i hi]
    simp only [List.mem_cons, List.not_mem_nil, or_false, not_or]
    refine ⟨fun h' => digit_ne i.1 hi.1 ' ' (by decide) h'.symm, ?_, ?_⟩
    · cases i.2.1 <;> decide
    · intro h'
      have := hi.2.2.1
      rw [← h', space_isWs] at this
      cases this

theorem showInstr_ends (i : Option Instr) (h : ∀ j, i = some j → InstrOk j) :
    ∃ a m b r, showInstr i = a :: m ∧ showInstr i = r ++ [b] ∧ isWs a = false ∧
      isWs b = false := by
  cases i with
  | none => exact ⟨'.', ['.', '.'], '.', ['.', '.'], rfl, rfl, by decide, by decide⟩
  | some i =>
    have hi := h i rfl
    rw [showInstr_some i hi]
    exact ⟨_, _, showState i.2.2, [Char.ofNat (48 + i.1), if i.2.1 then 'R' else 'L'], rfl, rfl,
      isWs_digit _ hi.1, hi.2.2.1⟩

/-! ## Grids -/

/-- The text of a grid of instructions. -/
def renderGrid (g : List (List (Option Instr))) : List Char :=
  joinWith [' ', ' '] (g.map fun row => joinWith [' '] (row.map showInstr))

/-- `S` rows of `C` entries the format can express. -/
structure GridOk (g : List (List (Option Instr))) (S C : Nat) : Prop where
  rows : g.length = S
  cols : ∀ row ∈ g, row.length = C
  rows_pos : 1 ≤ S
  cols_pos : 1 ≤ C
  instrs : ∀ row ∈ g, ∀ i, some i ∈ row → InstrOk i

theorem mapM_option_map {α β γ : Type} (f : α → β) (g : β → Option γ) (k : α → γ) (l : List α)
    (h : ∀ a ∈ l, g (f a) = some (k a)) : (l.map f).mapM g = some (l.map k) := by
  induction l with
  | nil => rfl
  | cons a l ih =>
    simp only [List.map_cons, List.mapM_cons, h a (List.mem_cons_self ..),
      ih (fun a ha => h a (List.mem_cons_of_mem _ ha))]
    rfl

theorem GridOk.row_ok {g : List (List (Option Instr))} {S C : Nat} (h : GridOk g S C)
    {row : List (Option Instr)} (hr : row ∈ g) :
    ∀ i ∈ row, ∀ j, i = some j → InstrOk j := by
  intro i hi j hj
  subst hj
  exact h.instrs row hr j hi

theorem GridOk.row_ne {g : List (List (Option Instr))} {S C : Nat} (h : GridOk g S C)
    {row : List (Option Instr)} (hr : row ∈ g) : row ≠ [] := by
  rintro rfl
  have := h.cols _ hr
  have := h.cols_pos
  simp at *
  omega

theorem parseRows_render (g : List (List (Option Instr))) (S C : Nat) (h : GridOk g S C) :
    parseRows (renderGrid g) = some g := by
  have hgne : g ≠ [] := by
    rintro rfl
    have := h.rows
    have := h.rows_pos
    simp at *
    omega
  simp only [parseRows, renderGrid]
  rw [splitDouble_join]
  · have := mapM_option_map (fun row => joinWith [' '] (row.map showInstr))
      (fun r => (splitSpace r).mapM readInstr) id g ?_
    · simpa using this
    · intro row hr
      simp only [id]
      rw [splitSpace_join]
      · have := mapM_option_map showInstr readInstr id row
          (fun i hi => readInstr_showInstr i (h.row_ok hr i hi))
        simpa using this
      · simpa using h.row_ne hr
      · intro e he
        obtain ⟨i, hi, rfl⟩ := List.mem_map.1 he
        exact showInstr_noSpace i (h.row_ok hr i hi)
  · simpa using hgne
  · intro r hr
    obtain ⟨row, hrow, rfl⟩ := List.mem_map.1 hr
    refine tidy_join _ ?_ ?_
    · intro e he
      obtain ⟨i, hi, rfl⟩ := List.mem_map.1 he
      obtain ⟨a, m, b, r, h1, -⟩ := showInstr_ends i (h.row_ok hrow i hi)
      simp [h1]
    · intro e he
      obtain ⟨i, hi, rfl⟩ := List.mem_map.1 he
      exact showInstr_noSpace i (h.row_ok hrow i hi)

theorem trimWs_render (g : List (List (Option Instr))) (S C : Nat) (h : GridOk g S C) :
    trimWs (renderGrid g) = renderGrid g := by
  have hgne : g ≠ [] := by
    rintro rfl
    have := h.rows
    have := h.rows_pos
    simp at *
    omega
  have hfirst : ∃ a m, renderGrid g = a :: m ∧ isWs a = false := by
    obtain ⟨row, g', rfl⟩ := List.exists_cons_of_ne_nil hgne
    obtain ⟨i, row', rfl⟩ := List.exists_cons_of_ne_nil (h.row_ne (List.mem_cons_self ..))
    obtain ⟨a, m, b, r, h1, -, h3, -⟩ := showInstr_ends i
      (h.row_ok (List.mem_cons_self ..) i (List.mem_cons_self ..))
    simp only [renderGrid, List.map_cons]
    obtain ⟨r1, hr1⟩ := joinWith_cons_head [' '] (showInstr i) (row'.map showInstr)
    obtain ⟨r2, hr2⟩ := joinWith_cons_head [' ', ' ']
      (joinWith [' '] (showInstr i :: row'.map showInstr))
      (g'.map fun row => joinWith [' '] (row.map showInstr))
    rw [hr2, hr1, h1]
    exact ⟨a, m ++ r1 ++ r2, by simp, h3⟩
  have hlast : ∃ b r, renderGrid g = r ++ [b] ∧ isWs b = false := by
    have hg := List.dropLast_concat_getLast hgne
    have hrow : g.getLast hgne ∈ g := List.getLast_mem _
    have hrne := h.row_ne hrow
    have hrw := List.dropLast_concat_getLast hrne
    obtain ⟨a, m, b, r, -, h2, -, h4⟩ := showInstr_ends ((g.getLast hgne).getLast hrne)
      (h.row_ok hrow _ (List.getLast_mem _))
    obtain ⟨r1, hr1⟩ := joinWith_concat_last [' '] ((g.getLast hgne).dropLast.map showInstr)
      (showInstr ((g.getLast hgne).getLast hrne))
    obtain ⟨r2, hr2⟩ := joinWith_concat_last [' ', ' ']
      (g.dropLast.map fun row => joinWith [' '] (row.map showInstr))
      (joinWith [' '] ((g.getLast hgne).map showInstr))
    refine ⟨b, r2 ++ r1 ++ r, ?_, h4⟩
    have e1 : renderGrid g = r2 ++ joinWith [' '] ((g.getLast hgne).map showInstr) := by
      rw [← hr2]
      conv => lhs; rw [← hg]
      simp [renderGrid]
    have e2 : joinWith [' '] ((g.getLast hgne).map showInstr)
        = r1 ++ showInstr ((g.getLast hgne).getLast hrne) := by
      rw [← hr1]
      conv => lhs; rw [← hrw]
      simp
    rw [e1, e2, h2]
    simp
  obtain ⟨a, m, h1, h2⟩ := hfirst
  obtain ⟨b, r, h3, h4⟩ := hlast
  exact trimWs_of_ends _ a b m r h1 h3 h2 h4

/-! ## Entries of a grid -/

theorem mem_rowEntries (st : State) (row : List (Option Instr)) (k : Nat) (e : Slot × Instr) :
    e ∈ rowEntries st k row ↔
      e.1.1 = st ∧ k ≤ e.1.2 ∧ row[e.1.2 - k]? = some (some e.2) := by
  induction row generalizing k with
  | nil => simp [rowEntries]
  | cons i row ih =>
    obtain ⟨⟨es, ec⟩, ei⟩ := e
    delta State Color at *
    have hsplit : (k ≤ ec ∧ (i :: row)[ec - k]? = some (some ei)) ↔
        (ec = k ∧ i = some ei) ∨ (k + 1 ≤ ec ∧ row[ec - (k + 1)]? = some (some ei)) := by
      by_cases hk : ec = k
      · subst hk
        constructor
        · rintro ⟨-, h⟩
          exact .inl ⟨rfl, by simpa using h⟩
        · rintro (⟨-, h⟩ | ⟨h, -⟩)
          · exact ⟨Nat.le_refl _, by simpa using h⟩
          · omega
      · constructor
        · rintro ⟨h1, h2⟩
          refine .inr ⟨by omega, ?_⟩
          have : ec - k = (ec - (k + 1)) + 1 := by omega
          rw [this] at h2
          simpa using h2
        · rintro (⟨h1, -⟩ | ⟨h1, h2⟩)
          · exact absurd h1 hk
          · refine ⟨by omega, ?_⟩
            have : ec - k = (ec - (k + 1)) + 1 := by omega
            rw [this]
            simpa using h2
    have ih' := ih (k + 1)
    simp only at ih' ⊢
    cases i with
    | none =>
      simp only [rowEntries]
      rw [ih', hsplit]
      simp
    | some i =>
      simp only [rowEntries, List.mem_cons, Prod.mk.injEq]
      rw [ih', hsplit]
      simp only [Option.some.injEq]
      constructor
      · rintro (⟨⟨h1, h2⟩, h3⟩ | ⟨h1, h2⟩)
        · exact ⟨h1, .inl ⟨h2, h3.symm⟩⟩
        · exact ⟨h1, .inr h2⟩
      · rintro ⟨h1, ⟨h2, h3⟩ | h2⟩
        · exact .inl ⟨⟨h1, h2⟩, h3.symm⟩
        · exact .inr ⟨h1, h2⟩

/-- The instruction at a place of a grid. -/
def gridGet (g : List (List (Option Instr))) (st co : Nat) : Option Instr :=
  ((g[st]?).bind fun row => row[co]?).join

theorem mem_gridEntries (g : List (List (Option Instr))) (k : Nat) (e : Slot × Instr) :
    e ∈ gridEntries k g ↔ k ≤ e.1.1 ∧ gridGet g (e.1.1 - k) e.1.2 = some e.2 := by
  induction g generalizing k with
  | nil => simp [gridEntries, gridGet]
  | cons row g ih =>
    obtain ⟨⟨es, ec⟩, ei⟩ := e
    delta State Color at *
    have ih' := ih (k + 1)
    have hm := mem_rowEntries k row 0 ((es, ec), ei)
    simp only at ih' hm ⊢
    simp only [gridEntries, List.mem_append]
    rw [ih', hm]
    by_cases hk : es = k
    · subst hk
      simp [gridGet, Option.join_eq_some_iff]
      intro h
      exact absurd h (Nat.not_succ_le_self _)
    · constructor
      · rintro (⟨h1, -⟩ | ⟨h1, h2⟩)
        · exact absurd h1 hk
        · refine ⟨by omega, ?_⟩
          have : es - k = (es - (k + 1)) + 1 := by omega
          rw [this]
          simpa [gridGet] using h2
      · rintro ⟨h1, h2⟩
        refine .inr ⟨by omega, ?_⟩
        have : es - k = (es - (k + 1)) + 1 := by omega
        rw [this] at h2
        simpa [gridGet] using h2

theorem rowEntries_sorted (st : State) (row : List (Option Instr)) (k : Nat) :
    Table.Sorted (rowEntries st k row) := by
  induction row generalizing k with
  | nil => exact List.Pairwise.nil
  | cons i row ih =>
    cases i with
    | none => exact ih _
    | some i =>
      refine List.pairwise_cons.2 ⟨?_, ih _⟩
      intro e he
      have := (mem_rowEntries _ _ _ _).1 he
      have h2 := this.2.1
      have h1 := this.1
      simp only [Slot.lt, Bool.or_eq_true, Bool.and_eq_true, beq_iff_eq, decide_eq_true_eq]
      exact .inr ⟨h1.symm, h2⟩

theorem gridEntries_sorted (g : List (List (Option Instr))) (k : Nat) :
    Table.Sorted (gridEntries k g) := by
  induction g generalizing k with
  | nil => exact List.Pairwise.nil
  | cons row g ih =>
    refine List.pairwise_append.2 ⟨rowEntries_sorted _ _ _, ih _, ?_⟩
    intro a ha b hb
    have h1 := ((mem_rowEntries _ _ _ _).1 ha).1
    have h2 := ((mem_gridEntries _ _ _).1 hb).1
    simp only [Slot.lt, Bool.or_eq_true, Bool.and_eq_true, beq_iff_eq, decide_eq_true_eq]
    refine .inl ?_
    rw [h1]
    exact h2

theorem get?_gridEntries (g : List (List (Option Instr))) (st co : Nat) :
    Table.get? (gridEntries 0 g) (st, co) = gridGet g st co := by
  cases h : gridGet g st co with
  | some i =>
    exact Table.get?_of_mem (gridEntries_sorted _ _)
      ((mem_gridEntries g 0 ((st, co), i)).2 ⟨Nat.zero_le _, by simpa using h⟩)
  | none =>
    refine Table.get?_eq_none.2 ?_
    intro e he hs
    have := ((mem_gridEntries g 0 e).1 he).2
    rw [hs] at this
    simp only [Nat.sub_zero] at this
    rw [h] at this
    cases this

theorem gridGet_eq (g : List (List (Option Instr))) (st co : Nat) (hs : st < g.length)
    (hc : co < g[st].length) : gridGet g st co = g[st][co] := by
  simp [gridGet, hs, hc]

theorem show_gridEntries (g : List (List (Option Instr))) (S C : Nat) (h : GridOk g S C) :
    Table.show (gridEntries 0 g) (some (S, C)) = renderGrid g := by
  simp only [Table.show, Option.getD_some, renderGrid]
  congr 1
  apply List.ext_getElem
  · simp [h.rows]
  · intro st h1 h2
    have hst : st < g.length := by simpa using h2
    have hcol := h.cols g[st] (List.getElem_mem _)
    simp only [List.getElem_map, List.getElem_range]
    congr 1
    apply List.ext_getElem
    · simp [hcol]
    · intro co h3 h4
      have hco : co < g[st].length := by simpa using h4
      simp only [List.getElem_map, List.getElem_range]
      rw [get?_gridEntries, gridGet_eq g st co hst hco]

/-- The grid of a table. -/
def Table.grid (t : Table) (S C : Nat) : List (List (Option Instr)) :=
  (List.range S).map fun st => (List.range C).map fun co => t.get? (st, co)

theorem render_grid (t : Table) (S C : Nat) : renderGrid (t.grid S C) = t.show (some (S, C)) := by
  simp [renderGrid, Table.grid, Table.show, Function.comp_def]

theorem grid_entries (t : Table) (S C : Nat) (ht : t.Sorted)
    (hin : ∀ e ∈ t, e.1.1 < S ∧ e.1.2 < C) : gridEntries 0 (t.grid S C) = t := by
  refine Table.ext (gridEntries_sorted _ _) ht ?_
  rintro ⟨st, co⟩
  rw [get?_gridEntries]
  by_cases hs : st < S
  · by_cases hc : co < C
    · simp [gridGet, Table.grid, hs, hc]
    · rw [Table.get?_eq_none.2]
      · simp [gridGet, Table.grid, hs, Nat.le_of_not_lt hc]
      · intro e he h'
        exact hc (by have := (hin e he).2; rwa [h'] at this)
  · rw [Table.get?_eq_none.2]
    · simp [gridGet, Table.grid, Nat.le_of_not_lt hs]
    · intro e he h'
      exact hs (by have := (hin e he).1; rwa [h'] at this)

theorem grid_ok (t : Table) (S C : Nat) (hS : 1 ≤ S) (hC : 1 ≤ C)
    (hi : ∀ e ∈ t, InstrOk e.2) : GridOk (t.grid S C) S C where
  rows := by simp [Table.grid]
  cols := by
    intro row hr
    obtain ⟨st, -, rfl⟩ := List.mem_map.1 hr
    simp
  rows_pos := hS
  cols_pos := hC
  instrs := by
    intro row hr i hir
    obtain ⟨st, -, rfl⟩ := List.mem_map.1 hr
    obtain ⟨co, -, h⟩ := List.mem_map.1 hir
    exact hi _ (Table.get?_mem h)

theorem defaultParams_bound (t : Table) :
    2 ≤ (defaultParams t).1 ∧ 2 ≤ (defaultParams t).2 ∧
    ∀ e ∈ t, e.1.1 < (defaultParams t).1 ∧ e.1.2 < (defaultParams t).2 := by
  have key : ∀ (t : Table) (m : Nat × Nat),
      let f := t.foldl (fun (m : Nat × Nat) e =>
        (max (max m.1 e.1.1) e.2.2.2, max (max m.2 e.1.2) e.2.1)) m
      m.1 ≤ f.1 ∧ m.2 ≤ f.2 ∧ ∀ e ∈ t, e.1.1 ≤ f.1 ∧ e.1.2 ≤ f.2 := by
    intro t
    induction t with
    | nil => intro m; simp
    | cons e t ih =>
      intro m
      obtain ⟨h1, h2, h3⟩ := ih (max (max m.1 e.1.1) e.2.2.2, max (max m.2 e.1.2) e.2.1)
      simp only at h1 h2
      delta State Color at *
      simp only [List.foldl_cons]
      refine ⟨by omega, by omega, ?_⟩
      intro e' he'
      rcases List.mem_cons.1 he' with rfl | he'
      · exact ⟨by omega, by omega⟩
      · exact h3 e' he'
  obtain ⟨h1, h2, h3⟩ := key t (1, 1)
  simp only at h1 h2
  simp only [defaultParams]
  refine ⟨by omega, by omega, ?_⟩
  intro e he
  exact ⟨Nat.lt_of_le_of_lt (h3 e he).1 (by omega), Nat.lt_of_le_of_lt (h3 e he).2 (by omega)⟩

end BB
