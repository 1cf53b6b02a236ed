import Verif.Lemmas.LinRado
import Verif.Lemmas.Run
import Verif.Props.Parse

/-!
# C72: the programs of the Lin-Rado test
-/

namespace BB
namespace LinRado

/-- A program with `S` states and `C` colours that begins with `1RB` and has an instruction at every
slot, or with `halt` at every slot but one. -/
structure Candidate (S C : Nat) (halt : Bool) (t : Table) : Prop where
  sorted : t.Sorted
  slots : ∀ e ∈ t, e.1.1 < S ∧ e.1.2 < C
  instrs : ∀ e ∈ t, e.2.1 < C ∧ e.2.2.2 < S
  first : t.get? (0, 0) = some (1, true, 1)
  size : t.length = if halt then S * C - 1 else S * C

theorem row_length (st : State) (row : List (Option Instr)) (k : Nat) :
    (rowEntries st k row).length + row.count none = row.length := by
  induction row generalizing k with
  | nil => rfl
  | cons o row ih =>
    have := ih (k + 1)
    cases o with
    | none => simp only [rowEntries, List.count_cons_self, List.length_cons]; omega
    | some i => simp [rowEntries]; omega

theorem grid_length {C : Nat} (g : List (List (Option Instr))) (k : Nat)
    (h : ∀ row ∈ g, row.length = C) : (gridEntries k g).length + missing g = g.length * C := by
  induction g generalizing k with
  | nil => simp [gridEntries, missing]
  | cons row g ih =>
    have h1 := ih (k + 1) (fun r hr => h r (List.mem_cons_of_mem _ hr))
    have h2 := row_length k row 0
    rw [h row (List.mem_cons_self ..)] at h2
    simp only [gridEntries, List.length_append, missing, List.flatten_cons, List.count_append,
      List.length_cons, Nat.add_mul, Nat.one_mul]
    simp only [missing] at h1
    omega

theorem Grid.ok {S C : Nat} {halt : Bool} {g : List (List (Option Instr))} (hg : Grid S C halt g)
    (hS : 1 ≤ S ∧ S ≤ 26) (hC : 2 ≤ C ∧ C ≤ 10) : GridOk g S C where
  rows := hg.rows
  cols := hg.cols
  rows_pos := hS.1
  cols_pos := by omega
  instrs := by
    intro row hr i hi
    have := hg.valid row hr _ hi
    exact instrOk_of_lt (Nat.lt_of_lt_of_le this.1 hC.2)
      (Nat.lt_of_lt_of_le this.2 (Nat.le_trans hS.2 (by decide)))

theorem gridGet_mem {g : List (List (Option Instr))} {st co : Nat} {i : Instr}
    (h : gridGet g st co = some i) : ∃ row ∈ g, some i ∈ row ∧ st < g.length ∧ co < row.length := by
  unfold gridGet at h
  cases h1 : g[st]? with
  | none => rw [h1] at h; simp at h
  | some row =>
    rw [h1] at h
    obtain ⟨hst, e1⟩ := List.getElem?_eq_some_iff.1 h1
    cases h2 : row[co]? with
    | none => rw [Option.bind_some, h2] at h; simp at h
    | some o =>
      rw [Option.bind_some, h2] at h
      obtain ⟨hco, e2⟩ := List.getElem?_eq_some_iff.1 h2
      have ho : o = some i := by simpa using h
      subst ho
      exact ⟨row, e1 ▸ List.getElem_mem _, e2 ▸ List.getElem_mem _, hst, hco⟩

/-- A grid of the enumeration, as a table. -/
theorem candidate_of_grid {S C : Nat} {halt : Bool} {g : List (List (Option Instr))}
    (hg : Grid S C halt g) (h1 : gridGet g 0 0 = some (1, true, 1))
    (h2 : halt = true → missing g = 1) : Candidate S C halt (gridEntries 0 g) := by
  have hmem : ∀ e ∈ gridEntries 0 g, gridGet g e.1.1 e.1.2 = some e.2 := by
    intro e he
    simpa using ((mem_gridEntries g 0 e).1 he).2
  have hlen := grid_length g 0 hg.cols
  rw [hg.rows] at hlen
  refine ⟨gridEntries_sorted _ _, ?_, ?_, ?_, ?_⟩
  · intro e he
    obtain ⟨row, hr, hi, h3, h4⟩ := gridGet_mem (hmem e he)
    rw [hg.rows] at h3
    rw [hg.cols row hr] at h4
    exact ⟨h3, h4⟩
  · intro e he
    obtain ⟨row, hr, hi, -⟩ := gridGet_mem (hmem e he)
    exact hg.valid row hr _ hi
  · rw [get?_gridEntries, h1]
  · cases halt with
    | true => have := h2 rfl; simp only [if_true]; omega
    | false =>
      have : missing g = 0 := by
        unfold missing
        rw [List.count_eq_zero]
        intro hn
        obtain ⟨row, hr, ho⟩ := List.mem_flatten.1 hn
        exact Bool.false_ne_true (hg.valid row hr none ho)
      simp only [if_false, Bool.false_eq_true]
      omega

/-- A candidate, as a grid. -/
theorem grid_of_candidate {S C : Nat} {halt : Bool} {t : Table} (ht : Candidate S C halt t)
    (hS : 1 ≤ S) (hC : 1 ≤ C) :
    Grid S C halt (t.grid S C) ∧ gridGet (t.grid S C) 0 0 = some (1, true, 1) ∧
      (halt = true → missing (t.grid S C) = 1) := by
  have hent := grid_entries t S C ht.sorted ht.slots
  have hcols : ∀ row ∈ t.grid S C, row.length = C := by
    intro row hr
    obtain ⟨st, -, rfl⟩ := List.mem_map.1 hr
    simp
  have hrows : (t.grid S C).length = S := by simp [Table.grid]
  have hlen := grid_length (t.grid S C) 0 hcols
  rw [hent, hrows, ht.size] at hlen
  have hpos : 1 ≤ S * C := Nat.mul_pos hS hC
  refine ⟨⟨hrows, hcols, ?_⟩, ?_, ?_⟩
  · intro row hr o ho
    cases o with
    | none =>
      cases halt with
      | true => rfl
      | false =>
        simp only [if_false, Bool.false_eq_true] at hlen
        have h0 : missing (t.grid S C) = 0 := by omega
        unfold missing at h0
        rw [List.count_eq_zero] at h0
        exact absurd (List.mem_flatten.2 ⟨row, hr, ho⟩) h0
    | some i =>
      obtain ⟨st, -, rfl⟩ := List.mem_map.1 hr
      obtain ⟨co, -, h⟩ := List.mem_map.1 ho
      exact ht.instrs _ (Table.get?_mem h)
  · have := get?_gridEntries (t.grid S C) 0 0
    rw [hent] at this
    rw [← this, ht.first]
  · intro hh
    rw [hh] at hlen
    simp only [if_true] at hlen
    omega

/-- **C72, what is tried.**  The texts tried are those of the candidates, and every candidate is tried. -/
theorem C72_programs (S C : Nat) (halt : Bool) (hS : 1 ≤ S ∧ S ≤ 26) (hC : 2 ≤ C ∧ C ≤ 10)
    (p : List Char) :
    p ∈ (programs S C halt []).map replaceHalt ↔
      ∃ t, Candidate S C halt t ∧ p = t.show (some (S, C)) := by
  rw [List.mem_map]
  constructor
  · rintro ⟨q, hq, rfl⟩
    obtain ⟨g, hg, rfl, h1, h2⟩ := (mem_programs S C halt hS hC q).1 hq
    refine ⟨gridEntries 0 g, candidate_of_grid hg h1 h2, ?_⟩
    rw [replace_text hS.2 hC.2 g hg.valid, show_gridEntries g S C (hg.ok hS hC)]
  · rintro ⟨t, ht, rfl⟩
    obtain ⟨hg, h1, h2⟩ := grid_of_candidate ht hS.1 (by omega)
    refine ⟨textOf act (t.grid S C), (mem_programs S C halt hS hC _).2 ⟨_, hg, rfl, h1, h2⟩, ?_⟩
    rw [replace_text hS.2 hC.2 _ hg.valid, render_grid]

/-- **C72, once.**  No text is tried twice, whatever the rejects are. -/
theorem C72_once (S C : Nat) (halt : Bool) (rejects : List (List Char)) (hS : 1 ≤ S ∧ S ≤ 26)
    (hC : 2 ≤ C ∧ C ≤ 10) : ((programs S C halt rejects).map replaceHalt).Nodup := by
  have hsub : ∀ p ∈ programs S C halt rejects, ∃ g, Grid S C halt g ∧ p = textOf act g := by
    intro p hp
    exact (mem_texts S C halt hS.2 hC p).1 (List.mem_of_mem_filter (List.mem_of_mem_filter hp))
  refine List.Nodup.map_on ?_ (((texts_nodup S C halt hS hC).filter _).filter _)
  intro p hp p' hp' h
  obtain ⟨g, hg, rfl⟩ := hsub p hp
  obtain ⟨g', hg', rfl⟩ := hsub p' hp'
  rw [replace_text hS.2 hC.2 g hg.valid, replace_text hS.2 hC.2 g' hg'.valid] at h
  have e1 := parseRows_render g S C (hg.ok hS hC)
  have e2 := parseRows_render g' S C (hg'.ok hS hC)
  rw [h, e2] at e1
  rw [Option.some.inj e1]

/-- **C72, the machine.**  The text tried for a candidate is read as the candidate. -/
theorem C72_machine (S C : Nat) (halt : Bool) (hS : 1 ≤ S ∧ S ≤ 26) (hC : 2 ≤ C ∧ C ≤ 10)
    (t : Table) (ht : Candidate S C halt t) : fromStr (t.show (some (S, C))) = some t :=
  C27_compile_show t S C ht.sorted hS.1 (by omega) ht.slots (fun e he =>
    ⟨Nat.lt_of_lt_of_le (ht.instrs e he).1 hC.2,
      Nat.lt_of_lt_of_le (ht.instrs e he).2 (Nat.le_trans hS.2 (by decide))⟩)

/-! ## What the patterns leave out -/

/-- A machine that, from now on, is in two states that have instructions for both colours and do not
leave for another state does not halt. -/
theorem stays {p : Prog} {a b : State}
    (h : ∀ s, s = a ∨ s = b → ∀ c < 2, ∃ i, p (s, c) = some i ∧ i.1 < 2 ∧ (i.2.2 = a ∨ i.2.2 = b))
    (c : Cfg) (hc : c.state = a ∨ c.state = b) (ht : ∀ x, c.tape x < 2) : NeverHalts p c := by
  refine neverHalts_of_invariant (fun c => (c.state = a ∨ c.state = b) ∧ ∀ x, c.tape x < 2)
    ?_ ⟨hc, ht⟩
  rintro d ⟨h1, h2⟩
  obtain ⟨i, h3, h4, h5⟩ := h d.state h1 (d.tape d.pos) (h2 _)
  refine ⟨1, d.exec i, Nat.one_pos, by rw [runFor_one]; exact step_some h3, h5, ?_⟩
  intro x
  simp only [Cfg.exec]
  split
  · exact h4
  · exact h2 x

/-- What an entry at a place of a pattern with the class `[ab]` says. -/
theorem entry_class {halt : Bool} {o : Option Instr} (h : Valid 3 2 halt o) (a : Nat) (ha : a < 3)
    (b : Nat) (hb : b < 3)
    (hc : ∀ x y z, act o = [x, y, z] → z = Char.ofNat (65 + a) ∨ z = Char.ofNat (65 + b)) :
    ∃ i, o = some i ∧ i.1 < 2 ∧ (i.2.2 = a ∨ i.2.2 = b) := by
  cases o with
  | none =>
    have := hc _ _ _ rfl
    rcases this with h | h
    · exact absurd h.symm (letter_facts a (by omega)).1
    · exact absurd h.symm (letter_facts b (by omega)).1
  | some i =>
    refine ⟨i, rfl, h.1, ?_⟩
    have key : ∀ k < 3, Char.ofNat (65 + i.2.2) = Char.ofNat (65 + k) → i.2.2 = k := by
      intro k hk he
      have l1 := (letter_facts i.2.2 (Nat.lt_of_lt_of_le h.2 (by decide))).2.2.2.2
      have l2 := (letter_facts k (by omega)).2.2.2.2
      rw [he, l2] at l1
      exact (Nat.add_left_cancel l1).symm
    rcases hc _ _ _ rfl with h | h
    · exact .inl (key a ha h)
    · exact .inr (key b hb h)

theorem lt_two {c : Nat} (h : c < 2) : c = 0 ∨ c = 1 := by omega

theorem match_at {ps : List (Char → Bool)} : ∀ {cs : List Char}, matchStart ps cs = true →
    ∀ (k : Nat) (p : Char → Bool), ps[k]? = some p → ∀ c, cs[k]? = some c → p c = true := by
  induction ps with
  | nil => intro cs _ k p h; simp at h
  | cons q ps ih =>
    intro cs h k p hp c hc
    cases cs with
    | nil => simp [matchStart] at h
    | cons d cs =>
      rw [matchStart, Bool.and_eq_true] at h
      cases k with
      | zero =>
        simp only [List.getElem?_cons_zero, Option.some.injEq] at hp hc
        subst hp hc
        exact h.1
      | succ k =>
        rw [List.getElem?_cons_succ] at hp hc
        exact ih h.2 k p hp c hc

theorem class_at {re s : List Char} (h : reMatch re s = true) (k : Nat) (a b : Char)
    (hp : (pattern re)[k]? = some fun c => c == a || c == b) (c : Char) (hc : s[k]? = some c) :
    c = a ∨ c = b := by
  have := match_at h k _ hp c hc
  simpa using this

theorem three_rows {halt : Bool} {g : List (List (Option Instr))} (hg : Grid 3 2 halt g) :
    ∃ o0 o1 o2 o3 o4 o5, g = [[o0, o1], [o2, o3], [o4, o5]] := by
  match g, hg.rows with
  | [r0, r1, r2], _ =>
    have h0 := hg.cols r0 (by simp)
    have h1 := hg.cols r1 (by simp)
    have h2 := hg.cols r2 (by simp)
    match r0, h0, r1, h1, r2, h2 with
    | [o0, o1], _, [o2, o3], _, [o4, o5], _ => exact ⟨o0, o1, o2, o3, o4, o5, rfl⟩

/-- **C72, what is left out.**  A program with three states and two colours that the patterns leave out
never halts. -/
theorem C72_rejects (halt : Bool) (p : List Char) (hp : p ∈ programs 3 2 halt [])
    (hr : p ∉ programs 3 2 halt NOT_CONNECTED_32) :
    ∃ t, fromStr (replaceHalt p) = some t ∧ NeverHalts t.get? initCfg := by
  have hmatch : reMatch AB_LOOP p = true ∨ reMatch BC_LOOP p = true := by
    by_contra hno
    rw [not_or, Bool.not_eq_true, Bool.not_eq_true] at hno
    refine hr (List.mem_filter.2 ⟨List.mem_of_mem_filter hp, ?_⟩)
    simp [NOT_CONNECTED_32, hno.1, hno.2]
  obtain ⟨g, hg, rfl, h1, -⟩ := (mem_programs 3 2 halt (by decide) (by decide) p).1 hp
  obtain ⟨o0, o1, o2, o3, o4, o5, rfl⟩ := three_rows hg
  have hS : 1 ≤ 3 ∧ 3 ≤ 26 := by decide
  have hC : 2 ≤ 2 ∧ 2 ≤ 10 := by decide
  have hv : ∀ o ∈ [o0, o1, o2, o3, o4, o5], Valid 3 2 halt o := by
    intro o ho
    simp only [List.mem_cons, List.not_mem_nil, or_false] at ho
    rcases ho with rfl | rfl | rfl | rfl | rfl | rfl
    · exact hg.valid [o, o1] (by simp) o (by simp)
    · exact hg.valid [o0, o] (by simp) o (by simp)
    · exact hg.valid [o, o3] (by simp) o (by simp)
    · exact hg.valid [o2, o] (by simp) o (by simp)
    · exact hg.valid [o, o5] (by simp) o (by simp)
    · exact hg.valid [o4, o] (by simp) o (by simp)
  have hfrom : fromStr (replaceHalt (textOf act [[o0, o1], [o2, o3], [o4, o5]]))
      = some (gridEntries 0 [[o0, o1], [o2, o3], [o4, o5]]) := by
    rw [replace_text hS.2 hC.2 _ hg.valid]
    have hok := hg.ok hS hC
    simp only [fromStr]
    rw [trimWs_render _ 3 2 hok, parseRows_render _ 3 2 hok, Option.map_some,
      Table.collect_sorted _ (gridEntries_sorted _ _)]
  refine ⟨_, hfrom, ?_⟩
  have hget : ∀ st co, Table.get? (gridEntries 0 [[o0, o1], [o2, o3], [o4, o5]]) (st, co)
      = gridGet [[o0, o1], [o2, o3], [o4, o5]] st co := get?_gridEntries _
  have ho0 : o0 = some (1, true, 1) := by simpa [gridGet] using h1
  obtain ⟨a1, b1, c1, e1, -⟩ := act_chars hS.2 hC.2 (hv o1 (by simp))
  obtain ⟨a2, b2, c2, e2, -⟩ := act_chars hS.2 hC.2 (hv o2 (by simp))
  obtain ⟨a3, b3, c3, e3, -⟩ := act_chars hS.2 hC.2 (hv o3 (by simp))
  obtain ⟨a4, b4, c4, e4, -⟩ := act_chars hS.2 hC.2 (hv o4 (by simp))
  obtain ⟨a5, b5, c5, e5, -⟩ := act_chars hS.2 hC.2 (hv o5 (by simp))
  have htext : textOf act [[o0, o1], [o2, o3], [o4, o5]]
      = ['1', 'R', 'B', ' ', a1, b1, c1, ' ', ' ', a2, b2, c2, ' ', a3, b3, c3, ' ', ' ',
        a4, b4, c4, ' ', a5, b5, c5] := by
    have e0 : act o0 = ['1', 'R', 'B'] := by rw [ho0]; decide
    simp only [textOf, List.map_cons, List.map_nil, joinWith, e0, e1, e2, e3, e4, e5, List.cons_append,
      List.nil_append]
  rw [htext] at hmatch
  rcases hmatch with hm | hm
  · have hm' : (c1 = 'A' ∨ c1 = 'B') ∧ (c2 = 'A' ∨ c2 = 'B') ∧ (c3 = 'A' ∨ c3 = 'B') := by
      have q1 := class_at hm 6 'A' 'B' rfl c1 rfl
      have q2 := class_at hm 11 'A' 'B' rfl c2 rfl
      have q3 := class_at hm 15 'A' 'B' rfl c3 rfl
      exact ⟨q1, q2, q3⟩
    obtain ⟨m1, m2, m3⟩ := hm'
    obtain ⟨i1, rfl, k1⟩ := entry_class (hv o1 (by simp)) 0 (by decide) 1 (by decide)
      (by intro x y z h; rw [e1] at h; simp at h; rw [← h.2.2]; exact m1)
    obtain ⟨i2, rfl, k2⟩ := entry_class (hv o2 (by simp)) 0 (by decide) 1 (by decide)
      (by intro x y z h; rw [e2] at h; simp at h; rw [← h.2.2]; exact m2)
    obtain ⟨i3, rfl, k3⟩ := entry_class (hv o3 (by simp)) 0 (by decide) 1 (by decide)
      (by intro x y z h; rw [e3] at h; simp at h; rw [← h.2.2]; exact m3)
    refine stays (a := 0) (b := 1) ?_ initCfg (.inl rfl) (fun _ => Nat.zero_lt_two)
    intro s hs c hc
    have hc' : c = 0 ∨ c = 1 := lt_two hc
    rcases hs with rfl | rfl <;> rcases hc' with rfl | rfl
    · exact ⟨(1, true, 1), by rw [hget, ho0]; rfl, by decide, .inr rfl⟩
    · exact ⟨i1, by rw [hget]; rfl, k1⟩
    · exact ⟨i2, by rw [hget]; rfl, k2⟩
    · exact ⟨i3, by rw [hget]; rfl, k3⟩
  · have hm' : (c2 = 'B' ∨ c2 = 'C') ∧ (c3 = 'B' ∨ c3 = 'C') ∧ (c4 = 'B' ∨ c4 = 'C') ∧
        (c5 = 'B' ∨ c5 = 'C') := by
      have q2 := class_at hm 11 'B' 'C' rfl c2 rfl
      have q3 := class_at hm 15 'B' 'C' rfl c3 rfl
      have q4 := class_at hm 20 'B' 'C' rfl c4 rfl
      have q5 := class_at hm 24 'B' 'C' rfl c5 rfl
      exact ⟨q2, q3, q4, q5⟩
    obtain ⟨m2, m3, m4, m5⟩ := hm'
    obtain ⟨i2, rfl, k2⟩ := entry_class (hv o2 (by simp)) 1 (by decide) 2 (by decide)
      (by intro x y z h; rw [e2] at h; simp at h; rw [← h.2.2]; exact m2)
    obtain ⟨i3, rfl, k3⟩ := entry_class (hv o3 (by simp)) 1 (by decide) 2 (by decide)
      (by intro x y z h; rw [e3] at h; simp at h; rw [← h.2.2]; exact m3)
    obtain ⟨i4, rfl, k4⟩ := entry_class (hv o4 (by simp)) 1 (by decide) 2 (by decide)
      (by intro x y z h; rw [e4] at h; simp at h; rw [← h.2.2]; exact m4)
    obtain ⟨i5, rfl, k5⟩ := entry_class (hv o5 (by simp)) 1 (by decide) 2 (by decide)
      (by intro x y z h; rw [e5] at h; simp at h; rw [← h.2.2]; exact m5)
    have hstep : runFor (Table.get? (gridEntries 0 [[o0, o1], [some i2, some i3], [some i4, some i5]])) 1
        initCfg = some (initCfg.exec (1, true, 1)) := by
      rw [runFor_one]
      refine step_some ?_
      show Table.get? _ (0, 0) = _
      rw [hget, ho0]; rfl
    refine NeverHalts.of_later hstep (stays (a := 1) (b := 2) ?_ _ (.inl rfl) ?_)
    · intro s hs c hc
      have hc' : c = 0 ∨ c = 1 := lt_two hc
      rcases hs with rfl | rfl <;> rcases hc' with rfl | rfl
      · exact ⟨i2, by rw [hget]; rfl, k2⟩
      · exact ⟨i3, by rw [hget]; rfl, k3⟩
      · exact ⟨i4, by rw [hget]; rfl, k4⟩
      · exact ⟨i5, by rw [hget]; rfl, k5⟩
    · intro x
      show (if x = initCfg.pos then 1 else 0) < 2
      split <;> decide

/-- **C72, what remains.**  A candidate with three states and two colours that halts is still tried. -/
theorem C72_kept (halt : Bool) (t : Table) (ht : Candidate 3 2 halt t)
    (hh : ¬ NeverHalts t.get? initCfg) :
    t.show (some (3, 2)) ∈ (programs 3 2 halt NOT_CONNECTED_32).map replaceHalt := by
  have h1 := (C72_programs 3 2 halt (by decide) (by decide) _).2 ⟨t, ht, rfl⟩
  obtain ⟨p, hp, he⟩ := List.mem_map.1 h1
  by_cases hr : p ∈ programs 3 2 halt NOT_CONNECTED_32
  · exact List.mem_map.2 ⟨p, hr, he⟩
  · obtain ⟨t', h2, h3⟩ := C72_rejects halt p hp hr
    rw [he, C72_machine 3 2 halt (by decide) (by decide) t ht] at h2
    rw [Option.some.inj h2] at hh
    exact absurd h3 hh

/-- Two states that have all their instructions and go only to each other and to themselves. -/
def Closed (t : Table) (a b : State) : Prop :=
  ∀ s, s = a ∨ s = b → ∀ c < 2, ∃ i, t.get? (s, c) = some i ∧ (i.2.2 = a ∨ i.2.2 = b)

theorem act_line {halt : Bool} {o : Option Instr} (h : Valid 3 2 halt o) :
    ∃ x y z, act o = [x, y, z] ∧ x ≠ '\n' ∧ y ≠ '\n' ∧ z ≠ '\n' ∧
      ∀ i, o = some i → z = Char.ofNat (65 + i.2.2) := by
  cases o with
  | none => exact ⟨'1', 'R', '_', rfl, by decide, by decide, by decide, fun i h => by cases h⟩
  | some i =>
    obtain ⟨c, sh, s⟩ := i
    refine ⟨_, _, _, rfl, ?_, ?_, ?_, fun j hj => by cases hj; rfl⟩
    · have h1 : ∀ c < 2, Char.ofNat (48 + c) ≠ '\n' := by decide
      exact h1 c h.1
    · show (if sh = true then 'R' else 'L') ≠ '\n'
      cases sh <;> decide
    · have h1 : ∀ s < 3, Char.ofNat (65 + s) ≠ '\n' := by decide
      exact h1 s h.2

def is (x : Char) : Char → Bool := fun c => c == x
def dot : Char → Bool := fun c => c != '\n'
def cls (a b : Char) : Char → Bool := fun c => c == a || c == b

theorem is_self (x : Char) : is x x = true := by simp [is]
theorem dot_of {c : Char} (h : c ≠ '\n') : dot c = true := by simp [dot, h]
theorem cls_of {a b c : Char} (h : c = a ∨ c = b) : cls a b c = true := by
  rcases h with h | h <;> simp [cls, h]

/-- **C72, all of them.**  The patterns leave out every program in which A and B, or B and C, are
closed. -/
theorem C72_open (halt : Bool) (p : List Char) (hp : p ∈ programs 3 2 halt NOT_CONNECTED_32)
    (t : Table) (hpt : fromStr (replaceHalt p) = some t) : ¬ Closed t 0 1 ∧ ¬ Closed t 1 2 := by
  have hno : reMatch AB_LOOP p = false ∧ reMatch BC_LOOP p = false := by
    have := (List.mem_filter.1 hp).2
    simpa [NOT_CONNECTED_32] using this
  have hp0 : p ∈ programs 3 2 halt [] := by
    refine List.mem_filter.2 ⟨List.mem_of_mem_filter hp, ?_⟩
    simp
  obtain ⟨g, hg, rfl, h1, -⟩ := (mem_programs 3 2 halt (by decide) (by decide) p).1 hp0
  obtain ⟨o0, o1, o2, o3, o4, o5, rfl⟩ := three_rows hg
  have hS : 1 ≤ 3 ∧ 3 ≤ 26 := by decide
  have hC : 2 ≤ 2 ∧ 2 ≤ 10 := by decide
  have hfrom : fromStr (replaceHalt (textOf act [[o0, o1], [o2, o3], [o4, o5]]))
      = some (gridEntries 0 [[o0, o1], [o2, o3], [o4, o5]]) := by
    rw [replace_text hS.2 hC.2 _ hg.valid]
    have hok := hg.ok hS hC
    simp only [fromStr]
    rw [trimWs_render _ 3 2 hok, parseRows_render _ 3 2 hok, Option.map_some,
      Table.collect_sorted _ (gridEntries_sorted _ _)]
  rw [hfrom] at hpt
  cases hpt
  have hget : ∀ st co, Table.get? (gridEntries 0 [[o0, o1], [o2, o3], [o4, o5]]) (st, co)
      = gridGet [[o0, o1], [o2, o3], [o4, o5]] st co := get?_gridEntries _
  have ho0 : o0 = some (1, true, 1) := by simpa [gridGet] using h1
  obtain ⟨a1, b1, c1, e1, n1, m1, l1, k1⟩ := act_line (hg.valid [o0, o1] (by simp) o1 (by simp))
  obtain ⟨a2, b2, c2, e2, n2, m2, l2, k2⟩ := act_line (hg.valid [o2, o3] (by simp) o2 (by simp))
  obtain ⟨a3, b3, c3, e3, n3, m3, l3, k3⟩ := act_line (hg.valid [o2, o3] (by simp) o3 (by simp))
  obtain ⟨a4, b4, c4, e4, n4, m4, l4, k4⟩ := act_line (hg.valid [o4, o5] (by simp) o4 (by simp))
  obtain ⟨a5, b5, c5, e5, n5, m5, l5, k5⟩ := act_line (hg.valid [o4, o5] (by simp) o5 (by simp))
  have htext : textOf act [[o0, o1], [o2, o3], [o4, o5]]
      = ['1', 'R', 'B', ' ', a1, b1, c1, ' ', ' ', a2, b2, c2, ' ', a3, b3, c3, ' ', ' ',
        a4, b4, c4, ' ', a5, b5, c5] := by
    have e0 : act o0 = ['1', 'R', 'B'] := by rw [ho0]; decide
    simp only [textOf, List.map_cons, List.map_nil, joinWith, e0, e1, e2, e3, e4, e5, List.cons_append,
      List.nil_append]
  rw [htext] at hno
  have key : ∀ {o : Option Instr} {z : Char} {a b : State}, (∀ i, o = some i → z = Char.ofNat (65 + i.2.2)) →
      (∃ i, o = some i ∧ (i.2.2 = a ∨ i.2.2 = b)) → z = Char.ofNat (65 + a) ∨ z = Char.ofNat (65 + b) := by
    rintro o z a b h ⟨i, hi, rfl | rfl⟩
    · exact .inl (h i hi)
    · exact .inr (h i hi)
  constructor
  · intro hc
    have q1 : c1 = 'A' ∨ c1 = 'B' := key (a := 0) (b := 1) k1 (by have := hc 0 (.inl rfl) 1 (by decide); rwa [hget] at this)
    have q2 : c2 = 'A' ∨ c2 = 'B' := key (a := 0) (b := 1) k2 (by have := hc 1 (.inr rfl) 0 (by decide); rwa [hget] at this)
    have q3 : c3 = 'A' ∨ c3 = 'B' := key (a := 0) (b := 1) k3 (by have := hc 1 (.inr rfl) 1 (by decide); rwa [hget] at this)
    have hm : reMatch AB_LOOP ['1', 'R', 'B', ' ', a1, b1, c1, ' ', ' ', a2, b2, c2, ' ', a3, b3, c3,
        ' ', ' ', a4, b4, c4, ' ', a5, b5, c5] = true := by
      rw [reMatch, show pattern AB_LOOP = [is '1', is 'R', is 'B', is ' ', dot, dot, cls 'A' 'B', is ' ', is ' ',
        dot, dot, cls 'A' 'B', is ' ', dot, dot, cls 'A' 'B', is ' ', is ' ', dot, dot, dot, is ' ',
        dot, dot, dot] from rfl]
      simp only [matchStart, is_self, dot_of n1, dot_of m1, dot_of n2, dot_of m2, dot_of n3, dot_of m3,
        dot_of n4, dot_of m4, dot_of l4, dot_of n5, dot_of m5, dot_of l5, cls_of q1, cls_of q2, cls_of q3,
        Bool.and_self]
    rw [hm] at hno
    exact absurd hno.1 (by decide)
  · intro hc
    have q2 : c2 = 'B' ∨ c2 = 'C' := key (a := 1) (b := 2) k2 (by have := hc 1 (.inl rfl) 0 (by decide); rwa [hget] at this)
    have q3 : c3 = 'B' ∨ c3 = 'C' := key (a := 1) (b := 2) k3 (by have := hc 1 (.inl rfl) 1 (by decide); rwa [hget] at this)
    have q4 : c4 = 'B' ∨ c4 = 'C' := key (a := 1) (b := 2) k4 (by have := hc 2 (.inr rfl) 0 (by decide); rwa [hget] at this)
    have q5 : c5 = 'B' ∨ c5 = 'C' := key (a := 1) (b := 2) k5 (by have := hc 2 (.inr rfl) 1 (by decide); rwa [hget] at this)
    have hm : reMatch BC_LOOP ['1', 'R', 'B', ' ', a1, b1, c1, ' ', ' ', a2, b2, c2, ' ', a3, b3, c3,
        ' ', ' ', a4, b4, c4, ' ', a5, b5, c5] = true := by
      rw [reMatch, show pattern BC_LOOP = [is '1', is 'R', is 'B', is ' ', dot, dot, dot, is ' ', is ' ',
        dot, dot, cls 'B' 'C', is ' ', dot, dot, cls 'B' 'C', is ' ', is ' ', dot, dot, cls 'B' 'C', is ' ',
        dot, dot, cls 'B' 'C'] from rfl]
      simp only [matchStart, is_self, dot_of n1, dot_of m1, dot_of l1, dot_of n2, dot_of m2, dot_of n3,
        dot_of m3, dot_of n4, dot_of m4, dot_of n5, dot_of m5, cls_of q2, cls_of q3, cls_of q4, cls_of q5,
        Bool.and_self]
    rw [hm] at hno
    exact absurd hno.2 (by decide)

/-- Two states and two colours, one slot without instruction: the number of programs, and one of them;
both patterns at work on programs of three states. -/
theorem C72_example :
    (programs 2 2 true []).length = 192 ∧
    "1RB 1LB  1LA 1R_".toList ∈ programs 2 2 true [] ∧
    reMatch AB_LOOP "1RB 1LA  0LA 0RB  1R_ 0RC".toList = true ∧
    reMatch BC_LOOP "1RB 1R_  1LB 0RC  0LC 1RB".toList = true ∧
    reMatch AB_LOOP "1RB 1R_  1LB 0RA  0LC 1RB".toList = false := by decide +kernel

end LinRado
end BB
