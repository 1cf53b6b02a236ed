import Verif.Model.LinRado
import Verif.Lemmas.Parse
import Mathlib.Data.List.Nodup

/-!
# The enumerated programs
-/

namespace BB
namespace LinRado

theorem mem_seqs {α : Type} (xs : List α) (n : Nat) (l : List α) :
    l ∈ seqs xs n ↔ l.length = n ∧ ∀ x ∈ l, x ∈ xs := by
  induction n generalizing l with
  | zero =>
    simp only [seqs, List.mem_singleton]
    constructor
    · rintro rfl; simp
    · rintro ⟨h, -⟩; exact List.length_eq_zero_iff.1 h
  | succ n ih =>
    simp only [seqs, List.mem_flatMap, List.mem_map]
    constructor
    · rintro ⟨x, hx, l', hl', rfl⟩
      obtain ⟨h1, h2⟩ := (ih l').1 hl'
      refine ⟨by simp [h1], ?_⟩
      intro y hy
      rcases List.mem_cons.1 hy with rfl | hy
      · exact hx
      · exact h2 y hy
    · rintro ⟨h1, h2⟩
      cases l with
      | nil => simp at h1
      | cons x l =>
        exact ⟨x, h2 x (List.mem_cons_self ..), l,
          (ih l).2 ⟨by simpa using h1, fun y hy => h2 y (List.mem_cons_of_mem _ hy)⟩, rfl⟩

theorem seqs_nodup {α : Type} (xs : List α) (h : xs.Nodup) (n : Nat) : (seqs xs n).Nodup := by
  induction n with
  | zero => simp [seqs]
  | succ n ih =>
    rw [seqs, List.nodup_flatMap]
    refine ⟨fun x _ => ih.map (fun a b hab => by simpa using hab), ?_⟩
    refine List.Pairwise.imp_of_mem ?_ h
    intro a b _ _ hab
    simp only [Function.onFun, List.disjoint_left]
    intro l hl hl'
    obtain ⟨l1, -, rfl⟩ := List.mem_map.1 hl
    obtain ⟨l2, -, h2⟩ := List.mem_map.1 hl'
    simp only [List.cons.injEq] at h2
    exact hab h2.1.symm

/-- The text of an action. -/
def act : Option Instr → List Char
  | none => ['1', 'R', '_']
  | some i => [Char.ofNat (48 + i.1), if i.2.1 then 'R' else 'L', Char.ofNat (65 + i.2.2)]

/-- An action that may be chosen. -/
def Valid (S C : Nat) (halt : Bool) : Option Instr → Prop
  | none => halt = true
  | some i => i.1 < C ∧ i.2.2 < S

theorem letter_facts : ∀ s < 26, Char.ofNat (65 + s) ≠ '_' ∧ Char.ofNat (65 + s) ≠ ' ' ∧
    Char.ofNat (65 + s) ≠ '1' ∧ Char.ofNat (65 + s) = showState s ∧
    (Char.ofNat (65 + s)).toNat = 65 + s := by decide

theorem digit_facts : ∀ n < 10, Char.ofNat (48 + n) ≠ ' ' ∧ Char.ofNat (48 + n) ≠ '_' ∧
    (Char.ofNat (48 + n)).toNat = 48 + n := by decide

theorem mem_actions (S C : Nat) (halt : Bool) (hS : S ≤ 26) (hC : 2 ≤ C ∧ C ≤ 10) (a : List Char) :
    a ∈ actions S C halt ↔ ∃ o, Valid S C halt o ∧ a = act o := by
  unfold actions
  rw [List.mem_filter, List.mem_flatMap]
  constructor
  · rintro ⟨⟨c, hc, h⟩, hf⟩
    rw [List.mem_range] at hc
    obtain ⟨sh, hsh, h⟩ := List.mem_flatMap.1 h
    obtain ⟨st, hst, rfl⟩ := List.mem_map.1 h
    rw [toDigits_lt_ten c (by omega)] at hf ⊢
    have hsh' : sh = if sh == 'R' then 'R' else 'L' := by
      simp only [List.mem_cons, List.not_mem_nil, or_false] at hsh
      rcases hsh with rfl | rfl <;> rfl
    rw [List.mem_append] at hst
    rcases hst with hst | hst
    · obtain ⟨s, hs, rfl⟩ := List.mem_map.1 hst
      rw [List.mem_range] at hs
      refine ⟨some (c, sh == 'R', s), ⟨hc, hs⟩, ?_⟩
      simp only [act]
      rw [← hsh']
      rfl
    · cases halt with
      | false => cases hst
      | true =>
        simp only [if_true, List.mem_singleton] at hst
        subst hst
        refine ⟨none, rfl, ?_⟩
        simpa [act] using hf
  · rintro ⟨o, ho, rfl⟩
    cases o with
    | none =>
      have ho' : halt = true := ho
      subst ho'
      refine ⟨⟨1, List.mem_range.2 (by omega), ?_⟩, by decide⟩
      refine List.mem_flatMap.2 ⟨'R', by decide, List.mem_map.2 ⟨'_', ?_, by decide⟩⟩
      simp
    | some i =>
      obtain ⟨c, sh, s⟩ := i
      obtain ⟨h1, h2⟩ := ho
      simp only at h1 h2
      refine ⟨⟨c, List.mem_range.2 h1, ?_⟩, ?_⟩
      · refine List.mem_flatMap.2 ⟨if sh then 'R' else 'L', by cases sh <;> decide, ?_⟩
        refine List.mem_map.2 ⟨Char.ofNat (65 + s), ?_, ?_⟩
        · exact List.mem_append_left _ (List.mem_map.2 ⟨s, List.mem_range.2 h2, rfl⟩)
        · have : c < 10 := Nat.lt_of_lt_of_le h1 hC.2
          rw [toDigits_lt_ten c this]; rfl
      · have := (letter_facts s (Nat.lt_of_lt_of_le h2 hS)).1
        simp [act, this]

theorem act_inj (S C : Nat) (halt : Bool) (hS : S ≤ 26) (hC : C ≤ 10) {o o' : Option Instr}
    (h : Valid S C halt o) (h' : Valid S C halt o') (he : act o = act o') : o = o' := by
  cases o with
  | none =>
    cases o' with
    | none => rfl
    | some i =>
      simp only [act, List.cons.injEq] at he
      exact absurd he.2.2.1.symm (letter_facts _ (Nat.lt_of_lt_of_le h'.2 hS)).1
  | some i =>
    cases o' with
    | none =>
      simp only [act, List.cons.injEq] at he
      exact absurd he.2.2.1 (letter_facts _ (Nat.lt_of_lt_of_le h.2 hS)).1
    | some j =>
      obtain ⟨c, sh, s⟩ := i
      obtain ⟨c', sh', s'⟩ := j
      simp only [act, List.cons.injEq, and_true] at he
      obtain ⟨e1, e2, e3⟩ := he
      have d1 := (digit_facts c (Nat.lt_of_lt_of_le h.1 hC)).2.2
      have d2 := (digit_facts c' (Nat.lt_of_lt_of_le h'.1 hC)).2.2
      have l1 := (letter_facts s (Nat.lt_of_lt_of_le h.2 hS)).2.2.2.2
      have l2 := (letter_facts s' (Nat.lt_of_lt_of_le h'.2 hS)).2.2.2.2
      rw [e1] at d1
      rw [e3] at l1
      have f1 : 48 + c = 48 + c' := d1.symm.trans d2
      have f3 : 65 + s = 65 + s' := l1.symm.trans l2
      have g1 : c = c' := Nat.add_left_cancel f1
      have g3 : s = s' := Nat.add_left_cancel f3
      have g2 : sh = sh' := by
        cases sh <;> cases sh' <;> simp at e2 ⊢
      rw [g1, g2, g3]

theorem actions_nodup (S C : Nat) (halt : Bool) (hS : S ≤ 26) (hC : C ≤ 10) :
    (actions S C halt).Nodup := by
  unfold actions
  refine List.Nodup.filter _ ?_
  rw [List.nodup_flatMap]
  have hletters : (((List.range S).map fun s => Char.ofNat (65 + s))
      ++ (if halt then ['_'] else [])).Nodup := by
    rw [List.nodup_append]
    refine ⟨?_, by cases halt <;> simp, ?_⟩
    · refine List.Nodup.map_on ?_ List.nodup_range
      intro a ha b hb h
      have l1 := (letter_facts a (Nat.lt_of_lt_of_le (List.mem_range.1 ha) hS)).2.2.2.2
      have l2 := (letter_facts b (Nat.lt_of_lt_of_le (List.mem_range.1 hb) hS)).2.2.2.2
      rw [h] at l1
      omega
    · intro a ha b hb
      obtain ⟨s, hs, rfl⟩ := List.mem_map.1 ha
      cases halt with
      | false => cases hb
      | true =>
        simp only [if_true, List.mem_singleton] at hb
        subst hb
        exact (letter_facts s (Nat.lt_of_lt_of_le (List.mem_range.1 hs) hS)).1
  refine ⟨?_, ?_⟩
  · intro c hc
    rw [List.nodup_flatMap]
    refine ⟨?_, ?_⟩
    · intro sh _
      refine hletters.map_on ?_
      intro a _ b _ h
      have := List.append_cancel_left h
      simpa using this
    · simp only [List.pairwise_cons, List.mem_singleton, List.not_mem_nil, false_implies, implies_true,
        List.Pairwise.nil, and_true, forall_eq, Function.onFun, List.disjoint_left]
      intro l hl hl'
      obtain ⟨a, -, rfl⟩ := List.mem_map.1 hl
      obtain ⟨b, -, h⟩ := List.mem_map.1 hl'
      have := List.append_cancel_left h
      simp at this
  · refine List.Pairwise.imp_of_mem ?_ List.nodup_range
    intro c c' hc hc' hne
    have hc := List.mem_range.1 hc
    have hc' := List.mem_range.1 hc'
    simp only [Function.onFun, List.disjoint_left]
    intro l hl hl'
    obtain ⟨sh, -, hl⟩ := List.mem_flatMap.1 hl
    obtain ⟨a, -, rfl⟩ := List.mem_map.1 hl
    obtain ⟨sh', -, hl'⟩ := List.mem_flatMap.1 hl'
    obtain ⟨b, -, h⟩ := List.mem_map.1 hl'
    rw [toDigits_lt_ten c (by omega), toDigits_lt_ten c' (by omega)] at h
    simp only [List.cons_append, List.nil_append, List.cons.injEq] at h
    have d1 := (digit_facts c (by omega)).2.2
    have d2 := (digit_facts c' (by omega)).2.2
    rw [h.1] at d2
    omega

/-- A text with a shape for the entries. -/
def textOf (f : Option Instr → List Char) (g : List (List (Option Instr))) : List Char :=
  joinWith [' ', ' '] (g.map fun row => joinWith [' '] (row.map f))

/-- A grid of `S` rows and `C` columns of valid entries. -/
structure Grid (S C : Nat) (halt : Bool) (g : List (List (Option Instr))) : Prop where
  rows : g.length = S
  cols : ∀ row ∈ g, row.length = C
  valid : ∀ row ∈ g, ∀ o ∈ row, Valid S C halt o

theorem exists_map {α β : Type} (f : α → β) (P : α → Prop) (l : List β)
    (h : ∀ b ∈ l, ∃ a, P a ∧ b = f a) : ∃ l' : List α, l = l'.map f ∧ ∀ a ∈ l', P a := by
  induction l with
  | nil => exact ⟨[], rfl, by simp⟩
  | cons b l ih =>
    obtain ⟨a, ha, rfl⟩ := h b (List.mem_cons_self ..)
    obtain ⟨l', rfl, hl⟩ := ih (fun b hb => h b (List.mem_cons_of_mem _ hb))
    refine ⟨a :: l', rfl, ?_⟩
    intro x hx
    rcases List.mem_cons.1 hx with rfl | hx
    · exact ha
    · exact hl x hx

theorem mem_rows (S C : Nat) (halt : Bool) (hS : S ≤ 26) (hC : 2 ≤ C ∧ C ≤ 10) (r : List Char) :
    r ∈ rows S C halt ↔ ∃ row : List (Option Instr), (row.length = C ∧ ∀ o ∈ row, Valid S C halt o) ∧
      r = joinWith [' '] (row.map act) := by
  unfold rows
  rw [List.mem_map]
  constructor
  · rintro ⟨l, hl, rfl⟩
    obtain ⟨h1, h2⟩ := (mem_seqs _ _ _).1 hl
    obtain ⟨row, rfl, h3⟩ := exists_map act (Valid S C halt) l
      (fun b hb => (mem_actions S C halt hS hC b).1 (h2 b hb))
    exact ⟨row, ⟨by simpa using h1, h3⟩, rfl⟩
  · rintro ⟨row, ⟨h1, h2⟩, rfl⟩
    refine ⟨row.map act, (mem_seqs _ _ _).2 ⟨by simpa using h1, ?_⟩, rfl⟩
    intro x hx
    obtain ⟨o, ho, rfl⟩ := List.mem_map.1 hx
    exact (mem_actions S C halt hS hC _).2 ⟨o, h2 o ho, rfl⟩

/-- All texts, before the filters. -/
theorem mem_texts (S C : Nat) (halt : Bool) (hS : S ≤ 26) (hC : 2 ≤ C ∧ C ≤ 10) (p : List Char) :
    p ∈ (seqs (rows S C halt) S).map (joinWith [' ', ' ']) ↔
      ∃ g, Grid S C halt g ∧ p = textOf act g := by
  rw [List.mem_map]
  constructor
  · rintro ⟨l, hl, rfl⟩
    obtain ⟨h1, h2⟩ := (mem_seqs _ _ _).1 hl
    obtain ⟨g, rfl, h3⟩ := exists_map (fun row : List (Option Instr) => joinWith [' '] (row.map act))
      (fun row => row.length = C ∧ ∀ o ∈ row, Valid S C halt o) l
      (fun b hb => (mem_rows S C halt hS hC b).1 (h2 b hb))
    exact ⟨g, ⟨by simpa using h1, fun row hr => (h3 row hr).1, fun row hr => (h3 row hr).2⟩, rfl⟩
  · rintro ⟨g, hg, rfl⟩
    refine ⟨g.map fun row => joinWith [' '] (row.map act),
      (mem_seqs _ _ _).2 ⟨by simpa using hg.rows, ?_⟩, rfl⟩
    intro x hx
    obtain ⟨row, hr, rfl⟩ := List.mem_map.1 hx
    exact (mem_rows S C halt hS hC _).2 ⟨row, ⟨hg.cols row hr, hg.valid row hr⟩, rfl⟩

theorem act_chars {S C : Nat} {halt : Bool} (hS : S ≤ 26) (hC : C ≤ 10) {o : Option Instr}
    (h : Valid S C halt o) : ∃ a b c, act o = [a, b, c] ∧ a ≠ ' ' ∧ b ≠ ' ' ∧ c ≠ ' ' ∧
      (b = 'L' ∨ b = 'R') ∧ c ≠ '1' ∧ a ≠ '_' := by
  cases o with
  | none => exact ⟨'1', 'R', '_', rfl, by decide, by decide, by decide, .inr rfl, by decide, by decide⟩
  | some i =>
    have d := digit_facts _ (Nat.lt_of_lt_of_le h.1 hC)
    have l := letter_facts _ (Nat.lt_of_lt_of_le h.2 hS)
    exact ⟨_, _, _, rfl, d.1, by cases i.2.1 <;> decide, l.2.1, by cases i.2.1 <;> simp, l.2.2.1, d.2.1⟩

theorem act_noSpace {S C : Nat} {halt : Bool} (hS : S ≤ 26) (hC : C ≤ 10) {o : Option Instr}
    (h : Valid S C halt o) : ' ' ∉ act o := by
  obtain ⟨a, b, c, e, h1, h2, h3, -⟩ := act_chars hS hC h
  rw [e]
  simp [h1.symm, h2.symm, h3.symm]

theorem Grid.row_ne {S C : Nat} {halt : Bool} {g : List (List (Option Instr))} (hg : Grid S C halt g)
    (hC : 1 ≤ C) {row : List (Option Instr)} (hr : row ∈ g) : row ≠ [] := by
  rintro rfl
  have := hg.cols _ hr
  simp at this
  omega

theorem texts_nodup (S C : Nat) (halt : Bool) (hS : 1 ≤ S ∧ S ≤ 26) (hC : 2 ≤ C ∧ C ≤ 10) :
    ((seqs (rows S C halt) S).map (joinWith [' ', ' '])).Nodup := by
  have hrows : (rows S C halt).Nodup := by
    unfold rows
    refine List.Nodup.map_on ?_ (seqs_nodup _ (actions_nodup S C halt hS.2 hC.2) _)
    intro l hl l' hl' h
    have key : ∀ l ∈ seqs (actions S C halt) C, splitSpace (joinWith [' '] l) = l := by
      intro l hl
      obtain ⟨h1, h2⟩ := (mem_seqs _ _ _).1 hl
      refine splitSpace_join l ?_ ?_
      · rintro rfl; simp at h1; omega
      · intro e he
        obtain ⟨o, ho, rfl⟩ := (mem_actions S C halt hS.2 hC e).1 (h2 e he)
        exact act_noSpace hS.2 hC.2 ho
    rw [← key l hl, ← key l' hl', h]
  refine List.Nodup.map_on ?_ (seqs_nodup _ hrows _)
  intro l hl l' hl' h
  have key : ∀ l ∈ seqs (rows S C halt) S, splitDouble (joinWith [' ', ' '] l) = l := by
    intro l hl
    obtain ⟨h1, h2⟩ := (mem_seqs _ _ _).1 hl
    refine splitDouble_join l ?_ ?_
    · rintro rfl; simp at h1; omega
    · intro r hr
      obtain ⟨row, ⟨hlen, hv⟩, rfl⟩ := (mem_rows S C halt hS.2 hC r).1 (h2 r hr)
      refine tidy_join _ ?_ ?_
      · intro e he
        obtain ⟨o, ho, rfl⟩ := List.mem_map.1 he
        obtain ⟨a, b, c, e, -⟩ := act_chars hS.2 hC.2 (hv o ho)
        rw [e]; simp
      · intro e he
        obtain ⟨o, ho, rfl⟩ := List.mem_map.1 he
        exact act_noSpace hS.2 hC.2 (hv o ho)
  rw [← key l hl, ← key l' hl', h]

/-! ## The filters -/

theorem take_text {S C : Nat} {halt : Bool} (hS : 1 ≤ S) (hS' : S ≤ 26) (hC : 1 ≤ C) (hC' : C ≤ 10)
    {g : List (List (Option Instr))} (hg : Grid S C halt g) :
    ∃ o row g', g = (o :: row) :: g' ∧ (textOf act g).take 3 = act o := by
  obtain ⟨r, g', rfl⟩ : ∃ r g', g = r :: g' := by
    cases g with
    | nil => have := hg.rows; simp at this; omega
    | cons r g' => exact ⟨r, g', rfl⟩
  obtain ⟨o, row, rfl⟩ : ∃ o row, r = o :: row := by
    cases r with
    | nil => exact absurd rfl (hg.row_ne hC (List.mem_cons_self ..))
    | cons o row => exact ⟨o, row, rfl⟩
  refine ⟨o, row, g', rfl, ?_⟩
  obtain ⟨a, b, c, e, -⟩ := act_chars hS' hC' (hg.valid _ (List.mem_cons_self ..) o (List.mem_cons_self ..))
  obtain ⟨r1, hr1⟩ := joinWith_cons_head [' '] (act o) (row.map act)
  obtain ⟨r2, hr2⟩ := joinWith_cons_head [' ', ' '] (joinWith [' '] (act o :: row.map act))
    (g'.map fun row => joinWith [' '] (row.map act))
  simp only [textOf, List.map_cons]
  rw [hr2, hr1, e]
  simp

/-- How many entries are missing. -/
def missing (g : List (List (Option Instr))) : Nat := g.flatten.count none

theorem count_join (sep : List Char) (hs : '_' ∉ sep) (l : List (List Char)) :
    (joinWith sep l).count '_' = (l.map (List.count '_')).sum := by
  induction l with
  | nil => rfl
  | cons r l ih =>
    cases l with
    | nil => simp [joinWith]
    | cons r' l =>
      rw [joinWith, List.count_append, List.count_append, ih, List.count_eq_zero.2 hs]
      simp

theorem count_act {S C : Nat} {halt : Bool} (hS : S ≤ 26) (hC : C ≤ 10) {o : Option Instr}
    (h : Valid S C halt o) : (act o).count '_' = if o = none then 1 else 0 := by
  cases o with
  | none => rfl
  | some i =>
    have d := digit_facts _ (Nat.lt_of_lt_of_le h.1 hC)
    have l := letter_facts _ (Nat.lt_of_lt_of_le h.2 hS)
    rw [if_neg (by simp), List.count_eq_zero]
    simp only [act, List.mem_cons, List.not_mem_nil, or_false, not_or]
    exact ⟨d.2.1.symm, by cases i.2.1 <;> decide, l.1.symm⟩

theorem count_row {S C : Nat} {halt : Bool} (hS : S ≤ 26) (hC : C ≤ 10) (row : List (Option Instr))
    (h : ∀ o ∈ row, Valid S C halt o) :
    (joinWith [' '] (row.map act)).count '_' = row.count none := by
  rw [count_join _ (by decide)]
  induction row with
  | nil => rfl
  | cons o row ih =>
    rw [List.map_cons, List.map_cons, List.sum_cons, ih (fun x hx => h x (List.mem_cons_of_mem _ hx)),
      count_act hS hC (h o (List.mem_cons_self ..)), List.count_cons]
    cases o <;> simp
    omega

theorem count_text {S C : Nat} {halt : Bool} (hS : S ≤ 26) (hC : C ≤ 10)
    {g : List (List (Option Instr))} (h : ∀ row ∈ g, ∀ o ∈ row, Valid S C halt o) :
    (textOf act g).count '_' = missing g := by
  unfold textOf missing
  rw [count_join _ (by decide)]
  induction g with
  | nil => rfl
  | cons row g ih =>
    rw [List.map_cons, List.map_cons, List.sum_cons, ih (fun x hx => h x (List.mem_cons_of_mem _ hx)),
      count_row hS hC row (h row (List.mem_cons_self ..)), List.flatten_cons, List.count_append]

/-- The texts given without rejects. -/
theorem mem_programs (S C : Nat) (halt : Bool) (hS : 1 ≤ S ∧ S ≤ 26) (hC : 2 ≤ C ∧ C ≤ 10)
    (p : List Char) :
    p ∈ programs S C halt [] ↔ ∃ g, Grid S C halt g ∧ p = textOf act g ∧
      gridGet g 0 0 = some (1, true, 1) ∧ (halt = true → missing g = 1) := by
  unfold programs
  simp only [List.any_nil, Bool.not_false, List.filter_true]
  rw [List.mem_filter, mem_texts S C halt hS.2 hC]
  constructor
  · rintro ⟨⟨g, hg, rfl⟩, h⟩
    rw [Bool.and_eq_true] at h
    refine ⟨g, hg, rfl, ?_, ?_⟩
    · obtain ⟨o, row, g', rfl, ht⟩ := take_text hS.1 hS.2 (by omega) hC.2 hg
      rw [ht] at h
      have hv := hg.valid _ (List.mem_cons_self ..) o (List.mem_cons_self ..)
      have h1 : act o = ['1', 'R', 'B'] := by simpa using h.1
      have : o = some (1, true, 1) := by
        cases o with
        | none => simp [act] at h1
        | some i =>
          obtain ⟨c, sh, s⟩ := i
          simp only [act, List.cons.injEq, and_true] at h1
          obtain ⟨e1, e2, e3⟩ := h1
          have d := (digit_facts c (Nat.lt_of_lt_of_le hv.1 hC.2)).2.2
          have l := (letter_facts s (Nat.lt_of_lt_of_le hv.2 hS.2)).2.2.2.2
          rw [e1] at d
          rw [e3] at l
          have f1 : 48 + c = 49 := d.symm.trans (by decide)
          have f3 : 65 + s = 66 := l.symm.trans (by decide)
          have g1 : c = 1 := Nat.add_left_cancel (n := 48) f1
          have g3 : s = 1 := Nat.add_left_cancel (n := 65) f3
          have g2 : sh = true := by
            cases sh with
            | true => rfl
            | false => simp at e2
          rw [g1, g2, g3]
      subst this
      rfl
    · intro hh
      have h2 := h.2
      rw [hh] at h2
      rw [count_text hS.2 hC.2 hg.valid] at h2
      simpa using h2
  · rintro ⟨g, hg, rfl, h1, h2⟩
    refine ⟨⟨g, hg, rfl⟩, ?_⟩
    rw [Bool.and_eq_true]
    constructor
    · obtain ⟨o, row, g', rfl, ht⟩ := take_text hS.1 hS.2 (by omega) hC.2 hg
      have : o = some (1, true, 1) := by simpa [gridGet] using h1
      rw [ht, this]
      decide
    · rw [count_text hS.2 hC.2 hg.valid]
      cases halt with
      | false => rfl
      | true => simp [h2 rfl]

/-! ## The replacement -/

theorem replace_act {S C : Nat} {halt : Bool} (hS : S ≤ 26) (hC : C ≤ 10) {o : Option Instr}
    (h : Valid S C halt o) (r : List Char) :
    replaceHalt (act o ++ r) = showInstr o ++ replaceHalt r := by
  cases o with
  | none => rfl
  | some i =>
    obtain ⟨c, sh, s⟩ := i
    have d := digit_facts c (Nat.lt_of_lt_of_le h.1 hC)
    have l := letter_facts s (Nat.lt_of_lt_of_le h.2 hS)
    simp only [act, showInstr]
    rw [toDigits_lt_ten c (Nat.lt_of_lt_of_le h.1 hC), ← l.2.2.2.1]
    have hb : ∀ (b : Char) (x : List Char), (b = 'L' ∨ b = 'R') →
        replaceHalt (b :: Char.ofNat (65 + s) :: x) = b :: Char.ofNat (65 + s) :: replaceHalt x := by
      intro b x hb
      rw [replaceHalt, replaceHalt]
      · intro r hx _
        exact l.2.2.1 hx
      · intro r hx _
        rcases hb with rfl | rfl <;> revert hx <;> decide
    have hlr : (if sh = true then 'R' else 'L') = 'L' ∨ (if sh = true then 'R' else 'L') = 'R' := by
      cases sh <;> simp
    simp only [List.cons_append, List.nil_append]
    rw [replaceHalt, hb _ _ hlr]
    intro r' _ hx
    simp only [List.cons.injEq] at hx
    exact l.1 hx.2.1

theorem replace_space (r : List Char) : replaceHalt (' ' :: r) = ' ' :: replaceHalt r := by
  rw [replaceHalt]
  intro r' hx
  exact absurd hx (by decide)

theorem replace_row {S C : Nat} {halt : Bool} (hS : S ≤ 26) (hC : C ≤ 10) (row : List (Option Instr))
    (h : ∀ o ∈ row, Valid S C halt o) (r : List Char) :
    replaceHalt (joinWith [' '] (row.map act) ++ r)
      = joinWith [' '] (row.map showInstr) ++ replaceHalt r := by
  induction row with
  | nil => rfl
  | cons o row ih =>
    cases row with
    | nil => exact replace_act hS hC (h o (List.mem_cons_self ..)) r
    | cons o' row =>
      have := ih (fun x hx => h x (List.mem_cons_of_mem _ hx))
      simp only [List.map_cons, joinWith, List.append_assoc] at this ⊢
      rw [replace_act hS hC (h o (List.mem_cons_self ..))]
      simp only [List.cons_append, List.nil_append]
      rw [replace_space, this]

theorem replace_text {S C : Nat} {halt : Bool} (hS : S ≤ 26) (hC : C ≤ 10)
    (g : List (List (Option Instr))) (h : ∀ row ∈ g, ∀ o ∈ row, Valid S C halt o) :
    replaceHalt (textOf act g) = renderGrid g := by
  unfold textOf renderGrid
  induction g with
  | nil => rfl
  | cons row g ih =>
    have hr := h row (List.mem_cons_self ..)
    cases g with
    | nil =>
      have := replace_row hS hC row hr []
      simp only [List.append_nil, replaceHalt] at this
      exact this
    | cons row' g =>
      have := ih (fun x hx => h x (List.mem_cons_of_mem _ hx))
      simp only [List.map_cons, joinWith, List.append_assoc] at this ⊢
      rw [replace_row hS hC row hr]
      simp only [List.cons_append, List.nil_append]
      rw [replace_space, replace_space, this]

end LinRado
end BB
