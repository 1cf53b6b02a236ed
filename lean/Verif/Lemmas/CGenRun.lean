import Mathlib.Algebra.BigOperators.Group.Finset.Piecewise
import Mathlib.Algebra.Order.BigOperators.Group.Finset
import Mathlib.Tactic.Ring
import Verif.Lemmas.CGen
import Verif.Lemmas.Run

/-!
# Running what the generator writes

Helper lemmas for C39.
-/

namespace BB
namespace CGen
open C

/-! ### Parsing -/

theorem simples_map (l : List Simple) (t : Tok) (ts : List Tok) (h : ∀ s, t ≠ .simple s) :
    simples (l.map .simple ++ t :: ts) = (l, t :: ts) := by
  induction l with
  | nil =>
    simp only [List.map_nil, List.nil_append]
    cases t <;> first | rfl | exact absurd rfl (h _)
  | cons s l ih => simp only [List.map_cons, List.cons_append, simples, ih]

theorem cases_map (cs : List (Nat × List Simple)) (ts : List Tok) : ∀ n,
    C.cases (cs.length + n)
      (cs.flatMap (fun c => Tok.case c.1 :: c.2.map .simple) ++ .close :: ts) = some (cs, ts) := by
  induction cs with
  | nil =>
    intro n
    cases n <;> rfl
  | cons c cs ih =>
    intro n
    have hh : ∀ (l : List (Nat × List Simple)), ∃ t r, (∀ s, t ≠ Tok.simple s) ∧
        l.flatMap (fun c => Tok.case c.1 :: c.2.map .simple) ++ .close :: ts = t :: r := by
      intro l
      cases l with
      | nil => exact ⟨.close, ts, by simp, rfl⟩
      | cons c l =>
        exact ⟨.case c.1, c.2.map .simple ++
          (l.flatMap (fun c => Tok.case c.1 :: c.2.map .simple) ++ .close :: ts), by simp, by simp⟩
    obtain ⟨t, r, ht, hr⟩ := hh cs
    have e : (c :: cs).flatMap (fun c => Tok.case c.1 :: c.2.map .simple) ++ .close :: ts =
        .case c.1 :: (c.2.map .simple ++ t :: r) := by
      rw [List.flatMap_cons, List.append_assoc, hr]
      rfl
    have e' : (c :: cs).length + n = (cs.length + n) + 1 := by
      rw [List.length_cons]; omega
    rw [e, e', C.cases, simples_map _ _ _ ht, ← hr, ih n]
    rfl

theorem items_map (L : List Item) : ∀ n,
    items (L.length + n) (L.flatMap itemToks ++ [.close]) = some L := by
  induction L with
  | nil =>
    intro n
    cases n <;> rfl
  | cons i L ih =>
    intro n
    have e' : (i :: L).length + n = (L.length + n) + 1 := by
      rw [List.length_cons]; omega
    rw [List.flatMap_cons, List.append_assoc, e']
    have ihn := ih n
    generalize L.flatMap itemToks ++ [.close] = ts at ihn
    cases i with
    | label c => simp only [itemToks, List.cons_append, List.nil_append, items, ihn, Option.map_some]
    | simple s => simp only [itemToks, List.cons_append, List.nil_append, items, ihn, Option.map_some]
    | check => simp only [itemToks, List.cons_append, List.nil_append, items, ihn, Option.map_some]
    | ifBlank t e =>
      have e1 : itemToks (.ifBlank t e) ++ ts = .ifBlank :: .open :: (t.map .simple ++ .close ::
          (.els :: .open :: (e.map .simple ++ .close :: ts))) := by simp [itemToks]
      rw [e1, items, simples_map t .close _ (by simp)]
      simp only
      rw [simples_map e .close _ (by simp)]
      simp only [ihn, Option.map_some]
    | whileBlank b body =>
      have e1 : itemToks (.whileBlank b body) ++ ts = .whileBlank b :: (body.map .simple ++ .close ::
          ts) := by simp [itemToks]
      rw [e1, items, simples_map body .close _ (by simp)]
      simp only [ihn, Option.map_some]
    | switch cs =>
      have e1 : itemToks (.switch cs) ++ ts = .switch ::
          (cs.flatMap (fun c => Tok.case c.1 :: c.2.map .simple) ++ .close :: ts) := by
        simp [itemToks]
      have e2 : ∃ m, (cs.flatMap (fun c => Tok.case c.1 :: c.2.map .simple) ++ .close ::
          ts).length = cs.length + m := by
        have : cs.length ≤ (cs.flatMap (fun c => Tok.case c.1 :: c.2.map .simple)).length := by
          clear ih ihn e1 e'
          induction cs with
          | nil => simp
          | cons c cs ih => simp only [List.flatMap_cons, List.length_append, List.length_cons]; omega
        refine ⟨(cs.flatMap (fun c => Tok.case c.1 :: c.2.map .simple) ++ .close ::
          ts).length - cs.length, ?_⟩
        rw [List.length_append]
        omega
      obtain ⟨m, hm⟩ := e2
      rw [e1, items, hm, cases_map]
      simp only [ihn, Option.map_some]

theorem itemToks_length (i : Item) : 1 ≤ (itemToks i).length := by
  cases i <;> simp [itemToks]

theorem items_main (L : List Item) :
    items (L.flatMap itemToks ++ [Tok.close]).length (L.flatMap itemToks ++ [.close]) = some L := by
  have h : L.length ≤ (L.flatMap itemToks).length := by
    induction L with
    | nil => simp
    | cons i L ih =>
      have := itemToks_length i
      simp only [List.flatMap_cons, List.length_append, List.length_cons]
      omega
  have e : (L.flatMap itemToks ++ [Tok.close]).length =
      L.length + ((L.flatMap itemToks ++ [Tok.close]).length - L.length) := by
    rw [List.length_append]
    omega
  rw [e]
  exact items_map L _

/-! ### Programs that fit -/

/-- At most seven states (`A` to `G`), at most ten colours, a row for every state, every instruction
writes one of the colours and goes to one of the states or to `_` (30). -/
structure Fits (rows : List (List (Option Instr))) (C : Nat) : Prop where
  ne : rows ≠ []
  states : rows.length ≤ 7
  one : 1 ≤ C
  ten : C ≤ 10
  row : ∀ row ∈ rows, row.length = C
  instr : ∀ row ∈ rows, ∀ i, some i ∈ row → i.1 < C ∧ (i.2.2 < rows.length ∨ i.2.2 = 30)

/-- What the table says, with the undefined instruction replaced: colours and next states. -/
def InS (S : Nat) (i : CInstr) : Prop := i.1 < 10 ∧ ((-1 ≤ i.2.2 ∧ i.2.2 < S) ∨ i.2.2 = 30)

theorem Fits.ins {rows : List (List (Option Instr))} {C : Nat} (h : Fits rows C)
    {row : List (Option Instr)} (hr : row ∈ rows) {i : CInstr} (hi : i ∈ row.map orHalt) :
    InS rows.length i := by
  rw [List.mem_map] at hi
  obtain ⟨o, ho, rfl⟩ := hi
  cases o with
  | none => exact ⟨by decide, Or.inl ⟨by decide, by simp only [orHalt]; omega⟩⟩
  | some i =>
    obtain ⟨h1, h2⟩ := h.instr row hr i ho
    obtain ⟨pr, sh, tr⟩ := i
    have := h.ten
    refine ⟨by simp only [orHalt] at *; exact Nat.lt_of_lt_of_le h1 this, ?_⟩
    simp only [orHalt] at *
    rcases h2 with h2 | h2
    · left
      have h2' : (tr : Int) < (rows.length : Int) := by exact_mod_cast h2
      refine ⟨?_, h2'⟩
      have : (0 : Int) ≤ (tr : Int) := Int.natCast_nonneg tr
      omega
    · right
      exact_mod_cast h2

theorem InS.cok {S : Nat} (hS : S ≤ 7) {i : CInstr} (h : InS S i) : COk i := by
  refine ⟨h.1, ?_⟩
  have h2 := h.2
  omega

theorem Fits.rowOk {rows : List (List (Option Instr))} {C : Nat} (h : Fits rows C) :
    ∀ r ∈ rows, RowOk r := by
  intro r hr
  have h1 := h.row r hr
  refine ⟨?_, ?_, fun i hi => (h.ins hr hi).cok h.states⟩
  · rintro rfl
    have := h.one
    simp at h1
    omega
  · rw [h1]
    exact h.ten

/-! ### Validity -/

theorem labels_body (st : Nat) (is : List CInstr) : (bodyItems st is).flatMap Item.labels = [] := by
  have hs : ∀ l : List Simple, (l.map Item.simple).flatMap Item.labels = [] := by
    intro l
    induction l with
    | nil => rfl
    | cons s l ih => simp [Item.labels]
  unfold bodyItems
  split
  · split
    · rw [List.flatMap_cons, hs]; rfl
    · split
      · rw [List.flatMap_cons, hs]; rfl
      · rfl
  · rfl

theorem labels_block (rows : List (List (Option Instr))) : ∀ st : Nat,
    (blockItems st rows).flatMap Item.labels = (List.range' st rows.length).map showState := by
  induction rows with
  | nil => intro st; rfl
  | cons row rows ih =>
    intro st
    rw [blockItems, List.flatMap_append, List.flatMap_cons, labels_body, ih (st + 1)]
    rfl

theorem labels_main (rows : List (List (Option Instr))) :
    (mainItems rows).flatMap Item.labels = (List.range' 0 rows.length).map showState ++ ['H'] := by
  rw [mainItems, List.flatMap_append, labels_block]
  rfl

theorem gotos_simples (l : List Simple) :
    (l.map Item.simple).flatMap Item.gotos = l.flatMap gotoOf := by
  induction l with
  | nil => rfl
  | cons s l ih => simp only [List.map_cons, List.flatMap_cons, ih, Item.gotos]

theorem gotos_stmts {S : Nat} {i : CInstr} (h : InS S i) (hS : S ≤ 7) (co : Nat) (b skip : Bool) :
    ∀ l ∈ (stmts co i b skip).flatMap gotoOf, l ∈ (List.range' 0 S).map showState ++ ['H'] := by
  have key : target i.2.2 ∈ (List.range' 0 S).map showState ++ ['H'] := by
    have h2 := h.2
    unfold target
    split
    · rw [List.mem_append]
      left
      rw [List.mem_map]
      refine ⟨i.2.2.toNat, ?_, rfl⟩
      rw [List.mem_range']
      exact ⟨i.2.2.toNat, by omega, by omega⟩
    · simp
  intro l hl
  have : l = target i.2.2 := by
    unfold stmts at hl
    split at hl <;> split at hl <;> simpa [gotoOf] using hl
  rw [this]
  exact key

theorem gotos_cases {S : Nat} (hS : S ≤ 7) (is : List CInstr) (h : ∀ i ∈ is, InS S i) : ∀ co : Nat,
    ∀ l ∈ (caseBodies co is).flatMap (fun c => c.2.flatMap gotoOf),
      l ∈ (List.range' 0 S).map showState ++ ['H'] := by
  induction is with
  | nil => intro co l hl; simp [caseBodies] at hl
  | cons i is ih =>
    intro co l hl
    rw [caseBodies, List.flatMap_cons, List.mem_append] at hl
    rcases hl with hl | hl
    · exact gotos_stmts (h i (by simp)) hS _ _ _ l hl
    · exact ih (fun i hi => h i (List.mem_cons_of_mem _ hi)) (co + 1) l hl

theorem gotos_body {S : Nat} (hS : S ≤ 7) (st : Nat) (is : List CInstr) (h : ∀ i ∈ is, InS S i) :
    ∀ l ∈ (bodyItems st is).flatMap Item.gotos, l ∈ (List.range' 0 S).map showState ++ ['H'] := by
  intro l hl
  unfold bodyItems at hl
  split at hl
  · rename_i i0 i1
    have h0 := h i0 (by simp)
    have h1 := h i1 (by simp)
    split at hl
    · rw [List.flatMap_cons, gotos_simples, List.mem_append] at hl
      rcases hl with hl | hl
      · exact gotos_stmts h0 hS _ _ _ l hl
      · exact gotos_stmts h1 hS _ _ _ l hl
    · split at hl
      · rw [List.flatMap_cons, gotos_simples, List.mem_append] at hl
        rcases hl with hl | hl
        · exact gotos_stmts h1 hS _ _ _ l hl
        · exact gotos_stmts h0 hS _ _ _ l hl
      · rw [List.flatMap_cons, List.flatMap_nil, List.append_nil, Item.gotos, List.mem_append] at hl
        rcases hl with hl | hl
        · exact gotos_stmts h0 hS _ _ _ l hl
        · exact gotos_stmts h1 hS _ _ _ l hl
  · rw [List.flatMap_cons, List.flatMap_nil, List.append_nil, Item.gotos] at hl
    exact gotos_cases hS is h 0 l hl

theorem gotos_block {S : Nat} (hS : S ≤ 7) (rows : List (List (Option Instr)))
    (h : ∀ r ∈ rows, ∀ i ∈ r.map orHalt, InS S i) : ∀ st : Nat,
    ∀ l ∈ (blockItems st rows).flatMap Item.gotos,
      l ∈ (List.range' 0 S).map showState ++ ['H'] := by
  induction rows with
  | nil => intro st l hl; simp [blockItems] at hl
  | cons row rows ih =>
    intro st l hl
    rw [blockItems, List.flatMap_append, List.flatMap_cons, List.mem_append, List.mem_append] at hl
    rcases hl with (hl | hl) | hl
    · simp [Item.gotos] at hl
    · exact gotos_body hS st _ (h row (by simp)) l hl
    · exact ih (fun r hr => h r (List.mem_cons_of_mem _ hr)) (st + 1) l hl

theorem caseBodies_fst (is : List CInstr) : ∀ co : Nat,
    (caseBodies co is).map Prod.fst = List.range' co is.length := by
  induction is with
  | nil => intro co; rfl
  | cons i is ih => intro co; simp only [caseBodies, List.map_cons, ih, List.length_cons]; rfl

theorem casesOk_body (st : Nat) (is : List CInstr) : (bodyItems st is).all Item.casesOk = true := by
  have hs : ∀ l : List Simple, (l.map Item.simple).all Item.casesOk = true := by
    intro l
    induction l with
    | nil => rfl
    | cons s l ih => simp [Item.casesOk]
  unfold bodyItems
  split
  · split
    · rw [List.all_cons, hs]; rfl
    · split
      · rw [List.all_cons, hs]; rfl
      · rfl
  · rw [List.all_cons, List.all_nil, Item.casesOk, caseBodies_fst, Bool.and_true]
    exact decide_eq_true (List.nodup_range' )

theorem casesOk_block (rows : List (List (Option Instr))) : ∀ st : Nat,
    (blockItems st rows).all Item.casesOk = true := by
  induction rows with
  | nil => intro st; rfl
  | cons row rows ih =>
    intro st
    rw [blockItems, List.all_append, List.all_cons, casesOk_body, ih (st + 1)]
    rfl

theorem labels_nodup : ∀ S ≤ 7, ((List.range' 0 S).map showState ++ ['H']).Nodup := by
  decide +kernel

theorem valid_main {rows : List (List (Option Instr))} {C : Nat} (h : Fits rows C) :
    valid (mainItems rows) = true := by
  have h1 := labels_nodup rows.length h.states
  have h2 := gotos_block h.states rows (fun r hr i hi => h.ins hr hi) 0
  have h3 := casesOk_block rows 0
  rw [valid, labels_main]
  rw [Bool.and_eq_true, Bool.and_eq_true]
  refine ⟨⟨decide_eq_true h1, ?_⟩, ?_⟩
  · rw [List.all_eq_true]
    intro l hl
    apply decide_eq_true
    rcases List.mem_cons.mp hl with rfl | hl
    · simp
    · rw [mainItems, List.flatMap_append, List.mem_append] at hl
      rcases hl with hl | hl
      · exact h2 l hl
      · simp [Item.gotos] at hl
  · rw [mainItems, List.all_append, h3]
    rfl

theorem lines_replace (a b : List Char) :
    lines (replaceHalt (a ++ '\n' :: b)) = lines (replaceHalt a) ++ lines (replaceHalt b) := by
  rw [replaceHalt_nl, lines_append]

/-- The text is a C program, and this is it. -/
theorem parse_makeC {prog : List Char} (hn : '\n' ∉ prog) {rows : List (List (Option Instr))}
    (hp : parseRows prog = some rows) {C : Nat} (h : Fits rows C) :
    ∃ text, makeC prog = some text ∧ parse text = some (mainItems rows) := by
  refine ⟨_, by rw [makeC, hp]; rfl, ?_⟩
  have hT := T_prog hn h.ne h.states h.rowOk
  have e1 : "#define TAPELEN 100".toList ∈ lines (replaceHalt (progTemplate prog (makeLabels rows)))
      := by
    have hs : "#define TAPELEN 100".toList ∈ lines (replaceHalt sTape) := by decide +kernel
    rw [progTemplate_eq, lines_replace, lines_replace, lines_replace]
    simp only [List.mem_append]
    exact Or.inr (Or.inr (Or.inl hs))
  have e2 : "#include \"machine.h\"".toList ∈
      lines (replaceHalt (progTemplate prog (makeLabels rows))) := by
    have hs : "#include \"machine.h\"".toList ∈ lines (replaceHalt sInclude) := by decide +kernel
    rw [progTemplate_eq, lines_replace, lines_replace, lines_replace, lines_replace, lines_replace]
    simp only [List.mem_append]
    exact Or.inr (Or.inr (Or.inr (Or.inr (Or.inl hs))))
  rw [T] at hT
  rw [parse, if_pos ⟨e1, e2⟩, hT]
  simp only
  rw [items_main]
  show (if valid (mainItems rows) = true then some (mainItems rows) else none) = _
  rw [if_pos (valid_main h)]

/-! ### Running -/

theorem run_add (p : List Item) : ∀ (k m : Nat) (s s' : Mem), run p k s = .next s' →
    run p (k + m) s = run p m s' := by
  intro k
  induction k with
  | zero =>
    intro m s s' h
    simp only [run, Res.next.injEq] at h
    rw [h, Nat.zero_add]
  | succ k ih =>
    intro m s s' h
    rw [show k + 1 + m = (k + m) + 1 by omega]
    simp only [run] at h ⊢
    rcases hs : C.step p s with t | t | _
    · rw [hs] at h
      exact ih m _ _ h
    · rw [hs] at h
      simp at h
    · rw [hs] at h
      simp at h

theorem run_one (p : List Item) (s s' : Mem) (h : C.step p s = .next s') : run p 1 s = .next s' := by
  simp only [run, h]

/-- `s` comes to `s'`. -/
def Reach (p : List Item) (s s' : Mem) : Prop := ∃ k, run p k s = .next s'

theorem Reach.refl (p : List Item) (s : Mem) : Reach p s s := ⟨0, rfl⟩

theorem Reach.trans {p : List Item} {a b c : Mem} (h : Reach p a b) (h' : Reach p b c) :
    Reach p a c := by
  obtain ⟨k, hk⟩ := h
  obtain ⟨m, hm⟩ := h'
  exact ⟨k + m, by rw [run_add p k m a b hk, hm]⟩

theorem Reach.step {p : List Item} {a b : Mem} (h : C.step p a = .next b) : Reach p a b :=
  ⟨1, run_one p a b h⟩

/-- `MARKS` counts the cells that are not blank, and they are all in the array. -/
def MarksOk (s : Mem) : Prop :=
  s.marks = ∑ x ∈ Finset.Ico (0 : Int) 100, (if s.tape x = 0 then 0 else 1 : Int) ∧
  ∀ x, s.tape x ≠ 0 → 0 ≤ x ∧ x < 100

theorem MarksOk.zero_iff {s : Mem} (h : MarksOk s) : s.marks = 0 ↔ ∀ x, s.tape x = 0 := by
  rw [h.1]
  constructor
  · intro h0 x
    by_contra hx
    have hm : x ∈ Finset.Ico (0 : Int) 100 := Finset.mem_Ico.mpr (h.2 x hx)
    have := (Finset.sum_eq_zero_iff_of_nonneg
      (fun y _ => by split <;> decide)).mp h0 x hm
    rw [if_neg hx] at this
    exact absurd this (by decide)
  · intro h0
    apply Finset.sum_eq_zero
    intro x _
    rw [if_pos (h0 x)]

theorem MarksOk.write {s : Mem} (h : MarksOk s) (hp : 0 ≤ s.pos ∧ s.pos < 100) (c : Nat)
    (code : List Item) :
    MarksOk { s with
        code := code
        marks := s.marks + (if c ≠ 0 ∧ s.scan = 0 then 1 else 0)
          - (if c = 0 ∧ s.scan ≠ 0 then 1 else 0)
        tape := fun x => if x = s.pos then c else s.tape x } := by
  have hm : s.pos ∈ Finset.Ico (0 : Int) 100 := Finset.mem_Ico.mpr hp
  constructor
  · simp only
    rw [h.1, ← Finset.add_sum_erase _ _ hm, ← Finset.add_sum_erase _ _ hm]
    have e : ∑ x ∈ (Finset.Ico (0 : Int) 100).erase s.pos,
        (if (if x = s.pos then c else s.tape x) = 0 then 0 else 1 : Int) =
        ∑ x ∈ (Finset.Ico (0 : Int) 100).erase s.pos, (if s.tape x = 0 then 0 else 1 : Int) := by
      apply Finset.sum_congr rfl
      intro x hx
      rw [if_neg (c := x = s.pos) (Finset.ne_of_mem_erase hx)]
    rw [e]
    simp only [Mem.scan, if_true]
    by_cases h1 : c = 0 <;> by_cases h2 : s.tape s.pos = 0 <;> simp [h1, h2] <;> ring
  · intro x hx
    simp only at hx
    split at hx
    · rename_i e
      rw [e]
      exact hp
    · exact h.2 x hx

/-- Effect of an instruction on the variables. -/
structure Eff (s s' : Mem) (i : CInstr) : Prop where
  pos : s'.pos = if i.2.1 then s.pos + 1 else s.pos - 1
  tape : s'.tape = fun x => if x = s.pos then i.1 else s.tape x
  steps : s'.steps = s.steps + 1
  marks : MarksOk s'

/-- Executing the statements of an instruction. -/
theorem reach_stmts {p : List Item} {s : Mem} (hm : MarksOk s) (hp : 0 ≤ s.pos ∧ s.pos < 100)
    {i : CInstr} {b : Bool} (hw : written b i.1 = i.1) (skip : Bool) {rest : List Item}
    (hc : s.code = (stmts s.scan i b skip).map .simple ++ rest) :
    ∃ s', Reach p s s' ∧ Eff s s' i ∧ s'.code = if s'.marks = 0 then codeAt 'H' p
      else if skip then rest else codeAt (target i.2.2) p := by
  -- after the write
  have hwr : ∃ s1, Reach p s s1 ∧ s1.pos = s.pos ∧ s1.steps = s.steps ∧ MarksOk s1 ∧
      s1.tape = (fun x => if x = s.pos then i.1 else s.tape x) ∧
      s1.code = .simple (.shift i.2.1) ::
        ((if skip then [] else [.simple (.goto (target i.2.2))]) ++ rest) := by
    have hin : (!s.inside) = false := by
      simp [Mem.inside, hp.1, hp.2]
    have e : (stmts s.scan i b skip).map Item.simple ++ rest =
        (if s.scan ≠ i.1 then [Item.simple (.write (written b i.1))] else []) ++
        .simple (.shift i.2.1) :: ((if skip then [] else [.simple (.goto (target i.2.2))]) ++ rest)
        := by
      unfold stmts
      split <;> split <;> simp
    rw [e] at hc
    by_cases hd : s.scan = i.1
    · rw [if_neg (not_not.mpr hd), List.nil_append] at hc
      refine ⟨s, Reach.refl p s, rfl, rfl, hm, ?_, hc⟩
      funext x
      split
      · rename_i hx
        rw [hx]
        exact hd
      · rfl
    · rw [if_pos hd, List.cons_append, List.nil_append] at hc
      refine ⟨{ s with
        code := .simple (.shift i.2.1) ::
          ((if skip then [] else [.simple (.goto (target i.2.2))]) ++ rest)
        marks := s.marks + (if written b i.1 ≠ 0 ∧ s.scan = 0 then 1 else 0)
          - (if written b i.1 = 0 ∧ s.scan ≠ 0 then 1 else 0)
        tape := fun x => if x = s.pos then written b i.1 else s.tape x },
        Reach.step (by simp only [C.step, hc, hin]; rfl), rfl, rfl, hm.write hp _ _, ?_, rfl⟩
      simp only [hw]
  obtain ⟨s1, hr, hpos, hst, hm1, ht, hc1⟩ := hwr
  -- the move
  have hsh : ∃ s2, Reach p s1 s2 ∧ Eff s s2 i ∧ s2.marks = s1.marks ∧
      s2.code = if s1.marks = 0 then codeAt 'H' p
        else ((if skip then [] else [.simple (.goto (target i.2.2))]) ++ rest) := by
    refine ⟨{ s1 with
        pos := if i.2.1 then s1.pos + 1 else s1.pos - 1
        steps := s1.steps + 1
        code := if s1.marks = 0 then codeAt 'H' p
          else ((if skip then [] else [.simple (.goto (target i.2.2))]) ++ rest) },
      Reach.step (by simp only [C.step, hc1]), ⟨?_, ht, ?_, ?_⟩, rfl, rfl⟩
    · simp only [hpos]
    · simp only [hst]
    · exact ⟨hm1.1, hm1.2⟩
  obtain ⟨s2, hr2, he, hmk, hc2⟩ := hsh
  by_cases hz : s1.marks = 0
  · refine ⟨s2, hr.trans hr2, he, ?_⟩
    rw [hc2, if_pos hz, if_pos (hmk.trans hz)]
  · rw [if_neg hz] at hc2
    cases skip with
    | true =>
      refine ⟨s2, hr.trans hr2, he, ?_⟩
      rw [← hmk] at hz
      rw [hc2, if_neg hz]
      rfl
    | false =>
      refine ⟨{ s2 with code := codeAt (target i.2.2) p }, (hr.trans hr2).trans (Reach.step (by
        simp only [C.step, hc2]
        rfl)), ⟨he.pos, he.tape, he.steps, he.marks⟩, ?_⟩
      rw [if_neg (by
        show ¬ s2.marks = 0
        rw [hmk]
        exact hz)]
      rfl

/-! ### The code at a label -/

theorem codeAt_skip (l : Char) (a b : List Item) (h : a.flatMap Item.labels = []) :
    codeAt l (a ++ b) = codeAt l b := by
  induction a with
  | nil => rfl
  | cons i a ih =>
    rw [List.flatMap_cons, List.append_eq_nil_iff] at h
    rw [List.cons_append, codeAt, if_neg, ih h.2]
    rintro rfl
    simp [Item.labels] at h

theorem showState_inj : ∀ a : Nat, a < 7 → ∀ b : Nat, b < 7 → showState a = showState b → a = b := by decide +kernel

theorem showState_ne_H : ∀ a : Nat, a < 7 → showState a ≠ 'H' := by decide +kernel

theorem codeAt_block (tail : List Item) (rows : List (List (Option Instr))) :
    ∀ (st j : Nat) (row : List (Option Instr)), rows[j]? = some row → st + rows.length ≤ 7 →
    ∃ rest, codeAt (showState (st + j)) (blockItems st rows ++ tail) =
      bodyItems (st + j) (row.map orHalt) ++ rest := by
  induction rows with
  | nil => intro st j row h; simp at h
  | cons r rows ih =>
    intro st j row h hl
    rw [List.length_cons] at hl
    rw [blockItems, List.cons_append, List.cons_append, codeAt]
    cases j with
    | zero =>
      simp only [List.getElem?_cons_zero, Option.some.injEq] at h
      subst h
      rw [Nat.add_zero, if_pos rfl, List.append_assoc]
      exact ⟨_, rfl⟩
    | succ j =>
      rw [List.getElem?_cons_succ] at h
      have hj : j < rows.length := by
        by_contra hc
        rw [List.getElem?_eq_none (by omega)] at h
        simp at h
      rw [if_neg, List.append_assoc, codeAt_skip _ _ _ (labels_body _ _)]
      · have := ih (st + 1) j row h (by omega)
        rwa [show st + 1 + j = st + (j + 1) by omega] at this
      · intro hc
        rw [Item.label.injEq] at hc
        have := showState_inj st (by omega) (st + (j + 1)) (by omega) hc
        omega

theorem codeAt_H (rows : List (List (Option Instr))) : ∀ st : Nat, st + rows.length ≤ 7 →
    codeAt 'H' (blockItems st rows ++ [.label 'H', .check]) = [.check] := by
  induction rows with
  | nil => intro st _; rfl
  | cons r rows ih =>
    intro st hl
    rw [List.length_cons] at hl
    rw [blockItems, List.cons_append, List.cons_append, codeAt, if_neg, List.append_assoc,
      codeAt_skip _ _ _ (labels_body _ _), ih (st + 1) (by omega)]
    intro hc
    rw [Item.label.injEq] at hc
    exact showState_ne_H st (by omega) hc

/-! ### One step of the machine -/

theorem caseBodies_drop (is : List CInstr) : ∀ (co k : Nat) (i : CInstr), is[k]? = some i →
    ∃ rest, (((caseBodies co is).dropWhile fun c => c.1 ≠ co + k).flatMap Prod.snd) =
      stmts (co + k) i false false ++ rest := by
  induction is with
  | nil => intro co k i h; simp at h
  | cons j is ih =>
    intro co k i h
    cases k with
    | zero =>
      simp only [List.getElem?_cons_zero, Option.some.injEq] at h
      subst h
      simp only [caseBodies, Nat.add_zero]
      rw [List.dropWhile_cons_of_neg (by simp), List.flatMap_cons]
      exact ⟨_, rfl⟩
    | succ k =>
      rw [List.getElem?_cons_succ] at h
      obtain ⟨rest, hr⟩ := ih (co + 1) k i h
      refine ⟨rest, ?_⟩
      rw [caseBodies, List.dropWhile_cons_of_pos (by simp), show co + (k + 1) = co + 1 + k by omega,
        hr]

theorem target_state {q : Nat} (hq : q < 7) : target q = showState q := by
  unfold target
  rw [if_pos (by omega)]
  rfl

/-- From the code of state `q` on colour `co`: the instruction is executed. -/
theorem reach_body {p : List Item} {q : Nat} (hq : q < 7) {is : List CInstr} {C : Nat}
    (hlen : is.length = C) (hcol : ∀ i ∈ is, (C = 2 → i.1 < 2)) {s : Mem} (hm : MarksOk s)
    (hp : 0 ≤ s.pos ∧ s.pos < 100) {i : CInstr} (hi : is[s.scan]? = some i) {rest : List Item}
    (hcode : codeAt (showState q) p = bodyItems q is ++ rest)
    (hc : s.code = codeAt (showState q) p) :
    ∃ s', Reach p s s' ∧ Eff s s' i ∧
      s'.code = if s'.marks = 0 then codeAt 'H' p else codeAt (target i.2.2) p := by
  have hin : (!s.inside) = false := by simp [Mem.inside, hp.1, hp.2]
  -- entering a block and executing its statements
  have enter : ∀ (s1 : Mem) (b skip : Bool) (rest : List Item), Reach p s s1 → s1.pos = s.pos →
      s1.tape = s.tape → s1.marks = s.marks → s1.steps = s.steps → written b i.1 = i.1 →
      s1.code = (stmts s.scan i b skip).map .simple ++ rest →
      (skip = true → rest = codeAt (target i.2.2) p) →
      ∃ s', Reach p s s' ∧ Eff s s' i ∧
        s'.code = if s'.marks = 0 then codeAt 'H' p else codeAt (target i.2.2) p := by
    intro s1 b skip rest hr h1 h2 h3 h4 hw hc1 hs
    have hm1 : MarksOk s1 := by
      constructor
      · rw [h3, h2]; exact hm.1
      · rw [h2]; exact hm.2
    have hsc : s1.scan = s.scan := by rw [Mem.scan, Mem.scan, h1, h2]
    obtain ⟨s', hr', he, hcc⟩ := reach_stmts (p := p) hm1 (by rw [h1]; exact hp) hw skip
      (rest := rest) (by rw [hsc]; exact hc1)
    refine ⟨s', hr.trans hr', ⟨?_, ?_, ?_, he.marks⟩, ?_⟩
    · rw [he.pos, h1]
    · rw [he.tape, h1, h2]
    · rw [he.steps, h4]
    · rw [hcc]
      cases skip with
      | true => rw [← hs rfl]; rfl
      | false => rfl
  rw [hcode] at hc
  by_cases hC : C = 2
  · subst hC
    obtain ⟨i0, i1, rfl⟩ : ∃ i0 i1, is = [i0, i1] := by
      rcases is with _ | ⟨i0, _ | ⟨i1, _ | ⟨i2, is⟩⟩⟩
      · simp at hlen
      · simp at hlen
      · exact ⟨i0, i1, rfl⟩
      · simp at hlen
    have hw : written true i.1 = i.1 := by
      have := hcol i (List.mem_of_getElem? hi) rfl
      simp only [written]
      have h01 : i.1 = 0 ∨ i.1 = 1 := Nat.le_one_iff_eq_zero_or_eq_one.mp (Nat.le_of_lt_succ this)
      rcases h01 with h | h <;> rw [h] <;> rfl
    have hsc : (s.scan = 0 ∧ i = i0) ∨ (s.scan = 1 ∧ i = i1) := by
      rcases hs : s.scan with _ | _ | n
      · rw [hs] at hi
        simp only [List.getElem?_cons_zero, Option.some.injEq] at hi
        exact Or.inl ⟨rfl, hi.symm⟩
      · rw [hs] at hi
        simp only [Nat.zero_add, List.getElem?_cons_succ, List.getElem?_cons_zero,
          Option.some.injEq] at hi
        exact Or.inr ⟨rfl, hi.symm⟩
      · rw [hs] at hi
        simp at hi
    have hcode' := hcode
    simp only [bodyItems] at hc hcode'
    split at hc
    · rename_i h0
      rw [if_pos h0] at hcode'
      rcases hsc with ⟨hs, rfl⟩ | ⟨hs, rfl⟩
      · refine enter { s with code := (stmts 0 i true true).map .simple ++ s.code } true true s.code
          (Reach.step (by simp only [C.step, hc, hin, hs]; rfl)) rfl rfl rfl rfl hw
          (by rw [hs]) (fun _ => ?_)
        rw [← h0, target_state hq, hc, hcode']
      · refine enter { s with code := (stmts 1 i true false).map .simple ++ rest } true false rest
          (Reach.step (by simp only [C.step, hc, hin, hs]; rfl)) rfl rfl rfl rfl hw
          (by rw [hs]) (fun h => absurd h (by decide))
    · rename_i h0
      rw [if_neg h0] at hcode'
      split at hc
      · rename_i h1
        rw [if_pos h1] at hcode'
        rcases hsc with ⟨hs, rfl⟩ | ⟨hs, rfl⟩
        · refine enter { s with code := (stmts 0 i true false).map .simple ++ rest } true false rest
            (Reach.step (by simp only [C.step, hc, hin, hs]; rfl)) rfl rfl rfl rfl hw
            (by rw [hs]) (fun h => absurd h (by decide))
        · refine enter { s with code := (stmts 1 i true true).map .simple ++ s.code } true true s.code
            (Reach.step (by simp only [C.step, hc, hin, hs]; rfl)) rfl rfl rfl rfl hw
            (by rw [hs]) (fun _ => ?_)
          rw [← h1, target_state hq, hc, hcode']
      · rcases hsc with ⟨hs, rfl⟩ | ⟨hs, rfl⟩
        · refine enter { s with code := (stmts 0 i true false).map .simple ++ rest } true false rest
            (Reach.step (by simp only [C.step, hc, hin, hs, List.cons_append]; rfl)) rfl rfl rfl rfl hw
            (by rw [hs]) (fun h => absurd h (by decide))
        · refine enter { s with code := (stmts 1 i true false).map .simple ++ rest } true false rest
            (Reach.step (by simp only [C.step, hc, hin, hs, List.cons_append]; rfl)) rfl rfl rfl rfl hw
            (by rw [hs]) (fun h => absurd h (by decide))
  · have hb : bodyItems q is = [.switch (caseBodies 0 is)] := by
      rcases is with _ | ⟨i0, _ | ⟨i1, _ | ⟨i2, is⟩⟩⟩
      · rfl
      · rfl
      · exact absurd hlen.symm hC
      · rfl
    rw [hb] at hc
    obtain ⟨rest', hr'⟩ := caseBodies_drop is 0 s.scan i hi
    rw [Nat.zero_add] at hr'
    refine enter { s with
      code := (((caseBodies 0 is).dropWhile fun c => c.1 ≠ s.scan).flatMap Prod.snd).map Item.simple
        ++ rest } false false (rest'.map .simple ++ rest)
      (Reach.step (by simp only [BB.C.step, hc, hin, List.cons_append]; rfl)) rfl rfl rfl rfl rfl ?_
      (fun h => absurd h (by decide))
    simp only
    rw [hr', List.map_append, List.append_assoc]

/-! ### Simulation -/

/-- The machine of a table of rows. -/
def progOf (rows : List (List (Option Instr))) : Prog :=
  fun s => (rows[s.1]?.bind fun row => row[s.2]?).join

/-- The program variables are those of configuration `c` after `n` steps. -/
structure Vars (C n : Nat) (c : Cfg) (s : Mem) : Prop where
  pos : s.pos = c.pos + 50
  tape : ∀ x, s.tape (x + 50) = c.tape x
  steps : s.steps = n
  marks : MarksOk s
  colors : ∀ x, c.tape x < C

theorem Vars.scan {C n : Nat} {c : Cfg} {s : Mem} (h : Vars C n c s) : s.scan = c.tape c.pos := by
  rw [Mem.scan, h.pos, h.tape]

theorem Vars.blank {C n : Nat} {c : Cfg} {s : Mem} (h : Vars C n c s) :
    s.marks = 0 ↔ c.Blank := by
  rw [h.marks.zero_iff]
  constructor
  · intro h0 x
    rw [← h.tape, h0]
  · intro h0 x
    have := h.tape (x - 50)
    rw [sub_add_cancel] at this
    rw [this, h0]

theorem Vars.exec {C n : Nat} {c : Cfg} {s s' : Mem} (h : Vars C n c s) {i : Instr} (hi : i.1 < C)
    (he : Eff s s' (i.1, i.2.1, i.2.2)) : Vars C (n + 1) (c.exec i) s' where
  pos := by
    rw [he.pos, h.pos]
    simp only [Cfg.exec]
    split <;> ring
  tape x := by
    rw [he.tape, h.pos]
    simp only [Cfg.exec, add_left_inj]
    rw [h.tape]
  steps := by rw [he.steps, h.steps]
  marks := he.marks
  colors x := by
    simp only [Cfg.exec]
    split
    · exact hi
    · exact h.colors x

/-- At the label of the state of `c`. -/
structure Sim (rows : List (List (Option Instr))) (C n : Nat) (c : Cfg) (s : Mem) : Prop where
  vars : Vars C n c s
  state : c.state < rows.length
  code : s.code = codeAt (showState c.state) (mainItems rows)

/-- The instructions of a row, as the generator sees them. -/
theorem Fits.get {rows : List (List (Option Instr))} {C : Nat} (h : Fits rows C) {c : Cfg}
    (hs : c.state < rows.length) (hc : c.tape c.pos < C) :
    ∃ row ∈ rows, rows[c.state]? = some row ∧
      (row.map orHalt)[c.tape c.pos]? = some (orHalt (progOf rows c.slot)) ∧
      ∀ i, progOf rows c.slot = some i → some i ∈ row := by
  have h1 : rows[c.state]? = some rows[c.state] := List.getElem?_eq_getElem hs
  have hm : rows[c.state] ∈ rows := List.getElem_mem hs
  have hl := h.row _ hm
  have hc' : c.tape c.pos < (rows[c.state]).length := by rw [hl]; exact hc
  have h2 : (rows[c.state])[c.tape c.pos]? = some ((rows[c.state])[c.tape c.pos]'hc') :=
    List.getElem?_eq_getElem hc'
  have e : progOf rows c.slot = (rows[c.state])[c.tape c.pos]'hc' := by
    simp only [progOf, Cfg.slot]
    rw [h1, Option.bind_some, h2]
    rfl
  refine ⟨_, hm, h1, ?_, ?_⟩
  · rw [List.getElem?_map, h2, e]
    rfl
  · intro i hi
    rw [e] at hi
    rw [← hi]
    exact List.getElem_mem _

/-- One step of the machine in the C program; the last line is where it goes on. -/
theorem Sim.step {rows : List (List (Option Instr))} {C n : Nat} (h : Fits rows C) {c : Cfg}
    {s : Mem} (hs : Sim rows C n c s) (hp : -50 ≤ c.pos ∧ c.pos < 50) :
    ∃ s', Reach (mainItems rows) s s' ∧ Eff s s' (orHalt (progOf rows c.slot)) ∧
      s'.code = if s'.marks = 0 then codeAt 'H' (mainItems rows)
        else codeAt (target (orHalt (progOf rows c.slot)).2.2) (mainItems rows) := by
  have hco := hs.vars.colors c.pos
  obtain ⟨row, hrow, hget, hi, -⟩ := h.get hs.state hco
  obtain ⟨rest, hrest⟩ := codeAt_block [.label 'H', .check] rows 0 c.state row hget
    (by have := h.states; omega)
  rw [Nat.zero_add] at hrest
  have hst := hs.state
  have hst7 := h.states
  have hq : (c.state : Nat) < 7 := Nat.lt_of_lt_of_le hst hst7
  have hpos := hs.vars.pos
  refine reach_body (is := row.map orHalt) (C := C) hq ?_ ?_ hs.vars.marks ?_ ?_ hrest hs.code
  · rw [List.length_map, h.row row hrow]
  · intro i hi hC
    subst hC
    rw [List.mem_map] at hi
    obtain ⟨o, ho, rfl⟩ := hi
    cases o with
    | none => decide
    | some i => exact (h.instr row hrow i ho).1
  · rw [hpos]
    omega
  · rw [hs.vars.scan]
    exact hi

theorem codeAt_H_main {rows : List (List (Option Instr))} {C : Nat} (h : Fits rows C) :
    codeAt 'H' (mainItems rows) = [.check] := codeAt_H rows 0 (by have := h.states; omega)

/-- At the label `H` with `STEPS = n`. -/
def AtH (s : Mem) (n : Nat) : Prop := s.code = [.check] ∧ s.steps = n

/-- A step of the machine to a state of the table, not blanking the tape. -/
theorem Sim.next {rows : List (List (Option Instr))} {C n : Nat} (h : Fits rows C) {c d : Cfg}
    {s : Mem} (hs : Sim rows C n c s) (hp : -50 ≤ c.pos ∧ c.pos < 50)
    (hd : BB.step (progOf rows) c = some d) :
    ∃ s', Reach (mainItems rows) s s' ∧ Vars C (n + 1) d s' ∧
      (d.Blank → AtH s' (n + 1)) ∧ (rows.length ≤ d.state → AtH s' (n + 1)) ∧
      (¬ d.Blank → d.state < rows.length → Sim rows C (n + 1) d s') := by
  obtain ⟨s', hr, he, hc⟩ := hs.step h hp
  rw [BB.step, Option.map_eq_some_iff] at hd
  obtain ⟨i, hi, rfl⟩ := hd
  obtain ⟨row, hrow, -, -, hmem⟩ := h.get hs.state (hs.vars.colors c.pos)
  obtain ⟨hi1, hi2⟩ := h.instr row hrow i (hmem i hi)
  rw [hi] at he hc
  have hv := hs.vars.exec hi1 he
  refine ⟨s', hr, hv, fun hb => ⟨?_, hv.steps⟩, fun hge => ⟨?_, hv.steps⟩, fun hb hlt => ⟨hv, hlt, ?_⟩⟩
  · rw [hc, if_pos (hv.blank.mpr hb), codeAt_H_main h]
  · have h30 : i.2.2 = 30 := by
      rcases hi2 with hi2 | hi2
      · exact absurd hi2 (Nat.not_lt.mpr hge)
      · exact hi2
    have ht : target (orHalt (some i)).2.2 = 'H' := by
      obtain ⟨pr, sh, tr⟩ := i
      simp only at h30
      subst h30
      rfl
    rw [hc, ht, codeAt_H_main h]
    split <;> rfl
  · rw [hc, if_neg (fun hz => hb (hv.blank.mp hz))]
    have hlt' : (i.2.2 : Nat) < 7 := Nat.lt_of_lt_of_le hlt h.states
    have : target (orHalt (some i)).2.2 = showState i.2.2 := target_state hlt'
    rw [this]
    rfl

/-- At an undefined instruction. -/
theorem Sim.halt {rows : List (List (Option Instr))} {C n : Nat} (h : Fits rows C) {c : Cfg}
    {s : Mem} (hs : Sim rows C n c s) (hp : -50 ≤ c.pos ∧ c.pos < 50)
    (hd : progOf rows c.slot = none) :
    ∃ s', Reach (mainItems rows) s s' ∧ AtH s' (n + 1) := by
  obtain ⟨s', hr, he, hc⟩ := hs.step h hp
  rw [hd] at hc
  have ht : target (orHalt none).2.2 = 'H' := rfl
  refine ⟨s', hr, ?_, by rw [he.steps, hs.vars.steps]⟩
  rw [hc, ht, codeAt_H_main h]
  split <;> rfl

/-- The start of `main`. -/
theorem sim_start {rows : List (List (Option Instr))} {C : Nat} (h : Fits rows C) :
    ∃ s, Reach (mainItems rows) (start (mainItems rows)) s ∧ Sim rows C 0 initCfg s := by
  obtain ⟨row, rest, rfl⟩ : ∃ row rest, rows = row :: rest := by
    cases rows with
    | nil => exact absurd rfl h.ne
    | cons row rest => exact ⟨row, rest, rfl⟩
  refine ⟨{ start (mainItems (row :: rest)) with
      code := codeAt (showState 0) (mainItems (row :: rest)) }, Reach.step ?_,
    ⟨rfl, fun x => rfl, rfl, ?_, ?_⟩, ?_, rfl⟩
  · have e : ∃ l, mainItems (row :: rest) = .label (showState 0) :: l := ⟨_, rfl⟩
    obtain ⟨l, hl⟩ := e
    rw [hl]
    simp only [BB.C.step, start, codeAt, if_true]
  · constructor
    · symm
      apply Finset.sum_eq_zero
      intro x _
      rfl
    · intro x hx
      exact absurd rfl hx
  · intro x
    exact h.one
  · exact Nat.succ_pos _

/-- After `n` steps that do not blank the tape and stay in the array. -/
theorem sim_run {rows : List (List (Option Instr))} {C : Nat} (h : Fits rows C) : ∀ n c,
    runFor (progOf rows) n initCfg = some c →
    (∀ m d, m ≤ n → runFor (progOf rows) m initCfg = some d →
      (m < n → -50 ≤ d.pos ∧ d.pos < 50) ∧ (1 ≤ m → ¬ d.Blank) ∧ d.state < rows.length) →
    ∃ s, Reach (mainItems rows) (start (mainItems rows)) s ∧ Sim rows C n c s := by
  intro n
  induction n with
  | zero =>
    intro c hc _
    simp only [runFor, Option.some.injEq] at hc
    subst hc
    exact sim_start h
  | succ n ih =>
    intro c hc hall
    obtain ⟨d, hd, hdc⟩ : ∃ d, runFor (progOf rows) n initCfg = some d ∧
        BB.step (progOf rows) d = some c := by
      rw [runFor_succ'] at hc
      exact Option.bind_eq_some_iff.mp hc
    obtain ⟨s, hr, hs⟩ := ih d hd (fun m e hm he => by
      obtain ⟨h1, h2, h3⟩ := hall m e (by omega) he
      exact ⟨fun hlt => h1 (by omega), h2, h3⟩)
    obtain ⟨hp, -, -⟩ := hall n d (by omega) hd
    obtain ⟨-, hb, hst⟩ := hall (n + 1) c (le_refl _) hc
    obtain ⟨s', hr', -, -, -, hsim⟩ := hs.next h (hp (by omega)) hdc
    exact ⟨s', hr.trans hr', hsim (hb (by omega)) hst⟩

end CGen
end BB
