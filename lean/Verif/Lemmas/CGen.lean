import Verif.Model.CGen
import Verif.Spec.CLang

/-!
# Reading what the generator writes

Helper lemmas for C39: `C.parse` of the text of `makeC` is a list of items that is easy to state.
-/

namespace BB
namespace CGen
open C

/-! ### Lines -/

theorem lines_ne (a : List Char) : lines a ≠ [] := by
  cases a with
  | nil => simp [lines]
  | cons c cs =>
    simp only [lines]
    split
    · simp
    · split <;> simp

theorem lines_append (a b : List Char) : lines (a ++ '\n' :: b) = lines a ++ lines b := by
  induction a with
  | nil => simp [lines]
  | cons c cs ih =>
    simp only [List.cons_append, lines, ih]
    split
    · simp
    · rcases h : lines cs with _ | ⟨l, ls⟩
      · exact absurd h (lines_ne cs)
      · simp

theorem lines_single {a : List Char} (h : '\n' ∉ a) : lines a = [a] := by
  induction a with
  | nil => rfl
  | cons c cs ih =>
    simp only [List.mem_cons, not_or] at h
    simp only [lines, ih h.2, if_neg (Ne.symm h.1)]

theorem replaceHalt_nl (a b : List Char) :
    replaceHalt (a ++ '\n' :: b) = replaceHalt a ++ '\n' :: replaceHalt b := by
  have hb : replaceHalt ('\n' :: b) = '\n' :: replaceHalt b := by
    cases b with
    | nil => rfl
    | cons d cs => simp [replaceHalt]
  induction a using replaceHalt.induct with
  | case1 => exact hb
  | case2 c =>
    show replaceHalt (c :: '\n' :: b) = _
    conv_lhs => rw [replaceHalt]
    rw [if_neg (by simp), hb]
    rfl
  | case3 c d cs h ih =>
    show replaceHalt (c :: d :: (cs ++ '\n' :: b)) = _
    rw [replaceHalt, if_pos h, replaceHalt, if_pos h, ih]
    rfl
  | case4 c d cs h ih =>
    show replaceHalt (c :: d :: (cs ++ '\n' :: b)) = _
    rw [replaceHalt, if_neg h, replaceHalt, if_neg h, ← List.cons_append, ih]
    rfl

theorem replaceHalt_no_nl {a : List Char} (h : '\n' ∉ a) : '\n' ∉ replaceHalt a := by
  induction a using replaceHalt.induct with
  | case1 => exact h
  | case2 c => exact h
  | case3 c d cs h' ih =>
    rw [replaceHalt, if_pos h']
    simp only [List.mem_cons, not_or] at h ⊢
    exact ⟨by decide, by decide, ih h.2.2⟩
  | case4 c d cs h' ih =>
    rw [replaceHalt, if_neg h']
    simp only [List.mem_cons, not_or] at h ⊢
    exact ⟨h.1, ih (by simpa using h.2)⟩

/-! ### Tokens of a text after `.replace(' _', ' H')` -/

/-- The text `x`, after the replacement, has the tokens `u`. -/
def T (x : List Char) (u : List Tok) : Prop := toks (replaceHalt x) = some u

instance (x : List Char) (u : List Tok) : Decidable (T x u) :=
  inferInstanceAs (Decidable (_ = _))

theorem T.append {a b : List Char} {u v : List Tok} (ha : T a u) (hb : T b v) :
    T (a ++ '\n' :: b) (u ++ v) := by
  simp only [T, toks] at *
  rw [replaceHalt_nl, lines_append, List.mapM_append]
  rcases h1 : List.mapM (fun l => tok (l.dropWhile (· = ' '))) (lines (replaceHalt a)) with _ | x
  · rw [h1] at ha; simp at ha
  · rcases h2 : List.mapM (fun l => tok (l.dropWhile (· = ' '))) (lines (replaceHalt b)) with _ | y
    · rw [h2] at hb; simp at hb
    · rw [h1] at ha
      rw [h2] at hb
      simp only [Option.map_some, Option.some.injEq] at ha hb
      subst ha hb
      simp [h1, h2]

/-- An instruction that the tables of one-digit colours and seven states allow. -/
def COk (i : CInstr) : Prop := i.1 < 10 ∧ ((-1 ≤ i.2.2 ∧ i.2.2 < 7) ∨ i.2.2 = 30)

/-- The label a next state stands for. -/
def target (tr : Int) : Char := if 0 ≤ tr ∧ tr < 7 then showState tr.toNat else 'H'

def spaces (k : Nat) : List Char := List.replicate k ' '

theorem T_comment : ∀ k ∈ [2, 4, 6], ∀ st < 7, ∀ co < 10, T (spaces k ++ makeComment st co) [] := by
  decide +kernel

theorem T_shift : ∀ k ∈ [2, 4, 6], ∀ sh, T (spaces k ++ makeShift sh) [.simple (.shift sh)] := by
  decide +kernel

theorem T_binary : ∀ k ∈ [2, 4, 6], ∀ pr < 10,
    T (spaces k ++ makeBinaryWrite pr) [.simple (.write (if pr = 1 then 1 else 0))] := by
  decide +kernel

theorem T_nway : ∀ k ∈ [2, 4, 6], ∀ pr < 10,
    T (spaces k ++ makeNWayWrite pr) [.simple (.write pr)] := by
  decide +kernel

theorem T_trans : ∀ k ∈ [2, 4, 6], ∀ tr : Int, ((-1 ≤ tr ∧ tr < 7) ∨ tr = 30) →
    T (spaces k ++ makeTrans tr) [.simple (.goto (target tr))] := by
  have h : ∀ k ∈ [2, 4, 6], ∀ tr ∈ ([-1, 0, 1, 2, 3, 4, 5, 6, 30] : List Int),
      T (spaces k ++ makeTrans tr) [.simple (.goto (target tr))] := by
    decide +kernel
  intro k hk tr ht
  refine h k hk tr ?_
  have : tr = -1 ∨ tr = 0 ∨ tr = 1 ∨ tr = 2 ∨ tr = 3 ∨ tr = 4 ∨ tr = 5 ∨ tr = 6 ∨ tr = 30 := by
    omega
  simpa using this

theorem T_label : ∀ st < 7, T (makeLabel st) [.label (showState st)] := by decide +kernel

theorem T_case : ∀ co < 10, T ("    case ".toList ++ num co ++ ":".toList) [.case co] := by
  decide +kernel

/-! ### Instructions -/

theorem T_indent (k : Nat) : ∀ (ls : List (List Char)) (us : List (List Tok)),
    List.Forall₂ (fun l u => T (spaces k ++ l) u) ls us → ls ≠ [] →
    T (spaces k ++ indent k ls) us.flatten := by
  intro ls us h
  induction h with
  | nil => intro h; exact absurd rfl h
  | @cons l u ls us hl hls ih =>
    intro _
    cases hls with
    | nil => simpa [indent, joinWith] using hl
    | @cons l' u' ls us hl' hls =>
      have := T.append hl (ih (by simp))
      simpa [indent, joinWith, spaces] using this

/-- The colour that is written. -/
def written (binary : Bool) (pr : Color) : Nat := if binary then (if pr = 1 then 1 else 0) else pr

/-- The statements of an instruction. -/
def stmts (co : Color) (i : CInstr) (binary skip : Bool) : List Simple :=
  (if co ≠ i.1 then [.write (written binary i.1)] else []) ++ [.shift i.2.1] ++
  (if skip then [] else [.goto (target i.2.2)])

theorem T_instruction {k : Nat} (hk : k ∈ [2, 4, 6]) {st : State} (hst : st < 7) {co : Color}
    (hco : co < 10) {i : CInstr} (hi : COk i) (binary skip : Bool) :
    T (spaces k ++ indent k (makeInstruction st co i binary skip))
      ((stmts co i binary skip).map .simple) := by
  have h := T_indent k (makeInstruction st co i binary skip)
    ([[]] ++ (if co ≠ i.1 then [[.simple (.write (written binary i.1))]] else []) ++
      [[.simple (.shift i.2.1)]] ++ (if skip then [] else [[.simple (.goto (target i.2.2))]])) ?_
    (by simp [makeInstruction])
  · have e : ([[]] ++ (if co ≠ i.1 then [[Tok.simple (.write (written binary i.1))]] else []) ++
        [[Tok.simple (.shift i.2.1)]] ++
        (if skip then [] else [[Tok.simple (.goto (target i.2.2))]])).flatten =
        (stmts co i binary skip).map .simple := by
      simp only [stmts]
      split <;> split <;> simp
    rwa [e] at h
  · have c := T_comment k hk st hst co hco
    have s := T_shift k hk i.2.1
    have t := T_trans k hk i.2.2 hi.2
    have w : T (spaces k ++ if binary then makeBinaryWrite i.1 else makeNWayWrite i.1)
        [.simple (.write (written binary i.1))] := by
      cases binary
      · exact T_nway k hk _ hi.1
      · exact T_binary k hk _ hi.1
    simp only [makeInstruction]
    refine List.rel_append (List.rel_append (List.rel_append ?_ ?_) ?_) ?_
    · exact .cons c .nil
    · split
      · exact .cons w .nil
      · exact .nil
    · exact .cons s .nil
    · split
      · exact .nil
      · exact .cons t .nil

/-! ### Blocks -/

/-- The tokens of an item. -/
def itemToks : Item → List Tok
  | .label c => [.label c]
  | .simple s => [.simple s]
  | .ifBlank t e =>
    [.ifBlank, .open] ++ t.map .simple ++ [.close, .els, .open] ++ e.map .simple ++ [.close]
  | .whileBlank b body => [.whileBlank b] ++ body.map .simple ++ [.close]
  | .switch cs => [.switch] ++ cs.flatMap (fun c => .case c.1 :: c.2.map .simple) ++ [.close]
  | .check => [.check]

/-- The cases of a switch. -/
def caseBodies : Color → List CInstr → List (Nat × List Simple)
  | _, [] => []
  | co, i :: is => (co, stmts co i false false) :: caseBodies (co + 1) is

/-- What stands between the label of a state and the next label. -/
def bodyItems (st : State) (is : List CInstr) : List Item :=
  match is with
  | [i0, i1] =>
    if (st : Int) = i0.2.2 then
      .whileBlank false (stmts 0 i0 true true) :: (stmts 1 i1 true false).map .simple
    else if (st : Int) = i1.2.2 then
      .whileBlank true (stmts 1 i1 true true) :: (stmts 0 i0 true false).map .simple
    else [.ifBlank (stmts 0 i0 true false) (stmts 1 i1 true false)]
  | is => [.switch (caseBodies 0 is)]

/-- `main` up to the label `H`. -/
def blockItems : State → List (List (Option Instr)) → List Item
  | _, [] => []
  | st, row :: rows =>
    .label (showState st) :: bodyItems st (row.map orHalt) ++ blockItems (st + 1) rows

theorem T_nil : T [] [] := by decide +kernel

theorem toks_simples (l : List Simple) :
    (l.map Item.simple).flatMap itemToks = l.map Tok.simple := by
  induction l with
  | nil => rfl
  | cons s l ih => simpa [itemToks] using ih

/-- The fixed lines. -/
def sIf : List Char := "  if (BLANK)".toList
def sElse : List Char := "  else".toList
def sOpen : List Char := "    {".toList
def sClose4 : List Char := "    }".toList
def sClose2 : List Char := "  }".toList
def sWhile (mark : Bool) : List Char :=
  "  while (".toList ++ (if !mark then "BLANK".toList else "!BLANK".toList) ++ ") {".toList
def sSwitch : List Char := "  switch (SCAN) {".toList
def sCase (co : Nat) : List Char := "    case ".toList ++ num co ++ ":".toList
def sTape : List Char := "#define TAPELEN 100".toList
def sInclude : List Char := "#include \"machine.h\"".toList
def sMain : List Char := "int main(void)".toList
def sBrace : List Char := "{".toList
def sEnd : List Char := " H:\n  CHECK_STEPS;\n}".toList
def sDefine (prog : List Char) : List Char := "#define PROGRAM \"".toList ++ prog ++ "\"".toList

theorem T_sIf : T sIf [.ifBlank] := by decide +kernel
theorem T_sElse : T sElse [.els] := by decide +kernel
theorem T_sOpen : T sOpen [.open] := by decide +kernel
theorem T_sClose4 : T sClose4 [.close] := by decide +kernel
theorem T_sClose2 : T sClose2 [.close] := by decide +kernel
theorem T_sWhile : ∀ mark, T (sWhile mark) [.whileBlank mark] := by decide +kernel
theorem T_sSwitch : T sSwitch [.switch] := by decide +kernel
theorem T_sTape : T sTape [] := by decide +kernel
theorem T_sInclude : T sInclude [] := by decide +kernel
theorem T_sMain : T sMain [.main] := by decide +kernel
theorem T_sBrace : T sBrace [.open] := by decide +kernel
theorem T_sEnd : T sEnd [.label 'H', .check, .close] := by decide +kernel

theorem whileTemplate_eq (mark : Bool) (x y : List Char) :
    whileTemplate (if !mark then "BLANK".toList else "!BLANK".toList) x y =
      '\n' :: (sWhile mark ++ '\n' :: ((spaces 4 ++ x) ++ '\n' :: (sClose2 ++ '\n' ::
        ([] ++ '\n' :: ((spaces 2 ++ y) ++ '\n' :: []))))) := by
  have h1 : "\n  while (".toList = '\n' :: "  while (".toList := by decide +kernel
  have h2 : ") {\n    ".toList = ") {".toList ++ '\n' :: spaces 4 := by decide +kernel
  have h3 : "\n  }\n\n  ".toList = '\n' :: (sClose2 ++ '\n' :: ([] ++ '\n' :: spaces 2)) := by
    decide +kernel
  have h4 : "\n".toList = ['\n'] := by decide +kernel
  have key : ∀ A B C D a b c d e f : List Char, A = '\n' :: a → B = c ++ '\n' :: d →
      C = '\n' :: (f ++ '\n' :: ([] ++ '\n' :: e)) → D = ['\n'] →
      A ++ b ++ B ++ x ++ C ++ y ++ D = '\n' :: ((a ++ b ++ c) ++ '\n' :: ((d ++ x) ++ '\n' ::
        (f ++ '\n' :: ([] ++ '\n' :: ((e ++ y) ++ '\n' :: []))))) := by
    rintro _ _ _ _ a b c d e f rfl rfl rfl rfl
    simp only [List.append_assoc, List.cons_append, List.nil_append]
  exact key _ _ _ _ _ _ _ _ _ _ h1 h2 h3 h4

theorem ifTemplate_eq (x y : List Char) :
    ifTemplate x y =
      '\n' :: (sIf ++ '\n' :: (sOpen ++ '\n' :: ((spaces 6 ++ x) ++ '\n' :: (sClose4 ++ '\n' ::
        (sElse ++ '\n' :: (sOpen ++ '\n' :: ((spaces 6 ++ y) ++ '\n' :: (sClose4 ++ '\n' :: [])
        ))))))) := by
  have h1 : "\n  if (BLANK)\n    {\n      ".toList =
      '\n' :: (sIf ++ '\n' :: (sOpen ++ '\n' :: spaces 6)) := by decide +kernel
  have h2 : "\n    }\n  else\n    {\n      ".toList =
      '\n' :: (sClose4 ++ '\n' :: (sElse ++ '\n' :: (sOpen ++ '\n' :: spaces 6))) := by
    decide +kernel
  have h3 : "\n    }\n".toList = '\n' :: (sClose4 ++ '\n' :: []) := by decide +kernel
  have key : ∀ A B C d i o c e : List Char, A = '\n' :: (i ++ '\n' :: (o ++ '\n' :: d)) →
      B = '\n' :: (c ++ '\n' :: (e ++ '\n' :: (o ++ '\n' :: d))) → C = '\n' :: (c ++ '\n' :: []) →
      A ++ x ++ B ++ y ++ C = '\n' :: (i ++ '\n' :: (o ++ '\n' :: ((d ++ x) ++ '\n' :: (c ++ '\n' ::
        (e ++ '\n' :: (o ++ '\n' :: ((d ++ y) ++ '\n' :: (c ++ '\n' :: [])))))))) := by
    rintro _ _ _ d i o c e rfl rfl rfl
    simp only [List.append_assoc, List.cons_append]
  exact key _ _ _ _ _ _ _ _ h1 h2 h3

theorem makeCase_eq (st co : Nat) (i : CInstr) :
    makeCase st co i = sCase co ++
      '\n' :: (spaces 6 ++ indent 6 (makeInstruction st co i false false)) := by
  have h1 : ":\n      ".toList = ":".toList ++ '\n' :: spaces 6 := by decide +kernel
  have key : ∀ A B a c d x : List Char, B = c ++ '\n' :: d →
      A ++ a ++ B ++ x = (A ++ a ++ c) ++ '\n' :: (d ++ x) := by
    rintro A _ a c d x rfl
    simp only [List.append_assoc, List.cons_append]
  exact key _ _ _ _ _ _ h1

theorem makeNWaySwitch_eq (st : Nat) (is : List CInstr) :
    makeNWaySwitch st is = '\n' :: (sSwitch ++ '\n' ::
      (joinWith "\n\n".toList (makeCases st 0 is) ++ '\n' :: (sClose2 ++ '\n' :: []))) := by
  have h1 : "\n  switch (SCAN) {\n".toList = '\n' :: (sSwitch ++ ['\n']) := by decide +kernel
  have h2 : "\n  }\n".toList = '\n' :: (sClose2 ++ '\n' :: []) := by decide +kernel
  have key : ∀ A B a b x : List Char, A = '\n' :: (a ++ ['\n']) → B = '\n' :: (b ++ '\n' :: []) →
      A ++ x ++ B = '\n' :: (a ++ '\n' :: (x ++ '\n' :: (b ++ '\n' :: []))) := by
    rintro _ _ a b x rfl rfl
    simp only [List.append_assoc, List.cons_append, List.nil_append]
  exact key _ _ _ _ _ h1 h2

theorem progTemplate_eq (prog labels : List Char) :
    progTemplate prog labels = sDefine prog ++ '\n' :: ([] ++ '\n' :: (sTape ++ '\n' :: ([] ++
      '\n' :: (sInclude ++ '\n' :: ([] ++ '\n' :: (sMain ++ '\n' :: (sBrace ++ '\n' ::
      (labels ++ '\n' :: sEnd)))))))) := by
  have h1 : "\"\n\n#define TAPELEN 100\n\n#include \"machine.h\"\n\nint main(void)\n{\n".toList =
      "\"".toList ++ '\n' :: ([] ++ '\n' :: (sTape ++ '\n' :: ([] ++
      '\n' :: (sInclude ++ '\n' :: ([] ++ '\n' :: (sMain ++ '\n' :: (sBrace ++ ['\n']))))))) := by
    decide +kernel
  have h2 : "\n H:\n  CHECK_STEPS;\n}".toList = '\n' :: sEnd := by decide +kernel
  have key : ∀ A B C q t i m b e : List Char, B = q ++ '\n' :: ([] ++ '\n' :: (t ++ '\n' :: ([] ++
      '\n' :: (i ++ '\n' :: ([] ++ '\n' :: (m ++ '\n' :: (b ++ ['\n']))))))) → C = '\n' :: e →
      A ++ prog ++ B ++ labels ++ C = (A ++ prog ++ q) ++ '\n' :: ([] ++ '\n' :: (t ++ '\n' ::
      ([] ++ '\n' :: (i ++ '\n' :: ([] ++ '\n' :: (m ++ '\n' :: (b ++ '\n' ::
      (labels ++ '\n' :: e)))))))) := by
    rintro A _ _ q t i m b e rfl rfl
    simp only [List.append_assoc, List.cons_append, List.nil_append]
  exact key _ _ _ _ _ _ _ _ _ h1 h2

theorem joinWith_cons2 (sep a b : List Char) (l : List (List Char)) :
    joinWith sep (a :: b :: l) = a ++ sep ++ joinWith sep (b :: l) := rfl

theorem T_while {st : Nat} (hst : st < 7) {li ri : CInstr} (hl : COk li) (hr : COk ri)
    (mark : Bool) : ∃ r, makeWhile st li ri mark = '\n' :: r ∧
      T r (itemToks (.whileBlank mark (stmts (if mark then 1 else 0) li true true)) ++
        (stmts (1 - if mark then 1 else 0) ri true false).map .simple) := by
  have h1 : (if mark then 1 else 0 : Nat) < 10 := by cases mark <;> decide
  have h2 : (1 - if mark then 1 else 0 : Nat) < 10 := by cases mark <;> decide
  have a := T_instruction (k := 4) (by decide) hst h1 hl true true
  have b := T_instruction (k := 2) (by decide) hst h2 hr true false
  refine ⟨_, whileTemplate_eq mark _ _, ?_⟩
  have h := (T_sWhile mark).append (a.append (T_sClose2.append (T_nil.append (b.append T_nil))))
  have e : ∀ x y : List Simple, itemToks (.whileBlank mark x) ++ y.map .simple =
      [.whileBlank mark] ++ (x.map .simple ++ ([.close] ++ ([] ++ (y.map .simple ++ [])))) := by
    intro x y
    simp [itemToks]
  rw [e]
  exact h

theorem T_if {st : Nat} (hst : st < 7) {i0 i1 : CInstr} (h0 : COk i0) (h1 : COk i1) :
    ∃ r, ifTemplate (indent 6 (makeInstruction st 0 i0 true false))
        (indent 6 (makeInstruction st 1 i1 true false)) = '\n' :: r ∧
      T r (itemToks (.ifBlank (stmts 0 i0 true false) (stmts 1 i1 true false))) := by
  have a := T_instruction (k := 6) (by decide) hst (co := 0) (by decide) h0 true false
  have b := T_instruction (k := 6) (by decide) hst (co := 1) (by decide) h1 true false
  refine ⟨_, ifTemplate_eq _ _, ?_⟩
  have h := T_sIf.append (T_sOpen.append (a.append (T_sClose4.append (T_sElse.append
    (T_sOpen.append (b.append (T_sClose4.append T_nil)))))))
  have e : ∀ x y : List Simple, itemToks (.ifBlank x y) =
      [.ifBlank] ++ ([.open] ++ (x.map .simple ++ ([.close] ++ ([.els] ++ ([.open] ++
        (y.map .simple ++ ([.close] ++ []))))))) := by
    intro x y
    simp [itemToks]
  rw [e]
  exact h

theorem T_cases {st : Nat} (hst : st < 7) : ∀ (is : List CInstr) (co : Nat), is ≠ [] →
    co + is.length ≤ 10 → (∀ i ∈ is, COk i) →
    T (joinWith "\n\n".toList (makeCases st co is))
      ((caseBodies co is).flatMap fun c => .case c.1 :: c.2.map .simple) := by
  intro is
  induction is with
  | nil => intro co h; exact absurd rfl h
  | cons i is ih =>
    intro co _ hlen hok
    rw [List.length_cons] at hlen
    have hco : co < 10 := by omega
    have a := T_instruction (k := 6) (by decide) hst hco (hok i (by simp)) false false
    have c : T (sCase co ++ _) _ := (T_case co hco).append a
    rw [← makeCase_eq] at c
    cases is with
    | nil =>
      have e : (caseBodies co [i]).flatMap (fun c => Tok.case c.1 :: c.2.map .simple) =
          [.case co] ++ (stmts co i false false).map .simple := by simp [caseBodies]
      rw [e]
      exact c
    | cons i' is =>
      have hl : co + 1 + (i' :: is).length ≤ 10 := by omega
      have r := ih (co + 1) (by simp) hl (fun i hi => hok i (List.mem_cons_of_mem _ hi))
      have h := c.append (T_nil.append r)
      have e : (caseBodies co (i :: i' :: is)).flatMap (fun c => Tok.case c.1 :: c.2.map .simple) =
          [.case co] ++ (stmts co i false false).map .simple ++ ([] ++
          (caseBodies (co + 1) (i' :: is)).flatMap (fun c => .case c.1 :: c.2.map .simple)) := by
        simp [caseBodies]
      have e' : joinWith "\n\n".toList (makeCases st co (i :: i' :: is)) =
          makeCase st co i ++ '\n' :: ([] ++ '\n' ::
            joinWith "\n\n".toList (makeCases st (co + 1) (i' :: is))) := by
        have h2 : "\n\n".toList = ['\n', '\n'] := by decide +kernel
        show joinWith _ (_ :: _ :: _) = _
        rw [joinWith_cons2, h2]
        simp only [List.append_assoc, List.cons_append, List.nil_append]
        rfl
      rw [e, e']
      exact h

theorem T_switch {st : Nat} (hst : st < 7) {is : List CInstr} (hne : is ≠ [])
    (hlen : is.length ≤ 10) (hok : ∀ i ∈ is, COk i) :
    ∃ r, makeSwitch st is = '\n' :: r ∧ T r ((bodyItems st is).flatMap itemToks) := by
  have nway : ∃ r, makeNWaySwitch st is = '\n' :: r ∧
      T r ([Item.switch (caseBodies 0 is)].flatMap itemToks) := by
    have a := T_cases hst is 0 hne (by omega) hok
    refine ⟨_, makeNWaySwitch_eq st is, ?_⟩
    have h := T_sSwitch.append (a.append (T_sClose2.append T_nil))
    have e : [Item.switch (caseBodies 0 is)].flatMap itemToks = [.switch] ++
        ((caseBodies 0 is).flatMap (fun c => .case c.1 :: c.2.map .simple) ++ ([.close] ++ [])) := by
      simp [itemToks]
    rw [e]
    exact h
  rcases is with _ | ⟨i0, _ | ⟨i1, _ | ⟨i2, is⟩⟩⟩
  · exact nway
  · exact nway
  · have h0 := hok i0 (by simp)
    have h1 := hok i1 (by simp)
    simp only [makeSwitch, makeIfElse, bodyItems]
    split
    · obtain ⟨r, hr, hT⟩ := T_while hst h0 h1 false
      refine ⟨r, hr, ?_⟩
      rw [List.flatMap_cons, toks_simples]
      exact hT
    · split
      · obtain ⟨r, hr, hT⟩ := T_while hst h1 h0 true
        refine ⟨r, hr, ?_⟩
        rw [List.flatMap_cons, toks_simples]
        exact hT
      · obtain ⟨r, hr, hT⟩ := T_if hst h0 h1
        refine ⟨r, hr, ?_⟩
        rw [List.flatMap_cons, List.flatMap_nil, List.append_nil]
        exact hT
  · exact nway

/-- Rows that fit: up to ten colours, instructions that fit. -/
def RowOk (row : List (Option Instr)) : Prop :=
  row ≠ [] ∧ row.length ≤ 10 ∧ ∀ i ∈ row.map orHalt, COk i

theorem T_blocks : ∀ (rows : List (List (Option Instr))) (st : Nat), rows ≠ [] →
    st + rows.length ≤ 7 → (∀ r ∈ rows, RowOk r) →
    T (joinWith "\n".toList (makeBlocks st rows)) ((blockItems st rows).flatMap itemToks) := by
  intro rows
  induction rows with
  | nil => intro st h; exact absurd rfl h
  | cons row rows ih =>
    intro st _ hlen hok
    rw [List.length_cons] at hlen
    have hst : st < 7 := by omega
    obtain ⟨h1, h2, h3⟩ := hok row (by simp)
    obtain ⟨r, hr, hT⟩ := T_switch hst (is := row.map orHalt) (by simpa using h1)
      (by simpa using h2) h3
    have a := (T_label st hst).append hT
    rw [← hr] at a
    cases rows with
    | nil =>
      have e : (blockItems st [row]).flatMap itemToks =
          [.label (showState st)] ++ (bodyItems st (row.map orHalt)).flatMap itemToks := by
        simp [blockItems, itemToks]
      rw [e]
      exact a
    | cons row' rows =>
      have hl : st + 1 + (row' :: rows).length ≤ 7 := by omega
      have b := ih (st + 1) (by simp) hl (fun r hr => hok r (List.mem_cons_of_mem _ hr))
      have h := a.append b
      have e : (blockItems st (row :: row' :: rows)).flatMap itemToks =
          [.label (showState st)] ++ (bodyItems st (row.map orHalt)).flatMap itemToks ++
          (blockItems (st + 1) (row' :: rows)).flatMap itemToks := by
        rw [blockItems, List.flatMap_append, List.flatMap_cons]
        rfl
      have e' : joinWith "\n".toList (makeBlocks st (row :: row' :: rows)) =
          (makeLabel st ++ makeSwitch st (row.map orHalt)) ++ '\n' ::
            joinWith "\n".toList (makeBlocks (st + 1) (row' :: rows)) := by
        have h2 : "\n".toList = ['\n'] := by decide +kernel
        show joinWith _ (_ :: _ :: _) = _
        rw [joinWith_cons2, h2]
        simp only [List.append_assoc, List.cons_append, List.nil_append]
        rfl
      rw [e, e']
      exact h

/-- The whole of `main`. -/
def mainItems (rows : List (List (Option Instr))) : List Item :=
  blockItems 0 rows ++ [.label 'H', .check]

theorem replaceHalt_hash (l : List Char) : replaceHalt ('#' :: l) = '#' :: replaceHalt l := by
  cases l with
  | nil => rfl
  | cons c cs => rw [replaceHalt, if_neg (by simp)]

theorem T_sDefine {prog : List Char} (h : '\n' ∉ prog) : T (sDefine prog) [] := by
  have hn : '\n' ∉ sDefine prog := by
    have h1 : '\n' ∉ "#define PROGRAM \"".toList := by decide +kernel
    have h2 : '\n' ∉ "\"".toList := by decide +kernel
    have key : ∀ A B : List Char, '\n' ∉ A → '\n' ∉ B → '\n' ∉ A ++ prog ++ B := by
      intro A B hA hB
      simp [hA, hB, h]
    exact key _ _ h1 h2
  have e : ∃ l, sDefine prog = '#' :: l := by
    have h1 : "#define PROGRAM \"".toList = '#' :: "define PROGRAM \"".toList := by decide +kernel
    have key : ∀ A B a : List Char, A = '#' :: a → ∃ l, A ++ prog ++ B = '#' :: l := by
      rintro _ B a rfl
      exact ⟨a ++ prog ++ B, by simp⟩
    exact key _ _ _ h1
  obtain ⟨l, hl⟩ := e
  rw [T, toks, lines_single (replaceHalt_no_nl hn), hl, replaceHalt_hash]
  rfl

theorem T_prog {prog : List Char} (h : '\n' ∉ prog) {rows : List (List (Option Instr))}
    (hne : rows ≠ []) (hlen : rows.length ≤ 7) (hok : ∀ r ∈ rows, RowOk r) :
    T (progTemplate prog (makeLabels rows))
      (.main :: .open :: ((mainItems rows).flatMap itemToks ++ [.close])) := by
  have b := T_blocks rows 0 hne (by omega) hok
  have h := (T_sDefine h).append (T_nil.append (T_sTape.append (T_nil.append (T_sInclude.append
    (T_nil.append (T_sMain.append (T_sBrace.append (b.append T_sEnd))))))))
  rw [progTemplate_eq, makeLabels]
  have e : Tok.main :: .open :: ((mainItems rows).flatMap itemToks ++ [.close]) =
      [] ++ ([] ++ ([] ++ ([] ++ ([] ++ ([] ++ ([.main] ++ ([.open] ++
        ((blockItems 0 rows).flatMap itemToks ++ [.label 'H', .check, .close])))))))) := by
    simp [mainItems, itemToks]
  rw [e]
  exact h

end CGen
end BB
