import Verif.Model.IdrisParse
import Verif.Lemmas.IdrisRun

/-! # Reading programs in Idris -/

namespace BB.Idris

open BB.Idris.Parser

/-- An instruction of the specification in Idris. -/
def toInstr (i : Nat × Bool × Nat) : Instruction := (i.1, if i.2.1 then .R else .L, i.2.2)

theorem sat_cons {p : Char → Bool} {x : Char} (h : p x = true) (rest : List Char) :
    sat p (x :: rest) = some (x, rest) := by
  simp [sat, andThen, item, h, ret]

theorem andThen_of {α β : Type} {p : Parser α} {f : α → Parser β} {s rest : List Char} {a : α}
    (h : p s = some (a, rest)) : andThen p f s = f a rest := by
  rw [andThen, h]

theorem instruction_entry {e : List Char} {i : Nat × Bool × Nat} (h : Entry e i) (rest : List Char) :
    instruction (e ++ rest) = some (toInstr i, rest) := by
  cases h with
  | undef =>
    simp only [instruction, color, shift, state, andThen, List.cons_append, List.nil_append,
      sat, item]
    rfl
  | @instr c d s hc hs =>
    have h1 : ∀ c < 10, isDigit (Char.ofNat (48 + c)) = true ∧ natOrZ (Char.ofNat (48 + c)) = c := by
      decide +kernel
    have h3 : ∀ s < 13, (isUpper (if s = 0 then '_' else Char.ofNat (64 + s)) ||
        (if s = 0 then '_' else Char.ofNat (64 + s)) == '_' ||
        (if s = 0 then '_' else Char.ofNat (64 + s)) == '.') = true ∧
        castState (if s = 0 then '_' else Char.ofNat (64 + s)) = s := by decide +kernel
    simp only [List.cons_append, List.nil_append]
    have e1 : ∀ r, color (Char.ofNat (48 + c) :: r) = some (c, r) := fun r => by
      rw [color, andThen_of (sat_cons (by rw [(h1 c hc).1]; rfl) _), (h1 c hc).2]; rfl
    have e2 : ∀ r, shift ((if d then 'R' else 'L') :: r) = some (if d then .R else .L, r) := fun r => by
      cases d <;> rfl
    have e3 : ∀ r, state ((if s = 0 then '_' else Char.ofNat (64 + s)) :: r) = some (s, r) := fun r => by
      rw [state, andThen_of (sat_cons (h3 s hs).1 _), (h3 s hs).2]; rfl
    rw [instruction, andThen_of (e1 _), andThen_of (e2 _), andThen_of (e3 _)]
    rfl

theorem space_cons (rest : List Char) : space (' ' :: rest) = some ((), rest) := by
  rw [space, andThen, sat_cons (by decide)]; rfl

theorem intercalate_two {α : Type} (sep a b : List α) (l : List (List α)) :
    sep.intercalate (a :: b :: l) = a ++ (sep ++ sep.intercalate (b :: l)) := by
  simp [List.intercalate, List.intersperse]

theorem intercalate_one {α : Type} (sep a : List α) : sep.intercalate [a] = a := by
  simp [List.intercalate]

theorem instructions_row {row : List (List Char)} {is : List (Nat × Bool × Nat)}
    (h : List.Forall₂ Entry row is) : ∀ rest,
    instructions is.length (rowText row ++ rest) = some (is.map toInstr, rest) := by
  induction h with
  | nil => intro rest; rfl
  | @cons e i row is he hr ih =>
    intro rest
    cases hr with
    | nil =>
      show instructions 1 _ = _
      rw [rowText, intercalate_one, instructions, andThen, instruction_entry he]; rfl
    | @cons e' i' row is he' hr =>
      show instructions (is.length + 1 + 1) _ = _
      rw [rowText, intercalate_two, instructions, andThen, List.append_assoc, instruction_entry he]
      · simp only [List.cons_append, List.nil_append, andThen]
        rw [space_cons]
        simp only []
        have := ih rest
        rw [rowText] at this
        rw [show is.length + 1 = (i' :: is).length from rfl, this]
        rfl
      · intro h; omega

theorem program_rows {rows : List (List (List Char))} {k : Nat} {iss : List (List (Nat × Bool × Nat))}
    (h : TextMeans k rows iss) : ∀ rest,
    program iss.length k (progText rows ++ rest) = some (iss.map (List.map toInstr), rest) := by
  induction h with
  | nil => intro rest; rfl
  | @cons row is rows iss he hr ih =>
    intro rest
    obtain ⟨he, rfl⟩ := he
    cases hr with
    | nil =>
      show program 1 _ _ = _
      rw [progText, List.map_cons, List.map_nil, intercalate_one, program, andThen,
        instructions_row he]; rfl
    | @cons row' is' rows iss he' hr =>
      show program (iss.length + 1 + 1) _ _ = _
      rw [progText, List.map_cons, List.map_cons, intercalate_two, program, andThen, List.append_assoc,
        instructions_row he]
      · simp only [List.cons_append, List.nil_append, andThen]
        rw [space_cons]
        simp only []
        rw [space_cons]
        simp only []
        have := ih rest
        rw [progText, List.map_cons] at this
        rw [show iss.length + 1 = (is' :: iss).length from rfl, this]
        rfl
      · intro h; omega

theorem parse_rows {rows : List (List (List Char))} {k : Nat} {iss : List (List (Nat × Bool × Nat))}
    (h : TextMeans k rows iss) :
    parse iss.length k (progText rows) = some (castProgram (iss.map (List.map toInstr))) := by
  have := program_rows h []
  rw [List.append_nil] at this
  rw [parse, runParser, this]; rfl

theorem colorIndex_get : ∀ (is : List Instruction) (c : Nat),
    colorIndex c is = (is[c]?).getD (1, .R, 0)
  | [], c => by simp [colorIndex, halt]
  | i :: is, 0 => rfl
  | i :: is, c + 1 => by rw [colorIndex, colorIndex_get is c]; simp

theorem vectLookup_get {α : Type} : ∀ (l : List α) (k : Nat), vectLookup k l = l[k]?
  | [], k => by cases k <;> simp [vectLookup]
  | x :: l, 0 => rfl
  | x :: l, k + 1 => by rw [vectLookup, vectLookup_get l k]; simp

theorem castProgram_eq (iss : List (List Instruction)) (q c : Nat) :
    castProgram iss q c = (((iss[q - 1]?).getD [])[c]?).getD (1, .R, 0) := by
  rw [castProgram, vectLookup_get]
  show (match iss[q - 1]? with | some instrs => _ | none => _) = _
  cases iss[q - 1]? with
  | none => simp [halt]
  | some is => simp only [colorIndex_get, Option.getD_some]

/-! ## What is accepted -/

theorem sat_some {p : Char → Bool} {s rest : List Char} {x : Char} (h : sat p s = some (x, rest)) :
    s = x :: rest ∧ p x = true := by
  cases s with
  | nil => cases h
  | cons y s =>
    simp only [sat, andThen, item] at h
    split at h
    · rename_i hp; cases h; exact ⟨rfl, hp⟩
    · cases h

theorem andThen_some {α β : Type} {p : Parser α} {f : α → Parser β} {s rest : List Char} {b : β}
    (h : andThen p f s = some (b, rest)) : ∃ a mid, p s = some (a, mid) ∧ f a mid = some (b, rest) := by
  unfold andThen at h
  cases hp : p s with
  | none => rw [hp] at h; cases h
  | some r => obtain ⟨a, mid⟩ := r; rw [hp] at h; exact ⟨a, mid, rfl, h⟩

theorem instruction_some {s rest : List Char} {i : Instruction}
    (h : instruction s = some (i, rest)) : ∃ e, EntryLike e ∧ s = e ++ rest := by
  obtain ⟨co, r1, h1, h⟩ := andThen_some h
  obtain ⟨sh, r2, h2, h⟩ := andThen_some h
  obtain ⟨st, r3, h3, h⟩ := andThen_some h
  cases h
  obtain ⟨a, _, h1, h1'⟩ := andThen_some h1
  cases h1'
  obtain ⟨b, _, h2, h2'⟩ := andThen_some h2
  cases h2'
  obtain ⟨c, _, h3, h3'⟩ := andThen_some h3
  cases h3'
  obtain ⟨rfl, ha⟩ := sat_some h1
  obtain ⟨rfl, hb⟩ := sat_some h2
  obtain ⟨rfl, hc⟩ := sat_some h3
  refine ⟨[a, b, c], ⟨a, b, c, rfl, ?_, ?_, ?_⟩, rfl⟩
  · simp only [Bool.or_eq_true, isDigit, Bool.and_eq_true, decide_eq_true_eq, beq_iff_eq] at ha
    exact ha
  · simp only [Bool.or_eq_true, beq_iff_eq] at hb
    tauto
  · simp only [Bool.or_eq_true, isUpper, Bool.and_eq_true, decide_eq_true_eq, beq_iff_eq] at hc
    rcases hc with (hc | hc) | hc
    · exact .inl hc
    · exact .inr (.inl hc)
    · exact .inr (.inr hc)

theorem space_some {s rest : List Char} {u : Unit} (h : space s = some (u, rest)) :
    s.map plainSpace = ' ' :: rest.map plainSpace := by
  obtain ⟨c, _, h1, h2⟩ := andThen_some h
  cases h2
  obtain ⟨rfl, hc⟩ := sat_some h1
  rw [List.map_cons]
  congr 1
  rw [plainSpace, if_pos]
  have hinj : ∀ {n : Nat}, (c.toNat == n) = true → c = Char.ofNat n := by
    intro n h
    rw [beq_iff_eq] at h
    rw [← h, Char.ofNat_toNat]
  simp only [isSpace, Bool.or_eq_true] at hc
  rcases hc with (((((hc | hc) | hc) | hc) | hc) | hc) | hc
  · rw [beq_iff_eq] at hc; subst hc; decide
  all_goals rw [hinj hc]; decide

theorem entryLike_plain {e : List Char} (h : EntryLike e) : e.map plainSpace = e := by
  obtain ⟨a, b, c, rfl, ha, hb, hc⟩ := h
  have key : ∀ x : Char, 33 ≤ x.toNat → x.toNat ≤ 127 → plainSpace x = x := by
    intro x h1 h2
    rw [plainSpace, if_neg]
    intro h
    simp only [List.mem_cons, List.not_mem_nil, or_false] at h
    rcases h with rfl | rfl | rfl | rfl | rfl | rfl | rfl <;> revert h1 h2 <;> decide
  have ka : plainSpace a = a := by
    rcases ha with ⟨h1, h2⟩ | rfl
    · have h1 : 48 ≤ a.toNat := h1
      have h2 : a.toNat ≤ 57 := h2
      exact key a (by omega) (by omega)
    · decide
  have kb : plainSpace b = b := by rcases hb with rfl | rfl | rfl <;> decide
  have kc : plainSpace c = c := by
    rcases hc with ⟨h1, h2⟩ | rfl | rfl
    · have h1 : 65 ≤ c.toNat := h1
      have h2 : c.toNat ≤ 90 := h2
      exact key c (by omega) (by omega)
    · decide
    · decide
  simp [ka, kb, kc]

theorem instructions_some : ∀ (k : Nat) {s rest : List Char} {is : List Instruction},
    instructions k s = some (is, rest) → ∃ row : List (List Char), row.length = k ∧
      (∀ e ∈ row, EntryLike e) ∧ s.map plainSpace = rowText row ++ rest.map plainSpace
  | 0, s, rest, is, h => by
    cases h; exact ⟨[], rfl, by simp, by simp [rowText, List.intercalate]⟩
  | 1, s, rest, is, h => by
    obtain ⟨i, r, h1, h2⟩ := andThen_some h
    cases h2
    obtain ⟨e, he, rfl⟩ := instruction_some h1
    exact ⟨[e], rfl, by simpa using he, by
      rw [rowText, intercalate_one, List.map_append, entryLike_plain he]⟩
  | k + 2, s, rest, is, h => by
    obtain ⟨i, r, h1, h⟩ := andThen_some h
    obtain ⟨_, r2, h2, h⟩ := andThen_some h
    obtain ⟨is', r3, h3, h⟩ := andThen_some h
    cases h
    obtain ⟨e, he, rfl⟩ := instruction_some h1
    obtain ⟨row, hl, hr, ht⟩ := instructions_some (k + 1) h3
    cases row with
    | nil => cases hl
    | cons e' row =>
      refine ⟨e :: e' :: row, by simpa using hl, ?_, ?_⟩
      · intro x hx
        rcases List.mem_cons.1 hx with rfl | hx
        · exact he
        · exact hr x hx
      · rw [rowText, intercalate_two, List.map_append, entryLike_plain he, space_some h2, ht, rowText]
        simp

theorem program_some : ∀ (n k : Nat) {s rest : List Char} {iss : List (List Instruction)},
    program n k s = some (iss, rest) → ∃ rows : List (List (List Char)), rows.length = n ∧
      (∀ row ∈ rows, row.length = k ∧ ∀ e ∈ row, EntryLike e) ∧
      s.map plainSpace = progText rows ++ rest.map plainSpace
  | 0, k, s, rest, iss, h => by
    cases h; exact ⟨[], rfl, by simp, by simp [progText, List.intercalate]⟩
  | 1, k, s, rest, iss, h => by
    obtain ⟨i, r, h1, h2⟩ := andThen_some h
    cases h2
    obtain ⟨row, hl, hr, ht⟩ := instructions_some k h1
    exact ⟨[row], rfl, by simpa using ⟨hl, hr⟩, by
      rw [progText, List.map_cons, List.map_nil, intercalate_one, ht]⟩
  | n + 2, k, s, rest, iss, h => by
    obtain ⟨i, r, h1, h⟩ := andThen_some h
    obtain ⟨_, r2, h2, h⟩ := andThen_some h
    obtain ⟨_, r3, h3, h⟩ := andThen_some h
    obtain ⟨iss', r4, h4, h⟩ := andThen_some h
    cases h
    obtain ⟨row, hl, hr, ht⟩ := instructions_some k h1
    obtain ⟨rows, hl', hr', ht'⟩ := program_some (n + 1) k h4
    cases rows with
    | nil => cases hl'
    | cons row' rows =>
      refine ⟨row :: row' :: rows, by simpa using hl', ?_, ?_⟩
      · intro x hx
        rcases List.mem_cons.1 hx with rfl | hx
        · exact ⟨hl, hr⟩
        · exact hr' x hx
      · rw [progText, List.map_cons, List.map_cons, intercalate_two, ht, space_some h2,
          space_some h3, ht', progText, List.map_cons]
        simp

/-! ## The machine of a table -/

/-- Where `p` has an instruction, the Idris program has it too, with the states counted from 1; elsewhere
it goes to the halting state. -/
def Matches (p : Prog) (prog : Program) : Prop := ∀ q c,
  match p (q, c) with
  | some (pr, dir, tr) => prog (q + 1) c = (pr, if dir then .R else .L, tr + 1)
  | none => (prog (q + 1) c).2.2 = 0

theorem Matches.prog {p : Prog} {prog : Program} (h : Matches p prog) {q c pr dir tr}
    (hp : p (q, c) = some (pr, dir, tr)) :
    asProg prog (exch (q + 1), c) = some (pr, dir, exch (tr + 1)) := by
  have := h q c
  rw [hp] at this
  simp only at this
  rw [asProg_some prog (by omega), this]
  cases dir <;> simp

theorem Matches.run {p : Prog} {prog : Program} (h : Matches p prog) : ∀ (n : Nat) (q : Nat)
    (x : Int) (f : Int → Nat), runFor p n initCfg = some ⟨q, x, f⟩ →
    runFor (asProg prog) n initCfg = some ⟨exch (q + 1), x, f⟩ := by
  intro n
  induction n with
  | zero => intro q x f hr; cases hr; rfl
  | succ n ih =>
    intro q x f hr
    rw [runFor_succ'] at hr ⊢
    cases he : runFor p n initCfg with
    | none => rw [he] at hr; cases hr
    | some d =>
      obtain ⟨q', x', f'⟩ := d
      rw [he, Option.bind_some] at hr
      rw [ih q' x' f' he, Option.bind_some]
      cases hs : p (q', f' x') with
      | none => rw [step_none (by exact hs)] at hr; cases hr
      | some i =>
        obtain ⟨pr, dir, tr⟩ := i
        rw [step_some (i := (pr, dir, tr)) (by exact hs)] at hr
        rw [step_some (i := (pr, dir, exch (tr + 1))) (by exact h.prog hs)]
        simp only [Cfg.exec, Option.some.injEq, Cfg.mk.injEq] at hr ⊢
        obtain ⟨rfl, rfl, rfl⟩ := hr
        exact ⟨rfl, rfl, rfl⟩

theorem Matches.halts {p : Prog} {prog : Program} (h : Matches p prog) {n : Nat} {s : Slot}
    (hh : HaltsAt p initCfg n s) : ∃ s', HaltsAt (asProg prog) initCfg (n + 1) s' := by
  obtain ⟨⟨q, x, f⟩, h1, rfl, h3⟩ := hh
  have h4 := h q (f x)
  simp only [Cfg.slot] at h3
  rw [h3] at h4
  simp only at h4
  have h5 := asProg_some prog (s := q + 1) (by omega) (f x)
  rw [h4] at h5
  refine ⟨_, Cfg.exec ⟨exch (q + 1), x, f⟩
    ((prog (q + 1) (f x)).1, decide ((prog (q + 1) (f x)).2.1 = .R), exch 0), ?_, rfl, ?_⟩
  · rw [runFor_succ', h.run n q x f h1, Option.bind_some]
    exact step_some (by exact h5)
  · simp only [Cfg.exec, Cfg.slot]
    exact asProg_none prog _

theorem Matches.neverHalts {p : Prog} {prog : Program} (h : Matches p prog)
    (hh : NeverHalts p initCfg) : NeverHalts (asProg prog) initCfg := by
  intro n
  cases he : runFor p n initCfg with
  | none => have := hh n; rw [he] at this; cases this
  | some d => obtain ⟨q, x, f⟩ := d; rw [h.run n q x f he]; rfl

end BB.Idris
