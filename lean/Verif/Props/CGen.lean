import Verif.Lemmas.CGenRun
import Verif.Props.Parse

/-!
# C39: the generated C code runs the machine

`C.parse` and `C.run` (`Verif/Spec/CLang.lean`) read and run C text; they know nothing of the
generator.  The machine is `t.get?` in `Verif/Spec/TM.lean`.
-/

namespace BB
open BB.CGen

/-- A program with at most seven states and ten colours whose instructions stay inside or go to the
halt state `_` (30). -/
structure CTable (t : Table) (S K : Nat) : Prop where
  states : 1 ≤ S ∧ S ≤ 7
  colors : 1 ≤ K ∧ K ≤ 10
  slots : ∀ e ∈ t, e.1.1 < S ∧ e.1.2 < K
  instrs : ∀ e ∈ t, e.2.1 < K ∧ (e.2.2.2 < S ∨ e.2.2.2 = 30)

/-- The rows of a table. -/
def gridRows (t : Table) (S K : Nat) : List (List (Option Instr)) :=
  (List.range S).map fun st => (List.range K).map fun co => t.get? (st, co)

theorem get?_mem {t : Table} {s : Slot} {i : Instr} (h : t.get? s = some i) : (s, i) ∈ t := by
  induction t with
  | nil => simp [Table.get?] at h
  | cons e t ih =>
    obtain ⟨k, v⟩ := e
    simp only [Table.get?, List.lookup_cons] at h
    split at h
    · rename_i hk
      have : s = k := by simpa using hk
      subst this
      simp only [Option.some.injEq] at h
      subst h
      exact List.mem_cons_self
    · exact List.mem_cons_of_mem _ (ih h)

theorem CTable.fits {t : Table} {S K : Nat} (h : CTable t S K) : Fits (gridRows t S K) K where
  ne := by
    intro hc
    have := congrArg List.length hc
    simp only [gridRows, List.length_map, List.length_range, List.length_nil] at this
    have := h.states
    omega
  states := by simpa [gridRows] using h.states.2
  one := h.colors.1
  ten := h.colors.2
  row := by
    intro row hr
    obtain ⟨st, -, rfl⟩ := List.mem_map.mp hr
    simp
  instr := by
    intro row hr i hi
    obtain ⟨st, -, rfl⟩ := List.mem_map.mp hr
    obtain ⟨co, -, hco⟩ := List.mem_map.mp hi
    have := h.instrs _ (get?_mem hco)
    simpa [gridRows] using this

theorem CTable.prog {t : Table} {S K : Nat} (h : CTable t S K) :
    progOf (gridRows t S K) = t.get? := by
  funext ⟨st, co⟩
  simp only [progOf, gridRows, List.getElem?_map]
  have hnone : (¬ st < S ∨ ¬ co < K) → t.get? (st, co) = none := by
    intro hc
    by_contra hne
    obtain ⟨i, hi⟩ := Option.ne_none_iff_exists'.mp hne
    obtain ⟨h1, h2⟩ := h.slots _ (get?_mem hi)
    rcases hc with hc | hc
    · exact hc h1
    · exact hc h2
  by_cases h1 : st < S
  · rw [List.getElem?_range h1]
    by_cases h2 : co < K
    · simp [List.getElem?_map, List.getElem?_range h2]
    · rw [hnone (Or.inr h2)]
      simp only [Option.map_some, Option.bind_some, List.getElem?_map]
      rw [List.getElem?_eq_none (by simpa using h2)]
      rfl
  · rw [hnone (Or.inl h1), List.getElem?_eq_none (by simpa using h1)]
    rfl

theorem mem_joinWith {c : Char} {sep : List Char} : ∀ {l : List (List Char)},
    c ∈ joinWith sep l → c ∈ sep ∨ ∃ x ∈ l, c ∈ x := by
  intro l
  induction l with
  | nil => intro h; simp [joinWith] at h
  | cons a l ih =>
    intro h
    cases l with
    | nil => exact Or.inr ⟨a, by simp, h⟩
    | cons b l =>
      simp only [joinWith, List.mem_append] at h
      rcases h with (h | h) | h
      · exact Or.inr ⟨a, by simp, h⟩
      · exact Or.inl h
      · rcases ih h with h | ⟨x, hx, h⟩
        · exact Or.inl h
        · exact Or.inr ⟨x, List.mem_cons_of_mem _ hx, h⟩

theorem CTable.no_newline {t : Table} {S K : Nat} (h : CTable t S K) :
    '\n' ∉ t.show (some (S, K)) := by
  intro hc
  simp only [Table.show, Option.getD_some] at hc
  rcases mem_joinWith hc with hc | ⟨x, hx, hc⟩
  · exact absurd hc (by decide)
  · obtain ⟨st, -, rfl⟩ := List.mem_map.mp hx
    rcases mem_joinWith hc with hc | ⟨x, hx, hc⟩
    · exact absurd hc (by decide)
    · obtain ⟨co, -, rfl⟩ := List.mem_map.mp hx
      rcases hg : t.get? (st, co) with _ | ⟨pr, sh, tr⟩
      · rw [hg] at hc
        exact absurd hc (by decide)
      · rw [hg] at hc
        obtain ⟨h1, h2⟩ := h.instrs _ (get?_mem hg)
        have h10 : pr < 10 := Nat.lt_of_lt_of_le h1 h.colors.2
        have h7 : tr < 31 := by
          rcases h2 with h2 | h2
          · exact Nat.lt_of_lt_of_le h2 (Nat.le_trans h.states.2 (by decide))
          · simp only at h2
            rw [h2]
            decide
        have key : ∀ pr < 10, ∀ sh, ∀ tr < 31, '\n' ∉ showInstr (some (pr, sh, tr)) := by
          decide +kernel
        exact key pr h10 sh tr h7 hc

/-! ### The theorems -/

/-- **C39, the text.**  `make_c` of the text of the program is a C program: it has one label for every
state, every jump has its label, and this is the program the theorems below run. -/
theorem C39_text_partial {t : Table} {S K : Nat} (h : CTable t S K) :
    ∃ text, makeC (t.show (some (S, K))) = some text ∧
      C.parse text = some (mainItems (gridRows t S K)) := by
  have hi : ∀ e ∈ t, e.2.1 < 10 ∧ e.2.2.2 < 68 := by
    intro e he
    obtain ⟨h1, h2⟩ := h.instrs e he
    refine ⟨Nat.lt_of_lt_of_le h1 h.colors.2, ?_⟩
    rcases h2 with h2 | h2
    · exact Nat.lt_of_lt_of_le h2 (Nat.le_trans h.states.2 (by decide))
    · rw [h2]
      decide
  exact parse_makeC h.no_newline (C27_python_rows t S K h.states.1 h.colors.1 hi) h.fits

/-- The code the C compiler sees. -/
def IsCode (t : Table) (S K : Nat) (code : List C.Item) : Prop :=
  ∃ text, makeC (t.show (some (S, K))) = some text ∧ C.parse text = some code

theorem isCode_eq {t : Table} {S K : Nat} (h : CTable t S K) {code : List C.Item}
    (hc : IsCode t S K code) : code = mainItems (gridRows t S K) := by
  obtain ⟨text, h1, h2⟩ := hc
  obtain ⟨text', h1', h2'⟩ := C39_text_partial h
  rw [h1'] at h1
  cases h1
  rw [h2'] at h2
  cases h2
  rfl

/-- In the first `n` steps the machine reads cells that the array of the C program has. -/
def StaysInArray (p : Prog) (n : Nat) : Prop :=
  ∀ m d, m < n → runFor p m initCfg = some d → -50 ≤ d.pos ∧ d.pos < 50

/-- The tape is not blank after any of the steps `1` to `n`. -/
def NotBlank (p : Prog) (n : Nat) : Prop :=
  ∀ m d, 1 ≤ m → m ≤ n → runFor p m initCfg = some d → ¬ d.Blank

theorem state_lt_of_step {t : Table} {S K : Nat} (h : CTable t S K) {c d : Cfg}
    (hs : step t.get? c = some d) : c.state < S := by
  rw [step, Option.map_eq_some_iff] at hs
  obtain ⟨i, hi, -⟩ := hs
  exact (h.slots _ (get?_mem hi)).1

theorem sim_table {t : Table} {S K : Nat} (h : CTable t S K) {n : Nat} {c : Cfg}
    (hr : runFor t.get? n initCfg = some c) (hin : StaysInArray t.get? n) (hb : NotBlank t.get? n)
    (hst : c.state < S) :
    ∃ s, Reach (mainItems (gridRows t S K)) (C.start (mainItems (gridRows t S K))) s ∧
      Sim (gridRows t S K) K n c s := by
  have hl : (gridRows t S K).length = S := by simp [gridRows]
  refine sim_run h.fits n c (by rw [h.prog]; exact hr) ?_
  intro m d hm hd
  rw [h.prog] at hd
  refine ⟨fun hlt => hin m d hlt hd, fun h1 => hb m d h1 hm hd, ?_⟩
  rw [hl]
  rcases Nat.lt_or_eq_of_le hm with hlt | rfl
  · have hsome : (runFor t.get? (m + 1) initCfg).isSome :=
      runFor_isSome_of_le (n := n) hlt (by rw [hr]; rfl)
    rw [runFor_succ', hd, Option.bind_some] at hsome
    obtain ⟨e, he⟩ := Option.isSome_iff_exists.mp hsome
    exact state_lt_of_step h he
  · rw [hr] at hd
    cases hd
    exact hst

/-- **C39, step by step.**  When the machine has made `n` steps, inside the array and without blanking
the tape, the C program comes to the code of the machine's state with `STEPS = n`, the same tape and
the same position.  Missing for C39: eight and more states (`C39_violation`), the array of 100 cells,
the stop on a blank tape (`C39_blank_partial`). -/
theorem C39_steps_partial {t : Table} {S K : Nat} (h : CTable t S K) {code : List C.Item}
    (hcode : IsCode t S K code) {n : Nat} {c : Cfg} (hr : runFor t.get? n initCfg = some c)
    (hin : StaysInArray t.get? n) (hb : NotBlank t.get? n) (hst : c.state < S) :
    ∃ k s, C.run code k (C.start code) = .next s ∧ s.steps = n ∧ s.pos = c.pos + 50 ∧
      (∀ x, s.tape (x + 50) = c.tape x) ∧ s.code = C.codeAt (showState c.state) code := by
  rw [isCode_eq h hcode]
  obtain ⟨s, ⟨k, hk⟩, hs⟩ := sim_table h hr hin hb hst
  exact ⟨k, s, hk, hs.vars.steps, hs.vars.pos, hs.vars.tape, hs.code⟩

theorem stop_of_atH {p : List C.Item} {s : C.Mem} {n : Nat} (hr : Reach p (C.start p) s)
    (h : AtH s n) : ∃ k, C.run p k (C.start p) = .stop n := by
  obtain ⟨k, hk⟩ := hr
  refine ⟨k + 2, ?_⟩
  rw [run_add p k 2 _ _ hk]
  simp only [C.run, C.step, h.1, h.2]

/-- **C39, halting at an undefined instruction.**  The C program ends, and has counted the steps of the
machine and one for the halting instruction. -/
theorem C39_halt_partial {t : Table} {S K : Nat} (h : CTable t S K) {code : List C.Item}
    (hcode : IsCode t S K code) {n : Nat} {slot : Slot} (hh : HaltsAt t.get? initCfg n slot)
    (hin : StaysInArray t.get? (n + 1)) (hb : NotBlank t.get? n) (hst : slot.1 < S) :
    ∃ k, C.run code k (C.start code) = .stop (n + 1) := by
  obtain ⟨c, hr, rfl, hp⟩ := hh
  rw [isCode_eq h hcode]
  obtain ⟨s, hs, hsim⟩ := sim_table h hr (fun m d hm => hin m d (by omega)) hb hst
  obtain ⟨s', hs', ha⟩ := hsim.halt h.fits (hin n c (by omega) hr) (by rw [h.prog]; exact hp)
  exact stop_of_atH (hs.trans hs') ha

/-- The last of `n + 1` steps in the C program. -/
theorem sim_last {t : Table} {S K : Nat} (h : CTable t S K) {n : Nat} {c : Cfg}
    (hr : runFor t.get? (n + 1) initCfg = some c) (hin : StaysInArray t.get? (n + 1))
    (hb : NotBlank t.get? n) :
    ∃ s, Reach (mainItems (gridRows t S K)) (C.start (mainItems (gridRows t S K))) s ∧
      (c.Blank → AtH s (n + 1)) ∧ (S ≤ c.state → AtH s (n + 1)) := by
  rw [runFor_succ'] at hr
  obtain ⟨d, hd, hdc⟩ := Option.bind_eq_some_iff.mp hr
  obtain ⟨s, hs, hsim⟩ := sim_table h hd (fun m e hm => hin m e (by omega)) hb
    (state_lt_of_step h hdc)
  obtain ⟨s', hs', -, h1, h2, -⟩ := hsim.next h.fits (hin n d (by omega) hd)
    (by rw [h.prog]; exact hdc)
  refine ⟨s', hs.trans hs', h1, fun hge => h2 ?_⟩
  simpa [gridRows] using hge

/-- **C39, halting by going to `_`.** -/
theorem C39_halt_state_partial {t : Table} {S K : Nat} (h : CTable t S K) {code : List C.Item}
    (hcode : IsCode t S K code) {n : Nat} {slot : Slot} (hh : HaltsAt t.get? initCfg n slot)
    (hin : StaysInArray t.get? n) (hb : NotBlank t.get? (n - 1)) (hst : S ≤ slot.1) :
    ∃ k, C.run code k (C.start code) = .stop n := by
  obtain ⟨c, hr, rfl, hp⟩ := hh
  rw [isCode_eq h hcode]
  cases n with
  | zero =>
    simp only [runFor, Option.some.injEq] at hr
    subst hr
    have : S ≤ 0 := hst
    have := h.states.1
    omega
  | succ n =>
    obtain ⟨s, hs, -, h2⟩ := sim_last h hr hin hb
    exact stop_of_atH hs (h2 hst)

/-- **C39, blank tape.**  At the first step that leaves the tape blank the C program ends
(`HALT_IF_BLANK` in machine.h). -/
theorem C39_blank_partial {t : Table} {S K : Nat} (h : CTable t S K) {code : List C.Item}
    (hcode : IsCode t S K code) {n : Nat} {c : Cfg} (hr : runFor t.get? (n + 1) initCfg = some c)
    (hin : StaysInArray t.get? (n + 1)) (hb : NotBlank t.get? n) (hbl : c.Blank) :
    ∃ k, C.run code k (C.start code) = .stop (n + 1) := by
  rw [isCode_eq h hcode]
  obtain ⟨s, hs, h1, -⟩ := sim_last h hr hin hb
  exact stop_of_atH hs (h1 hbl)

theorem run_steps_le (p : List C.Item) : ∀ (k : Nat) (s s' : C.Mem), C.run p k s = .next s' →
    s'.steps ≤ s.steps + k := by
  intro k
  induction k with
  | zero =>
    intro s s' h
    simp only [C.run, C.Res.next.injEq] at h
    rw [h]
    omega
  | succ k ih =>
    intro s s' h
    simp only [C.run] at h
    rcases hs : C.step p s with t | t | _
    · rw [hs] at h
      have h1 := ih _ _ h
      have h2 : t.steps ≤ s.steps + 1 := by
        unfold C.step at hs
        split at hs
        · simp at hs
        · split at hs <;> (try split at hs) <;> (try split at hs) <;>
            first
            | (simp only [reduceCtorEq] at hs)
            | (simp only [C.Res.next.injEq] at hs; subst hs; simp)
      omega
    · rw [hs] at h
      simp at h
    · rw [hs] at h
      simp at h

theorem run_next_of_le (p : List C.Item) {k m : Nat} (hkm : k ≤ m) {s s' : C.Mem}
    (h : C.run p m s = .next s') : ∃ s'', C.run p k s = .next s'' := by
  induction k generalizing m s with
  | zero => exact ⟨s, rfl⟩
  | succ k ih =>
    obtain ⟨m, rfl⟩ : ∃ m', m = m' + 1 := ⟨m - 1, by omega⟩
    simp only [C.run] at h ⊢
    rcases hs : C.step p s with t | t | _
    · rw [hs] at h
      exact ih (m := m) (by omega) h
    · rw [hs] at h
      simp at h
    · rw [hs] at h
      simp at h

/-- **C39, running for ever.**  When the machine never halts, never blanks the tape and stays in the
array, the C program neither ends nor leaves the array. -/
theorem C39_forever_partial {t : Table} {S K : Nat} (h : CTable t S K) {code : List C.Item}
    (hcode : IsCode t S K code) (hn : NeverHalts t.get? initCfg) (hin : ∀ n, StaysInArray t.get? n)
    (hb : ∀ n, NotBlank t.get? n) (k : Nat) : ∃ s, C.run code k (C.start code) = .next s := by
  obtain ⟨c, hc⟩ := Option.isSome_iff_exists.mp (hn k)
  obtain ⟨d, hd⟩ := Option.isSome_iff_exists.mp (hn (k + 1))
  rw [runFor_succ', hc, Option.bind_some] at hd
  obtain ⟨m, s, hm, hst, -⟩ := C39_steps_partial h hcode hc (hin k) (hb k) (state_lt_of_step h hd)
  have := run_steps_le code m _ _ hm
  have hle : k ≤ m := by
    have h0 : (C.start code).steps = 0 := rfl
    omega
  exact run_next_of_le code hle hm

/-- **C39 fails with eight states.**  The eighth state is `H`, the label of the end of `main`: the text
has that label twice, and is not a C program. -/
theorem C39_violation :
    ∃ text, makeC "1RB 1RB  1RC 1RC  1RD 1RD  1RE 1RE  1RF 1RF  1RG 1RG  1RH 1RH  1RA ...".toList =
      some text ∧ C.parse text = none ∧
      ((C.toks text).map fun ts => (ts.filter (· = .label 'H')).length) = some 2 := by
  have key : ∀ o : Option (List Char), o.isSome → o.bind C.parse = none →
      (o.bind fun text => (C.toks text).map fun ts => (ts.filter (· = .label 'H')).length) = some 2 →
      ∃ text, o = some text ∧ C.parse text = none ∧
        ((C.toks text).map fun ts => (ts.filter (· = .label 'H')).length) = some 2 := by
    rintro (_ | text) h1 h2 h3
    · simp at h1
    · exact ⟨text, rfl, h2, h3⟩
  refine key _ ?_ ?_ ?_ <;> decide +kernel

/-- The theorems apply to the busy beaver of two states: six steps. -/
example : CTable [((0, 0), (1, true, 1)), ((0, 1), (1, false, 1)), ((1, 0), (1, false, 0))] 2 2 :=
  ⟨by decide, by decide, by decide, by decide⟩

example : ((makeC "1RB 1LB  1LA ...".toList).bind C.parse).map
      (fun code => match C.run code 60 (C.start code) with | .stop n => n | _ => 0) = some 6 := by
  decide +kernel

/-- A loop on blank and a loop on a mark. -/
example : (((makeC "1RB ...  1LC 0RB  1LC 1RA".toList).bind C.parse).map
      (fun code => code.filter fun i => match i with | .whileBlank _ _ => true | _ => false)) =
    some [.whileBlank true [.write 0, .shift true], .whileBlank false [.write 1, .shift false]] := by
  decide +kernel

end BB
