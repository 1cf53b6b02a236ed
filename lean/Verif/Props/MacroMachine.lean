import Verif.Lemmas.MacroMachinePure
import Verif.Lemmas.MacroRing
import Verif.Props.Asked

/-!
# C48: `Machine(prog, blocks=…, backsym=…).run()`

What a run of a macro machine tells about the machine in the program string.
-/

namespace BB

/-- Parameters (states, colours) that fit a table. -/
structure FitsTable (comp : Prog) (p : Nat × Nat) : Prop where
  table : InParams comp p.1 p.2
  states : 0 < p.1
  colors : 0 < p.2

/-- New program objects: no instruction cached, converters that have served any requests before
(converters are shared by all machines of a process, `/repo/tm/macro.py` L68-80). -/
structure Fresh (table : Nat × Nat) (blocks backsym : Option Nat) (given : Option (Nat × Nat))
    (s : Caches) : Prop where
  block : ∀ k, blockCells blocks = some k → ∃ bs : List (List Color),
    (∀ t ∈ bs, t.length = k ∧ ∀ d ∈ t, d < (blockParams table given).2) ∧
    s.1.2 = freshMacro (blockParams table given).2 k bs
  back : ∀ k, backsym = some k → ∃ bs : List (List Color),
    (∀ t ∈ bs, t.length = k ∧ ∀ d ∈ t, d < (backParams table blocks given).2) ∧
    s.2 = freshMacro (backParams table blocks given).2 k bs

/-- The macro program as a function, without caches. -/
def pureMacro (comp : Prog) (table : Nat × Nat) (blocks backsym : Option Nat)
    (given : Option (Nat × Nat)) : GetInstr :=
  let block : GetInstr := match blockCells blocks with
    | some k => blockInstr (GetInstr.ofTable comp) k (blockParams table given).1
        (blockParams table given).2
    | none => GetInstr.ofTable comp
  match backsym with
  | some k => backInstr block k (backParams table blocks given).1 (backParams table blocks given).2
  | none => block

/-- The configuration of the machine in the program string that a configuration of the macro
machine stands for. -/
def decode (table : Nat × Nat) (blocks backsym : Option Nat) (given : Option (Nat × Nat))
    (c : Cfg) : Cfg :=
  let c := match backsym with
    | some k => unback (backParams table blocks given).2 k c
    | none => c
  match blockCells blocks with
  | some k => unblock (blockParams table given).2 k c
  | none => c

theorem blockCells_pos {blocks : Option Nat} {k : Nat} (h : blockCells blocks = some k) :
    1 < k := by
  cases blocks with
  | none => simp [blockCells] at h
  | some b =>
    simp only [blockCells, Option.filter] at h
    split at h
    · rename_i hb
      simp only [Option.some.injEq] at h
      rw [← h]
      simpa using hb
    · simp at h

/-- What all theorems below rest on. -/
theorem makeMacro_level {comp : Prog} {table : Nat × Nat} {blocks backsym : Option Nat}
    {given : Option (Nat × Nat)} (ht : FitsTable comp table) (hg : ∀ p ∈ given, FitsTable comp p)
    {s : Caches} (hs : Fresh table blocks backsym given s) :
    ∃ J, Level comp (makeMacro comp table blocks backsym given) s
        (pureMacro comp table blocks backsym given) (decode table blocks backsym given) J ∧
      LoopsRight (pureMacro comp table blocks backsym given)
        (GetInstr.ofTable comp) (decode table blocks backsym given) J := by
  obtain ⟨⟨⟨⟩, m1⟩, m2⟩ := s
  have hgiven : FitsTable comp (given.getD table) := by
    cases given with
    | none => exact ht
    | some p => exact hg p rfl
  cases hb : blockCells blocks with
  | none =>
    have hP : FitsTable comp (backParams table blocks given) := by
      simp only [backParams, hb]
      split
      · exact ht
      · exact hgiven
    have l1 := (level_table hP.table hP.states hP.colors).pass m1
    cases backsym with
    | none =>
      have hD : decode table blocks none given = id := by
        funext c; simp only [decode, hb, id]
      rw [hD]
      simp only [makeMacro, pureMacro, hb]
      exact ⟨_, l1.pass m2, loops_table _⟩
    | some k =>
      obtain ⟨bs, hbs, hm⟩ := hs.back k rfl
      simp only at hm
      subst hm
      have l2 := l1.back (k := k) hP.table.within hP.states hP.colors hbs
      have hD : decode table blocks (some k) given
          = fun c => id (unback (backParams table blocks given).2 k c) := by
        funext c; simp only [decode, hb, id]
      rw [hD]
      simp only [makeMacro, pureMacro, hb]
      exact ⟨_, l2, (back_loopsRight hP.table.within hP.colors).comp l1.sim (loops_table _)⟩
  | some kb =>
    have hkb := blockCells_pos hb
    have hP : FitsTable comp (blockParams table given) := hgiven
    obtain ⟨bs1, hbs1, hm1⟩ := hs.block kb hb
    simp only at hm1
    subst hm1
    have l0 := level_table hP.table hP.states hP.colors
    have l1 := l0.block (k := kb) hP.table.within hP.states hP.colors (by omega) hbs1
    have ll1 := (block_loopsRight (k := kb) hP.table.within (by omega) hP.colors).comp l0.sim
      (loops_table _)
    have hw := blockInstr_within (k := kb) hP.table.within (by omega) hP.colors
    cases backsym with
    | none =>
      have hD : decode table blocks none given
          = fun c => id (unblock (blockParams table given).2 kb c) := by
        funext c; simp only [decode, hb, id]
      rw [hD]
      simp only [makeMacro, pureMacro, hb]
      exact ⟨_, l1.pass m2, ll1⟩
    | some k =>
      obtain ⟨bs, hbs, hm⟩ := hs.back k rfl
      simp only at hm
      subst hm
      have hbp : backParams table blocks given
          = (2 * (blockParams table given).1, (blockParams table given).2 ^ kb) := by
        simp only [backParams, hb]
        rfl
      rw [hbp] at hbs ⊢
      have hS2 : 0 < 2 * (blockParams table given).1 := Nat.mul_pos (by omega) hP.states
      have hC2 : 0 < (blockParams table given).2 ^ kb := Nat.pow_pos hP.colors
      have l2 := l1.back (k := k) hw hS2 hC2 hbs
      have hD : decode table blocks (some k) given
          = fun c => id (unblock (blockParams table given).2 kb
              (unback ((blockParams table given).2 ^ kb) k c)) := by
        funext c; simp only [decode, hb, hbp, id]
      rw [hD]
      simp only [makeMacro, pureMacro, hb, hbp]
      exact ⟨_, l2, (back_loopsRight hw hC2).comp l1.sim ll1⟩

/-- **C48 (caches).**  A run of a macro machine does not depend on what the shared converters have
served before, nor on its own caches, and the macro program never raises `AssertionError`: it is the
run of the same loop and the same prover on the table of macro instructions, where a slot without
instruction is reported according to the exception raised there.  (Rules may be applied.) -/
theorem C48_caches {comp : Prog} {table : Nat × Nat} {blocks backsym : Option Nat}
    {given : Option (Nat × Nat)} (ht : FitsTable comp table) (hg : ∀ p ∈ given, FitsTable comp p)
    {s : Caches} (hs : Fresh table blocks backsym given s) (lim : Nat) :
    let g := pureMacro comp table blocks backsym given
    Machine.runM (makeMacro comp table blocks backsym given) s lim =
      { Machine.run g.prog lim with result := endRes g (Machine.run g.prog lim).result } ∧
    ∀ slot, g slot ≠ .error .assertion := by
  obtain ⟨J, hl, _⟩ := makeMacro_level ht hg hs
  obtain ⟨Ok, K, Q, h, h1, h2⟩ := hl.serves
  refine ⟨?_, hl.calm⟩
  rw [runM_sync h s h1 h2 lim]
  exact runM_calm hl.calm lim

/-- Without macros it is the run of C20. -/
theorem C48_plain {comp : Prog} {table : Nat × Nat} {blocks : Option Nat}
    {given : Option (Nat × Nat)} (ht : FitsTable comp table) (hg : ∀ p ∈ given, FitsTable comp p)
    (hb : blockCells blocks = none) (s : Caches) (lim : Nat) :
    Machine.runM (makeMacro comp table blocks none given) s lim = Machine.run comp lim := by
  have h := (C48_caches ht hg (blocks := blocks) (backsym := none) (s := s)
    ⟨by simp [hb], by simp⟩ lim).1
  have hp : pureMacro comp table blocks none given = GetInstr.ofTable comp := by
    simp only [pureMacro, hb]
  rw [h, hp, ofTable_prog]
  generalize hr : Machine.run comp lim = r
  obtain ⟨res, _, _, _, _, _⟩ := r
  cases res with
  | undfnd slot =>
    have hnone : comp slot = none := run_undfnd (lim := lim) (by rw [hr])
    simp [endRes, GetInstr.ofTable, hnone, fetchRes]
  | _ => rfl

/-- **C48 (before the first rule).**  If no rule was applied: an undefined slot that is reported is
the one at which the machine in the program string halts; after a spin-out report that machine never
halts; and the tape left behind stands for a configuration that it reaches. -/
theorem C48_no_rule {comp : Prog} {table : Nat × Nat} {blocks backsym : Option Nat}
    {given : Option (Nat × Nat)} (ht : FitsTable comp table) (hg : ∀ p ∈ given, FitsTable comp p)
    {s : Caches} (hs : Fresh table blocks backsym given s) (lim : Nat)
    (hm : (Machine.runM (makeMacro comp table blocks backsym given) s lim).steps ≠ -1) :
    let r := Machine.runM (makeMacro comp table blocks backsym given) s lim
    (∀ slot, r.result = .undfnd slot →
      ∃ N : Nat, r.steps ≤ N ∧ HaltsAt comp initCfg N slot) ∧
    (r.result = .spnout → NeverHalts comp initCfg) ∧
    ∃ (N : Nat) (c : Cfg), r.steps ≤ N ∧
      runFor comp N initCfg = some (decode table blocks backsym given c) ∧
      ∃ pos, c.tape = r.tape.cells pos := by
  obtain ⟨J, hl, _⟩ := makeMacro_level ht hg hs
  have heq := (C48_caches ht hg hs lim).1
  simp only [heq] at hm ⊢
  generalize hG : pureMacro comp table blocks backsym given = g at *
  obtain ⟨h1, h2, n, d, h3, h4, h5⟩ := C20_no_rule_partial g.prog lim hm
  refine ⟨?_, ?_, ?_⟩
  · intro slot hres
    generalize Machine.run g.prog lim = r at *
    cases hrr : r.result with
    | undfnd slot' =>
      rw [hrr] at hres
      obtain ⟨n', hn', hh⟩ := h1 slot' hrr
      simp only [endRes] at hres
      cases hgs : g slot' with
      | ok i =>
        obtain ⟨_, _, _, hnone⟩ := hh
        rw [GetInstr.prog_ok hgs] at hnone
        cases hnone
      | error e =>
        rw [hgs] at hres
        cases e with
        | keyError key =>
          simp only [fetchRes, RunRes.undfnd.injEq] at hres
          subst hres
          obtain ⟨N, hN, hH⟩ := hl.keyError hh hgs
          exact ⟨N, by rw [hn']; omega, hH⟩
        | infLoop => simp [fetchRes] at hres
        | assertion => simp [fetchRes] at hres
    | _ => rw [hrr] at hres; simp [endRes] at hres
  · intro hres
    apply hl.neverHalts
    apply h2
    generalize (Machine.run g.prog lim).result = r at *
    cases r with
    | undfnd slot' =>
      simp only [endRes] at hres
      split at hres
      · rename_i e _
        cases e <;> simp [fetchRes] at hres
      · simp at hres
    | _ => simp_all [endRes]
  · obtain ⟨_, N, hN, hR⟩ := hl.sim.run n initCfg d hl.start (runE_of_runFor n _ _ h4)
    rw [hl.init, ofTable_prog] at hR
    exact ⟨N, d, by rw [h3]; omega, hR, h5⟩

/-- **C48 (with rules).**  If every answer that the prover gives in the run is right about the macro
program, the reports are right also when rules have been applied, those of infinite loops (which are
also made when a macro cell is not left) included. -/
theorem C48_right {comp : Prog} {table : Nat × Nat} {blocks backsym : Option Nat}
    {given : Option (Nat × Nat)} (ht : FitsTable comp table) (hg : ∀ p ∈ given, FitsTable comp p)
    {s : Caches} (hs : Fresh table blocks backsym given s) (lim : Nat)
    (hright : ∀ x ∈ asked (Prover.tryRule (pureMacro comp table blocks backsym given).prog)
        (pureMacro comp table blocks backsym given).prog lim 0
        ⟨.init, Tape.init, [], 0, 0, 0⟩,
      RightAt (pureMacro comp table blocks backsym given).prog
        (Prover.tryRule (pureMacro comp table blocks backsym given).prog) x.1 x.2) :
    let r := Machine.runM (makeMacro comp table blocks backsym given) s lim
    (∀ slot, r.result = .undfnd slot → ∃ N : Nat, HaltsAt comp initCfg N slot) ∧
    (r.result = .spnout → NeverHalts comp initCfg) ∧
    (r.result = .infrul → NeverHalts comp initCfg) := by
  obtain ⟨J, hl, hloops⟩ := makeMacro_level ht hg hs
  have heq := (C48_caches ht hg hs lim).1
  simp only [heq]
  generalize hG : pureMacro comp table blocks backsym given = g at *
  obtain ⟨h1, h2⟩ := C20_asked_partial g.prog lim hright
  generalize Machine.run g.prog lim = r at *
  cases hrr : r.result with
  | undfnd slot' =>
    obtain ⟨n', hh, _⟩ := h1 slot' hrr
    simp only [endRes]
    cases hgs : g slot' with
    | ok i =>
      obtain ⟨_, _, _, hnone⟩ := hh
      rw [GetInstr.prog_ok hgs] at hnone
      cases hnone
    | error e =>
      cases e with
      | keyError key =>
        simp only [fetchRes, RunRes.undfnd.injEq]
        refine ⟨?_, by simp, by simp⟩
        rintro slot rfl
        obtain ⟨N, _, hH⟩ := hl.keyError hh hgs
        exact ⟨N, hH⟩
      | infLoop =>
        refine ⟨by simp [fetchRes], by simp [fetchRes],
          fun _ => hl.infLoop hloops hh hgs⟩
      | assertion => exact absurd hgs (hl.calm slot')
  | spnout => exact ⟨by simp [endRes], fun _ => hl.neverHalts (h2 (.inl hrr)), by simp [endRes]⟩
  | infrul => exact ⟨by simp [endRes], by simp [endRes], fun _ => hl.neverHalts (h2 (.inr hrr))⟩
  | _ => simp [endRes]

/-- **C48 (a check that a run can be put to).**  The same if replaying on the macro machine confirms
every application of a rule in the run. -/
theorem C48_checked {comp : Prog} {table : Nat × Nat} {blocks backsym : Option Nat}
    {given : Option (Nat × Nat)} (ht : FitsTable comp table) (hg : ∀ p ∈ given, FitsTable comp p)
    {s : Caches} (hs : Fresh table blocks backsym given s) (lim fuel : Nat)
    (hright : (asked (Prover.tryRule (pureMacro comp table blocks backsym given).prog)
        (pureMacro comp table blocks backsym given).prog lim 0
        ⟨.init, Tape.init, [], 0, 0, 0⟩).all
      (answerReplays (pureMacro comp table blocks backsym given).prog
        (Prover.tryRule (pureMacro comp table blocks backsym given).prog) fuel) = true) :
    let r := Machine.runM (makeMacro comp table blocks backsym given) s lim
    (∀ slot, r.result = .undfnd slot → ∃ N : Nat, HaltsAt comp initCfg N slot) ∧
    (r.result = .spnout → NeverHalts comp initCfg) ∧
    (r.result = .infrul → NeverHalts comp initCfg) :=
  C48_right ht hg hs lim fun x hx => answerReplays_right (List.all_eq_true.mp hright x hx)

/-! ### Cases -/

/-- `1RB 1LB  1LA ...` with `blocks=2, backsym=1`. -/
theorem bb22_fresh (bs1 bs2 : List (List Color)) (h1 : ∀ t ∈ bs1, t.length = 2 ∧ ∀ d ∈ t, d < 2)
    (h2 : ∀ t ∈ bs2, t.length = 1 ∧ ∀ d ∈ t, d < 4) :
    Fresh (2, 2) (some 2) (some 1) none (((), freshMacro 2 2 bs1), freshMacro 4 1 bs2) where
  block := by
    intro k hk
    have : k = 2 := by simpa [blockCells, Option.filter] using hk.symm
    subst this
    exact ⟨bs1, h1, rfl⟩
  back := by
    intro k hk
    simp only [Option.some.injEq] at hk
    subst hk
    exact ⟨bs2, h2, rfl⟩

/-- The report is the slot at which the machine halts, found after a few macro steps and without
rules. -/
example : (Machine.runM (makeMacro bb22 (2, 2) (some 2) (some 1) none)
      (((), freshMacro 2 2 []), freshMacro 4 1 []) 20).result = .undfnd (1, 1) ∧
    ∃ N, HaltsAt bb22 initCfg N (1, 1) := by
  have hf := bb22_fresh [] [] (by simp) (by simp)
  have hr : (Machine.runM (makeMacro bb22 (2, 2) (some 2) (some 1) none)
      (((), freshMacro 2 2 []), freshMacro 4 1 []) 20).result = .undfnd (1, 1) := by
    decide +kernel
  refine ⟨hr, ?_⟩
  obtain ⟨N, _, h⟩ := (C48_no_rule (blocks := some 2) (backsym := some 1) (given := none)
    ⟨bb22_table, by decide, by decide⟩ (by simp) hf 20 (by decide +kernel)).1 _ hr
  exact ⟨N, h⟩

/-- `0RB ...  0LA ...` with `blocks=2, backsym=1`: the report is of an infinite loop. -/
example : (Machine.runM (makeMacro chaser (2, 2) (some 2) (some 1) none)
      (((), freshMacro 2 2 []), freshMacro 4 1 []) 20).result = .infrul ∧
    NeverHalts chaser initCfg := by
  have hf := bb22_fresh [] [] (by simp) (by simp)
  have hr : (Machine.runM (makeMacro chaser (2, 2) (some 2) (some 1) none)
      (((), freshMacro 2 2 []), freshMacro 4 1 []) 20).result = .infrul := by decide +kernel
  refine ⟨hr, (C48_checked (blocks := some 2) (backsym := some 1) (given := none)
    ⟨chaser_table, by decide, by decide⟩ (by simp) hf 20 0 (by decide +kernel)).2.2 hr⟩

/-- Writes `m` 2s leftwards, then turns them into 1s by walking over the 1s; stops when none is
left. -/
def walker (m : Nat) : Prog := fun (q, c) =>
  if q < m then (if c = 0 then some (2, false, q + 1) else none)
  else if q = m then
    if c = 0 then some (0, true, m + 1) else if c = 1 then some (1, false, m) else none
  else if q = m + 1 then
    if c = 1 then some (1, true, m + 1) else if c = 2 then some (1, false, m) else none
  else none

theorem walker_table (m : Nat) : FitsTable (walker m) (m + 2, 3) where
  table := by
    rintro ⟨(q : Nat), (c : Nat)⟩ pr sh (tr : Nat) h
    simp only [walker] at h
    repeat' split at h
    all_goals simp only [reduceCtorEq, Option.some.injEq, Prod.mk.injEq] at h
    all_goals obtain ⟨rfl, rfl, rfl⟩ := h
    all_goals tm_omega
  states := by simp
  colors := by simp

/-- With a backsymbol of one cell: a rule is applied, and the report is right. -/
example : (Machine.runM (makeMacro (walker 12) (14, 3) none (some 1) none)
      (((), freshMacro 3 1 []), freshMacro 3 1 []) 200).rulapp = 4 ∧
    ∃ N, HaltsAt (walker 12) initCfg N (13, 0) := by
  refine ⟨by decide +kernel, ?_⟩
  refine (C48_checked (blocks := none) (backsym := some 1) (given := none) (table := (14, 3))
    (walker_table 12) (by simp) (s := (((), freshMacro 3 1 []), freshMacro 3 1 []))
    ⟨by simp [blockCells], ?_⟩ 200 200 (by decide +kernel)).1 _ (by decide +kernel)
  intro k hk
  simp only [Option.some.injEq] at hk
  subst hk
  exact ⟨[], by simp, rfl⟩

end BB
