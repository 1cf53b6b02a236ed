import Verif.Props.SymRun

/-!
# C55: a run that can be checked, and one whose report is wrong
-/

namespace BB
open BB.Sym

/-- Writes a 5, ten 1s and three 2s; then, for every 1, doubles the 2s and adds one, with 3 and 4 for the
ones copied and their copies, and the 1 becomes a 2.  Back at the 5 it does the same at the right end, with a 6
and four 1s.  From the 6 it walks to the right over the 2s, one state for each, to stop at the first blank;
another 2 would send it to the right forever. -/
def twice : Prog := fun (q, c) =>
  bif q == 16 then
    bif c == 2 then some (2, true, 16) else bif c == 4 then some (4, true, 16)
    else bif c == 0 then some (4, false, 17) else none
  else bif q == 17 then
    bif c == 4 then some (4, false, 17) else bif c == 2 then some (2, false, 17)
    else bif c == 3 then some (3, true, 15) else none
  else bif q == 15 then
    bif c == 2 then some (3, true, 16) else bif c == 4 then some (2, true, 18) else none
  else bif q == 18 then
    bif c == 4 then some (2, true, 18) else bif c == 0 then some (0, false, 19) else none
  else bif q == 19 then
    bif c == 2 || c == 3 then some (2, false, 19) else bif c == 1 then some (2, false, 20) else none
  else bif q == 20 then
    bif c == 1 then some (1, true, 15) else bif c == 5 then some (5, true, 21)
    else bif c == 6 then some (6, true, 29) else none
  else bif q == 21 then
    bif c == 2 then some (2, true, 21) else bif c == 0 then some (6, true, 22) else none
  else bif q == 14 then
    bif c == 2 then some (2, false, 14) else bif c == 1 then some (1, true, 15) else none
  else bif q < 29 then
    bif c == 0 then
      bif q == 0 then some (5, true, 1)
      else bif q == 13 || q == 28 then some (2, false, 14)
      else some (bif q < 11 || 22 ≤ q && q < 26 then 1 else 2, true, q + 1)
    else none
  else bif q < 93 then bif c == 2 then some (2, true, q + 1) else none
  else bif c == 0 || c == 2 then some (c, true, 93) else none

/-- The same, stopping during the walk, three cells before the blank. -/
def twiceCut : Prog := fun s => bif s.1 == 89 then none else twice s

set_option maxRecDepth 200000 in
theorem twiceCut_checks :
    (sasked false (ops natLog false 20) (SProver.tryRule false (ops natLog false 20) twiceCut) twiceCut
      411 0 ⟨.init, STape.init, [], 0, 0, .int 0⟩).all (symChecks natLog 20 twiceCut 40000) = true := by
  decide +kernel

/-- The tape where the run of `twiceCut` stops. -/
def twiceTape : STape :=
  ⟨[⟨2, .int 60, none⟩, ⟨6, .int 1, none⟩, ⟨2, .add (.int (-1)) (.exp 2 (.int 12)), none⟩,
      ⟨5, .int 1, none⟩], 2, [⟨2, .add (.int (-62)) (.exp 2 (.int 6)), none⟩]⟩

set_option maxRecDepth 200000 in
theorem twiceCut_run :
    (SMachine.run false (ops natLog false 20) twiceCut 411).result = .undfnd (89, 2) ∧
    (SMachine.run false (ops natLog false 20) twiceCut 411).tape = twiceTape := by
  decide +kernel

/-- Case for `C55_checked_partial`: the run of `twiceCut` applies rules, reports the slot at which the
machine stops, and its counts `-1 + 2 ** 12` and `-62 + 2 ** 6` are the 4095 and 2 of the machine. -/
theorem twiceCut_halts : ∃ m pos, HaltsAt twiceCut initCfg m (89, 2) ∧ runFor twiceCut m initCfg =
    some ((⟨[⟨2, 60⟩, ⟨6, 1⟩, ⟨2, 4095⟩, ⟨5, 1⟩], 2, [⟨2, 2⟩]⟩ : Tape).cfg 89 pos) := by
  obtain ⟨-, -, h⟩ := C55_checked_partial natLog 20 twiceCut 411 40000 twiceCut_checks
  obtain ⟨e1, e2⟩ := twiceCut_run
  obtain ⟨m, q, pos, T, hrun, -, hden, -, hq⟩ := h (by rw [e1]; intro e h; cases h)
  have hq' : q = 89 := hq _ e1
  subst hq'
  rw [e2] at hden
  have hT : T = ⟨[⟨2, 60⟩, ⟨6, 1⟩, ⟨2, 4095⟩, ⟨5, 1⟩], 2, [⟨2, 2⟩]⟩ :=
    den_unique hden (denote_spec (by decide +kernel))
  subst hT
  exact ⟨m, pos, ⟨_, hrun, by simp [Cfg.slot, Tape.cfg, Tape.cells, RT.at, Tape.rt], rfl⟩, hrun⟩

/-- Case for `C55_no_rule`: the two-state champion, which stops after five moves. -/
example : (SMachine.run false (ops natLog false 20) bb2 100).steps = 5 ∧
    (SMachine.run false (ops natLog false 20) bb2 100).result = .undfnd (1, 1) := by decide +kernel

theorem runFor_extend {p p' : Prog} (h : ∀ s i, p s = some i → p' s = some i) (m : Nat) {c d : Cfg}
    (hr : runFor p m c = some d) : runFor p' m c = some d := by
  induction m generalizing c with
  | zero => exact hr
  | succ m ih =>
    unfold runFor at hr ⊢
    cases hs : step p c with
    | none => rw [hs] at hr; cases hr
    | some c' =>
      rw [hs] at hr
      have : step p' c = some c' := by
        unfold step at hs ⊢
        cases hp : p c.slot with
        | none => rw [hp] at hs; cases hs
        | some i => rw [hp] at hs; rw [h _ _ hp]; exact hs
      rw [this]
      exact ih hr

set_option maxRecDepth 200000 in
theorem twice_run : (SMachine.run false (ops natLog false 20) twice 415).result = .spnout := by
  decide +kernel

/-- **C55, violation.**  With symbolic counts `run` reports a spin-out; the machine halts, with 63 2s to
the right of the 6 (the run takes the count `-64 + 2 ** 6`, which is 0, for another block of 2s). -/
theorem C55_violation : ∃ p : Prog, ∃ lim,
    (SMachine.run false (ops natLog false 20) p lim).result = .spnout ∧
    ∃ m, HaltsAt p initCfg m (92, 0) := by
  refine ⟨twice, 415, twice_run, ?_⟩
  obtain ⟨m, pos, -, h⟩ := twiceCut_halts
  have h1 := runFor_extend (p' := twice) (fun s i hi => by
    unfold twiceCut at hi
    cases hb : (s.1 == 89) <;> rw [hb] at hi <;> [exact hi; cases hi]) m h
  obtain ⟨m', pos', -, h2⟩ := replays_spec (p := twice) (q' := 92)
    (t' := ⟨[⟨2, 63⟩, ⟨6, 1⟩, ⟨2, 4095⟩, ⟨5, 1⟩], 0, []⟩) 10 89
    ⟨[⟨2, 60⟩, ⟨6, 1⟩, ⟨2, 4095⟩, ⟨5, 1⟩], 2, [⟨2, 2⟩]⟩ pos (by decide +kernel)
  exact ⟨m + m', _, runFor_trans h1 h2,
    by simp [Cfg.slot, Tape.cfg, Tape.cells, RT.at, Tape.rt], rfl⟩

end BB
