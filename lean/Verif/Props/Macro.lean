import Verif.Lemmas.MacroRing

/-!
# C12-C15: macro programs

`unblock` and `unback` (in `Lemmas/MacroSim`) say which base configuration a macro configuration
stands for; both are written with digits of the macro colour (or state), not with the model's
converter.  `macroRun` executes macro instructions fetched through the caches, while other users
of the shared converter interfere (`noise`).
-/

namespace BB

/-- The colours and states a table mentions are below the parameters given to the macro. -/
def InParams (comp : Prog) (S C : Nat) : Prop :=
  ∀ s col sh q, comp s = some (col, sh, q) → col < C ∧ q < S

theorem InParams.within {comp : Prog} {S C : Nat} (h : InParams comp S C) :
    (GetInstr.ofTable comp).Within S C := by
  intro s col sh q hs
  simp only [GetInstr.ofTable] at hs
  cases hc : comp s with
  | none => rw [hc] at hs; cases hs
  | some i => rw [hc] at hs; cases hs; exact h s col sh q hc

/-- Calls other users make: blocks of `k` cells with colours below `C`. -/
def Noise (C k : Nat) (noise : Nat → List (List Color)) : Prop :=
  ∀ j, ∀ t ∈ noise j, t.length = k ∧ ∀ d ∈ t, d < C

/-- A converter that has served any number of requests for blocks of `k` cells. -/
def usedConverter (C k : Nat) (blocks : List (List Color)) : Converter :=
  blocks.foldl (fun c t => (c.toColor t).2) (Converter.new C k)

theorem usedConverter_ok {C : Nat} (hC : 0 < C) {k : Nat} {blocks : List (List Color)}
    (h : ∀ t ∈ blocks, t.length = k ∧ ∀ d ∈ t, d < C) : (usedConverter C k blocks).Ok C k :=
  ((Converter.Ok.new hC k).noise blocks h).1

theorem init_lt {S : Nat} (hS : 0 < S) : initCfg.state < 2 * S := by
  show 0 < 2 * S
  omega

/-- A new macro program on a shared converter. -/
def freshMacro (C k : Nat) (blocks : List (List Color)) : MacroState :=
  ⟨[], usedConverter C k blocks⟩

theorem freshMacro_ok {C : Nat} (hC : 0 < C) {k : Nat} {blocks : List (List Color)}
    (h : ∀ t ∈ blocks, t.length = k ∧ ∀ d ∈ t, d < C) (pure : GetInstr) (give : Instr → Color) :
    (freshMacro C k blocks).Ok pure C k give :=
  ⟨usedConverter_ok hC h, by simp [freshMacro]⟩

theorem macroRun_block {comp : Prog} {S C k : Nat} (ht : InParams comp S C) (hk : 0 < k)
    (hC : 0 < C) {blocks : List (List Color)} (hb : ∀ t ∈ blocks, t.length = k ∧ ∀ d ∈ t, d < C)
    {noise : Nat → List (List Color)} (hn : Noise C k noise) (n : Nat) :
    (macroRun (GetInstr.ofTable comp) (blockLogic k S C) noise n (freshMacro C k blocks)
      initCfg).map Prod.snd = runE (blockInstr (GetInstr.ofTable comp) k S C) n initCfg :=
  macroRun_eq (blockLogic_faithful ht.within k hk hC) (block_keeps _) hn n _ _
    (freshMacro_ok hC hb _ _) (fun _ => (usedConverter_ok hC hb).zero)

theorem macroRun_back {comp : Prog} {S C k : Nat} (ht : InParams comp S C)
    (hC : 0 < C) {blocks : List (List Color)} (hb : ∀ t ∈ blocks, t.length = k ∧ ∀ d ∈ t, d < C)
    {noise : Nat → List (List Color)} (hn : Noise C k noise) (n : Nat) :
    (macroRun (GetInstr.ofTable comp) (backsymLogic k S C) noise n (freshMacro C k blocks)
      initCfg).map Prod.snd = runE (backInstr (GetInstr.ofTable comp) k S C) n initCfg :=
  macroRun_eq (backsymLogic_faithful ht.within k hC) (backsym_keeps ht.within hC) hn n _ _
    (freshMacro_ok hC hb _ _) ⟨fun _ => hC, by
      have : initCfg.state / 2 % C ^ k = 0 := by simp [initCfg]
      rw [this]
      exact (usedConverter_ok hC hb).zero⟩

theorem map_snd_ok {α β : Type} {x : Except MErr (α × β)} {b : β} :
    x.map Prod.snd = .ok b ↔ ∃ a, x = .ok (a, b) := by
  cases x with
  | error e => simp [Except.map]
  | ok p => obtain ⟨a, b'⟩ := p; simp [Except.map]

theorem map_snd_error {α β : Type} {x : Except MErr (α × β)} {e : MErr} :
    x.map Prod.snd = .error e ↔ x = .error e := by
  cases x <;> simp [Except.map]

/-! ## C12: block macros -/

/-- **C12.** One block-macro instruction, fetched in any state of the caches, is a positive number
of base moves with the head in the block. -/
theorem C12_instruction {comp : Prog} {S C k : Nat} (ht : InParams comp S C) (hk : 0 < k)
    (hC : 0 < C) {m m' : MacroState} {c : Cfg} {i : Instr}
    (hm : m.Ok (blockInstr (GetInstr.ofTable comp) k S C) C k Prod.fst)
    (hc : m.conv.Known (c.tape c.pos))
    (h : m.getitem (GetInstr.ofTable comp) (blockLogic k S C) c.slot = .ok (i, m')) :
    ∃ n, 0 < n ∧ runFor comp n (unblock C k c) = some (unblock C k (c.exec i)) ∧
      ∀ j, j < n → ∃ e, runFor comp j (unblock C k c) = some e ∧
        k * c.pos ≤ e.pos ∧ e.pos < k * c.pos + k := by
  have hf := blockLogic_faithful (k := k) ht.within hk hC
  cases hp : blockInstr (GetInstr.ofTable comp) k S C c.slot with
  | error e =>
    rw [MacroState.getitem_error hf hm trivial hc hp] at h
    cases h
  | ok i' =>
    obtain ⟨m'', h1, _⟩ := MacroState.getitem_ok hf hm trivial hc hp
    rw [h1] at h
    cases h
    obtain ⟨n, hn, hr, hin⟩ := blockInstr_ok ht.within hk hC hp
    rw [ofTable_prog] at hr hin
    exact ⟨n, hn, hr, hin⟩

/-- **C12.** From the blank tape, the configurations a block-macro run passes through stand for
configurations the base machine passes through, in at least as many moves. -/
theorem C12_run {comp : Prog} {S C k : Nat} (ht : InParams comp S C) (hk : 0 < k) (hC : 0 < C)
    (hS : 0 < S) {blocks : List (List Color)}
    (hb : ∀ t ∈ blocks, t.length = k ∧ ∀ d ∈ t, d < C)
    {noise : Nat → List (List Color)} (hn : Noise C k noise) {n : Nat} {m : MacroState} {d : Cfg}
    (h : macroRun (GetInstr.ofTable comp) (blockLogic k S C) noise n (freshMacro C k blocks)
      initCfg = .ok (m, d)) :
    ∃ N, n ≤ N ∧ runFor comp N initCfg = some (unblock C k d) := by
  have h1 : runE (blockInstr (GetInstr.ofTable comp) k S C) n initCfg = .ok d := by
    rw [← macroRun_block ht hk hC hb hn n]
    exact map_snd_ok.mpr ⟨m, h⟩
  obtain ⟨_, N, hN, hr⟩ := (block_simulates (k := k) ht.within hk hC).run n initCfg d
    (init_lt hS) h1
  rw [ofTable_prog, unblock_init] at hr
  exact ⟨N, hN, hr⟩

/-- **C12.** The block-macro run from the blank tape raises `KeyError` with key `s` exactly when
the base machine halts at the slot `s`. -/
theorem C12_undefined_iff {comp : Prog} {S C k : Nat} (ht : InParams comp S C) (hk : 0 < k)
    (hC : 0 < C) (hS : 0 < S) {blocks : List (List Color)}
    (hb : ∀ t ∈ blocks, t.length = k ∧ ∀ d ∈ t, d < C)
    {noise : Nat → List (List Color)} (hn : Noise C k noise) (s : Slot) :
    (∃ n, macroRun (GetInstr.ofTable comp) (blockLogic k S C) noise n (freshMacro C k blocks)
      initCfg = .error (.keyError s)) ↔ ∃ N, HaltsAt comp initCfg N s := by
  have := (block_simulates (k := k) ht.within hk hC).halts_iff (block_loopsRight ht.within hk hC)
    (c := initCfg) (init_lt hS)
    (fun n => runE_assertion (blockInstr_assertion (ofTable_assertion comp) k S C) n initCfg) s
  rw [unblock_init] at this
  rw [← this]
  constructor
  · rintro ⟨n, h⟩
    exact ⟨n, by rw [← macroRun_block ht hk hC hb hn n]; exact map_snd_error.mpr h⟩
  · rintro ⟨n, h⟩
    rw [← macroRun_block ht hk hC hb hn n] at h
    exact ⟨n, map_snd_error.mp h⟩

/-- **C12**, the Rust loop (`/repo/src/macros.rs`) is the Python loop with every exception
replaced by `None`. -/
theorem C12_rust_simulator (comp : Prog) (lim : Nat) (c : MConfig) (h : 0 < c.2.2.length) :
    Rs.simulate comp lim c = (simulate (GetInstr.ofTable comp) lim c).toOption :=
  rs_winLoop_eq comp lim _ (winStart_pos c h)

/-- Two states that chase each other: `0RB ...  0LA ...`. -/
def chaser : Prog
  | (0, 0) => some (0, true, 1)
  | (1, 0) => some (0, false, 0)
  | _ => none

/-- So in Rust an undefined macro slot need not mean that the base machine stops: here the block
`00` is reported undefined, though the base machine runs for ever in it. -/
theorem C41_violation :
    Rs.simulate chaser (blockLogic 2 2 2).simLim (0, false, [0, 0]) = none ∧
      NeverHalts chaser initCfg := by
  refine ⟨by decide +kernel, ?_⟩
  apply neverHalts_of_invariant (fun c => c = initCfg) ?_ rfl
  rintro c rfl
  refine ⟨2, initCfg, by omega, ?_, rfl⟩
  simp [runFor, step, Cfg.slot, initCfg, chaser, Cfg.exec]

/-- The busy beaver for 2 states and 2 colours, `1RB 1LB  1LA ...`. -/
def bb22 : Prog
  | (0, 0) => some (1, true, 1)
  | (0, 1) => some (1, false, 1)
  | (1, 0) => some (1, false, 0)
  | _ => none

theorem bb22_table : InParams bb22 2 2 := by
  intro s col sh q h
  unfold bb22 at h
  split at h <;> cases h <;> decide

/-- Non-vacuity: with 3-cell blocks (`blocks = 3`) the run of `1RB 1LB  1LA ...` raises `KeyError`
with key (1, 1) after a few macro instructions; the base machine halts there. -/
example : ∃ N, HaltsAt bb22 initCfg N (1, 1) := by
  refine (C12_undefined_iff bb22_table (k := 3) (by decide) (by decide) (by decide)
    (blocks := []) (by simp) (noise := fun _ => []) (by intro j t h; simp at h) (1, 1)).mp ⟨3, ?_⟩
  rfl

/-! ## C14: infinite loops -/

/-- **C14**, blocks.  If fetching the instruction for the slot of `c` raises `MacroInfLoop`, then
the base machine runs for ever with its head in the block. -/
theorem C14_block_partial {comp : Prog} {S C k : Nat} (ht : InParams comp S C) (hk : 0 < k) (hC : 0 < C)
    {m : MacroState} {c : Cfg} (hq : c.state < 2 * S)
    (hm : m.Ok (blockInstr (GetInstr.ofTable comp) k S C) C k Prod.fst)
    (hc : m.conv.Known (c.tape c.pos))
    (h : m.getitem (GetInstr.ofTable comp) (blockLogic k S C) c.slot = .error .infLoop) :
    ∀ n, ∃ d, runFor comp n (unblock C k c) = some d ∧
      k * c.pos ≤ d.pos ∧ d.pos < k * c.pos + k := by
  have hf := blockLogic_faithful (k := k) ht.within hk hC
  cases hp : blockInstr (GetInstr.ofTable comp) k S C c.slot with
  | ok i' =>
    obtain ⟨m'', h1, _⟩ := MacroState.getitem_ok hf hm trivial hc hp
    rw [h1] at h
    cases h
  | error e =>
    rw [MacroState.getitem_error hf hm trivial hc hp] at h
    cases h
    rcases blockInstr_infLoop ht.within hk hC hq hp with h1 | ⟨_, d, _, _, hd⟩
    · rw [ofTable_prog] at h1; exact h1
    · simp only [GetInstr.ofTable] at hd
      split at hd <;> cases hd

/-- **C14**, backsymbol macros with one remembered cell. -/
theorem C14_backsym_one_partial {comp : Prog} {S C : Nat} (ht : InParams comp S C) (hC : 0 < C)
    {m : MacroState} {c : Cfg} (hq : c.state < 2 * S * C) (hcol : c.tape c.pos < C)
    (hm : m.Ok (backInstr (GetInstr.ofTable comp) 1 S C) C 1 (fun i => i.2.2 / 2 % C ^ 1))
    (hc : m.conv.Known (c.state / 2 % C ^ 1))
    (h : m.getitem (GetInstr.ofTable comp) (backsymLogic 1 S C) c.slot = .error .infLoop) :
    ∀ n, ∃ d, runFor comp n (unback C 1 c) = some d ∧
      -c.pos - 1 ≤ d.pos ∧ d.pos < -c.pos - 1 + 2 := by
  have hf := backsymLogic_faithful (k := 1) ht.within hC
  cases hp : backInstr (GetInstr.ofTable comp) 1 S C c.slot with
  | ok i' =>
    obtain ⟨m'', h1, _⟩ := MacroState.getitem_ok hf hm hcol hc hp
    rw [h1] at h
    cases h
  | error e =>
    rw [MacroState.getitem_error hf hm hcol hc hp] at h
    cases h
    rcases backInstr_infLoop ht.within hC hcol hq hp with h1 | ⟨_, d, _, _, hd⟩
    · rw [ofTable_prog] at h1
      intro n
      obtain ⟨d, hd, hI⟩ := h1 n
      exact ⟨d, hd, hI⟩
    · simp only [GetInstr.ofTable] at hd
      split at hd <;> cases hd

/-- **C14**, backsymbol macros with any number of remembered cells, for programs of at least two
colours.  The limit `2 * S * C ^ (k + 1)` is smaller than the number `S * (k + 1) * C ^ (k + 1)` of
configurations of the window when `k ≥ 2`; it suffices all the same (`Lemmas/Ring`). -/
theorem C14_backsym_partial {comp : Prog} {S C k : Nat} (ht : InParams comp S C) (hC : 2 ≤ C)
    {m : MacroState} {c : Cfg} (hq : c.state < 2 * S * C ^ k) (hcol : c.tape c.pos < C)
    (hm : m.Ok (backInstr (GetInstr.ofTable comp) k S C) C k (fun i => i.2.2 / 2 % C ^ k))
    (hc : m.conv.Known (c.state / 2 % C ^ k))
    (h : m.getitem (GetInstr.ofTable comp) (backsymLogic k S C) c.slot = .error .infLoop) :
    ∀ n, ∃ d, runFor comp n (unback C k c) = some d ∧
      -c.pos - k ≤ d.pos ∧ d.pos < -c.pos - k + (k + 1 : Nat) := by
  have hf := backsymLogic_faithful (k := k) ht.within (show 0 < C by omega)
  cases hp : backInstr (GetInstr.ofTable comp) k S C c.slot with
  | ok i' =>
    obtain ⟨m'', h1, _⟩ := MacroState.getitem_ok hf hm hcol hc hp
    rw [h1] at h
    cases h
  | error e =>
    rw [MacroState.getitem_error hf hm hcol hc hp] at h
    cases h
    rcases backInstr_infLoop_all ht.within hC hcol hq hp with h1 | ⟨_, d, _, _, hd⟩
    · rw [ofTable_prog] at h1
      exact h1
    · simp only [GetInstr.ofTable] at hd
      split at hd <;> cases hd

/-- **C14**, the whole run: `MacroInfLoop` during a backsymbol-macro run from the blank tape means
the base machine never halts (any number of colours). -/
theorem C14_backsym_run_partial {comp : Prog} {S C k : Nat} (ht : InParams comp S C)
    (hC : 0 < C) (hS : 0 < S) {blocks : List (List Color)}
    (hb : ∀ t ∈ blocks, t.length = k ∧ ∀ d ∈ t, d < C)
    {noise : Nat → List (List Color)} (hn : Noise C k noise) {n : Nat}
    (h : macroRun (GetInstr.ofTable comp) (backsymLogic k S C) noise n (freshMacro C k blocks)
      initCfg = .error .infLoop) : NeverHalts comp initCfg := by
  have h1 : runE (backInstr (GetInstr.ofTable comp) k S C) n initCfg = .error .infLoop := by
    rw [← macroRun_back ht hC hb hn n]
    exact map_snd_error.mpr h
  rcases (back_simulates (k := k) ht.within hC).run_loop (back_loopsRight ht.within hC)
    n initCfg ⟨Nat.mul_pos (Nat.mul_pos (by omega) hS) (Nat.pow_pos hC), fun _ => hC⟩ h1
    with h2 | ⟨_, d, _, hd⟩
  · rw [ofTable_prog, unback_init] at h2; exact h2
  · simp only [GetInstr.ofTable] at hd
    split at hd <;> cases hd

/-- **C14**, the whole run: `MacroInfLoop` during a block-macro run from the blank tape means the
base machine never halts. -/
theorem C14_block_run_partial {comp : Prog} {S C k : Nat} (ht : InParams comp S C) (hk : 0 < k)
    (hC : 0 < C) (hS : 0 < S) {blocks : List (List Color)}
    (hb : ∀ t ∈ blocks, t.length = k ∧ ∀ d ∈ t, d < C)
    {noise : Nat → List (List Color)} (hn : Noise C k noise) {n : Nat}
    (h : macroRun (GetInstr.ofTable comp) (blockLogic k S C) noise n (freshMacro C k blocks)
      initCfg = .error .infLoop) : NeverHalts comp initCfg := by
  have h1 : runE (blockInstr (GetInstr.ofTable comp) k S C) n initCfg = .error .infLoop := by
    rw [← macroRun_block ht hk hC hb hn n]
    exact map_snd_error.mpr h
  rcases (block_simulates (k := k) ht.within hk hC).run_loop (block_loopsRight ht.within hk hC)
    n initCfg (init_lt hS) h1 with h2 | ⟨_, d, _, hd⟩
  · rw [ofTable_prog, unblock_init] at h2; exact h2
  · simp only [GetInstr.ofTable] at hd
    split at hd <;> cases hd

theorem chaser_table : InParams chaser 2 2 := by
  intro s col sh q h
  unfold chaser at h
  split at h <;> cases h <;> decide

/-- Non-vacuity: `0RB ...  0LA ...` with 2-cell blocks raises `MacroInfLoop` at once. -/
example : NeverHalts chaser initCfg :=
  C14_block_run_partial chaser_table (k := 2) (by decide) (by decide) (by decide) (blocks := [])
    (by simp) (noise := fun _ => []) (by intro j t h; simp at h) (n := 1) (by rfl)

/-- Non-vacuity: `0RB ...  0LA ...` with the start state B and three remembered cells: the head goes
to and fro in the window. -/
def chaserB : Prog
  | (0, 0) => some (0, false, 1)
  | (1, 0) => some (0, true, 0)
  | _ => none

theorem chaserB_table : InParams chaserB 2 2 := by
  intro s col sh q h
  unfold chaserB at h
  split at h <;> cases h <;> decide

example : NeverHalts chaserB initCfg :=
  C14_backsym_run_partial chaserB_table (k := 3) (by decide) (by decide) (blocks := [])
    (by simp) (noise := fun _ => []) (by intro j t h; simp at h) (n := 1) (by rfl)

/-- `0LB  0LC  0RA`: one colour; drifts to the left, one cell in three moves. -/
def leftDrift : Prog
  | (0, 0) => some (0, false, 1)
  | (1, 0) => some (0, false, 2)
  | (2, 0) => some (0, true, 0)
  | _ => none

/-- **With one colour the head may leave the window after the report** (it never halts, by
`C14_backsym_run_partial`): `0LB  0LC  0RA` with three remembered cells raises `MacroInfLoop` at
once, after 6 moves, and leaves the window at move 8. -/
theorem C14_one_colour_violation :
    macroRun (GetInstr.ofTable leftDrift) (backsymLogic 3 3 1) (fun _ => []) 1 (freshMacro 1 3 [])
      initCfg = .error .infLoop ∧
    InParams leftDrift 3 1 ∧
    ∃ d, runFor leftDrift 8 initCfg = some d ∧ d.pos = -4 := by
  refine ⟨by rfl, ?_, _, rfl, by decide⟩
  intro s col sh q h
  unfold leftDrift at h
  split at h <;> cases h <;> decide

/-- `1LB ... 2RB  2RB ... 2LA`: the colour 1 is printed but no slot reads it. -/
def gap : Prog
  | (0, 0) => some (1, false, 1)
  | (0, 2) => some (2, true, 1)
  | (1, 0) => some (2, true, 1)
  | (1, 2) => some (2, false, 0)
  | _ => none

/-- The keys of the compiled table of `gap`. -/
def gapKeys : List Slot := [(0, 0), (0, 2), (1, 0), (1, 2)]

/-- **C14 fails for the parameters `make_macro` computes itself.**  `prog_params` counts the
distinct colours among the *keys*; for `1LB ... 2RB  2RB ... 2LA` that is 2, although 2 is a
colour.  The macro run with `blocks = 2` then raises `MacroInfLoop` (reported as `infrul`) at its
third instruction, but the machine halts after two moves. -/
theorem C14_params_violation :
    (∀ s, (gap s).isSome ↔ s ∈ gapKeys) ∧ progParams gapKeys = (2, 2) ∧
    macroRun (GetInstr.ofTable gap) (blockLogic 2 (progParams gapKeys).1 (progParams gapKeys).2)
      (fun _ => []) 3 (freshMacro (progParams gapKeys).2 2 []) initCfg = .error .infLoop ∧
    HaltsAt gap initCfg 2 (1, 1) := by
  refine ⟨?_, by decide +kernel, by rfl, ?_⟩
  · intro s
    unfold gap gapKeys
    split <;> simp_all
  · refine ⟨⟨1, 0, _⟩, rfl, by decide, rfl⟩

/-! ## C13: backsymbol macros -/

/-- **C13**, Python.  One backsymbol-macro instruction, fetched in any state of the caches, is a
positive number of base moves with the head in the window. -/
theorem C13_instruction_partial {comp : Prog} {S C k : Nat} (ht : InParams comp S C) (hC : 0 < C)
    {m m' : MacroState} {c : Cfg} {i : Instr} (hcol : c.tape c.pos < C)
    (hm : m.Ok (backInstr (GetInstr.ofTable comp) k S C) C k (fun i => i.2.2 / 2 % C ^ k))
    (hc : m.conv.Known (c.state / 2 % C ^ k))
    (h : m.getitem (GetInstr.ofTable comp) (backsymLogic k S C) c.slot = .ok (i, m')) :
    ∃ n, 0 < n ∧ runFor comp n (unback C k c) = some (unback C k (c.exec i)) ∧
      ∀ j, j < n → ∃ e, runFor comp j (unback C k c) = some e ∧
        -c.pos - k ≤ e.pos ∧ e.pos < -c.pos - k + (k + 1 : Nat) := by
  have hf := backsymLogic_faithful (k := k) ht.within hC
  cases hp : backInstr (GetInstr.ofTable comp) k S C c.slot with
  | error e =>
    rw [MacroState.getitem_error hf hm hcol hc hp] at h
    cases h
  | ok i' =>
    obtain ⟨m'', h1, _⟩ := MacroState.getitem_ok hf hm hcol hc hp
    rw [h1] at h
    cases h
    obtain ⟨n, hn, hr, hin⟩ := backInstr_ok ht.within hC hcol hp
    rw [ofTable_prog] at hr hin
    exact ⟨n, hn, hr, hin⟩

/-- **C13**, Python: the whole run from the blank tape. -/
theorem C13_run_partial {comp : Prog} {S C k : Nat} (ht : InParams comp S C) (hC : 0 < C)
    (hS : 0 < S) {blocks : List (List Color)}
    (hb : ∀ t ∈ blocks, t.length = k ∧ ∀ d ∈ t, d < C)
    {noise : Nat → List (List Color)} (hn : Noise C k noise) {n : Nat} {m : MacroState} {d : Cfg}
    (h : macroRun (GetInstr.ofTable comp) (backsymLogic k S C) noise n (freshMacro C k blocks)
      initCfg = .ok (m, d)) :
    ∃ N, n ≤ N ∧ runFor comp N initCfg = some (unback C k d) := by
  have h1 : runE (backInstr (GetInstr.ofTable comp) k S C) n initCfg = .ok d := by
    rw [← macroRun_back ht hC hb hn n]
    exact map_snd_ok.mpr ⟨m, h⟩
  obtain ⟨_, N, hN, hr⟩ := (back_simulates (k := k) ht.within hC).run n initCfg d
    ⟨Nat.mul_pos (Nat.mul_pos (by omega) hS) (Nat.pow_pos hC), fun _ => hC⟩ h1
  rw [ofTable_prog, unback_init] at hr
  exact ⟨N, hN, hr⟩

/-- **C13**, Python: `KeyError` with key `s` means the base machine halts at `s`. -/
theorem C13_undefined_partial {comp : Prog} {S C k : Nat} (ht : InParams comp S C) (hC : 0 < C)
    (hS : 0 < S) {blocks : List (List Color)}
    (hb : ∀ t ∈ blocks, t.length = k ∧ ∀ d ∈ t, d < C)
    {noise : Nat → List (List Color)} (hn : Noise C k noise) {n : Nat} {s : Slot}
    (h : macroRun (GetInstr.ofTable comp) (backsymLogic k S C) noise n (freshMacro C k blocks)
      initCfg = .error (.keyError s)) : ∃ N, HaltsAt comp initCfg N s := by
  have h1 : runE (backInstr (GetInstr.ofTable comp) k S C) n initCfg = .error (.keyError s) := by
    rw [← macroRun_back ht hC hb hn n]
    exact map_snd_error.mpr h
  obtain ⟨N, d, hr, hd⟩ := (back_simulates (k := k) ht.within hC).run_error (by simp) n initCfg
    ⟨Nat.mul_pos (Nat.mul_pos (by omega) hS) (Nat.pow_pos hC), fun _ => hC⟩ h1
  rw [ofTable_prog, unback_init] at hr
  simp only [GetInstr.ofTable] at hd
  cases hc : comp d.slot with
  | some i => rw [hc] at hd; cases hd
  | none =>
    rw [hc] at hd
    cases hd
    exact ⟨N, d, hr, rfl, hc⟩

/-- Non-vacuity: `1RB 1LB  1LA ...` with two remembered cells. -/
example : ∃ N, HaltsAt bb22 initCfg N (1, 1) :=
  C13_undefined_partial bb22_table (k := 2) (by decide) (by decide) (blocks := []) (by simp)
    (noise := fun _ => []) (by intro j t h; simp at h) (n := 10) (by rfl)

/-- `1LB  1LC  ...`: two moves to the left, then halt. -/
def twoLeft : Prog
  | (0, 0) => some (1, false, 1)
  | (1, 0) => some (1, false, 2)
  | _ => none

/-- **C13 fails in Rust.**  `BacksymbolLogic::reconstruct_outputs` splits the window one cell too
early.  For `1LB  1LC  ...` with one remembered cell, the first macro instruction it computes
stands for a configuration the base machine never reaches; the Python instruction stands for one
it does reach. -/
theorem C13_rust_violation :
    ∃ i i' conv conv',
      calculateInstr (GetInstr.ofTable twoLeft) (Rs.backsymLogic 1 3 2) (Converter.new 2 1) (0, 0)
        = .ok (i, conv) ∧
      calculateInstr (GetInstr.ofTable twoLeft) (backsymLogic 1 3 2) (Converter.new 2 1) (0, 0)
        = .ok (i', conv') ∧
      (∀ n, runFor twoLeft n initCfg ≠ some (unback 2 1 (initCfg.exec i))) ∧
      runFor twoLeft 2 initCfg = some (unback 2 1 (initCfg.exec i')) := by
  refine ⟨(1, true, 9), (1, true, 11), _, _, rfl, rfl, ?_, ?_⟩
  · intro n h
    have key : ∀ e, runFor twoLeft n initCfg = some e → e.state = 2 → e.tape (-1) = 1 := by
      intro e he hs
      rcases n with _ | _ | _ | n
      · simp [runFor, initCfg] at he
        subst he
        cases hs
      · simp [runFor, step, Cfg.slot, initCfg, twoLeft, Cfg.exec] at he
        subst he
        cases hs
      · simp [runFor, step, Cfg.slot, initCfg, twoLeft, Cfg.exec] at he
        subst he
        rfl
      · simp [runFor, step, Cfg.slot, initCfg, twoLeft, Cfg.exec] at he
    exact absurd (key _ h rfl) (by decide)
  · have h1 : runFor twoLeft 2 initCfg =
        some ⟨2, -2, fun x => if x = -1 then 1 else if x = 0 then 1 else 0⟩ := by
      simp [runFor, step, Cfg.slot, initCfg, twoLeft, Cfg.exec]
    have ht : (unback 2 1 (initCfg.exec (1, true, 11))).tape =
        fun x => if x = -1 then 1 else if x = 0 then 1 else 0 := by
      funext x
      rw [unback_odd _ _ _ rfl]
      by_cases h0 : x = 0
      · subst h0; rfl
      · by_cases h1 : x = -1
        · subst h1; rfl
        · simp only [Cfg.exec, initCfg, if_true]
          rw [if_neg h1, if_neg h0]
          split
          · exact if_neg (by omega)
          · rw [if_neg (by omega)]
            exact if_neg (by omega)
    rw [h1, ← ht]
    rfl

/-! ## C15: colour coding -/

/-- **C15.** After any history of requests, different blocks get different colours. -/
theorem C15_injective {C k : Nat} (hC : 0 < C) {h1 h2 : List (List Color)}
    (hh1 : ∀ t ∈ h1, t.length = k ∧ ∀ d ∈ t, d < C)
    (hh2 : ∀ t ∈ h2, t.length = k ∧ ∀ d ∈ t, d < C)
    {t u : List Color} (ht : t.length = k ∧ ∀ d ∈ t, d < C) (hu : u.length = k ∧ ∀ d ∈ u, d < C)
    (h : ((usedConverter C k h1).toColor t).1 = ((usedConverter C k h2).toColor u).1) : t = u := by
  rw [((usedConverter_ok hC hh1).toColor_spec ht.1 ht.2).1,
    ((usedConverter_ok hC hh2).toColor_spec hu.1 hu.2).1] at h
  exact tapeColor_inj ht.2 hu.2 (ht.1.trans hu.1.symm) h

/-- **C15.** A colour handed out for `t`, at any point of any history, is turned back into `t`
after any further requests. -/
theorem C15_round_trip {C k : Nat} (hC : 0 < C) {before after : List (List Color)}
    (hb : ∀ t ∈ before, t.length = k ∧ ∀ d ∈ t, d < C)
    (ha : ∀ t ∈ after, t.length = k ∧ ∀ d ∈ t, d < C)
    {t : List Color} (ht : t.length = k ∧ ∀ d ∈ t, d < C) :
    let r := (usedConverter C k before).toColor t
    (after.foldl (fun c u => (c.toColor u).2) r.2).toTape r.1 = .ok t := by
  intro r
  obtain ⟨h1, h2, h3, _⟩ := (usedConverter_ok hC hb).toColor_spec ht.1 ht.2
  obtain ⟨n1, n2⟩ := h2.noise after ha
  rw [n1.toTape_eq hC (n2 _ (h1 ▸ h3)), h1, ← ht.1, digits_tapeColor hC ht.2]

/-- **C15.** A run from the blank tape never trips the assertion in `color_to_tape`, and neither
the history of the converter nor what other users do meanwhile changes its outcome (block and
backsymbol macros). -/
theorem C15_run {comp : Prog} {S C k : Nat} (ht : InParams comp S C) (hk : 0 < k) (hC : 0 < C)
    {b1 b2 : List (List Color)} (hb1 : ∀ t ∈ b1, t.length = k ∧ ∀ d ∈ t, d < C)
    (hb2 : ∀ t ∈ b2, t.length = k ∧ ∀ d ∈ t, d < C)
    {n1 n2 : Nat → List (List Color)} (hn1 : Noise C k n1) (hn2 : Noise C k n2)
    {l : Logic} (hl : l = blockLogic k S C ∨ l = backsymLogic k S C) (n : Nat) :
    macroRun (GetInstr.ofTable comp) l n1 n (freshMacro C k b1) initCfg ≠ .error .assertion ∧
    (macroRun (GetInstr.ofTable comp) l n1 n (freshMacro C k b1) initCfg).map Prod.snd =
      (macroRun (GetInstr.ofTable comp) l n2 n (freshMacro C k b2) initCfg).map Prod.snd := by
  rcases hl with rfl | rfl
  · constructor
    · intro h
      have := map_snd_error.mpr h
      rw [macroRun_block ht hk hC hb1 hn1] at this
      exact runE_assertion (blockInstr_assertion (ofTable_assertion comp) k S C) _ _ this
    · rw [macroRun_block ht hk hC hb1 hn1, macroRun_block ht hk hC hb2 hn2]
  · constructor
    · intro h
      have := map_snd_error.mpr h
      rw [macroRun_back ht hC hb1 hn1] at this
      exact runE_assertion (backInstr_assertion (ofTable_assertion comp) k S C) _ _ this
    · rw [macroRun_back ht hC hb1 hn1, macroRun_back ht hC hb2 hn2]

/-- Non-vacuity: with colours as large as the base the coding does collide. -/
example : tapeColor 2 [0, 2] = tapeColor 2 [1, 0] := rfl

end BB
