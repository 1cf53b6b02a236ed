import Verif.Lemmas.MacroMachineLoop
import Verif.Props.Macro

/-! # From runs of macro machines to the base machine -/

namespace BB

/-! ## The loop on a program without caches -/

/-- A prover whose exceptions from fetching are turned into what `Machine.run` makes of them. -/
def plainTry {π : Type} (try_ : TryRuleM π) : TryRule π := fun pr cycle q t =>
  ((try_ pr cycle q t).1, match (try_ pr cycle q t).2 with
    | .error (.py e) => .error e
    | .error (.fetch .infLoop) => .ok none
    | .error (.fetch _) => .error .assertion
    | .ok r => .ok r)

/-- How a run on the slots that have an instruction ends, given the exceptions of the others. -/
def endRes (g : GetInstr) : RunRes → RunRes
  | .undfnd slot => match g slot with
    | .error e => fetchRes e
    | .ok _ => .undfnd slot
  | r => r

theorem prog_error {g : GetInstr} {slot : Slot} {e : MErr} (h : g slot = .error e) :
    g.prog slot = none := by simp [GetInstr.prog, h, Except.toOption]

theorem turnM_pure {π : Type} (g : GetInstr) (s : RState π) :
    turnM (fun pr slot => (g slot, pr)) s =
      match plainStep g.prog s with
      | .error r => (s, some (endRes g r))
      | .ok s' =>
        let color := match g.prog (s.state, s.tape.scan) with | some (c, _, _) => c | none => 0
        ((blankCheck color s').1, if (blankCheck color s').2 then some .infrul else none) := by
  unfold turnM plainStep
  cases hg : g (s.state, s.tape.scan) with
  | error e =>
    simp only [hg, prog_error hg, endRes]
  | ok i =>
    obtain ⟨c, sh, q⟩ := i
    simp only [hg, GetInstr.prog_ok hg]
    by_cases hed : (s.state == q && s.tape.atEdge sh) = true
    · simp only [if_pos hed, endRes]
    · simp only [if_neg hed]

theorem runLoopM_pure {π : Type} (try_ : TryRuleM π) (g : GetInstr) :
    ∀ (fuel cycle : Nat) (s : RState π),
      runLoopM try_ (fun pr slot => (g slot, pr)) fuel cycle s =
        { runLoop (plainTry try_) g.prog fuel cycle s with
          result := endRes g (runLoop (plainTry try_) g.prog fuel cycle s).result } := by
  intro fuel
  induction fuel with
  | zero => intro cycle s; rfl
  | succ fuel ih =>
    intro cycle s
    have out : ∀ (s : RState π) (r : RunRes), s.out cycle (endRes g r) =
        { s.out cycle r with result := endRes g (s.out cycle r).result } := fun _ _ => rfl
    have go : ∀ s : RState π,
        orStop cycle (fun s => runLoopM try_ (fun pr slot => (g slot, pr)) fuel (cycle + 1) s)
          (turnM (fun pr slot => (g slot, pr)) s) =
        { (match plainStep g.prog s with
            | .error r => s.out cycle r
            | .ok s' =>
              let color := match g.prog (s.state, s.tape.scan) with | some (c, _, _) => c | none => 0
              let (s', stop) := blankCheck color s'
              if stop then s'.out cycle .infrul
              else runLoop (plainTry try_) g.prog fuel (cycle + 1) s') with
          result := endRes g (match plainStep g.prog s with
            | .error r => s.out cycle r
            | .ok s' =>
              let color := match g.prog (s.state, s.tape.scan) with | some (c, _, _) => c | none => 0
              let (s', stop) := blankCheck color s'
              if stop then s'.out cycle .infrul
              else runLoop (plainTry try_) g.prog fuel (cycle + 1) s').result } := by
      intro s
      rw [turnM_pure]
      cases plainStep g.prog s with
      | error r => rfl
      | ok s' =>
        simp only
        generalize (match g.prog (s.state, s.tape.scan) with | some (c, _, _) => c | none => 0)
          = color
        generalize blankCheck color s' = b
        obtain ⟨s2, stop⟩ := b
        cases stop with
        | true => rfl
        | false => exact ih (cycle + 1) s2
    unfold runLoopM runLoop
    generalize hpr : plainTry try_ s.prover cycle s.state s.tape = y
    unfold plainTry at hpr
    generalize try_ s.prover cycle s.state s.tape = x at hpr
    obtain ⟨pr, r⟩ := x
    subst hpr
    dsimp only
    cases r with
    | error e =>
      cases e with
      | fetch e => cases e <;> first | exact go _ | rfl
      | py e => cases e <;> first | exact go _ | rfl
    | ok o =>
      cases o with
      | none => exact go _
      | some rule =>
        dsimp only
        cases applyRule Tape.indexTape rule s.tape with
        | error e => cases e <;> rfl
        | ok r =>
          obtain ⟨o, t'⟩ := r
          cases o with
          | none => exact go _
          | some times => exact ih (cycle + 1) _

/-! ## Simulations on top of each other -/

theorem runE_of_runFor {g : GetInstr} : ∀ (n : Nat) (c d : Cfg), runFor g.prog n c = some d →
    runE g n c = .ok d := by
  intro n
  induction n with
  | zero => intro c d h; simpa [runFor, runE] using h
  | succ n ih =>
    intro c d h
    simp only [runE]
    cases hg : g c.slot with
    | error e => simp only [runFor, step_none (prog_error hg)] at h; cases h
    | ok i =>
      simp only [runFor, step_some (GetInstr.prog_ok hg)] at h
      exact ih _ _ h

theorem Simulates.comp {M g h : GetInstr} {D₂ D₁ : Cfg → Cfg} {J₂ J₁ : Cfg → Prop}
    (s₂ : Simulates M g D₂ J₂) (s₁ : Simulates g h D₁ J₁) :
    Simulates M h (fun c => D₁ (D₂ c)) (fun c => J₂ c ∧ J₁ (D₂ c)) where
  ok := by
    intro c i hj hm
    obtain ⟨hj', n, hn, hr⟩ := s₂.ok c i hj.1 hm
    obtain ⟨hj1, N, hN, hR⟩ := s₁.run n _ _ hj.2 (runE_of_runFor n _ _ hr)
    exact ⟨⟨hj', hj1⟩, N, by omega, hR⟩
  stop := by
    intro c e hj he hm
    obtain ⟨n, d, hr, hd⟩ := s₂.stop c e hj.1 he hm
    obtain ⟨hj1, N, _, hR⟩ := s₁.run n _ _ hj.2 (runE_of_runFor n _ _ hr)
    obtain ⟨N', d', hr', hd'⟩ := s₁.stop d e hj1 he hd
    exact ⟨N + N', d', runFor_trans hR hr', hd'⟩

theorem LoopsRight.comp {M g h : GetInstr} {D₂ D₁ : Cfg → Cfg} {J₂ J₁ : Cfg → Prop}
    (l₂ : LoopsRight M g D₂ J₂) (s₁ : Simulates g h D₁ J₁)
    (l₁ : LoopsRight g h D₁ J₁) :
    LoopsRight M h (fun c => D₁ (D₂ c)) (fun c => J₂ c ∧ J₁ (D₂ c)) where
  loop := by
    intro c hj hm
    rcases l₂.loop c hj.1 hm with hn | ⟨n, d, hr, hd⟩
    · refine .inl (s₁.forever hj.2 fun n => ?_)
      have hs := hn n
      obtain ⟨d, hd⟩ := Option.isSome_iff_exists.mp hs
      exact ⟨d, runE_of_runFor n _ _ hd⟩
    · obtain ⟨hj1, N, _, hR⟩ := s₁.run n _ _ hj.2 (runE_of_runFor n _ _ hr)
      rcases l₁.loop d hj1 hd with hn | ⟨N', d', hr', hd'⟩
      · exact .inl (hn.of_later hR)
      · exact .inr ⟨N + N', d', runFor_trans hR hr', hd'⟩

/-! ## Levels -/

/-- A program object with caches `s` that answers like `g`, which simulates the table through `D`. -/
structure Level {σ : Type} (comp : Prog) (f : Fetch σ) (s : σ) (g : GetInstr) (D : Cfg → Cfg)
    (J : Cfg → Prop) : Prop where
  serves : ∃ Ok K Q, f.Serves g Ok K Q ∧ Ok s ∧ Q s 0
  sim : Simulates g (GetInstr.ofTable comp) D J
  start : J initCfg
  init : D initCfg = initCfg
  calm : ∀ s, g s ≠ .error .assertion

theorem level_table {comp : Prog} {S C : Nat} (hp : InParams comp S C) (hS : 0 < S) (hC : 0 < C) :
    Level comp (Fetch.ofPure (GetInstr.ofTable comp)) () (GetInstr.ofTable comp) id
      (fun c => c.state < S) where
  serves := ⟨_, _, _, Fetch.serves_table hC hp.within, trivial, hS⟩
  sim :=
    { ok := fun c i _ hm => by
        obtain ⟨col, sh, q⟩ := i
        refine ⟨(hp.within _ _ _ _ hm).2, 1, by omega, ?_⟩
        show runFor _ 1 c = _
        rw [runFor_one, step_some (GetInstr.prog_ok hm)]
        rfl
      stop := fun c e _ _ hm => ⟨0, c, rfl, hm⟩ }
  start := hS
  init := rfl
  calm := ofTable_assertion comp

theorem loops_table {comp : Prog} (J : Cfg → Prop) :
    LoopsRight (GetInstr.ofTable comp) (GetInstr.ofTable comp) id J where
  loop := by
    intro c _ hm
    simp only [GetInstr.ofTable] at hm
    split at hm <;> cases hm

theorem Level.pass {σ : Type} {comp : Prog} {f : Fetch σ} {s : σ} {g : GetInstr} {D : Cfg → Cfg}
    {J : Cfg → Prop} (h : Level comp f s g D J) (m : MacroState) :
    Level comp (passFetch f) (s, m) g D J where
  serves := by
    obtain ⟨Ok, K, Q, hs, h1, h2⟩ := h.serves
    exact ⟨_, _, _, Fetch.serves_pass hs, h1, h2⟩
  sim := h.sim
  start := h.start
  init := h.init
  calm := h.calm

theorem digits_zero_mem {C k : Nat} {d : Nat} (h : d ∈ digits C k 0) : d = 0 := by
  simp only [digits, List.mem_map, Nat.zero_div, Nat.zero_mod] at h
  obtain ⟨_, _, h⟩ := h
  exact h.symm

theorem Level.block {σ : Type} {comp : Prog} {f : Fetch σ} {s : σ} {g : GetInstr} {D : Cfg → Cfg}
    {J : Cfg → Prop} (h : Level comp f s g D J) {S C k : Nat} (hw : g.Within S C) (hS : 0 < S)
    (hC : 0 < C) (hk : 0 < k) {bs : List (List Color)}
    (hb : ∀ t ∈ bs, t.length = k ∧ ∀ d ∈ t, d < C) :
    Level comp (macroFetch f (blockLogic k S C)) (s, freshMacro C k bs) (blockInstr g k S C)
      (fun c => D (unblock C k c)) (fun c => c.state < 2 * S ∧ J (unblock C k c)) where
  serves := by
    obtain ⟨Ok, K, Q, hs, h1, h2⟩ := h.serves
    exact ⟨_, _, _, Fetch.serves_block hs hw hk hC,
      ⟨h1, freshMacro_ok hC hb _ _, by simp [freshMacro]⟩, h2⟩
  sim := (block_simulates hw hk hC).comp h.sim
  start := ⟨init_lt hS, by rw [unblock_init]; exact h.start⟩
  init := by rw [unblock_init]; exact h.init
  calm := blockInstr_assertion h.calm k S C

theorem Level.back {σ : Type} {comp : Prog} {f : Fetch σ} {s : σ} {g : GetInstr} {D : Cfg → Cfg}
    {J : Cfg → Prop} (h : Level comp f s g D J) {S C k : Nat} (hw : g.Within S C) (hS : 0 < S)
    (hC : 0 < C) {bs : List (List Color)}
    (hb : ∀ t ∈ bs, t.length = k ∧ ∀ d ∈ t, d < C) :
    Level comp (macroFetch f (backsymLogic k S C)) (s, freshMacro C k bs) (backInstr g k S C)
      (fun c => D (unback C k c)) (fun c => BackOk S C k c ∧ J (unback C k c)) where
  serves := by
    obtain ⟨Ok, K, Q, hs, h1, h2⟩ := h.serves
    refine ⟨_, _, _, Fetch.serves_back hs hw hC,
      ⟨h1, freshMacro_ok hC hb _ _, by simp [freshMacro]⟩, ?_⟩
    refine ⟨?_, ?_, ?_⟩
    · simp only [Nat.zero_div, Nat.zero_mod]
      exact (usedConverter_ok hC hb).zero
    · simp only [Nat.zero_div]
      exact h2
    · intro d hd
      simp only [Nat.zero_div, Nat.zero_mod] at hd
      rw [digits_zero_mem hd]
      exact hs.zero s h1
  sim := (back_simulates hw hC).comp h.sim
  start := ⟨⟨Nat.mul_pos (Nat.mul_pos (by omega) hS) (Nat.pow_pos hC), fun _ => hC⟩,
    by rw [unback_init]; exact h.start⟩
  init := by rw [unback_init]; exact h.init
  calm := backInstr_assertion h.calm k S C

/-! ## Reports -/

theorem Level.neverHalts {σ : Type} {comp : Prog} {f : Fetch σ} {s : σ} {g : GetInstr}
    {D : Cfg → Cfg} {J : Cfg → Prop} (h : Level comp f s g D J)
    (hn : NeverHalts g.prog initCfg) : NeverHalts comp initCfg := by
  have := h.sim.forever h.start fun n => by
    obtain ⟨d, hd⟩ := Option.isSome_iff_exists.mp (hn n)
    exact ⟨d, runE_of_runFor n _ _ hd⟩
  rwa [h.init, ofTable_prog] at this

theorem Level.keyError {σ : Type} {comp : Prog} {f : Fetch σ} {s : σ} {g : GetInstr}
    {D : Cfg → Cfg} {J : Cfg → Prop} (h : Level comp f s g D J) {n : Nat} {slot key : Slot}
    (hn : HaltsAt g.prog initCfg n slot) (hg : g slot = .error (.keyError key)) :
    ∃ N, n ≤ N ∧ HaltsAt comp initCfg N key := by
  obtain ⟨d, hr, hs, _⟩ := hn
  obtain ⟨hj, N, hN, hR⟩ := h.sim.run n initCfg d h.start (runE_of_runFor n _ _ hr)
  obtain ⟨N', d', hr', hd'⟩ := h.sim.stop d (.keyError key) hj (by simp) (by rw [hs]; exact hg)
  rw [h.init] at hR
  have hR' := runFor_trans hR hr'
  rw [ofTable_prog] at hR'
  simp only [GetInstr.ofTable] at hd'
  cases hc : comp d'.slot with
  | some i => rw [hc] at hd'; cases hd'
  | none =>
    rw [hc] at hd'
    cases hd'
    exact ⟨N + N', by omega, d', hR', rfl, hc⟩

theorem Level.infLoop {σ : Type} {comp : Prog} {f : Fetch σ} {s : σ} {g : GetInstr}
    {D : Cfg → Cfg} {J : Cfg → Prop} (h : Level comp f s g D J)
    (hl : LoopsRight g (GetInstr.ofTable comp) D J) {n : Nat} {slot : Slot}
    (hn : HaltsAt g.prog initCfg n slot) (hg : g slot = .error .infLoop) :
    NeverHalts comp initCfg := by
  obtain ⟨d, hr, hs, _⟩ := hn
  obtain ⟨hj, N, hN, hR⟩ := h.sim.run n initCfg d h.start (runE_of_runFor n _ _ hr)
  rw [h.init, ofTable_prog] at hR
  rcases hl.loop d hj (by rw [hs]; exact hg) with hn | ⟨_, d', _, hd'⟩
  · rw [ofTable_prog] at hn; exact hn.of_later hR
  · simp only [GetInstr.ofTable] at hd'
    split at hd' <;> cases hd'

end BB
