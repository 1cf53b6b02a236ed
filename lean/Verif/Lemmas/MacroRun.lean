import Verif.Lemmas.MacroSim

/-! # Runs of macro programs -/

namespace BB

/-- Other users of a shared converter: each asks for the colours of some blocks. -/
def MacroState.noise (m : MacroState) (blocks : List (List Color)) : MacroState :=
  { m with conv := blocks.foldl (fun c t => (c.toColor t).2) m.conv }

/-- A machine executing `n` macro instructions, fetching each with `__getitem__`.  Before the
`j`-th from the end, other users of the converter ask for the colours of `noise j`. -/
def macroRun (g : GetInstr) (l : Logic) (noise : Nat → List (List Color)) :
    Nat → MacroState → Cfg → Except MErr (MacroState × Cfg)
  | 0, m, c => .ok (m, c)
  | n + 1, m, c =>
    match (m.noise (noise n)).getitem g l c.slot with
    | .error e => .error e
    | .ok (i, m') => macroRun g l noise n m' (c.exec i)

theorem Converter.Ok.noise {conv : Converter} {C k : Nat} (h : conv.Ok C k) :
    ∀ (blocks : List (List Color)), (∀ t ∈ blocks, t.length = k ∧ ∀ d ∈ t, d < C) →
      (blocks.foldl (fun c t => (c.toColor t).2) conv).Ok C k ∧
      ∀ col, conv.Known col → (blocks.foldl (fun c t => (c.toColor t).2) conv).Known col := by
  intro blocks
  induction blocks generalizing conv with
  | nil => intro _; exact ⟨h, fun _ hk => hk⟩
  | cons t ts ih =>
    intro hb
    obtain ⟨h1, h2⟩ := hb t List.mem_cons_self
    obtain ⟨_, a2, _, a4⟩ := h.toColor_spec h1 h2
    obtain ⟨b1, b2⟩ := ih a2 (fun u hu => hb u (List.mem_cons_of_mem _ hu))
    exact ⟨b1, fun col hk => b2 col (a4 col hk)⟩

/-- What a run needs of the converter: `J` implies that the slot can be looked up, and is kept. -/
structure Logic.Keeps (pure : GetInstr) (okSlot : Slot → Prop) (need : Slot → Color)
    (give : Instr → Color) (J : (Color → Prop) → Cfg → Prop) : Prop where
  slot : ∀ K c, J K c → okSlot c.slot ∧ K (need c.slot)
  mono : ∀ (K K' : Color → Prop) c, (∀ x, K x → K' x) → J K c → J K' c
  step : ∀ K c i, J K c → pure c.slot = .ok i → K (give i) → J K (c.exec i)

theorem macroRun_eq {l : Logic} {g pure : GetInstr} {C k : Nat} {okSlot : Slot → Prop}
    {need : Slot → Color} {give : Instr → Color} (hl : l.Faithful g pure C k okSlot need give)
    {J : (Color → Prop) → Cfg → Prop} (hJ : Logic.Keeps pure okSlot need give J)
    {noise : Nat → List (List Color)}
    (hn : ∀ j, ∀ t ∈ noise j, t.length = k ∧ ∀ d ∈ t, d < C) :
    ∀ (n : Nat) (m : MacroState) (c : Cfg), m.Ok pure C k give → J m.conv.Known c →
      (macroRun g l noise n m c).map Prod.snd = runE pure n c := by
  intro n
  induction n with
  | zero => intro m c _ _; rfl
  | succ n ih =>
    intro m c hm hj
    obtain ⟨n1, n2⟩ := hm.conv.noise (noise n) (hn n)
    have hm1 : (m.noise (noise n)).Ok pure C k give :=
      ⟨n1, fun s i hs => ⟨(hm.instrs s i hs).1, n2 _ (hm.instrs s i hs).2⟩⟩
    have hj1 : J (m.noise (noise n)).conv.Known c := hJ.mono _ _ _ n2 hj
    obtain ⟨s1, s2⟩ := hJ.slot _ _ hj1
    simp only [macroRun, runE]
    cases hp : pure c.slot with
    | error e => rw [MacroState.getitem_error hl hm1 s1 s2 hp]; rfl
    | ok i =>
      obtain ⟨m', h1, h2, h3, h4⟩ := MacroState.getitem_ok hl hm1 s1 s2 hp
      rw [h1]
      exact ih m' _ h2 (hJ.step _ _ _ (hJ.mono _ _ _ h4 hj1) hp h3)

theorem block_keeps (pure : GetInstr) : Logic.Keeps pure (fun _ => True) Prod.snd Prod.fst
    (fun K c => ∀ x, K (c.tape x)) where
  slot := fun K c h => ⟨trivial, h _⟩
  mono := fun K K' c hK h x => hK _ (h x)
  step := by
    intro K c i h _ hg x
    simp only [Cfg.exec]
    split
    · exact hg
    · exact h x

theorem backsym_keeps {g : GetInstr} {S C k : Nat} (hw : g.Within S C) (hC : 0 < C) :
    Logic.Keeps (backInstr g k S C) (fun s => s.2 < C) (fun s => s.1 / 2 % C ^ k)
      (fun i => i.2.2 / 2 % C ^ k)
      (fun K c => (∀ x, c.tape x < C) ∧ K (c.state / 2 % C ^ k)) where
  slot := fun K c h => ⟨h.1 _, h.2⟩
  mono := fun K K' c hK h => ⟨h.1, hK _ h.2⟩
  step := by
    intro K c i h hp hg
    refine ⟨fun x => ?_, hg⟩
    simp only [Cfg.exec]
    split
    · exact (backInstr_within hw hC (h.1 c.pos) hp).1
    · exact h.1 x

/-! ## From runs of the macro program to runs of the base program -/

/-- `M` simulates `g` through the decoding `D`, on configurations satisfying `J`. -/
structure Simulates (M g : GetInstr) (D : Cfg → Cfg) (J : Cfg → Prop) : Prop where
  ok : ∀ c i, J c → M c.slot = .ok i →
    J (c.exec i) ∧ ∃ n, 0 < n ∧ runFor g.prog n (D c) = some (D (c.exec i))
  stop : ∀ c e, J c → e ≠ .infLoop → M c.slot = .error e →
    ∃ n d, runFor g.prog n (D c) = some d ∧ g d.slot = .error e

/-- ... and its reports of infinite loops are right. -/
structure LoopsRight (M g : GetInstr) (D : Cfg → Cfg) (J : Cfg → Prop) : Prop where
  loop : ∀ c, J c → M c.slot = .error .infLoop → NeverHalts g.prog (D c) ∨
    ∃ n d, runFor g.prog n (D c) = some d ∧ g d.slot = .error .infLoop

theorem Simulates.run {M g : GetInstr} {D : Cfg → Cfg} {J : Cfg → Prop} (h : Simulates M g D J) :
    ∀ (n : Nat) (c d : Cfg), J c → runE M n c = .ok d →
      J d ∧ ∃ N, n ≤ N ∧ runFor g.prog N (D c) = some (D d) := by
  intro n
  induction n with
  | zero =>
    intro c d hj hr
    simp only [runE, Except.ok.injEq] at hr
    subst hr
    exact ⟨hj, 0, Nat.le_refl _, rfl⟩
  | succ n ih =>
    intro c d hj hr
    simp only [runE] at hr
    cases hm : M c.slot with
    | error e => rw [hm] at hr; cases hr
    | ok i =>
      rw [hm] at hr
      obtain ⟨j1, m, hm0, hm1⟩ := h.ok c i hj hm
      obtain ⟨j2, N, hN, hr2⟩ := ih _ _ j1 hr
      exact ⟨j2, m + N, by omega, runFor_trans hm1 hr2⟩

theorem Simulates.run_error {M g : GetInstr} {D : Cfg → Cfg} {J : Cfg → Prop}
    (h : Simulates M g D J) {e : MErr} (he : e ≠ .infLoop) :
    ∀ (n : Nat) (c : Cfg), J c → runE M n c = .error e →
      ∃ N d, runFor g.prog N (D c) = some d ∧ g d.slot = .error e := by
  intro n
  induction n with
  | zero => intro c _ hr; simp [runE] at hr
  | succ n ih =>
    intro c hj hr
    simp only [runE] at hr
    cases hm : M c.slot with
    | error e' =>
      rw [hm] at hr
      cases hr
      exact h.stop c e hj he hm
    | ok i =>
      rw [hm] at hr
      obtain ⟨j1, m, _, hm1⟩ := h.ok c i hj hm
      obtain ⟨N, d, hr2, hd⟩ := ih _ j1 hr
      exact ⟨m + N, d, runFor_trans hm1 hr2, hd⟩

theorem Simulates.run_loop {M g : GetInstr} {D : Cfg → Cfg} {J : Cfg → Prop}
    (h : Simulates M g D J) (hl : LoopsRight M g D J) :
    ∀ (n : Nat) (c : Cfg), J c → runE M n c = .error .infLoop → NeverHalts g.prog (D c) ∨
      ∃ N d, runFor g.prog N (D c) = some d ∧ g d.slot = .error .infLoop := by
  intro n
  induction n with
  | zero => intro c _ hr; simp [runE] at hr
  | succ n ih =>
    intro c hj hr
    simp only [runE] at hr
    cases hm : M c.slot with
    | error e' =>
      rw [hm] at hr
      cases hr
      exact hl.loop c hj hm
    | ok i =>
      rw [hm] at hr
      obtain ⟨j1, m, _, hm1⟩ := h.ok c i hj hm
      rcases ih _ j1 hr with h1 | ⟨N, d, hr2, hd⟩
      · exact .inl (h1.of_later hm1)
      · exact .inr ⟨m + N, d, runFor_trans hm1 hr2, hd⟩

/-- A macro program that never stops simulates a machine that never halts. -/
theorem Simulates.forever {M g : GetInstr} {D : Cfg → Cfg} {J : Cfg → Prop}
    (h : Simulates M g D J) {c : Cfg} (hj : J c) (hr : ∀ n, ∃ d, runE M n c = .ok d) :
    NeverHalts g.prog (D c) := by
  apply neverHalts_of_unbounded
  intro n
  obtain ⟨d, hd⟩ := hr n
  obtain ⟨_, N, hN, hr⟩ := h.run n c d hj hd
  exact ⟨N, hN, by rw [hr]; rfl⟩

/-- For a table: the machine halts exactly where the macro program raises `KeyError`. -/
theorem Simulates.halts_iff {M : GetInstr} {comp : Prog} {D : Cfg → Cfg} {J : Cfg → Prop}
    (h : Simulates M (GetInstr.ofTable comp) D J) (hl : LoopsRight M (GetInstr.ofTable comp) D J)
    {c : Cfg} (hj : J c) (hassert : ∀ n, runE M n c ≠ .error .assertion) (s : Slot) :
    (∃ n, runE M n c = .error (.keyError s)) ↔ ∃ N, HaltsAt comp (D c) N s := by
  have hprog : (GetInstr.ofTable comp).prog = comp := by
    funext s
    simp only [GetInstr.prog, GetInstr.ofTable]
    cases comp s <;> rfl
  have hkey : ∀ s s', GetInstr.ofTable comp s = .error (.keyError s') → s' = s ∧ comp s = none := by
    intro s s' hs
    simp only [GetInstr.ofTable] at hs
    cases hc : comp s with
    | some i => rw [hc] at hs; cases hs
    | none => rw [hc] at hs; cases hs; exact ⟨rfl, rfl⟩
  have hfw : ∀ s, (∃ n, runE M n c = .error (.keyError s)) → ∃ N, HaltsAt comp (D c) N s := by
    rintro s ⟨n, hn⟩
    obtain ⟨N, d, hr, hd⟩ := h.run_error (by simp) n c hj hn
    rw [hprog] at hr
    obtain ⟨h1, h2⟩ := hkey _ _ hd
    subst h1
    exact ⟨N, d, hr, rfl, h2⟩
  refine ⟨hfw s, ?_⟩
  rintro ⟨N, hN⟩
  have hnot : ¬ NeverHalts comp (D c) := by
    rw [neverHalts_iff_not_haltsAt]
    exact fun hh => hh ⟨N, s, hN⟩
  by_contra hcon
  apply hnot
  rw [← hprog]
  apply h.forever hj
  intro n
  cases hr : runE M n c with
  | ok d => exact ⟨d, rfl⟩
  | error e =>
    exfalso
    cases e with
    | assertion => exact hassert n hr
    | keyError s' =>
      obtain ⟨N', hN'⟩ := hfw s' ⟨n, hr⟩
      obtain ⟨_, hss⟩ := HaltsAt.unique hN hN'
      exact hcon ⟨n, hss ▸ hr⟩
    | infLoop =>
      rcases h.run_loop hl n c hj hr with h1 | ⟨_, d, _, hd⟩
      · rw [hprog] at h1; exact hnot h1
      · simp only [GetInstr.ofTable] at hd
        cases hc : comp d.slot with
        | some i => rw [hc] at hd; cases hd
        | none => rw [hc] at hd; cases hd

theorem StopsIn.stop {g : GetInstr} {I : Cfg → Prop} {c : Cfg} {e : MErr} (h : StopsIn g I c e) :
    ∃ n d, runFor g.prog n c = some d ∧ g d.slot = .error e := by
  obtain ⟨n, d, h1, _, h3⟩ := h
  exact ⟨n, d, h1.1, h3⟩

theorem block_simulates {g : GetInstr} {S C k : Nat} (hw : g.Within S C) (hk : 0 < k)
    (hC : 0 < C) :
    Simulates (blockInstr g k S C) g (unblock C k) (fun c => c.state < 2 * S) where
  ok := by
    intro c i hj h
    obtain ⟨n, hn, hr⟩ := blockInstr_ok hw hk hC h
    obtain ⟨col, sh, q⟩ := i
    exact ⟨(blockInstr_within hw hk hC _ _ _ _ h).2, n, hn, hr.1⟩
  stop := fun c e _ he h => (blockInstr_error hk he h).stop

theorem block_loopsRight {g : GetInstr} {S C k : Nat} (hw : g.Within S C) (hk : 0 < k)
    (hC : 0 < C) :
    LoopsRight (blockInstr g k S C) g (unblock C k) (fun c => c.state < 2 * S) where
  loop := by
    intro c hj h
    rcases blockInstr_infLoop hw hk hC hj h with h1 | h1
    · exact .inl h1.neverHalts
    · exact .inr h1.stop

/-- Macro configurations within the ranges of a backsymbol macro. -/
def BackOk (S C k : Nat) (c : Cfg) : Prop := c.state < 2 * S * C ^ k ∧ ∀ x, c.tape x < C

theorem back_simulates {g : GetInstr} {S C k : Nat} (hw : g.Within S C) (hC : 0 < C) :
    Simulates (backInstr g k S C) g (unback C k) (BackOk S C k) where
  ok := by
    intro c i hj h
    obtain ⟨n, hn, hr⟩ := backInstr_ok hw hC (hj.2 c.pos) h
    obtain ⟨col, sh, q⟩ := i
    have hwi := backInstr_within hw hC (hj.2 c.pos) h
    refine ⟨⟨hwi.2, fun x => ?_⟩, n, hn, hr.1⟩
    simp only [Cfg.exec]
    split
    · exact hwi.1
    · exact hj.2 x
  stop := fun c e _ he h => (backInstr_error he h).stop

theorem unblock_init (C k : Nat) : unblock C k initCfg = initCfg := by
  simp [unblock, initCfg]

theorem unback_init (C k : Nat) : unback C k initCfg = initCfg := by
  simp [unback, initCfg]

/-! ## No assertion is hit -/

theorem winLoop_assertion {g : GetInstr} (hg : ∀ s, g s ≠ .error .assertion) :
    ∀ (lim : Nat) (w : Win), winLoop g lim w ≠ .error .assertion := by
  intro lim
  induction lim with
  | zero => intro w h; simp [winLoop] at h
  | succ lim ih =>
    intro w h
    simp only [winLoop] at h
    cases hb : winBody g w with
    | error e =>
      rw [hb] at h
      cases h
      exact hg _ (winBody_error hb)
    | ok b =>
      rw [hb] at h
      cases b with
      | next w' => exact ih w' h
      | exit s w' => cases h

theorem blockInstr_assertion {g : GetInstr} (hg : ∀ s, g s ≠ .error .assertion) (k S C : Nat)
    (s : Slot) : blockInstr g k S C s ≠ .error .assertion := by
  intro h
  simp only [blockInstr] at h
  split at h
  · rename_i e he; cases h; exact winLoop_assertion hg _ _ he
  · cases h

theorem backInstr_assertion {g : GetInstr} (hg : ∀ s, g s ≠ .error .assertion) (k S C : Nat)
    (s : Slot) : backInstr g k S C s ≠ .error .assertion := by
  intro h
  simp only [backInstr] at h
  split at h
  · rename_i e he; cases h; exact winLoop_assertion hg _ _ he
  · cases h

theorem runE_assertion {M : GetInstr} (hM : ∀ s, M s ≠ .error .assertion) :
    ∀ (n : Nat) (c : Cfg), runE M n c ≠ .error .assertion := by
  intro n
  induction n with
  | zero => intro c h; simp [runE] at h
  | succ n ih =>
    intro c h
    simp only [runE] at h
    cases hm : M c.slot with
    | error e => rw [hm] at h; cases h; exact hM _ hm
    | ok i => rw [hm] at h; exact ih _ h

theorem ofTable_assertion (comp : Prog) (s : Slot) :
    GetInstr.ofTable comp s ≠ .error .assertion := by
  intro h
  simp only [GetInstr.ofTable] at h
  split at h <;> cases h

theorem ofTable_prog (comp : Prog) : (GetInstr.ofTable comp).prog = comp := by
  funext s
  simp only [GetInstr.prog, GetInstr.ofTable]
  cases comp s <;> rfl

/-! ## The Rust loop -/

theorem rs_winLoop_eq (p : Prog) : ∀ (lim : Nat) (w : Win), w.pos < w.tape.length →
    Rs.winLoop p lim w = (winLoop (GetInstr.ofTable p) lim w).toOption := by
  intro lim
  induction lim with
  | zero => intro w _; rfl
  | succ lim ih =>
    intro w hp
    simp only [Rs.winLoop, winLoop]
    cases hs : p (w.state, w.tape.getD w.pos 0) with
    | none => simp only [winBody, GetInstr.ofTable, hs, Except.toOption]
    | some i =>
      have hb : winBody (GetInstr.ofTable p) w = .ok (winExec w (w.tape.getD w.pos 0) i) := by
        simp only [winBody, GetInstr.ofTable, hs]
      obtain ⟨n, hn, hsp⟩ := winBody_spec hb hp 0 (fun _ => 0)
      rw [hb]
      cases hx : winExec w (w.tape.getD w.pos 0) i with
      | next w' =>
        rw [hx] at hsp
        simp only [hx]
        exact ih w' hsp.2.1
      | exit side w' =>
        rw [hx] at hsp
        simp only [hx, Except.toOption]
        rw [hsp.2.2]

end BB
