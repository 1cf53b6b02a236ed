import Verif.Model.MacroMachine
import Verif.Lemmas.MacroRun

/-! # Program objects with caches answer like programs without -/

namespace BB

/-! ## Cells of a window -/

theorem sweepRight_all {P : Color → Prop} {scan col : Color} (hc : P col) :
    ∀ (rem pos : Nat) (w : List Color), (∀ c ∈ w, P c) →
      ∀ c ∈ (sweepRight scan col rem pos w).2.2, P c := by
  intro rem
  induction rem with
  | zero => intro pos w h; simpa [sweepRight] using h
  | succ rem ih =>
    intro pos w h
    simp only [sweepRight]
    split
    · refine ih _ _ fun c hm => ?_
      rcases List.mem_or_eq_of_mem_set hm with hm | rfl
      · exact h c hm
      · exact hc
    · exact h

theorem sweepLeft_all {P : Color → Prop} {scan col : Color} (hc : P col) :
    ∀ (pos : Nat) (w : List Color), (∀ c ∈ w, P c) →
      ∀ c ∈ (sweepLeft scan col pos w).2.2, P c := by
  have hset : ∀ (w : List Color) (i : Nat), (∀ c ∈ w, P c) → ∀ c ∈ w.set i col, P c := by
    intro w i h c hm
    rcases List.mem_or_eq_of_mem_set hm with hm | rfl
    · exact h c hm
    · exact hc
  intro pos
  induction pos with
  | zero =>
    intro w h
    simp only [sweepLeft]
    split
    · exact hset w 0 h
    · exact h
  | succ pos ih =>
    intro w h
    simp only [sweepLeft]
    split
    · exact ih _ (hset w _ h)
    · exact h

theorem winExec_all {P : Color → Prop} (w : Win) (scan : Color) (i : Instr) (hc : P i.1)
    (hw : ∀ c ∈ w.tape, P c) :
    (winExec w scan i).win.state = i.2.2 ∧ ∀ c ∈ (winExec w scan i).win.tape, P c := by
  obtain ⟨col, sh, q⟩ := i
  have hset : ∀ c ∈ w.tape.set w.pos col, P c := by
    intro c hm
    rcases List.mem_or_eq_of_mem_set hm with hm | rfl
    · exact hw c hm
    · exact hc
  simp only [winExec]
  by_cases hq : q = w.state
  · subst hq
    simp only [bne_self_eq_false, Bool.false_eq_true, if_false]
    have h1 : ∀ c ∈ (if sh = true then
        sweepRight scan col (w.tape.length - w.pos) w.pos w.tape
        else sweepLeft scan col w.pos w.tape).2.2, P c := by
      split
      · exact sweepRight_all hc _ _ _ hw
      · exact sweepLeft_all hc _ _ hw
    generalize (if sh = true then sweepRight scan col (w.tape.length - w.pos) w.pos w.tape
        else sweepLeft scan col w.pos w.tape) = r at h1 ⊢
    split
    · exact ⟨rfl, h1⟩
    · exact ⟨rfl, h1⟩
  · have hne : (q != w.state) = true := by simpa using hq
    rw [if_pos hne]
    split <;> split <;> exact ⟨rfl, hset⟩

/-! ## Serving -/

/-- `f` answers like `g`, as long as it is asked about colours and states it can know: `Ok` is what
its caches satisfy, `K` and `Q` say which colours and states can be looked up. -/
structure Fetch.Serves {σ : Type} (f : Fetch σ) (g : GetInstr) (Ok : σ → Prop)
    (K : σ → Color → Prop) (Q : σ → State → Prop) : Prop where
  zero : ∀ s, Ok s → K s 0
  ans : ∀ s slot, Ok s → Q s slot.1 → K s slot.2 → (f s slot).1 = g slot
  ok : ∀ s slot, Ok s → Q s slot.1 → K s slot.2 → Ok (f s slot).2
  monoK : ∀ s slot, Ok s → Q s slot.1 → K s slot.2 → ∀ c, K s c → K (f s slot).2 c
  monoQ : ∀ s slot, Ok s → Q s slot.1 → K s slot.2 → ∀ q, Q s q → Q (f s slot).2 q
  gives : ∀ s slot i, Ok s → Q s slot.1 → K s slot.2 → g slot = .ok i →
    K (f s slot).2 i.1 ∧ Q (f s slot).2 i.2.2

theorem Fetch.serves_table {comp : Prog} {S C : Nat} (hC : 0 < C)
    (hw : (GetInstr.ofTable comp).Within S C) :
    (Fetch.ofPure (GetInstr.ofTable comp)).Serves (GetInstr.ofTable comp) (fun _ => True)
      (fun _ c => c < C) (fun _ q => q < S) where
  zero := fun _ _ => hC
  ans := fun _ _ _ _ _ => rfl
  ok := fun _ _ _ _ _ => trivial
  monoK := fun _ _ _ _ _ _ h => h
  monoQ := fun _ _ _ _ _ _ h => h
  gives := fun _ slot i _ _ _ h => by
    obtain ⟨c, sh, q⟩ := i
    exact hw slot c sh q h

theorem Fetch.serves_pure (g : GetInstr) :
    (Fetch.ofPure g).Serves g (fun _ => True) (fun _ _ => True) (fun _ _ => True) where
  zero := fun _ _ => trivial
  ans := fun _ _ _ _ _ => rfl
  ok := fun _ _ _ _ _ => trivial
  monoK := fun _ _ _ _ _ _ h => h
  monoQ := fun _ _ _ _ _ _ h => h
  gives := fun _ _ _ _ _ _ _ => ⟨trivial, trivial⟩

theorem Fetch.serves_pass {σ : Type} {f : Fetch σ} {g : GetInstr} {Ok : σ → Prop}
    {K : σ → Color → Prop} {Q : σ → State → Prop} (h : f.Serves g Ok K Q) :
    (passFetch f).Serves g (fun s => Ok s.1) (fun s => K s.1) (fun s => Q s.1) where
  zero := fun s hs => h.zero s.1 hs
  ans := fun s slot => h.ans s.1 slot
  ok := fun s slot => h.ok s.1 slot
  monoK := fun s slot => h.monoK s.1 slot
  monoQ := fun s slot => h.monoQ s.1 slot
  gives := fun s slot i => h.gives s.1 slot i

theorem winLoopS_spec {σ : Type} {f : Fetch σ} {g : GetInstr} {Ok : σ → Prop}
    {K : σ → Color → Prop} {Q : σ → State → Prop} (h : f.Serves g Ok K Q) :
    ∀ (lim : Nat) (w : Win) (s : σ), Ok s → Q s w.state → (∀ d ∈ w.tape, K s d) →
      (winLoopS f lim w s).1 = winLoop g lim w ∧ Ok (winLoopS f lim w s).2 ∧
      (∀ c, K s c → K (winLoopS f lim w s).2 c) ∧ (∀ q, Q s q → Q (winLoopS f lim w s).2 q) ∧
      ∀ c, winLoop g lim w = .ok c →
        Q (winLoopS f lim w s).2 c.1 ∧ ∀ d ∈ c.2.2, K (winLoopS f lim w s).2 d := by
  intro lim
  induction lim with
  | zero => intro w s hs _ _; exact ⟨rfl, hs, fun _ h => h, fun _ h => h, by simp [winLoop]⟩
  | succ lim ih =>
    intro w s hs hq hk
    have hscan : K s (w.tape.getD w.pos 0) := by
      rw [List.getD]
      cases hg : w.tape[w.pos]? with
      | none => exact h.zero s hs
      | some d => exact hk d (List.mem_of_getElem? hg)
    have a1 := h.ans s (w.state, w.tape.getD w.pos 0) hs hq hscan
    have a2 := h.ok s (w.state, w.tape.getD w.pos 0) hs hq hscan
    have a3 := h.monoK s (w.state, w.tape.getD w.pos 0) hs hq hscan
    have a4 := h.monoQ s (w.state, w.tape.getD w.pos 0) hs hq hscan
    have a5 := fun i => h.gives s (w.state, w.tape.getD w.pos 0) i hs hq hscan
    simp only [winLoopS, winLoop, winBody]
    generalize f s (w.state, w.tape.getD w.pos 0) = fr at a1 a2 a3 a4 a5
    obtain ⟨r, s'⟩ := fr
    simp only at a1 a2 a3 a4 a5
    subst a1
    cases hr : g (w.state, w.tape.getD w.pos 0) with
    | error e => exact ⟨rfl, a2, a3, a4, by simp⟩
    | ok i =>
      obtain ⟨b1, b2⟩ := a5 i hr
      obtain ⟨c1, c2⟩ := winExec_all (P := K s') w (w.tape.getD w.pos 0) i b1
        (fun c hc => a3 c (hk c hc))
      simp only
      cases hx : winExec w (w.tape.getD w.pos 0) i with
      | exit side w' =>
        rw [hx] at c1 c2
        simp only [WOut.win] at c1 c2
        refine ⟨rfl, a2, a3, a4, ?_⟩
        intro c hc
        simp only [Except.ok.injEq] at hc
        subst hc
        exact ⟨by rw [c1]; exact b2, c2⟩
      | next w' =>
        rw [hx] at c1 c2
        simp only [WOut.win] at c1 c2
        obtain ⟨d1, d2, d3, d4, d5⟩ := ih w' s' a2 (by rw [c1]; exact b2) c2
        exact ⟨d1, d2, fun c hc => d3 c (a3 c hc), fun q hq => d4 q (a4 q hq), d5⟩

/-- What a fetch of a macro program does, given that the window can be fetched for. -/
theorem macroFetch_spec {σ : Type} {f : Fetch σ} {g : GetInstr} {Ok : σ → Prop}
    {K : σ → Color → Prop} {Q : σ → State → Prop} (h : f.Serves g Ok K Q) (l : Logic) (s : σ)
    (m : MacroState) (slot : Slot) (hs : Ok s) {c0 : MConfig}
    (hdec : l.deconstruct m.conv slot = .ok c0) (hq : Q s c0.1) (hk : ∀ d ∈ c0.2.2, K s d) :
    (macroFetch f l (s, m) slot).1 = (m.getitem g l slot).map Prod.fst ∧
    Ok (macroFetch f l (s, m) slot).2.1 ∧
    (∀ c, K s c → K (macroFetch f l (s, m) slot).2.1 c) ∧
    (∀ q, Q s q → Q (macroFetch f l (s, m) slot).2.1 q) ∧
    (macroFetch f l (s, m) slot).2.2 =
      (match m.getitem g l slot with | .ok r => r.2 | .error _ => m) ∧
    (m.instrs.lookup slot = none → ∀ i, (m.getitem g l slot).map Prod.fst = .ok i →
      ∃ c, simulate g l.simLim c0 = .ok c ∧ (l.reconstruct m.conv c).1 = i ∧
        Q (macroFetch f l (s, m) slot).2.1 c.1 ∧
        ∀ d ∈ c.2.2, K (macroFetch f l (s, m) slot).2.1 d) := by
  simp only [macroFetch, MacroState.getitem]
  cases hlk : m.instrs.lookup slot with
  | some i => exact ⟨rfl, hs, fun _ h => h, fun _ h => h, rfl, by simp⟩
  | none =>
    simp only [calculateInstr, hdec, simulate]
    obtain ⟨b1, b2, b3, b4, b5⟩ := winLoopS_spec h l.simLim (winStart c0) s hs hq hk
    generalize winLoopS f l.simLim (winStart c0) s = fr at b1 b2 b3 b4 b5
    obtain ⟨r, s'⟩ := fr
    simp only at b1 b2 b3 b4 b5
    subst b1
    cases hr : winLoop g l.simLim (winStart c0) with
    | error e => exact ⟨rfl, b2, b3, b4, rfl, by simp [Except.map]⟩
    | ok c =>
      refine ⟨rfl, b2, b3, b4, rfl, ?_⟩
      intro _ i hi
      obtain ⟨b6, b7⟩ := b5 c hr
      simp only [Except.map, Except.ok.injEq] at hi
      exact ⟨c, rfl, hi, b6, b7⟩

/-! ## Block macros -/

/-- The caches of a block macro on top of a program with caches. -/
structure BlockOk {σ : Type} (g : GetInstr) (Ok : σ → Prop) (K : σ → Color → Prop)
    (Q : σ → State → Prop) (k S C : Nat) (s : σ × MacroState) : Prop where
  base : Ok s.1
  own : s.2.Ok (blockInstr g k S C) C k Prod.fst
  known : ∀ slot i, (slot, i) ∈ s.2.instrs →
    (∀ d ∈ digits C k i.1, K s.1 d) ∧ Q s.1 (i.2.2 / 2)

theorem half_bit (b : Bool) (x : Nat) : (2 * x + b.toNat) / 2 = x := by
  cases b <;> simp; omega

theorem Fetch.serves_block {σ : Type} {f : Fetch σ} {g : GetInstr} {Ok : σ → Prop}
    {K : σ → Color → Prop} {Q : σ → State → Prop} (h : f.Serves g Ok K Q) {k S C : Nat}
    (hw : g.Within S C) (hk : 0 < k) (hC : 0 < C) :
    (macroFetch f (blockLogic k S C)).Serves (blockInstr g k S C) (BlockOk g Ok K Q k S C)
      (fun s c => s.2.conv.Known c ∧ ∀ d ∈ digits C k c, K s.1 d) (fun s q => Q s.1 (q / 2)) := by
  have main : ∀ (s : σ) (m : MacroState) (slot : Slot), BlockOk g Ok K Q k S C (s, m) →
      Q s (slot.1 / 2) → m.conv.Known slot.2 ∧ (∀ d ∈ digits C k slot.2, K s d) →
      let r := macroFetch f (blockLogic k S C) (s, m) slot
      r.1 = blockInstr g k S C slot ∧ BlockOk g Ok K Q k S C r.2 ∧
      (∀ c, m.conv.Known c ∧ (∀ d ∈ digits C k c, K s d) →
        r.2.2.conv.Known c ∧ ∀ d ∈ digits C k c, K r.2.1 d) ∧
      (∀ q, Q s q → Q r.2.1 q) ∧
      ∀ i, blockInstr g k S C slot = .ok i →
        (r.2.2.conv.Known i.1 ∧ ∀ d ∈ digits C k i.1, K r.2.1 d) ∧ Q r.2.1 (i.2.2 / 2) := by
    intro s m slot hok hq hkn r
    have hf := blockLogic_faithful (k := k) hw hk hC
    have hdec : (blockLogic k S C).deconstruct m.conv slot
        = .ok (slot.1 / 2, slot.1 % 2 == 1, digits C k slot.2) := by
      simp only [blockLogic, hok.own.conv.toTape_eq hC hkn.1]
    obtain ⟨a1, a2, a3, a4, a5, a6⟩ := macroFetch_spec h (blockLogic k S C) s m slot hok.base hdec
      hq hkn.2
    change r.1 = _ at a1
    change Ok r.2.1 at a2
    change ∀ c, K s c → K r.2.1 c at a3
    change ∀ q, Q s q → Q r.2.1 q at a4
    change r.2.2 = _ at a5
    cases hp : blockInstr g k S C slot with
    | error e =>
      rw [MacroState.getitem_error hf hok.own trivial hkn.1 hp] at a1 a5
      simp only [Except.map] at a1 a5
      refine ⟨a1, ⟨a2, by rw [a5]; exact hok.own, ?_⟩, ?_, a4, by simp⟩
      · intro sl i hi
        rw [a5] at hi
        obtain ⟨b1, b2⟩ := hok.known sl i hi
        exact ⟨fun d hd => a3 d (b1 d hd), a4 _ b2⟩
      · rintro c ⟨c1, c2⟩
        exact ⟨by rw [a5]; exact c1, fun d hd => a3 d (c2 d hd)⟩
    | ok i =>
      obtain ⟨m', g1, g2, g3, g4⟩ := MacroState.getitem_ok hf hok.own trivial hkn.1 hp
      rw [g1] at a1 a5 a6
      simp only [Except.map] at a1 a5 a6
      have hout : (∀ d ∈ digits C k i.1, K r.2.1 d) ∧ Q r.2.1 (i.2.2 / 2) := by
        cases hlk : m.instrs.lookup slot with
        | some i' =>
          obtain ⟨b1, b2⟩ := hok.known slot i' (mem_of_lookup hlk)
          have : i' = i := by
            have := (hok.own.instrs slot i' (mem_of_lookup hlk)).1
            rw [hp] at this
            cases this; rfl
          subst this
          exact ⟨fun d hd => a3 d (b1 d hd), a4 _ b2⟩
        | none =>
          obtain ⟨c, hc, hi, b1, b2⟩ := a6 hlk i rfl
          simp only [blockInstr] at hp
          have hc' : simulate g (S * k * C ^ k)
              (slot.1 / 2, slot.1 % 2 == 1, digits C k slot.2) = .ok c := hc
          rw [hc'] at hp
          simp only [Except.ok.injEq] at hp
          have hcells := (winLoop_cells hw _ _ _ hc (digits_lt hC k slot.2)).2
          have hlen := (winLoop_ok 0 (fun _ => 0) _ _ _ hc
            (winStart_pos _ (by simpa using hk))).1
          have hlen : c.2.2.length = k := by rw [hlen]; simp [winStart]
          rw [← hp]
          refine ⟨?_, ?_⟩
          · have := digits_tapeColor hC hcells
            rw [hlen] at this
            rw [this]
            exact b2
          · simp only [half_bit]
            exact b1
      refine ⟨a1, ⟨a2, by rw [a5]; exact g2, ?_⟩, ?_, a4, ?_⟩
      · intro sl j hj
        have hj' : (sl, j) ∈ m'.instrs := by rw [← a5]; exact hj
        have hmem : (sl, j) ∈ m.instrs ∨ (sl, j) = (slot, i) := by
          simp only [MacroState.getitem] at g1
          cases hlk : m.instrs.lookup slot with
          | some i' =>
            rw [hlk] at g1
            simp only [Except.ok.injEq, Prod.mk.injEq] at g1
            rw [← g1.2] at hj'
            exact .inl hj'
          | none =>
            rw [hlk] at g1
            simp only at g1
            split at g1
            · cases g1
            · simp only [Except.ok.injEq, Prod.mk.injEq] at g1
              rw [← g1.2, g1.1] at hj'
              rcases List.mem_cons.mp hj' with hj' | hj'
              · exact .inr hj'
              · exact .inl hj'
        rcases hmem with hmem | hmem
        · obtain ⟨b1, b2⟩ := hok.known sl j hmem
          exact ⟨fun d hd => a3 d (b1 d hd), a4 _ b2⟩
        · simp only [Prod.mk.injEq] at hmem
          obtain ⟨rfl, rfl⟩ := hmem
          exact hout
      · rintro c ⟨c1, c2⟩
        exact ⟨by rw [a5]; exact g4 c c1, fun d hd => a3 d (c2 d hd)⟩
      · intro i' hi'
        simp only [Except.ok.injEq] at hi'
        subst hi'
        exact ⟨⟨by rw [a5]; exact g3, hout.1⟩, hout.2⟩
  constructor
  · rintro ⟨s, m⟩ hok
    refine ⟨hok.own.conv.zero, fun d hd => ?_⟩
    have : d = 0 := by
      simp only [digits, List.mem_map] at hd
      obtain ⟨i, _, hi⟩ := hd
      rw [← hi]; simp
    rw [this]
    exact h.zero s hok.base
  · rintro ⟨s, m⟩ slot hok hq hkn
    exact (main s m slot hok hq hkn).1
  · rintro ⟨s, m⟩ slot hok hq hkn
    exact (main s m slot hok hq hkn).2.1
  · rintro ⟨s, m⟩ slot hok hq hkn
    exact (main s m slot hok hq hkn).2.2.1
  · rintro ⟨s, m⟩ slot hok hq hkn q hq'
    exact (main s m slot hok hq hkn).2.2.2.1 _ hq'
  · rintro ⟨s, m⟩ slot i hok hq hkn hi
    exact (main s m slot hok hq hkn).2.2.2.2 i hi

/-! ## Backsymbol macros -/

/-- The caches of a backsymbol macro on top of a program with caches. -/
structure BackCachesOk {σ : Type} (g : GetInstr) (Ok : σ → Prop) (K : σ → Color → Prop)
    (Q : σ → State → Prop) (k S C : Nat) (s : σ × MacroState) : Prop where
  base : Ok s.1
  own : s.2.Ok (backInstr g k S C) C k (fun i => i.2.2 / 2 % C ^ k)
  known : ∀ slot i, (slot, i) ∈ s.2.instrs → (i.1 < C ∧ K s.1 i.1) ∧ Q s.1 (i.2.2 / 2 / C ^ k) ∧
    ∀ d ∈ digits C k (i.2.2 / 2 % C ^ k), K s.1 d

theorem bit_half (b : Bool) (x : Nat) : (b.toNat + 2 * x) / 2 = x := by
  cases b <;> simp; omega

theorem Fetch.serves_back {σ : Type} {f : Fetch σ} {g : GetInstr} {Ok : σ → Prop}
    {K : σ → Color → Prop} {Q : σ → State → Prop} (h : f.Serves g Ok K Q) {k S C : Nat}
    (hw : g.Within S C) (hC : 0 < C) :
    (macroFetch f (backsymLogic k S C)).Serves (backInstr g k S C) (BackCachesOk g Ok K Q k S C)
      (fun s c => c < C ∧ K s.1 c)
      (fun s q => s.2.conv.Known (q / 2 % C ^ k) ∧ Q s.1 (q / 2 / C ^ k) ∧
        ∀ d ∈ digits C k (q / 2 % C ^ k), K s.1 d) := by
  have main : ∀ (s : σ) (m : MacroState) (slot : Slot), BackCachesOk g Ok K Q k S C (s, m) →
      (m.conv.Known (slot.1 / 2 % C ^ k) ∧ Q s (slot.1 / 2 / C ^ k) ∧
        ∀ d ∈ digits C k (slot.1 / 2 % C ^ k), K s d) → slot.2 < C ∧ K s slot.2 →
      let r := macroFetch f (backsymLogic k S C) (s, m) slot
      r.1 = backInstr g k S C slot ∧ BackCachesOk g Ok K Q k S C r.2 ∧
      (∀ c, K s c → K r.2.1 c) ∧ (∀ q, Q s q → Q r.2.1 q) ∧
      (∀ c, m.conv.Known c → r.2.2.conv.Known c) ∧
      ∀ i, backInstr g k S C slot = .ok i → (i.1 < C ∧ K r.2.1 i.1) ∧
        r.2.2.conv.Known (i.2.2 / 2 % C ^ k) ∧ Q r.2.1 (i.2.2 / 2 / C ^ k) ∧
        ∀ d ∈ digits C k (i.2.2 / 2 % C ^ k), K r.2.1 d := by
    intro s m slot hok hq hkn r
    have hf := backsymLogic_faithful (k := k) hw hC
    have hdec : (backsymLogic k S C).deconstruct m.conv slot = .ok (backWindow k C slot) := by
      simp only [backsymLogic, hok.own.conv.toTape_eq hC hq.1, backWindow]
    have hwq : Q s (backWindow k C slot).1 := hq.2.1
    have hwk : ∀ d ∈ (backWindow k C slot).2.2, K s d := by
      simp only [backWindow]
      split
      · intro d hd
        rcases List.mem_cons.mp hd with rfl | hd
        · exact hkn.2
        · exact hq.2.2 d hd
      · intro d hd
        rcases List.mem_append.mp hd with hd | hd
        · exact hq.2.2 d hd
        · rw [List.mem_singleton.mp hd]; exact hkn.2
    obtain ⟨a1, a2, a3, a4, a5, a6⟩ := macroFetch_spec h (backsymLogic k S C) s m slot hok.base
      hdec hwq hwk
    change r.1 = _ at a1
    change Ok r.2.1 at a2
    change ∀ c, K s c → K r.2.1 c at a3
    change ∀ q, Q s q → Q r.2.1 q at a4
    change r.2.2 = _ at a5
    cases hp : backInstr g k S C slot with
    | error e =>
      rw [MacroState.getitem_error hf hok.own hkn.1 hq.1 hp] at a1 a5
      simp only [Except.map] at a1 a5
      refine ⟨a1, ⟨a2, by rw [a5]; exact hok.own, ?_⟩, a3, a4, ?_, by simp⟩
      · intro sl i hi
        rw [a5] at hi
        obtain ⟨b1, b2, b3⟩ := hok.known sl i hi
        exact ⟨⟨b1.1, a3 _ b1.2⟩, a4 _ b2, fun d hd => a3 d (b3 d hd)⟩
      · intro c hc
        rw [a5]; exact hc
    | ok i =>
      obtain ⟨m', g1, g2, g3, g4⟩ := MacroState.getitem_ok hf hok.own hkn.1 hq.1 hp
      rw [g1] at a1 a5 a6
      simp only [Except.map] at a1 a5 a6
      have hout : (i.1 < C ∧ K r.2.1 i.1) ∧ Q r.2.1 (i.2.2 / 2 / C ^ k) ∧
          ∀ d ∈ digits C k (i.2.2 / 2 % C ^ k), K r.2.1 d := by
        cases hlk : m.instrs.lookup slot with
        | some i' =>
          obtain ⟨b1, b2, b3⟩ := hok.known slot i' (mem_of_lookup hlk)
          have : i' = i := by
            have := (hok.own.instrs slot i' (mem_of_lookup hlk)).1
            rw [hp] at this
            cases this; rfl
          subst this
          exact ⟨⟨b1.1, a3 _ b1.2⟩, a4 _ b2, fun d hd => a3 d (b3 d hd)⟩
        | none =>
          obtain ⟨c, hc, _, b1, b2⟩ := a6 hlk i rfl
          have hlt1 := (backInstr_within hw hC hkn.1 hp).1
          simp only [backInstr] at hp
          have hc' : simulate g (2 * S * C ^ k * C) (backWindow k C slot) = .ok c := hc
          rw [hc'] at hp
          simp only [Except.ok.injEq] at hp
          have hlw := backWindow_length k C slot
          have hcells := (winLoop_cells hw _ _ _ hc (backWindow_cells hC slot hkn.1)).2
          have hlen := (winLoop_ok 0 (fun _ => 0) _ _ _ hc (winStart_pos _ (by omega))).1
          have hlen : c.2.2.length = k + 1 := by rw [hlen]; simpa [winStart] using hlw
          set back := (if (!c.2.1) = true then c.2.2.dropLast else c.2.2.tail) with hback
          have hl2 : back.length = k := by rw [hback]; split <;> simp [hlen]
          have hmem : ∀ d ∈ back, d ∈ c.2.2 := by
            rw [hback]; split
            · exact fun d hd => List.mem_of_mem_dropLast hd
            · exact fun d hd => List.mem_of_mem_tail hd
          have hc2 : ∀ d ∈ back, d < C := fun d hd => hcells d (hmem d hd)
          have hlt := tapeColor_lt hc2
          rw [hl2] at hlt
          have e1 : i.2.2 / 2 / C ^ k = c.1 := by
            rw [← hp]
            simp only [bit_half]
            rw [Nat.add_mul_div_right _ _ (Nat.pow_pos hC), Nat.div_eq_of_lt hlt, Nat.zero_add]
          have e2 : i.2.2 / 2 % C ^ k = tapeColor C back := by
            rw [← hp]
            simp only [bit_half]
            rw [Nat.add_mul_mod_self_right, Nat.mod_eq_of_lt hlt]
          refine ⟨⟨hlt1, ?_⟩, by rw [e1]; exact b1, ?_⟩
          · rw [← hp]
            have hne : c.2.2 ≠ [] := by intro h0; rw [h0] at hlen; simp at hlen
            simp only
            split
            · rw [List.getLastD_eq_getLast?, List.getLast?_eq_some_getLast hne]
              exact b2 _ (List.getLast_mem hne)
            · rw [List.headD_eq_head?_getD, List.head?_eq_some_head hne]
              exact b2 _ (List.head_mem hne)
          · rw [e2]
            have := digits_tapeColor hC hc2
            rw [hl2] at this
            rw [this]
            exact fun d hd => b2 d (hmem d hd)
      refine ⟨a1, ⟨a2, by rw [a5]; exact g2, ?_⟩, a3, a4, ?_, ?_⟩
      · intro sl j hj
        have hj' : (sl, j) ∈ m'.instrs := by rw [← a5]; exact hj
        have hmem : (sl, j) ∈ m.instrs ∨ (sl, j) = (slot, i) := by
          simp only [MacroState.getitem] at g1
          cases hlk : m.instrs.lookup slot with
          | some i' =>
            rw [hlk] at g1
            simp only [Except.ok.injEq, Prod.mk.injEq] at g1
            rw [← g1.2] at hj'
            exact .inl hj'
          | none =>
            rw [hlk] at g1
            simp only at g1
            split at g1
            · cases g1
            · simp only [Except.ok.injEq, Prod.mk.injEq] at g1
              rw [← g1.2, g1.1] at hj'
              rcases List.mem_cons.mp hj' with hj' | hj'
              · exact .inr hj'
              · exact .inl hj'
        rcases hmem with hmem | hmem
        · obtain ⟨b1, b2, b3⟩ := hok.known sl j hmem
          exact ⟨⟨b1.1, a3 _ b1.2⟩, a4 _ b2, fun d hd => a3 d (b3 d hd)⟩
        · simp only [Prod.mk.injEq] at hmem
          obtain ⟨rfl, rfl⟩ := hmem
          exact hout
      · intro c hc
        rw [a5]; exact g4 c hc
      · intro i' hi'
        simp only [Except.ok.injEq] at hi'
        subst hi'
        exact ⟨hout.1, by rw [a5]; exact g3, hout.2⟩
  constructor
  · rintro ⟨s, m⟩ hok
    exact ⟨hC, h.zero s hok.base⟩
  · rintro ⟨s, m⟩ slot hok hq hkn
    exact (main s m slot hok hq hkn).1
  · rintro ⟨s, m⟩ slot hok hq hkn
    exact (main s m slot hok hq hkn).2.1
  · rintro ⟨s, m⟩ slot hok hq hkn c hc
    exact ⟨hc.1, (main s m slot hok hq hkn).2.2.1 c hc.2⟩
  · rintro ⟨s, m⟩ slot hok hq hkn q hq'
    obtain ⟨_, _, b1, b2, b3, _⟩ := main s m slot hok hq hkn
    exact ⟨b3 _ hq'.1, b2 _ hq'.2.1, fun d hd => b1 d (hq'.2.2 d hd)⟩
  · rintro ⟨s, m⟩ slot i hok hq hkn hi
    exact (main s m slot hok hq hkn).2.2.2.2.2 i hi

end BB
