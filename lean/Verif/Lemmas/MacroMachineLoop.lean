import Verif.Lemmas.MacroMachineRun

/-! # Runs of program objects with caches are runs without: the prover and the loop -/

namespace BB

/-- Two results, one with caches that were `s` before and one without caches: the same outcome, and
the caches are still right and know at least as much. -/
structure Sync {σ α : Type} (Ok : σ → Prop) (K : σ → Color → Prop) (Q : σ → State → Prop) (s : σ)
    (x : α × σ) (y : α × Unit) : Prop where
  same : x.1 = y.1
  ok : Ok x.2
  color : ∀ c, K s c → K x.2 c
  state : ∀ q, Q s q → Q x.2 q

theorem Sync.trans {σ α β : Type} {Ok : σ → Prop} {K : σ → Color → Prop} {Q : σ → State → Prop}
    {s : σ} {x : α × σ} {y : α × Unit} {x' : β × σ} {y' : β × Unit} (h : Sync Ok K Q s x y)
    (h' : Sync Ok K Q x.2 x' y') : Sync Ok K Q s x' y' :=
  ⟨h'.same, h'.ok, fun c hc => h'.color c (h.color c hc), fun q hq => h'.state q (h.state q hq)⟩

/-- The same change of the outcome on both sides. -/
theorem Sync.map {σ α β : Type} {Ok : σ → Prop} {K : σ → Color → Prop} {Q : σ → State → Prop}
    {s : σ} {x : α × σ} {y : α × Unit} (h : Sync Ok K Q s x y) (b : β) (u : Unit) :
    Sync Ok K Q s (b, x.2) (b, u) := ⟨rfl, h.ok, h.color, h.state⟩

theorem Sync.pure {σ α : Type} {Ok : σ → Prop} {K : σ → Color → Prop} {Q : σ → State → Prop}
    {s : σ} (h : Ok s) (a : α) (u : Unit) : Sync Ok K Q s (a, s) (a, u) :=
  ⟨rfl, h, fun _ h => h, fun _ h => h⟩

variable {σ : Type} {f : Fetch σ} {g : GetInstr} {Ok : σ → Prop} {K : σ → Color → Prop}
  {Q : σ → State → Prop}

theorem Fetch.Serves.sync (hf : f.Serves g Ok K Q) {s : σ} {slot : Slot} (hs : Ok s)
    (hq : Q s slot.1) (hk : K s slot.2) : Sync Ok K Q s (f s slot) (Fetch.ofPure g () slot) :=
  ⟨hf.ans s slot hs hq hk, hf.ok s slot hs hq hk, hf.monoK s slot hs hq hk,
    hf.monoQ s slot hs hq hk⟩

theorem runSimulatorM_sync {τ : Type} {T : SimTape τ} {col : (Color → Prop) → τ → Prop}
    (hf : f.Serves g Ok K Q) (hT : T.Colored col) (pr : Prover) :
    ∀ (n : Nat) (q : State) (t : τ) (s : σ), Ok s → Q s q → col (K s) t →
      Sync Ok K Q s (Prover.runSimulatorM T f pr n q t s)
        (Prover.runSimulatorM T (Fetch.ofPure g) pr n q t ()) ∧
      ∀ q' t', (Prover.runSimulatorM T f pr n q t s).1 = .ok (q', t') →
        col (K (Prover.runSimulatorM T f pr n q t s).2) t' := by
  intro n
  induction n with
  | zero =>
    intro q t s hs hq ht
    refine ⟨Sync.pure hs _ _, ?_⟩
    intro q' t' h
    simp only [Prover.runSimulatorM, Except.ok.injEq, Prod.mk.injEq] at h
    rw [← h.2]; exact ht
  | succ n ih =>
    intro q t s hs hq ht
    simp only [Prover.runSimulatorM]
    cases pr.getRule q (T.signature t) with
    | none =>
      have hk := hT.scan _ t ht
      have hsync := hf.sync (slot := (q, T.scan t)) hs hq hk
      have hgives := hf.gives s (q, T.scan t)
      have hsame := hsync.same
      generalize f s (q, T.scan t) = x at hsync hsame hgives
      obtain ⟨r, s'⟩ := x
      simp only [Fetch.ofPure] at hsame hgives ⊢
      rw [← hsame] at hgives ⊢
      cases r with
      | error e =>
        cases e with
        | keyError k =>
          refine ⟨hsync.map _ _, ?_⟩
          intro q' t' h
          simp only [Except.ok.injEq, Prod.mk.injEq] at h
          rw [← h.2]
          exact hT.mono _ _ _ hsync.color ht
        | infLoop => exact ⟨hsync.map _ _, fun q' t' h => by simp at h⟩
        | assertion => exact ⟨hsync.map _ _, fun q' t' h => by simp at h⟩
      | ok i =>
        obtain ⟨c, sh, nq⟩ := i
        obtain ⟨hc, hnq⟩ := hgives (c, sh, nq) hs hq hk rfl
        have hok := hsync.ok
        have ht' : col (K s') (T.step t sh c (q == nq)) :=
          hT.step _ _ _ _ _ (hf.zero s' hok) hc (hT.mono _ _ _ hsync.color ht)
        obtain ⟨h1, h2⟩ := ih nq (T.step t sh c (q == nq)) s' hok hnq ht'
        exact ⟨hsync.trans h1, h2⟩
    | some rule =>
      simp only
      cases ha : applyRule T.toIndexTape rule t with
      | error e => exact ⟨Sync.pure hs _ _, fun q' t' h => by simp at h⟩
      | ok r =>
        have ht1 := hT.applyRule ha ht
        obtain ⟨o, t1⟩ := r
        cases o with
        | some _ => exact ih q t1 s hs hq ht1
        | none =>
          dsimp only
          have hk := hT.scan _ t1 ht1
          have hsync := hf.sync (slot := (q, T.scan t1)) hs hq hk
          have hgives := hf.gives s (q, T.scan t1)
          have hsame := hsync.same
          generalize f s (q, T.scan t1) = x at hsync hsame hgives
          obtain ⟨r, s'⟩ := x
          simp only [Fetch.ofPure] at hsame hgives ⊢
          rw [← hsame] at hgives ⊢
          cases r with
          | error e =>
            cases e with
            | keyError k =>
              refine ⟨hsync.map _ _, ?_⟩
              intro q' t' h
              simp only [Except.ok.injEq, Prod.mk.injEq] at h
              rw [← h.2]
              exact hT.mono _ _ _ hsync.color ht1
            | infLoop => exact ⟨hsync.map _ _, fun q' t' h => by simp at h⟩
            | assertion => exact ⟨hsync.map _ _, fun q' t' h => by simp at h⟩
          | ok i =>
            obtain ⟨c, sh, nq⟩ := i
            obtain ⟨hc, hnq⟩ := hgives (c, sh, nq) hs hq hk rfl
            have hok := hsync.ok
            have ht' : col (K s') (T.step t1 sh c (q == nq)) :=
              hT.step _ _ _ _ _ (hf.zero s' hok) hc (hT.mono _ _ _ hsync.color ht1)
            obtain ⟨h1, h2⟩ := ih nq (T.step t1 sh c (q == nq)) s' hok hnq ht'
            exact ⟨hsync.trans h1, h2⟩

theorem getMinSigM_sync (hf : f.Serves g Ok K Q) (pr : Prover) (n : Nat) (q : State)
    (t : EnumTape) (sig : Sig) (s : σ) (hs : Ok s) (hq : Q s q) (ht : t.Colors (K s)) :
    Sync Ok K Q s (Prover.getMinSigM f pr n q t sig s)
      (Prover.getMinSigM (Fetch.ofPure g) pr n q t sig ()) := by
  have h := (runSimulatorM_sync hf EnumTape.colored pr n q t s hs hq ht).1
  unfold Prover.getMinSigM
  generalize Prover.runSimulatorM EnumTape.simTape f pr n q t s = x at h
  generalize Prover.runSimulatorM EnumTape.simTape (Fetch.ofPure g) pr n q t () = y at h
  have hsame := h.same
  obtain ⟨r, s'⟩ := x
  obtain ⟨r', u⟩ := y
  simp only at hsame
  subst hsame
  cases r with
  | error e => exact h.map _ _
  | ok r => exact h.map _ _

theorem roundM_sync (hf : f.Serves g Ok K Q) (pr : Prover) (q : State) (sig : Sig) (d : Int)
    (t : Tape) (s : σ) (hs : Ok s) (hq : Q s q) (ht : t.Colors (K s)) :
    Sync Ok K Q s (Prover.roundM f pr q sig d t s)
      (Prover.roundM (Fetch.ofPure g) pr q sig d t ()) ∧
    ∀ t', (Prover.roundM f pr q sig d t s).1 = .ok (some t') →
      t'.Colors (K (Prover.roundM f pr q sig d t s).2) := by
  obtain ⟨h, hcol⟩ := runSimulatorM_sync hf Tape.colored pr d.toNat q t s hs hq ht
  unfold Prover.roundM
  generalize Prover.runSimulatorM Tape.simTape f pr d.toNat q t s = x at h hcol
  generalize Prover.runSimulatorM Tape.simTape (Fetch.ofPure g) pr d.toNat q t () = y at h
  have hsame := h.same
  obtain ⟨r, s'⟩ := x
  obtain ⟨r', u⟩ := y
  simp only at hsame
  subst hsame
  cases r with
  | error e => exact ⟨h.map _ _, fun t' h => by simp at h⟩
  | ok r =>
    obtain ⟨q', t1⟩ := r
    refine ⟨h.map _ _, ?_⟩
    intro t' ht'
    simp only at ht'
    split at ht'
    · simp at ht'
    · simp only [Except.ok.injEq, Option.some.injEq] at ht'
      rw [← ht']
      exact hcol q' t1 rfl

theorem proveRuleM_sync (hf : f.Serves g Ok K Q) (pr : Prover) (q : State) (t : Tape) (sig : Sig)
    (ds : Deltas) (s : σ) (hs : Ok s) (hq : Q s q) (ht : t.Colors (K s)) :
    Sync Ok K Q s (Prover.proveRuleM f pr q t sig ds s)
      (Prover.proveRuleM (Fetch.ofPure g) pr q t sig ds ()) := by
  unfold Prover.proveRuleM
  obtain ⟨h1, hcol1⟩ := roundM_sync hf pr q sig ds.1 t s hs hq ht
  generalize Prover.roundM f pr q sig ds.1 t s = x at h1 hcol1
  generalize Prover.roundM (Fetch.ofPure g) pr q sig ds.1 t () = y at h1
  have hsame1 := h1.same
  obtain ⟨r, s1⟩ := x
  obtain ⟨r', u⟩ := y
  simp only at hsame1
  subst hsame1
  cases r with
  | error e => exact h1.map _ _
  | ok r =>
    cases r with
    | none => exact h1.map _ _
    | some t1 =>
      simp only
      have ht1 := hcol1 t1 rfl
      have hq1 := h1.state q hq
      refine h1.trans ?_
      obtain ⟨h2, hcol2⟩ := roundM_sync hf pr q sig ds.2.1 t1 s1 h1.ok hq1 ht1
      generalize Prover.roundM f pr q sig ds.2.1 t1 s1 = x at h2 hcol2
      generalize Prover.roundM (Fetch.ofPure g) pr q sig ds.2.1 t1 () = y at h2
      have hsame2 := h2.same
      obtain ⟨r, s2⟩ := x
      obtain ⟨r', u⟩ := y
      simp only at hsame2
      subst hsame2
      cases r with
      | error e => exact h2.map _ _
      | ok r =>
        cases r with
        | none => exact h2.map _ _
        | some t2 =>
          simp only
          have ht2 := hcol2 t2 rfl
          have hq2 := h2.state q hq1
          refine h2.trans ?_
          obtain ⟨h3, hcol3⟩ := roundM_sync hf pr q sig ds.2.2 t2 s2 h2.ok hq2 ht2
          generalize Prover.roundM f pr q sig ds.2.2 t2 s2 = x at h3 hcol3
          generalize Prover.roundM (Fetch.ofPure g) pr q sig ds.2.2 t2 () = y at h3
          have hsame3 := h3.same
          obtain ⟨r, s3⟩ := x
          obtain ⟨r', u⟩ := y
          simp only at hsame3
          subst hsame3
          cases r with
          | error e => exact h3.map _ _
          | ok r =>
            cases r with
            | none => exact h3.map _ _
            | some t3 =>
              simp only
              have ht3 := hcol3 t3 rfl
              have hq3 := h3.state q hq2
              refine h3.trans ?_
              have hs3 := h3.ok
              cases makeRule t.counts t1.counts t2.counts t3.counts with
              | error e => exact Sync.pure hs3 _ _
              | ok r =>
                cases r with
                | none => exact Sync.pure hs3 _ _
                | some rule => exact Sync.pure hs3 _ _

theorem tryRuleM_sync (hf : f.Serves g Ok K Q) (pr : Prover) (s : σ) (cycle : Nat) (q : State)
    (t : Tape) (hs : Ok s) (hq : Q s q) (ht : t.Colors (K s)) :
    let x := Prover.tryRuleM f pr s cycle q t
    let y := Prover.tryRuleM (Fetch.ofPure g) pr () cycle q t
    x.1.1 = y.1.1 ∧ x.2 = y.2 ∧ Ok x.1.2 ∧ (∀ c, K s c → K x.1.2 c) ∧ ∀ q, Q s q → Q x.1.2 q := by
  have triv : Ok s ∧ (∀ c, K s c → K s c) ∧ ∀ q, Q s q → Q s q :=
    ⟨hs, fun _ h => h, fun _ h => h⟩
  unfold Prover.tryRuleM
  dsimp only
  cases pr.getRule q t.signature with
  | some known => exact ⟨rfl, rfl, triv⟩
  | none =>
    dsimp only
    cases pr.configs.lookup t.signature with
    | none =>
      dsimp only
      by_cases hc : pr.configs.length > 100000
      · simp only [if_pos hc]; exact ⟨trivial, trivial, triv⟩
      · simp only [if_neg hc]; exact ⟨trivial, trivial, triv⟩
    | some past =>
      dsimp only
      cases past.nextDeltas q cycle with
      | error e => exact ⟨rfl, rfl, triv⟩
      | ok x =>
        obtain ⟨deltas, past⟩ := x
        cases deltas with
        | none => exact ⟨rfl, rfl, triv⟩
        | some ds =>
          dsimp only
          have h := proveRuleM_sync hf
            { pr with configs := assocInsert pr.configs t.signature past } q t t.signature ds s
            hs hq ht
          generalize Prover.proveRuleM f
            { pr with configs := assocInsert pr.configs t.signature past } q t t.signature ds s
            = x at h
          generalize Prover.proveRuleM (Fetch.ofPure g)
            { pr with configs := assocInsert pr.configs t.signature past } q t t.signature ds ()
            = y at h
          have heq := h.same
          obtain ⟨r, s'⟩ := x
          obtain ⟨r', u⟩ := y
          simp only at heq
          subst heq
          cases r with
          | error e => exact ⟨rfl, rfl, h.ok, h.color, h.state⟩
          | ok r =>
            cases r with
            | none => exact ⟨rfl, rfl, h.ok, h.color, h.state⟩
            | some rule =>
              dsimp only
              generalize ({
                rules := pr.rules,
                configs := assocInsert (assocInsert pr.configs t.signature past) t.signature
                  (past.delete q) } : Prover) = pr2
              have hk := getMinSigM_sync hf pr2 ds.1.toNat q t.toEnum t.signature s' h.ok
                (h.state q hq) (Tape.toEnum_colors (Tape.colored.mono _ _ _ h.color ht))
              generalize Prover.getMinSigM f pr2 ds.1.toNat q t.toEnum t.signature s' = x at hk
              generalize Prover.getMinSigM (Fetch.ofPure g) pr2 ds.1.toNat q t.toEnum t.signature ()
                = y at hk
              have heq := hk.same
              obtain ⟨r, s2⟩ := x
              obtain ⟨r', u⟩ := y
              simp only at heq
              subst heq
              have hh := h.trans hk
              cases r with
              | error e => exact ⟨rfl, rfl, hh.ok, hh.color, hh.state⟩
              | ok r => exact ⟨rfl, rfl, hh.ok, hh.color, hh.state⟩

/-- The state of a run without caches. -/
def RState.plain (s : RState (Prover × σ)) : RState (Prover × Unit) :=
  ⟨(s.prover.1, ()), s.tape, s.blanks, s.step, s.state, s.rulapp⟩

theorem RState.out_plain (s : RState (Prover × σ)) (cycle : Nat) (r : RunRes) :
    s.plain.out cycle r = s.out cycle r := rfl

/-- What the caches of a running machine satisfy. -/
structure RState.Known (Ok : σ → Prop) (K : σ → Color → Prop) (Q : σ → State → Prop)
    (s : RState (Prover × σ)) : Prop where
  ok : Ok s.prover.2
  state : Q s.prover.2 s.state
  tape : s.tape.Colors (K s.prover.2)

theorem blankCheck_plain (color : Color) (s : RState (Prover × σ)) :
    (blankCheck color s).1.plain = (blankCheck color s.plain).1 ∧
    (blankCheck color s).2 = (blankCheck color s.plain).2 ∧
    (blankCheck color s).1.prover = s.prover ∧ (blankCheck color s).1.tape = s.tape ∧
    (blankCheck color s).1.state = s.state := by
  unfold blankCheck
  by_cases h1 : (color == 0 && s.tape.blank) = true
  · have h1' : (color == 0 && s.plain.tape.blank) = true := h1
    simp only [if_pos h1, if_pos h1']
    by_cases h2 : (s.blanks.lookup s.state).isSome = true
    · have h2' : (s.plain.blanks.lookup s.plain.state).isSome = true := h2
      simp only [if_pos h2, if_pos h2']
      exact ⟨trivial, trivial, trivial, trivial, trivial⟩
    · have h2' : ¬ (s.plain.blanks.lookup s.plain.state).isSome = true := h2
      simp only [if_neg h2, if_neg h2']
      exact ⟨rfl, rfl, trivial, trivial, trivial⟩
  · have h1' : ¬ (color == 0 && s.plain.tape.blank) = true := h1
    simp only [if_neg h1, if_neg h1']
    exact ⟨trivial, trivial, trivial, trivial, trivial⟩

theorem turnM_sync (hf : f.Serves g Ok K Q) (s : RState (Prover × σ)) (hs : s.Known Ok K Q) :
    (turnM f.beside s).1.plain = (turnM (Fetch.ofPure g).beside s.plain).1 ∧
    (turnM f.beside s).2 = (turnM (Fetch.ofPure g).beside s.plain).2 ∧
    ((turnM f.beside s).2 = none → (turnM f.beside s).1.Known Ok K Q) := by
  obtain ⟨⟨pr, c⟩, tape, blanks, step, q, rulapp⟩ := s
  obtain ⟨hok, hq, ht⟩ := hs
  simp only at hok hq ht
  have hsync := hf.sync (slot := (q, tape.scan)) hok hq ht.1
  have hgives := hf.gives c (q, tape.scan)
  have hsame := hsync.same
  unfold turnM Fetch.beside RState.plain
  dsimp only
  generalize f c (q, tape.scan) = x at hsync hsame hgives
  obtain ⟨r, c'⟩ := x
  simp only [Fetch.ofPure] at hsame hgives ⊢
  rw [← hsame] at hgives ⊢
  cases r with
  | error e => exact ⟨rfl, rfl, fun h => by simp at h⟩
  | ok i =>
    obtain ⟨co, sh, nq⟩ := i
    obtain ⟨hc, hnq⟩ := hgives (co, sh, nq) hok hq ht.1 rfl
    dsimp only
    by_cases hed : (q == nq && tape.atEdge sh) = true
    · simp only [if_pos hed]
      exact ⟨trivial, trivial, fun h => by simp at h⟩
    · simp only [if_neg hed]
      have ht' : (Py.step tape sh co (q == nq)).1.Colors (K c') :=
        Py.step_colors sh _ (hf.zero c' hsync.ok) hc (Tape.colored.mono _ _ _ hsync.color ht)
      obtain ⟨b1, b2, b3, b4, b5⟩ := blankCheck_plain co
        (⟨(pr, c'), (Py.step tape sh co (q == nq)).1, blanks,
          if step != -1 then step + (Py.step tape sh co (q == nq)).2 else step, nq, rulapp⟩ :
          RState (Prover × σ))
      refine ⟨b1, by rw [b2]; rfl, fun _ => ⟨?_, ?_, ?_⟩⟩
      · rw [b3]; exact hsync.ok
      · rw [b3, b5]; exact hnq
      · rw [b3, b4]; exact ht'

theorem runLoopM_sync (hf : f.Serves g Ok K Q) :
    ∀ (fuel cycle : Nat) (s : RState (Prover × σ)), s.Known Ok K Q →
      runLoopM (proverOf f) f.beside fuel cycle s =
        runLoopM (proverOf (Fetch.ofPure g)) (Fetch.ofPure g).beside fuel cycle s.plain := by
  intro fuel
  induction fuel with
  | zero => intro cycle s _; rfl
  | succ fuel ih =>
    intro cycle s hs
    have go : ∀ s : RState (Prover × σ), s.Known Ok K Q →
        orStop cycle (fun s => runLoopM (proverOf f) f.beside fuel (cycle + 1) s)
          (turnM f.beside s) =
        orStop cycle (fun s => runLoopM (proverOf (Fetch.ofPure g)) (Fetch.ofPure g).beside fuel
          (cycle + 1) s) (turnM (Fetch.ofPure g).beside s.plain) := by
      intro s hs
      obtain ⟨h1, h2, h3⟩ := turnM_sync hf s hs
      generalize turnM f.beside s = x at h1 h2 h3
      generalize turnM (Fetch.ofPure g).beside s.plain = y at h1 h2
      obtain ⟨s1, r1⟩ := x
      obtain ⟨s2, r2⟩ := y
      simp only at h1 h2 h3
      subst h1 h2
      cases r1 with
      | some r => rfl
      | none => exact ih (cycle + 1) s1 (h3 rfl)
    obtain ⟨⟨pr, c⟩, tape, blanks, step, q, rulapp⟩ := s
    obtain ⟨hok, hq, ht⟩ := hs
    simp only at hok hq ht
    obtain ⟨t1, t2, t3, t4, t5⟩ := tryRuleM_sync hf pr c cycle q tape hok hq ht
    unfold runLoopM proverOf RState.plain
    dsimp only
    generalize Prover.tryRuleM f pr c cycle q tape = x at t1 t2 t3 t4 t5
    generalize Prover.tryRuleM (Fetch.ofPure g) pr () cycle q tape = y at t1 t2
    obtain ⟨⟨pr1, c1⟩, r1⟩ := x
    obtain ⟨⟨pr2, u⟩, r2⟩ := y
    simp only at t1 t2 t3 t4 t5
    subst t1 t2
    have hk : (⟨(pr1, c1), tape, blanks, step, q, rulapp⟩ : RState (Prover × σ)).Known Ok K Q :=
      ⟨t3, t5 q hq, Tape.colored.mono _ _ _ t4 ht⟩
    have hgo := go _ hk
    cases r1 with
    | error e =>
      cases e with
      | fetch e => cases e <;> first | exact hgo | rfl
      | py e => cases e <;> first | exact hgo | rfl
    | ok o =>
      cases o with
      | none => exact hgo
      | some rule =>
        dsimp only
        cases ha : applyRule Tape.indexTape rule tape with
        | error e => cases e <;> rfl
        | ok r =>
          have hta := Tape.colored.applyRule (T := Tape.simTape) ha hk.tape
          obtain ⟨o, t'⟩ := r
          cases o with
          | none => exact go ⟨(pr1, c1), t', blanks, step, q, rulapp⟩ ⟨hk.ok, hk.state, hta⟩
          | some times =>
            exact ih (cycle + 1) ⟨(pr1, c1), t', blanks, -1, q, rulapp + times⟩
              ⟨hk.ok, hk.state, hta⟩

theorem runM_sync (hf : f.Serves g Ok K Q) (s : σ) (hs : Ok s) (hq : Q s 0) (lim : Nat) :
    Machine.runM f s lim = Machine.runM (Fetch.ofPure g) () lim :=
  runLoopM_sync hf lim 0 ⟨(.init, s), Tape.init, [], 0, 0, 0⟩
    ⟨hs, hq, ⟨hf.zero s hs, by simp [Tape.init], by simp [Tape.init]⟩⟩

end BB
