import Verif.Props.MinSig
import Verif.Props.Tape
import Verif.Props.PastConfigs
import Verif.Props.Rules
import Verif.Lemmas.RsProver

/-!
# C47: what has been seen before a rule is proposed

When `try_rule` proposes a new rule for a state and tape, three consecutive stretches of the machine's
own run, starting from this tape, have come back to the state with the tape's colours in place, and
the rule tells how the counts changed.
-/

namespace BB

/-- A stretch of `n` moves that comes back to the state, and to a tape with the same scanned colour
that has on each side the old tape's colours next to the head. -/
structure Returns (p : Prog) (q : State) (sig t t' : Tape) (n : Nat) : Prop where
  canon : t'.Canonical
  run : ∀ pos, ∃ pos', runFor p n (t.cfg q pos) = some (t'.cfg q pos')
  scan : t'.scan = sig.scan
  colors : ∀ s, (sig.span s).map Block.color <+: (t'.span s).map Block.color

/-- The rules known to a prover are right: where one is applied, the machine itself gets there. -/
def Prover.Holds (pr : Prover) (p : Prog) : Prop :=
  ∀ q t rule times t', t.Canonical → pr.getRule q t.signature = some rule →
    applyRule Tape.indexTape rule t = .ok (some times, t') →
    t'.Canonical ∧ ∃ m, 1 ≤ m ∧ ∀ pos, ∃ pos', runFor p m (t.cfg q pos) = some (t'.cfg q pos')

theorem Prover.holds_of_empty {pr : Prover} (h : pr.rules = []) (p : Prog) : pr.Holds p := by
  intro q t rule times t' _ hg
  rw [getRule_empty h] at hg
  simp at hg

theorem canonical_counts {t : Tape} (h : t.Canonical) : ∀ b ∈ t.lspan ++ t.rspan, 1 ≤ b.count := by
  intro b hb
  rcases List.mem_append.mp hb with hb | hb
  · exact h.l.posCounts b hb
  · exact h.r.posCounts b hb

theorem runSimulator_run {p : Prog} {pr : Prover} (hr : pr.Holds p) :
    ∀ (n : Nat) (q : State) (t : Tape), t.Canonical → ∀ q' t',
      pr.runSimulator Tape.simTape p n q t = .ok (some q', t') →
      t'.Canonical ∧ ∃ m, n ≤ m ∧ ∀ pos, ∃ pos', runFor p m (t.cfg q pos) = some (t'.cfg q' pos') := by
  intro n
  induction n with
  | zero =>
    intro q t ht q' t' h
    simp only [Prover.runSimulator, Except.ok.injEq, Prod.mk.injEq, Option.some.injEq] at h
    obtain ⟨rfl, rfl⟩ := h
    exact ⟨ht, 0, Nat.le_refl _, fun pos => ⟨pos, rfl⟩⟩
  | succ n ih =>
    intro q t ht q' t' h
    have hplain : (match p (q, t.scan) with
        | none => (.ok (none, t) : Except Err (Option State × Tape))
        | some (color, shift, nextState) =>
          pr.runSimulator Tape.simTape p n nextState (Py.step t shift color (q == nextState)).1)
          = .ok (some q', t') →
        t'.Canonical ∧
          ∃ m, n + 1 ≤ m ∧ ∀ pos, ∃ pos', runFor p m (t.cfg q pos) = some (t'.cfg q' pos') := by
      intro h
      cases hc : p (q, t.scan) with
      | none => rw [hc] at h; simp at h
      | some i =>
        obtain ⟨color, shift, next⟩ := i
        rw [hc] at h
        simp only at h
        have hcan : (Py.step t shift color (q == next)).1.Canonical := by
          rw [py_step_eq_rs_step t ht.l.posCounts ht.r.posCounts]
          exact ht.rsStep _ _ _
        obtain ⟨h1, m, h2, h3⟩ := ih _ _ hcan _ _ h
        refine ⟨h1, (Py.step t shift color (q == next)).2 + m, ?_, ?_⟩
        · have := (C01_py_step p q next t shift color (q == next) (canonical_counts ht) hc
            (fun hs => (beq_iff_eq.mp hs).symm) 0).1
          omega
        · intro pos
          have := (C01_py_step p q next t shift color (q == next) (canonical_counts ht) hc
            (fun hs => (beq_iff_eq.mp hs).symm) pos).2
          obtain ⟨pos', h4⟩ := h3 (pos + disp shift (Py.step t shift color (q == next)).2)
          exact ⟨pos', runFor_trans this h4⟩
    simp only [Prover.runSimulator] at h
    cases hg : pr.getRule q (Tape.simTape.signature t) with
    | none => rw [hg] at h; exact hplain h
    | some rule =>
      rw [hg] at h
      simp only at h
      cases ha : applyRule Tape.simTape.toIndexTape rule t with
      | error e => rw [ha] at h; simp at h
      | ok r =>
        obtain ⟨o, t1⟩ := r
        rw [ha] at h
        cases o with
        | none =>
          have : t1 = t := applyRule_none_tape ha
          subst this
          exact hplain h
        | some times =>
          simp only at h
          obtain ⟨h1, m1, h2, h3⟩ := hr q t rule times t1 ht hg ha
          obtain ⟨h4, m2, h5, h6⟩ := ih _ _ h1 _ _ h
          refine ⟨h4, m1 + m2, by omega, fun pos => ?_⟩
          obtain ⟨p1, e1⟩ := h3 pos
          obtain ⟨p2, e2⟩ := h6 p1
          exact ⟨p2, runFor_trans e1 e2⟩

theorem map_fst_signature (t : Tape) (s : Bool) :
    (t.signature.span s).map Prod.fst = (t.span s).map Block.color := by
  cases s <;> simp [Sig.span, Tape.signature, Tape.span, sigSpan, Function.comp_def]

theorem round_returns {p : Prog} {pr : Prover} (hr : pr.Holds p) {q : State} {sig t t' : Tape}
    {d : Int} (ht : t.Canonical) (h : pr.round p q sig.signature d t = .ok (some t')) :
    ∃ n, d.toNat ≤ n ∧ Returns p q sig t t' n := by
  unfold Prover.round at h
  split at h
  · simp at h
  · rename_i q' tags hs
    split at h
    · simp at h
    · rename_i hc
      simp only [Except.ok.injEq, Option.some.injEq] at h
      subst h
      simp only [Bool.or_eq_true, bne_iff_ne, ne_eq, Bool.not_eq_eq_eq_not, Bool.not_true, not_or,
        Bool.not_eq_false, not_not] at hc
      obtain ⟨rfl, hc⟩ := hc
      obtain ⟨h1, n, h2, h3⟩ := runSimulator_run hr _ _ _ ht _ _ hs
      have := (C38_compatible _ _).mp hc
      refine ⟨n, h2, h1, h3, this.1, fun s => ?_⟩
      rw [← map_fst_signature]
      exact this.2 s


/-- The counts of one block in four tapes. -/
def FourCounts (t0 t1 t2 t3 : Tape) (i : Index) (a b c d : Nat) : Prop :=
  ((t0.span i.1)[i.2]?).map Block.count = some a ∧ ((t1.span i.1)[i.2]?).map Block.count = some b ∧
  ((t2.span i.1)[i.2]?).map Block.count = some c ∧ ((t3.span i.1)[i.2]?).map Block.count = some d

theorem column_iff (t0 t1 t2 t3 : Tape) (i : Index) (x y z w : Int) :
    Column t0.counts t1.counts t2.counts t3.counts i x y z w ↔
      ∃ a b c d : Nat, x = a ∧ y = b ∧ z = c ∧ w = d ∧ FourCounts t0 t1 t2 t3 i a b c d := by
  have key : ∀ (t : Tape) (x : Int), (if i.1 then t.counts.2 else t.counts.1)[i.2]? = some x ↔
      ∃ a : Nat, x = a ∧ ((t.span i.1)[i.2]?).map Block.count = some a := by
    intro t x
    have : (if i.1 then t.counts.2 else t.counts.1) = (t.span i.1).map fun b => (b.count : Int) := by
      cases i.1 <;> rfl
    rw [this, List.getElem?_map]
    cases (t.span i.1)[i.2]? with
    | none => simp
    | some b => simp [eq_comm]
  simp only [Column, key, FourCounts]
  constructor
  · rintro ⟨⟨a, rfl, ha⟩, ⟨b, rfl, hb⟩, ⟨c, rfl, hc⟩, d, rfl, hd⟩
    exact ⟨a, b, c, d, rfl, rfl, rfl, rfl, ha, hb, hc, hd⟩
  · rintro ⟨a, b, c, d, rfl, rfl, rfl, rfl, ha, hb, hc, hd⟩
    exact ⟨⟨a, rfl, ha⟩, ⟨b, rfl, hb⟩, ⟨c, rfl, hc⟩, d, rfl, hd⟩

/-- Three stretches, one after the other. -/
structure ThreeReturns (p : Prog) (q : State) (t t1 t2 t3 : Tape) (n1 n2 n3 : Nat) : Prop where
  first : Returns p q t t t1 n1
  second : Returns p q t t1 t2 n2
  third : Returns p q t t2 t3 n3

/-- Every block of the tape is there in all four. -/
theorem ThreeReturns.blocks {p : Prog} {q : State} {t t1 t2 t3 : Tape} {n1 n2 n3 : Nat}
    (h : ThreeReturns p q t t1 t2 t3 n1 n2 n3) (s : Bool) (i : Nat) (hi : i < (t.span s).length) :
    ∃ a b c d, FourCounts t t1 t2 t3 (s, i) a b c d := by
  have key : ∀ {u : Tape}, (t.span s).map Block.color <+: (u.span s).map Block.color →
      ∃ x, ((u.span s)[i]?).map Block.count = some x := by
    intro u hu
    have hl := hu.length_le
    simp only [List.length_map] at hl
    rw [List.getElem?_eq_getElem (show i < (u.span s).length by omega)]
    exact ⟨_, rfl⟩
  obtain ⟨a, ha⟩ := key (List.prefix_refl ((t.span s).map Block.color))
  obtain ⟨b, hb⟩ := key (h.first.colors s)
  obtain ⟨c, hc⟩ := key (h.second.colors s)
  obtain ⟨d, hd⟩ := key (h.third.colors s)
  exact ⟨a, b, c, d, ha, hb, hc, hd⟩

/-- All cycles a prover has on record lie before `cycle`. -/
def Prover.Before (pr : Prover) (cycle : Nat) : Prop :=
  ∀ sig past, pr.configs.lookup sig = some past → ∀ q ps, past.lookup q = some ps →
    ps.length ≤ 4 ∧ ∀ c ∈ ps, c < (cycle : Int)

/-- The first predicted gap is positive when the last sighting is in the past. -/
theorem nextDeltas_pos {past past' : PastConfigs} {q : State} {cycle : Int} {x y z : Int}
    (hb : ∀ ps, past.lookup q = some ps → ps.length ≤ 4 ∧ ∀ c ∈ ps, c < cycle)
    (h : past.nextDeltas q cycle = .ok (some (x, y, z), past')) : 0 < x := by
  unfold PastConfigs.nextDeltas at h
  cases hl : past.lookup q with
  | none =>
    rw [hl] at h
    simp [PastConfig.nextDeltas] at h
  | some ps =>
    rw [hl] at h
    simp only [Option.getD_some] at h
    obtain ⟨h4, hc⟩ := hb ps hl
    split at h
    · simp at h
    · rename_i r ps' hn
      simp only [Except.ok.injEq, Prod.mk.injEq] at h
      obtain ⟨rfl, _⟩ := h
      obtain ⟨e, d, c, b, i, p, δ, rfl, _, hi1, hi4, hf, hx, hy, hz⟩ := C21_deltas ps ps' cycle x y z h4 hn
      have hba := hc b (by simp)
      obtain ⟨f1, f2, f3, f4, f5, f6, f7⟩ := hf
      rcases (show i = 1 ∨ i = 2 ∨ i = 3 ∨ i = 4 by omega) with rfl | rfl | rfl | rfl <;> omega


/-- Three rounds of the replay. -/
theorem proveRule_rounds {p : Prog} {pr : Prover} {q : State} {t : Tape} {ds : Deltas}
    (hr : pr.Holds p) (ht : t.Canonical) (r : Except Err (Option (Rule × MinSig)))
    (h : pr.proveRule p q t t.signature ds = r)
    (hres : r = .error .infiniteRule ∨ ∃ x, r = .ok (some x)) :
    (∃ t', pr.round p q t.signature ds.1 t' = .error .infiniteRule) ∨
    (∃ t', pr.round p q t.signature ds.2.1 t' = .error .infiniteRule) ∨
    (∃ t', pr.round p q t.signature ds.2.2 t' = .error .infiniteRule) ∨
    (pr.getMinSig p ds.1.toNat q t.toEnum t.signature = .error .infiniteRule) ∨
    ∃ t1 t2 t3 n1 n2 n3, ds.1.toNat ≤ n1 ∧ ThreeReturns p q t t1 t2 t3 n1 n2 n3 ∧
      ((r = .error .infiniteRule ∧
        makeRule t.counts t1.counts t2.counts t3.counts = .error .infiniteRule) ∨
      ∃ rule m, r = .ok (some (rule, m)) ∧
        makeRule t.counts t1.counts t2.counts t3.counts = .ok (some rule)) := by
  obtain ⟨d1, d2, d3⟩ := ds
  unfold Prover.proveRule at h
  simp only at h ⊢
  cases h1 : pr.round p q t.signature d1 t with
  | error e =>
    rw [h1, bind_error] at h
    subst h
    rcases hres with h | ⟨x, h⟩
    · simp only [Except.error.injEq] at h; subst h; exact .inl ⟨t, h1⟩
    · simp at h
  | ok o1 =>
    rw [h1, bind_ok] at h
    cases o1 with
    | none => simp only at h; subst h; simp at hres
    | some t1 =>
      simp only at h
      obtain ⟨n1, g1, r1⟩ := round_returns (sig := t) hr ht h1
      cases h2 : pr.round p q t.signature d2 t1 with
      | error e =>
        rw [h2, bind_error] at h
        subst h
        rcases hres with h | ⟨x, h⟩
        · simp only [Except.error.injEq] at h; subst h; exact .inr (.inl ⟨t1, h2⟩)
        · simp at h
      | ok o2 =>
        rw [h2, bind_ok] at h
        cases o2 with
        | none => simp only at h; subst h; simp at hres
        | some t2 =>
          simp only at h
          obtain ⟨n2, g2, r2⟩ := round_returns (sig := t) hr r1.canon h2
          cases h3 : pr.round p q t.signature d3 t2 with
          | error e =>
            rw [h3, bind_error] at h
            subst h
            rcases hres with h | ⟨x, h⟩
            · simp only [Except.error.injEq] at h; subst h; exact .inr (.inr (.inl ⟨t2, h3⟩))
            · simp at h
          | ok o3 =>
            rw [h3, bind_ok] at h
            cases o3 with
            | none => simp only at h; subst h; simp at hres
            | some t3 =>
              simp only at h
              obtain ⟨n3, g3, r3⟩ := round_returns (sig := t) hr r2.canon h3
              have h3r : ThreeReturns p q t t1 t2 t3 n1 n2 n3 := ⟨r1, r2, r3⟩
              cases hm : makeRule t.counts t1.counts t2.counts t3.counts with
              | error e =>
                rw [hm, bind_error] at h
                subst h
                rcases hres with h | ⟨x, h⟩
                · simp only [Except.error.injEq] at h
                  subst h
                  exact .inr (.inr (.inr (.inr ⟨t1, t2, t3, n1, n2, n3, g1, h3r, .inl ⟨rfl, hm⟩⟩)))
                · simp at h
              | ok om =>
                rw [hm, bind_ok] at h
                cases om with
                | none => simp only at h; subst h; simp at hres
                | some rule =>
                  simp only at h
                  split at h
                  · subst h; simp at hres
                  · cases hs : pr.getMinSig p d1.toNat q t.toEnum t.signature with
                    | error e =>
                      rw [hs, bind_error] at h
                      subst h
                      rcases hres with h | ⟨x, h⟩
                      · simp only [Except.error.injEq] at h
                        subst h
                        exact .inr (.inr (.inr (.inl rfl)))
                      · simp at h
                    | ok m =>
                      rw [hs, bind_ok] at h
                      subst h
                      exact .inr (.inr (.inr (.inr ⟨t1, t2, t3, n1, n2, n3, g1, h3r,
                        .inr ⟨rule, m, rfl, hm⟩⟩)))


/-! ### A replay does not end with `InfiniteRule` itself -/

theorem bind_ne {α β : Type} {e0 : Err} {x : Except Err α} {f : α → Except Err β}
    (h1 : x ≠ .error e0) (h2 : ∀ a, x = .ok a → f a ≠ .error e0) : (x >>= f) ≠ .error e0 := by
  cases x with
  | error e => rw [bind_error]; intro h; simp only [Except.error.injEq] at h; exact h1 (by rw [h])
  | ok a => rw [bind_ok]; exact h2 a rfl

theorem pyDivmod_ne (a b : Int) : pyDivmod a b ≠ .error .infiniteRule := by
  unfold pyDivmod
  split <;> simp

/-- Reading and writing a tape does not raise `InfiniteRule`. -/
structure IndexTape.Plain {τ : Type} (T : IndexTape τ) : Prop where
  get : ∀ t i, T.get t i ≠ .error .infiniteRule
  set : ∀ t i v, T.set t i v ≠ .error .infiniteRule

theorem tape_plain : Tape.indexTape.Plain where
  get t i := by
    refine bind_ne ?_ (by simp)
    unfold Tape.getCount
    split <;> simp
  set t i v := by
    show Tape.setCount t i v ≠ _
    unfold Tape.setCount
    split
    · simp
    · split <;> simp

theorem enumTape_plain : EnumTape.simTape.toIndexTape.Plain where
  get t i := by
    show EnumTape.getCount t i ≠ _
    unfold EnumTape.getCount
    split <;> simp
  set t i v := by
    show EnumTape.setCount t i v ≠ _
    unfold EnumTape.setCount
    split
    · simp
    · split <;> simp

theorem countAppsFrom_plain {τ : Type} {T : IndexTape τ} (hT : T.Plain) (rule : Rule) :
    ∀ (t : τ) (apps : Option (Int × Index × Int)),
      countAppsFrom T rule t apps ≠ .error .infiniteRule := by
  induction rule with
  | nil => intro t apps; simp [countAppsFrom]
  | cons e rest ih =>
    intro t apps
    obtain ⟨pos, op⟩ := e
    cases op with
    | mult m a => exact ih t apps
    | plus d =>
      simp only [countAppsFrom]
      split
      · exact ih t apps
      · refine bind_ne (hT.get _ _) fun r _ => ?_
        obtain ⟨count, t'⟩ := r
        simp only
        split
        · simp
        · exact bind_ne (pyDivmod_ne _ _) fun r _ => ih _ _

theorem applyRule_plain {τ : Type} {T : IndexTape τ} (hT : T.Plain) (rule : Rule) (t : τ) :
    applyRule T rule t ≠ .error .infiniteRule := by
  have hfrom : ∀ (rule : Rule) (x : Int) (y : Index) (z : Int) (t : τ),
      applyRuleFrom T x y z rule t ≠ .error .infiniteRule := by
    intro rule
    induction rule with
    | nil => intro x y z t; simp [applyRuleFrom]
    | cons e rest ih =>
      intro x y z t
      obtain ⟨pos, op⟩ := e
      simp only [applyRuleFrom]
      refine bind_ne (hT.get _ _) fun r _ => ?_
      obtain ⟨count, t'⟩ := r
      refine bind_ne ?_ fun v _ => bind_ne (hT.set _ _ _) fun u _ => ih x y z u
      cases op with
      | plus d =>
        simp only [opResult]
        split
        · simp
        · split <;> simp
      | mult m a =>
        simp only [opResult, applyMult]
        split
        · simp
        · exact bind_ne (pyDivmod_ne _ _) (by simp)
  unfold applyRule
  refine bind_ne (countAppsFrom_plain hT rule t none) fun r _ => ?_
  obtain ⟨apps, t'⟩ := r
  cases apps with
  | none => simp
  | some a =>
    obtain ⟨x, y, z⟩ := a
    exact bind_ne (hfrom _ _ _ _ _) (by simp)

theorem runSimulator_plain {τ : Type} {T : SimTape τ} (hT : T.toIndexTape.Plain) (p : Prog)
    (pr : Prover) (n : Nat) : ∀ (q : State) (t : τ),
      pr.runSimulator T p n q t ≠ .error .infiniteRule := by
  induction n with
  | zero => intro q t; simp [Prover.runSimulator]
  | succ n ih =>
    intro q t
    simp only [Prover.runSimulator]
    have hplain : ∀ t : τ, (match p (q, T.scan t) with
        | none => (.ok (none, t) : Except Err (Option State × τ))
        | some (color, shift, nextState) =>
          pr.runSimulator T p n nextState (T.step t shift color (q == nextState)))
        ≠ .error .infiniteRule := by
      intro t
      cases p (q, T.scan t) with
      | none => simp
      | some i => exact ih _ _
    cases pr.getRule q (T.signature t) with
    | none => exact hplain t
    | some rule =>
      simp only
      cases ha : applyRule T.toIndexTape rule t with
      | error e =>
        simp only
        intro h
        simp only [Except.error.injEq] at h
        subst h
        exact applyRule_plain hT rule t ha
      | ok r =>
        obtain ⟨o, t'⟩ := r
        cases o with
        | none => exact hplain t'
        | some x => exact ih _ _

theorem round_plain (p : Prog) (pr : Prover) (q : State) (g : Sig) (d : Int) (t : Tape) :
    pr.round p q g d t ≠ .error .infiniteRule := by
  unfold Prover.round
  cases hs : pr.runSimulator Tape.simTape p d.toNat q t with
  | error e =>
    simp only
    intro h
    simp only [Except.error.injEq] at h
    subst h
    exact runSimulator_plain tape_plain p pr _ q t hs
  | ok r => simp only; split <;> simp

theorem getMinSig_plain (p : Prog) (pr : Prover) (n : Nat) (q : State) (e : EnumTape) (g : Sig) :
    pr.getMinSig p n q e g ≠ .error .infiniteRule := by
  unfold Prover.getMinSig
  cases hs : pr.runSimulator EnumTape.simTape p n q e with
  | error e =>
    simp only
    intro h
    simp only [Except.error.injEq] at h
    subst h
    exact runSimulator_plain enumTape_plain p pr _ q _ hs
  | ok r => simp

/-- Where a newly proposed rule or an `InfiniteRule` comes from. -/
theorem tryRule_seen {p : Prog} {pr : Prover} {q : State} {t : Tape} {cycle : Nat}
    (hr : pr.Holds p) (ht : t.Canonical) (hb : pr.Before cycle)
    (hnew : pr.getRule q t.signature = none) (r : Except Err (Option Rule))
    (h : (pr.tryRule p cycle q t).2 = r)
    (hres : r = .error .infiniteRule ∨ ∃ x, r = .ok (some x)) :
    ∃ t1 t2 t3 n1 n2 n3, 1 ≤ n1 ∧ ThreeReturns p q t t1 t2 t3 n1 n2 n3 ∧
      ((r = .error .infiniteRule ∧
        makeRule t.counts t1.counts t2.counts t3.counts = .error .infiniteRule) ∨
      ∃ rule, r = .ok (some rule) ∧
        makeRule t.counts t1.counts t2.counts t3.counts = .ok (some rule)) := by
  unfold Prover.tryRule at h
  simp only [hnew] at h
  cases hl : pr.configs.lookup t.signature with
  | none =>
    rw [hl] at h
    simp only at h
    split at h <;> (subst h; simp at hres)
  | some past =>
    rw [hl] at h
    simp only at h
    cases hd : past.nextDeltas q cycle with
    | error e => rw [hd] at h; simp only at h; subst h; simp at hres
    | ok x =>
      obtain ⟨deltas, past'⟩ := x
      rw [hd] at h
      cases deltas with
      | none => simp only at h; subst h; simp at hres
      | some ds =>
        simp only at h
        have hpos : 0 < ds.1 := nextDeltas_pos (x := ds.1) (y := ds.2.1) (z := ds.2.2)
          (hb _ _ hl q) hd
        have hr' : ({ pr with configs := assocInsert pr.configs t.signature past' } : Prover).Holds p :=
          hr
        generalize ({ pr with configs := assocInsert pr.configs t.signature past' } : Prover) = pr' at h hr'
        cases hp : pr'.proveRule p q t t.signature ds with
        | error e =>
          rw [hp] at h
          simp only at h
          subst h
          simp only [Except.error.injEq, reduceCtorEq, exists_false, or_false] at hres
          subst hres
          rcases proveRule_rounds hr' ht _ hp (.inl rfl) with ⟨_, h⟩ | ⟨_, h⟩ | ⟨_, h⟩ | h | h
          · exact absurd h (round_plain _ _ _ _ _ _)
          · exact absurd h (round_plain _ _ _ _ _ _)
          · exact absurd h (round_plain _ _ _ _ _ _)
          · exact absurd h (getMinSig_plain _ _ _ _ _ _)
          · obtain ⟨t1, t2, t3, n1, n2, n3, g1, h3, ⟨_, hm⟩ | ⟨_, _, hm, _⟩⟩ := h
            · exact ⟨t1, t2, t3, n1, n2, n3, by omega, h3, .inl ⟨rfl, hm⟩⟩
            · simp at hm
        | ok o =>
          rw [hp] at h
          cases o with
          | none => simp only at h; subst h; simp at hres
          | some x =>
            obtain ⟨rule, m⟩ := x
            simp only at h
            subst h
            rcases proveRule_rounds hr' ht _ hp (.inr ⟨_, rfl⟩) with ⟨_, h⟩ | ⟨_, h⟩ | ⟨_, h⟩ | h | h
            · exact absurd h (round_plain _ _ _ _ _ _)
            · exact absurd h (round_plain _ _ _ _ _ _)
            · exact absurd h (round_plain _ _ _ _ _ _)
            · exact absurd h (getMinSig_plain _ _ _ _ _ _)
            · obtain ⟨t1, t2, t3, n1, n2, n3, g1, h3, ⟨hm, _⟩ | ⟨rule', m', hm, hk⟩⟩ := h
              · simp at hm
              · simp only [Except.ok.injEq, Option.some.injEq, Prod.mk.injEq] at hm
                obtain ⟨rfl, rfl⟩ := hm
                exact ⟨t1, t2, t3, n1, n2, n3, by omega, h3, .inr ⟨_, rfl, hk⟩⟩


theorem makeRule_entry {k1 k2 k3 k4 : Counts} {rule : Rule}
    (h : makeRule k1 k2 k3 k4 = .ok (some rule)) (i : Index) (op : Op) (hm : (i, op) ∈ rule) :
    ∃ a b c d, Column k1 k2 k3 k4 i a b c d ∧ calculateDiff a b c d = .ok (some op) := by
  unfold makeRule at h
  cases hl : makeRuleSide false 0 k1.1 k2.1 k3.1 k4.1 with
  | error e => rw [hl, bind_error] at h; simp at h
  | ok l =>
    rw [hl, bind_ok] at h
    cases l with
    | none => simp at h
    | some left =>
      simp only at h
      cases hr : makeRuleSide true 0 k1.2 k2.2 k3.2 k4.2 with
      | error e => rw [hr, bind_error] at h; simp at h
      | ok r =>
        rw [hr, bind_ok] at h
        cases r with
        | none => simp at h
        | some right =>
          simp only at h
          split at h
          · simp at h
          · simp only [Except.ok.injEq, Option.some.injEq] at h
            subst h
            exact ((makeRule_sides ((makeRuleSide_spec _ _ _ _ _ _).1 _ hl)
              ((makeRuleSide_spec _ _ _ _ _ _).1 _ hr)).1 i op).mp hm

theorem half_of_cells {u v : Tape} {pos : Int} (h : u.cells pos = v.cells pos) (s : Bool) :
    half (u.span s) = half (v.span s) := by
  have : u.rt = v.rt := RT.at_inj h
  simp only [Tape.rt, RT.mk.injEq] at this
  cases s
  · exact this.1
  · exact this.2.2

/-- **C47 (a new rule).**  When `try_rule` proposes a rule that it did not know, the machine itself,
started from this tape, comes back three times in a row to the state with the tape's colours in
place.  The rule has an entry for exactly the blocks whose four counts are not all equal, one each;
an additive entry is what the count changed by in each of the three stretches, a multiplicative one
tells the first change; and some count decreases. -/
theorem C47_rule (p : Prog) (pr : Prover) (cycle : Nat) (q : State) (t : Tape) (rule : Rule)
    (hr : pr.Holds p) (ht : t.Canonical) (hb : pr.Before cycle)
    (hnew : pr.getRule q t.signature = none)
    (h : (pr.tryRule p cycle q t).2 = .ok (some rule)) :
    ∃ t1 t2 t3 n1 n2 n3, 1 ≤ n1 ∧ 1 ≤ n2 ∧ 1 ≤ n3 ∧ ThreeReturns p q t t1 t2 t3 n1 n2 n3 ∧
      (∀ i a b c d, FourCounts t t1 t2 t3 i a b c d →
        (i ∉ rule.map Prod.fst ↔ a = b ∧ b = c ∧ c = d) ∧
        (∀ x, (i, Op.plus x) ∈ rule → (b : Int) = a + x ∧ (c : Int) = b + x ∧ (d : Int) = c + x) ∧
        (∀ m x, (i, Op.mult m x) ∈ rule → (b : Int) = a * m + x)) ∧
      (∀ i ∈ rule.map Prod.fst, ∃ a b c d, FourCounts t t1 t2 t3 i a b c d) ∧
      (rule.map Prod.fst).Nodup ∧ rule.Decreases := by
  obtain ⟨t1, t2, t3, n1, n2, n3, h1, h3, ⟨hm, _⟩ | ⟨rule', hm, hk⟩⟩ :=
    tryRule_seen hr ht hb hnew _ h (.inr ⟨_, rfl⟩)
  · simp at hm
  simp only [Except.ok.injEq, Option.some.injEq] at hm
  subst hm
  obtain ⟨k1, k2, k3, k4⟩ := C19_rule hk
  have hentry : ∀ i op, (i, op) ∈ rule → ∃ a b c d : Nat, FourCounts t t1 t2 t3 i a b c d ∧
      calculateDiff a b c d = .ok (some op) := by
    intro i op hm
    obtain ⟨a, b, c, d, hc, hd⟩ := makeRule_entry hk i op hm
    obtain ⟨a', b', c', d', rfl, rfl, rfl, rfl, hf⟩ := (column_iff _ _ _ _ _ _ _ _ _).mp hc
    exact ⟨a', b', c', d', hf, hd⟩
  have huniq : ∀ {i a b c d a' b' c' d'}, FourCounts t t1 t2 t3 i a b c d →
      FourCounts t t1 t2 t3 i a' b' c' d' → a = a' ∧ b = b' ∧ c = c' ∧ d = d' := by
    rintro i a b c d a' b' c' d' ⟨e1, e2, e3, e4⟩ ⟨f1, f2, f3, f4⟩
    rw [e1] at f1; rw [e2] at f2; rw [e3] at f3; rw [e4] at f4
    simp only [Option.some.injEq] at f1 f2 f3 f4
    exact ⟨f1, f2, f3, f4⟩
  have hpos : 1 ≤ n2 ∧ 1 ≤ n3 := by
    obtain ⟨i, x, hm, hx⟩ := k4
    obtain ⟨a, b, c, d, hf, hd⟩ := hentry _ _ hm
    have := (C18_calculate_diff_partial a b c d).2.1 x hd
    simp only [Op.once] at this
    have hne : ∀ {u v : Tape} {n : Nat}, Returns p q t u v n → u.Canonical →
        u.span i.1 ≠ v.span i.1 → 1 ≤ n := by
      intro u v n hret hu hne
      by_contra hn
      obtain rfl : n = 0 := by omega
      obtain ⟨pos', hrun⟩ := hret.run 0
      simp only [runFor, Option.some.injEq, Tape.cfg, Cfg.mk.injEq, true_and] at hrun
      obtain ⟨rfl, hcells⟩ := hrun
      apply hne
      have hh : half (u.span i.1) = half (v.span i.1) := half_of_cells hcells i.1
      exact (hu.span i.1).half_inj (hret.canon.span i.1) hh
    refine ⟨hne h3.second h3.first.canon ?_, hne h3.third h3.second.canon ?_⟩
    · intro he
      have e2 := hf.2.1
      rw [he, hf.2.2.1] at e2
      simp only [Option.some.injEq] at e2
      omega
    · intro he
      have e2 := hf.2.2.1
      rw [he, hf.2.2.2] at e2
      simp only [Option.some.injEq] at e2
      omega
  refine ⟨t1, t2, t3, n1, n2, n3, h1, hpos.1, hpos.2, h3, ?_, ?_, k3, k4⟩
  · intro i a b c d hf
    refine ⟨?_, ?_, ?_⟩
    · have := k1 i
      constructor
      · intro hn
        by_contra hne
        apply hn
        rw [this]
        refine ⟨a, b, c, d, (column_iff _ _ _ _ _ _ _ _ _).mpr ⟨a, b, c, d, rfl, rfl, rfl, rfl, hf⟩, ?_⟩
        intro ⟨x1, x2, x3⟩
        exact hne ⟨by omega, by omega, by omega⟩
      · rintro ⟨rfl, rfl, rfl⟩ hn
        rw [this] at hn
        obtain ⟨x, y, z, w, hc, hne⟩ := hn
        obtain ⟨a', b', c', d', rfl, rfl, rfl, rfl, hf'⟩ := (column_iff _ _ _ _ _ _ _ _ _).mp hc
        obtain ⟨rfl, rfl, rfl, rfl⟩ := huniq hf hf'
        exact hne ⟨rfl, rfl, rfl⟩
    · intro x hm
      obtain ⟨a', b', c', d', hf', hd⟩ := hentry _ _ hm
      obtain ⟨rfl, rfl, rfl, rfl⟩ := huniq hf hf'
      have := (C18_calculate_diff_partial a b c d).2.1 x hd
      simp only [Op.once] at this
      omega
    · intro m x hm
      obtain ⟨a', b', c', d', hf', hd⟩ := hentry _ _ hm
      obtain ⟨rfl, rfl, rfl, rfl⟩ := huniq hf hf'
      have := ((C18_calculate_diff_partial a b c d).2.2 m x hd).1
      simp only [Op.once] at this
      exact this.symm
  · intro i hi
    obtain ⟨⟨j, op⟩, hm, rfl⟩ := List.mem_map.mp hi
    obtain ⟨a, b, c, d, hf, _⟩ := hentry _ _ hm
    exact ⟨a, b, c, d, hf⟩

/-- **C47 (an infinite rule).**  When `try_rule` raises `InfiniteRule`, the machine itself, started
from this tape, comes back three times in a row to the state with the tape's colours in place (the
first time after at least one move), and no count of the tape ever decreases from one return to the
next. -/
theorem C47_infinite (p : Prog) (pr : Prover) (cycle : Nat) (q : State) (t : Tape)
    (hr : pr.Holds p) (ht : t.Canonical) (hb : pr.Before cycle)
    (hnew : pr.getRule q t.signature = none)
    (h : (pr.tryRule p cycle q t).2 = .error .infiniteRule) :
    ∃ t1 t2 t3 n1 n2 n3, 1 ≤ n1 ∧ ThreeReturns p q t t1 t2 t3 n1 n2 n3 ∧
      ∀ i a b c d, FourCounts t t1 t2 t3 i a b c d → a ≤ b ∧ b ≤ c ∧ c ≤ d := by
  obtain ⟨t1, t2, t3, n1, n2, n3, h1, h3, ⟨_, hk⟩ | ⟨rule', hm, _⟩⟩ :=
    tryRule_seen hr ht hb hnew _ h (.inl rfl)
  · refine ⟨t1, t2, t3, n1, n2, n3, h1, h3, ?_⟩
    intro i a b c d hf
    have hc := (column_iff t t1 t2 t3 i a b c d).mpr ⟨a, b, c, d, rfl, rfl, rfl, rfl, hf⟩
    obtain ⟨g1, g2⟩ := (C19_infinite _ _ _ _).mp hk
    obtain ⟨o, ho⟩ := g1 i _ _ _ _ hc
    have hn := g2 i _ _ _ _ hc
    rcases calculateDiff_cases a b c d with ⟨e1, e2, e3, _⟩ | ⟨_, ⟨e1, e2, _⟩ | ⟨_, ⟨_, hx⟩ | ⟨e1, e2, e3, _⟩⟩⟩
    · omega
    · omega
    · rw [hx] at ho; simp at ho
    · omega
  · simp at hm

/-- **C47 (what is on record).**  The assumption `Before` holds all along: of a fresh prover, and
from one call of `try_rule` to the next. -/
theorem C47_before (p : Prog) (pr : Prover) (cycle : Nat) (q : State) (t : Tape) :
    Prover.Before .init cycle ∧
    (pr.Before cycle → Prover.Before (pr.tryRule p cycle q t).1 (cycle + 1)) := by
  refine ⟨by intro sig past h; simp [Prover.init] at h, fun hb => ?_⟩
  have hmono : pr.Before (cycle + 1) := by
    intro sig past h1 q' ps h2
    obtain ⟨h3, h4⟩ := hb sig past h1 q' ps h2
    exact ⟨h3, fun c hc => by have := h4 c hc; push_cast; omega⟩
  have hins : ∀ (pr' : Prover) (g : Sig) (past : PastConfigs), pr'.Before (cycle + 1) →
      (∀ q ps, past.lookup q = some ps → ps.length ≤ 4 ∧ ∀ c ∈ ps, c < ((cycle + 1 : Nat) : Int)) →
      Prover.Before { pr' with configs := assocInsert pr'.configs g past } (cycle + 1) := by
    intro pr' g past h1 h2 sig past' h3
    simp only [lookup_assocInsert] at h3
    split at h3
    · simp only [Option.some.injEq] at h3; subst h3; exact h2
    · exact h1 sig past' h3
  unfold Prover.tryRule
  simp only
  cases pr.getRule q t.signature with
  | some known => exact hmono
  | none =>
    simp only
    cases hl : pr.configs.lookup t.signature with
    | none =>
      simp only
      split
      · exact hmono
      · apply hins _ _ _ hmono
        intro q' ps h
        simp only [PastConfigs.new, List.lookup_cons, List.lookup_nil] at h
        split at h
        · simp only [Option.some.injEq] at h; subst h; simp
        · simp at h
    | some past =>
      simp only
      cases hd : past.nextDeltas q cycle with
      | error e => exact hmono
      | ok x =>
        obtain ⟨deltas, past'⟩ := x
        have hpast : ∀ q ps, past'.lookup q = some ps →
            ps.length ≤ 4 ∧ ∀ c ∈ ps, c < ((cycle + 1 : Nat) : Int) := by
          unfold PastConfigs.nextDeltas at hd
          intro q' ps h
          have hent : ((past.lookup q).getD [(cycle : Int)]).length ≤ 4 ∧
              ∀ c ∈ (past.lookup q).getD [(cycle : Int)], c < ((cycle + 1 : Nat) : Int) := by
            cases hq : past.lookup q with
            | none => simp
            | some ps => exact hmono _ _ hl q ps hq
          generalize (past.lookup q).getD [(cycle : Int)] = entry at hd hent
          obtain ⟨r, en', e1, e2, e3, _⟩ := pastConfig_step hent.1 (cycle : Int)
          rw [e1] at hd
          simp only [Except.ok.injEq, Prod.mk.injEq] at hd
          obtain ⟨_, rfl⟩ := hd
          rw [lookup_assocInsert] at h
          split at h
          · simp only [Option.some.injEq] at h
            subst h
            refine ⟨e2, fun c hc => ?_⟩
            have := e3.subset hc
            rcases List.mem_append.mp this with hm | hm
            · exact hent.2 c hm
            · simp only [List.mem_singleton] at hm; subst hm; push_cast; omega
          · exact hmono _ _ hl q' ps h
        have h1 := hins pr t.signature past' hmono hpast
        simp only
        cases deltas with
        | none => exact h1
        | some ds =>
          simp only
          cases Prover.proveRule p { pr with configs := assocInsert pr.configs t.signature past' }
            q t t.signature ds with
          | error e => exact h1
          | ok o =>
            cases o with
            | none => exact h1
            | some x =>
              obtain ⟨rule, m⟩ := x
              refine hins _ t.signature (past'.delete q) h1 ?_
              intro q' ps h
              rw [lookup_delete] at h
              split at h
              · simp at h
              · exact hpast q' ps h


/-! ### Cases -/

/-- Turns two 1s left of the head into 2s in two moves; runs right over blanks in two moves. -/
def twoByTwo : Prog
  | (0, 1) => some (2, false, 1)
  | (1, 1) => some (2, false, 0)
  | (0, 0) => some (1, true, 1)
  | (1, 0) => some (1, true, 0)
  | _ => none

def ones20 : Tape := ⟨[⟨1, 20⟩, ⟨3, 1⟩], 1, [⟨2, 3⟩]⟩

def onesRight : Tape := ⟨[⟨1, 3⟩], 0, []⟩

/-- Four earlier sightings, two cycles apart. -/
def sighted (t : Tape) : Prover := ⟨[], [(t.signature, [(0, [0, 2, 4, 6])])]⟩

theorem sighted_before (t : Tape) : (sighted t).Before 8 := by
  intro sig past h q ps hq
  simp only [sighted, List.lookup_cons, List.lookup_nil] at h
  split at h
  · simp only [Option.some.injEq] at h
    subst h
    simp only [List.lookup_cons, List.lookup_nil] at hq
    split at hq
    · simp only [Option.some.injEq] at hq
      subst hq
      simp
    · simp at hq
  · simp at h

example : ones20.Canonical ∧ (sighted ones20).Holds twoByTwo ∧
    (sighted ones20).getRule 0 ones20.signature = none ∧
    ((sighted ones20).tryRule twoByTwo 8 0 ones20).2
      = .ok (some [((false, 0), .plus (-2)), ((true, 0), .plus 2)]) :=
  ⟨⟨.cons _ _ _ _ _ (by decide) (by decide) (.last _ _ (by decide) (by decide)),
    .last _ _ (by decide) (by decide)⟩, Prover.holds_of_empty rfl _, rfl, by rfl⟩

example : onesRight.Canonical ∧ (sighted onesRight).Holds twoByTwo ∧
    ((sighted onesRight).tryRule twoByTwo 8 0 onesRight).2 = .error .infiniteRule :=
  ⟨⟨.last _ _ (by decide) (by decide), .nil⟩, Prover.holds_of_empty rfl _, by rfl⟩

end BB
