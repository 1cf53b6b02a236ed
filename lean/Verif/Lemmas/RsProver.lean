import Verif.Model.RsProver
import Verif.Lemmas.Prover

/-! # Lemmas about the Rust rule prover and `run_prover` -/

namespace BB

namespace Rs

/-! ## Right provers -/

/-- The locals of `run_prover` describe the ordinary machine after `n` moves, of which `steps`
counts at most all; every blank recorded was really seen. -/
structure PInv (p : Prog) (s : QState) (n : Nat) : Prop where
  canon : s.tape.Canonical
  run : ∃ pos, runFor p n initCfg = some (s.tape.cfg s.state pos)
  steps : s.steps ≤ n
  blanks : ∀ q, (s.blanks.lookup q).isSome → ∃ m, m ≤ n ∧ BlankAt p q m

theorem pinv_init (p : Prog) : PInv p ⟨Tape.init, [], 0, 0⟩ 0 where
  canon := Tape.canonical_init
  run := ⟨0, by rw [initCfg_eq]; rfl⟩
  steps := Nat.le_refl _
  blanks := by simp

/-- What the plain part of the loop body does to the invariant. -/
def BodySpec (p : Prog) (s : QState) (n : Nat) : QOut → Prop
  | .stop r s' _ slot => ∃ m, PInv p s' m ∧ m + s.steps = n + s'.steps ∧
      ((r = .undfnd ∧ ∃ sl, slot = some sl ∧ HaltsAt p initCfg m sl) ∨
        ((r = .spnout ∨ r = .infrul) ∧ NeverHalts p initCfg))
  | .next s' => ∃ m, n < m ∧ PInv p s' m ∧ m + s.steps = n + s'.steps

theorem quickBody_spec {p : Prog} {s : QState} {n : Nat} (cycle : Nat) (hs : PInv p s n) :
    BodySpec p s n (quickBody p cycle s) := by
  have hs0 := hs
  obtain ⟨t, blanks, q, steps⟩ := s
  obtain ⟨hc, ⟨pos, hrun⟩, hst, hbl⟩ := hs
  simp only at hc hrun hst hbl
  have hslot : (t.cfg q pos).slot = (q, t.scan) := by
    simp [Cfg.slot, Tape.cfg, t.cells_pos]
  simp only [quickBody]
  cases hp : p (q, t.scan) with
  | none => exact ⟨n, hs0, rfl, Or.inl ⟨rfl, _, rfl, _, hrun, hslot, hp⟩⟩
  | some i =>
    obtain ⟨color, shift, q'⟩ := i
    simp only
    by_cases he : ((q == q') && t.atEdge shift) = true
    · simp only [he, if_true]
      refine ⟨n, hs0, rfl, Or.inr ⟨Or.inl rfl, ?_⟩⟩
      simp only [Bool.and_eq_true, beq_iff_eq] at he
      obtain ⟨rfl, he⟩ := he
      refine NeverHalts.of_later hrun (neverHalts_spinout (col := color) (shift := shift) ?_ ?_)
      · have hz : t.scan = 0 := by
          simp only [Tape.atEdge, Bool.and_eq_true, beq_iff_eq] at he; exact he.1
        rw [hz] at hp; exact hp
      · intro k
        cases shift
        · exact (hc.atEdge_left_iff pos).mp he _ (by simp [Tape.cfg, disp])
        · exact (hc.atEdge_right_iff pos).mp he _ (by simp [Tape.cfg, disp])
    · simp only [he]
      obtain ⟨k1, k2, k3, k4, k5⟩ := Rs.step_full hc hp he pos
      generalize hstp : Rs.step t shift color (q == q') = st at k1 k2 k3 k4 k5
      obtain ⟨t', k⟩ := st
      simp only at k1 k2 k3 k4 k5
      have hrun' : runFor p (n + k) initCfg
          = some (t'.cfg q' (pos + disp shift k)) := runFor_trans hrun k3
      have hbl' : ∀ q, (blanks.lookup q).isSome → ∃ m, m ≤ n + k ∧ BlankAt p q m := by
        intro q hq
        obtain ⟨m, h1, h2⟩ := hbl q hq
        exact ⟨m, by omega, h2⟩
      simp only [Bool.false_eq_true, if_false]
      by_cases hb : (color == 0 && t'.blank) = true
      · simp only [hb, if_true]
        have hb' : t'.blank = true := by simp at hb; exact hb.2
        have hblank : (t'.cfg q' (pos + disp shift k)).Blank := (k2.blank_iff _).mp hb'
        have twice : ∀ m, m < n + k → BlankAt p q' m → NeverHalts p initCfg := by
          rintro m hm ⟨d, hd1, hd2, hd3⟩
          refine NeverHalts.of_later hd1 ?_
          have hr : runFor p (n + k - m) d = some (t'.cfg q' (pos + disp shift k)) := by
            have := hrun'
            rw [show n + k = m + (n + k - m) by omega, runFor_add, hd1] at this
            exact this
          exact neverHalts_blank_twice (by omega) hr hd3 hblank hd2
        have hbl2 : ∀ q, (((q', steps + k) :: blanks).lookup q).isSome →
            ∃ m, m ≤ n + k ∧ BlankAt p q m := by
          intro r hr
          by_cases h : r = q'
          · subst h
            exact ⟨n + k, Nat.le_refl _, _, hrun', rfl, hblank⟩
          · simp only [List.lookup_cons, beq_false_of_ne h] at hr
            exact hbl' r hr
        by_cases hl : (blanks.lookup q').isSome = true
        · simp only [hl, if_true]
          refine ⟨n + k, ⟨k2, ⟨_, hrun'⟩, by simp only; omega, hbl'⟩, by simp only; omega,
            Or.inr ⟨Or.inr rfl, ?_⟩⟩
          obtain ⟨m, hm, hbm⟩ := hbl _ hl
          exact twice m (by omega) hbm
        · simp only [hl]
          by_cases h0 : q' = 0
          · subst h0
            simp only [beq_self_eq_true, if_true, Bool.false_eq_true, if_false]
            exact ⟨n + k, ⟨k2, ⟨_, hrun'⟩, by simp only; omega, hbl2⟩, by simp only; omega,
              Or.inr ⟨Or.inr rfl, twice 0 (by omega) ⟨initCfg, rfl, rfl, fun _ => rfl⟩⟩⟩
          · have h0' : (q' == 0) = false := by simpa using h0
            simp only [h0', Bool.false_eq_true, if_false]
            exact ⟨n + k, by omega, ⟨k2, ⟨_, hrun'⟩, by simp only; omega, hbl2⟩, by simp only; omega⟩
      · simp only [hb]
        exact ⟨n + k, by omega, ⟨k2, ⟨_, hrun'⟩, by simp only; omega, hbl'⟩, by simp only; omega⟩

/-- What it means for the answers of a rule prover to be right about the machine `p`: asked about
a configuration the machine really reaches, an infinite rule means that it never halts; applying
the rule handed out leads to a configuration the machine reaches by making at least one move; a
rule that is refused leaves the tape alone. -/
structure TryRule.Right {π : Type} (p : Prog) (try_ : TryRule π) : Prop where
  infinite : ∀ pr cycle q t n pos, t.Canonical → runFor p n initCfg = some (t.cfg q pos) →
    (try_ pr cycle q t).2 = .ok .infiniteRule → NeverHalts p initCfg
  applied : ∀ pr cycle q t n pos rule times t', t.Canonical →
    runFor p n initCfg = some (t.cfg q pos) →
    (try_ pr cycle q t).2 = .ok (.got rule) →
    applyRuleOn basicTape rule t = .ok (some times, t') →
    t'.Canonical ∧ ∃ m pos', 1 ≤ m ∧ runFor p m (t.cfg q pos) = some (t'.cfg q pos')
  refused : ∀ pr cycle q t n pos rule t', t.Canonical →
    runFor p n initCfg = some (t.cfg q pos) →
    (try_ pr cycle q t).2 = .ok (.got rule) →
    applyRuleOn basicTape rule t = .ok (none, t') → t' = t

/-- What the report of a run should mean: it is about the configuration after some number of
moves, at least `steps`. -/
structure PSpec (p : Prog) (r : MachineResult) : Prop where
  after : ∃ n d, r.steps ≤ n ∧ runFor p n initCfg = some d ∧
    (∃ S : Finset Int, (∀ x, x ∈ S ↔ d.tape x ≠ 0) ∧ S.card = r.marks) ∧
    (r.result = .undfnd → ∃ slot, r.lastSlot = some slot ∧ HaltsAt p initCfg n slot)
  never : r.result = .spnout ∨ r.result = .infrul → NeverHalts p initCfg

theorem proverLoop_spec {π : Type} {p : Prog} {try_ : TryRule π} (hr : try_.Right p)
    (fuel cycle : Nat) (pr : π) (s : QState) (rulapp n : Nat) (hs : PInv p s n)
    (r : MachineResult) (h : proverLoop try_ p fuel cycle pr s rulapp = .ok r) : PSpec p r := by
  have fin : ∀ (t : TermRes) (s : QState) (n cycles rulapp : Nat) (slot : Option Slot),
      PInv p s n → (t = .undfnd → ∃ sl, slot = some sl ∧ HaltsAt p initCfg n sl) →
      (t = .spnout ∨ t = .infrul → NeverHalts p initCfg) →
      PSpec p (proverResult t s cycles rulapp slot) := by
    intro t s n cycles rulapp slot hs h1 h2
    obtain ⟨pos, hrun⟩ := hs.run
    exact ⟨⟨n, _, hs.steps, hrun, s.tape.marks_cells pos, h1⟩, h2⟩
  induction fuel generalizing cycle pr s rulapp n with
  | zero =>
    simp only [proverLoop, Except.ok.injEq] at h
    subst h
    exact fin _ _ n _ _ _ hs (by simp) (by simp)
  | succ fuel ih =>
    have hgo : ∀ (pr : π) (s : QState), PInv p s n →
        (match quickBody p cycle s with
        | .stop r s' cycles slot => Except.ok (proverResult r s' cycles rulapp slot)
        | .next s' => proverLoop try_ p fuel (cycle + 1) pr s' rulapp) = .ok r → PSpec p r := by
      intro pr s hs h
      have hb := quickBody_spec cycle hs
      cases hq : quickBody p cycle s with
      | stop t s' cycles slot =>
        rw [hq] at h hb
        simp only [Except.ok.injEq] at h
        subst h
        obtain ⟨m, h1, _, h2⟩ := hb
        refine fin _ _ m _ _ _ h1 ?_ ?_
        · intro ht
          rcases h2 with ⟨_, h2⟩ | ⟨h2, _⟩
          · exact h2
          · subst ht; simp at h2
        · intro ht
          rcases h2 with ⟨h2, _⟩ | ⟨_, h2⟩
          · subst h2; simp at ht
          · exact h2
      | next s' =>
        rw [hq] at h hb
        obtain ⟨m, _, h1, _⟩ := hb
        exact ih _ _ _ _ m h1 h
    unfold proverLoop at h
    simp only at h
    generalize ht : try_ pr cycle s.state s.tape = tr at h
    obtain ⟨pr', tried⟩ := tr
    have ht2 : (try_ pr cycle s.state s.tape).2 = tried := by rw [ht]
    obtain ⟨pos, hrun⟩ := hs.run
    cases tried with
    | error e => simp at h
    | ok o =>
      cases o with
      | none => exact hgo _ _ hs h
      | configLimit =>
        simp only [Except.ok.injEq] at h
        subst h
        exact fin _ _ n _ _ _ hs (by simp) (by simp)
      | infiniteRule =>
        simp only [Except.ok.injEq] at h
        subst h
        exact fin _ _ n _ _ _ hs (by simp)
          (fun _ => hr.infinite _ _ _ _ _ _ hs.canon hrun ht2)
      | multRule =>
        simp only [Except.ok.injEq] at h
        subst h
        exact fin _ _ n _ _ _ hs (by simp) (by simp)
      | got rule =>
        simp only at h
        cases ha : applyRuleOn basicTape rule s.tape with
        | error e => rw [ha] at h; simp at h
        | ok x =>
          obtain ⟨times, tape⟩ := x
          rw [ha] at h
          cases times with
          | none =>
            have := hr.refused _ _ _ _ _ _ _ _ hs.canon hrun ht2 ha
            subst this
            exact hgo _ _ hs h
          | some times =>
            obtain ⟨hc', m, pos', hm, hm'⟩ :=
              hr.applied _ _ _ _ _ _ _ _ _ hs.canon hrun ht2 ha
            refine ih _ _ _ _ (n + m) ⟨hc', ⟨pos', runFor_trans hrun hm'⟩, ?_, ?_⟩ h
            · have := hs.steps; simp only; omega
            · intro q hq
              obtain ⟨m', h1, h2⟩ := hs.blanks q hq
              exact ⟨m', by omega, h2⟩

/-! ## Counts and refusals -/

theorem countAppsOn_times {τ : Type} (T : IndexTape τ) (t : τ) (B : Nat)
    (hB : ∀ i c, T.get t i = .ok c → c ≤ B) :
    ∀ (rule : Rule) (apps : Option (Nat × Index × Nat)) (n : Nat) (i : Index) (m : Nat),
      (∀ n i m, apps = some (n, i, m) → 1 ≤ n ∧ n ≤ B) →
      countAppsOn T rule t apps = .ok (some (n, i, m)) → 1 ≤ n ∧ n ≤ B := by
  intro rule
  induction rule with
  | nil =>
    intro apps n i m h0 h
    simp only [countAppsOn, Except.ok.injEq] at h
    exact h0 _ _ _ h
  | cons e rest ih =>
    intro apps n i m h0 h
    obtain ⟨pos, op⟩ := e
    cases op with
    | mult a b => simp [countAppsOn] at h
    | plus d =>
      simp only [countAppsOn] at h
      by_cases hd : d ≥ 0
      · rw [if_pos hd] at h; exact ih _ _ _ _ h0 h
      · rw [if_neg hd] at h
        cases hg : T.get t pos with
        | error e => rw [hg] at h; simp at h
        | ok c =>
          rw [hg] at h
          simp only at h
          by_cases hc : d.natAbs ≥ c
          · rw [if_pos hc] at h; simp at h
          · rw [if_neg hc] at h
            have hd1 : 1 ≤ d.natAbs := by omega
            have hcB := hB _ _ hg
            have hdiv : c / d.natAbs ≤ c := Nat.div_le_self _ _
            have hdiv1 : 1 ≤ c / d.natAbs := (Nat.one_le_div_iff (by omega)).mpr (by omega)
            have key : ∀ x : Nat × Nat,
                x = (if c % d.natAbs > 0 then (c / d.natAbs, c % d.natAbs)
                  else (c / d.natAbs - 1, d.natAbs)) → 1 ≤ x.1 ∧ x.1 ≤ B := by
              intro x hx
              by_cases hm : c % d.natAbs > 0
              · rw [if_pos hm] at hx; subst hx; exact ⟨hdiv1, by simp only; omega⟩
              · rw [if_neg hm] at hx
                subst hx
                have h2 : c = d.natAbs * (c / d.natAbs) := by
                  have := Nat.div_add_mod c d.natAbs; omega
                have : 2 ≤ c / d.natAbs := by
                  by_contra hlt
                  have : c / d.natAbs = 1 := by omega
                  rw [this] at h2; omega
                simp only
                omega
            generalize (if c % d.natAbs > 0 then (c / d.natAbs, c % d.natAbs)
                  else (c / d.natAbs - 1, d.natAbs)) = x at h key
            obtain ⟨x1, x2⟩ := x
            have kx := key _ rfl
            simp only at h kx
            refine ih _ _ _ _ ?_ h
            intro n i m hn
            cases apps with
            | none =>
              simp only [Option.some.injEq, Prod.mk.injEq] at hn
              omega
            | some a =>
              obtain ⟨a1, a2, a3⟩ := a
              have ka := h0 _ _ _ rfl
              simp only at hn
              split at hn <;> simp only [Option.some.injEq, Prod.mk.injEq] at hn <;> omega

theorem applyRuleOnFrom_true {τ : Type} (T : IndexTape τ) (times : Nat) (minPos : Index)
    (minRes : Nat) :
    ∀ (rule : Rule) (t : τ) (b : Bool) (t' : τ),
      (∀ i d, (i, Op.plus d) ∈ rule → d.natAbs * times < 2 ^ 64) →
      applyRuleOnFrom T times minPos minRes rule t = .ok (b, t') → b = true := by
  intro rule
  induction rule with
  | nil =>
    intro t b t' _ h
    simp only [applyRuleOnFrom, Except.ok.injEq, Prod.mk.injEq] at h
    exact h.1.symm
  | cons e rest ih =>
    intro t b t' hb h
    obtain ⟨pos, op⟩ := e
    cases op with
    | mult a c => simp [applyRuleOnFrom] at h
    | plus d =>
      have hrest : ∀ i d, (i, Op.plus d) ∈ rest → d.natAbs * times < 2 ^ 64 :=
        fun i d hm => hb i d (List.mem_cons_of_mem _ hm)
      simp only [applyRuleOnFrom] at h
      split at h
      · split at h
        · split at h
          · simp at h
          · exact ih _ _ _ hrest h
        · simp at h
      · split at h
        · simp at h
        · rename_i count hg
          rw [show applyPlus64 count d times = some (count + d.natAbs * times) from
            if_pos (hb pos d List.mem_cons_self)] at h
          simp only at h
          split at h
          · simp at h
          · exact ih _ _ _ hrest h

/-- A refusal that is not an overflow leaves the tape alone. -/
theorem applyRuleOn_none {τ : Type} {T : IndexTape τ} {rule : Rule} {t t' : τ} (B : Nat)
    (hB : ∀ i c, T.get t i = .ok c → c ≤ B)
    (hd : ∀ i d, (i, Op.plus d) ∈ rule → d.natAbs * B < 2 ^ 64)
    (h : applyRuleOn T rule t = .ok (none, t')) : t' = t := by
  unfold applyRuleOn at h
  split at h
  · simp at h
  · simp only [Except.ok.injEq, Prod.mk.injEq, true_and] at h; exact h.symm
  · rename_i n i m hc
    have hn := countAppsOn_times T t B hB rule none n i m (by simp) hc
    split at h
    · simp at h
    · simp at h
    · rename_i t1 ha
      have := applyRuleOnFrom_true T n i m rule t false t1
        (fun i d hm => Nat.lt_of_le_of_lt (Nat.mul_le_mul_left _ hn.2) (hd i d hm)) ha
      simp at this

theorem applyRuleOn_pos {τ : Type} {T : IndexTape τ} {rule : Rule} {t t' : τ} {n : Nat} (B : Nat)
    (hB : ∀ i c, T.get t i = .ok c → c ≤ B)
    (h : applyRuleOn T rule t = .ok (some n, t')) : 1 ≤ n := by
  unfold applyRuleOn at h
  split at h
  · simp at h
  · simp at h
  · rename_i n' i m hc
    have hn := countAppsOn_times T t B hB rule none n' i m (by simp) hc
    split at h
    · simp at h
    · simp only [Except.ok.injEq, Prod.mk.injEq, Option.some.injEq] at h; omega
    · simp at h

/-! ## Tape sizes -/

/-- Number of cells written out. -/
def size (t : Tape) : Nat := 1 + (t.lspan.map Block.count).sum + (t.rspan.map Block.count).sum

theorem pull_size (span : List Block) (scan : Color) (skip : Bool) :
    (pull span scan skip).2.1 + ((pull span scan skip).2.2.map Block.count).sum
      ≤ (span.map Block.count).sum + 1 := by
  unfold pull
  cases span with
  | nil => simp
  | cons b rest =>
    simp only
    by_cases hs : (skip && b.color == scan) = true
    · rw [if_pos hs]
      cases rest with
      | nil => simp; omega
      | cons b' rest => simp only; split <;> simp <;> omega
    · rw [if_neg hs]
      simp only
      split <;> simp <;> omega

theorem push_size (span : List Block) (print : Color) (n : Nat) :
    ((push span print n).map Block.count).sum ≤ (span.map Block.count).sum + n := by
  unfold push
  cases span with
  | nil => simp only; split <;> simp
  | cons b rest =>
    simp only
    split <;> simp <;> omega

theorem step_size (t : Tape) (shift : Bool) (color : Color) (skip : Bool) :
    size (Rs.step t shift color skip).1 ≤ size t + 1 := by
  unfold Rs.step size
  cases shift with
  | true =>
    have h1 := pull_size t.rspan t.scan skip
    simp only [if_true]
    generalize pull t.rspan t.scan skip = x at h1 ⊢
    obtain ⟨a, n, s⟩ := x
    have h2 := push_size t.lspan color n
    simp only at h1 h2 ⊢
    omega
  | false =>
    have h1 := pull_size t.lspan t.scan skip
    simp only [Bool.false_eq_true, if_false]
    generalize pull t.lspan t.scan skip = x at h1 ⊢
    obtain ⟨a, n, s⟩ := x
    have h2 := push_size t.rspan color n
    simp only at h1 h2 ⊢
    omega

theorem count_le_sum (s : List Block) (i : Nat) (b : Block) (h : s[i]? = some b) :
    b.count ≤ (s.map Block.count).sum := by
  induction s generalizing i with
  | nil => simp at h
  | cons a rest ih =>
    cases i with
    | zero =>
      simp only [List.getElem?_cons_zero, Option.some.injEq] at h
      subst h; simp
    | succ i =>
      simp only [List.getElem?_cons_succ] at h
      have := ih _ h
      simp; omega

theorem getCount_le_size (t : Tape) (i : Index) (c : Nat) (h : basicTape.get t i = .ok c) :
    c ≤ size t := by
  simp only [basicTape, getCount] at h
  split at h
  · simp at h
  · rename_i b hb
    simp only [Except.ok.injEq] at h
    subst h
    unfold size
    cases hi : i.1 with
    | true => rw [hi, if_pos rfl] at hb; have := count_le_sum _ _ _ hb; omega
    | false =>
      rw [hi, if_neg (by simp)] at hb; have := count_le_sum _ _ _ hb; omega

theorem quickBody_size {p : Prog} {cycle : Nat} {s s' : QState}
    (h : quickBody p cycle s = .next s') : size s'.tape ≤ size s.tape + 1 := by
  simp only [quickBody] at h
  split at h
  · simp at h
  · rename_i color shift q' hp
    have := step_size s.tape shift color (s.state == q')
    split at h
    · simp at h
    · split at h
      · split at h
        · simp at h
        · split at h
          · simp at h
          · simp only [QOut.next.injEq] at h
            subst h; exact this
      · simp only [QOut.next.injEq] at h
        subst h; exact this

/-! ## Runs without rule applications -/

/-- The additive operations of a rule fit an `i32`. -/
def Small (rule : Rule) : Prop := ∀ i d, (i, Op.plus d) ∈ rule → d.natAbs ≤ 2 ^ 31

/-- The rule prover only hands out such rules, as long as its state is as `I` says. -/
structure TryRule.Tame {π : Type} (I : π → Prop) (try_ : TryRule π) : Prop where
  keep : ∀ pr cycle q t, I pr → I (try_ pr cycle q t).1
  small : ∀ pr cycle q t rule, I pr → (try_ pr cycle q t).2 = .ok (.got rule) → Small rule

/-- The number of rule applications never decreases. -/
theorem proverLoop_rulapp {π : Type} (p : Prog) (try_ : TryRule π) (fuel cycle : Nat) (pr : π)
    (s : QState) (rulapp : Nat) (r : MachineResult)
    (h : proverLoop try_ p fuel cycle pr s rulapp = .ok r) : rulapp ≤ r.rulapp := by
  induction fuel generalizing cycle pr s rulapp with
  | zero =>
    simp only [proverLoop, Except.ok.injEq] at h
    subst h; exact Nat.le_refl _
  | succ fuel ih =>
    have hgo : ∀ (pr : π) (s : QState),
        (match quickBody p cycle s with
        | .stop r s' cycles slot => Except.ok (proverResult r s' cycles rulapp slot)
        | .next s' => proverLoop try_ p fuel (cycle + 1) pr s' rulapp) = .ok r →
        rulapp ≤ r.rulapp := by
      intro pr s h
      cases hq : quickBody p cycle s with
      | stop t s' cycles slot =>
        rw [hq] at h
        simp only [Except.ok.injEq] at h
        subst h; exact Nat.le_refl _
      | next s' =>
        rw [hq] at h
        exact ih _ _ _ _ h
    unfold proverLoop at h
    simp only at h
    generalize try_ pr cycle s.state s.tape = tr at h
    obtain ⟨pr', tried⟩ := tr
    cases tried with
    | error e => simp at h
    | ok o =>
      cases o with
      | none => exact hgo _ _ h
      | configLimit => simp only [Except.ok.injEq] at h; subst h; exact Nat.le_refl _
      | infiniteRule => simp only [Except.ok.injEq] at h; subst h; exact Nat.le_refl _
      | multRule => simp only [Except.ok.injEq] at h; subst h; exact Nat.le_refl _
      | got rule =>
        simp only at h
        cases ha : applyRuleOn basicTape rule s.tape with
        | error e => rw [ha] at h; simp at h
        | ok x =>
          obtain ⟨times, tape⟩ := x
          rw [ha] at h
          cases times with
          | none => exact hgo _ _ h
          | some times => have := ih _ _ _ _ h; omega

/-- What a run of `run_prover` without rule applications is, compared to `run_quick_machine`. -/
def LikeQuick (p : Prog) (fuel cycle : Nat) (s : QState) (r : MachineResult) : Prop :=
  r = quickLoop p fuel cycle s ∨
  ∃ c, c < fuel ∧ r.cycles = cycle + c ∧
    (r.result = .infrul ∨ r.result = .cfglim ∨ r.result = .mulrul) ∧
    quickLoop p c cycle s = { r with result := .xlimit, cycles := 0 }

theorem proverLoop_norule {π : Type} {p : Prog} {try_ : TryRule π} {I : π → Prop}
    (ht : try_.Tame I) (fuel cycle : Nat) (pr : π) (s : QState) (r : MachineResult)
    (hI : I pr) (hsz : size s.tape ≤ cycle + 1) (hlim : cycle + fuel ≤ 2 ^ 32)
    (h : proverLoop try_ p fuel cycle pr s 0 = .ok r) (h0 : r.rulapp = 0) :
    LikeQuick p fuel cycle s r := by
  induction fuel generalizing cycle pr s with
  | zero =>
    simp only [proverLoop, Except.ok.injEq] at h
    exact Or.inl h.symm
  | succ fuel ih =>
    have hgo : ∀ (pr : π), I pr →
        (match quickBody p cycle s with
        | .stop r s' cycles slot => Except.ok (proverResult r s' cycles 0 slot)
        | .next s' => proverLoop try_ p fuel (cycle + 1) pr s' 0) = .ok r →
        LikeQuick p (fuel + 1) cycle s r := by
      intro pr hI h
      cases hq : quickBody p cycle s with
      | stop t s' cycles slot =>
        rw [hq] at h
        simp only [Except.ok.injEq] at h
        left
        simp only [quickLoop, hq]
        exact h.symm
      | next s' =>
        rw [hq] at h
        have hs' := quickBody_size hq
        rcases ih (cycle + 1) pr s' hI (by omega) (by omega) h with h | ⟨c, h1, h2, h3, h4⟩
        · left; simp only [quickLoop, hq]; exact h
        · right
          refine ⟨c + 1, by omega, by omega, h3, ?_⟩
          simp only [quickLoop, hq]; exact h4
    have hend : ∀ t : TermRes, (t = .infrul ∨ t = .cfglim ∨ t = .mulrul) →
        Except.ok (proverResult t s cycle 0 none) = (Except.ok r : Except Err MachineResult) →
        LikeQuick p (fuel + 1) cycle s r := by
      intro t ht h
      simp only [Except.ok.injEq] at h
      subst h
      exact Or.inr ⟨0, by omega, rfl, ht, rfl⟩
    unfold proverLoop at h
    simp only at h
    have hk := ht.keep pr cycle s.state s.tape hI
    have hsm := ht.small pr cycle s.state s.tape
    generalize try_ pr cycle s.state s.tape = tr at h hk hsm
    obtain ⟨pr', tried⟩ := tr
    cases tried with
    | error e => simp at h
    | ok o =>
      cases o with
      | none => exact hgo _ hk h
      | configLimit => exact hend _ (by simp) h
      | infiniteRule => exact hend _ (by simp) h
      | multRule => exact hend _ (by simp) h
      | got rule =>
        simp only at h
        have hsmall := hsm rule hI rfl
        have hB : ∀ i c, basicTape.get s.tape i = .ok c → c ≤ 2 ^ 32 := by
          intro i c hc
          have := getCount_le_size _ _ _ hc
          omega
        cases ha : applyRuleOn basicTape rule s.tape with
        | error e => rw [ha] at h; simp at h
        | ok x =>
          obtain ⟨times, tape⟩ := x
          rw [ha] at h
          cases times with
          | none =>
            have := applyRuleOn_none (2 ^ 32) hB (fun i d hm => by
              have := hsmall i d hm
              have := Nat.mul_le_mul_right (2 ^ 32) this
              omega) ha
            subst this
            exact hgo _ hk h
          | some times =>
            exfalso
            have h1 := applyRuleOn_pos (2 ^ 32) hB ha
            have h2 := proverLoop_rulapp _ _ _ _ _ _ _ _ h
            omega

/-! ## The prover of the code hands out small rules -/

theorem calculateDiff32_small {a b c d : Int} {x : Int}
    (h : calculateDiff32 a b c d = some (some (.plus x))) : x.natAbs ≤ 2 ^ 31 := by
  unfold calculateDiff32 at h
  split at h
  · simp at h
  · split at h
    · simp at h
    · rename_i hin
      split at h
      · simp only [Option.some.injEq, Op.plus.injEq] at h
        simp only [Bool.or_eq_true, Bool.not_eq_eq_eq_not, Bool.not_true, not_or,
          Bool.not_eq_false, inI32, Bool.and_eq_true, decide_eq_true_eq] at hin
        omega
      · split at h
        · simp at h
        · split at h <;> simp at h

theorem makeRuleSide_small (diff : Nat → Nat → Nat → Nat → Option (Option Op)) (side : Bool)
    (hdiff : ∀ a b c d x, diff a b c d = some (some (.plus x)) → x.natAbs ≤ 2 ^ 31) :
    ∀ (l1 l2 l3 l4 : List Nat) (i : Nat) (rule : Rule),
      makeRuleSideWith diff side i l1 l2 l3 l4 = some rule → Small rule := by
  intro l1
  induction l1 with
  | nil =>
    intro l2 l3 l4 i rule h
    simp only [makeRuleSideWith, Option.some.injEq] at h
    subst h
    intro i d hm; simp at hm
  | cons a l1 ih =>
    intro l2 l3 l4 i rule h
    have hnil : some ([] : Rule) = some rule → Small rule := by
      intro h
      simp only [Option.some.injEq] at h
      subst h
      intro i d hm; simp at hm
    cases l2 with
    | nil => exact hnil h
    | cons b l2 =>
      cases l3 with
      | nil => exact hnil h
      | cons c l3 =>
        cases l4 with
        | nil => exact hnil h
        | cons d l4 =>
          simp only [makeRuleSideWith] at h
          cases hd : diff a b c d with
          | none => rw [hd] at h; exact ih _ _ _ _ _ h
          | some o =>
            rw [hd] at h
            cases o with
            | none => simp at h
            | some op =>
              simp only at h
              cases hr : makeRuleSideWith diff side (i + 1) l1 l2 l3 l4 with
              | none => rw [hr] at h; simp at h
              | some rest =>
                rw [hr] at h
                simp only [Option.some.injEq] at h
                subst h
                intro j e hm
                rcases List.mem_cons.mp hm with hm | hm
                · simp only [Prod.mk.injEq] at hm
                  rw [← hm.2] at hd
                  exact hdiff _ _ _ _ _ hd
                · exact ih _ _ _ _ _ hr j e hm

theorem makeRule_small {k1 k2 k3 k4 : List Nat × List Nat} {rule : Rule}
    (h : makeRule k1 k2 k3 k4 = some rule) : Small rule := by
  unfold makeRule at h
  split at h
  · simp at h
  · rename_i l hl
    split at h
    · simp at h
    · rename_i r hr
      simp only [Option.some.injEq] at h
      subst h
      intro i d hm
      rcases List.mem_append.mp hm with hm | hm
      · exact makeRuleSide_small _ _ (fun _ _ _ _ _ h => calculateDiff32_small h) _ _ _ _ _ _ hl i d hm
      · exact makeRuleSide_small _ _ (fun _ _ _ _ _ h => calculateDiff32_small h) _ _ _ _ _ _ hr i d hm

/-- All rules the prover knows are small. -/
def SmallRules (pr : Prover) : Prop :=
  ∀ slot l, (slot, l) ∈ pr.rules → ∀ e ∈ l, Small e.2

theorem lookup_mem' {κ β : Type} [BEq κ] [LawfulBEq κ] {l : List (κ × β)} {k : κ} {v : β}
    (h : l.lookup k = some v) : (k, v) ∈ l := by
  induction l with
  | nil => simp at h
  | cons a l ih =>
    obtain ⟨k', v'⟩ := a
    simp only [List.lookup_cons] at h
    cases hk : k == k' with
    | true =>
      rw [hk] at h
      simp only [Option.some.injEq] at h
      subst h
      rw [eq_of_beq hk]
      exact List.mem_cons_self
    | false => rw [hk] at h; exact List.mem_cons_of_mem _ (ih h)

theorem getRule_small {pr : Prover} {q : State} {sig : Sig} {rule : Rule} (hs : SmallRules pr)
    (h : pr.getRule q sig = some rule) : Small rule := by
  unfold Prover.getRule at h
  split at h
  · simp at h
  · rename_i temp hl
    rw [Option.map_eq_some_iff] at h
    obtain ⟨e, he, rfl⟩ := h
    exact hs _ _ (lookup_mem' hl) e (List.mem_of_find?_eq_some he)

theorem setRule_small {pr : Prover} {rule : Rule} {q : State} {sig : MinSig} (hs : SmallRules pr)
    (hr : Small rule) : SmallRules (pr.setRule rule q sig) := by
  intro slot l hm e he
  simp only [Prover.setRule, assocInsert, List.mem_cons, Prod.mk.injEq] at hm
  rcases hm with ⟨_, rfl⟩ | hm
  · rcases List.mem_append.mp he with he | he
    · cases hl : pr.rules.lookup (q, sig.1.scan) with
      | none => rw [hl] at he; simp at he
      | some l' => rw [hl] at he; exact hs _ _ (lookup_mem' hl) e he
    · simp only [List.mem_singleton] at he
      subst he; exact hr
  · exact hs _ _ (List.mem_of_mem_filter hm) e he

theorem tryRule_tame (comp : Prog) (pr : Prover) (cycle : Nat) (q : State) (t : Tape)
    (hs : SmallRules pr) :
    SmallRules (tryRule comp pr cycle q t).1 ∧
      ∀ rule, (tryRule comp pr cycle q t).2 = .ok (.got rule) → Small rule := by
  unfold tryRule
  simp only
  cases hg : pr.getRule q t.signature with
  | some known =>
    refine ⟨hs, fun rule h => ?_⟩
    simp only [Except.ok.injEq, ProverResult.got.injEq] at h
    subst h; exact getRule_small hs hg
  | none =>
    simp only
    cases hl : pr.configs.lookup t.signature with
    | none => simp only; split <;> exact ⟨hs, by simp⟩
    | some past =>
      simp only
      cases hn : past.nextDeltas q cycle with
      | error e => exact ⟨hs, by simp⟩
      | ok x =>
        obtain ⟨deltas, past'⟩ := x
        simp only
        cases deltas with
        | none => exact ⟨hs, by simp⟩
        | some deltas =>
          simp only
          split
          · exact ⟨hs, by simp⟩
          · generalize hpr : ({ pr with configs := assocInsert pr.configs t.signature past' } :
              Prover) = pr1
            have hs1 : SmallRules pr1 := by subst hpr; exact hs
            cases hi : inferRule comp pr1 q t t.signature deltas with
            | error e => exact ⟨hs1, by simp⟩
            | ok o =>
              cases o with
              | none => exact ⟨hs1, by simp⟩
              | some rule =>
                have hr : Small rule := by
                  unfold inferRule at hi
                  split at hi
                  · simp at hi
                  · simp at hi
                  · split at hi
                    · simp at hi
                    · simp at hi
                    · split at hi
                      · simp at hi
                      · simp at hi
                      · simp only [Except.ok.injEq] at hi
                        exact makeRule_small hi
                simp only
                split
                · exact ⟨hs1, by simp⟩
                · split
                  · exact ⟨hs1, by simp⟩
                  · split
                    · exact ⟨hs1, by simp⟩
                    · split
                      · exact ⟨hs, by simp⟩
                      · refine ⟨setRule_small hs hr, fun rule' h => ?_⟩
                        simp only [Except.ok.injEq, ProverResult.got.injEq] at h
                        subst h; exact hr

theorem runProver_norule (p : Prog) (lim : Nat) (r : MachineResult) (hlim : lim ≤ 2 ^ 32)
    (h : runProver p lim = .ok r) (h0 : r.rulapp = 0) :
    LikeQuick p lim 0 ⟨Tape.init, [], 0, 0⟩ r := by
  refine proverLoop_norule (I := SmallRules) ⟨?_, ?_⟩ lim 0 .init _ r ?_ ?_ (by omega) h h0
  · exact fun pr cycle q t hs => (tryRule_tame p pr cycle q t hs).1
  · exact fun pr cycle q t rule hs => (tryRule_tame p pr cycle q t hs).2 rule
  · intro slot l hm; simp [Prover.init] at hm
  · simp [size, Tape.init]

end Rs

end BB
