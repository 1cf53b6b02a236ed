import Verif.Lemmas.IdrisRun
import Verif.Lemmas.Recur

/-! # `runDouble` of the Idris machines -/

namespace BB.Idris

variable {τ : Type} {T : Tape τ} {ok : Nat → Prop} {Rep : τ → Int → (Int → Nat) → Prop}

/-- A configuration of a machine that has not halted. -/
structure At (Rep : τ → Int → (Int → Nat) → Prop) (P : Prog) (s : Nat) (t : τ) (steps : Nat) (p : Int)
    (f : Int → Nat) : Prop where
  live : s ≠ 0
  rep : Rep t p f
  run : runFor P steps initCfg = some ⟨exch s, p, f⟩

/-- `b` comes from `a` by some rounds, all from states other than the halting state. -/
inductive Reach (T : Tape τ) (prog : Program) : Nat → Nat × τ × Nat → Nat × τ × Nat → Prop where
  | refl (a) : Reach T prog 0 a a
  | step {m a s t n s' t' k rec} : Reach T prog m a (s, t, n) → s ≠ 0 →
      exec T prog s t = some (s', t', k, rec) → Reach T prog (m + 1) a (s', t', k + n)

/-- The first round of several. -/
theorem Reach.head {prog : Program} {m : Nat} {a b : Nat × τ × Nat} (h : Reach T prog m a b) :
    ∀ m', m = m' + 1 → a.1 ≠ 0 ∧ ∃ s' t' k rec, exec T prog a.1 a.2.1 = some (s', t', k, rec) ∧
      Reach T prog m' (s', t', k + a.2.2) b := by
  induction h with
  | refl a => intro m' h; omega
  | @step m a s t n s' t' k rec h hs he ih =>
    intro m' hm
    obtain rfl : m = m' := by omega
    cases m with
    | zero =>
      cases h
      exact ⟨hs, s', t', k, rec, he, .refl _⟩
    | succ m =>
      obtain ⟨h1, s1, t1, k1, rec1, h2, h3⟩ := ih m rfl
      exact ⟨h1, s1, t1, k1, rec1, h2, .step h3 hs he⟩

theorem recursFrom_translate {P : Prog} {n per : Nat} {c : Cfg} {k : Int} (hper : 0 < per)
    (hc : runFor P n initCfg = some c) (h : runFor P per c = some (c.translate k)) :
    RecursFrom P n per := by
  refine recursFrom_of_cells (k := k) (fun _ => True) hper hc h (fun _ _ _ _ => trivial) rfl rfl ?_
    (fun _ _ => trivial)
  intro x _
  simp [Cfg.translate]

theorem recursFrom_spin {P : Prog} {n : Nat} {c : Cfg} (hc : runFor P n initCfg = some c)
    (h : SpinsFrom P c) : RecursFrom P n 1 := by
  obtain ⟨col, dir, h1, h2⟩ := h
  have h0 : c.tape c.pos = 0 := by
    have := h2 0
    cases dir <;> simpa using this
  have hslot : P c.slot = some (col, dir, c.state) := by simp only [Cfg.slot, h0, h1]
  refine recursFrom_of_cells (c' := c.exec (col, dir, c.state)) (k := if dir then 1 else -1)
    (fun x => if dir then c.pos ≤ x else x ≤ c.pos) Nat.one_pos hc
    (by rw [runFor_one, step_some hslot]) ?_ rfl ?_ ?_ ?_
  · intro m hm e he
    obtain rfl : m = 0 := by omega
    cases he
    cases dir <;> simp
  · cases dir <;> simp [Cfg.exec]; omega
  · intro x hx
    cases dir
    · simp only [Bool.false_eq_true, if_false] at hx ⊢
      have a := h2 (c.pos - x).toNat
      have b := h2 (c.pos - (x - 1)).toNat
      simp only [Bool.false_eq_true, if_false] at a b
      rw [show c.pos - ((c.pos - x).toNat : Int) = x by omega] at a
      rw [show c.pos - ((c.pos - (x - 1)).toNat : Int) = x + -1 by omega] at b
      simp only [Cfg.exec]
      rw [if_neg (by omega), a, b]
    · simp only [if_true] at hx ⊢
      have a := h2 (x - c.pos).toNat
      have b := h2 (x + 1 - c.pos).toNat
      simp only [if_true] at a b
      rw [show c.pos + ((x - c.pos).toNat : Int) = x by omega] at a
      rw [show c.pos + ((x + 1 - c.pos).toNat : Int) = x + 1 by omega] at b
      simp only [Cfg.exec]
      rw [if_neg (by omega), a, b]
  · intro x hx
    cases dir
    · simp only [Bool.false_eq_true, if_false] at hx ⊢; omega
    · simp only [if_true] at hx ⊢; omega

theorem spins_translate {P : Prog} {c : Cfg} {k : Int} (h : SpinsFrom P (c.translate k)) :
    SpinsFrom P c := by
  obtain ⟨col, dir, h1, h2⟩ := h
  refine ⟨col, dir, h1, fun i => ?_⟩
  have := h2 i
  simp only [Cfg.translate] at this
  rw [← this]; congr 1
  cases dir
  · simp only [Bool.false_eq_true, if_false]; omega
  · simp only [if_true]; omega

/-- A round of a machine that has not halted. -/
theorem At.next (hT : Laws T ok Rep) {prog : Program} (hok : ∀ q c, ok (prog q c).1) {s : Nat} {t : τ}
    {n : Nat} {p : Int} {f : Int → Nat} (h : At Rep (asProg prog) s t n p f) {s' : Nat} {t' : τ}
    {k : Nat} {rec : Bool} (he : exec T prog s t = some (s', t', k, rec)) :
    (s' = s ∧ t' = t ∧ k = 0 ∧ SpinsFrom (asProg prog) ⟨exch s, p, f⟩) ∨
      (1 ≤ k ∧ ∃ p' f', Rep t' p' f' ∧
        runFor (asProg prog) k ⟨exch s, p, f⟩ = some ⟨exch s', p', f'⟩ ∧
        runFor (asProg prog) (k + n) initCfg = some ⟨exch s', p', f'⟩) := by
  rcases exec_spec hT hok h.live h.rep he with ⟨_, rfl, rfl, rfl, hsp⟩ | ⟨_, hk, _, ⟨p', f', hr, hrun⟩, _⟩
  · exact .inl ⟨rfl, rfl, rfl, hsp⟩
  · exact .inr ⟨hk, p', f', hr, hrun, by rw [Nat.add_comm]; exact runFor_trans h.run hrun⟩

/-- Rounds from a configuration: the machine is where the tape says, further on unless it spins. -/
theorem Reach.at (hT : Laws T ok Rep) {prog : Program} (hok : ∀ q c, ok (prog q c).1) {m : Nat}
    {a b : Nat × τ × Nat} (h : Reach T prog m a b) : ∀ {p f},
    At Rep (asProg prog) a.1 a.2.1 a.2.2 p f → ∃ j p' f', b.2.2 = j + a.2.2 ∧ Rep b.2.1 p' f' ∧
      runFor (asProg prog) j ⟨exch a.1, p, f⟩ = some ⟨exch b.1, p', f'⟩ ∧
      (m = 0 ∨ 1 ≤ j ∨ SpinsFrom (asProg prog) ⟨exch b.1, p', f'⟩) := by
  induction h with
  | refl a => intro p f ha; exact ⟨0, p, f, by omega, ha.rep, rfl, .inl rfl⟩
  | @step m a s t n s' t' k rec h hs he ih =>
    intro p f ha
    obtain ⟨j, p1, f1, h1, h2, h3, h4⟩ := ih ha
    have h1 : n = j + a.2.2 := h1
    have hat : At Rep (asProg prog) s t n p1 f1 :=
      ⟨hs, h2, by rw [h1, Nat.add_comm]; exact runFor_trans ha.run h3⟩
    rcases hat.next hT hok he with ⟨rfl, rfl, rfl, hsp⟩ | ⟨hk, p', f', hr, hrun, hto⟩
    · exact ⟨j, p1, f1, by simp only; omega, h2, h3, .inr (.inr hsp)⟩
    · exact ⟨j + k, p', f', by simp only; omega, hr, runFor_trans h3 hrun, .inr (.inl (by omega))⟩

/-- What a report of `runDouble` means. -/
def Found (T : Tape τ) (Rep : τ → Int → (Int → Nat) → Prop) (prog : Program) (slow : Nat) (t : τ) :
    Prop :=
  (∃ st p f k per, st ≠ 0 ∧ Rep t p f ∧
      runFor (asProg prog) slow initCfg = some ⟨exch st, p, f⟩ ∧
      (k = 0 ∨ ∃ st' t' b, exec T prog st t = some (st', t', k, b)) ∧
      RecursFrom (asProg prog) (slow + k) per) ∨
    ∃ n s, HaltsAt (asProg prog) initCfg n s

theorem reach_found (hT : Laws T ok Rep) {prog : Program} (hok : ∀ q c, ok (prog q c).1) {m : Nat}
    {s1 s2 : Nat} {t1 t2 : τ} {n1 n2 : Nat} (h : Reach T prog (m + 1) (s2, t2, n2) (s1, t1, n1))
    {p f} (ha : At Rep (asProg prog) s2 t2 n2 p f) (hs : s1 = s2) (ht : T.beq t1 t2 = true) :
    ∃ per, RecursFrom (asProg prog) n2 per := by
  subst hs
  obtain ⟨j, p', f', _, h2, h3, h4⟩ := h.at hT hok ha
  have he := hT.beq ht h2 ha.rep
  have htr : (⟨exch s1, p', f'⟩ : Cfg) = (⟨exch s1, p, f⟩ : Cfg).translate (p' - p) := by
    simp only [Cfg.translate, Cfg.mk.injEq, true_and]
    refine ⟨by omega, ?_⟩
    funext x
    have := he (x - p')
    rw [show p' + (x - p') = x by omega, show p + (x - p') = x - (p' - p) by omega] at this
    exact this
  rcases h4 with h4 | h4 | h4
  · omega
  · exact ⟨j, recursFrom_translate h4 ha.run (h3.trans (congrArg some htr))⟩
  · have h4 : SpinsFrom (asProg prog) ⟨exch s1, p', f'⟩ := h4
    rw [htr] at h4
    exact ⟨1, recursFrom_spin ha.run (spins_translate h4)⟩

theorem runDouble_spec (hT : Laws T ok Rep) {prog : Program} (hok : ∀ q c, ok (prog q c).1) :
    ∀ (lim : Nat) {m s1 s2 : Nat} {t1 t2 : τ} {n1 n2 : Nat} {p f},
      Reach T prog m (s2, t2, n2) (s1, t1, n1) → s1 ≠ 0 → (m = 0 → n1 = 0) →
      At Rep (asProg prog) s2 t2 n2 p f → ∀ {slow left t},
      runDouble T lim prog (s1, t1, n1) (s2, t2, n2) = some (some (slow, left, t)) →
      Found T Rep prog slow t := by
  intro lim
  induction lim with
  | zero => intro m s1 s2 t1 t2 n1 n2 p f _ _ _ _ slow left t h; cases h
  | succ lim ih =>
    intro m s1 s2 t1 t2 n1 n2 p f hreach hs1 hm ha slow left t h
    rw [runDouble] at h
    cases he : exec T prog s1 t1 with
    | none => rw [he] at h; cases h
    | some r =>
      obtain ⟨u1, v1, k1, r1⟩ := r
      rw [he] at h
      simp only [Option.bind_some] at h
      have hreach' := Reach.step hreach hs1 he
      by_cases hu : u1 = 0
      · subst hu
        obtain ⟨j, p', f', _, _, h3, _⟩ := hreach'.at hT hok ha
        refine .inr ⟨n2 + j, _, _, runFor_trans ha.run h3, rfl, ?_⟩
        simp only [Cfg.slot]
        exact asProg_none prog _
      · by_cases hpar : n1 % 2 = 0
        · rw [if_pos hpar] at h
          simp only [Option.bind_some] at h
          split at h
          · rename_i hcond
            simp only [Bool.and_eq_true, beq_iff_eq] at hcond
            simp only [Option.some.injEq, Prod.mk.injEq] at h
            obtain ⟨rfl, rfl, rfl⟩ := h
            obtain ⟨per, hper⟩ := reach_found hT hok hreach' ha hcond.1 hcond.2
            exact .inl ⟨s2, p, f, 0, per, ha.live, ha.rep, ha.run, .inl rfl, hper⟩
          · rw [Nat.zero_add] at h
            exact ih hreach' hu (by omega) ha h
        · rw [if_neg hpar] at h
          obtain ⟨m, rfl⟩ : ∃ m', m = m' + 1 := by
            cases m with
            | zero => have := hm rfl; omega
            | succ m => exact ⟨m, rfl⟩
          obtain ⟨_, u2, v2, k2, r2, he2, hrest⟩ := hreach'.head (m + 1) rfl
          simp only at he2 hrest
          rw [he2] at h
          simp only [Option.bind_some] at h
          have ha' : ∃ p' f', At Rep (asProg prog) u2 v2 (k2 + n2) p' f' := by
            obtain ⟨hlive, _⟩ := hrest.head m rfl
            rcases ha.next hT hok he2 with ⟨rfl, rfl, rfl, _⟩ | ⟨_, p', f', hr, _, hto⟩
            · exact ⟨p, f, ha.live, ha.rep, by rw [Nat.zero_add]; exact ha.run⟩
            · exact ⟨p', f', hlive, hr, hto⟩
          obtain ⟨p', f', ha'⟩ := ha'
          split at h
          · rename_i hcond
            simp only [Bool.and_eq_true, beq_iff_eq] at hcond
            simp only [Option.some.injEq, Prod.mk.injEq] at h
            obtain ⟨rfl, rfl, rfl⟩ := h
            obtain ⟨per, hper⟩ := reach_found hT hok hrest ha' hcond.1 hcond.2
            refine .inl ⟨s2, p, f, k2, per, ha.live, ha.rep, ha.run, .inr ⟨_, _, _, he2⟩, ?_⟩
            rw [Nat.add_comm]; exact hper
          · exact ih hrest hu (by omega) ha' h

/-! ## Recurrences are found -/

/-- The configurations between rounds, as far as rounds return. -/
def rounds (T : Tape τ) (prog : Program) : Nat → Option (Nat × τ × Nat)
  | 0 => some (1, T.blankInit, 0)
  | i + 1 => (rounds T prog i).bind fun (s, t, n) =>
      (exec T prog s t).map fun (s', t', k, _) => (s', t', k + n)

/-- How often the slow machine has moved before round `i`. -/
def slowAt (n : Nat → Nat) : Nat → Nat
  | 0 => 0
  | i + 1 => slowAt n i + n i % 2

theorem slowAt_le (n : Nat → Nat) : ∀ i, slowAt n i ≤ i
  | 0 => Nat.le_refl 0
  | i + 1 => by have := slowAt_le n i; have := Nat.mod_lt (n i) (show 2 > 0 by omega); simp only [slowAt]; omega

theorem slowAt_mono (n : Nat → Nat) (i : Nat) : ∀ k, slowAt n i ≤ slowAt n (i + k) ∧
    i - slowAt n i ≤ i + k - slowAt n (i + k)
  | 0 => ⟨Nat.le_refl _, Nat.le_refl _⟩
  | k + 1 => by
    obtain ⟨h1, h2⟩ := slowAt_mono n i k
    have h3 := slowAt_le n (i + k)
    have h4 := Nat.mod_lt (n (i + k)) (show 2 > 0 by omega)
    rw [← Nat.add_assoc]
    simp only [slowAt]
    omega

/-- If both parities come again and again, both machines get arbitrarily far apart and arbitrarily far. -/
theorem slowAt_unbounded {n : Nat → Nat} (hodd : ∀ i, ∃ j, i ≤ j ∧ n j % 2 = 1)
    (heven : ∀ i, ∃ j, i ≤ j ∧ n j % 2 = 0) : ∀ b, ∃ i, b ≤ slowAt n i ∧ b ≤ i - slowAt n i
  | 0 => ⟨0, by omega, by omega⟩
  | b + 1 => by
    obtain ⟨i, h1, h2⟩ := slowAt_unbounded hodd heven b
    obtain ⟨j, hj, ho⟩ := hodd i
    obtain ⟨j', hj', he⟩ := heven (j + 1)
    have a := slowAt_mono n i (j - i)
    rw [show i + (j - i) = j by omega] at a
    have b' := slowAt_mono n (j + 1) (j' - (j + 1))
    rw [show j + 1 + (j' - (j + 1)) = j' by omega] at b'
    refine ⟨j' + 1, ?_, ?_⟩
    · simp only [slowAt] at b' ⊢; omega
    · have := slowAt_le n j'; have := slowAt_le n j; simp only [slowAt] at b' ⊢; omega

/-- The distance takes every value above one that it has. -/
theorem slowAt_hits {n : Nat → Nat} (i : Nat) : ∀ k b, i - slowAt n i ≤ b →
    b ≤ i + k - slowAt n (i + k) → ∃ j, i ≤ j ∧ j - slowAt n j = b
  | 0, b, h1, h2 => ⟨i, Nat.le_refl i, by rw [Nat.add_zero] at h2; omega⟩
  | k + 1, b, h1, h2 => by
    by_cases h : b ≤ i + k - slowAt n (i + k)
    · exact slowAt_hits i k b h1 h
    · refine ⟨i + (k + 1), by omega, ?_⟩
      have h3 := slowAt_le n (i + k)
      rw [← Nat.add_assoc] at h2 ⊢
      simp only [slowAt] at h2 ⊢
      omega

section Find

variable {prog : Program} {s : Nat → Nat} {t : Nat → τ} {n : Nat → Nat}

/-- The double run follows the sequence of rounds. -/
theorem runDouble_rounds (hr : ∀ i, rounds T prog i = some (s i, t i, n i)) :
    ∀ (j i : Nat), (∃ r, runDouble T j prog (s i, t i, n i)
        (s (slowAt n i), t (slowAt n i), n (slowAt n i)) = some (some r)) ∨
      (runDouble T j prog (s i, t i, n i) (s (slowAt n i), t (slowAt n i), n (slowAt n i)) = some none ∧
        ∀ i', i < i' → i' ≤ i + j →
          ¬ (s i' = s (slowAt n i') ∧ T.beq (t i') (t (slowAt n i')) = true)) := by
  have hnext : ∀ i, ∃ k b, exec T prog (s i) (t i) = some (s (i + 1), t (i + 1), k, b) ∧
      k + n i = n (i + 1) := by
    intro i
    have h := hr (i + 1)
    rw [rounds, hr i] at h
    simp only [Option.bind_some] at h
    cases he : exec T prog (s i) (t i) with
    | none => rw [he] at h; cases h
    | some x =>
      obtain ⟨a, b, c, d⟩ := x
      rw [he] at h
      simp only [Option.map_some, Option.some.injEq, Prod.mk.injEq] at h
      obtain ⟨rfl, rfl, h3⟩ := h
      exact ⟨c, d, rfl, h3⟩
  intro j
  induction j with
  | zero => intro i; exact .inr ⟨rfl, fun i' h1 h2 => absurd h2 (by omega)⟩
  | succ j ih =>
    intro i
    obtain ⟨k, b, he, hk⟩ := hnext i
    have hslow : ∃ k' b', (if n i % 2 = 0 then some (s (slowAt n i), t (slowAt n i), 0, false)
        else exec T prog (s (slowAt n i)) (t (slowAt n i))) =
          some (s (slowAt n (i + 1)), t (slowAt n (i + 1)), k', b') ∧
        k' + n (slowAt n i) = n (slowAt n (i + 1)) := by
      by_cases hp : n i % 2 = 0
      · rw [if_pos hp]
        simp only [slowAt, hp, Nat.add_zero]
        exact ⟨0, false, rfl, by omega⟩
      · rw [if_neg hp]
        simp only [slowAt, show n i % 2 = 1 by omega]
        exact hnext _
    obtain ⟨k', b', he', hk'⟩ := hslow
    rw [runDouble, he]
    simp only [Option.bind_some]
    rw [he']
    simp only [Option.bind_some]
    by_cases hc : (s (i + 1) == s (slowAt n (i + 1)) && T.beq (t (i + 1)) (t (slowAt n (i + 1)))) = true
    · rw [if_pos hc]; exact .inl ⟨_, rfl⟩
    · rw [if_neg hc, hk, hk']
      rcases ih (i + 1) with h | ⟨h1, h2⟩
      · exact .inl h
      · refine .inr ⟨h1, fun i' h3 h4 => ?_⟩
        by_cases hi : i' = i + 1
        · subst hi
          rintro ⟨h5, h6⟩
          apply hc
          rw [Bool.and_eq_true, beq_iff_eq]
          exact ⟨h5, h6⟩
        · exact h2 i' (by omega) (by omega)

/-- A sequence of rounds that comes back to the same state and tape, having been in different states
meanwhile, is found. -/
theorem runDouble_finds (hr : ∀ i, rounds T prog i = some (s i, t i, n i))
    (hrefl : ∀ x, T.beq x x = true)
    (hstep : ∀ i, s (i + 1) ≠ s i → n (i + 1) = n i + 1)
    {a P : Nat} (hP : 0 < P) (hs : s (a + P) = s a) (ht : t (a + P) = t a)
    {c : Nat} (hc : a ≤ c) (hch : s (c + 1) ≠ s c) :
    ∃ lim r, runDoubleOnBlank T lim prog = some (some r) := by
  have hper : ∀ i, s (a + i + P) = s (a + i) ∧ t (a + i + P) = t (a + i) := by
    have key : ∀ i j, s i = s j → t i = t j → s (i + 1) = s (j + 1) ∧ t (i + 1) = t (j + 1) := by
      intro i j h1 h2
      have hi := hr (i + 1)
      have hj := hr (j + 1)
      rw [rounds, hr i] at hi
      rw [rounds, hr j] at hj
      simp only [Option.bind_some, h1, h2] at hi hj
      cases he : exec T prog (s j) (t j) with
      | none => rw [he] at hj; cases hj
      | some x =>
        rw [he] at hi hj
        simp only [Option.map_some, Option.some.injEq, Prod.mk.injEq] at hi hj
        exact ⟨hi.1.symm.trans hj.1, hi.2.1.symm.trans hj.2.1⟩
    intro i
    induction i with
    | zero => exact ⟨hs, ht⟩
    | succ i ih =>
      have := key _ _ ih.1 ih.2
      rw [show a + (i + 1) + P = a + i + P + 1 by omega, show a + (i + 1) = a + i + 1 by omega]
      exact this
  have hpers : ∀ k i, s (a + i + k * P) = s (a + i) ∧ t (a + i + k * P) = t (a + i) := by
    intro k
    induction k with
    | zero => intro i; simp
    | succ k ih =>
      intro i
      have h1 := ih (i + P)
      have h2 := hper i
      rw [show a + i + (k + 1) * P = a + (i + P) + k * P by rw [Nat.succ_mul]; omega, h1.1, h1.2,
        ← Nat.add_assoc]
      exact h2
  have hflip : ∀ i, ∃ j, i ≤ j ∧ n (j + 1) = n j + 1 := by
    intro i
    have h1 := (hpers i (c - a)).1
    have h2 := (hpers i (c + 1 - a)).1
    rw [show a + (c - a) = c by omega] at h1
    rw [show a + (c + 1 - a) = c + 1 by omega, show c + 1 + i * P = c + i * P + 1 by omega] at h2
    refine ⟨c + i * P, ?_, hstep _ (by rw [h1, h2]; exact hch)⟩
    have := Nat.le_mul_of_pos_right i hP
    omega
  obtain ⟨i0, h1, _⟩ := slowAt_unbounded (n := n)
    (fun i => by
      obtain ⟨j, hj, e⟩ := hflip i
      by_cases h : n j % 2 = 1
      · exact ⟨j, hj, h⟩
      · exact ⟨j + 1, by omega, by omega⟩)
    (fun i => by
      obtain ⟨j, hj, e⟩ := hflip i
      by_cases h : n j % 2 = 0
      · exact ⟨j, hj, h⟩
      · exact ⟨j + 1, by omega, by omega⟩) a
  obtain ⟨i1, _, h2⟩ := slowAt_unbounded (n := n)
    (fun i => by
      obtain ⟨j, hj, e⟩ := hflip i
      by_cases h : n j % 2 = 1
      · exact ⟨j, hj, h⟩
      · exact ⟨j + 1, by omega, by omega⟩)
    (fun i => by
      obtain ⟨j, hj, e⟩ := hflip i
      by_cases h : n j % 2 = 0
      · exact ⟨j, hj, h⟩
      · exact ⟨j + 1, by omega, by omega⟩) ((i0 + 1) * P)
  have hle : i0 + 1 ≤ (i0 + 1) * P := Nat.le_mul_of_pos_right _ hP
  have hi01 : i0 ≤ i1 := by omega
  obtain ⟨j, hj, hd⟩ := slowAt_hits (n := n) i0 (i1 - i0) ((i0 + 1) * P) (by omega)
    (by rw [show i0 + (i1 - i0) = i1 by omega]; exact h2)
  have hjle := slowAt_le n j
  have hmono := (slowAt_mono n i0 (j - i0)).1
  rw [show i0 + (j - i0) = j by omega] at hmono
  have heq := hpers (i0 + 1) (slowAt n j - a)
  rw [show a + (slowAt n j - a) = slowAt n j by omega, ← hd,
    show slowAt n j + (j - slowAt n j) = j by omega] at heq
  have h0 : rounds T prog 0 = some (1, T.blankInit, 0) := rfl
  rw [hr 0] at h0
  simp only [Option.some.injEq, Prod.mk.injEq] at h0
  rcases runDouble_rounds hr j 0 with ⟨r, h⟩ | ⟨_, h⟩
  · refine ⟨j, ?_⟩
    have e : runDouble T j prog (1, T.blankInit, 0) (1, T.blankInit, 0) = some (some r) := by
      have h' := h
      rw [show slowAt n 0 = 0 from rfl, h0.1, h0.2.1, h0.2.2] at h'
      exact h'
    rw [runDoubleOnBlank, e]
    exact ⟨_, rfl⟩
  · exact absurd ⟨heq.1, by rw [heq.2]; exact hrefl _⟩ (h j (by omega) (by omega))

end Find

end BB.Idris
