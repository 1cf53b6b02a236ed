import Verif.Lemmas.IdrisTape
import Verif.Lemmas.Forever
import Verif.Spec.Total

/-! # Runs of the Idris machines -/

namespace BB.Idris

/-- The machine of an Idris program. -/
def asProg (prog : Program) : Prog :=
  totalProg fun q c => ((prog q c).1, decide ((prog q c).2.1 = .R), (prog q c).2.2)

theorem exch_exch (n : Nat) : exch (exch n) = n := by
  rcases n with _ | _ | n <;> rfl

theorem exch_inj {a b : Nat} (h : exch a = exch b) : a = b := by
  rw [← exch_exch a, h, exch_exch]

theorem asProg_some (prog : Program) {s : Nat} (hs : s ≠ 0) (c : Nat) :
    asProg prog (exch s, c) =
      some ((prog s c).1, decide ((prog s c).2.1 = .R), exch (prog s c).2.2) := by
  unfold asProg totalProg
  simp only
  rw [if_neg (fun h => hs (exch_inj h)), exch_exch]

theorem asProg_none (prog : Program) (c : Nat) : asProg prog (exch 0, c) = none := by
  unfold asProg totalProg
  exact if_pos rfl

theorem sgn_bool (d : Shift) (p : Int) :
    (if decide (d = .R) = true then p + 1 else p - 1) = p + sgn d := by
  cases d <;> simp [sgn]; omega

theorem sweep_zero (f : Int → Nat) (p : Int) (d : Shift) (cx : Nat) : sweep f p d 0 cx = f := by
  funext x
  cases d <;> simp only [sweep] <;> rw [if_neg (by omega)]

theorem sweep_ahead (f : Int → Nat) (p : Int) (d : Shift) (n cx k : Nat) :
    sweep f p d n cx (p + sgn d * ((n + k : Nat) : Int)) = f (p + sgn d * ((n + k : Nat) : Int)) := by
  cases d <;> simp only [sweep] <;> rw [if_neg (by simp only [sgn]; omega)]

/-- Moves of one instruction over cells of the scanned colour. -/
theorem runFor_sweep {prog : Program} {s : Nat} (hs : s ≠ 0) {p : Int} {f : Int → Nat} {cx : Nat}
    {d : Shift} (hp : prog s (f p) = (cx, d, s)) {n : Nat}
    (hc : ∀ i : Nat, i < n → f (p + sgn d * i) = f p) :
    ∀ m, m ≤ n → runFor (asProg prog) m ⟨exch s, p, f⟩ =
      some ⟨exch s, p + sgn d * m, sweep f p d m cx⟩ := by
  intro m
  induction m with
  | zero => intro _; simp [runFor, sweep_zero]
  | succ m ih =>
    intro hm
    rw [runFor_succ', ih (by omega), Option.bind_some]
    have e : sweep f p d m cx (p + sgn d * (m : Int)) = f p := by
      have := sweep_ahead f p d m cx 0
      rw [Nat.add_zero] at this
      rw [this]; exact hc m (by omega)
    have hslot : asProg prog (Cfg.slot ⟨exch s, p + sgn d * m, sweep f p d m cx⟩) =
        some (cx, decide (d = .R), exch s) := by
      simp only [Cfg.slot, e]
      rw [asProg_some prog hs, hp]
    rw [step_some hslot]
    simp only [Cfg.exec, Option.some.injEq, Cfg.mk.injEq, true_and]
    refine ⟨?_, ?_⟩
    · rw [sgn_bool]; cases d <;> simp only [sgn] <;> omega
    · funext x
      cases d
      · simp only [sweep]
        by_cases hx : x = p + sgn .L * (m : Int)
        · rw [if_pos hx]; simp only [sgn] at hx; rw [if_pos (by omega)]
        · rw [if_neg hx]
          simp only [sgn] at hx
          by_cases hx' : p - m < x ∧ x ≤ p
          · rw [if_pos hx', if_pos (by omega)]
          · rw [if_neg hx', if_neg (by omega)]
      · simp only [sweep]
        by_cases hx : x = p + sgn .R * (m : Int)
        · rw [if_pos hx]; simp only [sgn] at hx; rw [if_pos (by omega)]
        · rw [if_neg hx]
          simp only [sgn] at hx
          by_cases hx' : p ≤ x ∧ x < p + m
          · rw [if_pos hx', if_pos (by omega)]
          · rw [if_neg hx', if_neg (by omega)]

/-- A single move. -/
theorem runFor_move {prog : Program} {s s' : Nat} (hs : s ≠ 0) {p : Int} {f : Int → Nat} {cx : Nat}
    {d : Shift} (hp : prog s (f p) = (cx, d, s')) :
    runFor (asProg prog) 1 ⟨exch s, p, f⟩ = some ⟨exch s', p + sgn d, sweep f p d 1 cx⟩ := by
  have hslot : asProg prog (Cfg.slot ⟨exch s, p, f⟩) = some (cx, decide (d = .R), exch s') := by
    simp only [Cfg.slot]
    rw [asProg_some prog hs, hp]
  rw [runFor_one, step_some hslot]
  simp only [Cfg.exec, Option.some.injEq, Cfg.mk.injEq, true_and]
  refine ⟨sgn_bool d p, ?_⟩
  funext x
  cases d
  · simp only [sweep]
    by_cases hx : x = p
    · rw [if_pos hx, if_pos (by omega)]
    · rw [if_neg hx, if_neg (by omega)]
  · simp only [sweep]
    by_cases hx : x = p
    · rw [if_pos hx, if_pos (by omega)]
    · rw [if_neg hx, if_neg (by omega)]

/-- A half swept tape is blank only if the tape was. -/
theorem blank_of_sweep {f : Int → Nat} {p : Int} {d : Shift} {cx m n : Nat} (hm : 1 ≤ m)
    (hmn : m < n) (hc : ∀ i : Nat, i < n → f (p + sgn d * i) = f p)
    (hb : ∀ x, sweep f p d m cx x = 0) : ∀ x, f x = 0 := by
  have h0 : f p = 0 := by
    have := sweep_ahead f p d m cx 0
    rw [Nat.add_zero] at this
    rw [← hc m hmn, ← this]; exact hb _
  intro x
  cases d
  · by_cases hx : p - m < x ∧ x ≤ p
    · have := hc (p - x).toNat (by omega)
      rw [h0] at this
      rw [← this]; congr 1; simp only [sgn]; omega
    · have := hb x
      simp only [sweep] at this
      rwa [if_neg hx] at this
  · by_cases hx : p ≤ x ∧ x < p + m
    · have := hc (x - p).toNat (by omega)
      rw [h0] at this
      rw [← this]; congr 1; simp only [sgn]; omega
    · have := hb x
      simp only [sweep] at this
      rwa [if_neg hx] at this

theorem spins_neverHalts {p : Prog} {d : Cfg} (h : SpinsFrom p d) : NeverHalts p d := by
  obtain ⟨c, dir, h1, h2⟩ := h
  refine neverHalts_spinout h1 fun k => ?_
  rw [← h2 k]; congr 1
  cases dir <;> simp [disp]; omega

/-- Spinning out goes on. -/
theorem spins_next {p : Prog} {d e : Cfg} (h : SpinsFrom p d) (hs : step p d = some e) :
    SpinsFrom p e := by
  obtain ⟨c, dir, h1, h2⟩ := h
  have h0 : d.tape d.pos = 0 := by
    have := h2 0
    cases dir <;> simpa using this
  have hslot : p d.slot = some (c, dir, d.state) := by simp only [Cfg.slot, h0, h1]
  rw [step_some hslot] at hs
  obtain rfl := Option.some.inj hs
  refine ⟨c, dir, h1, fun k => ?_⟩
  have := h2 (k + 1)
  cases dir
  · simp only [Bool.false_eq_true, if_false, Cfg.exec] at this ⊢
    rw [if_neg (by omega), ← this]; congr 1; omega
  · simp only [if_true, Cfg.exec] at this ⊢
    rw [if_neg (by omega), ← this]; congr 1; omega

theorem spins_later {p : Prog} {n : Nat} : ∀ {d e : Cfg}, SpinsFrom p d →
    runFor p n d = some e → SpinsFrom p e := by
  induction n with
  | zero => intro d e h he; cases he; exact h
  | succ n ih =>
    intro d e h he
    simp only [runFor] at he
    cases hs : step p d with
    | none => rw [hs] at he; cases he
    | some d' => rw [hs] at he; exact ih (spins_next h hs) he

section

variable {τ : Type} {T : Tape τ} {ok : Nat → Prop} {Rep : τ → Int → (Int → Nat) → Prop}

/-- What one round of `exec` does. -/
theorem exec_spec (hT : Laws T ok Rep) {prog : Program} (hok : ∀ q c, ok (prog q c).1) {s : Nat}
    (hs : s ≠ 0) {t : τ} {p : Int} {f : Int → Nat} (h : Rep t p f) {s' : Nat} {t' : τ} {n : Nat}
    {rec : Bool} (he : exec T prog s t = some (s', t', n, rec)) :
    (rec = true ∧ s' = s ∧ t' = t ∧ n = 0 ∧ SpinsFrom (asProg prog) ⟨exch s, p, f⟩) ∨
    (rec = false ∧ 1 ≤ n ∧ (t = T.blankInit → n = 1) ∧
      (∃ p' f', Rep t' p' f' ∧
        runFor (asProg prog) n ⟨exch s, p, f⟩ = some ⟨exch s', p', f'⟩) ∧
      ∀ m d, 1 ≤ m → m < n → runFor (asProg prog) m ⟨exch s, p, f⟩ = some d → d.Blank →
        ∀ x, f x = 0) := by
  unfold exec at he
  rcases hr : T.read t with ⟨scan, edge⟩
  have hscan : scan = f p := by
    have := hT.scan h; rw [hr] at this; exact this
  subst hscan
  rcases hp : prog s (f p) with ⟨cx, d, s1⟩
  rw [hr] at he
  simp only [hp] at he
  have hcx : ok cx := by have := hok s (f p); rw [hp] at this; exact this
  split at he
  · rename_i hcond
    simp only [Bool.and_eq_true, beq_iff_eq] at hcond
    obtain ⟨rfl, hedge⟩ := hcond
    simp only [Option.some.injEq, Prod.mk.injEq] at he
    obtain ⟨rfl, rfl, rfl, rfl⟩ := he
    refine .inl ⟨rfl, rfl, rfl, rfl, ?_⟩
    rcases edge with _ | dir
    · cases hedge
    · simp only [checkEdge, beq_iff_eq] at hedge
      subst hedge
      cases d with
      | L =>
        obtain ⟨h0, hz⟩ := hT.edgeL h (by rw [hr])
        refine ⟨cx, false, ?_, fun k => ?_⟩
        · show asProg prog (exch s, 0) = _
          rw [asProg_some prog hs, ← h0, hp]; rfl
        · simp only [Bool.false_eq_true, if_false]
          rcases Nat.eq_zero_or_pos k with rfl | hk
          · simpa using h0
          · exact hz _ (by omega)
      | R =>
        obtain ⟨h0, hz⟩ := hT.edgeR h (by rw [hr])
        refine ⟨cx, true, ?_, fun k => ?_⟩
        · show asProg prog (exch s, 0) = _
          rw [asProg_some prog hs, ← h0, hp]; rfl
        · simp only [if_true]
          rcases Nat.eq_zero_or_pos k with rfl | hk
          · simpa using h0
          · exact hz _ (by omega)
  · by_cases hst : s = s1
    · subst hst
      rw [if_pos rfl] at he
      cases hk : T.skip d t cx with
      | none => rw [hk] at he; cases he
      | some nt =>
        obtain ⟨n', t1⟩ := nt
        rw [hk] at he
        simp only [Option.map_some, Option.some.injEq, Prod.mk.injEq] at he
        obtain ⟨rfl, rfl, rfl, rfl⟩ := he
        obtain ⟨h1, h2, h3⟩ := hT.skip h hcx hk
        refine .inr ⟨rfl, h1, ?_, ⟨_, _, h3, runFor_sweep hs hp h2 _ (le_refl _)⟩, ?_⟩
        · rintro rfl
          exact hT.skipInit hcx hk
        · intro m e hm hmn hrun hb
          rw [runFor_sweep hs hp h2 m (by omega)] at hrun
          obtain rfl := Option.some.inj hrun
          exact blank_of_sweep hm hmn h2 hb
    · rw [if_neg hst] at he
      simp only [Option.map_some, Option.some.injEq, Prod.mk.injEq] at he
      obtain ⟨rfl, rfl, rfl, rfl⟩ := he
      obtain ⟨h1, h2⟩ := hT.step d h hcx
      refine .inr ⟨rfl, by omega, fun _ => h1, ⟨_, _, h2, ?_⟩, ?_⟩
      · rw [h1]; exact runFor_move hs hp
      · intro m e hm hmn; omega

/-- No blank tape at moves `1 … n`. -/
def NoBlank (P : Prog) (n : Nat) : Prop :=
  ∀ m d, 1 ≤ m → m ≤ n → runFor P m initCfg = some d → ¬ d.Blank

/-- The state of a run between rounds. -/
structure Inv (T : Tape τ) (Rep : τ → Int → (Int → Nat) → Prop) (P : Prog) (s : Nat) (t : τ)
    (steps : Nat) (p : Int) (f : Int → Nat) : Prop where
  live : s ≠ 0
  rep : Rep t p f
  run : runFor P steps initCfg = some ⟨exch s, p, f⟩
  noBlank : NoBlank P steps
  start : (∀ x, f x = 0) → t = T.blankInit ∧ steps = 0

theorem Inv.next (hT : Laws T ok Rep) {prog : Program} (hok : ∀ q c, ok (prog q c).1) {s : Nat}
    {t : τ} {steps : Nat} {p : Int} {f : Int → Nat} (h : Inv T Rep (asProg prog) s t steps p f)
    {s' : Nat} {t' : τ} {n : Nat} {rec : Bool} (he : exec T prog s t = some (s', t', n, rec)) :
    (rec = true ∧ s' = s ∧ t' = t ∧ n = 0 ∧ SpinsFrom (asProg prog) ⟨exch s, p, f⟩) ∨
    (rec = false ∧ 1 ≤ n ∧ ∃ p' f', Rep t' p' f' ∧
      runFor (asProg prog) (n + steps) initCfg = some ⟨exch s', p', f'⟩ ∧
      (∀ m d, 1 ≤ m → m < n + steps → runFor (asProg prog) m initCfg = some d → ¬ d.Blank) ∧
      (s' ≠ 0 → T.blank t' = false → Inv T Rep (asProg prog) s' t' (n + steps) p' f')) := by
  rcases exec_spec hT hok h.live h.rep he with hspin | ⟨rfl, hn, hinit, ⟨p', f', hr, hrun⟩, hmid⟩
  · exact .inl hspin
  · have hto : runFor (asProg prog) (n + steps) initCfg = some ⟨exch s', p', f'⟩ := by
      rw [Nat.add_comm]; exact runFor_trans h.run hrun
    have hnb : ∀ m d, 1 ≤ m → m < n + steps → runFor (asProg prog) m initCfg = some d →
        ¬ d.Blank := by
      intro m d hm hlt hd hb
      by_cases hms : m ≤ steps
      · exact h.noBlank m d hm hms hd hb
      · obtain ⟨k, rfl⟩ : ∃ k, m = steps + k := ⟨m - steps, by omega⟩
        rw [runFor_add, h.run] at hd
        obtain ⟨e1, e2⟩ := h.start (hmid k d (by omega) (by omega) hd hb)
        have := hinit e1
        omega
    refine .inr ⟨rfl, hn, p', f', hr, hto, hnb, fun hs' hb => ⟨hs', hr, hto, ?_, ?_⟩⟩
    · intro m d hm hle hd
      rcases Nat.lt_or_ge m (n + steps) with hlt | hge
      · exact hnb m d hm hlt hd
      · obtain rfl : m = n + steps := by omega
        rw [hto] at hd
        obtain rfl := Option.some.inj hd
        intro hbl
        rw [(hT.blank hr).mpr hbl] at hb; cases hb
    · intro hz
      rw [(hT.blank hr).mpr hz] at hb; cases hb

/-- What a run that ends has found. -/
theorem run_spec (hT : Laws T ok Rep) {prog : Program} (hok : ∀ q c, ok (prog q c).1) :
    ∀ (lim : Nat) {s : Nat} {t : τ} {steps : Nat} {p : Int} {f : Int → Nat},
      Inv T Rep (asProg prog) s t steps p f → ∀ {steps' left : Nat} {t' : τ},
      run T lim prog s t steps = some (some (steps', left, t')) →
      left < lim ∧ lim - left ≤ steps' - steps + 1 ∧ steps ≤ steps' ∧
      ∃ s' p' f', Rep t' p' f' ∧ runFor (asProg prog) steps' initCfg = some ⟨exch s', p', f'⟩ ∧
        (∀ m d, 1 ≤ m → m < steps' → runFor (asProg prog) m initCfg = some d → ¬ d.Blank) ∧
        (s' = 0 ∨ (1 ≤ steps' ∧ ∀ x, f' x = 0) ∨ SpinsFrom (asProg prog) ⟨exch s', p', f'⟩) := by
  intro lim
  induction lim with
  | zero => intro s t steps p f _ steps' left t' h; cases h
  | succ lim ih =>
    intro s t steps p f hI steps' left t' h
    rw [run] at h
    cases he : exec T prog s t with
    | none => rw [he] at h; cases h
    | some r =>
      obtain ⟨s1, t1, n, rec⟩ := r
      rw [he] at h
      simp only [Option.bind_some] at h
      rcases hI.next hT hok he with ⟨rfl, rfl, rfl, rfl, hspin⟩ | ⟨rfl, hn, p', f', hr, hto, hnb, hI'⟩
      · rw [if_pos (by simp)] at h
        simp only [Option.some.injEq, Prod.mk.injEq] at h
        obtain ⟨rfl, rfl, rfl⟩ := h
        refine ⟨by omega, by omega, by omega, _, p, f, hI.rep, ?_, ?_, .inr (.inr hspin)⟩
        · rw [Nat.zero_add]; exact hI.run
        · intro m d hm hlt
          exact hI.noBlank m d hm (by omega)
      · by_cases hcond : (s1 == halt || T.blank t1 || false) = true
        · rw [if_pos hcond] at h
          simp only [Option.some.injEq, Prod.mk.injEq] at h
          obtain ⟨rfl, rfl, rfl⟩ := h
          refine ⟨by omega, by omega, by omega, s1, p', f', hr, hto, hnb, ?_⟩
          simp only [Bool.or_false, Bool.or_eq_true, beq_iff_eq] at hcond
          rcases hcond with h0 | hb
          · exact .inl h0
          · exact .inr (.inl ⟨by omega, (hT.blank hr).mp hb⟩)
        · rw [if_neg hcond] at h
          simp only [Bool.or_false, Bool.or_eq_true, beq_iff_eq, not_or] at hcond
          obtain ⟨a, b, c, d⟩ := ih (hI' hcond.1 (by simpa using hcond.2)) h
          exact ⟨by omega, by omega, by omega, d⟩

theorem Inv.init (hT : Laws T ok Rep) (prog : Program) :
    Inv T Rep (asProg prog) 1 T.blankInit 0 0 (fun _ => 0) where
  live := by omega
  rep := hT.init
  run := rfl
  noBlank := by intro m d h1 h2; omega
  start := fun _ => ⟨rfl, rfl⟩

/-- A run that hits the limit. -/
theorem run_limit (hT : Laws T ok Rep) {prog : Program} (hok : ∀ q c, ok (prog q c).1) :
    ∀ (lim : Nat) {s : Nat} {t : τ} {steps : Nat} {p : Int} {f : Int → Nat},
      Inv T Rep (asProg prog) s t steps p f → run T lim prog s t steps = some none →
      ∃ n s' t' p' f', lim + steps ≤ n ∧ Inv T Rep (asProg prog) s' t' n p' f' := by
  intro lim
  induction lim with
  | zero => intro s t steps p f hI _; exact ⟨steps, s, t, p, f, by omega, hI⟩
  | succ lim ih =>
    intro s t steps p f hI h
    rw [run] at h
    cases he : exec T prog s t with
    | none => rw [he] at h; cases h
    | some r =>
      obtain ⟨s1, t1, n, rec⟩ := r
      rw [he] at h
      simp only [Option.bind_some] at h
      rcases hI.next hT hok he with ⟨rfl, rfl, rfl, rfl, hspin⟩ | ⟨rfl, hn, p', f', hr, hto, hnb, hI'⟩
      · rw [if_pos (by simp)] at h
        cases h
      · by_cases hcond : (s1 == halt || T.blank t1 || false) = true
        · rw [if_pos hcond] at h; cases h
        · rw [if_neg hcond] at h
          simp only [Bool.or_false, Bool.or_eq_true, beq_iff_eq, not_or] at hcond
          obtain ⟨n', s', t', p1, f1, h1, h2⟩ := ih (hI' hcond.1 (by simpa using hcond.2)) h
          exact ⟨n', s', t', p1, f1, by omega, h2⟩

/-- The edge towards which the machine spins out is noticed, but for the blank tape. -/
theorem exec_spin (hT : Exact T ok Rep) {prog : Program} {s : Nat} (hs : s ≠ 0) {t : τ} {p : Int}
    {f : Int → Nat} (h : Rep t p f) (hspin : SpinsFrom (asProg prog) ⟨exch s, p, f⟩)
    (hnb : ∃ x, f x ≠ 0) : exec T prog s t = some (s, t, 0, true) := by
  obtain ⟨c, dir, h1, h2⟩ := hspin
  simp only at h1 h2
  rw [asProg_some prog hs] at h1
  simp only [Option.some.injEq, Prod.mk.injEq] at h1
  obtain ⟨rfl, hd, hst⟩ := h1
  have hst := exch_inj hst
  have h0 : f p = 0 := by
    have := h2 0
    cases dir <;> simpa using this
  have hscan := hT.scan h
  unfold exec
  rcases hr : T.read t with ⟨scan, edge⟩
  rw [hr, h0] at hscan
  simp only at hscan
  subst hscan
  rcases hp : prog s 0 with ⟨cx, d, s1⟩
  rw [hp] at hd hst
  simp only at hd hst
  subst hst
  simp only [hp]
  rw [if_pos]
  simp only [beq_self_eq_true, Bool.true_and]
  cases d with
  | L =>
    obtain rfl : dir = false := by rw [← hd]; rfl
    have : (T.read t).2 = some .L := hT.seesL h h0 (by
      intro x hx
      have := h2 (p - x).toNat
      simp only [Bool.false_eq_true, if_false] at this
      rwa [show p - ((p - x).toNat : Int) = x by omega] at this)
    rw [hr] at this
    simp only at this
    subst this
    rfl
  | R =>
    obtain rfl : dir = true := by rw [← hd]; rfl
    have hright : ∀ x, p < x → f x = 0 := by
      intro x hx
      have := h2 (x - p).toNat
      simp only [if_true] at this
      rwa [show p + ((x - p).toNat : Int) = x by omega] at this
    have : (T.read t).2 = some .R := hT.seesR h h0 hright (by
      obtain ⟨x, hx⟩ := hnb
      refine ⟨x, ?_, hx⟩
      rcases lt_trichotomy x p with h' | h' | h'
      · exact h'
      · rw [h'] at hx; exact absurd h0 hx
      · exact absurd (hright x h') hx)
    rw [hr] at this
    simp only at this
    subst this
    rfl

/-- A run of at least one more round that hits the limit does not spin out before the last round. -/
theorem run_limit_spin (hT : Exact T ok Rep) {prog : Program} (hok : ∀ q c, ok (prog q c).1) :
    ∀ (lim : Nat) {s : Nat} {t : τ} {steps : Nat} {p : Int} {f : Int → Nat},
      Inv T Rep (asProg prog) s t steps p f → (∃ x, f x ≠ 0) →
      run T (lim + 1) prog s t steps = some none →
      ∃ n d, lim + steps ≤ n ∧ runFor (asProg prog) n initCfg = some d ∧
        ¬ SpinsFrom (asProg prog) d := by
  intro lim
  induction lim with
  | zero =>
    intro s t steps p f hI hnb h
    refine ⟨steps, _, by omega, hI.run, fun hspin => ?_⟩
    rw [run, exec_spin hT hI.live hI.rep hspin hnb] at h
    simp at h
  | succ lim ih =>
    intro s t steps p f hI hnb h
    rw [run] at h
    cases he : exec T prog s t with
    | none => rw [he] at h; cases h
    | some r =>
      obtain ⟨s1, t1, n, rec⟩ := r
      rw [he] at h
      simp only [Option.bind_some] at h
      rcases hI.next hT.toLaws hok he with
        ⟨rfl, rfl, rfl, rfl, hspin⟩ | ⟨rfl, hn, p', f', hr, hto, hnb', hI'⟩
      · rw [if_pos (by simp)] at h
        cases h
      · by_cases hcond : (s1 == halt || T.blank t1 || false) = true
        · rw [if_pos hcond] at h; cases h
        · rw [if_neg hcond] at h
          simp only [Bool.or_false, Bool.or_eq_true, beq_iff_eq, not_or] at hcond
          have hI' := hI' hcond.1 (by simpa using hcond.2)
          have hx : ∃ x, f' x ≠ 0 := by
            by_contra hall
            push Not at hall
            have := (hI'.start hall).2
            omega
          obtain ⟨n', d, h1, h2⟩ := ih hI' hx h
          exact ⟨n', d, by omega, h2⟩

end

/-! ## Two tapes -/

section

variable {τ τ' : Type} {T : Tape τ} {T' : Tape τ'} {ok ok' : Nat → Prop}
  {Rep : τ → Int → (Int → Nat) → Prop} {Rep' : τ' → Int → (Int → Nat) → Prop}

/-- Two tapes that notice edges and skip everything do the same. -/
theorem exec_agree (hT : Exact T ok Rep) (hT' : Exact T' ok' Rep') {prog : Program}
    (hok : ∀ q c, ok (prog q c).1) (hok' : ∀ q c, ok' (prog q c).1) (s : Nat) {t : τ} {t' : τ'}
    {p : Int} {f : Int → Nat} (h : Rep t p f) (h' : Rep' t' p f)
    (hst : (∃ x, f x ≠ 0) ∨ (t = T.blankInit ∧ t' = T'.blankInit)) :
    ∃ s1 u u' n rec p' f', exec T prog s t = some (s1, u, n, rec) ∧
      exec T' prog s t' = some (s1, u', n, rec) ∧ Rep u p' f' ∧ Rep' u' p' f' := by
  have hread : T.read t = T'.read t' := by
    have e1 := hT.scan h
    have e2 := hT'.scan h'
    have key : (T.read t).2 = (T'.read t').2 := by
      cases hr : (T.read t).2 with
      | some d =>
        cases d with
        | L =>
          obtain ⟨a, b⟩ := hT.edgeL h hr
          exact (hT'.seesL h' a b).symm
        | R =>
          obtain ⟨a, b⟩ := hT.edgeR h hr
          refine (hT'.seesR h' a b ?_).symm
          by_contra hall
          push Not at hall
          have := hT.seesL h a hall
          rw [hr] at this; cases this
      | none =>
        cases hr' : (T'.read t').2 with
        | none => rfl
        | some d =>
          cases d with
          | L =>
            obtain ⟨a, b⟩ := hT'.edgeL h' hr'
            rw [hT.seesL h a b] at hr; cases hr
          | R =>
            obtain ⟨a, b⟩ := hT'.edgeR h' hr'
            rw [hT.seesR h a b] at hr
            · cases hr
            · by_contra hall
              push Not at hall
              have := hT'.seesL h' a hall
              rw [hr'] at this; cases this
    exact Prod.ext (e1.trans e2.symm) key
  unfold exec
  rcases hr : T.read t with ⟨scan, edge⟩
  have hr' : T'.read t' = (scan, edge) := hread.symm.trans hr
  have hscan : scan = f p := by have := hT.scan h; rw [hr] at this; exact this
  subst hscan
  rcases hp : prog s (f p) with ⟨cx, d, s1⟩
  have hcx : ok cx := by have := hok s (f p); rw [hp] at this; exact this
  have hcx' : ok' cx := by have := hok' s (f p); rw [hp] at this; exact this
  rw [hr']
  simp only [hp]
  by_cases hcond : (s == s1 && checkEdge d edge) = true
  · rw [if_pos hcond, if_pos hcond]
    exact ⟨_, _, _, _, _, p, f, rfl, rfl, h, h'⟩
  · rw [if_neg hcond, if_neg hcond]
    by_cases hss : s = s1
    · rw [if_pos hss, if_pos hss]
      subst hss
      obtain ⟨⟨n, u⟩, hn⟩ := Option.isSome_iff_exists.mp (hT.returns d h hcx)
      obtain ⟨⟨n', u'⟩, hn'⟩ := Option.isSome_iff_exists.mp (hT'.returns d h' hcx')
      obtain ⟨a1, a2, a3⟩ := hT.skip h hcx hn
      obtain ⟨b1, b2, b3⟩ := hT'.skip h' hcx' hn'
      have hnn : n = n' := by
        rcases hst with ⟨x, hx⟩ | ⟨rfl, rfl⟩
        · have hex : f p ≠ 0 ∨ ∃ i : Nat, f (p + sgn d * i) ≠ f p := by
            by_contra hall
            push Not at hall
            obtain ⟨h0, hall⟩ := hall
            rw [h0] at hall
            simp only [beq_self_eq_true, Bool.true_and] at hcond
            apply hcond
            cases d with
            | L =>
              have := hT.seesL h h0 (by
                intro y hy
                have := hall (p - y).toNat
                rwa [show p + sgn .L * ((p - y).toNat : Int) = y by simp only [sgn]; omega] at this)
              rw [hr] at this
              simp only at this
              subst this; rfl
            | R =>
              have hright : ∀ y, p < y → f y = 0 := by
                intro y hy
                have := hall (y - p).toNat
                rwa [show p + sgn .R * ((y - p).toNat : Int) = y by simp only [sgn]; omega] at this
              have := hT.seesR h h0 hright (by
                refine ⟨x, ?_, hx⟩
                rcases lt_trichotomy x p with h1 | h1 | h1
                · exact h1
                · rw [h1] at hx; exact absurd h0 hx
                · exact absurd (hright x h1) hx)
              rw [hr] at this
              simp only at this
              subst this; rfl
          have f1 := hT.far h hcx hn hex
          have f2 := hT'.far h' hcx' hn' hex
          rcases lt_trichotomy n n' with hlt | heq | hgt
          · exact absurd (b2 n hlt) f1
          · exact heq
          · exact absurd (a2 n' hgt) f2
        · rw [hT.skipInit hcx hn, hT'.skipInit hcx' hn']
      subst hnn
      rw [hn, hn']
      exact ⟨_, _, _, _, _, _, _, rfl, rfl, a3, b3⟩
    · rw [if_neg hss, if_neg hss]
      obtain ⟨a1, a2⟩ := hT.step d h hcx
      obtain ⟨b1, b2⟩ := hT'.step d h' hcx'
      refine ⟨s1, (T.step d t cx).2, (T'.step d t' cx).2, 1, false, _, _, ?_, ?_, a2, b2⟩
      · rw [← a1]; rfl
      · rw [← b1]; rfl

theorem marks_agree (hT : Laws T ok Rep) (hT' : Laws T' ok' Rep') {t : τ} {t' : τ'} {p : Int}
    {f : Int → Nat} (h : Rep t p f) (h' : Rep' t' p f) : T.marks t = T'.marks t' := by
  obtain ⟨A, hA, cA⟩ := hT.marks h
  obtain ⟨B, hB, cB⟩ := hT'.marks h'
  rw [← cA, ← cB]; congr 1
  ext x
  rw [hA, hB]

theorem run_agree (hT : Exact T ok Rep) (hT' : Exact T' ok' Rep') {prog : Program}
    (hok : ∀ q c, ok (prog q c).1) (hok' : ∀ q c, ok' (prog q c).1) :
    ∀ (lim s steps : Nat) {t : τ} {t' : τ'} {p : Int} {f : Int → Nat}, Rep t p f → Rep' t' p f →
      ((∃ x, f x ≠ 0) ∨ (t = T.blankInit ∧ t' = T'.blankInit)) →
      (∃ r r', run T lim prog s t steps = some r ∧ run T' lim prog s t' steps = some r' ∧
        (r.map fun x => (x.1, x.2.1, T.marks x.2.2)) =
          r'.map fun x => (x.1, x.2.1, T'.marks x.2.2)) := by
  intro lim
  induction lim with
  | zero => intro s steps t t' p f _ _ _; exact ⟨none, none, rfl, rfl, rfl⟩
  | succ lim ih =>
    intro s steps t t' p f h h' hst
    obtain ⟨s1, u, u', n, rec, p', f', e, e', hu, hu'⟩ :=
      exec_agree hT hT' hok hok' s h h' hst
    rw [run, run, e, e']
    simp only [Option.bind_some]
    have hb : T.blank u = T'.blank u' := by
      rw [Bool.eq_iff_iff, hT.blank hu, hT'.blank hu']
    rw [← hb]
    by_cases hcond : (s1 == halt || T.blank u || rec) = true
    · rw [if_pos hcond, if_pos hcond]
      exact ⟨_, _, rfl, rfl, by simp [marks_agree hT.toLaws hT'.toLaws hu hu']⟩
    · rw [if_neg hcond, if_neg hcond]
      refine ih s1 _ hu hu' (.inl ?_)
      by_contra hall
      push Not at hall
      rw [(hT.blank hu).mpr hall] at hcond
      simp at hcond

end

end BB.Idris
