import Verif.Props.Tree
import Verif.Props.LinRec
import Verif.Props.Prover
import Verif.Lemmas.Forever
import Verif.Lemmas.HalfTapes
import Verif.Model.SkipAll

/-!
# C77: a search that settles every program it visits settles the size

`build_tree` (`/repo/src/tree.rs`) hands a harvester only some of the programs of a size: those
with A0 = 1RB, up to the names of states and colours, with slots filled in only when the run comes
to them, without those that never use the last state or colour.  C77 says what may be concluded
about *all* programs of the size once each program handed out has been dealt with.
-/

namespace BB

/-- Every program with at most `S` states and `C` colours, whatever its slots, that stops at all
(for lack of an instruction) stops within `N` moves, unless it has a blank tape before. -/
def Settled (S C N : Nat) : Prop :=
  ∀ P : Prog, Below P C S → ∀ n h, HaltsAt P initCfg n h →
    (∃ r k, 0 < k ∧ k ≤ n ∧ BlankAt P r k) ∨ n ≤ N

/-- A program dealt with: it came to its slots within `N` moves, and it is known never to halt, or
known to have a blank tape at some point, or lacks one slot only and stops there within `N` moves. -/
def Dealt (S C N : Nat) (Q : Table) : Prop :=
  (∀ e ∈ Q, ∃ m, m ≤ N ∧ ∃ d, runFor Q.get? m initCfg = some d ∧ d.slot = e.1) ∧
  (NeverHalts Q.get? initCfg ∨ (∃ r k, 0 < k ∧ BlankAt Q.get? r k) ∨
    (Q.length = S * C - 1 ∧ ∃ m h, m ≤ N ∧ HaltsAt Q.get? initCfg m h))

/-! ### Runs -/

theorem halts_of_none {p : Prog} {n : Nat} (h : runFor p n initCfg = none) :
    ∃ m s, m < n ∧ HaltsAt p initCfg m s := by
  induction n with
  | zero => simp [runFor] at h
  | succ n ih =>
    cases hd : runFor p n initCfg with
    | none =>
      obtain ⟨m, s, h1, h2⟩ := ih hd
      exact ⟨m, s, by omega, h2⟩
    | some d =>
      rw [runFor_succ', hd, Option.bind_some] at h
      refine ⟨n, d.slot, by omega, d, hd, rfl, ?_⟩
      simp only [step] at h
      cases hp : p d.slot with
      | none => rfl
      | some i => rw [hp] at h; simp at h

theorem HaltsAt.le_of_run {p : Prog} {n k : Nat} {s : Slot} (h : HaltsAt p initCfg n s)
    (hk : (runFor p k initCfg).isSome) : k ≤ n := by
  by_contra hcon
  obtain ⟨d, hd1, hd2, hd3⟩ := h
  have := runFor_isSome_of_le (show n + 1 ≤ k by omega) hk
  rw [runFor_succ', hd1, Option.bind_some] at this
  simp [step, hd2, hd3] at this

/-- Two parts of one program run alike as long as both run. -/
theorem runFor_agree {Q R P : Prog} (hQ : SubProg Q P) (hR : SubProg R P) {m : Nat} {d e : Cfg}
    (h1 : runFor Q m initCfg = some d) (h2 : runFor R m initCfg = some e) : d = e := by
  have a := runFor_sub hQ _ _ _ h1
  have b := runFor_sub hR _ _ _ h2
  rw [a] at b
  exact Option.some.inj b

theorem HaltsAt.defined {R : Prog} {n m : Nat} {h : Slot} {d : Cfg} (hR : HaltsAt R initCfg n h)
    (hm : m < n) (hd : runFor R m initCfg = some d) : ∃ i, R d.slot = some i := by
  cases hp : R d.slot with
  | some i => exact ⟨i, rfl⟩
  | none =>
    have : HaltsAt R initCfg m d.slot := ⟨d, hd, rfl, hp⟩
    have := (this.unique hR).1
    omega

theorem HaltsAt.run {R : Prog} {n m : Nat} {h : Slot} (hR : HaltsAt R initCfg n h) (hm : m ≤ n) :
    ∃ d, runFor R m initCfg = some d := by
  obtain ⟨e, he, -, -⟩ := hR
  exact Option.isSome_iff_exists.1 (runFor_isSome_of_le hm (by rw [he]; rfl))

/-- A part `Q` of a program, a part `R` that stops at `n`: if `Q` is blank at `k ≤ n`, so is `R`. -/
theorem blank_agree {Q R P : Prog} (hQ : SubProg Q P) (hR : SubProg R P) {n k : Nat} {h : Slot}
    (hh : HaltsAt R initCfg n h) (hk : k ≤ n) {r : State} (hb : BlankAt Q r k) : BlankAt R r k := by
  obtain ⟨d, h1, h2, h3⟩ := hb
  obtain ⟨e, he⟩ := hh.run hk
  have := runFor_agree hQ hR h1 he
  subst this
  exact ⟨d, he, h2, h3⟩

/-- The heart of it: `Q` stops at `m`, before `R` does at `n`, so `Q` is not full. -/
theorem not_full {S C : Nat} {Q : Table} {R P : Prog} (hQ : SubProg Q.get? P) (hR : SubProg R P)
    (hT : TreeProg S C Q) (hS : 0 < S) (hC : 0 < C) (hB : Below R C S) {n m : Nat} {h q : Slot}
    (hh : HaltsAt R initCfg n h) (hq : HaltsAt Q.get? initCfg m q) (hm : m < n)
    (hnot : Q.get? h = none) : Q.length + 2 ≤ S * C := by
  obtain ⟨d, hd1, hd2, hd3⟩ := hq
  obtain ⟨e, he⟩ := hh.run (Nat.le_of_lt hm)
  have hde := runFor_agree hQ hR hd1 he
  subst hde
  obtain ⟨i, hi⟩ := hh.defined hm he
  rw [hd2] at hi
  obtain ⟨f, hf1, hf2, hf3⟩ := hh
  have hne : q ≠ h := by
    rintro rfl
    rw [hi] at hf3
    cases hf3
  have := length_le_of_avoid hT.sorted hT.slots [q, h] (by simpa using hne)
    (by
      intro s hs
      simp only [List.mem_cons, List.not_mem_nil, or_false] at hs
      rcases hs with rfl | rfl
      · obtain ⟨k1, k2⟩ := run_below hB hC hS _ _ he
        rw [← hd2]
        exact ⟨k1, k2 _⟩
      · obtain ⟨k1, k2⟩ := run_below hB hC hS _ _ hf1
        rw [← hf2]
        exact ⟨k1, k2 _⟩)
    (by
      intro s hs
      simp only [List.mem_cons, List.not_mem_nil, or_false] at hs
      rcases hs with rfl | rfl
      · exact hd3
      · exact hnot)
  simpa using this

/-- A program of the tree that came to its slots before `n` lacks the slot where `R` stops. -/
theorem lacks {Q : Table} {R P : Prog} (hQ : SubProg Q.get? P) (hR : SubProg R P) {n : Nat}
    {h : Slot} (hh : HaltsAt R initCfg n h)
    (hv : ∀ e ∈ Q, ∃ m, m < n ∧ ∃ d, runFor Q.get? m initCfg = some d ∧ d.slot = e.1) :
    Q.get? h = none := by
  cases hq : Q.get? h with
  | none => rfl
  | some i =>
    obtain ⟨m, hm, d, hd, hs⟩ := hv _ (Table.get?_mem hq)
    obtain ⟨e, he⟩ := hh.run (Nat.le_of_lt hm)
    have := runFor_agree hQ hR hd he
    subst this
    obtain ⟨j, hj⟩ := hh.defined hm he
    simp only at hs
    rw [hs] at hj
    obtain ⟨-, -, -, h3⟩ := hh
    rw [hj] at h3
    cases h3

/-- The instructions of `R` that satisfy `keep`. -/
def Prog.only (R : Prog) (keep : Instr → Bool) : Prog := fun s => (R s).filter keep

theorem Prog.only_sub (R : Prog) (keep : Instr → Bool) : SubProg (R.only keep) R := by
  intro s i hi
  simp only [Prog.only, Option.filter_eq_some_iff] at hi
  exact hi.1

theorem SubProg.trans {a b c : Prog} (h1 : SubProg a b) (h2 : SubProg b c) : SubProg a c :=
  fun s i h => h2 s i (h1 s i h)

/-- Programs dropped for not using the last state or colour. -/
theorem dropped_absurd {S C lim n N1 : Nat} {Q : Table} {R P : Prog} (hQ : SubProg Q.get? P)
    (hR : SubProg R P) (hT : TreeProg S C Q) (hS : 0 < S) (hC : 0 < C) (hB : Below R C S)
    {h : Slot} (hh : HaltsAt R initCfg n h) (hb : ∀ r k, 0 < k → k ≤ n → ¬ BlankAt R r k)
    (hfin : Finished Q.get? Q.length (S * C - 1) lim) (keep : Instr → Bool)
    (hkeep : ∀ e ∈ Q, keep e.2 = true) (hN : N1 < lim) (hn : N1 < n)
    (hset : ∀ n2 h2, HaltsAt (R.only keep) initCfg n2 h2 →
      (∃ r k, 0 < k ∧ k ≤ n2 ∧ BlankAt (R.only keep) r k) ∨ n2 ≤ N1) : False := by
  have hsub := R.only_sub keep
  -- the part that is kept stops, by `n`
  obtain ⟨n2, h2, hn2, hh2⟩ : ∃ n2 h2, n2 ≤ n ∧ HaltsAt (R.only keep) initCfg n2 h2 := by
    cases hr : runFor (R.only keep) n initCfg with
    | none =>
      obtain ⟨m, s, h1, h2⟩ := halts_of_none hr
      exact ⟨m, s, by omega, h2⟩
    | some d =>
      obtain ⟨e, he1, he2, he3⟩ := hh
      have hd := runFor_sub hsub _ _ _ hr
      rw [he1] at hd
      cases hd
      refine ⟨n, h, Nat.le_refl _, _, hr, he2, ?_⟩
      simp [Prog.only, he3]
  have hn2N : n2 ≤ N1 := by
    rcases hset n2 h2 hh2 with ⟨r, k, hk0, hk, hbl⟩ | hle
    · exfalso
      obtain ⟨d, h1, h2, h3⟩ := hbl
      exact hb r k hk0 (by omega) ⟨d, runFor_sub hsub _ _ _ h1, h2, h3⟩
    · exact hle
  -- and `Q` with it
  obtain ⟨m, q, hm, hq⟩ : ∃ m q, m ≤ n2 ∧ HaltsAt Q.get? initCfg m q := by
    cases hr : runFor Q.get? n2 initCfg with
    | none =>
      obtain ⟨m, s, h1, h2⟩ := halts_of_none hr
      exact ⟨m, s, by omega, h2⟩
    | some d =>
      obtain ⟨e, he1, he2, he3⟩ := hh2
      have hde := runFor_agree hQ (hsub.trans hR) hr he1
      subst hde
      refine ⟨n2, h2, Nat.le_refl _, d, hr, he2, ?_⟩
      cases hx : Q.get? h2 with
      | none => rfl
      | some i =>
        exfalso
        have hk := hkeep _ (Table.get?_mem hx)
        obtain ⟨j, hj⟩ := hh.defined (show n2 < n by omega) (runFor_sub hsub _ _ _ he1)
        rw [he2] at hj
        have h1 := hQ _ _ hx
        rw [hR _ _ hj] at h1
        cases h1
        simp only at hk
        simp [Prog.only, hj, hk] at he3
  have hmn : m < n := by omega
  have hnot : Q.get? h = none := by
    refine lacks hQ hR hh fun e he => ?_
    obtain ⟨k, d, hd, hs⟩ := hT.visits e he
    exact ⟨k, by have := hq.le_of_run (k := k) (by rw [hd]; rfl); omega, d, hd, hs⟩
  have hlen := not_full hQ hR hT hS hC hB hh hq hmn hnot
  rcases hfin with hf | hf | ⟨r, k, hk0, hbl⟩ | hf
  · omega
  · have := hq.le_of_run (hf (m + 1))
    omega
  · have hk : k ≤ m := by
      obtain ⟨d, hd, -, -⟩ := id hbl
      exact hq.le_of_run (by rw [hd]; rfl)
    exact hb r k hk0 (by omega) (blank_agree hQ hR hh (by omega) hbl)
  · have := hq.le_of_run hf
    omega

theorem lt_pred {a n : Nat} (h : 1 + a < n) : a < n - 1 := by omega

/-! ### Programs with A0 = 1RB -/

theorem settled_1RB {S C N N1 N2 lim : Nat} (hS : 2 ≤ S) (hC : 2 ≤ C)
    (h1 : S = 2 ∨ (Settled (S - 1) C N1 ∧ N1 < lim ∧ N1 ≤ N))
    (h2 : C = 2 ∨ (Settled S (C - 1) N2 ∧ N2 < lim ∧ N2 ≤ N))
    (hall : ∀ Q ∈ buildTree S C true lim, Dealt S C N Q)
    (P : Prog) (hP : Below P C S) (h0 : P (0, 0) = some (1, true, 1)) (n : Nat) (h : Slot)
    (hhalt : HaltsAt P initCfg n h) (hblank : ∀ r k, 0 < k → k ≤ n → ¬ BlankAt P r k) :
    n ≤ N := by
  by_contra hcon
  -- fill the program up
  have hcomp : Complete (fun s => some ((P s).getD (0, true, 0))) S C := by
    intro s c _ _
    refine ⟨_, rfl, ?_⟩
    cases hp : P (s, c) with
    | none => exact ⟨show 0 < C by omega, show 0 < S by omega⟩
    | some i => exact hP _ _ hp
  obtain ⟨P', Q, hren, hsub, hT, hlen, hfin, hmem⟩ :=
    buildTree_complete hS hC true lim _ hcomp (by simp [h0])
  obtain ⟨σ, τ, bσ, bτ, σ0, τ0, rσ, rτ, hr'⟩ := hren
  obtain ⟨σi, lσ, rσi⟩ := Function.bijective_iff_has_inverse.1 bσ
  obtain ⟨τi, lτ, rτi⟩ := Function.bijective_iff_has_inverse.1 bτ
  -- and take out again what was not there
  obtain ⟨R, hRdef⟩ : ∃ R : Prog, R = fun s => (P (σi s.1, τi s.2)).bind fun _ => P' s := ⟨_, rfl⟩
  have hr : Renames P R σ τ false := by
    intro s c
    rw [hRdef]
    simp only [lσ s, lτ c]
    cases hp : P (s, c) with
    | none => rfl
    | some i =>
      simp only [Option.bind_some]
      rw [hr' s c]
      simp [hp]
  have hR : SubProg R P' := by
    intro s i hi
    rw [hRdef] at hi
    simp only at hi
    cases hp : P (σi s.1, τi s.2) with
    | none => rw [hp] at hi; simp at hi
    | some j => rw [hp] at hi; exact hi
  have hB : Below R C S := by
    intro s i hi
    have := hr (σi s.1) (τi s.2)
    rw [rσi, rτi, hi] at this
    cases hp : P (σi s.1, τi s.2) with
    | none => rw [hp] at this; simp at this
    | some j =>
      rw [hp] at this
      simp only [Option.map_some, Option.some.injEq] at this
      rw [this]
      exact ⟨(rτ _).2 (hP _ _ hp).1, (rσ _).2 (hP _ _ hp).2⟩
  have hh : HaltsAt R initCfg n (σ h.1, τ h.2) := (hr.halts σ0 τ0 n).1 h.1 h.2 hhalt
  have hb : ∀ r k, 0 < k → k ≤ n → ¬ BlankAt R r k := by
    intro r k hk0 hk hbl
    obtain ⟨r', hbl'⟩ := blankAt_rename hr σ0 τ0 bτ.1 hbl
    exact hblank r' k hk0 hk hbl'
  have hA0 : ((0, 0), (1, true, 1)) ∈ Q := Table.get?_mem hT.start
  simp only [Bool.toNat_true] at hlen hfin
  rcases hmem with hmem | hdrop | hdrop
  · -- `Q` was handed out
    obtain ⟨hv, hd⟩ := hall Q hmem
    have hnot : Q.get? (σ h.1, τ h.2) = none := by
      refine lacks hsub hR hh fun e he => ?_
      obtain ⟨m, hm, hd⟩ := hv e he
      exact ⟨m, by omega, hd⟩
    obtain ⟨m, q, hm, hq⟩ : ∃ m q, m ≤ n ∧ HaltsAt Q.get? initCfg m q := by
      cases hrun : runFor Q.get? n initCfg with
      | none =>
        obtain ⟨m, s, h1, h2⟩ := halts_of_none hrun
        exact ⟨m, s, by omega, h2⟩
      | some d =>
        obtain ⟨e, he1, he2, he3⟩ := hh
        have hde := runFor_agree hsub hR hrun he1
        subst hde
        exact ⟨n, _, Nat.le_refl _, d, hrun, he2, hnot⟩
    rcases hd with hd | ⟨r, k, hk0, hbl⟩ | ⟨hfull, m', h', hm', hh'⟩
    · have := hq.le_of_run (hd (m + 1))
      omega
    · have hk : k ≤ m := by
        obtain ⟨d, hd, -, -⟩ := id hbl
        exact hq.le_of_run (by rw [hd]; rfl)
      exact hb r k hk0 (by omega) (blank_agree hsub hR hh (by omega) hbl)
    · have hmm := (hh'.unique hq).1
      have := not_full hsub hR hT (by omega) (by omega) hB hh hq (by omega) hnot
      omega
  · rcases h1 with h1 | ⟨h1, hN1, hN1'⟩
    · have : 1 + 1 < S := hdrop _ hA0
      omega
    · refine dropped_absurd hsub hR hT (by omega) (by omega) hB hh hb hfin
        (fun i => decide (1 + i.2.2 < S)) (fun e he => by simpa using hdrop e he) hN1 (by omega)
        (h1 _ ?_)
      intro s i hi
      simp only [Prog.only, Option.filter_eq_some_iff, decide_eq_true_eq] at hi
      exact ⟨(hB _ _ hi.1).1, lt_pred hi.2⟩
  · rcases h2 with h2 | ⟨h2, hN2, hN2'⟩
    · have : 1 + 1 < C := hdrop _ hA0
      omega
    · refine dropped_absurd hsub hR hT (by omega) (by omega) hB hh hb hfin
        (fun i => decide (1 + i.1 < C)) (fun e he => by simpa using hdrop e he) hN2 (by omega)
        (h2 _ ?_)
      intro s i hi
      simp only [Prog.only, Option.filter_eq_some_iff, decide_eq_true_eq] at hi
      exact ⟨lt_pred hi.2, (hB _ _ hi.1).2⟩

/-! ### Any first instruction -/

theorem blankAt_mirror {p p' : Prog} {σ τ : Nat → Nat} {m : Bool} (hr : Renames p p' σ τ m)
    (hσ : σ 0 = 0) (hτ : τ 0 = 0) (hinj : Function.Injective τ) {r : State} {n : Nat}
    (h : BlankAt p' r n) : ∃ r', BlankAt p r' n := by
  obtain ⟨d, h1, -, h3⟩ := h
  have := runFor_rename hr n initCfg
  rw [initCfg_rename m hσ hτ, h1] at this
  obtain ⟨e, h4, h5⟩ := Option.map_eq_some_iff.1 this.symm
  refine ⟨e.state, e, h4, rfl, fun x => ?_⟩
  have := h3 (if m then -x else x)
  rw [← h5] at this
  cases m
  · exact hinj (by simpa [Cfg.rename, hτ] using this)
  · exact hinj (by simpa [Cfg.rename, hτ] using this)

/-- Exchange two states and two colours, and mirror if `m`. -/
def Prog.turn (P : Prog) (s c : Nat) (m : Bool) : Prog := fun x =>
  (P (Norm.swapNat 1 s x.1, Norm.swapNat 1 c x.2)).map fun i =>
    (Norm.swapNat 1 c i.1, i.2.1 != m, Norm.swapNat 1 s i.2.2)

theorem Prog.turn_renames (P : Prog) (s c : Nat) (m : Bool) :
    Renames P (P.turn s c m) (Norm.swapNat 1 s) (Norm.swapNat 1 c) m := by
  intro a b
  simp only [Prog.turn, Norm.swapNat_invol]

/-- **C77.**  Let every program that the tree of a size hands out be dealt with within `N` moves,
and let the sizes with a state or a colour less be settled, by fewer moves than the limit of the
search.  Then the size is settled: every program of the size that halts does so within `N` moves,
or has a blank tape before. -/
theorem C77_settled {S C N N1 N2 lim : Nat} (hS : 2 ≤ S) (hC : 2 ≤ C)
    (h1 : S = 2 ∨ (Settled (S - 1) C N1 ∧ N1 < lim ∧ N1 ≤ N))
    (h2 : C = 2 ∨ (Settled S (C - 1) N2 ∧ N2 < lim ∧ N2 ≤ N))
    (hall : ∀ Q ∈ buildTree S C true lim, Dealt S C N Q) : Settled S C N := by
  intro P hP n h hh
  by_cases hb : ∃ r k, 0 < k ∧ k ≤ n ∧ BlankAt P r k
  · exact .inl hb
  right
  have hb' : ∀ r k, 0 < k → k ≤ n → ¬ BlankAt P r k := fun r k a b c => hb ⟨r, k, a, b, c⟩
  cases hp : P (0, 0) with
  | none =>
    have : HaltsAt P initCfg 0 (0, 0) := ⟨initCfg, rfl, rfl, hp⟩
    have := (this.unique hh).1
    omega
  | some i =>
    obtain ⟨c, d, s⟩ := i
    obtain ⟨hc, hs⟩ := hP _ _ hp
    simp only at hc hs
    have hrun1 : runFor P 1 initCfg = some (initCfg.exec (c, d, s)) := by
      rw [runFor_one]
      exact step_some (p := P) (c := initCfg) hp
    by_cases hc0 : c = 0
    · -- blank after one move
      exfalso
      have hn : 1 ≤ n := hh.le_of_run (by rw [hrun1]; rfl)
      refine hb' s 1 (by omega) hn ⟨_, hrun1, rfl, fun x => ?_⟩
      simp [Cfg.exec, initCfg, hc0]
    by_cases hs0 : s = 0
    · -- spins out
      exfalso
      have hnv : NeverHalts P initCfg :=
        neverHalts_spinout (c := initCfg) (col := c) (shift := d)
          (by rw [hs0] at hp; exact hp) (fun k => rfl)
      have := hh.le_of_run (hnv (n + 1))
      omega
    have hr := P.turn_renames s c (!d)
    have hσ0 := Norm.swapNat_zero (a := 1) (b := s) (by omega) hs0
    have hτ0 := Norm.swapNat_zero (a := 1) (b := c) (by omega) hc0
    refine settled_1RB hS hC h1 h2 hall (P.turn s c (!d)) ?_ ?_ n
      (Norm.swapNat 1 s h.1, Norm.swapNat 1 c h.2) ((hr.halts hσ0 hτ0 n).1 h.1 h.2 hh) ?_
    · exact hP.rename hr (Norm.swapNat_invol 1 s) (Norm.swapNat_invol 1 c)
        (fun x hx => Norm.swapNat_lt (by omega) hc hx) (fun x hx => Norm.swapNat_lt (by omega) hs hx)
    · have := hr 0 0
      rw [hσ0, hτ0, hp] at this
      rw [this]
      cases d <;> simp [Norm.swapNat]
    · intro r k hk0 hk hbl
      obtain ⟨r', hbl'⟩ := blankAt_mirror hr hσ0 hτ0 (Norm.swapNat_bijective 1 c).1 hbl
      exact hb' r' k hk0 hk hbl'

/-! ### Sizes settled in this way -/

/-- The machine on two lists of cells, nearest first. -/
structure Zip where
  state : Nat
  left : List Nat
  scan : Nat
  right : List Nat

def Zip.exec (z : Zip) (i : Instr) : Zip :=
  if i.2.1 then ⟨i.2.2, i.1 :: z.left, z.right.headD 0, z.right.tail⟩
  else ⟨i.2.2, z.left.tail, z.left.headD 0, i.1 :: z.right⟩

def Zip.blank (z : Zip) : Bool :=
  z.scan == 0 && (z.left.all fun c => c == 0) && z.right.all fun c => c == 0

structure Zip.Shows (z : Zip) (d : Cfg) : Prop where
  state : z.state = d.state
  scan : z.scan = d.tape d.pos
  left : ∀ i : Nat, z.left.getD i 0 = d.tape (d.pos - 1 - i)
  right : ∀ i : Nat, z.right.getD i 0 = d.tape (d.pos + 1 + i)

theorem getD_tail (l : List Nat) (i : Nat) : l.tail.getD i 0 = l.getD (i + 1) 0 := by
  cases l <;> simp

theorem headD_getD (l : List Nat) : l.headD 0 = l.getD 0 0 := by cases l <;> simp

theorem Zip.Shows.exec {z : Zip} {d : Cfg} (h : z.Shows d) (i : Instr) :
    (z.exec i).Shows (d.exec i) := by
  obtain ⟨p, sh, q⟩ := i
  obtain ⟨-, -, h3, h4⟩ := h
  cases sh
  · constructor
    · rfl
    · simp only [Zip.exec, Cfg.exec, Bool.false_eq_true, if_false]
      rw [if_neg (by omega), headD_getD, h3 0]
      simp
    · intro i
      simp only [Zip.exec, Cfg.exec, Bool.false_eq_true, if_false]
      rw [if_neg (by omega), getD_tail, h3]
      congr 1
      omega
    · intro i
      simp only [Zip.exec, Cfg.exec, Bool.false_eq_true, if_false]
      cases i with
      | zero => simp
      | succ i =>
        rw [if_neg (by omega), List.getD_cons_succ, h4]
        congr 1
        omega
  · constructor
    · rfl
    · simp only [Zip.exec, Cfg.exec, if_true]
      rw [if_neg (by omega), headD_getD, h4 0]
      simp
    · intro i
      simp only [Zip.exec, Cfg.exec, if_true]
      cases i with
      | zero => simp
      | succ i =>
        rw [if_neg (by omega), List.getD_cons_succ, h3]
        congr 1
        omega
    · intro i
      simp only [Zip.exec, Cfg.exec, if_true]
      rw [if_neg (by omega), getD_tail, h4]
      congr 1
      omega

theorem getD_zero_of_all {l : List Nat} (h : (l.all fun c => c == 0) = true) (i : Nat) :
    l.getD i 0 = 0 := by
  simp only [List.all_eq_true, beq_iff_eq] at h
  simp only [List.getD]
  cases hi : l[i]? with
  | none => rfl
  | some c => exact h c (List.mem_of_getElem? hi)

theorem Zip.Shows.blank {z : Zip} {d : Cfg} (h : z.Shows d) (hb : z.blank = true) : d.Blank := by
  simp only [Zip.blank, Bool.and_eq_true, beq_iff_eq] at hb
  obtain ⟨⟨h0, hl⟩, hr⟩ := hb
  intro x
  rcases Int.lt_trichotomy x d.pos with hx | hx | hx
  · have := h.left (d.pos - 1 - x).toNat
    rw [getD_zero_of_all hl] at this
    rw [this]
    congr 1
    omega
  · rw [hx, ← h.scan, h0]
  · have := h.right (x - d.pos - 1).toNat
    rw [getD_zero_of_all hr] at this
    rw [this]
    congr 1
    omega

/-- How the walk ends. -/
inductive Fate where
  | stop | blank | on

/-- At most so many moves, up to a blank tape, with the slots come to. -/
def walk (t : Table) : Nat → Zip → List Slot → Fate × List Slot
  | 0, z, seen => (if (t.get? (z.state, z.scan)).isSome then .on else .stop,
      (z.state, z.scan) :: seen)
  | n + 1, z, seen =>
    match t.get? (z.state, z.scan) with
    | none => (.stop, (z.state, z.scan) :: seen)
    | some i =>
      if (z.exec i).blank then (.blank, (z.state, z.scan) :: seen)
      else walk t n (z.exec i) ((z.state, z.scan) :: seen)

/-- What a walk shows. -/
def Fate.Means (t : Table) (N : Nat) : Fate → Prop
  | .stop => ∃ m h, m ≤ N ∧ HaltsAt t.get? initCfg m h
  | .blank => ∃ r k, 0 < k ∧ BlankAt t.get? r k
  | .on => True

theorem walk_spec (t : Table) (N n : Nat) (z : Zip) (seen : List Slot) (m : Nat) (d : Cfg)
    (hd : runFor t.get? m initCfg = some d) (hz : z.Shows d) (hN : m + n ≤ N)
    (hs : ∀ s ∈ seen, ∃ m, m ≤ N ∧ ∃ d, runFor t.get? m initCfg = some d ∧ d.slot = s) :
    (walk t n z seen).1.Means t N ∧
    ∀ s ∈ (walk t n z seen).2, ∃ m, m ≤ N ∧ ∃ d, runFor t.get? m initCfg = some d ∧ d.slot = s := by
  have hslot : d.slot = (z.state, z.scan) := by rw [hz.state, hz.scan]; rfl
  have hs' : ∀ s ∈ (z.state, z.scan) :: seen,
      ∃ m, m ≤ N ∧ ∃ d, runFor t.get? m initCfg = some d ∧ d.slot = s := by
    intro s h
    rcases List.mem_cons.1 h with rfl | h
    · exact ⟨m, by omega, d, hd, hslot⟩
    · exact hs s h
  induction n generalizing z seen m d with
  | zero =>
    refine ⟨?_, hs'⟩
    simp only [walk]
    split
    · trivial
    · next h => exact ⟨m, _, by omega, d, hd, hslot, by simpa using h⟩
  | succ n ih =>
    simp only [walk]
    cases hi : t.get? (z.state, z.scan) with
    | none => exact ⟨⟨m, _, by omega, d, hd, hslot, hi⟩, hs'⟩
    | some i =>
      have hd' : runFor t.get? (m + 1) initCfg = some (d.exec i) := by
        rw [runFor_succ', hd, Option.bind_some]
        exact step_some (p := t.get?) (c := d) (by rw [hslot]; exact hi)
      simp only
      split
      · next hb => exact ⟨⟨_, m + 1, by omega, _, hd', rfl, (hz.exec i).blank hb⟩, hs'⟩
      · have hslot' : (d.exec i).slot = ((z.exec i).state, (z.exec i).scan) := by
          rw [(hz.exec i).state, (hz.exec i).scan]; rfl
        refine ih _ _ (m + 1) _ hd' (hz.exec i) (by omega) hs' hslot' ?_
        intro s h
        rcases List.mem_cons.1 h with rfl | h
        · exact ⟨m + 1, by omega, _, hd', hslot'⟩
        · exact hs' s h

/-! The same walk in a form that the kernel evaluates faster. -/

def look : Table → Nat → Nat → Option Instr
  | [], _, _ => none
  | ((a, b), i) :: t, q, c => bif Nat.beq a q && Nat.beq b c then some i else look t q c

theorem look_eq (t : Table) (q c : Nat) : look t q c = t.get? (q, c) := by
  induction t with
  | nil => rfl
  | cons e t ih =>
    obtain ⟨⟨a, b⟩, i⟩ := e
    rw [Table.get?_cons]
    simp only [look]
    by_cases h : (q, c) = (a, b)
    · rw [if_pos h]
      simp only [Prod.mk.injEq] at h
      simp [h.1, h.2]
    · rw [if_neg h]
      have : (Nat.beq a q && Nat.beq b c) = false := by
        rw [Bool.eq_false_iff]
        intro h'
        simp only [Bool.and_eq_true, Nat.beq_eq] at h'
        exact h (by rw [h'.1, h'.2])
      simp only [this, cond_false, ih]

def allZero : List Nat → Bool
  | [] => true
  | 0 :: l => allZero l
  | (_ + 1) :: _ => false

theorem allZero_eq (l : List Nat) : allZero l = l.all fun c => c == 0 := by
  induction l with
  | nil => rfl
  | cons x l ih => cases x <;> simp [allZero, ih]

def walkFast (t : Table) : Nat → Nat → List Nat → Nat → List Nat → List Slot → Fate × List Slot
  | 0, q, _, c, _, seen =>
    (if (t.get? (q, c)).isSome then .on else .stop, (q, c) :: seen)
  | n + 1, q, l, c, r, seen =>
    match look t q c with
    | none => (.stop, (q, c) :: seen)
    | some (p, true, q') =>
      match r with
      | [] => bif Nat.beq p 0 && allZero l then (.blank, (q, c) :: seen)
        else walkFast t n q' (p :: l) 0 [] ((q, c) :: seen)
      | x :: r => bif Nat.beq p 0 && Nat.beq x 0 && allZero l && allZero r
        then (.blank, (q, c) :: seen) else walkFast t n q' (p :: l) x r ((q, c) :: seen)
    | some (p, false, q') =>
      match l with
      | [] => bif Nat.beq p 0 && allZero r then (.blank, (q, c) :: seen)
        else walkFast t n q' [] 0 (p :: r) ((q, c) :: seen)
      | x :: l => bif Nat.beq p 0 && Nat.beq x 0 && allZero l && allZero r
        then (.blank, (q, c) :: seen) else walkFast t n q' l x (p :: r) ((q, c) :: seen)

theorem beq_zero (n : Nat) : Nat.beq n 0 = (n == 0) := by cases n <;> rfl

theorem walkFast_eq (t : Table) (n q : Nat) (l : List Nat) (c : Nat) (r : List Nat)
    (seen : List Slot) : walkFast t n q l c r seen = walk t n ⟨q, l, c, r⟩ seen := by
  induction n generalizing q l c r seen with
  | zero => rfl
  | succ n ih =>
    simp only [walkFast, walk, look_eq]
    cases t.get? (q, c) with
    | none => rfl
    | some i =>
      obtain ⟨p, sh, q'⟩ := i
      cases sh
      · cases l with
        | nil =>
          simp only [ih, Zip.exec, Zip.blank, allZero_eq, beq_zero, Bool.cond_eq_ite]
          simp
        | cons x l =>
          simp only [ih, Zip.exec, Zip.blank, allZero_eq, beq_zero, Bool.cond_eq_ite]
          simp [and_comm, and_left_comm, and_assoc]
      · cases r with
        | nil =>
          simp only [ih, Zip.exec, Zip.blank, allZero_eq, beq_zero, Bool.cond_eq_ite]
          simp
        | cons x r =>
          simp only [ih, Zip.exec, Zip.blank, allZero_eq, beq_zero, Bool.cond_eq_ite]
          simp [and_left_comm, and_assoc]

/-- Deals with a program after a walk: by `quick_term_or_rec` (C07) or else by automata. -/
def dealtBy (hard : List (Table × Half.Dfa × Half.Dfa)) (S C fuel : Nat) (Q : Table) :
    Fate → Bool
  | .stop => decide (Q.length = S * C - 1)
  | .blank => true
  | .on => quickTermOrRec Q.get? fuel false ||
    match hard.lookup Q with
    | none => false
    | some x => Half.check Q C x.1 x.2

def dealtOr (hard : List (Table × Half.Dfa × Half.Dfa)) (S C N fuel : Nat) (Q : Table) : Bool :=
  match walkFast Q N 0 [] 0 [] [] with
  | (fate, seen) => (Q.all fun e => seen.contains e.1) && dealtBy hard S C fuel Q fate

theorem dealt_of_or {hard : List (Table × Half.Dfa × Half.Dfa)} {S C N fuel : Nat} {Q : Table}
    (h0 : Q.get? (0, 0) = some (1, true, 1)) (h : dealtOr hard S C N fuel Q = true) :
    Dealt S C N Q := by
  obtain ⟨h1, h2⟩ := walk_spec Q N N ⟨0, [], 0, []⟩ [] 0 initCfg rfl
    ⟨rfl, rfl, fun _ => rfl, fun _ => rfl⟩ (by omega) (by simp)
  simp only [dealtOr, walkFast_eq] at h
  generalize walk Q N ⟨0, [], 0, []⟩ [] = w at h h1 h2
  obtain ⟨fate, seen⟩ := w
  simp only [Bool.and_eq_true, List.all_eq_true, List.contains_iff_mem] at h
  refine ⟨fun e he => h2 _ (h.1 e he), ?_⟩
  cases fate with
  | stop =>
    exact .inr (.inr ⟨by simpa [dealtBy] using h.2, h1⟩)
  | blank => exact .inr (.inl h1)
  | on =>
    left
    have hb := h.2
    simp only [dealtBy, Bool.or_eq_true] at hb
    rcases hb with hb | hb
    · exact C07_sound _ _ h0 hb
    · cases hl : hard.lookup Q with
      | none => rw [hl] at hb; simp at hb
      | some x => rw [hl] at hb; exact Half.check_neverHalts hb

/-- The part of the tree with a given instruction at B0. -/
def part (S C lim : Nat) (i : Instr) : List Table :=
  branch lim S C (S * C - 1 - 2) i (twoInstrs i) 1 Tape.initStepped (min 3 S) (min 3 C)

theorem dealt_of_parts {hard : List (Table × Half.Dfa × Half.Dfa)} {S C N lim fuel : Nat}
    (hS : 2 ≤ S) (hC : 2 ≤ C)
    (h : ∀ i ∈ makeInstrs (min 3 S) (min 3 C),
      (part S C lim i).all (dealtOr hard S C N fuel) = true) :
    ∀ Q ∈ buildTree S C true lim, Dealt S C N Q := by
  intro Q hQ
  refine dealt_of_or (hard := hard) (fuel := fuel)
    ((buildTree_sound hS hC true lim).2 Q hQ).start ?_
  rw [buildTree_eq, List.mem_flatMap] at hQ
  obtain ⟨i, hi, hQ⟩ := hQ
  exact List.all_eq_true.1 (h i hi) Q hQ

/-- **C77 (two states, two colours).**  The tree that the code searches for that size, and its
`quick_term_or_rec`, settle it: five moves.  (All 36 programs, with the limit of the code, 876.) -/
theorem C77_two_two : Settled 2 2 5 := by
  have h : ∀ Q ∈ buildTree 2 2 true 876, dealtOr [] 2 2 5 20 Q = true := by decide +kernel
  refine C77_settled (N1 := 0) (N2 := 0) (lim := 876) (by omega) (by omega) (.inl rfl) (.inl rfl) ?_
  intro Q hQ
  exact dealt_of_or ((buildTree_sound (by omega) (by omega) true 876).2 Q hQ).start (h Q hQ)

/-- A program that `run_quick` sees stop, with no blank tape before, shows that no smaller number
settles its size. -/
theorem Settled.attained {S C N lim n : Nat} {slot : Slot} {Q : Table} (h : Settled S C N)
    (hQ : ∀ e ∈ Q, e.2.1 < C ∧ e.2.2.2 < S) (h1 : (runQuick Q.get? lim).result = .undfnd)
    (h2 : (runQuick Q.get? lim).lastSlot = some slot) (h3 : (runQuick Q.get? lim).steps = n)
    (h4 : (runQuick Q.get? lim).blanks = []) : n ≤ N := by
  have hb : Below Q.get? C S := fun s i hi => hQ _ (Table.get?_mem hi)
  rcases h _ hb n slot (haltsAt_of_quick h1 h2 h3) with ⟨r, k, hk0, hk, hbl⟩ | h
  · exfalso
    classical
    have hex : ∃ k, 1 ≤ k ∧ BlankAt Q.get? r k := ⟨k, hk0, hbl⟩
    have hf : FirstBlankAt Q.get? r (Nat.find hex) :=
      ⟨(Nat.find_spec hex).1, (Nat.find_spec hex).2,
        fun m hm hlt hb => Nat.find_min hex hlt ⟨hm, hb⟩⟩
    have hle : Nat.find hex ≤ k := Nat.find_min' hex ⟨hk0, hbl⟩
    have := (C06_blanks Q.get? lim r _).2 ⟨hf, by rw [h3]; omega⟩
    rw [h4] at this
    simp at this
  · exact h

/-- The bound is attained: `1RB 1LB  1LA ...` stops after five moves and never has a blank tape. -/
theorem C77_two_two_tight (N : Nat) (h : Settled 2 2 N) : 5 ≤ N :=
  h.attained (Q := [((0, 0), (1, true, 1)), ((0, 1), (1, false, 1)), ((1, 0), (1, false, 0))])
    (by decide) (lim := 20) (slot := (1, 1)) (by decide +kernel) (by decide +kernel)
    (by decide +kernel) (by decide +kernel)

/-- Why "dealt with" cannot be weakened to "dropped by `skip_all`": that also drops programs whose
run was cut off by the limit.  With a limit of 1 all eight programs of the tree are dropped, so the
test of the code would count no holdout; yet a program halts after five moves. -/
theorem C77_zero_holdouts (fuel : Nat) :
    (buildTree 2 2 true 1).length = 8 ∧
    (∀ Q ∈ buildTree 2 2 true 1, Q.skipAll fuel 2 2 true = .ok true) ∧ ¬ Settled 2 2 4 := by
  refine ⟨by decide +kernel, ?_, fun h => by have := C77_two_two_tight 4 h; omega⟩
  have h : ∀ Q ∈ buildTree 2 2 true 1, Q.incomplete 2 2 true = true := by decide +kernel
  intro Q hQ
  simp [Table.skipAll, h Q hQ]

end BB
