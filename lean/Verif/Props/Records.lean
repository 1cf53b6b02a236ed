import Verif.Props.Settle
import Verif.Spec.Events
import Verif.Lemmas.Watch

/-!
# C79: records of the search for blank tapes and spin-outs

The tests of the tree search (`/repo/test/test_tree.py`, `assert_records`) keep, over the programs
handed out, the largest number of moves to a blank tape and to a spin-out.  C79 says when such a
record over the programs of the tree is a record over all programs of the size.
-/

namespace BB.Records

/-- What is used of an event. -/
structure Event (E : Prog → Nat → Prop) : Prop where
  /-- it happens during the run -/
  run : ∀ {P n}, E P n → (runFor P n initCfg).isSome
  /-- it happens to a program if it happens to a part of it -/
  mono : ∀ {Q P n}, SubProg Q P → E Q n → E P n
  /-- it happens to a part that gets so far -/
  back : ∀ {Q P n}, SubProg Q P → E P n →
    ((runFor Q (n + 1) initCfg).isSome ∨ ∃ r, 0 < n ∧ BlankAt Q r n) → E Q n
  /-- it does not happen after a blank tape -/
  blank : ∀ {P r k n}, BlankAt P r k → 0 < k → E P n → n ≤ k
  /-- it does not depend on names and sides -/
  rename : ∀ {P P' σ τ m n}, Renames P P' σ τ m → σ 0 = 0 → τ 0 = 0 → Function.Injective σ →
    Function.Injective τ → E P n → E P' n
  /-- it does not happen late to a program that spins out at once -/
  spin : ∀ {P c d n}, P (0, 0) = some (c, d, 0) → c ≠ 0 → E P n → n = 0

/-- The run goes on forever or has a blank tape. -/
def Goes (Q : Prog) : Prop := NeverHalts Q initCfg ∨ ∃ r k, 0 < k ∧ BlankAt Q r k

theorem Event.part {E : Prog → Nat → Prop} (hE : Event E) {Q P : Prog} {n : Nat}
    (hs : SubProg Q P) (hg : Goes Q) (h : E P n) : E Q n := by
  rcases hg with hg | ⟨r, k, hk, hb⟩
  · exact hE.back hs h (.inl (hg _))
  · have hb' : BlankAt P r k := by
      obtain ⟨d, h1, h2, h3⟩ := hb
      exact ⟨d, runFor_sub hs _ _ _ h1, h2, h3⟩
    have hle := hE.blank hb' hk h
    refine hE.back hs h ?_
    rcases Nat.lt_or_ge n k with hlt | hge
    · left
      obtain ⟨d, h1, -, -⟩ := hb
      exact runFor_isSome_of_le hlt (by rw [h1]; rfl)
    · have : n = k := by omega
      subst this
      exact .inr ⟨r, hk, hb⟩

theorem goes_of_lim {S C M lim : Nat} {Q : Prog} (hs : Settled S C M) (hB : Below Q C S)
    (hM : M < lim) (hr : (runFor Q lim initCfg).isSome) : Goes Q := by
  by_cases hn : NeverHalts Q initCfg
  · exact .inl hn
  · right
    obtain ⟨n, hn⟩ : ∃ n, runFor Q n initCfg = none := by
      by_contra hcon
      refine hn fun n => ?_
      cases h : runFor Q n initCfg with
      | none => exact absurd ⟨n, h⟩ hcon
      | some d => rfl
    obtain ⟨m, s, -, hm⟩ := halts_of_none hn
    rcases hs Q hB m s hm with ⟨r, k, hk0, -, hb⟩ | hle
    · exact ⟨r, k, hk0, hb⟩
    · have := hm.le_of_run hr
      omega

theorem neverHalts_of_full {S C : Nat} {Q : Table} {P : Prog} (hQ : SubProg Q.get? P)
    (hT : TreeProg S C Q) (hS : 0 < S) (hC : 0 < C) (hB : Below P C S)
    (hlen : Q.length = S * C) : NeverHalts Q.get? initCfg := by
  intro n
  cases hr : runFor Q.get? n initCfg with
  | some d => rfl
  | none =>
    exfalso
    obtain ⟨m, s, -, d, hd1, hd2, hd3⟩ := halts_of_none hr
    obtain ⟨k1, k2⟩ := run_below hB hC hS _ _ (runFor_sub hQ _ _ _ hd1)
    have := length_le_of_avoid hT.sorted hT.slots [s] (by simp)
      (by
        intro x hx
        simp only [List.mem_cons, List.not_mem_nil, or_false] at hx
        subst hx
        rw [← hd2]
        exact ⟨k1, k2 _⟩)
      (by
        intro x hx
        simp only [List.mem_cons, List.not_mem_nil, or_false] at hx
        subst hx
        exact hd3)
    simp only [List.length_cons, List.length_nil] at this
    omega

/-- What is asked of a smaller size: the bound, and that its halting programs halt before the limit
(`Settled`, C77). -/
def Smaller (E : Prog → Nat → Prop) (S C N lim : Nat) : Prop :=
  Within E S C N ∧ ∃ M, Settled S C M ∧ M < lim

theorem within_1RB {E : Prog → Nat → Prop} (hE : Event E) {S C N lim : Nat} (hS : 2 ≤ S)
    (hC : 2 ≤ C) (h1 : S = 2 ∨ Smaller E (S - 1) C N lim) (h2 : C = 2 ∨ Smaller E S (C - 1) N lim)
    (hall : ∀ Q ∈ buildTree S C false lim, Goes Q.get? ∧ ∀ n, E Q.get? n → n ≤ N)
    (P : Prog) (hP : Below P C S) (h0 : P (0, 0) = some (1, true, 1)) (n : Nat) (h : E P n) :
    n ≤ N := by
  -- fill the program up
  obtain ⟨F, hF⟩ : ∃ F : Prog, F = fun s => some ((P s).getD (0, true, 0)) := ⟨_, rfl⟩
  have hcomp : Complete F S C := by
    intro s c _ _
    rw [hF]
    refine ⟨_, rfl, ?_⟩
    cases hp : P (s, c) with
    | none => exact ⟨show 0 < C by omega, show 0 < S by omega⟩
    | some i => exact hP _ _ hp
  have hPF : SubProg P F := by
    intro s i hi
    rw [hF]
    simp [hi]
  have hFB : Below F C S := by
    intro s i hi
    rw [hF] at hi
    simp only [Option.some.injEq] at hi
    subst hi
    cases hp : P s with
    | none => exact ⟨show 0 < C by omega, show 0 < S by omega⟩
    | some i => exact hP _ _ hp
  obtain ⟨P', Q, hren, hsub, hT, hlen, hfin, hmem⟩ :=
    buildTree_complete hS hC false lim F hcomp (by rw [hF]; simp [h0])
  obtain ⟨σ, τ, bσ, bτ, σ0, τ0, rσ, rτ, hr⟩ := hren
  have hP'B : Below P' C S := by
    intro s i hi
    obtain ⟨a, ha⟩ := bσ.2 s.1
    obtain ⟨b, hb⟩ := bτ.2 s.2
    have := hr a b
    rw [ha, hb, hi] at this
    obtain ⟨j, hj1, hj2⟩ := Option.map_eq_some_iff.1 this.symm
    rw [← hj2]
    exact ⟨(rτ _).2 (hFB _ _ hj1).1, (rσ _).2 (hFB _ _ hj1).2⟩
  have hE' : E P' n := hE.rename hr σ0 τ0 bσ.1 bτ.1 (hE.mono hPF h)
  have hA0 : ((0, 0), (1, true, 1)) ∈ Q := Table.get?_mem hT.start
  simp only [Bool.toNat_false, Nat.sub_zero] at hlen hfin
  have hQB : ∀ e ∈ Q, e.2.1 < C ∧ e.2.2.2 < S := fun e he => hT.instrs e he
  -- what is left when the last state or colour is not used
  have small : ∀ S' C', Smaller E S' C' N lim → Below Q.get? C' S' → n ≤ N := by
    rintro S' C' ⟨hw, M, hM, hlt⟩ hb
    have hg : Goes Q.get? := by
      rcases hfin with hf | hf | hf | hf
      · exact .inl (neverHalts_of_full hsub hT (by omega) (by omega) hP'B hf)
      · exact .inl hf
      · exact .inr hf
      · exact goes_of_lim hM hb hlt hf
    exact hw _ hb n (hE.part hsub hg hE')
  rcases hmem with hmem | hdrop | hdrop
  · obtain ⟨hg, hb⟩ := hall Q hmem
    exact hb n (hE.part hsub hg hE')
  · rcases h1 with h1 | h1
    · have : 1 + 1 < S := hdrop _ hA0
      omega
    · refine small _ _ h1 fun s i hi => ?_
      have := Table.get?_mem hi
      exact ⟨(hQB _ this).1, lt_pred (hdrop _ this)⟩
  · rcases h2 with h2 | h2
    · have : 1 + 1 < C := hdrop _ hA0
      omega
    · refine small _ _ h2 fun s i hi => ?_
      have := Table.get?_mem hi
      exact ⟨lt_pred (hdrop _ this), (hQB _ this).2⟩

theorem within_of_tree {E : Prog → Nat → Prop} (hE : Event E) {S C N lim : Nat} (hS : 2 ≤ S)
    (hC : 2 ≤ C) (hN : 1 ≤ N) (h1 : S = 2 ∨ Smaller E (S - 1) C N lim)
    (h2 : C = 2 ∨ Smaller E S (C - 1) N lim)
    (hall : ∀ Q ∈ buildTree S C false lim, Goes Q.get? ∧ ∀ n, E Q.get? n → n ≤ N) :
    Within E S C N := by
  intro P hP n h
  cases hp : P (0, 0) with
  | none =>
    have : HaltsAt P initCfg 0 (0, 0) := ⟨initCfg, rfl, rfl, hp⟩
    have := this.le_of_run (hE.run h)
    omega
  | some i =>
    obtain ⟨c, d, s⟩ := i
    obtain ⟨hc, hs⟩ := hP _ _ hp
    simp only at hc hs
    by_cases hc0 : c = 0
    · have hrun1 : runFor P 1 initCfg = some (initCfg.exec (c, d, s)) := by
        rw [runFor_one]
        exact step_some (p := P) (c := initCfg) hp
      have hb : BlankAt P s 1 := ⟨_, hrun1, rfl, fun x => by simp [Cfg.exec, initCfg, hc0]⟩
      have := hE.blank hb Nat.one_pos h
      omega
    by_cases hs0 : s = 0
    · have := hE.spin (P := P) (c := c) (d := d) (by rw [hp, hs0]) hc0 h
      omega
    have hr := P.turn_renames s c (!d)
    have hσ0 := Norm.swapNat_zero (a := 1) (b := s) (by omega) hs0
    have hτ0 := Norm.swapNat_zero (a := 1) (b := c) (by omega) hc0
    refine within_1RB hE hS hC h1 h2 hall (P.turn s c (!d)) ?_ ?_ n
      (hE.rename hr hσ0 hτ0 (Norm.swapNat_bijective 1 s).1 (Norm.swapNat_bijective 1 c).1 h)
    · exact Below.rename (p := P) hP hr (Norm.swapNat_invol 1 s) (Norm.swapNat_invol 1 c)
        (fun x hx => Norm.swapNat_lt (by omega) hc hx) (fun x hx => Norm.swapNat_lt (by omega) hs hx)
    · have := hr 0 0
      rw [hσ0, hτ0, hp] at this
      rw [this]
      cases d <;> simp [Norm.swapNat]

/-! ### The two events -/

theorem blankAt_sub {Q P : Prog} (h : SubProg Q P) {r : State} {k : Nat} (hb : BlankAt Q r k) :
    BlankAt P r k := by
  obtain ⟨d, h1, h2, h3⟩ := hb
  exact ⟨d, runFor_sub h _ _ _ h1, h2, h3⟩

/-- As long as the part runs. -/
theorem blankAt_back {Q P : Prog} (h : SubProg Q P) {r : State} {k : Nat} (hb : BlankAt P r k)
    (hr : (runFor Q k initCfg).isSome) : BlankAt Q r k := by
  obtain ⟨d, h1, h2, h3⟩ := hb
  obtain ⟨e, he⟩ := Option.isSome_iff_exists.1 hr
  have := runFor_sub h _ _ _ he
  rw [h1] at this
  cases this
  exact ⟨d, he, h2, h3⟩

theorem blankAt_forward {p p' : Prog} {σ τ : Nat → Nat} {m : Bool} (hr : Renames p p' σ τ m)
    (hσ : σ 0 = 0) (hτ : τ 0 = 0) {r : State} {n : Nat} (h : BlankAt p r n) :
    BlankAt p' (σ r) n := by
  obtain ⟨d, h1, h2, h3⟩ := h
  have := runFor_rename hr n initCfg
  rw [initCfg_rename m hσ hτ, h1] at this
  refine ⟨_, this, by rw [← h2]; rfl, fun x => ?_⟩
  show τ (d.tape _) = 0
  rw [h3, hτ]

theorem blankAt_isSome {p : Prog} {r : State} {n : Nat} (h : BlankAt p r n) :
    (runFor p n initCfg).isSome := by
  obtain ⟨d, h1, -, -⟩ := h
  rw [h1]; rfl

/-- The run of a program that spins out at once, with its first cell printed. -/
theorem run_spin {P : Prog} {c : Color} {d : Bool} (h : P (0, 0) = some (c, d, 0)) (n : Nat) :
    ∃ e, runFor P n initCfg = some e ∧ e.state = 0 ∧ e.pos = disp d n ∧
      (∀ k : Nat, e.tape (e.pos + disp d k) = 0) ∧ (0 < n → e.tape 0 = c) := by
  induction n with
  | zero => exact ⟨initCfg, rfl, rfl, by cases d <;> simp [disp, initCfg], fun _ => rfl, by omega⟩
  | succ n ih =>
    obtain ⟨e, h1, h2, h3, h4, h5⟩ := ih
    have h0 : e.tape e.pos = 0 := by
      have := h4 0
      have hz : e.pos + disp d 0 = e.pos := by cases d <;> simp [disp]
      rwa [hz] at this
    have hs : P e.slot = some (c, d, 0) := by simp only [Cfg.slot, h0, h2, h]
    refine ⟨e.exec (c, d, 0), ?_, rfl, ?_, ?_, ?_⟩
    · rw [runFor_succ', h1, Option.bind_some]
      exact step_some (p := P) (c := e) hs
    · cases d
      · simp [Cfg.exec, h3, disp]
        omega
      · simp [Cfg.exec, h3, disp]
    · intro k
      have hk := h4 (k + 1)
      cases d
      · simp only [Cfg.exec, Bool.false_eq_true, if_false]
        rw [if_neg (by simp [disp]; omega), ← hk]
        congr 1
        simp [disp]; omega
      · simp only [Cfg.exec, if_true]
        rw [if_neg (by simp [disp]; omega), ← hk]
        congr 1
        simp [disp]; omega
    · intro _
      rcases Nat.eq_zero_or_pos n with hn | hn
      · subst hn
        have : e.pos = 0 := by rw [h3]; cases d <;> simp [disp]
        simp [Cfg.exec, this]
      · have : (0 : Int) ≠ e.pos := by rw [h3]; cases d <;> simp [disp] <;> omega
        simp only [Cfg.exec]
        rw [if_neg this]
        exact h5 hn

theorem firstBlank_event : Event FirstBlank where
  run := fun ⟨_, ⟨_, h⟩, _⟩ => blankAt_isSome h
  mono := by
    rintro Q P n hs ⟨h1, ⟨r, h2⟩, h3⟩
    refine ⟨h1, ⟨r, blankAt_sub hs h2⟩, fun k r' hk0 hk hb => ?_⟩
    exact h3 k r' hk0 hk (blankAt_back hs hb (runFor_isSome_of_le (Nat.le_of_lt hk) (blankAt_isSome h2)))
  back := by
    rintro Q P n hs ⟨h1, ⟨r, h2⟩, h3⟩ hr
    refine ⟨h1, ⟨r, blankAt_back hs h2 ?_⟩, fun k r' hk0 hk hb => h3 k r' hk0 hk (blankAt_sub hs hb)⟩
    rcases hr with hr | ⟨r', -, hr⟩
    · exact runFor_isSome_of_le (Nat.le_succ n) hr
    · exact blankAt_isSome hr
  blank := by
    rintro P r k n hb hk ⟨-, -, h3⟩
    by_contra hcon
    exact h3 k r hk (by omega) hb
  rename := by
    rintro P P' σ τ m n hr hσ hτ - iτ ⟨h1, ⟨r, h2⟩, h3⟩
    refine ⟨h1, ⟨_, blankAt_forward hr hσ hτ h2⟩, fun k r' hk0 hk hb => ?_⟩
    obtain ⟨r'', hb'⟩ := blankAt_mirror hr hσ hτ iτ hb
    exact h3 k r'' hk0 hk hb'
  spin := by
    rintro P c d n hp hc ⟨h1, ⟨r, e, h2, -, h4⟩, -⟩
    exfalso
    obtain ⟨e', k1, -, -, -, k5⟩ := run_spin hp n
    rw [h2] at k1
    cases k1
    exact hc ((k5 h1).symm.trans (h4 0))

theorem spinsNow_sub {Q P : Prog} (h : SubProg Q P) {c : Cfg} (hs : SpinsNow Q c) :
    SpinsNow P c := by
  obtain ⟨p, d, h1, h2, h3⟩ := hs
  exact ⟨p, d, h _ _ h1, h2, h3⟩

theorem spinsNow_back {Q P : Prog} (h : SubProg Q P) {c : Cfg} {n : Nat}
    (hc : runFor Q n initCfg = some c) (hr : (runFor Q (n + 1) initCfg).isSome)
    (hs : SpinsNow P c) : SpinsNow Q c := by
  obtain ⟨p, d, h1, h2, h3⟩ := hs
  rw [runFor_succ', hc, Option.bind_some] at hr
  cases hq : Q c.slot with
  | none => simp [step, hq] at hr
  | some i =>
    have e : c.slot = (c.state, 0) := by simp only [Cfg.slot, h2]
    rw [e] at hq
    have := h _ _ hq
    rw [h1] at this
    cases this
    exact ⟨p, d, hq, h2, h3⟩

theorem spinsNow_rename {p p' : Prog} {σ τ : Nat → Nat} {m : Bool} (hr : Renames p p' σ τ m)
    (hσ : Function.Injective σ) (hτ0 : τ 0 = 0) (hτ : Function.Injective τ) (c : Cfg) :
    SpinsNow p' (c.rename σ τ m) ↔ SpinsNow p c := by
  have hz : ∀ x, τ x = 0 ↔ x = 0 := fun x =>
    ⟨fun h => hτ (by rw [h, hτ0]), fun h => by rw [h, hτ0]⟩
  have key : p' ((c.rename σ τ m).state, 0) =
      (p (c.state, 0)).map fun i => (τ i.1, i.2.1 != m, σ i.2.2) := by
    have := hr c.state 0
    rw [hτ0] at this
    exact this
  have hpos : (c.rename σ τ m).tape (c.rename σ τ m).pos = 0 ↔ c.tape c.pos = 0 := by
    have : (c.rename σ τ m).tape (c.rename σ τ m).pos = τ (c.tape c.pos) := by
      cases m <;> simp [Cfg.rename]
    rw [this, hz]
  have hside : ∀ d : Bool,
      (∀ x, (if d != m then (c.rename σ τ m).pos < x else x < (c.rename σ τ m).pos) →
        (c.rename σ τ m).tape x = 0) ↔
      ∀ x, (if d then c.pos < x else x < c.pos) → c.tape x = 0 := by
    intro d
    constructor
    · intro h x hx
      have := h (if m then -x else x) (by
        cases m <;> cases d <;> simp [Cfg.rename] at hx ⊢ <;> omega)
      cases m
      · exact (hz _).1 (by simpa [Cfg.rename] using this)
      · exact (hz _).1 (by simpa [Cfg.rename] using this)
    · intro h x hx
      have := h (if m then -x else x) (by
        cases m <;> cases d <;> simp [Cfg.rename] at hx ⊢ <;> omega)
      exact (hz _).2 this
  constructor
  · rintro ⟨a, d, h1, h2, h3⟩
    rw [key] at h1
    obtain ⟨⟨b, d', q⟩, hj1, hj2⟩ := Option.map_eq_some_iff.1 h1
    simp only [Prod.mk.injEq] at hj2
    obtain ⟨-, hd, hq⟩ := hj2
    have hq' : q = c.state := hσ hq
    subst hq'
    subst hd
    exact ⟨b, d', hj1, hpos.1 h2, (hside d').1 h3⟩
  · rintro ⟨b, d, h1, h2, h3⟩
    refine ⟨τ b, d != m, ?_, hpos.2 h2, (hside d).2 h3⟩
    rw [key, h1]
    rfl

theorem firstSpin_event : Event FirstSpin where
  run := fun ⟨⟨c, h, _⟩, _⟩ => by rw [h]; rfl
  mono := by
    rintro Q P n hs ⟨⟨c, h1, h2⟩, h3, h4⟩
    have hsome : (runFor Q n initCfg).isSome := by rw [h1]; rfl
    refine ⟨⟨c, runFor_sub hs _ _ _ h1, spinsNow_sub hs h2⟩, ?_, ?_⟩
    · intro k e hk he hsp
      obtain ⟨e', he'⟩ := Option.isSome_iff_exists.1 (runFor_isSome_of_le (Nat.le_of_lt hk) hsome)
      have := runFor_sub hs _ _ _ he'
      rw [he] at this
      cases this
      exact h3 k e hk he' (spinsNow_back hs he' (runFor_isSome_of_le hk hsome) hsp)
    · intro k r hk0 hk hb
      exact h4 k r hk0 hk (blankAt_back hs hb (runFor_isSome_of_le hk hsome))
  back := by
    rintro Q P n hs ⟨⟨c, h1, h2⟩, h3, h4⟩ hr
    have hr' : (runFor Q (n + 1) initCfg).isSome := by
      rcases hr with hr | ⟨r, hn, hb⟩
      · exact hr
      · exact absurd (blankAt_sub hs hb) (h4 n r hn (Nat.le_refl _))
    obtain ⟨e, he⟩ := Option.isSome_iff_exists.1 (runFor_isSome_of_le (Nat.le_succ n) hr')
    have := runFor_sub hs _ _ _ he
    rw [h1] at this
    cases this
    exact ⟨⟨c, he, spinsNow_back hs he hr' h2⟩,
      fun k e hk he' hsp => h3 k e hk (runFor_sub hs _ _ _ he') (spinsNow_sub hs hsp),
      fun k r hk0 hk hb => h4 k r hk0 hk (blankAt_sub hs hb)⟩
  blank := by
    rintro P r k n hb hk ⟨-, -, h4⟩
    by_contra hcon
    exact h4 k r hk (by omega) hb
  rename := by
    rintro P P' σ τ m n hr hσ hτ iσ iτ ⟨⟨c, h1, h2⟩, h3, h4⟩
    have hrun : ∀ k, runFor P' k initCfg = (runFor P k initCfg).map fun d => d.rename σ τ m := by
      intro k
      have := runFor_rename hr k initCfg
      rwa [initCfg_rename m hσ hτ] at this
    refine ⟨⟨_, by rw [hrun, h1]; rfl, (spinsNow_rename hr iσ hτ iτ c).2 h2⟩, ?_, ?_⟩
    · intro k e hk he hsp
      rw [hrun] at he
      obtain ⟨e', he1, he2⟩ := Option.map_eq_some_iff.1 he
      subst he2
      exact h3 k e' hk he1 ((spinsNow_rename hr iσ hτ iτ e').1 hsp)
    · intro k r hk0 hk hb
      obtain ⟨r', hb'⟩ := blankAt_mirror hr hσ hτ iτ hb
      exact h4 k r' hk0 hk hb'
  spin := by
    rintro P c d n hp hc ⟨-, h3, -⟩
    by_contra hn
    refine h3 0 initCfg (by omega) rfl ⟨c, d, hp, rfl, fun _ _ => rfl⟩

/-! ### C79 -/

/-- **C79 (blank tapes).**  Let every program that the tree of a size hands out run forever or come
to a blank tape, and let none have its first blank tape after more than `N` moves.  Let the same
bound hold for the sizes with a state or a colour less, whose halting programs halt before the limit
of the search.  Then no program of the size at all has its first blank tape after more than `N`
moves. -/
theorem C79_blank {S C N lim : Nat} (hS : 2 ≤ S) (hC : 2 ≤ C) (hN : 1 ≤ N)
    (h1 : S = 2 ∨ Within FirstBlank (S - 1) C N ∧ ∃ M, Settled (S - 1) C M ∧ M < lim)
    (h2 : C = 2 ∨ Within FirstBlank S (C - 1) N ∧ ∃ M, Settled S (C - 1) M ∧ M < lim)
    (hall : ∀ Q ∈ buildTree S C false lim,
      (NeverHalts Q.get? initCfg ∨ ∃ r k, 0 < k ∧ BlankAt Q.get? r k) ∧
      ∀ n, FirstBlank Q.get? n → n ≤ N) :
    Within FirstBlank S C N :=
  within_of_tree firstBlank_event hS hC hN h1 h2 hall

/-- **C79 (spin-outs).**  The same for spinning out with no blank tape before. -/
theorem C79_spin {S C N lim : Nat} (hS : 2 ≤ S) (hC : 2 ≤ C) (hN : 1 ≤ N)
    (h1 : S = 2 ∨ Within FirstSpin (S - 1) C N ∧ ∃ M, Settled (S - 1) C M ∧ M < lim)
    (h2 : C = 2 ∨ Within FirstSpin S (C - 1) N ∧ ∃ M, Settled S (C - 1) M ∧ M < lim)
    (hall : ∀ Q ∈ buildTree S C false lim,
      (NeverHalts Q.get? initCfg ∨ ∃ r k, 0 < k ∧ BlankAt Q.get? r k) ∧
      ∀ n, FirstSpin Q.get? n → n ≤ N) :
    Within FirstSpin S C N :=
  within_of_tree firstSpin_event hS hC hN h1 h2 hall

/-! ### Sizes -/

open Watch

/-- The part of the tree with a given instruction at B0, no slot left open. -/
def fullPart (S C lim : Nat) (i : Instr) : List Table :=
  branch lim S C (S * C - 2) i (twoInstrs i) 1 Tape.initStepped (min 3 S) (min 3 C)

theorem watched_of_parts {S C lim : Nat} (hS : 2 ≤ S) (hC : 2 ≤ C) {P : Plan} (hP : P.ok = true)
    (hk : P.k = C) {f : Table → Rows} (hf : ∀ t, Tells (f t) t.get?)
    (h : ∀ i ∈ makeInstrs (min 3 S) (min 3 C), (fullPart S C lim i).all (checkAs P f) = true) :
    ∀ Q ∈ buildTree S C false lim, Watched Q.get? P.blanks P.spins := by
  intro Q hQ
  have hT := (buildTree_sound hS hC false lim).2 Q hQ
  rw [buildTree_eq, List.mem_flatMap] at hQ
  obtain ⟨i, hi, hQ⟩ := hQ
  have := List.all_eq_true.1 (h i hi) Q hQ
  exact check_spec hP (hf Q) hT.start (fun e he => by rw [hk]; exact (hT.instrs e he).1) this

theorem within_mono {E : Prog → Nat → Prop} {S C M N : Nat} (h : Within E S C M) (hMN : M ≤ N) :
    Within E S C N := fun P hP n hn => Nat.le_trans (h P hP n hn) hMN

/-- A race that ends in a blank tape or a spin-out shows that no smaller bound holds. -/
theorem blank_ge {S C N n M : Nat} {Q : Table} (h : Within FirstBlank S C N)
    (hQ : ∀ e ∈ Q, e.2.1 < C ∧ e.2.2.2 < S) (h0 : Q.get? (0, 0) = some (1, true, 1))
    {r : Rows} (hr : Tells r Q.get?) (he : race r M 1 1 [1] 0 [] = .blank n) : n ≤ N := by
  have := race_start hr h0 M
  rw [he] at this
  exact h _ (fun s i hi => hQ _ (Table.get?_mem hi)) n this.1

theorem spin_ge {S C N n M : Nat} {Q : Table} (h : Within FirstSpin S C N)
    (hQ : ∀ e ∈ Q, e.2.1 < C ∧ e.2.2.2 < S) (h0 : Q.get? (0, 0) = some (1, true, 1))
    {r : Rows} (hr : Tells r Q.get?) (he : race r M 1 1 [1] 0 [] = .spin n) : n ≤ N := by
  have := race_start hr h0 M
  rw [he] at this
  exact h _ (fun s i hi => hQ _ (Table.get?_mem hi)) n this.1

/-- Automata that remember the nearest cell, or none, and whether all others are blank. -/
def gram20 : Try :=
  ⟨1000, ⟨8, 4, 2, [[0, 1], [1, 1]], [[0, 1], [1, 1]], [[⟨0, 0, 0⟩], [⟨0, 1, 4⟩, ⟨1, 0, 2⟩, ⟨1,
  1, 6⟩]], [[⟨0, 0, 0⟩], [⟨0, 1, 4⟩, ⟨1, 0, 1⟩, ⟨1, 1, 5⟩]]⟩⟩

def gram21 : Try :=
  ⟨1000, ⟨32, 8, 4, [[0, 1], [2, 3], [2, 3], [2, 3]], [[0, 1], [2, 3], [2, 3], [2, 3]], [[⟨0, 0,
  0⟩], [⟨0, 1, 16⟩], [⟨1, 0, 4⟩, ⟨2, 0, 8⟩, ⟨3, 0, 12⟩], [⟨1, 1, 20⟩, ⟨2, 1, 24⟩, ⟨3, 1, 28⟩]],
  [[⟨0, 0, 0⟩], [⟨0, 1, 16⟩], [⟨1, 0, 1⟩, ⟨2, 0, 2⟩, ⟨3, 0, 3⟩], [⟨1, 1, 17⟩, ⟨2, 1, 18⟩, ⟨3, 1,
  19⟩]]⟩⟩

def plan22 : Plan := ⟨2, 8, 6, 4, 6, [gram20], [gram21], []⟩

theorem watched22 : ∀ Q ∈ buildTree 2 2 false 20, Watched Q.get? 8 6 := by
  refine watched_of_parts (P := plan22) (f := rows22) (by omega) (by omega) (by decide +kernel) rfl
    tells22 ?_
  decide +kernel

/-- **C79 (two states, two colours).**  The tree that the tests search for that size (limit 20):
the first blank tape comes within 8 moves or never, a spin-out without a blank tape before within
6. -/
theorem C79_two_two : Within FirstBlank 2 2 8 ∧ Within FirstSpin 2 2 6 :=
  ⟨C79_blank (lim := 20) (by omega) (by omega) (by omega) (.inl rfl) (.inl rfl)
    fun Q hQ => ⟨(watched22 Q hQ).goes, (watched22 Q hQ).blank⟩,
   C79_spin (lim := 20) (by omega) (by omega) (by omega) (.inl rfl) (.inl rfl)
    fun Q hQ => ⟨(watched22 Q hQ).goes, (watched22 Q hQ).spin⟩⟩

/-- Both are attained, by programs named in the tests: `1RB 0RA  1LB 1LA`, `1RB 0LB  0LB 1LA`. -/
theorem C79_two_two_tight (N : Nat) :
    (Within FirstBlank 2 2 N → 8 ≤ N) ∧ (Within FirstSpin 2 2 N → 6 ≤ N) :=
  ⟨fun h => blank_ge h (M := 20) (Q := [((0, 0), (1, true, 1)), ((0, 1), (0, true, 0)),
      ((1, 0), (1, false, 1)), ((1, 1), (1, false, 0))]) (by decide) rfl (tells22 _) rfl,
   fun h => spin_ge h (M := 20) (Q := [((0, 0), (1, true, 1)), ((0, 1), (0, false, 1)),
      ((1, 0), (0, false, 1)), ((1, 1), (1, false, 0))]) (by decide) rfl (tells22 _) rfl⟩

end BB.Records
