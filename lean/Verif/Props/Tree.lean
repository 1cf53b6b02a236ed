import Verif.Lemmas.TreeFull
import Verif.Props.Parse

/-!
# C34, C35: the tree search
-/

namespace BB

/-! ## C34 -/

/-- **C34.**  Every program of the tree has A0 = 1RB, slots and instructions within the given
numbers of states and colours, and comes to each of its slots when run from blank tape; no program
is produced twice. -/
theorem C34_tree (S C : Nat) (hS : 2 ≤ S) (hC : 2 ≤ C) (halt : Bool) (lim : Nat) :
    (buildTree S C halt lim).Nodup ∧
    ∀ t ∈ buildTree S C halt lim,
      t.Sorted ∧ t.get? (0, 0) = some (1, true, 1) ∧
      (∀ e ∈ t, e.1.1 < S ∧ e.1.2 < C ∧ e.2.1 < C ∧ e.2.2.2 < S) ∧
      ∀ e ∈ t, ∃ n d, runFor t.get? n initCfg = some d ∧ d.slot = e.1 := by
  obtain ⟨h1, h2⟩ := buildTree_sound hS hC halt lim
  refine ⟨h1, fun t ht => ?_⟩
  have := h2 t ht
  exact ⟨this.sorted, this.start, fun e he => ⟨(this.slots e he).1, (this.slots e he).2,
    (this.instrs e he).1, (this.instrs e he).2⟩, this.visits⟩

/-- **C34, the texts of `tree_progs`.**  They are pairwise different, and each reads back as a
program of the tree (up to 10 colours and 68 states, which is what texts can say). -/
theorem C34_texts (S C : Nat) (hS : 2 ≤ S) (hC : 2 ≤ C) (hS' : S ≤ 68) (hC' : C ≤ 10)
    (halt : Bool) (lim : Nat) :
    (treeProgs S C halt lim).Nodup ∧
    ∀ s ∈ treeProgs S C halt lim, ∃ t ∈ buildTree S C halt lim, fromStr s = some t := by
  obtain ⟨h1, h2⟩ := buildTree_sound hS hC halt lim
  have hread : ∀ t ∈ buildTree S C halt lim, fromStr (t.show (some (S, C))) = some t := by
    intro t ht
    have := h2 t ht
    refine C27_compile_show t S C this.sorted (by omega) (by omega) this.slots fun e he => ?_
    exact ⟨Nat.lt_of_lt_of_le (this.instrs e he).1 hC', Nat.lt_of_lt_of_le (this.instrs e he).2 hS'⟩
  constructor
  · refine List.Nodup.map_on ?_ h1
    intro a ha b hb hab
    have e1 := hread a ha
    have e2 := hread b hb
    rw [hab, e2] at e1
    exact (Option.some.inj e1).symm
  · intro s hs
    obtain ⟨t, ht, rfl⟩ := List.mem_map.1 hs
    exact ⟨t, ht, hread t ht⟩

/-- The smallest case: 2 states, 2 colours. -/
theorem C34_example : (buildTree 2 2 true 100).length = 36 ∧
    [((0, 0), (1, true, 1)), ((0, 1), (1, false, 1)), ((1, 0), (1, false, 0))]
      ∈ buildTree 2 2 true 100 := by
  decide +kernel

/-! ## C35 -/

/-- **C35.**  For every complete program with A0 = 1RB there is, after renaming its states and
colours, a program `Q` with instructions taken from it such that nothing is left to decide about
`Q` (all slots filled in, but one if `halt`; or its run never stops, exceeds the limit, or blanks
the tape), and `Q` is in the tree — unless `Q` never goes to the last state or never prints the
last colour. -/
theorem C35_complete (S C : Nat) (hS : 2 ≤ S) (hC : 2 ≤ C) (halt : Bool) (lim : Nat)
    (P : Prog) (hP : ∀ s c, s < S → c < C → ∃ i, P (s, c) = some i ∧ i.1 < C ∧ i.2.2 < S)
    (h0 : P (0, 0) = some (1, true, 1)) :
    ∃ (P' : Prog) (Q : Table), Renamed S C P P' ∧
      (∀ s i, Q.get? s = some i → P' s = some i) ∧
      Q.get? (0, 0) = some (1, true, 1) ∧
      (Q.length = S * C - halt.toNat ∨ NeverHalts Q.get? initCfg ∨
        (∃ r n, 0 < n ∧ BlankAt Q.get? r n) ∨ (runFor Q.get? lim initCfg).isSome) ∧
      (Q ∈ buildTree S C halt lim ∨
        (∀ e ∈ Q, 1 + e.2.2.2 < S) ∨ ∀ e ∈ Q, 1 + e.2.1 < C) := by
  obtain ⟨P', Q, h1, h2, h3, -, h4, h5⟩ := buildTree_complete hS hC halt lim P hP h0
  exact ⟨P', Q, h1, h2, h3.start, h4, h5⟩

/-- Blank configurations correspond under a renaming of colours. -/
theorem blankAt_rename {p p' : Prog} {σ τ : Nat → Nat} (hr : Renames p p' σ τ false)
    (hσ : σ 0 = 0) (hτ : τ 0 = 0) (hinj : Function.Injective τ) {r : State} {n : Nat}
    (h : BlankAt p' r n) : ∃ r', BlankAt p r' n := by
  obtain ⟨d, h1, -, h3⟩ := h
  have := runFor_rename hr n initCfg
  rw [initCfg_rename false hσ hτ, h1] at this
  obtain ⟨e, h4, h5⟩ := Option.map_eq_some_iff.1 this.symm
  refine ⟨e.state, e, h4, rfl, fun x => ?_⟩
  have := h3 x
  rw [← h5] at this
  simp only [Cfg.rename, Bool.false_eq_true, if_false] at this
  exact hinj (this.trans hτ.symm)

/-- Visited slots correspond under a renaming. -/
theorem visit_rename {p p' : Prog} {σ τ : Nat → Nat} (hr : Renames p p' σ τ false)
    (hσ : σ 0 = 0) (hτ : τ 0 = 0) {n : Nat} {d : Cfg} (h : runFor p n initCfg = some d) :
    ∃ d', runFor p' n initCfg = some d' ∧ d'.slot = (σ d.slot.1, τ d.slot.2) := by
  have := runFor_rename hr n initCfg
  rw [initCfg_rename false hσ hτ, h] at this
  exact ⟨_, this, Cfg.slot_rename d σ τ false⟩

theorem visit_rename_back {p p' : Prog} {σ τ : Nat → Nat} (hr : Renames p p' σ τ false)
    (hσ : σ 0 = 0) (hτ : τ 0 = 0) {n : Nat} {d' : Cfg} (h : runFor p' n initCfg = some d') :
    ∃ d, runFor p n initCfg = some d ∧ d'.slot = (σ d.slot.1, τ d.slot.2) := by
  have := runFor_rename hr n initCfg
  rw [initCfg_rename false hσ hτ, h] at this
  obtain ⟨e, h4, h5⟩ := Option.map_eq_some_iff.1 this.symm
  exact ⟨e, h4, by rw [← h5, Cfg.slot_rename]⟩

/-- Neither condition of `leaf` applies to a program that comes to all states and colours. -/
theorem not_dropped {S C : Nat} (hS : 2 ≤ S) (hC : 2 ≤ C) {Q : Table} (hQ : TreeProg S C Q)
    (h1 : ∃ n d, runFor Q.get? n initCfg = some d ∧ d.slot.1 = S - 1)
    (h2 : ∃ n d, runFor Q.get? n initCfg = some d ∧ d.slot.2 = C - 1) :
    ¬ ((∀ e ∈ Q, 1 + e.2.2.2 < S) ∨ ∀ e ∈ Q, 1 + e.2.1 < C) := by
  rintro (h | h)
  · obtain ⟨n, d, hr, hd⟩ := h1
    have hb : Below Q.get? C (S - 1) := by
      intro s i hi
      have := h _ (Table.get?_mem hi)
      simp only [Nat.add_comm 1] at this
      exact ⟨(hQ.instrs _ (Table.get?_mem hi)).1, Nat.lt_sub_of_add_lt this⟩
    have := (run_below hb (by omega) (by omega) n d hr).1
    rw [show d.state = S - 1 from hd] at this
    exact Nat.lt_irrefl _ this
  · obtain ⟨n, d, hr, hd⟩ := h2
    have hb : Below Q.get? (C - 1) S := by
      intro s i hi
      have := h _ (Table.get?_mem hi)
      simp only [Nat.add_comm 1] at this
      exact ⟨Nat.lt_sub_of_add_lt this, (hQ.instrs _ (Table.get?_mem hi)).2⟩
    have := (run_below hb (by omega) (by omega) n d hr).2 d.pos
    rw [show d.tape d.pos = C - 1 from hd] at this
    exact Nat.lt_irrefl _ this

/-- **C35, programs that use all their slots.**  A complete program with A0 = 1RB that comes to
every one of its slots within the limit, without blanking the tape before, is in the tree up to
the names of states and colours. -/
theorem C35_full (S C : Nat) (hS : 2 ≤ S) (hC : 2 ≤ C) (lim N : Nat) (P : Prog)
    (hP : ∀ s c, s < S → c < C → ∃ i, P (s, c) = some i ∧ i.1 < C ∧ i.2.2 < S)
    (hout : ∀ s, ¬ (s.1 < S ∧ s.2 < C) → P s = none)
    (h0 : P (0, 0) = some (1, true, 1)) (hN : N ≤ lim)
    (hvis : ∀ s c, s < S → c < C → ∃ m d, m < N ∧ runFor P m initCfg = some d ∧ d.slot = (s, c))
    (hblank : ∀ r m, 0 < m → m ≤ N → ¬ BlankAt P r m) :
    ∃ Q ∈ buildTree S C false lim, Renamed S C P Q.get? := by
  have hbelow : Below P C S := by
    rintro ⟨s, c⟩ i hi
    by_cases hr : s < S ∧ c < C
    · obtain ⟨j, h1, h2⟩ := hP s c hr.1 hr.2
      rw [hi] at h1
      cases h1
      exact h2
    · rw [hout _ hr] at hi
      cases hi
  obtain ⟨P', Q, hren, hsub, hQ, -, hfin, hmem⟩ := buildTree_complete hS hC false lim P hP h0
  obtain ⟨σ, τ, bσ, bτ, σ0, τ0, rσ, rτ, hr⟩ := id hren
  have hinr : ∀ {n d'}, runFor P' n initCfg = some d' → d'.slot.1 < S ∧ d'.slot.2 < C := by
    intro n d' hd'
    obtain ⟨d, h1, h2⟩ := visit_rename_back hr σ0 τ0 hd'
    obtain ⟨k1, k2⟩ := run_below hbelow (by omega) (by omega) n d h1
    rw [h2]
    exact ⟨(rσ _).2 k1, (rτ _).2 (k2 _)⟩
  have hnone : ∀ s, ¬ (s.1 < S ∧ s.2 < C) → P' s = none := by
    rintro ⟨s', c'⟩ hs
    obtain ⟨s, rfl⟩ := bσ.2 s'
    obtain ⟨c, rfl⟩ := bτ.2 c'
    rw [hr s c, hout (s, c) (by
      intro h
      exact hs ⟨(rσ _).2 h.1, (rτ _).2 h.2⟩)]
    rfl
  have hrunN : (runFor P' N initCfg).isSome := by
    -- the run of a complete program does not stop
    have : ∀ n, ∃ d, runFor P n initCfg = some d := by
      intro n
      induction n with
      | zero => exact ⟨_, rfl⟩
      | succ n ih =>
        obtain ⟨d, hd⟩ := ih
        obtain ⟨k1, k2⟩ := run_below hbelow (by omega) (by omega) n d hd
        obtain ⟨i, hi, -⟩ := hP _ _ k1 (k2 d.pos)
        exact ⟨d.exec i, by
          rw [runFor_succ', hd, Option.bind_some]
          simp only [step, Cfg.slot, hi, Option.map_some]⟩
    obtain ⟨d, hd⟩ := this N
    obtain ⟨d', hd', -⟩ := visit_rename hr σ0 τ0 hd
    rw [hd']
    rfl
  have hall := has_all (R := P') (N := N) hfin
    (by
      intro m _ d _
      cases hq : Q.get? d.slot with
      | none => exact .inl rfl
      | some i => exact .inr (hsub _ _ hq).symm)
    (by
      intro r m hm0 hmN hb
      obtain ⟨r', hb'⟩ := blankAt_rename hr σ0 τ0 bτ.1 hb
      exact hblank r' m hm0 hmN hb')
    hN hrunN
    (by
      intro m d _ hd hq
      have := length_le_of_avoid hQ.sorted hQ.slots [d.slot] (by simp)
        (by
          intro s hs
          simp only [List.mem_singleton] at hs
          subst hs
          exact hinr hd)
        (by
          intro s hs
          simp only [List.mem_singleton] at hs
          subst hs
          exact hq)
      simp only [List.length_singleton] at this
      simp only [Bool.toNat_false, Nat.sub_zero]
      omega)
  have heq : Q.get? = P' := by
    funext ⟨s', c'⟩
    by_cases hrg : s' < S ∧ c' < C
    · obtain ⟨s, rfl⟩ := bσ.2 s'
      obtain ⟨c, rfl⟩ := bτ.2 c'
      obtain ⟨m, d, hm, hd, hslot⟩ := hvis s c ((rσ _).1 hrg.1) ((rτ _).1 hrg.2)
      obtain ⟨d', hd', hs'⟩ := visit_rename hr σ0 τ0 hd
      have := hall m d' hm hd'
      rw [hs', hslot] at this
      obtain ⟨i, hi⟩ := Option.isSome_iff_exists.1 this
      simp only at hi
      rw [hi, hsub _ _ hi]
    · rw [hnone _ hrg, Table.get?_eq_none]
      intro e he heq
      have := hQ.slots e he
      rw [heq] at this
      exact hrg this
  rcases hmem with hmem | hdrop
  · exact ⟨Q, hmem, by rw [heq]; exact hren⟩
  · exfalso
    have hv : ∀ s' c', s' < S → c' < C → ∃ n d, runFor P' n initCfg = some d ∧
        d.slot = (s', c') := by
      intro s' c' h1 h2
      obtain ⟨s, rfl⟩ := bσ.2 s'
      obtain ⟨c, rfl⟩ := bτ.2 c'
      obtain ⟨m, d, hm, hd, hslot⟩ := hvis s c ((rσ _).1 h1) ((rτ _).1 h2)
      obtain ⟨d', hd', hs'⟩ := visit_rename hr σ0 τ0 hd
      exact ⟨m, d', hd', by rw [hs', hslot]⟩
    refine not_dropped hS hC hQ ?_ ?_ hdrop
    · obtain ⟨n, d, h1, h2⟩ := hv (S - 1) 0 (by omega) (by omega)
      exact ⟨n, d, by rw [heq]; exact h1, by rw [h2]⟩
    · obtain ⟨n, d, h1, h2⟩ := hv 0 (C - 1) (by omega) (by omega)
      exact ⟨n, d, by rw [heq]; exact h1, by rw [h2]⟩

/-- **C35, halting programs.**  A program with A0 = 1RB that has all instructions but one, stops
for lack of that one after at most `lim` steps, came to all its other slots before, and never had a
blank tape after the start, is in the tree for halting programs, up to the names of states and
colours. -/
theorem C35_halting (S C : Nat) (hS : 2 ≤ S) (hC : 2 ≤ C) (lim n : Nat) (P : Prog) (h : Slot)
    (hin : Below P C S) (hout : ∀ s, ¬ (s.1 < S ∧ s.2 < C) → P s = none)
    (h0 : P (0, 0) = some (1, true, 1)) (hn : n ≤ lim) (hhalt : HaltsAt P initCfg n h)
    (hvis : ∀ s c, s < S → c < C → (s, c) ≠ h →
      ∃ m d, m < n ∧ runFor P m initCfg = some d ∧ d.slot = (s, c))
    (hblank : ∀ r m, 0 < m → m ≤ n → ¬ BlankAt P r m) :
    ∃ Q ∈ buildTree S C true lim, Renamed S C P Q.get? := by
  have hPh : P h = none := by
    obtain ⟨d, -, -, h3⟩ := hhalt
    exact h3
  have hhin : h.1 < S ∧ h.2 < C := by
    obtain ⟨d, h1, h2, -⟩ := hhalt
    obtain ⟨k1, k2⟩ := run_below hin (by omega) (by omega) n d h1
    rw [← h2]
    exact ⟨k1, k2 _⟩
  -- fill in the missing instruction
  have hcomp : Complete (P.with h (0, true, 0)) S C := by
    intro s c hs hc
    by_cases he : (s, c) = h
    · exact ⟨(0, true, 0), by simp [Prog.with, he], show 0 < C by omega, show 0 < S by omega⟩
    · obtain ⟨m, d, hm, hd, hslot⟩ := hvis s c hs hc he
      obtain ⟨e, he1, he2, he3⟩ := hhalt
      have hsome := runFor_isSome_of_le (show m + 1 ≤ n by omega) (by rw [he1]; rfl)
      rw [runFor_succ', hd, Option.bind_some] at hsome
      simp only [step] at hsome
      cases hp : P d.slot with
      | none => rw [hp] at hsome; simp at hsome
      | some i =>
        rw [hslot] at hp
        exact ⟨i, by simp [Prog.with, he, hp], (hin _ _ hp).1, (hin _ _ hp).2⟩
  have h0' : P.with h (0, true, 0) (0, 0) = some (1, true, 1) := by
    have : ((0, 0) : Slot) ≠ h := by
      rintro rfl
      rw [h0] at hPh
      cases hPh
    simp [Prog.with, this, h0]
  obtain ⟨P', Q, hren, hsub, hQ, hlen, hfin, hmem⟩ :=
    buildTree_complete hS hC true lim _ hcomp h0'
  obtain ⟨σ, τ, bσ, bτ, σ0, τ0, rσ, rτ, hr'⟩ := id hren
  -- and take it out again
  obtain ⟨R, hR⟩ : ∃ R : Prog, R = fun s => if s = (σ h.1, τ h.2) then none else P' s := ⟨_, rfl⟩
  have hr : Renames P R σ τ false := by
    intro s c
    by_cases he : (s, c) = h
    · subst he
      rw [hPh, hR]
      simp
    · have : (σ s, τ c) ≠ (σ h.1, τ h.2) := by
        intro heq
        simp only [Prod.mk.injEq] at heq
        exact he (by rw [bσ.1 heq.1, bτ.1 heq.2])
      rw [hR]
      simp only [this, if_false]
      rw [hr' s c]
      simp [Prog.with, he]
  have hRhalt : HaltsAt R initCfg n (σ h.1, τ h.2) := (hr.halts σ0 τ0 n).1 h.1 h.2 hhalt
  have hinr : ∀ {n d'}, runFor R n initCfg = some d' → d'.slot.1 < S ∧ d'.slot.2 < C := by
    intro n d' hd'
    obtain ⟨d, h1, h2⟩ := visit_rename_back hr σ0 τ0 hd'
    obtain ⟨k1, k2⟩ := run_below hin (by omega) (by omega) n d h1
    rw [h2]
    exact ⟨(rσ _).2 k1, (rτ _).2 (k2 _)⟩
  have hRrun : (runFor R n initCfg).isSome := by
    obtain ⟨d, h1, -⟩ := hRhalt
    rw [h1]
    rfl
  have hag : ∀ m, m < n → ∀ d, runFor R m initCfg = some d →
      d.slot ≠ (σ h.1, τ h.2) ∧ (Q.get? d.slot = none ∨ Q.get? d.slot = R d.slot) := by
    intro m hm d hd
    have hne : d.slot ≠ (σ h.1, τ h.2) := by
      intro heq
      have : HaltsAt R initCfg m (σ h.1, τ h.2) := ⟨d, hd, heq, by rw [hR]; simp⟩
      have := (this.unique hRhalt).1
      omega
    refine ⟨hne, ?_⟩
    cases hq : Q.get? d.slot with
    | none => exact .inl rfl
    | some i =>
      right
      rw [hR]
      simp only [hne, if_false]
      exact (hsub _ _ hq).symm
  have hRvis : ∀ s' c', s' < S → c' < C → (s', c') ≠ (σ h.1, τ h.2) →
      ∃ m d, m < n ∧ runFor R m initCfg = some d ∧ d.slot = (s', c') := by
    intro s' c' h1 h2 hne
    obtain ⟨s, rfl⟩ := bσ.2 s'
    obtain ⟨c, rfl⟩ := bτ.2 c'
    obtain ⟨m, d, hm, hd, hslot⟩ := hvis s c ((rσ _).1 h1) ((rτ _).1 h2) (by
      intro he
      exact hne (by rw [← he]))
    obtain ⟨d', hd', hs'⟩ := visit_rename hr σ0 τ0 hd
    exact ⟨m, d', hm, hd', by rw [hs', hslot]⟩
  -- the missing slot is not in `Q`
  have hQh : Q.get? (σ h.1, τ h.2) = none := by
    cases hq : Q.get? (σ h.1, τ h.2) with
    | none => rfl
    | some i =>
      exfalso
      obtain ⟨k, d, hd, hslot⟩ := hQ.visits _ (Table.get?_mem hq)
      simp only at hslot
      rcases follow (Q := Q.get?) (R := R) n (fun m hm d hd => (hag m hm d hd).2) with hf | hf
      · -- `Q` has every slot
        have hbig : ∀ s' c', s' < S → c' < C → ∃ i, Q.get? (s', c') = some i := by
          intro s' c' h1 h2
          by_cases he : (s', c') = (σ h.1, τ h.2)
          · exact ⟨i, by rw [he]; exact hq⟩
          · obtain ⟨m, d, hm, hd, hslot⟩ := hRvis s' c' h1 h2 he
            obtain ⟨e, he⟩ := Option.isSome_iff_exists.1 hRrun
            rcases follow (Q := Q.get?) (R := R) m
              (fun m' hm' d hd => (hag m' (by omega) d hd).2) with hf' | ⟨m', s, hm', hh⟩
            · have hqd := hf' d hd
              have := runFor_isSome_of_le (show m + 1 ≤ n by omega) (by rw [hf e he]; rfl)
              rw [runFor_succ', hqd, Option.bind_some] at this
              simp only [step, hslot] at this
              cases hx : Q.get? (s', c') with
              | none => rw [hx] at this; simp at this
              | some j => exact ⟨j, rfl⟩
            · obtain ⟨d', hd1, hd2, hd3⟩ := hh
              have := runFor_isSome_of_le (show m' + 1 ≤ n by omega) (by rw [hf e he]; rfl)
              rw [runFor_succ', hd1] at this
              simp [step, hd2, hd3] at this
        have hcard : S * C ≤ Q.length := by
          have hsubset : (Finset.range S) ×ˢ (Finset.range C) ⊆ (Q.map Prod.fst).toFinset := by
            rintro ⟨s', c'⟩ hs'
            rw [Finset.mem_product, Finset.mem_range, Finset.mem_range] at hs'
            obtain ⟨i, hi⟩ := hbig s' c' hs'.1 hs'.2
            rw [List.mem_toFinset, List.mem_map]
            exact ⟨_, Table.get?_mem hi, rfl⟩
          have h1 := Finset.card_le_card hsubset
          rw [Finset.card_product, Finset.card_range, Finset.card_range] at h1
          have h2 := List.toFinset_card_le (Q.map Prod.fst)
          simp only [List.length_map] at h2
          omega
        have := slots_pos hS hC
        simp only [Bool.toNat_true] at hlen
        omega
      · obtain ⟨k', s, hk', hh⟩ := hf
        have hkk : k ≤ k' := by
          by_contra hcon
          obtain ⟨d', hd1, hd2, hd3⟩ := hh
          have := runFor_isSome_of_le (show k' + 1 ≤ k by omega) (by rw [hd]; rfl)
          rw [runFor_succ', hd1] at this
          simp [step, hd2, hd3] at this
        rcases follow (Q := Q.get?) (R := R) k
          (fun m hm d hd => (hag m (by omega) d hd).2) with hf' | ⟨m', s', hm', hh'⟩
        · obtain ⟨e, he⟩ := Option.isSome_iff_exists.1
            (runFor_isSome_of_le (show k ≤ n by omega) hRrun)
          have h1 := hf' e he
          rw [hd] at h1
          cases h1
          exact (hag k (by omega) d he).1 hslot
        · have := (hh'.unique hh).1
          omega
  have hall := has_all (R := R) (N := n) hfin (fun m hm d hd => (hag m hm d hd).2)
    (by
      intro r m hm0 hmN hb
      obtain ⟨r', hb'⟩ := blankAt_rename hr σ0 τ0 bτ.1 hb
      exact hblank r' m hm0 hmN hb')
    hn hRrun
    (by
      intro m d hm hd hq
      have := length_le_of_avoid hQ.sorted hQ.slots [d.slot, (σ h.1, τ h.2)]
        (by simpa using (hag m hm d hd).1)
        (by
          intro s hs
          simp only [List.mem_cons, List.not_mem_nil, or_false] at hs
          rcases hs with rfl | rfl
          · exact hinr hd
          · exact ⟨(rσ _).2 hhin.1, (rτ _).2 hhin.2⟩)
        (by
          intro s hs
          simp only [List.mem_cons, List.not_mem_nil, or_false] at hs
          rcases hs with rfl | rfl
          · exact hq
          · exact hQh)
      simp only [List.length_cons, List.length_nil] at this
      simp only [Bool.toNat_true]
      omega)
  have heq : Q.get? = R := by
    funext ⟨s', c'⟩
    by_cases he : (s', c') = (σ h.1, τ h.2)
    · rw [he, hQh, hR]
      simp
    · by_cases hrg : s' < S ∧ c' < C
      · obtain ⟨m, d, hm, hd, hslot⟩ := hRvis s' c' hrg.1 hrg.2 he
        have := hall m d hm hd
        rw [hslot] at this
        obtain ⟨i, hi⟩ := Option.isSome_iff_exists.1 this
        rw [hi, hR]
        simp only [he, if_false]
        exact (hsub _ _ hi).symm
      · have h1 : Q.get? (s', c') = none := by
          rw [Table.get?_eq_none]
          intro e he heq
          have := hQ.slots e he
          rw [heq] at this
          exact hrg this
        rw [h1]
        obtain ⟨s, rfl⟩ := bσ.2 s'
        obtain ⟨c, rfl⟩ := bτ.2 c'
        rw [hr s c, hout (s, c) (by
          intro h
          exact hrg ⟨(rσ _).2 h.1, (rτ _).2 h.2⟩)]
        rfl
  rcases hmem with hmem | hdrop
  · refine ⟨Q, hmem, ?_⟩
    rw [heq]
    exact ⟨σ, τ, bσ, bτ, σ0, τ0, rσ, rτ, hr⟩
  · exfalso
    have hv : ∀ s' c', s' < S → c' < C → ∃ n d, runFor R n initCfg = some d ∧
        d.slot = (s', c') := by
      intro s' c' h1 h2
      by_cases he : (s', c') = (σ h.1, τ h.2)
      · obtain ⟨d, hd1, hd2, -⟩ := hRhalt
        exact ⟨n, d, hd1, by rw [he]; exact hd2⟩
      · obtain ⟨m, d, -, hd, hslot⟩ := hRvis s' c' h1 h2 he
        exact ⟨m, d, hd, hslot⟩
    refine not_dropped hS hC hQ ?_ ?_ hdrop
    · obtain ⟨n, d, h1, h2⟩ := hv (S - 1) 0 (by omega) (by omega)
      exact ⟨n, d, by rw [heq]; exact h1, by rw [h2]⟩
    · obtain ⟨n, d, h1, h2⟩ := hv 0 (C - 1) (by omega) (by omega)
      exact ⟨n, d, by rw [heq]; exact h1, by rw [h2]⟩

/-- The hypotheses of `C35_halting` hold for the two-state champion: it stops in B1 after 5 steps
(the step into the halt state not counted). -/
theorem C35_example :
    let t : Table := [((0, 0), (1, true, 1)), ((0, 1), (1, false, 1)), ((1, 0), (1, false, 0))]
    ∃ Q ∈ buildTree 2 2 true 5, Renamed 2 2 t.get? Q.get? := by
  intro t
  have hb : ∀ m, 0 < m → m ≤ 5 → ∀ d, runFor t.get? m initCfg = some d →
      ∃ x, d.tape x ≠ 0 := by
    intro m h1 h2
    have : m = 1 ∨ m = 2 ∨ m = 3 ∨ m = 4 ∨ m = 5 := by omega
    rcases this with rfl | rfl | rfl | rfl | rfl <;>
    · intro d hd
      refine ⟨0, ?_⟩
      have : d.tape 0 = 1 := by
        have h3 := congrArg (Option.map fun d => d.tape 0) hd
        simp only [Option.map_some] at h3
        exact (Option.some.inj (Eq.trans (by decide) h3)).symm
      rw [this]
      decide
  refine C35_halting 2 2 (by decide) (by decide) 5 5 t.get? (1, 1) ?_ ?_ (by decide) (by decide)
    ?_ ?_ ?_
  · intro s i hi
    have := Table.get?_mem hi
    simp only [t, List.mem_cons, List.not_mem_nil, or_false, Prod.mk.injEq] at this
    rcases this with ⟨-, rfl⟩ | ⟨-, rfl⟩ | ⟨-, rfl⟩ <;> decide
  · intro s hs
    rw [Table.get?_eq_none]
    intro e he heq
    subst heq
    revert e
    decide
  · exact ⟨_, rfl, by decide, by decide⟩
  · intro s c hs hc hne
    have h1 : s = 0 ∨ s = 1 := by omega
    have h2 : c = 0 ∨ c = 1 := by omega
    rcases h1 with rfl | rfl <;> rcases h2 with rfl | rfl
    · exact ⟨0, _, by decide, rfl, by decide⟩
    · exact ⟨2, _, by decide, rfl, by decide⟩
    · exact ⟨1, _, by decide, rfl, by decide⟩
    · exact absurd rfl hne
  · rintro r m h1 h2 ⟨d, h3, -, h4⟩
    obtain ⟨x, hx⟩ := hb m h1 h2 d h3
    exact hx (h4 x)

end BB
