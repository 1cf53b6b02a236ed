import Verif.Lemmas.Tree
import Mathlib.Data.Finset.Card
import Mathlib.Data.Finset.Prod
import Mathlib.Data.Finset.Range

/-! # The whole tree, and the programs that visit all their slots -/

namespace BB

/-- The first two instructions. -/
def twoInstrs (i : Instr) : Table := [((0, 0), (1, true, 1)), ((1, 0), i)]

theorem first_step {p : Prog} (h : p (0, 0) = some (1, true, 1)) :
    ∃ pos, runFor p 1 initCfg = some (Tape.initStepped.cfg 1 pos) := by
  obtain ⟨-, -, k3, -, -⟩ := Rs.step_full (q := 0) (q' := 1) (t := Tape.init) (shift := true)
    (c := 1) Tape.canonical_init h (by decide) 0
  exact ⟨_, by rw [initCfg_eq]; exact k3⟩

theorem twoInstrs_onTrack (i : Instr) : OnTrack (twoInstrs i) 1 Tape.initStepped := by
  obtain ⟨pos, h⟩ := first_step (p := Table.get? (twoInstrs i)) rfl
  refine ⟨?_, 1, pos, h⟩
  have := Tape.canonical_init.rsStep true 1 false
  exact this

theorem twoInstrs_ok {S C : Nat} (hS : 2 ≤ S) (hC : 2 ≤ C) {i : Instr} (h1 : i.1 < C)
    (h2 : i.2.2 < S) : TreeProg S C (twoInstrs i) where
  sorted := by simp [twoInstrs, Table.Sorted, Slot.lt]
  start := rfl
  slots := by
    intro e he
    simp only [twoInstrs, List.mem_cons, List.not_mem_nil, or_false] at he
    rcases he with rfl | rfl
    · exact ⟨show 0 < S by omega, show 0 < C by omega⟩
    · exact ⟨show 1 < S by omega, show 0 < C by omega⟩
  instrs := by
    intro e he
    simp only [twoInstrs, List.mem_cons, List.not_mem_nil, or_false] at he
    rcases he with rfl | rfl
    · exact ⟨show 1 < C by omega, show 1 < S by omega⟩
    · exact ⟨h1, h2⟩
  visits := by
    intro e he
    simp only [twoInstrs, List.mem_cons, List.not_mem_nil, or_false] at he
    rcases he with rfl | rfl
    · exact ⟨0, initCfg, rfl, rfl⟩
    · obtain ⟨pos, h⟩ := first_step (p := Table.get? (twoInstrs i)) rfl
      exact ⟨1, _, h, by rw [Tape.slot_cfg]; rfl⟩

theorem buildTree_eq (S C : Nat) (halt : Bool) (lim : Nat) :
    buildTree S C halt lim = (makeInstrs (min 3 S) (min 3 C)).flatMap fun i =>
      branch lim S C (S * C - 1 - (1 + halt.toNat)) i (twoInstrs i) 1 Tape.initStepped
        (min 3 S) (min 3 C) := rfl

theorem buildTree_sound {S C : Nat} (hS : 2 ≤ S) (hC : 2 ≤ C) (halt : Bool) (lim : Nat) :
    (buildTree S C halt lim).Nodup ∧ ∀ t ∈ buildTree S C halt lim, TreeProg S C t := by
  rw [buildTree_eq]
  have key : ∀ i ∈ makeInstrs (min 3 S) (min 3 C), _ := fun i hi =>
    branch_sound (lim := lim) (S := S) (C := C) (by omega) (by omega)
      (S * C - 1 - (1 + halt.toNat)) i (twoInstrs i) 1 Tape.initStepped (min 3 S) (min 3 C)
      (twoInstrs_ok hS hC (Nat.lt_of_lt_of_le (mem_makeInstrs.1 hi).1 (Nat.min_le_right _ _))
        (Nat.lt_of_lt_of_le (mem_makeInstrs.1 hi).2 (Nat.min_le_right _ _)))
      (twoInstrs_onTrack i) (Nat.min_le_right _ _) (Nat.min_le_right _ _)
  constructor
  · rw [List.nodup_flatMap]
    refine ⟨fun i hi => (key i hi).1, ?_⟩
    refine List.Pairwise.imp_of_mem ?_ (nodup_makeInstrs _ _)
    intro a b ha hb hab t h1 h2
    have e1 := ((key a ha).2 t h1).2 (1, 0) a rfl
    have e2 := ((key b hb).2 t h2).2 (1, 0) b rfl
    rw [e1] at e2
    exact hab (Option.some.inj e2)
  · intro t ht
    obtain ⟨i, hi, ht⟩ := List.mem_flatMap.1 ht
    exact ((key i hi).2 t ht).1

theorem slots_pos {S C : Nat} (hS : 2 ≤ S) (hC : 2 ≤ C) : 4 ≤ S * C :=
  Nat.mul_le_mul hS hC

theorem buildTree_complete {S C : Nat} (hS : 2 ≤ S) (hC : 2 ≤ C) (halt : Bool) (lim : Nat)
    (P : Prog) (hP : Complete P S C) (h0 : P (0, 0) = some (1, true, 1)) :
    ∃ (P' : Prog) (Q : Table), Renamed S C P P' ∧ SubProg Q.get? P' ∧ TreeProg S C Q ∧
      Q.length ≤ S * C - halt.toNat ∧
      Finished Q.get? Q.length (S * C - halt.toNat) lim ∧
      (Q ∈ buildTree S C halt lim ∨
        (∀ e ∈ Q, 1 + e.2.2.2 < S) ∨ ∀ e ∈ Q, 1 + e.2.1 < C) := by
  have h4 := slots_pos hS hC
  have hh : halt.toNat ≤ 1 := by cases halt <;> simp
  -- the first instruction alone
  obtain ⟨P1, i, r1, c1, s1, hi, him⟩ := adjust (t := [((0, 0), (1, true, 1))]) (slot := (1, 0))
    (as := min 3 S) (ac := min 3 C) hP
    (by
      intro s j hj
      simp only [Table.get?_cons, Table.get?_nil] at hj
      split at hj
      · cases hj
        subst_vars
        exact h0
      · cases hj)
    (show 1 < S by omega) (show 0 < C by omega) (by omega) (by omega) (by omega) (by omega)
    (by
      by_cases h3 : S ≤ 3
      · exact .inl (by omega)
      · right
        have : min 3 S - 1 = 2 := by omega
        rw [this]
        refine ⟨?_, (by decide : (1:Nat) < 2)⟩
        intro e he
        simp only [List.mem_cons, List.not_mem_nil, or_false] at he
        subst he
        exact ⟨(by decide : (0:Nat) < 2), (by decide : (1:Nat) < 2)⟩)
    (by
      by_cases h3 : C ≤ 3
      · exact .inl (by omega)
      · right
        have : min 3 C - 1 = 2 := by omega
        rw [this]
        refine ⟨?_, (by decide : (0:Nat) < 2)⟩
        intro e he
        simp only [List.mem_cons, List.not_mem_nil, or_false] at he
        subst he
        exact ⟨(by decide : (0:Nat) < 2), (by decide : (1:Nat) < 2)⟩)
  obtain ⟨i1, i2⟩ := mem_makeInstrs.1 him
  have hok := twoInstrs_ok hS hC (Nat.lt_of_lt_of_le i1 (Nat.min_le_right _ _))
    (Nat.lt_of_lt_of_le i2 (Nat.min_le_right _ _))
  obtain ⟨P2, Q, e1, e2, e3, e6, e7, e4, e5⟩ := branch_complete (lim := lim) hS hC
    (S * C - 1 - (1 + halt.toNat)) (S * C - halt.toNat) i (twoInstrs i) 1 Tape.initStepped
    (min 3 S) (min 3 C) P1 (by omega) (by simp [twoInstrs]; omega) hok (twoInstrs_onTrack i)
    ⟨by omega, by omega, i2, by
      by_cases h3 : S ≤ 3
      · exact .inl (by omega)
      · right
        have hm : min 3 S = 3 := by omega
        rw [hm] at i2 ⊢
        refine ⟨?_, fun hlt => ?_⟩
        · intro e he
          simp only [twoInstrs, List.mem_cons, List.not_mem_nil, or_false] at he
          rcases he with rfl | rfl
          · exact ⟨(by decide : (0:Nat) < 3), (by decide : (1:Nat) < 3)⟩
          · exact ⟨(by decide : (1:Nat) < 3), i2⟩
        · intro e he
          simp only [twoInstrs, List.mem_cons, List.not_mem_nil, or_false] at he
          rcases he with rfl | rfl
          · exact ⟨(by decide : (0:Nat) < 2), (by decide : (1:Nat) < 2)⟩
          · exact ⟨(by decide : (1:Nat) < 2), Nat.lt_sub_of_add_lt hlt⟩⟩
    ⟨by omega, by omega, i1, by
      by_cases h3 : C ≤ 3
      · exact .inl (by omega)
      · right
        have hm : min 3 C = 3 := by omega
        rw [hm] at i1 ⊢
        refine ⟨?_, fun hlt => ?_⟩
        · intro e he
          simp only [twoInstrs, List.mem_cons, List.not_mem_nil, or_false] at he
          rcases he with rfl | rfl
          · exact ⟨(by decide : (0:Nat) < 3), (by decide : (1:Nat) < 3)⟩
          · exact ⟨(by decide : (0:Nat) < 3), i1⟩
        · intro e he
          simp only [twoInstrs, List.mem_cons, List.not_mem_nil, or_false] at he
          rcases he with rfl | rfl
          · exact ⟨(by decide : (0:Nat) < 2), (by decide : (1:Nat) < 2)⟩
          · exact ⟨(by decide : (0:Nat) < 2), Nat.lt_sub_of_add_lt hlt⟩⟩
    c1 (by
      intro s j hj
      simp only [twoInstrs, Table.get?_cons, Table.get?_nil] at hj
      split at hj
      · cases hj
        subst_vars
        exact s1 (0, 0) _ rfl
      · split at hj
        · cases hj
          subst_vars
          exact hi
        · cases hj)
  refine ⟨P2, Q, r1.trans e1, e2, e6, e7, e4, ?_⟩
  rcases e5 with e5 | e5
  · left
    rw [buildTree_eq]
    exact List.mem_flatMap.2 ⟨i, him, e5⟩
  · exact .inr e5

/-! ## Programs that visit all slots -/

/-- Counting the slots of a table that avoids `k` of them. -/
theorem length_le_of_avoid {S C : Nat} {Q : Table} (hs : Q.Sorted)
    (hin : ∀ e ∈ Q, e.1.1 < S ∧ e.1.2 < C) (x : List Slot) (hx : x.Nodup)
    (hxin : ∀ s ∈ x, s.1 < S ∧ s.2 < C) (hav : ∀ s ∈ x, Q.get? s = none) :
    Q.length + x.length ≤ S * C := by
  have hnd : (Q.map Prod.fst).Nodup := by
    have : (Q.map Prod.fst).Pairwise (fun a b => Slot.lt a b = true) := by
      rw [List.pairwise_map]
      exact hs
    exact this.imp fun h he => by
      subst he
      rw [Slot.lt_irrefl] at h
      cases h
  have hall : (Q.map Prod.fst ++ x).Nodup := by
    rw [List.nodup_append]
    refine ⟨hnd, hx, ?_⟩
    rintro a ha b hb rfl
    obtain ⟨e, he, rfl⟩ := List.mem_map.1 ha
    have := Table.get?_eq_none.1 (hav _ hb) e he
    exact this rfl
  have hsub : (Q.map Prod.fst ++ x).toFinset ⊆ (Finset.range S) ×ˢ (Finset.range C) := by
    intro s hs'
    simp only [List.mem_toFinset, List.mem_append, List.mem_map] at hs'
    rw [Finset.mem_product, Finset.mem_range, Finset.mem_range]
    rcases hs' with ⟨e, he, rfl⟩ | hs'
    · exact hin e he
    · exact hxin s hs'
  have := Finset.card_le_card hsub
  rw [List.toFinset_card_of_nodup hall, Finset.card_product, Finset.card_range,
    Finset.card_range] at this
  simpa using this

/-- Two programs that agree where the first one comes. -/
theorem follow {Q R : Prog} (n : Nat)
    (h : ∀ m, m < n → ∀ d, runFor R m initCfg = some d → Q d.slot = none ∨ Q d.slot = R d.slot) :
    (∀ d, runFor R n initCfg = some d → runFor Q n initCfg = some d) ∨
      ∃ m s, m < n ∧ HaltsAt Q initCfg m s := by
  induction n with
  | zero => exact .inl fun d hd => hd
  | succ n ih =>
    rcases ih (fun m hm => h m (by omega)) with h1 | ⟨m, s, h1, h2⟩
    · cases hR : runFor R n initCfg with
      | none =>
        left
        intro d hd
        rw [runFor_succ', hR] at hd
        simp at hd
      | some c =>
        have hQ := h1 c hR
        rcases h n (by omega) c hR with h2 | h2
        · exact .inr ⟨n, c.slot, by omega, c, hQ, rfl, h2⟩
        · left
          intro d hd
          rw [runFor_succ', hR, Option.bind_some] at hd
          rw [runFor_succ', hQ, Option.bind_some]
          simp only [step] at hd ⊢
          rw [h2]
          exact hd
    · exact .inr ⟨m, s, by omega, h2⟩

/-- A program of the tree that agrees with `R` where `R` comes within `N` steps has all the slots
`R` comes to. -/
theorem has_all {full lim N : Nat} {Q : Table} {R : Prog}
    (hfin : Finished Q.get? Q.length full lim)
    (hag : ∀ m, m < N → ∀ d, runFor R m initCfg = some d →
      Q.get? d.slot = none ∨ Q.get? d.slot = R d.slot)
    (hblank : ∀ r m, 0 < m → m ≤ N → ¬ BlankAt R r m) (hN : N ≤ lim)
    (hrun : (runFor R N initCfg).isSome)
    (hlen : ∀ m d, m < N → runFor R m initCfg = some d → Q.get? d.slot = none → Q.length < full) :
    ∀ m d, m < N → runFor R m initCfg = some d → (Q.get? d.slot).isSome := by
  intro m d hm hd
  cases hq : Q.get? d.slot with
  | some i => rfl
  | none =>
    exfalso
    -- `Q` stops at or before `m`
    have hstop : ∃ k s, k ≤ m ∧ HaltsAt Q.get? initCfg k s := by
      rcases follow (Q := Q.get?) (R := R) m (fun k hk => hag k (by omega)) with h | ⟨k, s, h1, h2⟩
      · exact ⟨m, d.slot, Nat.le_refl _, d, h d hd, rfl, hq⟩
      · exact ⟨k, s, by omega, h2⟩
    obtain ⟨k, s, hk, hs⟩ := hstop
    rcases hfin with h | h | ⟨r, b, hb0, hb⟩ | h
    · have := hlen m d hm hd hq
      omega
    · exact neverHalts_iff_not_haltsAt.1 h ⟨k, s, hs⟩
    · obtain ⟨e, he, he1, he2⟩ := hb
      have hbk : b ≤ k := by
        by_contra hcon
        obtain ⟨d', hd1, hd2, hd3⟩ := hs
        have := runFor_isSome_of_le (show k + 1 ≤ b by omega) (by rw [he]; rfl)
        rw [runFor_succ', hd1] at this
        simp [step, hd2, hd3] at this
      rcases follow (Q := Q.get?) (R := R) b (fun k hk => hag k (by omega)) with h | ⟨k', s', h1, h2⟩
      · obtain ⟨e', he'⟩ := Option.isSome_iff_exists.1
          (runFor_isSome_of_le (show b ≤ N by omega) hrun)
        have := h e' he'
        rw [he] at this
        cases this
        exact hblank r b hb0 (by omega) ⟨e, he', he1, he2⟩
      · have := (h2.unique hs).1
        omega
    · obtain ⟨d', hd1, hd2, hd3⟩ := hs
      have := runFor_isSome_of_le (show k + 1 ≤ lim by omega) h
      rw [runFor_succ', hd1] at this
      simp [step, hd2, hd3] at this

end BB
