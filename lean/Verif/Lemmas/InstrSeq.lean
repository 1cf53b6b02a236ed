import Verif.Lemmas.NormalizeRun
import Verif.Lemmas.Undef

/-! # `instr_seq` and `tree_norm` -/

namespace BB

/-- `q` has every instruction of `p`. -/
def SubProg (p q : Prog) : Prop := ∀ s i, p s = some i → q s = some i

/-- `p` with one more instruction. -/
def Prog.with (p : Prog) (slot : Slot) (i : Instr) : Prog :=
  fun s => if s = slot then some i else p s

theorem runFor_sub {p q : Prog} (h : SubProg p q) (n : Nat) (c d : Cfg)
    (hr : runFor p n c = some d) : runFor q n c = some d := by
  induction n generalizing c with
  | zero => exact hr
  | succ n ih =>
    simp only [runFor, step] at hr ⊢
    cases hp : p c.slot with
    | none => rw [hp] at hr; simp at hr
    | some i =>
      rw [hp] at hr
      rw [h _ _ hp]
      exact ih _ hr

/-- The chain of an `instr_seq`: each entry is the program so far, where it stops, and the next
program has the instruction of that slot in addition. -/
def Replays (lim : Nat) (prog : Prog) : Nat → Prog → List (Prog × Nat × Slot) → Prop
  | k, cur, [] => k = 0 ∨ NeverHalts cur initCfg ∨ (runFor cur lim initCfg).isSome
  | k, cur, (p, step, slot) :: rest =>
    p = cur ∧ HaltsAt cur initCfg step slot ∧ 0 < k ∧
    (prog slot = none ∧ rest = [] ∨
      ∃ i, prog slot = some i ∧ Replays lim prog (k - 1) (cur.with slot i) rest)

open Norm in
theorem instrSeqLoop_spec {lim : Nat} {program : Norm} {S C : Nat} (hp : Dense program S C)
    (k : Nat) (part : Norm) (hd : Dense part S C) :
    Replays lim program.getitem k part.getitem
      ((instrSeqLoop lim program k part).map fun e => (e.1.getitem, e.2)) := by
  induction k generalizing part with
  | zero => exact .inl rfl
  | succ k ih =>
    obtain ⟨h1, h2⟩ := pyRunUndef_spec part.getitem lim Tape.init 0 0 Tape.canonical_init
      ⟨0, by rw [← initCfg_eq]; rfl⟩
    simp only [instrSeqLoop, runForUndefined]
    cases hr : pyRunUndef part.getitem lim Tape.init 0 0 with
    | none =>
      have := h2 hr
      rw [Nat.zero_add] at this
      exact .inr this
    | some r =>
      obtain ⟨st, slot⟩ := r
      simp only [List.map_cons]
      refine ⟨rfl, h1 _ _ hr, by omega, ?_⟩
      cases hg : program.getitem slot with
      | none => exact .inl ⟨rfl, rfl⟩
      | some i =>
        refine .inr ⟨i, rfl, ?_⟩
        have hin : slot.1 < S ∧ slot.2 < C := by
          by_contra hcon
          have := hp.getitem_none hcon
          rw [show (slot.1, slot.2) = slot from rfl, hg] at this
          cases this
        obtain ⟨part', k1, k2, k3⟩ := hd.setitem slot (some i) hin.1 hin.2
        simp only [k1, Nat.add_sub_cancel]
        have : part'.getitem = Prog.with part.getitem slot i := by
          funext s
          rw [k3]
          rfl
        rw [← this]
        exact ih part' k2

namespace Norm

theorem dense_init (S C : Nat) : Dense (Norm.init S C) S C := by
  apply dense_ofRows
  · simp
  · intro row hrow
    obtain ⟨s, -, rfl⟩ := List.mem_map.1 hrow
    simp

theorem getitem_init {S C : Nat} (hS : 0 < S) (hC : 0 < C) (s : Slot) :
    (Norm.init S C).getitem s = if s = (0, 0) then some (1, true, 1) else none := by
  obtain ⟨st, co⟩ := s
  by_cases hr : st < S ∧ co < C
  · rw [Norm.init, getitem_ofRows]
    simp only [gridGet, List.getElem?_map, List.getElem?_range hr.1, Option.map_some,
      Option.bind_some, List.getElem?_range hr.2, Option.join_some, Prod.mk.injEq]
  · rw [(dense_init S C).getitem_none hr]
    have : ¬ ((st, co) = ((0, 0) : Slot)) := by
      intro h
      simp only [Prod.mk.injEq] at h
      exact hr ⟨h.1 ▸ hS, h.2 ▸ hC⟩
    rw [if_neg this]

end Norm

/-! ## Consequences -/

theorem Replays.head {lim : Nat} {prog : Prog} {k : Nat} {cur : Prog}
    {l : List (Prog × Nat × Slot)} (h : Replays lim prog k cur l) (hs : SubProg cur prog) :
    ∀ e ∈ l, SubProg e.1 prog ∧ SubProg cur e.1 ∧ HaltsAt e.1 initCfg e.2.1 e.2.2 := by
  induction l generalizing k cur with
  | nil => simp
  | cons e rest ih =>
    obtain ⟨p, step, slot⟩ := e
    obtain ⟨rfl, h2, -, h3⟩ := h
    intro e he
    rcases List.mem_cons.1 he with rfl | he
    · exact ⟨hs, fun _ _ h => h, h2⟩
    · rcases h3 with ⟨-, rfl⟩ | ⟨i, h4, h5⟩
      · simp at he
      · have hundef : p slot = none := by
          obtain ⟨d, -, -, h⟩ := h2
          exact h
        have hsub : SubProg p (p.with slot i) := by
          intro s j hj
          have : s ≠ slot := by
            rintro rfl
            rw [hundef] at hj
            cases hj
          simp [Prog.with, this, hj]
        obtain ⟨a, b, c⟩ := ih h5 (by
          intro s j hj
          simp only [Prog.with] at hj
          split at hj
          · cases hj
            subst_vars
            exact h4
          · exact hs s j hj) e he
        exact ⟨a, fun s j hj => b s j (hsub s j hj), c⟩

theorem Replays.next {lim : Nat} {prog : Prog} {k : Nat} {cur : Prog}
    {l : List (Prog × Nat × Slot)} (h : Replays lim prog k cur l) (j : Nat)
    (a b : Prog × Nat × Slot) (ha : l[j]? = some a) (hb : l[j + 1]? = some b) :
    ∃ i, prog a.2.2 = some i ∧ b.1 = a.1.with a.2.2 i := by
  induction j generalizing k cur l with
  | zero =>
    cases l with
    | nil => simp at ha
    | cons e rest =>
      obtain ⟨p, step, slot⟩ := e
      obtain ⟨rfl, -, -, h3⟩ := h
      simp only [List.getElem?_cons_zero, Option.some.injEq] at ha
      subst ha
      cases rest with
      | nil => simp at hb
      | cons f rest =>
        simp only [List.getElem?_cons_succ, List.getElem?_cons_zero, Option.some.injEq] at hb
        subst hb
        rcases h3 with ⟨-, h⟩ | ⟨i, h4, h5⟩
        · simp at h
        · exact ⟨i, h4, h5.1⟩
  | succ j ih =>
    cases l with
    | nil => simp at ha
    | cons e rest =>
      obtain ⟨p, step, slot⟩ := e
      obtain ⟨rfl, -, -, h3⟩ := h
      simp only [List.getElem?_cons_succ] at ha hb
      rcases h3 with ⟨-, rfl⟩ | ⟨i, h4, h5⟩
      · simp at ha
      · exact ih h5 ha hb

/-! ## tree_norm -/

namespace Norm

theorem dictSwap_some {β : Type} {d d' : List (Nat × β)} {a b : Nat}
    (h : dictSwap d a b = some d') : a ∈ d.map Prod.fst ∧ b ∈ d.map Prod.fst := by
  rw [← lookup_isSome_iff, ← lookup_isSome_iff]
  simp only [dictSwap] at h
  cases hb : d.lookup b <;> cases ha : d.lookup a <;> simp [ha, hb] at h ⊢

theorem Dense.swapStates_some {n n' : Norm} {S C a b : Nat} (h : Dense n S C)
    (hs : n.swapStates a b = some n') : a < S ∧ b < S := by
  simp only [Norm.swapStates] at hs
  cases hd : dictSwap n a b with
  | none => rw [hd] at hs; simp at hs
  | some d =>
    have := dictSwap_some hd
    exact ⟨h.mem_rows.1 this.1, h.mem_rows.1 this.2⟩

theorem Dense.swapColors_some {n n' : Norm} {S C a b : Nat} (h : Dense n S C) (hS : 0 < S)
    (hs : n.swapColors a b = some n') : a < C ∧ b < C := by
  simp only [Norm.swapColors, h.numStates] at hs
  obtain ⟨S', rfl⟩ : ∃ S', S = S' + 1 := ⟨S - 1, by omega⟩
  obtain ⟨sw, h1, h2⟩ := h.row hS
  rw [List.range_succ_eq_map] at hs
  simp only [swapColumns, h1] at hs
  cases hd : dictSwap sw a b with
  | none => rw [hd] at hs; simp at hs
  | some d =>
    have := dictSwap_some hd
    rw [h2, List.mem_range, List.mem_range] at this
    exact this

/-- A swap of two names other than `0`, when it succeeds. -/
theorem Dense.swapStates_same {n n' : Norm} {S C a b : Nat} (h : Dense n S C)
    (hs : n.swapStates a b = some n') (ha : a ≠ 0) (hb : b ≠ 0) :
    Dense n' S C ∧ SameUpTo n.getitem n'.getitem := by
  obtain ⟨h1, h2⟩ := h.swapStates_some hs
  obtain ⟨m, k1, k2, k3⟩ := h.swapStates h1 h2
  rw [hs] at k1
  cases k1
  exact ⟨k2, swapNat a b, id, false, swapNat_bijective a b, Function.bijective_id,
    swapNat_zero ha hb, rfl, k3⟩

theorem Dense.swapColors_same {n n' : Norm} {S C a b : Nat} (h : Dense n S C) (hS : 0 < S)
    (hs : n.swapColors a b = some n') (ha : a ≠ 0) (hb : b ≠ 0) :
    Dense n' S C ∧ SameUpTo n.getitem n'.getitem := by
  obtain ⟨h1, h2⟩ := h.swapColors_some hS hs
  obtain ⟨m, k1, k2, k3⟩ := h.swapColors h1 h2
  rw [hs] at k1
  cases k1
  exact ⟨k2, id, swapNat a b, false, Function.bijective_id, swapNat_bijective a b, rfl,
    swapNat_zero ha hb, k3⟩

theorem treeNormLoop_spec {S C : Nat} (hS : 0 < S) (fuel : Nat) (n n' : Norm) (state : State)
    (tape : Tape) (as ac : Nat) (h : Dense n S C) (ha : 0 < as) (hc : 0 < ac)
    (hr : treeNormLoop fuel n state tape as ac = some n') :
    Dense n' S C ∧ SameUpTo n.getitem n'.getitem := by
  induction fuel generalizing n state tape as ac with
  | zero =>
    simp only [treeNormLoop, Option.some.injEq] at hr
    subst hr
    exact ⟨h, SameUpTo.refl _⟩
  | succ fuel ih =>
    simp only [treeNormLoop] at hr
    rw [Option.bind_eq_some_iff] at hr
    obtain ⟨⟨n1, as1⟩, hr1, hr⟩ := hr
    have s1 : Dense n1 S C ∧ SameUpTo n.getitem n1.getitem ∧ 0 < as1 := by
      split at hr1
      · simp only [Option.some.injEq, Prod.mk.injEq] at hr1
        obtain ⟨rfl, rfl⟩ := hr1
        exact ⟨h, SameUpTo.refl _, by omega⟩
      · split at hr1
        · rename_i hlt
          obtain ⟨m, hm, he⟩ := Option.map_eq_some_iff.1 hr1
          simp only [Prod.mk.injEq] at he
          obtain ⟨rfl, rfl⟩ := he
          have hpos : 0 < state := Nat.lt_trans ha hlt
          obtain ⟨k1, k2⟩ := h.swapStates_same hm (Nat.pos_iff_ne_zero.1 hpos) (by omega)
          exact ⟨k1, k2, hpos⟩
        · simp only [Option.some.injEq, Prod.mk.injEq] at hr1
          obtain ⟨rfl, rfl⟩ := hr1
          exact ⟨h, SameUpTo.refl _, ha⟩
    obtain ⟨d1, e1, p1⟩ := s1
    simp only at hr
    rw [Option.bind_eq_some_iff] at hr
    obtain ⟨⟨n2, ac1⟩, hr2, hr⟩ := hr
    have s2 : Dense n2 S C ∧ SameUpTo n1.getitem n2.getitem ∧ 0 < ac1 := by
      split at hr2
      · simp only [Option.some.injEq, Prod.mk.injEq] at hr2
        obtain ⟨rfl, rfl⟩ := hr2
        exact ⟨d1, SameUpTo.refl _, by omega⟩
      · split at hr2
        · rename_i hlt
          obtain ⟨m, hm, he⟩ := Option.map_eq_some_iff.1 hr2
          simp only [Prod.mk.injEq] at he
          obtain ⟨rfl, rfl⟩ := he
          have hpos : 0 < tape.scan := Nat.lt_trans hc hlt
          obtain ⟨k1, k2⟩ := d1.swapColors_same hS hm (Nat.pos_iff_ne_zero.1 hpos) (by omega)
          exact ⟨k1, k2, hpos⟩
        · simp only [Option.some.injEq, Prod.mk.injEq] at hr2
          obtain ⟨rfl, rfl⟩ := hr2
          exact ⟨d1, SameUpTo.refl _, hc⟩
    obtain ⟨d2, e2, p2⟩ := s2
    simp only [d2.numColors hS, Option.bind_some] at hr
    split at hr
    · cases hr
      exact ⟨d2, e1.trans e2⟩
    · rw [Option.bind_eq_some_iff] at hr
      obtain ⟨i, -, hr⟩ := hr
      obtain ⟨k1, k2⟩ := ih _ _ _ _ _ d2 p1 p2 hr
      exact ⟨k1, (e1.trans e2).trans k2⟩

end Norm

end BB
