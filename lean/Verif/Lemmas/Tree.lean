import Verif.Lemmas.InstrSeq
import Verif.Lemmas.Table
import Mathlib.Data.List.Nodup
import Mathlib.Data.List.Flatten

/-! # The tree search -/

namespace BB

theorem mem_makeInstrs {S C : Nat} {i : Instr} : i ∈ makeInstrs S C ↔ i.1 < C ∧ i.2.2 < S := by
  obtain ⟨c, sh, s⟩ := i
  simp only [makeInstrs, List.mem_flatMap, List.mem_range, List.mem_map, Prod.mk.injEq]
  constructor
  · rintro ⟨c', hc, sh', -, s', hs, rfl, rfl, rfl⟩
    exact ⟨hc, hs⟩
  · rintro ⟨h1, h2⟩
    exact ⟨c, h1, sh, by cases sh <;> simp, s, h2, rfl, rfl, rfl⟩

theorem nodup_makeInstrs (S C : Nat) : (makeInstrs S C).Nodup := by
  simp only [makeInstrs, List.nodup_flatMap]
  refine ⟨fun c _ => ⟨fun sh _ => ?_, ?_⟩, ?_⟩
  · refine List.Nodup.map ?_ List.nodup_range
    intro a b h
    simpa using h
  · simp only [List.pairwise_cons, List.mem_cons, List.not_mem_nil, or_false, Function.onFun]
    refine ⟨?_, by simp⟩
    rintro sh rfl i h1 h2
    obtain ⟨a, -, rfl⟩ := List.mem_map.1 h1
    obtain ⟨b, -, hb⟩ := List.mem_map.1 h2
    simp at hb
  · refine List.Pairwise.imp_of_mem ?_ (List.nodup_range (n := C))
    intro a b _ _ hab i h1 h2
    simp only [List.mem_flatMap, List.mem_map] at h1 h2
    obtain ⟨_, -, _, -, rfl⟩ := h1
    obtain ⟨_, -, _, -, hb⟩ := h2
    simp only [Prod.mk.injEq] at hb
    exact hab hb.1.symm

/-! ## Runs stay inside the names a program uses -/

theorem run_below {p : Prog} {B D : Nat} (h : Below p B D) (hB : 0 < B) (hD : 0 < D) (n : Nat) :
    ∀ d, runFor p n initCfg = some d → d.state < D ∧ ∀ x, d.tape x < B := by
  induction n with
  | zero =>
    intro d hd
    simp only [runFor, Option.some.injEq] at hd
    subst hd
    exact ⟨hD, fun _ => hB⟩
  | succ n ih =>
    intro d hd
    rw [runFor_succ'] at hd
    cases hr : runFor p n initCfg with
    | none => rw [hr] at hd; simp at hd
    | some c =>
      obtain ⟨h1, h2⟩ := ih c hr
      rw [hr] at hd
      simp only [Option.bind_some, step] at hd
      cases hp : p c.slot with
      | none => rw [hp] at hd; simp at hd
      | some i =>
        rw [hp] at hd
        cases hd
        obtain ⟨h3, h4⟩ := h _ _ hp
        refine ⟨h4, fun x => ?_⟩
        show (if x = c.pos then i.1 else c.tape x) < B
        split
        · exact h3
        · exact h2 x

theorem cfg_below {p : Prog} {B D : Nat} (h : Below p B D) (hB : 0 < B) (hD : 0 < D) {n : Nat}
    {t : Tape} {q : State} {pos : Int} (hr : runFor p n initCfg = some (t.cfg q pos)) :
    q < D ∧ t.scan < B := by
  obtain ⟨h1, h2⟩ := run_below h hB hD n _ hr
  refine ⟨h1, ?_⟩
  have := h2 pos
  simpa [Tape.cfg, t.cells_pos] using this

/-! ## Tables -/

theorem Table.length_insert {t : Table} {s : Slot} (i : Instr) (h : t.get? s = none) :
    (t.insert s i).length = t.length + 1 := by
  induction t with
  | nil => rfl
  | cons e t ih =>
    obtain ⟨k, v⟩ := e
    simp only [Table.get?_cons] at h
    split at h
    · cases h
    · rename_i hne
      simp only [Table.insert]
      split
      · rfl
      · have : (s == k) = false := by simpa using hne
        simp only [this, Bool.false_eq_true, if_false, List.length_cons]
        rw [ih h]

theorem Table.sub_insert {t : Table} (ht : t.Sorted) {s : Slot} {i : Instr}
    (h : t.get? s = none) : SubProg t.get? (t.insert s i).get? := by
  intro s' j hj
  rw [Table.get?_insert _ _ _ _ ht]
  have : s' ≠ s := by
    rintro rfl
    rw [h] at hj
    cases hj
  simp [this, hj]

/-- The run of the program from blank tape comes to the slot. -/
def Visits (p : Prog) (s : Slot) : Prop := ∃ n d, runFor p n initCfg = some d ∧ d.slot = s

theorem Visits.sub {p q : Prog} (h : SubProg p q) {s : Slot} (hv : Visits p s) : Visits q s := by
  obtain ⟨n, d, h1, h2⟩ := hv
  exact ⟨n, d, runFor_sub h _ _ _ h1, h2⟩

/-- What a branch keeps about its program. -/
structure TreeProg (S C : Nat) (t : Table) : Prop where
  sorted : t.Sorted
  start : t.get? (0, 0) = some (1, true, 1)
  slots : ∀ e ∈ t, e.1.1 < S ∧ e.1.2 < C
  instrs : ∀ e ∈ t, e.2.1 < C ∧ e.2.2.2 < S
  visits : ∀ e ∈ t, Visits t.get? e.1

theorem TreeProg.insert {S C : Nat} {t : Table} (h : TreeProg S C t) {s : Slot} {i : Instr}
    (hs : t.get? s = none) (h1 : s.1 < S) (h2 : s.2 < C) (h3 : i.1 < C) (h4 : i.2.2 < S)
    (h5 : Visits t.get? s) : TreeProg S C (t.insert s i) where
  sorted := h.sorted.insert s i
  start := Table.sub_insert h.sorted hs _ _ h.start
  slots := by
    intro e he
    rcases Table.mem_insert he with rfl | he
    · exact ⟨h1, h2⟩
    · exact h.slots e he
  instrs := by
    intro e he
    rcases Table.mem_insert he with rfl | he
    · exact ⟨h3, h4⟩
    · exact h.instrs e he
  visits := by
    intro e he
    rcases Table.mem_insert he with rfl | he
    · exact h5.sub (Table.sub_insert h.sorted hs)
    · exact (h.visits e he).sub (Table.sub_insert h.sorted hs)

theorem TreeProg.below {S C : Nat} {t : Table} (h : TreeProg S C t) : Below t.get? C S := by
  intro s i hi
  exact h.instrs _ (Table.get?_mem hi)

/-- The tape and state of a branch are those of its program after some steps. -/
def OnTrack (t : Table) (state : State) (tape : Tape) : Prop :=
  tape.Canonical ∧ ∃ n pos, runFor t.get? n initCfg = some (tape.cfg state pos)

theorem mem_leaf {t u : Table} {S C : Nat} (h : u ∈ leaf t S C) : u = t := by
  simp only [leaf] at h
  split at h
  · simp at h
  · simpa using h

theorem leaf_nodup (t : Table) (S C : Nat) : (leaf t S C).Nodup := by
  simp only [leaf]
  split <;> simp

/-- Running a branch to the slot it lacks. -/
theorem OnTrack.undef {S C : Nat} {t : Table} (h : TreeProg S C t) (hS : 0 < S) (hC : 0 < C)
    {state : State} {tape : Tape} (ho : OnTrack t state tape) {lim : Nat} {slot : Slot}
    {tape' : Tape} (hr : rsRunUndef t.get? lim state tape = (.undef slot, tape')) :
    t.get? slot = none ∧ slot.1 < S ∧ slot.2 < C ∧ Visits t.get? slot ∧
      (∀ B D, 0 < B → 0 < D → Below t.get? B D → slot.1 < D ∧ slot.2 < B) ∧
      ∀ i, OnTrack (t.insert slot i) slot.1 tape' := by
  obtain ⟨hc, n, pos, hrun⟩ := ho
  obtain ⟨h1, h2, -, -⟩ := rsRunUndef_spec t.get? lim tape state n hc ⟨pos, hrun⟩
  rw [hr] at h1 h2
  obtain ⟨k1, k2, m, pos', -, k3⟩ := h2 slot rfl
  have hb : ∀ B D, 0 < B → 0 < D → Below t.get? B D → slot.1 < D ∧ slot.2 < B := by
    intro B D hB hD hbel
    have := cfg_below hbel hB hD k3
    rw [k1]
    exact this
  obtain ⟨b1, b2⟩ := hb C S hC hS h.below
  refine ⟨k2, b1, b2, ⟨m, _, k3, by rw [Tape.slot_cfg, ← k1]⟩, hb, fun i => ⟨h1, m, pos', ?_⟩⟩
  exact runFor_sub (Table.sub_insert h.sorted k2) _ _ _ k3

/-- The number of names on offer after the run: `avail` in the code. -/
def bump (max used avail : Nat) : Nat := if avail < max ∧ 1 + used = avail then avail + 1 else avail

theorem bump_le {max used avail : Nat} (h : avail ≤ max) : bump max used avail ≤ max := by
  simp only [bump]
  split <;> omega

theorem branch_succ (lim S C next : Nat) (instr : Instr) (prog : Table) (state : State)
    (tape : Tape) (as ac : Nat) :
    branch lim S C (next + 1) instr prog state tape as ac =
      match rsRunUndef prog.get? lim state tape with
      | (.undef slot, tape') =>
        (makeInstrs (bump S (max slot.1 instr.2.2) as) (bump C (max slot.2 instr.1) ac)).flatMap
          fun i => if next = 0 then leaf (prog.insert slot i) S C
            else branch lim S C next i (prog.insert slot i) slot.1 tape'
              (bump S (max slot.1 instr.2.2) as) (bump C (max slot.2 instr.1) ac)
      | _ => leaf prog S C := by
  rw [branch]
  split
  · rename_i heq
    rw [heq]
    simp only [bump]
    split <;> rfl
  · rename_i hne
    cases hr : rsRunUndef prog.get? lim state tape with
    | mk r t' =>
      cases r with
      | undef s => exact absurd hr (hne s t')
      | err => rfl
      | lim => rfl

theorem branch_sound {lim S C : Nat} (hS : 0 < S) (hC : 0 < C) (r : Nat) (instr : Instr)
    (prog : Table) (state : State) (tape : Tape) (as ac : Nat) (h : TreeProg S C prog)
    (ho : OnTrack prog state tape) (has : as ≤ S) (hac : ac ≤ C) :
    (branch lim S C r instr prog state tape as ac).Nodup ∧
    ∀ t ∈ branch lim S C r instr prog state tape as ac,
      TreeProg S C t ∧ SubProg prog.get? t.get? := by
  induction r generalizing instr prog state tape as ac with
  | zero => simp [branch]
  | succ next ih =>
    rw [branch_succ]
    have hleaf : (leaf prog S C).Nodup ∧
        ∀ t ∈ leaf prog S C, TreeProg S C t ∧ SubProg prog.get? t.get? := by
      refine ⟨leaf_nodup _ _ _, fun t ht => ?_⟩
      rw [mem_leaf ht]
      exact ⟨h, fun _ _ h => h⟩
    cases hr : rsRunUndef prog.get? lim state tape with
    | mk res tape' =>
      cases res with
      | err => exact hleaf
      | lim => exact hleaf
      | undef slot =>
        simp only
        obtain ⟨u1, u2, u3, uv, -, u5⟩ := ho.undef h hS hC hr
        have has' := bump_le (used := max slot.1 instr.2.2) has
        have hac' := bump_le (used := max slot.2 instr.1) hac
        generalize bump S (max slot.1 instr.2.2) as = as' at *
        generalize bump C (max slot.2 instr.1) ac = ac' at *
        -- what each instruction gives
        have key : ∀ i ∈ makeInstrs as' ac',
            (if next = 0 then leaf (prog.insert slot i) S C
              else branch lim S C next i (prog.insert slot i) slot.1 tape' as' ac').Nodup ∧
            ∀ t ∈ (if next = 0 then leaf (prog.insert slot i) S C
              else branch lim S C next i (prog.insert slot i) slot.1 tape' as' ac'),
              TreeProg S C t ∧ SubProg (prog.insert slot i).get? t.get? := by
          intro i hi
          obtain ⟨i1, i2⟩ := mem_makeInstrs.1 hi
          have hp := h.insert (i := i) u1 u2 u3 (Nat.lt_of_lt_of_le i1 ‹ac' ≤ C›)
            (Nat.lt_of_lt_of_le i2 ‹as' ≤ S›) uv
          split
          · refine ⟨leaf_nodup _ _ _, fun t ht => ?_⟩
            rw [mem_leaf ht]
            exact ⟨hp, fun _ _ h => h⟩
          · exact ih i _ slot.1 tape' as' ac' hp (u5 i) has' hac'
        constructor
        · rw [List.nodup_flatMap]
          refine ⟨fun i hi => (key i hi).1, ?_⟩
          refine List.Pairwise.imp_of_mem ?_ (nodup_makeInstrs as' ac')
          intro a b ha hb hab t h1 h2
          have e1 := ((key a ha).2 t h1).2 slot a (by
            rw [Table.get?_insert _ _ _ _ h.sorted]; simp)
          have e2 := ((key b hb).2 t h2).2 slot b (by
            rw [Table.get?_insert _ _ _ _ h.sorted]; simp)
          rw [e1] at e2
          exact hab (Option.some.inj e2)
        · intro t ht
          obtain ⟨i, hi, ht⟩ := List.mem_flatMap.1 ht
          obtain ⟨k1, k2⟩ := (key i hi).2 t ht
          exact ⟨k1, fun s j hj => k2 s j (Table.sub_insert h.sorted u1 s j hj)⟩

/-! ## Completeness -/

/-- The two programs are the same up to the names of the `S` states and `C` colours, the start state
and the blank keeping theirs. -/
def Renamed (S C : Nat) (p p' : Prog) : Prop :=
  ∃ σ τ : Nat → Nat, Function.Bijective σ ∧ Function.Bijective τ ∧ σ 0 = 0 ∧ τ 0 = 0 ∧
    (∀ s, σ s < S ↔ s < S) ∧ (∀ c, τ c < C ↔ c < C) ∧ Renames p p' σ τ false

theorem Renamed.refl (S C : Nat) (p : Prog) : Renamed S C p p :=
  ⟨id, id, Function.bijective_id, Function.bijective_id, rfl, rfl, fun _ => Iff.rfl,
    fun _ => Iff.rfl, Renames.refl p⟩

theorem Renamed.trans {S C : Nat} {p p' p'' : Prog} (h : Renamed S C p p')
    (h' : Renamed S C p' p'') : Renamed S C p p'' := by
  obtain ⟨σ, τ, a, b, c, d, e, f, g⟩ := h
  obtain ⟨σ', τ', a', b', c', d', e', f', g'⟩ := h'
  exact ⟨σ' ∘ σ, τ' ∘ τ, a'.comp a, b'.comp b, by simp [c, c'], by simp [d, d'],
    fun s => (e' _).trans (e s), fun s => (f' _).trans (f s), by simpa using g.trans g'⟩

/-- A complete program: an instruction in range for each of the `S × C` slots. -/
def Complete (P : Prog) (S C : Nat) : Prop :=
  ∀ s c, s < S → c < C → ∃ i, P (s, c) = some i ∧ i.1 < C ∧ i.2.2 < S

/-- Exchange two states and two colours. -/
def Prog.swap (P : Prog) (a b x y : Nat) : Prog := fun s =>
  (P (Norm.swapNat a b s.1, Norm.swapNat x y s.2)).map fun i =>
    (Norm.swapNat x y i.1, i.2.1, Norm.swapNat a b i.2.2)

theorem Norm.swapNat_lt_iff {a b n : Nat} (ha : a < n) (hb : b < n) (x : Nat) :
    Norm.swapNat a b x < n ↔ x < n := by
  refine ⟨fun h => ?_, Norm.swapNat_lt ha hb⟩
  have := Norm.swapNat_lt ha hb h
  rwa [Norm.swapNat_invol] at this

theorem Prog.swap_renamed (P : Prog) {S C a b x y : Nat} (ha : a ≠ 0) (hb : b ≠ 0) (hx : x ≠ 0)
    (hy : y ≠ 0) (haS : a < S) (hbS : b < S) (hxC : x < C) (hyC : y < C) :
    Renamed S C P (P.swap a b x y) := by
  refine ⟨Norm.swapNat a b, Norm.swapNat x y, Norm.swapNat_bijective a b,
    Norm.swapNat_bijective x y, Norm.swapNat_zero ha hb, Norm.swapNat_zero hx hy,
    Norm.swapNat_lt_iff haS hbS, Norm.swapNat_lt_iff hxC hyC, ?_⟩
  intro s c
  simp only [Prog.swap, Norm.swapNat_invol, Bool.bne_false]

theorem Prog.swap_complete {P : Prog} {S C a b x y : Nat} (h : Complete P S C) (ha : a < S)
    (hb : b < S) (hx : x < C) (hy : y < C) : Complete (P.swap a b x y) S C := by
  intro s c hs hc
  obtain ⟨i, h1, h2, h3⟩ := h _ _ (Norm.swapNat_lt ha hb hs) (Norm.swapNat_lt hx hy hc)
  exact ⟨_, by simp only [Prog.swap, h1]; rfl, Norm.swapNat_lt hx hy h2,
    Norm.swapNat_lt ha hb h3⟩

theorem Norm.swapNat_of_lt {a b k x : Nat} (ha : k ≤ a) (hb : k ≤ b) (hx : x < k) :
    Norm.swapNat a b x = x := by
  simp only [Norm.swapNat]
  rw [if_neg (by omega), if_neg (by omega)]

/-- States, colours used by the entries of a table. -/
def UsesStates (t : Table) (k : Nat) : Prop := ∀ e ∈ t, e.1.1 < k ∧ e.2.2.2 < k
def UsesColors (t : Table) (k : Nat) : Prop := ∀ e ∈ t, e.1.2 < k ∧ e.2.1 < k

/-- Renaming the complete program so that its instruction for `slot` is among those on offer. -/
theorem adjust {P : Prog} {S C as ac : Nat} (hP : Complete P S C) {t : Table}
    (hsub : SubProg t.get? P) {slot : Slot} (h1 : slot.1 < S) (h2 : slot.2 < C)
    (has : 2 ≤ as) (hac : 2 ≤ ac) (hasS : as ≤ S) (hacC : ac ≤ C)
    (hst : as = S ∨ UsesStates t (as - 1) ∧ slot.1 < as - 1)
    (hco : ac = C ∨ UsesColors t (ac - 1) ∧ slot.2 < ac - 1) :
    ∃ P' i, Renamed S C P P' ∧ Complete P' S C ∧ SubProg t.get? P' ∧ P' slot = some i ∧
      i ∈ makeInstrs as ac := by
  -- states and colours can be handled one after the other
  have states : ∃ P', Renamed S C P P' ∧ Complete P' S C ∧ SubProg t.get? P' ∧
      ∃ i, P' slot = some i ∧ i.2.2 < as := by
    obtain ⟨i, hi, i1, i2⟩ := hP slot.1 slot.2 h1 h2
    by_cases hlt : i.2.2 < as
    · exact ⟨P, Renamed.refl S C P, hP, hsub, i, hi, hlt⟩
    · rcases hst with rfl | ⟨hu, hs⟩
      · exact absurd i2 hlt
      · have hge : as - 1 ≤ i.2.2 := by have := Nat.le_of_not_lt hlt; omega
        have hlt' : as - 1 < S := by omega
        have hne : i.2.2 ≠ 0 := Nat.pos_iff_ne_zero.1 (Nat.lt_of_lt_of_le (by omega) hge)
        refine ⟨P.swap (as - 1) i.2.2 1 1, P.swap_renamed (by omega) hne (by omega)
          (by omega) hlt' i2 (by omega) (by omega), Prog.swap_complete hP hlt' i2 (by omega) (by omega), ?_, ?_⟩
        · intro s j hj
          have hm := hu _ (Table.get?_mem hj)
          simp only at hm
          simp only [Prog.swap]
          rw [Norm.swapNat_of_lt (Nat.le_refl _) hge hm.1]
          have h11 : ∀ x, Norm.swapNat 1 1 x = x := by
            intro x
            simp only [Norm.swapNat]
            split <;> simp_all
          rw [h11, hsub s j hj]
          simp only [Option.map_some, h11]
          rw [Norm.swapNat_of_lt (Nat.le_refl _) hge hm.2]
        · have h11 : ∀ x, Norm.swapNat 1 1 x = x := by
            intro x
            simp only [Norm.swapNat]
            split <;> simp_all
          refine ⟨(i.1, i.2.1, as - 1), ?_, show as - 1 < as by omega⟩
          simp only [Prog.swap]
          rw [Norm.swapNat_of_lt (Nat.le_refl _) hge hs, h11, hi]
          simp only [Option.map_some, h11]
          simp [Norm.swapNat]
  obtain ⟨P1, r1, c1, s1, i, hi, hia⟩ := states
  obtain ⟨i', hi', i1, i2⟩ := c1 slot.1 slot.2 h1 h2
  rw [show (slot.1, slot.2) = slot from rfl, hi] at hi'
  cases hi'
  by_cases hlt : i.1 < ac
  · exact ⟨P1, i, r1, c1, s1, hi, mem_makeInstrs.2 ⟨hlt, hia⟩⟩
  · rcases hco with rfl | ⟨hu, hs⟩
    · exact absurd i1 hlt
    · have hge : ac - 1 ≤ i.1 := by have := Nat.le_of_not_lt hlt; omega
      have hlt' : ac - 1 < C := by omega
      have h11 : ∀ x, Norm.swapNat 1 1 x = x := by
        intro x
        simp only [Norm.swapNat]
        split <;> simp_all
      have hne : i.1 ≠ 0 := Nat.pos_iff_ne_zero.1 (Nat.lt_of_lt_of_le (by omega) hge)
      refine ⟨P1.swap 1 1 (ac - 1) i.1, (ac - 1, i.2.1, i.2.2), r1.trans (P1.swap_renamed (by omega)
        (by omega) (by omega) hne (by omega) (by omega) hlt' i1), Prog.swap_complete c1 (by omega) (by omega) hlt' i1,
        ?_, ?_, mem_makeInstrs.2 ⟨show ac - 1 < ac by omega, hia⟩⟩
      · intro s j hj
        have hm := hu _ (Table.get?_mem hj)
        simp only at hm
        simp only [Prog.swap]
        rw [Norm.swapNat_of_lt (Nat.le_refl _) hge hm.1]
        rw [h11, s1 s j hj]
        simp only [Option.map_some, h11]
        rw [Norm.swapNat_of_lt (Nat.le_refl _) hge hm.2]
      · simp only [Prog.swap]
        rw [Norm.swapNat_of_lt (Nat.le_refl _) hge hs, h11, hi]
        simp only [Option.map_some, h11]
        simp [Norm.swapNat]

/-- Nothing remains to be decided about the program: its slots are filled in, or its run does not
come to a missing slot (within the limit), or blanks the tape. -/
def Finished (Q : Prog) (len full lim : Nat) : Prop :=
  len = full ∨ NeverHalts Q initCfg ∨ (∃ r n, 0 < n ∧ BlankAt Q r n) ∨
    (runFor Q lim initCfg).isSome

/-- `leaf` drops a program only if it never goes to the last state or never prints the last
colour. -/
theorem leaf_keeps (t : Table) (S C : Nat) :
    t ∈ leaf t S C ∨ (∀ e ∈ t, 1 + e.2.2.2 < S) ∨ ∀ e ∈ t, 1 + e.2.1 < C := by
  simp only [leaf]
  split
  · rename_i h
    simp only [Bool.or_eq_true, List.all_eq_true, decide_eq_true_eq] at h
    exact .inr h
  · exact .inl (by simp)

/-- The names on offer before a branch runs: all used ones, and one more unless the last
instruction took it. -/
def Offer (M avail last : Nat) (uses : Nat → Prop) : Prop :=
  2 ≤ avail ∧ avail ≤ M ∧ last < avail ∧
    (avail = M ∨ uses avail ∧ (last + 1 < avail → uses (avail - 1)))

theorem bump_offer {M avail last used : Nat} {uses : Nat → Prop} (o : Offer M avail last uses)
    (hbel : ∀ k, 0 < k → uses k → used < k) :
    2 ≤ bump M (max used last) avail ∧ bump M (max used last) avail ≤ M ∧
      (bump M (max used last) avail = M ∨
        uses (bump M (max used last) avail - 1) ∧ used < bump M (max used last) avail - 1) := by
  obtain ⟨o1, o2, o3, o4⟩ := o
  by_cases hfin : avail = M
  · have : bump M (max used last) avail = avail := by
      simp only [bump]
      rw [if_neg]
      omega
    rw [this]
    exact ⟨o1, o2, .inl hfin⟩
  · rcases o4 with o4 | ⟨o4, o5⟩
    · exact absurd o4 hfin
    · have hs1 := hbel avail (by omega) o4
      by_cases hlast : last + 1 < avail
      · have hu := o5 hlast
        have hs2 := hbel (avail - 1) (by omega) hu
        have : bump M (max used last) avail = avail := by
          simp only [bump]
          rw [if_neg]
          omega
        rw [this]
        exact ⟨o1, o2, .inr ⟨hu, hs2⟩⟩
      · have : bump M (max used last) avail = avail + 1 := by
          simp only [bump]
          rw [if_pos]
          omega
        rw [this]
        exact ⟨by omega, by omega, .inr ⟨o4, hs1⟩⟩

theorem branch_complete {lim S C : Nat} (hS : 2 ≤ S) (hC : 2 ≤ C) (r : Nat) (full : Nat)
    (instr : Instr) (prog : Table) (state : State) (tape : Tape) (as ac : Nat) (P : Prog)
    (hr : 0 < r) (hfull : prog.length + r = full)
    (h : TreeProg S C prog) (ho : OnTrack prog state tape)
    (hst : Offer S as instr.2.2 (UsesStates prog)) (hco : Offer C ac instr.1 (UsesColors prog))
    (hP : Complete P S C) (hsub : SubProg prog.get? P) :
    ∃ (P' : Prog) (Q : Table), Renamed S C P P' ∧ SubProg Q.get? P' ∧ SubProg prog.get? Q.get? ∧
      TreeProg S C Q ∧ Q.length ≤ full ∧ Finished Q.get? Q.length full lim ∧
      (Q ∈ branch lim S C r instr prog state tape as ac ∨
        (∀ e ∈ Q, 1 + e.2.2.2 < S) ∨ ∀ e ∈ Q, 1 + e.2.1 < C) := by
  induction r generalizing instr prog state tape as ac P with
  | zero => omega
  | succ next ih =>
    rw [branch_succ]
    cases hrun : rsRunUndef prog.get? lim state tape with
    | mk res tape' =>
      obtain ⟨hc, n, pos, hn⟩ := id ho
      obtain ⟨-, -, q3, q4⟩ := rsRunUndef_spec prog.get? lim tape state n hc ⟨pos, hn⟩
      rw [hrun] at q3 q4
      cases res with
      | err =>
        refine ⟨P, prog, Renamed.refl S C P, hsub, fun _ _ h => h, h, by omega, ?_,
          leaf_keeps prog S C⟩
        rcases q3 rfl with q | ⟨r, m, q1, q2⟩
        · exact .inr (.inl q)
        · exact .inr (.inr (.inl ⟨r, m, by omega, q2⟩))
      | lim =>
        refine ⟨P, prog, Renamed.refl S C P, hsub, fun _ _ h => h, h, by omega, ?_,
          leaf_keeps prog S C⟩
        exact .inr (.inr (.inr (runFor_isSome_of_le (by omega) (q4 rfl))))
      | undef slot =>
        simp only
        obtain ⟨u1, u2, u3, uv, u4, u5⟩ := ho.undef h (by omega) (by omega) hrun
        -- the names on offer now
        have hst' : 2 ≤ bump S (max slot.1 instr.2.2) as ∧ bump S (max slot.1 instr.2.2) as ≤ S ∧
            (bump S (max slot.1 instr.2.2) as = S ∨
              UsesStates prog (bump S (max slot.1 instr.2.2) as - 1) ∧
                slot.1 < bump S (max slot.1 instr.2.2) as - 1) := by
          refine bump_offer hst fun k hk hu => ?_
          refine (u4 C k (by omega) hk ?_).1
          intro s i hi
          exact ⟨(h.instrs _ (Table.get?_mem hi)).1, (hu _ (Table.get?_mem hi)).2⟩
        have hco' : 2 ≤ bump C (max slot.2 instr.1) ac ∧ bump C (max slot.2 instr.1) ac ≤ C ∧
            (bump C (max slot.2 instr.1) ac = C ∨
              UsesColors prog (bump C (max slot.2 instr.1) ac - 1) ∧
                slot.2 < bump C (max slot.2 instr.1) ac - 1) := by
          refine bump_offer hco fun k hk hu => ?_
          refine (u4 k S hk (by omega) ?_).2
          intro s i hi
          exact ⟨(hu _ (Table.get?_mem hi)).2, (h.instrs _ (Table.get?_mem hi)).2⟩
        generalize bump S (max slot.1 instr.2.2) as = as' at *
        generalize bump C (max slot.2 instr.1) ac = ac' at *
        obtain ⟨b1, b2, b3⟩ := hst'
        obtain ⟨d1, d2, d3⟩ := hco'
        obtain ⟨P1, i, r1, c1, s1, hi, him⟩ := adjust hP hsub u2 u3 b1 d1 b2 d2 b3 d3
        obtain ⟨i1, i2⟩ := mem_makeInstrs.1 him
        have hp := h.insert (i := i) u1 u2 u3 (Nat.lt_of_lt_of_le i1 ‹ac' ≤ C›)
            (Nat.lt_of_lt_of_le i2 ‹as' ≤ S›) uv
        have hsub' : SubProg (prog.insert slot i).get? P1 := by
          intro s j hj
          rw [Table.get?_insert _ _ _ _ h.sorted] at hj
          split at hj
          · cases hj
            subst_vars
            exact hi
          · exact s1 s j hj
        have hlen := Table.length_insert i u1
        by_cases hz : next = 0
        · refine ⟨P1, prog.insert slot i, r1, hsub', Table.sub_insert h.sorted u1, hp,
            by rw [hlen]; omega, .inl (by rw [hlen]; omega), ?_⟩
          rcases leaf_keeps (prog.insert slot i) S C with hk | hk
          · refine .inl (List.mem_flatMap.2 ⟨i, him, ?_⟩)
            simp only [hz, if_true]
            exact hk
          · exact .inr hk
        · obtain ⟨P2, Q, e1, e2, e3, e6, e7, e4, e5⟩ := ih i (prog.insert slot i) slot.1 tape' as' ac' P1
            (by omega) (by rw [hlen]; omega) hp (u5 i)
            ⟨b1, b2, i2, by
              rcases b3 with b3 | ⟨b3, b4⟩
              · exact .inl b3
              · refine .inr ⟨?_, fun hlt => ?_⟩
                · intro e he
                  rcases Table.mem_insert he with rfl | he
                  · exact ⟨Nat.lt_of_lt_of_le b4 (Nat.sub_le _ _), i2⟩
                  · have := b3 e he
                    exact ⟨Nat.lt_of_lt_of_le this.1 (Nat.sub_le _ _),
                      Nat.lt_of_lt_of_le this.2 (Nat.sub_le _ _)⟩
                · intro e he
                  rcases Table.mem_insert he with rfl | he
                  · exact ⟨b4, Nat.lt_sub_of_add_lt hlt⟩
                  · exact b3 e he⟩
            ⟨d1, d2, i1, by
              rcases d3 with d3 | ⟨d3, d4⟩
              · exact .inl d3
              · refine .inr ⟨?_, fun hlt => ?_⟩
                · intro e he
                  rcases Table.mem_insert he with rfl | he
                  · exact ⟨Nat.lt_of_lt_of_le d4 (Nat.sub_le _ _), i1⟩
                  · have := d3 e he
                    exact ⟨Nat.lt_of_lt_of_le this.1 (Nat.sub_le _ _),
                      Nat.lt_of_lt_of_le this.2 (Nat.sub_le _ _)⟩
                · intro e he
                  rcases Table.mem_insert he with rfl | he
                  · exact ⟨d4, Nat.lt_sub_of_add_lt hlt⟩
                  · exact d3 e he⟩ c1 hsub'
          refine ⟨P2, Q, r1.trans e1, e2, fun s j hj => e3 s j
            (Table.sub_insert h.sorted u1 s j hj), e6, e7, e4, ?_⟩
          rcases e5 with e5 | e5
          · refine .inl (List.mem_flatMap.2 ⟨i, him, ?_⟩)
            simp only [hz, if_false]
            exact e5
          · exact .inr e5

end BB
