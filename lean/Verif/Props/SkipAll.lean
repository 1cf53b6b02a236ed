import Verif.Lemmas.SkipAll
import Verif.Lemmas.SpinSettle
import Verif.Props.Blocks
import Verif.Props.Graph
import Verif.Props.Segment
import Verif.Props.LinRecFinds
import Verif.Props.Prover
import Verif.Props.Tree

/-!
# C66: the filter of the tree search

`skip_all` decides which programs of the tree are not kept as holdouts.  It should drop only programs that
do not use all their slots, states and colours, that are not connected, that come to an end early, or that
cannot reach the goal (halting, or spinning out) at all.
-/

namespace BB

/-! ## What the program has -/

/-- A program for `S` states and `C` colours that begins with 1RB. -/
structure Table.Fits (t : Table) (S C : Nat) : Prop where
  sorted : t.Sorted
  start : t.get? (0, 0) = some (1, true, 1)
  slots : ∀ s i, t.get? s = some i → s.1 < S ∧ s.2 < C
  instrs : ∀ s i, t.get? s = some i → i.1 < C ∧ i.2.2 < S

/-- All slots have an instruction (all but at most one, if the program may halt), every state is entered,
and every colour is printed, where blank counts only if there are two colours. -/
structure Table.UsesAll (t : Table) (S C : Nat) (halt : Bool) : Prop where
  slots : ∀ s s' : Slot, s.1 < S → s.2 < C → s'.1 < S → s'.2 < C → t.get? s = none →
    t.get? s' = none → halt = true ∧ s = s'
  states : ∀ q, q < S → ∃ s i, t.get? s = some i ∧ i.2.2 = q
  colors : ∀ c, c < C → (c = 0 → C = 2) → ∃ s i, t.get? s = some i ∧ i.1 = c

/-- Every state has an exit to another state, and state 0 can be reached from the last one. -/
def Table.Linked (t : Table) (S : Nat) : Prop :=
  (∀ a < S, ∃ b, a ≠ b ∧ t.Goes a b) ∧ Relation.TransGen t.Goes (S - 1) 0

/-- The programs of the tree fit. -/
theorem Table.fits_of_tree {S C : Nat} (hS : 2 ≤ S) (hC : 2 ≤ C) {halt : Bool} {lim : Nat} {t : Table}
    (h : t ∈ buildTree S C halt lim) : t.Fits S C := by
  obtain ⟨h1, h2, h3, -⟩ := (C34_tree S C hS hC halt lim).2 t h
  refine ⟨h1, h2, fun s i hi => ?_, fun s i hi => ?_⟩
  · have := h3 _ (Table.get?_mem hi)
    exact ⟨this.1, this.2.1⟩
  · have := h3 _ (Table.get?_mem hi)
    exact ⟨this.2.2.1, this.2.2.2⟩

/-- **C66.**  `incomplete` says exactly whether the program does not use everything. -/
theorem C66_incomplete (t : Table) (S C : Nat) (hS : 2 ≤ S) (hC : 2 ≤ C) (ht : t.Fits S C) (halt : Bool) :
    t.incomplete S C halt = false ↔ t.UsesAll S C halt := by
  have hSC : 4 ≤ S * C := by
    have := Nat.mul_le_mul hS hC
    omega
  have hstates : ((List.range S).any fun s => !(t.map fun e => e.2.2.2).contains s) = false ↔
      ∀ q, q < S → ∃ s i, t.get? s = some i ∧ i.2.2 = q := by
    simp only [List.any_eq_false, List.mem_range, Bool.not_eq_true, Bool.not_eq_false',
      List.contains_iff_mem, List.mem_map]
    refine forall_congr' fun q => forall_congr' fun _ => ?_
    constructor
    · rintro ⟨e, he, h⟩
      exact ⟨e.1, e.2, Table.get?_of_mem ht.sorted he, h⟩
    · rintro ⟨s, i, hi, h⟩
      exact ⟨_, Table.get?_mem hi, h⟩
  have hcol : ∀ c, c ∈ (t.map fun e => e.2.1) ↔ ∃ s i, t.get? s = some i ∧ i.1 = c := by
    intro c
    rw [List.mem_map]
    constructor
    · rintro ⟨e, he, h⟩
      exact ⟨e.1, e.2, Table.get?_of_mem ht.sorted he, h⟩
    · rintro ⟨s, i, hi, h⟩
      exact ⟨_, Table.get?_mem hi, h⟩
  have hcolors : (C == 2 && !(t.map fun e => e.2.1).contains 0) = false ∧
      ((List.range' 1 (C - 1)).any fun c => !(t.map fun e => e.2.1).contains c) = false ↔
      ∀ c, c < C → (c = 0 → C = 2) → ∃ s i, t.get? s = some i ∧ i.1 = c := by
    simp only [List.any_eq_false, List.mem_range'_1, Bool.not_eq_true, Bool.not_eq_false',
      List.contains_iff_mem, hcol, Bool.and_eq_false_iff, beq_eq_false_iff_ne]
    constructor
    · rintro ⟨h1, h2⟩ c hc h0
      by_cases hc0 : c = 0
      · subst hc0
        rcases h1 with h1 | h1
        · exact absurd (h0 rfl) h1
        · exact h1
      · exact h2 c ⟨by omega, by omega⟩
    · intro h
      refine ⟨?_, fun c hc => h c (by omega) (by omega)⟩
      by_cases h2 : C = 2
      · exact .inr (h 0 (by omega) fun _ => h2)
      · exact .inl h2
  have hslots : ¬ t.length < (if halt then S * C - 1 else S * C) ↔
      ∀ s s' : Slot, s.1 < S → s.2 < C → s'.1 < S → s'.2 < C → t.get? s = none →
        t.get? s' = none → halt = true ∧ s = s' := by
    constructor
    · intro h s s' h1 h2 h3 h4 h5 h6
      have one := Table.length_add_missing ht.sorted ht.slots [s] (by simp) (by simp [h1, h2, h5])
      have hh : halt = true := by
        cases halt
        · simp only [Bool.false_eq_true, if_false, List.length_singleton] at h one
          omega
        · rfl
      refine ⟨hh, ?_⟩
      by_contra hne
      have two := Table.length_add_missing ht.sorted ht.slots [s, s'] (by simp [hne])
        (by simp [h1, h2, h3, h4, h5, h6])
      rw [hh] at h
      simp only [if_true, List.length_cons, List.length_nil] at h two
      omega
    · intro h
      obtain ⟨l, h1, h2, h3⟩ := Table.missing_of_length t S C
      match l, h1, h2 with
      | [], _, _ =>
        simp only [List.length_nil] at h3
        cases halt
        · simp only [Bool.false_eq_true, if_false]; omega
        · simp only [if_true]; omega
      | [a], _, h2 =>
        have ha := h2 a (by simp)
        have := (h a a ha.1.1 ha.1.2 ha.1.1 ha.1.2 ha.2 ha.2).1
        rw [this]
        simp only [List.length_cons, List.length_nil, if_true] at h3 ⊢
        omega
      | a :: b :: l, h1, h2 =>
        have ha := h2 a (by simp)
        have hb := h2 b (by simp)
        have := (h a b ha.1.1 ha.1.2 hb.1.1 hb.1.2 ha.2 hb.2).2
        simp [this] at h1
  simp only [Table.incomplete]
  by_cases hlen : t.length < (if halt then S * C - 1 else S * C)
  · simp only [hlen, if_true, Bool.true_eq_false, false_iff]
    exact fun h => hslots.2 h.slots hlen
  · simp only [hlen, if_false, Bool.or_eq_false_iff]
    rw [and_right_comm, hcolors, hstates]
    exact ⟨fun h => ⟨hslots.1 hlen, h.2, h.1⟩, fun h => ⟨h.colors, h.states⟩⟩

/-- A program that uses everything comes back to A from a cycle. -/
theorem Table.UsesAll.entersA {t : Table} {S C : Nat} {halt : Bool} (h : t.UsesAll S C halt)
    (hS : 2 ≤ S) (ht : t.Fits S C) : t.EntersA :=
  cycle_of_entered (r := fun a b => ∃ c i, t.get? (a, c) = some i ∧ i.2.2 = b) (S := S) (by omega)
    fun q hq => by
      obtain ⟨⟨a, c⟩, i, h1, h2⟩ := h.states q hq
      exact ⟨a, (ht.slots _ _ h1).1, c, i, h1, h2⟩

/-- … and has instructions in the last state and for the last colour. -/
theorem Table.UsesAll.last {t : Table} {S C : Nat} {halt : Bool} (h : t.UsesAll S C halt)
    (hS : 2 ≤ S) (hC : 2 ≤ C) :
    (∃ s' i', t.get? s' = some i' ∧ s'.1 = S - 1) ∧ ∃ s' i', t.get? s' = some i' ∧ s'.2 = C - 1 := by
  have pick : ∀ s s' : Slot, s.1 < S → s.2 < C → s'.1 < S → s'.2 < C → s ≠ s' →
      (∃ i, t.get? s = some i) ∨ ∃ i, t.get? s' = some i := by
    intro s s' h1 h2 h3 h4 hne
    cases e1 : t.get? s with
    | some i => exact .inl ⟨i, rfl⟩
    | none =>
      cases e2 : t.get? s' with
      | some i => exact .inr ⟨i, rfl⟩
      | none => exact absurd (h.slots s s' h1 h2 h3 h4 e1 e2).2 hne
  constructor
  · rcases pick (S - 1, 0) (S - 1, 1) (show S - 1 < S by omega) (show 0 < C by omega)
      (show S - 1 < S by omega) (show 1 < C by omega) (by simp) with ⟨i, h⟩ | ⟨i, h⟩ <;>
    exact ⟨_, i, h, rfl⟩
  · rcases pick (0, C - 1) (1, C - 1) (show 0 < S by omega) (show C - 1 < C by omega)
      (show 1 < S by omega) (show C - 1 < C by omega) (by simp) with ⟨i, h⟩ | ⟨i, h⟩ <;>
    exact ⟨_, i, h, rfl⟩

/-- The goal is out of reach, if the reasoner says so. -/
theorem Table.UsesAll.cant_reach {t : Table} {S C : Nat} {halt : Bool} (h : t.UsesAll S C halt)
    (hS : 2 ≤ S) (hC : 2 ≤ C) (ht : t.Fits S C) {depth : Nat} (hd : t.cantReachTarget halt depth = true) :
    (halt = true → NeverHalts t.get? initCfg) ∧
    (halt = false → ∀ n c, runFor t.get? n initCfg = some c → ¬ SpinsOut t.get? c) := by
  have hA := h.entersA hS ht
  obtain ⟨⟨s1, i1, h1, h2⟩, s2, i2, h3, h4⟩ := h.last hS hC
  cases halt
  · refine ⟨fun h => (by cases h), fun _ n c hc => ?_⟩
    simp only [Table.cantReachTarget, Bool.false_eq_true, if_false, Option.isSome_iff_exists] at hd
    obtain ⟨r, hr⟩ := hd
    exact C10_cant_spin_out_partial t ht.sorted hA depth r hr n c hc
  · refine ⟨fun _ => ?_, fun h => (by cases h)⟩
    simp only [Table.cantReachTarget, if_true, Option.isSome_iff_exists] at hd
    obtain ⟨r, hr⟩ := hd
    refine C08_cant_halt_partial t ht.sorted hA (by rw [ht.start]; rfl) (fun s i hi => ?_)
      (fun s i hi => ?_) depth r hr
    · exact ⟨s1, i1, h1, by rw [h2]; exact Nat.le_sub_one_of_lt (ht.instrs s i hi).2⟩
    · exact ⟨s2, i2, h3, by rw [h4]; exact Nat.le_sub_one_of_lt (ht.instrs s i hi).1⟩

/-! ## What a dropped program is like -/

/-- The machine stops, or begins to repeat itself, within the first `m` sweeps. -/
def EndsWithin (p : Prog) (m : Nat) : Prop :=
  ∃ n k, SweepsAre p n k ∧ k < m ∧ ((∃ slot, HaltsAt p initCfg n slot) ∨ ∃ per, RecursFrom p n per)

/-- **C66.**  Why a program is dropped.  Missing: that the last reason is a good one; it is not. -/
theorem C66_reasons_partial (t : Table) (fuel S C : Nat) (hS : 2 ≤ S) (hC : 2 ≤ C) (ht : t.Fits S C)
    (halt : Bool) (h : t.skipAll fuel S C halt = .ok true) :
    ¬ t.UsesAll S C halt ∨ (4 ≤ S ∧ ¬ t.Linked S) ∨ EndsWithin t.get? 301 ∨
    (halt = true ∧ NeverHalts t.get? initCfg) ∨
    (halt = false ∧ ∀ n c, runFor t.get? n initCfg = some c → ¬ SpinsOut t.get? c) ∨
    ∃ blocks, optBlock t.get? 300 = some blocks ∧ t.checkInf S C blocks 306 = .ok true := by
  rw [Table.skipAll] at h
  by_cases hinc : t.incomplete S C halt = true
  · left
    rw [← C66_incomplete t S C hS hC ht halt, hinc]
    simp
  right
  rw [if_neg hinc] at h
  have hall : t.UsesAll S C halt :=
    (C66_incomplete t S C hS hC ht halt).1 (Bool.not_eq_true _ ▸ hinc)
  have late : t.skipLate fuel S C halt = .ok true → EndsWithin t.get? 301 ∨
      (halt = true ∧ NeverHalts t.get? initCfg) ∨
      (halt = false ∧ ∀ n c, runFor t.get? n initCfg = some c → ¬ SpinsOut t.get? c) ∨
      ∃ blocks, optBlock t.get? 300 = some blocks ∧ t.checkInf S C blocks 306 = .ok true := by
    intro h
    have reach : ∀ depth, t.cantReachTarget halt depth = true → EndsWithin t.get? 301 ∨
        (halt = true ∧ NeverHalts t.get? initCfg) ∨
        (halt = false ∧ ∀ n c, runFor t.get? n initCfg = some c → ¬ SpinsOut t.get? c) ∨
        ∃ blocks, optBlock t.get? 300 = some blocks ∧ t.checkInf S C blocks 306 = .ok true := by
      intro depth hd
      obtain ⟨h1, h2⟩ := hall.cant_reach hS hC ht hd
      cases halt
      · exact .inr (.inr (.inl ⟨rfl, h2 rfl⟩))
      · exact .inr (.inl ⟨rfl, h1 rfl⟩)
    rw [Table.skipLate] at h
    split at h
    · next hd => exact reach _ hd
    · split at h
      · next hq => exact .inl (quickTermOrRec_true ht.start hq)
      · split at h
        · next hd => exact reach _ hd
        · obtain ⟨k, hk, -⟩ := C36_opt_block_total t.get? 300
          rw [hk] at h
          simp only at h
          rcases hc : t.checkInf S C k 306 with e | _ | _
          · simp [hc] at h
          · rw [hc] at h
            simp only [Table.segmentStage] at h
            by_cases hh : halt = true
            · subst hh
              simp only [if_true] at h
              refine .inr (.inl ⟨rfl, ?_⟩)
              rcases hs : t.segmentCantHalt fuel S C 3 with _ | _ | seg
              · simp [hs] at h
              · simp [hs] at h
              · exact C11_segment_cant_halt t S C (by omega) (by omega) ht.instrs fuel 3 seg hs
            · simp [hh] at h
          · exact .inr (.inr (.inr ⟨k, hk, hc⟩))
  split at h
  · next h4 =>
    obtain ⟨r, hr1, hr2⟩ := C28_rust t S ht.sorted (by omega)
      fun s c i hi => ⟨(ht.slots _ _ hi).1, (ht.instrs _ _ hi).2⟩
    rw [hr1] at h
    cases r
    · refine .inl ⟨h4, fun hl => ?_⟩
      have := hr2.2 hl
      cases this
    · exact .inr (late h)
  · exact .inr (late h)

/-- **C66.**  A program that halts after 301 sweeps or more is not dropped, unless it is incomplete, not
connected, or declared infinite by `check_inf`. -/
theorem C66_keeps_halting_partial (t : Table) (fuel S C : Nat) (hS : 2 ≤ S) (hC : 2 ≤ C) (ht : t.Fits S C)
    (hall : t.UsesAll S C true) (hlink : 4 ≤ S → t.Linked S) (n m : Nat) (slot : Slot)
    (hh : HaltsAt t.get? initCfg n slot) (hn : SweepsAre t.get? n m) (hm : 301 ≤ m)
    (h : t.skipAll fuel S C true = .ok true) :
    ∃ blocks, optBlock t.get? 300 = some blocks ∧ t.checkInf S C blocks 306 = .ok true := by
  have hno := neverHalts_iff_not_haltsAt.not_left.2 ⟨n, slot, hh⟩
  rcases C66_reasons_partial t fuel S C hS hC ht true h with h | ⟨h1, h2⟩ | h | h | h | h
  · exact absurd hall h
  · exact absurd (hlink h1) h2
  · obtain ⟨n', k, h1, h2, ⟨slot', h3⟩ | ⟨per, h3⟩⟩ := h
    · obtain ⟨rfl, -⟩ := hh.unique h3
      have := hn.unique h1
      omega
    · exact absurd h3.neverHalts hno
  · exact absurd h.2 hno
  · cases h.1
  · exact h

/-- **C66.**  A program that spins out, but not within the first 301 sweeps, is not dropped, unless it is
incomplete, not connected, or declared infinite by `check_inf`. -/
theorem C66_keeps_spinning_partial (t : Table) (fuel S C : Nat) (hS : 2 ≤ S) (hC : 2 ≤ C) (ht : t.Fits S C)
    (hall : t.UsesAll S C false) (hlink : 4 ≤ S → t.Linked S) (n : Nat) (c : Cfg)
    (hc : runFor t.get? n initCfg = some c) (hspin : SpinsOut t.get? c)
    (hlate : ∀ k d m, runFor t.get? k initCfg = some d → SpinsOut t.get? d → SweepsAre t.get? k m →
      301 ≤ m)
    (h : t.skipAll fuel S C false = .ok true) :
    ∃ blocks, optBlock t.get? 300 = some blocks ∧ t.checkInf S C blocks 306 = .ok true := by
  have hrec := recurs_of_spinsOut hc hspin
  rcases C66_reasons_partial t fuel S C hS hC ht false h with h | ⟨h1, h2⟩ | h | h | h | h
  · exact absurd hall h
  · exact absurd (hlink h1) h2
  · obtain ⟨k, m, h1, h2, ⟨slot, h3⟩ | ⟨per, h3⟩⟩ := h
    · exact absurd ⟨k, slot, h3⟩ (neverHalts_iff_not_haltsAt.1 hrec.neverHalts)
    · have h4 := h3.transfer hrec
      obtain ⟨f, hf⟩ := hrec.neverHalts.run
      have := hlate k (f k) m (hf k) (spinsOut_of_recurs h4 (hf k)) h1
      omega
  · cases h.1
  · exact absurd hspin (h.2 n c hc)
  · exact h

/-- **C66.**  The first half of `check_inf`, when the block size is 1, agrees with `run_prover`. -/
theorem C66_check_inf_plain (t : Table) (S C steps : Nat) (h : t.checkInf S C 1 steps = .ok true) :
    (∃ r, Rs.runProver t.get? steps = .ok r ∧ r.result = .infrul) ∨
    Rs.runForInfrul (Rs.fetchMacro t.get? (Rs.backsymLogic 1 S C))
      (Rs.macroCaches (Rs.backsymLogic 1 S C)) steps = .ok true := by
  rw [Table.checkInf] at h
  simp only [beq_self_eq_true, if_true] at h
  rcases hr : Rs.runForInfrul (Rs.fetchTable t.get?) () steps with e | _ | _
  · simp [hr] at h
  · rw [hr] at h
    exact .inr h
  · exact .inl (Rs.runForInfrul_table hr)

/-- **C66.**  `run_for_infrul` of a plain program with a prover whose answers are right: the machine never
halts. -/
theorem C66_right_prover_partial {π : Type} (p : Prog) (try_ : Rs.TryRule π) (init : π)
    (hr : try_.Right p) (lim : Nat)
    (h : Rs.infrulLoop try_ (fun pr slot => .ok (p slot, pr)) lim 0 init 0 .init = .ok true) :
    NeverHalts p initCfg := by
  obtain ⟨r, h1, h2⟩ := Rs.infrulLoop_prover (comp := p) lim 0 init ⟨Tape.init, [], 0, 0⟩ 0 h
  exact (Rs.proverLoop_spec hr lim 0 init _ 0 0 (Rs.pinv_init p) r h1).never (.inr h2)

/-! ## What is dropped, and what a kept program is like -/

/-- **C66.**  Programs that do not use everything, are not connected (from four states on), or halt or spin
out within the first 301 sweeps are dropped. -/
theorem C66_drops (t : Table) (fuel S C : Nat) (hS : 2 ≤ S) (hC : 2 ≤ C) (ht : t.Fits S C) (halt : Bool)
    (h : ¬ t.UsesAll S C halt ∨ (4 ≤ S ∧ ¬ t.Linked S) ∨
      ∃ n m, SweepsAre t.get? n m ∧ m < 301 ∧ ((∃ slot, HaltsAt t.get? initCfg n slot) ∨
        ∃ c, runFor t.get? n initCfg = some c ∧ SpinsOut t.get? c)) :
    t.skipAll fuel S C halt = .ok true := by
  rw [Table.skipAll]
  by_cases hinc : t.incomplete S C halt = true
  · rw [if_pos hinc]
  rw [if_neg hinc]
  have hall : t.UsesAll S C halt :=
    (C66_incomplete t S C hS hC ht halt).1 (Bool.not_eq_true _ ▸ hinc)
  obtain ⟨r, hr1, hr2⟩ := C28_rust t S ht.sorted (by omega)
    fun s c i hi => ⟨(ht.slots _ _ hi).1, (ht.instrs _ _ hi).2⟩
  have late : (∃ n m, SweepsAre t.get? n m ∧ m < 301 ∧ ((∃ slot, HaltsAt t.get? initCfg n slot) ∨
      ∃ c, runFor t.get? n initCfg = some c ∧ SpinsOut t.get? c)) →
      t.skipLate fuel S C halt = .ok true := by
    rintro ⟨n, m, h1, h2, h3⟩
    have hq : quickTermOrRec t.get? 301 true = true := by
      rcases h3 with ⟨slot, h3⟩ | ⟨c, h3, h4⟩
      · exact quickTermOrRec_halts ht.start h1 h3 h2
      · exact quickTermOrRec_spins ht.start h1 (recurs_of_spinsOut h3 h4) h2
    simp only [Table.skipLate, hq, if_true, ite_self]
  rw [hr1]
  rcases h with h | ⟨h4, hl⟩ | h
  · exact absurd hall h
  · rw [if_pos h4]
    cases r
    · rfl
    · exact absurd (hr2.1 rfl) hl
  · split
    · cases r
      · rfl
      · exact late h
    · exact late h

/-- **C66.**  A program that is kept. -/
theorem C66_kept (t : Table) (fuel S C : Nat) (hS : 2 ≤ S) (hC : 2 ≤ C) (ht : t.Fits S C) (halt : Bool)
    (h : t.skipAll fuel S C halt = .ok false) :
    t.UsesAll S C halt ∧ (4 ≤ S → t.Linked S) ∧
    (∀ n m, SweepsAre t.get? n m → m < 301 →
      (∀ slot, ¬ HaltsAt t.get? initCfg n slot) ∧
      ∀ c, runFor t.get? n initCfg = some c → ¬ SpinsOut t.get? c) ∧
    (∀ n per, RecursFrom t.get? n per → 301 < 2 * max (n + 1) per + per) ∧
    (∃ blocks, optBlock t.get? 300 = some blocks ∧ t.checkInf S C blocks 306 = .ok false) ∧
    (halt = true → t.cantHalt 1 = none ∧ t.cantHalt 256 = none ∧
      t.segmentCantHalt fuel S C 3 = some none) ∧
    (halt = false → t.cantSpinOut 1 = none ∧ t.cantSpinOut 256 = none) := by
  have hdrop := C66_drops t fuel S C hS hC ht halt
  rw [h] at hdrop
  have hdrop := fun h => (show False by simpa using hdrop h)
  have hstages : t.cantReachTarget halt 1 = false ∧ quickTermOrRec t.get? 301 true = false ∧
      t.cantReachTarget halt 256 = false ∧ ∃ k, optBlock t.get? 300 = some k ∧
      t.checkInf S C k 306 = .ok false ∧ t.segmentStage fuel S C halt = .ok false := by
    have late : t.skipLate fuel S C halt = .ok false := by
      rw [Table.skipAll] at h
      split at h
      · simp at h
      · split at h
        · rcases hcon : t.isConnected S with _ | _ | _
          · simp [hcon] at h
          · simp [hcon] at h
          · rw [hcon] at h
            exact h
        · exact h
    rw [Table.skipLate] at late
    split at late
    · simp at late
    · next h1 =>
      split at late
      · simp at late
      · next h2 =>
        split at late
        · simp at late
        · next h3 =>
          obtain ⟨k, hk, -⟩ := C36_opt_block_total t.get? 300
          rw [hk] at late
          simp only at late
          rcases hc : t.checkInf S C k 306 with e | _ | _
          · simp [hc] at late
          · rw [hc] at late
            exact ⟨by simpa using h1, by simpa using h2, by simpa using h3, k, hk, hc, late⟩
          · simp [hc] at late
  obtain ⟨h1, h2, h3, k, h4, h5, h6⟩ := hstages
  refine ⟨?_, ?_, ?_, ?_, ⟨k, h4, h5⟩, ?_, ?_⟩
  · by_contra hcon
    exact hdrop (.inl hcon)
  · intro h4
    by_contra hcon
    exact hdrop (.inr (.inl ⟨h4, hcon⟩))
  · intro n m hn hm
    exact ⟨fun slot hh => hdrop (.inr (.inr ⟨n, m, hn, hm, .inl ⟨slot, hh⟩⟩)),
      fun c hc hs => hdrop (.inr (.inr ⟨n, m, hn, hm, .inr ⟨c, hc, hs⟩⟩))⟩
  · intro n per hrec
    by_contra hcon
    have := C60_complete t.get? 301 true ht.start n per hrec (by omega)
    rw [h2] at this
    cases this
  · rintro rfl
    simp only [Table.cantReachTarget, if_true, Option.isSome_eq_false_iff, Option.isNone_iff_eq_none]
      at h1 h3
    refine ⟨h1, h3, ?_⟩
    simp only [Table.segmentStage, if_true] at h6
    rcases hs : t.segmentCantHalt fuel S C 3 with _ | _ | seg
    · simp [hs] at h6
    · rfl
    · simp [hs] at h6
  · rintro rfl
    simp only [Table.cantReachTarget, Bool.false_eq_true, if_false, Option.isSome_eq_false_iff,
      Option.isNone_iff_eq_none] at h1 h3
    exact ⟨h1, h3⟩

/-- **C66.**  With enough fuel there is an answer, unless `check_inf` fails. -/
theorem C66_answers (t : Table) (S C : Nat) (hS : 2 ≤ S) (hC : 2 ≤ C) (ht : t.Fits S C) (halt : Bool) :
    ∃ F, ∀ fuel, F ≤ fuel → (∃ b, t.skipAll fuel S C halt = .ok b) ∨
      ∃ k e, optBlock t.get? 300 = some k ∧ t.checkInf S C k 306 = .error e := by
  obtain ⟨r, F, hF⟩ := C44_segment_ends t S C (by omega) (by omega) ht.instrs 3 (by omega)
  refine ⟨F, fun fuel hfuel => ?_⟩
  have hr := hF fuel hfuel
  obtain ⟨k, hk, -⟩ := C36_opt_block_total t.get? 300
  obtain ⟨b, hb⟩ : ∃ b, t.segmentStage fuel S C halt = .ok b := by
    cases halt
    · exact ⟨false, rfl⟩
    · exact ⟨r.isSome, by simp only [Table.segmentStage, hr, if_true]⟩
  have late : (∃ b, t.skipLate fuel S C halt = .ok b) ∨ ∃ e, t.checkInf S C k 306 = .error e := by
    rcases hc : t.checkInf S C k 306 with e | _ | _
    · exact .inr ⟨e, rfl⟩
    · left
      simp only [Table.skipLate, hk, hc, hb]
      repeat' split
      all_goals exact ⟨_, rfl⟩
    · left
      simp only [Table.skipLate, hk, hc]
      repeat' split
      all_goals exact ⟨_, rfl⟩
  obtain ⟨c, hc1, -⟩ := C28_rust t S ht.sorted (by omega)
    fun s c i hi => ⟨(ht.slots _ _ hi).1, (ht.instrs _ _ hi).2⟩
  rcases late with ⟨b, hb⟩ | ⟨e, he⟩
  · left
    cases c <;> simp only [Table.skipAll, hc1, hb] <;> repeat' split
    all_goals exact ⟨_, rfl⟩
  · exact .inr ⟨k, e, hk, he⟩

end BB
