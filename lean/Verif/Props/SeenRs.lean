import Verif.Props.Seen

/-!
# C47 and C37 for the Rust prover
-/

namespace BB

namespace Rs

/-- The rules known to a prover are right, and a refused application leaves the tape alone. -/
def Holds (pr : Prover) (p : Prog) : Prop :=
  ∀ q t rule o t', t.Canonical → pr.getRule q t.signature = some rule →
    applyRuleOn basicTape rule t = .ok (o, t') →
    (o = none → t' = t) ∧ (o ≠ none → t'.Canonical ∧
      ∃ m, 1 ≤ m ∧ ∀ pos, ∃ pos', runFor p m (t.cfg q pos) = some (t'.cfg q pos'))

theorem holds_of_empty {pr : Prover} (h : pr.rules = []) (p : Prog) : Holds pr p := by
  intro q t rule times t' _ hg
  rw [getRule_empty h] at hg
  simp at hg

theorem runSimulator_run {p : Prog} {pr : Prover} (hr : Holds pr p) :
    ∀ (n : Nat) (q : State) (t : Tape), t.Canonical → ∀ q' t',
      runSimulator simBasic p pr n q t = .ok (some (q', t')) →
      t'.Canonical ∧ ∃ m, n ≤ m ∧ ∀ pos, ∃ pos', runFor p m (t.cfg q pos) = some (t'.cfg q' pos') := by
  intro n
  induction n with
  | zero =>
    intro q t ht q' t' h
    simp only [runSimulator, Except.ok.injEq, Prod.mk.injEq, Option.some.injEq] at h
    obtain ⟨rfl, rfl⟩ := h
    exact ⟨ht, 0, Nat.le_refl _, fun pos => ⟨pos, rfl⟩⟩
  | succ n ih =>
    intro q t ht q' t' h
    have hplain : (match p (q, t.scan) with
        | none => (.ok none : Except Err (Option (State × Tape)))
        | some (color, shift, nextState) =>
          runSimulator simBasic p pr n nextState (Rs.step t shift color (q == nextState)).1)
          = .ok (some (q', t')) →
        t'.Canonical ∧
          ∃ m, n + 1 ≤ m ∧ ∀ pos, ∃ pos', runFor p m (t.cfg q pos) = some (t'.cfg q' pos') := by
      intro h
      cases hc : p (q, t.scan) with
      | none => rw [hc] at h; simp at h
      | some i =>
        obtain ⟨color, shift, next⟩ := i
        rw [hc] at h
        simp only at h
        have hcan : (Rs.step t shift color (q == next)).1.Canonical := ht.rsStep _ _ _
        obtain ⟨h1, m, h2, h3⟩ := ih _ _ hcan _ _ h
        refine ⟨h1, (Rs.step t shift color (q == next)).2 + m, ?_, ?_⟩
        · have := (C01_rs_step p q next t shift color (q == next) (canonical_counts ht) hc
            (fun hs => (beq_iff_eq.mp hs).symm) 0).1
          omega
        · intro pos
          have := (C01_rs_step p q next t shift color (q == next) (canonical_counts ht) hc
            (fun hs => (beq_iff_eq.mp hs).symm) pos).2
          obtain ⟨pos', h4⟩ := h3 (pos + disp shift (Rs.step t shift color (q == next)).2)
          exact ⟨pos', runFor_trans this h4⟩
    simp only [runSimulator] at h
    cases hg : pr.getRule q (simBasic.signature t) with
    | none => rw [hg] at h; exact hplain h
    | some rule =>
      rw [hg] at h
      simp only at h
      cases ha : applyRuleOn simBasic.toIndexTape rule t with
      | error e => rw [ha] at h; simp at h
      | ok r =>
        obtain ⟨o, t1⟩ := r
        rw [ha] at h
        obtain ⟨g1, g2⟩ := hr q t rule o t1 ht hg ha
        cases o with
        | none =>
          obtain rfl : t1 = t := g1 rfl
          exact hplain h
        | some times =>
          simp only at h
          obtain ⟨h1, m1, h2, h3⟩ := g2 (by simp)
          obtain ⟨h4, m2, h5, h6⟩ := ih _ _ h1 _ _ h
          refine ⟨h4, m1 + m2, by omega, fun pos => ?_⟩
          obtain ⟨p1, e1⟩ := h3 pos
          obtain ⟨p2, e2⟩ := h6 p1
          exact ⟨p2, runFor_trans e1 e2⟩

theorem round_returns {p : Prog} {pr : Prover} (hr : Holds pr p) {q : State} {sig t t' : Tape}
    {d : Int} (ht : t.Canonical) (h : round p pr q sig.signature d t = .ok (some t')) :
    ∃ n, d.toNat ≤ n ∧ Returns p q sig t t' n := by
  unfold round at h
  split at h
  · simp at h
  · simp at h
  · rename_i q' tags hs
    split at h
    · simp at h
    · rename_i hc
      simp only [Except.ok.injEq, Option.some.injEq] at h
      subst h
      simp only [Bool.or_eq_true, bne_iff_ne, ne_eq, Bool.not_eq_eq_eq_not, Bool.not_true, not_or,
        Bool.not_eq_false, not_not] at hc
      obtain ⟨rfl, hc⟩ := hc
      obtain ⟨h1, n, h2, h3⟩ := runSimulator_run hr _ _ _ ht _ _ hs
      have := (C38_compatible _ _).mp hc
      refine ⟨n, h2, h1, h3, this.1, fun s => ?_⟩
      rw [← map_fst_signature]
      exact this.2 s

/-- Three rounds of the replay. -/
theorem inferRule_rounds {p : Prog} {pr : Prover} {q : State} {t : Tape} {ds : Deltas} {rule : Rule}
    (hr : Holds pr p) (ht : t.Canonical)
    (h : inferRule p pr q t t.signature ds = .ok (some rule)) :
    ∃ t1 t2 t3 n1 n2 n3, ds.1.toNat ≤ n1 ∧ ThreeReturns p q t t1 t2 t3 n1 n2 n3 ∧
      makeRule (counts t) (counts t1) (counts t2) (counts t3) = some rule := by
  unfold inferRule at h
  split at h
  · simp at h
  · simp at h
  · rename_i t1 h1
    obtain ⟨n1, g1, r1⟩ := round_returns (sig := t) hr ht h1
    split at h
    · simp at h
    · simp at h
    · rename_i t2 h2
      obtain ⟨n2, g2, r2⟩ := round_returns (sig := t) hr r1.canon h2
      split at h
      · simp at h
      · simp at h
      · rename_i t3 h3
        obtain ⟨n3, g3, r3⟩ := round_returns (sig := t) hr r2.canon h3
        simp only [Except.ok.injEq] at h
        exact ⟨t1, t2, t3, n1, n2, n3, g1, ⟨r1, r2, r3⟩, h⟩

/-- Where a newly proposed rule, or the news of an infinite one, comes from. -/
theorem tryRule_seen {p : Prog} {pr : Prover} {q : State} {t : Tape} {cycle : Nat}
    (hr : Holds pr p) (ht : t.Canonical) (hb : pr.Before cycle)
    (hnew : pr.getRule q t.signature = none) (r : ProverResult)
    (h : (tryRule p pr cycle q t).2 = .ok r) (hr1 : r ≠ .none) (hr2 : r ≠ .configLimit) :
    ∃ rule t1 t2 t3 n1 n2 n3, 1 ≤ n1 ∧ ThreeReturns p q t t1 t2 t3 n1 n2 n3 ∧
      makeRule (counts t) (counts t1) (counts t2) (counts t3) = some rule ∧
      ((r = .infiniteRule ∧ ¬ rule.Decreases) ∨
       (r = .multRule ∧ rule.Decreases ∧ ∃ i m x, (i, Op.mult m x) ∈ rule) ∨
       (r = .got rule ∧ rule.Decreases ∧ ∀ i m x, (i, Op.mult m x) ∉ rule)) := by
  unfold tryRule at h
  simp only [hnew] at h
  cases hl : pr.configs.lookup t.signature with
  | none =>
    rw [hl] at h
    simp only at h
    split at h
    · simp only [Except.ok.injEq] at h; exact absurd h.symm hr2
    · simp only [Except.ok.injEq] at h; exact absurd h.symm hr1
  | some past =>
    rw [hl] at h
    simp only at h
    cases hd : past.nextDeltas q cycle with
    | error e => rw [hd] at h; simp at h
    | ok x =>
      obtain ⟨deltas, past'⟩ := x
      rw [hd] at h
      cases deltas with
      | none => simp only [Except.ok.injEq] at h; exact absurd h.symm hr1
      | some ds =>
        simp only at h
        have hpos : 0 < ds.1 := nextDeltas_pos (x := ds.1) (y := ds.2.1) (z := ds.2.2)
          (hb _ _ hl q) hd
        have hr' : Holds { pr with configs := assocInsert pr.configs t.signature past' } p := hr
        generalize ({ pr with configs := assocInsert pr.configs t.signature past' } : Prover) = pr' at h hr'
        split at h
        · simp only [Except.ok.injEq] at h; exact absurd h.symm hr1
        · cases hi : inferRule p pr' q t t.signature ds with
          | error e => rw [hi] at h; simp at h
          | ok o =>
            rw [hi] at h
            cases o with
            | none => simp only [Except.ok.injEq] at h; exact absurd h.symm hr1
            | some rule =>
              simp only at h
              obtain ⟨t1, t2, t3, n1, n2, n3, g1, h3, hm⟩ := inferRule_rounds hr' ht hi
              refine ⟨rule, t1, t2, t3, n1, n2, n3, by omega, h3, hm, ?_⟩
              have hdec : (rule.any fun e => Op.isMinus e.2) = true ↔ rule.Decreases := by
                rw [List.any_eq_true]
                constructor
                · rintro ⟨⟨i, op⟩, hm, ho⟩
                  cases op with
                  | plus d => exact ⟨i, d, hm, by simpa [Op.isMinus] using ho⟩
                  | mult m a => simp [Op.isMinus] at ho
                · rintro ⟨i, d, hm, ho⟩
                  exact ⟨(i, .plus d), hm, by simpa [Op.isMinus] using ho⟩
              have hmul : (rule.any fun e => Op.isMult e.2) = true ↔ ∃ i m x, (i, Op.mult m x) ∈ rule := by
                rw [List.any_eq_true]
                constructor
                · rintro ⟨⟨i, op⟩, hm, ho⟩
                  cases op with
                  | plus d => simp [Op.isMult] at ho
                  | mult m a => exact ⟨i, m, a, hm⟩
                · rintro ⟨i, m, a, hm⟩
                  exact ⟨(i, .mult m a), hm, rfl⟩
              split at h
              · rename_i hx
                simp only [Except.ok.injEq] at h
                left
                refine ⟨h.symm, ?_⟩
                rw [← hdec]
                simpa using hx
              · rename_i hx
                have hx : rule.Decreases := by
                  rw [← hdec]
                  by_contra hc
                  simp only [Bool.not_eq_true] at hc
                  rw [hc] at hx
                  simp at hx
                split at h
                · rename_i hy
                  simp only [Except.ok.injEq] at h
                  exact .inr (.inl ⟨h.symm, hx, hmul.mp hy⟩)
                · rename_i hy
                  split at h
                  · simp only [Except.ok.injEq] at h; exact absurd h.symm hr1
                  · split at h
                    · simp at h
                    · simp only [Except.ok.injEq] at h
                      refine .inr (.inr ⟨h.symm, hx, ?_⟩)
                      intro i m x hmem
                      exact hy (hmul.mpr ⟨i, m, x, hmem⟩)

/-! ### The entries of a rule -/

theorem makeRuleSide_mem (diff : Nat → Nat → Nat → Nat → Option (Option Op)) (side : Bool) :
    ∀ (l1 l2 l3 l4 : List Nat) (k : Nat) (rule : Rule),
      makeRuleSideWith diff side k l1 l2 l3 l4 = some rule →
      (∀ i op, (i, op) ∈ rule ↔ ∃ j a b c d, i = (side, k + j) ∧ l1[j]? = some a ∧ l2[j]? = some b ∧
        l3[j]? = some c ∧ l4[j]? = some d ∧ diff a b c d = some (some op)) ∧
      (∀ (j : Nat) a b c d, l1[j]? = some a → l2[j]? = some b → l3[j]? = some c → l4[j]? = some d →
        diff a b c d ≠ some none) ∧
      (rule.map Prod.fst).Nodup := by
  intro l1
  have hnil : ∀ (l1 l2 l3 l4 : List Nat) (k : Nat) (rule : Rule), some ([] : Rule) = some rule →
      (l1 = [] ∨ l2 = [] ∨ l3 = [] ∨ l4 = []) →
      (∀ i op, (i, op) ∈ rule ↔ ∃ j a b c d, i = (side, k + j) ∧ l1[j]? = some a ∧ l2[j]? = some b ∧
        l3[j]? = some c ∧ l4[j]? = some d ∧ diff a b c d = some (some op)) ∧
      (∀ (j : Nat) a b c d, l1[j]? = some a → l2[j]? = some b → l3[j]? = some c → l4[j]? = some d →
        diff a b c d ≠ some none) ∧
      (rule.map Prod.fst).Nodup := by
    intro l1 l2 l3 l4 k rule h he
    simp only [Option.some.injEq] at h
    subst h
    refine ⟨?_, ?_, by simp⟩
    · intro i op
      simp only [List.not_mem_nil, false_iff]
      rintro ⟨j, a, b, c, d, _, e1, e2, e3, e4, _⟩
      rcases he with rfl | rfl | rfl | rfl <;> simp at e1 e2 e3 e4
    · intro j a b c d e1 e2 e3 e4
      rcases he with rfl | rfl | rfl | rfl <;> simp at e1 e2 e3 e4
  induction l1 with
  | nil => intro l2 l3 l4 k rule h; exact hnil _ _ _ _ _ _ h (.inl rfl)
  | cons a l1 ih =>
    intro l2 l3 l4 k rule h
    cases l2 with
    | nil => exact hnil _ _ _ _ _ _ h (.inr (.inl rfl))
    | cons b l2 =>
      cases l3 with
      | nil => exact hnil _ _ _ _ _ _ h (.inr (.inr (.inl rfl)))
      | cons c l3 =>
        cases l4 with
        | nil => exact hnil _ _ _ _ _ _ h (.inr (.inr (.inr rfl)))
        | cons d l4 =>
          simp only [makeRuleSideWith] at h
          -- what the rest of the side gives, seen from here
          have shift : ∀ rest : Rule, makeRuleSideWith diff side (k + 1) l1 l2 l3 l4 = some rest →
              (∀ i op, (i, op) ∈ rest ↔ ∃ j x y z w, i = (side, k + (j + 1)) ∧ l1[j]? = some x ∧
                l2[j]? = some y ∧ l3[j]? = some z ∧ l4[j]? = some w ∧
                diff x y z w = some (some op)) ∧
              (∀ (j : Nat) x y z w, l1[j]? = some x → l2[j]? = some y → l3[j]? = some z →
                l4[j]? = some w → diff x y z w ≠ some none) ∧ (rest.map Prod.fst).Nodup := by
            intro rest hrest
            obtain ⟨h1, h2, h3⟩ := ih l2 l3 l4 (k + 1) rest hrest
            refine ⟨?_, h2, h3⟩
            intro i op
            rw [h1]
            constructor <;>
            · rintro ⟨j, x, y, z, w, rfl, hj⟩
              exact ⟨j, x, y, z, w, by rw [Prod.mk.injEq]; exact ⟨rfl, by omega⟩, hj⟩
          cases hd : diff a b c d with
          | none =>
            rw [hd] at h
            obtain ⟨h1, h2, h3⟩ := shift rule h
            refine ⟨?_, ?_, h3⟩
            · intro i op
              rw [h1]
              constructor
              · rintro ⟨j, x, y, z, w, rfl, hj⟩
                exact ⟨j + 1, x, y, z, w, rfl, by simpa using hj⟩
              · rintro ⟨j, x, y, z, w, rfl, e1, e2, e3, e4, e5⟩
                cases j with
                | zero =>
                  simp only [List.getElem?_cons_zero, Option.some.injEq] at e1 e2 e3 e4
                  subst e1 e2 e3 e4
                  rw [hd] at e5; simp at e5
                | succ j => exact ⟨j, x, y, z, w, rfl, by simpa using ⟨e1, e2, e3, e4, e5⟩⟩
            · intro j x y z w e1 e2 e3 e4
              cases j with
              | zero =>
                simp only [List.getElem?_cons_zero, Option.some.injEq] at e1 e2 e3 e4
                subst e1 e2 e3 e4
                rw [hd]; simp
              | succ j =>
                simp only [List.getElem?_cons_succ] at e1 e2 e3 e4
                exact h2 j x y z w e1 e2 e3 e4
          | some o =>
            rw [hd] at h
            cases o with
            | none => simp at h
            | some op0 =>
              simp only at h
              cases hrest : makeRuleSideWith diff side (k + 1) l1 l2 l3 l4 with
              | none => rw [hrest] at h; simp at h
              | some rest =>
                rw [hrest] at h
                simp only [Option.some.injEq] at h
                subst h
                obtain ⟨h1, h2, h3⟩ := shift rest hrest
                refine ⟨?_, ?_, ?_⟩
                · intro i op
                  rw [List.mem_cons, h1]
                  constructor
                  · rintro (he | ⟨j, x, y, z, w, rfl, hj⟩)
                    · simp only [Prod.mk.injEq] at he
                      obtain ⟨rfl, rfl⟩ := he
                      exact ⟨0, a, b, c, d, rfl, rfl, rfl, rfl, rfl, hd⟩
                    · exact ⟨j + 1, x, y, z, w, rfl, by simpa using hj⟩
                  · rintro ⟨j, x, y, z, w, rfl, e1, e2, e3, e4, e5⟩
                    cases j with
                    | zero =>
                      simp only [List.getElem?_cons_zero, Option.some.injEq] at e1 e2 e3 e4
                      subst e1 e2 e3 e4
                      rw [hd] at e5
                      simp only [Option.some.injEq] at e5
                      subst e5
                      exact .inl rfl
                    | succ j => exact .inr ⟨j, x, y, z, w, rfl, by simpa using ⟨e1, e2, e3, e4, e5⟩⟩
                · intro j x y z w e1 e2 e3 e4
                  cases j with
                  | zero =>
                    simp only [List.getElem?_cons_zero, Option.some.injEq] at e1 e2 e3 e4
                    subst e1 e2 e3 e4
                    rw [hd]; simp
                  | succ j =>
                    simp only [List.getElem?_cons_succ] at e1 e2 e3 e4
                    exact h2 j x y z w e1 e2 e3 e4
                · simp only [List.map_cons, List.nodup_cons]
                  refine ⟨?_, h3⟩
                  intro hm
                  obtain ⟨⟨i, op⟩, hm, he⟩ := List.mem_map.mp hm
                  obtain ⟨j, x, y, z, w, rfl, _⟩ := (h1 i op).mp hm
                  simp only [Prod.mk.injEq, true_and] at he
                  omega

/-- The entries of a Rust rule, block by block. -/
theorem makeRule_mem {t t1 t2 t3 : Tape} {rule : Rule}
    (h : makeRule (counts t) (counts t1) (counts t2) (counts t3) = some rule) :
    (∀ i op, (i, op) ∈ rule ↔ ∃ a b c d, FourCounts t t1 t2 t3 i a b c d ∧
      countDiff a b c d = some (some op)) ∧
    (∀ i a b c d, FourCounts t t1 t2 t3 i a b c d → countDiff a b c d ≠ some none) ∧
    (rule.map Prod.fst).Nodup := by
  unfold makeRule at h
  split at h
  · simp at h
  rename_i l hl
  split at h
  · simp at h
  rename_i r hr
  simp only [Option.some.injEq] at h
  subst h
  obtain ⟨l1, l2, l3⟩ := makeRuleSide_mem countDiff false _ _ _ _ _ _ hl
  obtain ⟨r1, r2, r3⟩ := makeRuleSide_mem countDiff true _ _ _ _ _ _ hr
  have hL : ∀ (u : Tape) (j : Nat), (counts u).1[j]? = ((u.span false)[j]?).map Block.count := by
    intro u j; simp [counts, Tape.span]
  have hR : ∀ (u : Tape) (j : Nat), (counts u).2[j]? = ((u.span true)[j]?).map Block.count := by
    intro u j; simp [counts, Tape.span]
  simp only [hL] at l1 l2
  simp only [hR] at r1 r2
  refine ⟨?_, ?_, ?_⟩
  · rintro ⟨s, j⟩ op
    rw [List.mem_append, l1, r1]
    constructor
    · rintro (⟨k, a, b, c, d, he, e1, e2, e3, e4, e5⟩ | ⟨k, a, b, c, d, he, e1, e2, e3, e4, e5⟩)
      · simp only [Prod.mk.injEq, Nat.zero_add] at he
        obtain ⟨rfl, rfl⟩ := he
        exact ⟨a, b, c, d, ⟨e1, e2, e3, e4⟩, e5⟩
      · simp only [Prod.mk.injEq, Nat.zero_add] at he
        obtain ⟨rfl, rfl⟩ := he
        exact ⟨a, b, c, d, ⟨e1, e2, e3, e4⟩, e5⟩
    · rintro ⟨a, b, c, d, ⟨e1, e2, e3, e4⟩, e5⟩
      cases s
      · exact .inl ⟨j, a, b, c, d, by simp, e1, e2, e3, e4, e5⟩
      · exact .inr ⟨j, a, b, c, d, by simp, e1, e2, e3, e4, e5⟩
  · rintro ⟨s, j⟩ a b c d ⟨e1, e2, e3, e4⟩
    cases s
    · exact l2 j a b c d e1 e2 e3 e4
    · exact r2 j a b c d e1 e2 e3 e4
  · rw [List.map_append, List.nodup_append]
    refine ⟨l3, r3, ?_⟩
    rintro x hx y hy rfl
    obtain ⟨⟨p, op⟩, h1, rfl⟩ := List.mem_map.mp hx
    obtain ⟨⟨q, op'⟩, h2, h3⟩ := List.mem_map.mp hy
    obtain ⟨j, _, _, _, _, e1, _⟩ := (l1 p op).mp h1
    obtain ⟨j', _, _, _, _, e2, _⟩ := (r1 q op').mp h2
    simp only at h3
    rw [e1, e2] at h3
    simp at h3


theorem toDiff_small {n : Nat} (h : n < 2 ^ 31) : toDiff n = n := by
  unfold toDiff
  rw [Int.bmod_eq_of_le] <;> omega

/-- On counts that fit, the inference is exact. -/
theorem calculateDiff32_spec {a b c d : Int} (ha : 1 ≤ a) (hb : 1 ≤ b) (hc : 1 ≤ c) (hd : 1 ≤ d)
    (hc' : c < 2 ^ 31) (hd' : d < 2 ^ 31) :
    (calculateDiff32 a b c d = none ↔ a = b ∧ b = c ∧ c = d) ∧
    (∀ x, calculateDiff32 a b c d = some (some (.plus x)) → b = a + x ∧ c = b + x ∧ d = c + x) ∧
    (∀ m x, calculateDiff32 a b c d = some (some (.mult m x)) →
      b = a * m + x ∧ c = b * m + x ∧ d = c * m + x ∧ a ≤ b ∧ b ≤ c ∧ c ≤ d) := by
  unfold calculateDiff32
  by_cases h1 : (a == b && b == c && c == d) = true
  · simp only [h1, if_true, true_iff]
    simp only [Bool.and_eq_true, beq_iff_eq] at h1
    exact ⟨⟨h1.1.1, h1.1.2, h1.2⟩, by simp, by simp⟩
  simp only [h1, Bool.false_eq_true, if_false]
  simp only [Bool.and_eq_true, beq_iff_eq, and_assoc] at h1
  split
  · exact ⟨by simp [h1], by simp, by simp⟩
  have hw : Int.bmod (d - c) (2 ^ 32) = d - c := by
    rw [Int.bmod_eq_of_le] <;> omega
  rw [hw]
  split
  · rename_i h2
    simp only [Bool.and_eq_true, beq_iff_eq] at h2
    refine ⟨by simp [h1], ?_, by simp⟩
    intro x hx
    simp only [Option.some.injEq, Op.plus.injEq] at hx
    omega
  split
  · exact ⟨by simp [h1], by simp, by simp⟩
  split
  · rename_i h4
    refine ⟨by simp [h1], by simp, ?_⟩
    intro m x hx
    simp only [Option.some.injEq, Op.mult.injEq] at hx
    obtain ⟨rfl, rfl⟩ := hx
    simp only [Bool.and_eq_true, beq_iff_eq, Prod.mk.injEq] at h4
    obtain ⟨⟨q1, m1⟩, q2, m2⟩ := h4
    have fa := Int.mul_tdiv_add_tmod b a
    have fb := Int.mul_tdiv_add_tmod c b
    have fc := Int.mul_tdiv_add_tmod d c
    have g2 : c = b * b.tdiv a + b.tmod a := by rw [q1, m1]; exact fb.symm
    have g3 : d = c * b.tdiv a + b.tmod a := by rw [q1, m1, q2, m2]; exact fc.symm
    have hm0 : 0 ≤ b.tmod a := Int.tmod_nonneg _ (by omega)
    have hq0 : 0 ≤ b.tdiv a := Int.tdiv_nonneg (by omega) (by omega)
    have hq1 : 1 ≤ b.tdiv a := by
      by_contra hlt
      have hz : b.tdiv a = 0 := by omega
      rw [hz] at q1
      have e1 : c.tmod b = c := by rw [← fb, ← q1]; simp
      have e2 : b.tmod a = b := by rw [← fa, hz]; simp
      have : c.tmod b < b := Int.tmod_lt_of_pos _ (by omega)
      omega
    refine ⟨fa.symm, g2, g3, ?_, ?_, ?_⟩ <;> nlinarith
  · exact ⟨by simp [h1], by simp, by simp⟩

/-- All blocks of a tape are shorter than 2³¹. -/
def Fits (t : Tape) : Prop := ∀ s, ∀ b ∈ t.span s, b.count < 2 ^ 31

theorem FourCounts.bounds {t t1 t2 t3 : Tape} {i : Index} {a b c d : Nat}
    (h : FourCounts t t1 t2 t3 i a b c d)
    (c0 : t.Canonical) (c1 : t1.Canonical) (c2 : t2.Canonical) (c3 : t3.Canonical)
    (f0 : Fits t) (f1 : Fits t1) (f2 : Fits t2) (f3 : Fits t3) :
    (1 ≤ a ∧ a < 2 ^ 31) ∧ (1 ≤ b ∧ b < 2 ^ 31) ∧ (1 ≤ c ∧ c < 2 ^ 31) ∧ (1 ≤ d ∧ d < 2 ^ 31) := by
  have key : ∀ {u : Tape} {x : Nat}, u.Canonical → Fits u →
      ((u.span i.1)[i.2]?).map Block.count = some x → 1 ≤ x ∧ x < 2 ^ 31 := by
    intro u x hu hf hx
    obtain ⟨b, hb, rfl⟩ := Option.map_eq_some_iff.mp hx
    have hm := List.mem_of_getElem? hb
    exact ⟨(hu.span i.1).posCounts b hm, hf i.1 b hm⟩
  exact ⟨key c0 f0 h.1, key c1 f1 h.2.1, key c2 f2 h.2.2.1, key c3 f3 h.2.2.2⟩

theorem FourCounts.uniq {t t1 t2 t3 : Tape} {i : Index} {a b c d a' b' c' d' : Nat}
    (h : FourCounts t t1 t2 t3 i a b c d) (h' : FourCounts t t1 t2 t3 i a' b' c' d') :
    a = a' ∧ b = b' ∧ c = c' ∧ d = d' := by
  obtain ⟨e1, e2, e3, e4⟩ := h
  obtain ⟨f1, f2, f3, f4⟩ := h'
  rw [e1] at f1; rw [e2] at f2; rw [e3] at f3; rw [e4] at f4
  simp only [Option.some.injEq] at f1 f2 f3 f4
  exact ⟨f1, f2, f3, f4⟩

theorem countDiff_spec {t t1 t2 t3 : Tape} {i : Index} {a b c d : Nat}
    (h : FourCounts t t1 t2 t3 i a b c d)
    (c0 : t.Canonical) (c1 : t1.Canonical) (c2 : t2.Canonical) (c3 : t3.Canonical)
    (f0 : Fits t) (f1 : Fits t1) (f2 : Fits t2) (f3 : Fits t3) :
    (countDiff a b c d = none ↔ a = b ∧ b = c ∧ c = d) ∧
    (∀ x, countDiff a b c d = some (some (.plus x)) →
      (b : Int) = a + x ∧ (c : Int) = b + x ∧ (d : Int) = c + x) ∧
    (∀ m x, countDiff a b c d = some (some (.mult m x)) → a ≤ b ∧ b ≤ c ∧ c ≤ d) := by
  obtain ⟨⟨a1, a2⟩, ⟨b1, b2⟩, ⟨c1', c2'⟩, ⟨d1, d2⟩⟩ := FourCounts.bounds h c0 c1 c2 c3 f0 f1 f2 f3
  unfold countDiff
  rw [toDiff_small a2, toDiff_small b2, toDiff_small c2', toDiff_small d2]
  obtain ⟨h1, h2, h3⟩ := calculateDiff32_spec (a := a) (b := b) (c := c) (d := d) (by omega) (by omega)
    (by omega) (by omega) (by omega) (by omega)
  refine ⟨?_, h2, ?_⟩
  · rw [h1]; omega
  · intro m x hx
    have := h3 m x hx
    omega

/-- **C47 for Rust (a new rule).**  As for Python, as long as all counts of the three stretches fit
in 31 bits; and the entries are all additive. -/
theorem C47_rs_rule (p : Prog) (pr : Prover) (cycle : Nat) (q : State) (t : Tape) (rule : Rule)
    (hr : Holds pr p) (ht : t.Canonical) (hb : pr.Before cycle)
    (hnew : pr.getRule q t.signature = none)
    (h : (tryRule p pr cycle q t).2 = .ok (.got rule)) :
    ∃ t1 t2 t3 n1 n2 n3, 1 ≤ n1 ∧ ThreeReturns p q t t1 t2 t3 n1 n2 n3 ∧
      (rule.map Prod.fst).Nodup ∧ rule.Decreases ∧ (∀ i m x, (i, Op.mult m x) ∉ rule) ∧
      (Fits t → Fits t1 → Fits t2 → Fits t3 → ∀ i a b c d, FourCounts t t1 t2 t3 i a b c d →
        (i ∉ rule.map Prod.fst ↔ a = b ∧ b = c ∧ c = d) ∧
        (∀ x, (i, Op.plus x) ∈ rule → (b : Int) = a + x ∧ (c : Int) = b + x ∧ (d : Int) = c + x)) ∧
      (∀ i ∈ rule.map Prod.fst, ∃ a b c d, FourCounts t t1 t2 t3 i a b c d) := by
  obtain ⟨rule', t1, t2, t3, n1, n2, n3, h1, h3, hm, hx⟩ :=
    tryRule_seen hr ht hb hnew _ h (by simp) (by simp)
  simp only [reduceCtorEq, false_and, false_or, ProverResult.got.injEq] at hx
  obtain ⟨rfl, hdec, hmul⟩ := hx
  obtain ⟨k1, k2, k3⟩ := makeRule_mem hm
  refine ⟨t1, t2, t3, n1, n2, n3, h1, h3, k3, hdec, hmul, ?_, ?_⟩
  · intro f0 f1 f2 f3 i a b c d hf
    obtain ⟨s1, s2, s3⟩ := countDiff_spec hf ht h3.first.canon h3.second.canon h3.third.canon f0 f1 f2 f3
    refine ⟨?_, ?_⟩
    · rw [← s1]
      constructor
      · intro hn
        cases hd : countDiff a b c d with
        | none => rfl
        | some o =>
          cases o with
          | none => exact absurd hd (k2 i a b c d hf)
          | some op =>
            exact absurd (List.mem_map.mpr ⟨(i, op), (k1 i op).mpr ⟨a, b, c, d, hf, hd⟩, rfl⟩) hn
      · intro hd hn
        obtain ⟨⟨j, op⟩, hmem, rfl⟩ := List.mem_map.mp hn
        obtain ⟨a', b', c', d', hf', hd'⟩ := (k1 j op).mp hmem
        obtain ⟨rfl, rfl, rfl, rfl⟩ := FourCounts.uniq hf hf'
        rw [hd] at hd'
        simp at hd'
    · intro x hmem
      obtain ⟨a', b', c', d', hf', hd'⟩ := (k1 i _).mp hmem
      obtain ⟨rfl, rfl, rfl, rfl⟩ := FourCounts.uniq hf hf'
      exact s2 x hd'
  · intro i hi
    obtain ⟨⟨j, op⟩, hmem, rfl⟩ := List.mem_map.mp hi
    obtain ⟨a', b', c', d', hf', _⟩ := (k1 j op).mp hmem
    exact ⟨a', b', c', d', hf'⟩

/-- **C47 for Rust (an infinite rule).** -/
theorem C47_rs_infinite (p : Prog) (pr : Prover) (cycle : Nat) (q : State) (t : Tape)
    (hr : Holds pr p) (ht : t.Canonical) (hb : pr.Before cycle)
    (hnew : pr.getRule q t.signature = none)
    (h : (tryRule p pr cycle q t).2 = .ok .infiniteRule) :
    ∃ t1 t2 t3 n1 n2 n3, 1 ≤ n1 ∧ ThreeReturns p q t t1 t2 t3 n1 n2 n3 ∧
      (Fits t → Fits t1 → Fits t2 → Fits t3 → ∀ i a b c d, FourCounts t t1 t2 t3 i a b c d →
        a ≤ b ∧ b ≤ c ∧ c ≤ d) := by
  obtain ⟨rule, t1, t2, t3, n1, n2, n3, h1, h3, hm, hx⟩ :=
    tryRule_seen hr ht hb hnew _ h (by simp) (by simp)
  simp only [true_and, reduceCtorEq, false_and, or_false] at hx
  obtain ⟨k1, k2, k3⟩ := makeRule_mem hm
  refine ⟨t1, t2, t3, n1, n2, n3, h1, h3, ?_⟩
  intro f0 f1 f2 f3 i a b c d hf
  obtain ⟨s1, s2, s3⟩ := countDiff_spec hf ht h3.first.canon h3.second.canon h3.third.canon f0 f1 f2 f3
  cases hd : countDiff a b c d with
  | none => have := s1.mp hd; omega
  | some o =>
    cases o with
    | none => exact absurd hd (k2 i a b c d hf)
    | some op =>
      cases op with
      | plus x =>
        have := s2 x hd
        by_contra hlt
        exact hx ⟨i, x, (k1 i _).mpr ⟨a, b, c, d, hf, hd⟩, by omega⟩
      | mult m x => exact s3 m x hd

/-! ### C37 for the Rust prover -/

theorem runSimulator_tape {comp : Prog} {pr : Prover} (hp : pr.rules = []) :
    ∀ (n : Nat) (q : State) (t : Tape), t.Canonical → ∀ q' t',
      runSimulator simBasic comp pr n q t = .ok (some (q', t')) ↔
        pr.runSimulator Tape.simTape comp n q t = .ok (some q', t') := by
  intro n
  induction n with
  | zero =>
    intro q t _ q' t'
    simp [runSimulator, Prover.runSimulator]
  | succ n ih =>
    intro q t ht q' t'
    simp only [runSimulator, Prover.runSimulator, getRule_empty hp]
    show (match comp (q, t.scan) with
      | none => _
      | some (color, shift, nextState) => _) = _ ↔ (match comp (q, t.scan) with
      | none => _
      | some (color, shift, nextState) => _) = _
    cases hc : comp (q, t.scan) with
    | none => simp
    | some i =>
      obtain ⟨color, shift, next⟩ := i
      simp only
      have hs : Tape.simTape.step t shift color (q == next) = simBasic.step t shift color (q == next) := by
        show (Py.step t shift color (q == next)).1 = (Rs.step t shift color (q == next)).1
        rw [py_step_eq_rs_step t ht.l.posCounts ht.r.posCounts]
      rw [hs]
      exact ih next _ (ht.rsStep shift color (q == next)) q' t'

theorem runSimulator_enum {comp : Prog} {pr : Prover} (hp : pr.rules = []) :
    ∀ (n : Nat) (q : State) (e r : EnumTape) (q' : State) (ops : List (Bool × Color × Bool)),
      TapeRel e r → e.tape.forget.Canonical → simOps comp n q e.tape.forget = some (q', ops) →
      runSimulator simEnum comp pr n q r = .ok (some (q', esteps r ops)) := by
  intro n
  induction n with
  | zero =>
    intro q e r q' ops _ _ h
    simp only [simOps, Option.some.injEq, Prod.mk.injEq] at h
    obtain ⟨rfl, rfl⟩ := h
    rfl
  | succ n ih =>
    intro q e r q' ops hrel hc h
    simp only [simOps] at h
    simp only [runSimulator, getRule_empty hp]
    have hscan : e.tape.forget.scan = simEnum.scan r := by
      have := hrel.scan
      exact this
    rw [hscan] at h
    cases hi : comp (q, simEnum.scan r) with
    | none => simp [hi] at h
    | some i =>
      obtain ⟨color, shift, next⟩ := i
      simp only [hi] at h ⊢
      obtain ⟨⟨q1, ops1⟩, h3, h4⟩ := Option.map_eq_some_iff.1 h
      simp only [Prod.mk.injEq] at h4
      obtain ⟨rfl, rfl⟩ := h4
      rw [← e.step_forget hc] at h3
      exact ih next (e.step shift color (q == next)) (estep r shift color (q == next)) q1 ops1
        (hrel.step hc shift color (q == next))
        (by rw [e.step_forget hc]; exact hc.rsStep _ _ _) h3

/-- **C37 for Rust (minimal signature).**  The Rust prover computes the minimal signature that the
Python one computes, so any other tape it matches, with the same counts where it looks, goes through
the same steps. -/
theorem C37_rs_min_sig (comp : Prog) (pr : Prover) (hp : pr.rules = []) (n : Nat) (q q' : State)
    (t t' u : Tape) (m : MinSig) (ht : t.Canonical) (hu : u.Canonical)
    (hrun : runSimulator simBasic comp pr n q t = .ok (some (q', t')))
    (hm : getMinSig comp pr n q t.toEnum t.signature = .ok m) :
    pr.getMinSig comp n q t.toEnum t.signature = .ok m ∧
    (Prover.sigMatches m u.signature = true →
      (∀ s i, i < (m.1.span s).length →
        ((u.span s)[i]?).map Block.count = ((t.span s)[i]?).map Block.count) →
      ∃ u', runSimulator simBasic comp pr n q u = .ok (some (q', u')) ∧ u'.scan = t'.scan ∧
        ∀ s, ∃ front : List Color,
          half (t'.span s) = prepend front (half ((t.span s).drop (m.1.span s).length)) ∧
          half (u'.span s) = prepend front (half ((u.span s).drop (m.1.span s).length))) := by
  have hpy := (runSimulator_tape hp n q t ht q' t').mp hrun
  obtain ⟨ops, hops, _⟩ := (BB.runSimulator_tape hp n q t ht q' t').mp hpy
  have hrel : TapeRel t.toEnum t.toEnum := ⟨fun _ => rfl, fun _ => rfl, rfl, fun s => by
    rw [List.forall₂_same]
    exact fun b _ => ⟨rfl, rfl, Or.inl rfl⟩⟩
  have hcan : t.toEnum.tape.forget.Canonical := by rw [toEnum_forget]; exact ht
  have hops' : simOps comp n q t.toEnum.tape.forget = some (q', ops) := by
    rw [toEnum_forget]; exact hops
  have e1 := BB.runSimulator_enum hp n q t.toEnum q' ops hcan hops'
  have e2 := runSimulator_enum hp n q t.toEnum t.toEnum q' ops hrel hcan hops'
  obtain ⟨s1, s2⟩ := C37_rs_same t ht ops
  have hsame : pr.getMinSig comp n q t.toEnum t.signature = .ok m := by
    simp only [getMinSig, e2] at hm
    split at hm
    · simp only [Except.ok.injEq] at hm
      simp only [Prover.getMinSig, e1, Except.ok.injEq]
      rw [← hm]
      have a1 : (t.toEnum.steps ops).lOffset = (esteps t.toEnum ops).lOffset := (s1 false).symm
      have a2 : (t.toEnum.steps ops).rOffset = (esteps t.toEnum ops).rOffset := (s1 true).symm
      have a3 : (t.toEnum.steps ops).lEdge = (esteps t.toEnum ops).lEdge := (s2 false).symm
      have a4 : (t.toEnum.steps ops).rEdge = (esteps t.toEnum ops).rEdge := (s2 true).symm
      rw [a1, a2, a3, a4]
    · simp at hm
  refine ⟨hsame, fun hmatch hcount => ?_⟩
  obtain ⟨u', g1, g2⟩ := C37_min_sig comp pr hp n q q' t t' u m ht hu hpy hsame hmatch hcount
  exact ⟨u', (runSimulator_tape hp n q u hu q' u').mpr g1, g2⟩

/-! ### Cases -/

example : Holds (sighted ones20) twoByTwo ∧
    (tryRule twoByTwo (sighted ones20) 8 0 ones20).2
      = .ok (.got [((false, 0), .plus (-2)), ((true, 0), .plus 2)]) :=
  ⟨holds_of_empty rfl _, by decide +kernel⟩

example : Holds (sighted onesRight) twoByTwo ∧
    (tryRule twoByTwo (sighted onesRight) 8 0 onesRight).2 = .ok .infiniteRule :=
  ⟨holds_of_empty rfl _, by decide +kernel⟩

example : getMinSig twoByTwo (sighted ones20) 2 0 ones20.toEnum ones20.signature
    = .ok (⟨1, [(1, false)], [(2, false)]⟩, (false, false)) := by rfl

end Rs

end BB
