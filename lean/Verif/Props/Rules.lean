import Verif.Lemmas.MakeRule
import Verif.Lemmas.RulesRs

/-! # C16–C19, C40: rules -/

namespace BB

/-- **C16.**  Applying a rule in bulk: either it cannot be applied even once (or nothing in it
decreases) and the counts are untouched, or it is applied exactly as often as the decreasing
counts stay positive, and the counts are those of that many single rounds. -/
theorem C16_apply_rule (rule : Rule) (t : Index → Int) (hk : (rule.map Prod.fst).Nodup)
    (hmul : ∀ i m a, (i, Op.mult m a) ∈ rule → m ≠ 1) :
    (¬ (rule.Decreases ∧ rule.CanApply t) ∧ applyRule funTape rule t = .ok (none, t)) ∨
    (∃ n : Nat, 1 ≤ n ∧ applyRule funTape rule t = .ok (some (n : Int), rule.once^[n] t) ∧
      rule.Decreases ∧ (∀ k, k < n → rule.CanApply (rule.once^[k] t)) ∧
      ¬ rule.CanApply (rule.once^[n] t)) := by
  have hval : ∀ i d k, (i, Op.plus d) ∈ rule → (rule.once^[k] t) i = t i + d * k := by
    intro i d k hm
    rw [iterate_once, lookup_of_mem hk hm]
    exact iterate_plus _ _ _
  rcases countAppsFrom_spec t rule none with ⟨⟨i, d, h1, h2, h3⟩, h4⟩ | ⟨h1, r, h2, h3, h4⟩
  · left
    refine ⟨?_, ?_⟩
    · rintro ⟨_, hc⟩
      have := hc i d h1 h2
      omega
    · simp only [applyRule, countApps, h4, bind_ok]
  · cases r with
    | none =>
      left
      refine ⟨?_, ?_⟩
      · rintro ⟨⟨i, d, hm, hd⟩, _⟩
        have := (h3 rfl).2 i d hm
        omega
      · simp only [applyRule, countApps, h2, bind_ok]
    | some a =>
      right
      obtain ⟨n, p, m⟩ := a
      obtain ⟨k1, k2, _⟩ := h4 n p m rfl
      rcases k1 with k1 | ⟨d, hm, he⟩
      · simp at k1
      have hd := he.neg
      have hn1 : 1 ≤ n := by
        have e1 := h1 p d hm hd
        have e2 := he.high
        by_contra hc
        nlinarith
      obtain ⟨n, rfl⟩ : ∃ k : Nat, n = k := ⟨n.toNat, by omega⟩
      refine ⟨n, by omega, ?_, ⟨p, d, hm, hd⟩, ?_, ?_⟩
      · have := applyRuleFrom_spec n (by omega) p m rule hk hmul t (by
          intro d' hd'
          have e1 := lookup_of_mem hk hm
          have e2 := lookup_of_mem hk hd'
          rw [e1] at e2
          cases e2
          exact ⟨hd, he.res⟩)
        simp only [applyRule, countApps, h2, bind_ok, this]
      · intro k hk' i d' hm' hd'
        rw [hval i d' k hm']
        have := k2 i d' hm' hd'
        have : (k : Int) + 1 ≤ n := by omega
        nlinarith
      · intro hc
        have := hc p d hm hd
        rw [hval p d n hm] at this
        have := he.high
        nlinarith

/-- **C16 on tapes.**  On a real tape whose blocks include all positions of the rule, and as long
as no final count is negative, `apply_rule` gives the same counts and changes nothing else. -/
theorem C16_tape (rule : Rule) (t : Tape) (hk : (rule.map Prod.fst).Nodup)
    (hmul : ∀ i m a, (i, Op.mult m a) ∈ rule → m ≠ 1)
    (hr : ∀ i op, (i, op) ∈ rule → t.InRange i) (n : Nat) (hn : 1 ≤ n)
    (hd : rule.Decreases) (hcan : ∀ k, k < n → rule.CanApply (rule.once^[k] t.countsFn))
    (hstop : ¬ rule.CanApply (rule.once^[n] t.countsFn))
    (hpos : ∀ i op, (i, op) ∈ rule → 0 ≤ (rule.once^[n] t.countsFn) i) :
    ∃ t', applyRule Tape.indexTape rule t = .ok (some (n : Int), t') ∧ SameShape t t' ∧
      t'.countsFn = rule.once^[n] t.countsFn := by
  have hfun : applyRule funTape rule t.countsFn = .ok (some (n : Int), rule.once^[n] t.countsFn) := by
    rcases C16_apply_rule rule t.countsFn hk hmul with ⟨h1, _⟩ | ⟨m, hm, h1, _, h2, h3⟩
    · exact absurd ⟨hd, hcan 0 (by omega)⟩ h1
    · rcases Nat.lt_trichotomy m n with h | h | h
      · exact absurd (hcan m h) h3
      · subst h; exact h1
      · exact absurd (h2 n h) hstop
  unfold applyRule countApps at hfun ⊢
  cases hc : countAppsFrom funTape rule t.countsFn none with
  | error e => rw [hc] at hfun; simp [bind_error] at hfun
  | ok res =>
    obtain ⟨r, f⟩ := res
    rw [hc, bind_ok] at hfun
    rw [countAppsFrom_tape t rule hr none r f hc, bind_ok]
    cases r with
    | none => simp at hfun
    | some a =>
      obtain ⟨m, p, q⟩ := a
      simp only [] at hfun ⊢
      have hf : f = t.countsFn := by
        rcases countAppsFrom_spec t.countsFn rule none with ⟨_, h4⟩ | ⟨_, r, h2, _⟩
        · rw [hc] at h4; cases h4
        · rw [hc] at h2; cases h2; rfl
      subst hf
      cases ha : applyRuleFrom funTape m p q rule t.countsFn with
      | error e => rw [ha] at hfun; simp [bind_error] at hfun
      | ok g =>
        rw [ha, bind_ok] at hfun
        simp only [Except.ok.injEq, Prod.mk.injEq, Option.some.injEq] at hfun
        obtain ⟨rfl, rfl⟩ := hfun
        obtain ⟨t', k1, k2, k3⟩ := applyRuleFrom_tape _ p q rule t hr hk _ ha hpos
        exact ⟨t', by rw [k1, bind_ok], k2, k3⟩

/-- A rule with two decreasing and one growing count. -/
def sampleRule : Rule :=
  [((false, 0), .plus (-2)), ((false, 1), .mult 2 1), ((true, 0), .plus (-3))]

example : (sampleRule.map Prod.fst).Nodup ∧
    (∀ i m a, (i, Op.mult m a) ∈ sampleRule → m ≠ 1) := by
  refine ⟨by decide, ?_⟩
  intro i m a h
  simp only [sampleRule, List.mem_cons, Prod.mk.injEq, reduceCtorEq, and_false, Op.mult.injEq,
    List.not_mem_nil, or_false, false_or] at h
  omega

example : applyRule Tape.indexTape sampleRule ⟨[⟨1, 9⟩, ⟨2, 1⟩], 0, [⟨1, 11⟩]⟩
    = .ok (some 3, ⟨[⟨1, 3⟩, ⟨2, 15⟩], 0, [⟨1, 2⟩]⟩) := by decide

/-! ## C40: counts stay positive -/

/-- **C40, violated.**  An affine operation with a negative constant, as `calculate_diff` infers
it from the counts 6, 7, 9, 13, drives a count below 1 although the rule is considered
applicable. -/
theorem C40_violation :
    calculateDiff 6 7 9 13 = .ok (some (.mult 2 (-5))) ∧
    ∃ t : Index → Int, (∀ i, 1 ≤ t i) ∧
      ∃ n t', applyRule funTape [((false, 0), .plus (-1)), ((true, 0), .mult 2 (-5))] t
          = .ok (some n, t') ∧ t' (true, 0) < 0 := by
  refine ⟨by decide, fun i => if i.1 then 3 else 5, ?_, ?_⟩
  · intro i; simp only []; split <;> decide
  · exact ⟨_, _, rfl, by decide⟩

/-- **C40, what holds.**  With non-negative constants and positive multipliers, counts stay
positive. -/
theorem C40_positive_partial (rule : Rule) (t t' : Index → Int) (n : Int)
    (hk : (rule.map Prod.fst).Nodup)
    (hmul : ∀ i m a, (i, Op.mult m a) ∈ rule → 2 ≤ m ∧ 0 ≤ a) (ht : ∀ i, 1 ≤ t i)
    (h : applyRule funTape rule t = .ok (some n, t')) : ∀ i, 1 ≤ t' i := by
  rcases C16_apply_rule rule t hk (fun i m a hm => by have := hmul i m a hm; omega) with
    ⟨_, h1⟩ | ⟨k, hk1, h1, _, h2, _⟩
  · rw [h1] at h; simp at h
  · rw [h1] at h
    simp only [Except.ok.injEq, Prod.mk.injEq, Option.some.injEq] at h
    obtain ⟨_, rfl⟩ := h
    intro i
    rw [iterate_once]
    cases hl : rule.lookup i with
    | none => exact ht i
    | some op =>
      have hmem : (i, op) ∈ rule := by
        rw [List.lookup_eq_some_iff] at hl
        obtain ⟨l1, l2, rfl, _⟩ := hl
        simp
      cases op with
      | plus d =>
        simp only [iterate_plus]
        have hti := ht i
        by_cases hd : 0 ≤ d
        · have : 0 ≤ d * (k : Int) := mul_nonneg hd (by omega)
          omega
        · have h3 := h2 (k - 1) (by omega) i d hmem (by omega)
          rw [iterate_once, hl] at h3
          simp only [iterate_plus] at h3
          have : ((k - 1 : Nat) : Int) = (k : Int) - 1 := by omega
          rw [this] at h3
          nlinarith
      | mult m a =>
        obtain ⟨hm, ha⟩ := hmul i m a hmem
        have hall : ∀ j : Nat, 1 ≤ (Op.mult m a).once^[j] (t i) := by
          intro j
          induction j with
          | zero => exact ht i
          | succ j ih =>
            rw [Function.iterate_succ_apply']
            simp only [Op.once]
            nlinarith
        exact hall k

example : ∃ n t', applyRule funTape [((false, 0), .plus (-1)), ((true, 0), .mult 2 5)]
    (fun i => if i.1 then 3 else 5) = .ok (some n, t') ∧ t' (true, 0) = 123 :=
  ⟨_, _, rfl, by decide⟩

/-! ## C17: Rust against Python -/

/-- **C17, violated.**  With two decreasing counts, the Rust version adds where it should
subtract: from counts 5 and 7, both decreasing by 1, Python leaves 1 and 3, Rust 1 and 11. -/
theorem C17_violation :
    ∃ (rule : Rule) (t : Index → Nat) (n : Nat) (p r : Index → Int) (r' : Index → Nat),
      applyRule funTape rule (fun i => (t i : Int)) = .ok (some (n : Int), p) ∧
      Rs.applyRule rule t = .ok (some (n, r')) ∧ r = (fun i => (r' i : Int)) ∧
      p (true, 0) = 3 ∧ r (true, 0) = 11 := by
  refine ⟨[((false, 0), .plus (-1)), ((true, 0), .plus (-1))], fun i => if i.1 then 7 else 5, 4,
    _, _, _, rfl, rfl, rfl, by decide, by decide⟩

/-- **C17, what holds.**  For additive rules in which only one count decreases, the two versions
agree. -/
theorem C17_rs_apply_partial (rule : Rule) (t : Index → Nat) (hk : (rule.map Prod.fst).Nodup)
    (hplus : ∀ e ∈ rule, ∃ d, e.2 = Op.plus d)
    (hone : ∀ i d j e, (i, Op.plus d) ∈ rule → d < 0 → (j, Op.plus e) ∈ rule → e < 0 → i = j) :
    (Rs.applyRule rule t = .ok none ∧
      applyRule funTape rule (fun i => (t i : Int)) = .ok (none, fun i => (t i : Int))) ∨
    ∃ n t', Rs.applyRule rule t = .ok (some (n, t')) ∧
      applyRule funTape rule (fun i => (t i : Int)) = .ok (some (n : Int), fun i => (t' i : Int)) := by
  obtain ⟨r, h1, h2⟩ := rs_countAppsFrom t rule hplus none
  have h2' : countApps funTape rule (fun i => (t i : Int)) = .ok (castApps r, fun i => (t i : Int)) := h2
  cases r with
  | none =>
    left
    simp only [Rs.applyRule, applyRule, h1, h2', bind_ok, castApps]
    exact ⟨trivial, trivial⟩
  | some a =>
    right
    obtain ⟨n, p, m⟩ := a
    have hspec := countAppsFrom_spec (fun i => (t i : Int)) rule none
    rw [show castApps none = none from rfl] at h2
    rcases hspec with ⟨_, h4⟩ | ⟨_, r, h3, _, h4⟩
    · rw [h2] at h4; simp [castApps] at h4
    · rw [h2] at h3
      simp only [castApps, Except.ok.injEq, Prod.mk.injEq, and_true] at h3
      obtain ⟨k1, _, _⟩ := h4 n p m h3.symm
      rcases k1 with k1 | ⟨d, hm, he⟩
      · simp at k1
      obtain ⟨t', e1, e2⟩ := rs_applyRuleFrom n p m rule hplus
        (fun i d' h h' => hone i d' p d h h' hm he.neg)
        (fun d' h => by
          have e1 := lookup_of_mem hk hm
          have e2 := lookup_of_mem hk h
          rw [e1] at e2; cases e2; exact he.neg) t
      refine ⟨n, t', ?_, ?_⟩
      · simp only [Rs.applyRule, h1, bind_ok, e1]
      · simp only [applyRule, h2', bind_ok, castApps, e2]

example : Rs.applyRule [((false, 0), .plus (-2)), ((true, 0), .plus 3)]
    (fun i => if i.1 then 1 else 10) ≠ .ok none := by
  intro h; cases h

/-! ## C18: inference from four counts -/

/-- **C18, violated.**  From 2, 3, 5, 14 the inferred operation is `2·x - 1`, which takes 5 to 9. -/
theorem C18_violation :
    calculateDiff 2 3 5 14 = .ok (some (.mult 2 (-1))) ∧ (Op.mult 2 (-1)).once 5 ≠ 14 := by
  decide

/-- **C18, what holds.**  No operation means four equal counts; additive operations reproduce the
counts; an affine operation always reproduces the first round, and reproduces the other two
exactly when the quotients of consecutive counts agree (the check the code breaks out of);
its multiplier is at least 2 when the counts are positive. -/
theorem C18_calculate_diff_partial (a b c d : Int) :
    (calculateDiff a b c d = .ok none ↔ a = b ∧ b = c ∧ c = d) ∧
    (∀ e, calculateDiff a b c d = .ok (some (.plus e)) →
      e ≠ 0 ∧ (Op.plus e).once a = b ∧ (Op.plus e).once b = c ∧ (Op.plus e).once c = d) ∧
    (∀ m k, calculateDiff a b c d = .ok (some (.mult m k)) →
      (Op.mult m k).once a = b ∧
      (((Op.mult m k).once b = c ∧ (Op.mult m k).once c = d) ↔
        (c.fdiv b = b.fdiv a ∧ d.fdiv c = b.fdiv a)) ∧
      (1 ≤ a → 2 ≤ m)) := by
  rcases calculateDiff_cases a b c d with ⟨h1, h2, h3, h⟩ | ⟨hne, hrest⟩
  · rw [h]; simp [h1, h2, h3]
  rcases hrest with ⟨h1, h2, h⟩ | ⟨hnp, hrest⟩
  · rw [h]
    refine ⟨⟨by simp, fun hc => absurd hc hne⟩, ?_, by simp⟩
    intro e he
    simp only [Except.ok.injEq, Option.some.injEq, Op.plus.injEq] at he
    subst he
    simp only [Op.once]
    refine ⟨?_, by omega, by omega, by omega⟩
    intro h0
    apply hne
    omega
  rcases hrest with ⟨_, h⟩ | ⟨ha, hb, hc, hrest⟩
  · rw [h]; simp [hne]
  rcases hrest with ⟨h, _⟩ | ⟨ha0, hb0, hc0, hrest⟩
  · rw [h]; simp [hne]
  have fa := fdiv_fmod b a
  have fb := fdiv_fmod c b
  have fc := fdiv_fmod d c
  rcases hrest with ⟨q1, q2, m1, m2, h⟩ | h | ⟨q1, h⟩
  · rw [h]
    refine ⟨⟨by simp, fun hc => absurd hc hne⟩, by simp, ?_⟩
    intro m k he
    simp only [Except.ok.injEq, Option.some.injEq, Op.mult.injEq] at he
    obtain ⟨rfl, rfl⟩ := he
    simp only [Op.once]
    have g1 : b * b.fdiv a + b.fmod a = c := by rw [← q1, ← m1]; exact fb.symm
    have g2 : c * b.fdiv a + b.fmod a = d := by rw [← q2, ← m2]; exact fc.symm
    refine ⟨fa.symm, ⟨fun _ => ⟨q1, q2⟩, fun _ => ⟨g1, g2⟩⟩, ?_⟩
    intro ha1
    have l1 : 0 ≤ b.fmod a := Int.fmod_nonneg_of_pos _ (by omega)
    have l2 : b.fmod a < a := Int.fmod_lt_of_pos _ (by omega)
    by_contra hlt
    have h3 : b.fdiv a ≤ 1 := by omega
    rcases (show b.fdiv a ≤ 0 ∨ b.fdiv a = 1 by omega) with h4 | h4
    · nlinarith
    · rw [h4] at fa g1 g2
      apply hnp
      omega
  · rw [h]; simp [hne]
  · refine ⟨⟨?_, fun hc => absurd hc hne⟩, ?_, ?_⟩
    · intro h'
      rw [h] at h'
      have := (calculateDiffTail_ok h').1
      simp at this
    · intro e h'
      rw [h] at h'
      have := (calculateDiffTail_ok h').1
      simp at this
    · intro m k h'
      rw [h] at h'
      obtain ⟨e1, e2, e3⟩ := calculateDiffTail_ok h'
      simp only [Option.some.injEq, Op.mult.injEq] at e1
      obtain ⟨rfl, rfl⟩ := e1
      simp only [Op.once]
      refine ⟨by ring, ⟨?_, ?_⟩, ?_⟩
      · rintro ⟨_, g2⟩
        refine ⟨q1, ?_⟩
        have : c * (d.fdiv c - b.fdiv a) = 0 := by linear_combination -e3 - g2
        rcases mul_eq_zero.mp this with h0 | h0
        · exact absurd h0 hc0
        · omega
      · rintro ⟨_, g2⟩
        rw [q1] at e2
        rw [g2] at e3
        exact ⟨by linear_combination -e2, by linear_combination -e3⟩
      · intro ha1
        have l2 : b.fmod a < a := Int.fmod_lt_of_pos _ (by omega)
        by_contra hlt
        have h4 : b.fdiv a ≤ 0 := by omega
        nlinarith

example : calculateDiff 3 10 31 94 = .ok (some (.mult 3 1)) ∧
    calculateDiff 6 7 9 13 = .ok (some (.mult 2 (-5))) ∧
    calculateDiff 9 7 5 3 = .ok (some (.plus (-2))) := by decide

/-- **C18 for Rust.**  The Rust inference reproduces the counts it is given. -/
theorem C18_rs (a b c d : Int) :
    (Rs.calculateDiff a b c d = none ↔ a = b ∧ b = c ∧ c = d) ∧
    ∀ op, Rs.calculateDiff a b c d = some (some op) →
      op.once a = b ∧ op.once b = c ∧ op.once c = d := by
  unfold Rs.calculateDiff
  by_cases h1 : (a == b && b == c && c == d) = true
  · simp only [h1, if_true, true_iff]
    simp only [Bool.and_eq_true, beq_iff_eq] at h1
    exact ⟨⟨h1.1.1, h1.1.2, h1.2⟩, by simp⟩
  simp only [h1, Bool.false_eq_true, if_false]
  simp only [Bool.and_eq_true, beq_iff_eq, and_assoc] at h1
  by_cases h2 : (b - a == c - b && c - b == d - c) = true
  · simp only [h2, if_true]
    refine ⟨by simp [h1], ?_⟩
    intro op hop
    simp only [Option.some.injEq] at hop
    subst hop
    simp only [Bool.and_eq_true, beq_iff_eq] at h2
    simp only [Op.once]
    omega
  simp only [h2, Bool.false_eq_true, if_false]
  by_cases h3 : (a == 0 || b == 0) = true
  · simp [h3, h1]
  simp only [h3, Bool.false_eq_true, if_false]
  by_cases h4 : ((b.tdiv a, b.tmod a) == (c.tdiv b, c.tmod b)
      && (c.tdiv b, c.tmod b) == (d.tdiv c, d.tmod c)) = true
  · simp only [h4, if_true]
    refine ⟨by simp [h1], ?_⟩
    intro op hop
    simp only [Option.some.injEq] at hop
    subst hop
    simp only [Bool.and_eq_true, beq_iff_eq, Prod.mk.injEq] at h4
    obtain ⟨⟨q1, m1⟩, q2, m2⟩ := h4
    have fa := Int.mul_tdiv_add_tmod b a
    have fb := Int.mul_tdiv_add_tmod c b
    have fc := Int.mul_tdiv_add_tmod d c
    simp only [Op.once]
    refine ⟨fa, ?_, ?_⟩
    · rw [q1, m1]; exact fb
    · rw [q1, m1, q2, m2]; exact fc
  · simp only [h4, Bool.false_eq_true, if_false]
    simp [h1]

/-- **C18 for Rust, violated at the call site.**  Counts are cut to 32 bits first: a count growing
by 2³² each round is taken for unchanged. -/
theorem C18_rs_truncation_violation :
    Rs.calculateDiff (Rs.toDiff 1) (Rs.toDiff (2 ^ 32 + 1)) (Rs.toDiff (2 * 2 ^ 32 + 1))
      (Rs.toDiff (3 * 2 ^ 32 + 1)) = none := by decide

/-! ## C19: rules from rounds of counts -/

theorem makeRule_sides {k1 k2 k3 k4 : Counts} {left right : Rule}
    (hl : SideSpec false 0 k1.1 k2.1 k3.1 k4.1 left)
    (hr : SideSpec true 0 k1.2 k2.2 k3.2 k4.2 right) :
    (∀ i op, (i, op) ∈ left ++ right ↔ ∃ a b c d, Column k1 k2 k3 k4 i a b c d ∧
      calculateDiff a b c d = .ok (some op)) ∧
    (∀ i a b c d, Column k1 k2 k3 k4 i a b c d → ∃ o, calculateDiff a b c d = .ok o) ∧
    ((left ++ right).map Prod.fst).Nodup := by
  refine ⟨?_, ?_, ?_⟩
  · rintro ⟨side, i⟩ op
    rw [List.mem_append, hl.mem, hr.mem]
    constructor
    · rintro (⟨j, a, b, c, d, hj, h1, h2⟩ | ⟨j, a, b, c, d, hj, h1, h2⟩)
      · simp only [Prod.mk.injEq, Nat.zero_add] at hj
        obtain ⟨rfl, rfl⟩ := hj
        exact ⟨a, b, c, d, h1, h2⟩
      · simp only [Prod.mk.injEq, Nat.zero_add] at hj
        obtain ⟨rfl, rfl⟩ := hj
        exact ⟨a, b, c, d, h1, h2⟩
    · rintro ⟨a, b, c, d, h1, h2⟩
      cases side
      · exact .inl ⟨i, a, b, c, d, by simp, h1, h2⟩
      · exact .inr ⟨i, a, b, c, d, by simp, h1, h2⟩
  · rintro ⟨side, i⟩ a b c d h
    cases side
    · exact hl.total i a b c d h
    · exact hr.total i a b c d h
  · rw [List.map_append, List.nodup_append]
    refine ⟨hl.nodup, hr.nodup, ?_⟩
    rintro x hx y hy rfl
    obtain ⟨⟨p, op⟩, h1, rfl⟩ := List.mem_map.mp hx
    obtain ⟨⟨q, op'⟩, h2, h3⟩ := List.mem_map.mp hy
    obtain ⟨j, _, _, _, _, e1, _⟩ := (hl.mem p op).mp h1
    obtain ⟨j', _, _, _, _, e2, _⟩ := (hr.mem q op').mp h2
    simp only at h3
    rw [e1, e2] at h3
    simp at h3

/-- **C19 (rule).**  A returned rule has an entry exactly for the positions whose four counts are
not all equal, with the inferred operation, once each; and some count in it decreases. -/
theorem C19_rule {k1 k2 k3 k4 : Counts} {rule : Rule}
    (h : makeRule k1 k2 k3 k4 = .ok (some rule)) :
    (∀ i, i ∈ rule.map Prod.fst ↔
      ∃ a b c d, Column k1 k2 k3 k4 i a b c d ∧ ¬ (a = b ∧ b = c ∧ c = d)) ∧
    (∀ i op, (i, op) ∈ rule → ∃ a b c d, Column k1 k2 k3 k4 i a b c d ∧ op.once a = b) ∧
    (rule.map Prod.fst).Nodup ∧ rule.Decreases := by
  unfold makeRule at h
  cases hl : makeRuleSide false 0 k1.1 k2.1 k3.1 k4.1 with
  | error e => rw [hl] at h; simp [bind_error] at h
  | ok l =>
    rw [hl, bind_ok] at h
    cases l with
    | none => simp at h
    | some left =>
      simp only [] at h
      cases hr : makeRuleSide true 0 k1.2 k2.2 k3.2 k4.2 with
      | error e => rw [hr] at h; simp [bind_error] at h
      | ok r =>
        rw [hr, bind_ok] at h
        cases r with
        | none => simp at h
        | some right =>
          simp only [] at h
          by_cases hn : Rule.noneNegative (left ++ right) = true
          · simp [hn] at h
          · simp only [hn, Bool.false_eq_true, if_false, Except.ok.injEq, Option.some.injEq] at h
            subst h
            obtain ⟨h1, h2, h3⟩ := makeRule_sides ((makeRuleSide_spec _ _ _ _ _ _).1 _ hl)
              ((makeRuleSide_spec _ _ _ _ _ _).1 _ hr)
            refine ⟨?_, ?_, h3, ?_⟩
            · intro i
              constructor
              · intro hm
                obtain ⟨⟨p, op⟩, hm', rfl⟩ := List.mem_map.mp hm
                obtain ⟨a, b, c, d, hc, hd⟩ := (h1 p op).mp hm'
                refine ⟨a, b, c, d, hc, fun heq => ?_⟩
                rw [← (C18_calculate_diff_partial a b c d).1] at heq
                rw [heq] at hd; simp at hd
              · rintro ⟨a, b, c, d, hc, hne⟩
                obtain ⟨o, ho⟩ := h2 i a b c d hc
                cases o with
                | none => exact absurd ((C18_calculate_diff_partial a b c d).1.mp ho) hne
                | some op => exact List.mem_map.mpr ⟨(i, op), (h1 i op).mpr ⟨a, b, c, d, hc, ho⟩, rfl⟩
            · intro i op hm
              obtain ⟨a, b, c, d, hc, hd⟩ := (h1 i op).mp hm
              refine ⟨a, b, c, d, hc, ?_⟩
              cases op with
              | plus e => exact ((C18_calculate_diff_partial a b c d).2.1 e hd).2.1
              | mult m k => exact ((C18_calculate_diff_partial a b c d).2.2 m k hd).1
            · by_contra hc
              exact hn ((noneNegative_iff _).mpr hc)

/-- **C19 (infinite).**  `InfiniteRule` is raised iff an operation (or "unchanged") was found at
every position and none of them is an additive decrease. -/
theorem C19_infinite (k1 k2 k3 k4 : Counts) :
    makeRule k1 k2 k3 k4 = .error .infiniteRule ↔
      (∀ i a b c d, Column k1 k2 k3 k4 i a b c d → ∃ o, calculateDiff a b c d = .ok o) ∧
      (∀ i a b c d, Column k1 k2 k3 k4 i a b c d →
        ¬ (b < a ∧ c - b = b - a ∧ d - c = b - a)) := by
  have hdec : ∀ {a b c d e : Int}, calculateDiff a b c d = .ok (some (.plus e)) → e < 0 →
      b < a ∧ c - b = b - a ∧ d - c = b - a := by
    intro a b c d e h he
    have := (C18_calculate_diff_partial a b c d).2.1 e h
    simp only [Op.once] at this
    omega
  have hdec' : ∀ {a b c d : Int}, b < a ∧ c - b = b - a ∧ d - c = b - a →
      calculateDiff a b c d = .ok (some (.plus (b - a))) := by
    intro a b c d ⟨h1, h2, h3⟩
    rcases calculateDiff_cases a b c d with ⟨e, _, _, _⟩ | ⟨_, ⟨_, _, h⟩ | ⟨hn, _⟩⟩
    · omega
    · exact h
    · exact absurd ⟨h2, h3⟩ hn
  obtain ⟨l1, l2, l3⟩ := makeRuleSide_spec false 0 k1.1 k2.1 k3.1 k4.1
  obtain ⟨r1, r2, r3⟩ := makeRuleSide_spec true 0 k1.2 k2.2 k3.2 k4.2
  constructor
  · intro h
    unfold makeRule at h
    cases hl : makeRuleSide false 0 k1.1 k2.1 k3.1 k4.1 with
    | error e =>
      rw [hl] at h; simp only [bind_error, Except.error.injEq] at h
      rw [h] at hl; exact absurd hl l3
    | ok l =>
      rw [hl, bind_ok] at h
      cases l with
      | none => simp at h
      | some left =>
        simp only [] at h
        cases hr : makeRuleSide true 0 k1.2 k2.2 k3.2 k4.2 with
        | error e =>
          rw [hr] at h; simp only [bind_error, Except.error.injEq] at h
          rw [h] at hr; exact absurd hr r3
        | ok r =>
          rw [hr, bind_ok] at h
          cases r with
          | none => simp at h
          | some right =>
            simp only [] at h
            obtain ⟨h1, h2, h3⟩ := makeRule_sides (l1 _ hl) (r1 _ hr)
            by_cases hn : Rule.noneNegative (left ++ right) = true
            · refine ⟨h2, ?_⟩
              intro i a b c d hc hd
              exact (noneNegative_iff _).mp hn
                ⟨i, b - a, (h1 _ _).mpr ⟨a, b, c, d, hc, hdec' hd⟩, by omega⟩
            · simp [hn] at h
  · rintro ⟨htot, hnodec⟩
    obtain ⟨left, hl⟩ := l2 (fun j a b c d hc => htot (false, j) a b c d hc)
    obtain ⟨right, hr⟩ := r2 (fun j a b c d hc => htot (true, j) a b c d hc)
    obtain ⟨h1, h2, h3⟩ := makeRule_sides (l1 _ hl) (r1 _ hr)
    have hn : Rule.noneNegative (left ++ right) = true := by
      rw [noneNegative_iff]
      rintro ⟨i, e, hm, he⟩
      obtain ⟨a, b, c, d, hc, hd⟩ := (h1 _ _).mp hm
      exact hnodec i a b c d hc (hdec hd he)
    unfold makeRule
    simp only [hl, bind_ok, hr, hn, if_true]

example : makeRule ([5, 1], [4]) ([7, 1], [3]) ([9, 1], [2]) ([11, 1], [1])
    = .ok (some [((false, 0), .plus 2), ((true, 0), .plus (-1))]) := by decide

example : makeRule ([5, 1], [4]) ([7, 1], [4]) ([9, 1], [4]) ([11, 1], [4])
    = .error .infiniteRule := by decide

end BB
