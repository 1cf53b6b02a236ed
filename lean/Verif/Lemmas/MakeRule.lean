import Verif.Lemmas.Rules

/-! # Guessing rules from counts -/

namespace BB

theorem fdiv_fmod (a b : Int) : a = b * a.fdiv b + a.fmod b := (Int.mul_fdiv_add_fmod a b).symm

/-- Case analysis of `calculate_diff`. -/
theorem calculateDiff_cases (a b c d : Int) :
    (a = b ∧ b = c ∧ c = d ∧ calculateDiff a b c d = .ok none) ∨
    (¬ (a = b ∧ b = c ∧ c = d) ∧
      ((c - b = b - a ∧ d - c = b - a ∧ calculateDiff a b c d = .ok (some (.plus (b - a)))) ∨
       (¬ (c - b = b - a ∧ d - c = b - a) ∧
         ((¬ (a < b ∧ b < c ∧ c < d) ∧ calculateDiff a b c d = .error .unknownRule) ∨
          (a < b ∧ b < c ∧ c < d ∧
            ((calculateDiff a b c d = .error .zeroDivision ∧ (a = 0 ∨ b = 0 ∨ c = 0)) ∨
             (a ≠ 0 ∧ b ≠ 0 ∧ c ≠ 0 ∧
              ((c.fdiv b = b.fdiv a ∧ d.fdiv c = b.fdiv a ∧ c.fmod b = b.fmod a ∧
                  d.fmod c = b.fmod a ∧
                  calculateDiff a b c d = .ok (some (.mult (b.fdiv a) (b.fmod a)))) ∨
               calculateDiff a b c d = .error .unknownRule ∨
               (c.fdiv b = b.fdiv a ∧ calculateDiff a b c d =
                calculateDiffTail a b c d (b.fdiv a) (c.fdiv b) (d.fdiv c)))))))))) := by
  unfold calculateDiff
  by_cases h1 : b = a ∧ c = a ∧ d = a
  · left
    obtain ⟨rfl, rfl, rfl⟩ := h1
    simp
  · right
    refine ⟨by intro h; apply h1; omega, ?_⟩
    have e1 : (b == a && c == a && d == a) = false := by
      simp only [Bool.and_eq_false_iff, beq_eq_false_iff_ne]
      by_contra hc; push Not at hc; apply h1; exact ⟨hc.1.1, hc.1.2, hc.2⟩
    simp only [e1, Bool.false_eq_true, if_false]
    by_cases h2 : c - b = b - a ∧ d - c = b - a
    · left
      refine ⟨h2.1, h2.2, ?_⟩
      have e2 : (c - b == b - a && d - c == b - a) = true := by simp [h2.1, h2.2]
      simp only [e2, if_true]
    · right
      refine ⟨h2, ?_⟩
      have e2 : (c - b == b - a && d - c == b - a) = false := by
        simp only [Bool.and_eq_false_iff, beq_eq_false_iff_ne]
        by_contra hc; push Not at hc; exact h2 hc
      simp only [e2, Bool.false_eq_true, if_false]
      by_cases h3 : a < b ∧ b < c ∧ c < d
      · right
        refine ⟨h3.1, h3.2.1, h3.2.2, ?_⟩
        have e3 : (!(decide (a < b) && decide (b < c) && decide (c < d))) = false := by
          simp [h3.1, h3.2.1, h3.2.2]
        simp only [e3, Bool.false_eq_true, if_false]
        by_cases ha : a = 0
        · left; subst ha
          refine ⟨?_, .inl rfl⟩
          simp only [pyDivmod, if_true, bind_error]
        by_cases hb : b = 0
        · left; subst hb
          refine ⟨?_, .inr (.inl rfl)⟩
          simp only [pyDivmod, ha, if_true, if_false, bind_ok, bind_error]
        by_cases hc : c = 0
        · left; subst hc
          refine ⟨?_, .inr (.inr rfl)⟩
          simp only [pyDivmod, ha, hb, if_true, if_false, bind_ok, bind_error]
        right
        refine ⟨ha, hb, hc, ?_⟩
        simp only [pyDivmod_ok ha, pyDivmod_ok hb, pyDivmod_ok hc, bind_ok]
        by_cases d1 : c.fdiv b = b.fdiv a
        · have f1 : (c.fdiv b != b.fdiv a) = false := by simpa using d1
          simp only [f1, Bool.false_eq_true, if_false]
          by_cases m1 : c.fmod b = b.fmod a
          · have f2 : (c.fmod b != b.fmod a) = false := by simpa using m1
            simp only [f2, Bool.false_eq_true, if_false]
            by_cases d2 : d.fdiv c = b.fdiv a
            · have f3 : (d.fdiv c != b.fdiv a) = false := by simpa using d2
              simp only [f3, Bool.false_eq_true, if_false]
              by_cases m2 : d.fmod c = b.fmod a
              · have f4 : (d.fmod c != b.fmod a) = false := by simpa using m2
                simp only [f4, Bool.false_eq_true, if_false]
                exact .inl ⟨d1, d2, m1, m2, trivial⟩
              · have f4 : (d.fmod c != b.fmod a) = true := by simpa using m2
                simp only [f4, if_true]
                exact .inr (.inr ⟨d1, trivial⟩)
            · have f3 : (d.fdiv c != b.fdiv a) = true := by simpa using d2
              simp only [f3, if_true]
              exact .inr (.inl trivial)
          · have f2 : (c.fmod b != b.fmod a) = true := by simpa using m1
            simp only [f2, if_true]
            exact .inr (.inr ⟨d1, trivial⟩)
        · have f1 : (c.fdiv b != b.fdiv a) = true := by simpa using d1
          simp only [f1, if_true]
          exact .inr (.inl trivial)
      · left
        refine ⟨h3, ?_⟩
        have e3 : (!(decide (a < b) && decide (b < c) && decide (c < d))) = true := by
          simp only [Bool.not_eq_true', Bool.and_eq_false_iff, decide_eq_false_iff_not]
          by_contra hc; push Not at hc; exact h3 ⟨hc.1.1, hc.1.2, hc.2⟩
        simp only [e3, if_true]

theorem calculateDiffTail_ok {a b c d v v2 v3 : Int} {r : Option Op}
    (h : calculateDiffTail a b c d v v2 v3 = .ok r) :
    r = some (.mult (1 + v) (b - a * (1 + v))) ∧ c - b * (1 + v2) = b - a * (1 + v) ∧
      d - c * (1 + v3) = b - a * (1 + v) := by
  unfold calculateDiffTail at h
  simp only [Bool.and_eq_true, beq_iff_eq] at h
  split at h
  · rename_i hc
    injection h with h
    exact ⟨h.symm, hc.1, hc.2⟩
  · split at h <;> simp at h

theorem calculateDiffTail_ne_infinite (a b c d v v2 v3 : Int) :
    calculateDiffTail a b c d v v2 v3 ≠ .error .infiniteRule := by
  unfold calculateDiffTail
  simp only []
  split
  · simp
  · cases List.find? _ possibleRulePairs <;> simp

theorem calculateDiff_ne_infinite (a b c d : Int) :
    calculateDiff a b c d ≠ .error .infiniteRule := by
  rcases calculateDiff_cases a b c d with ⟨_, _, _, h⟩ | ⟨_, ⟨_, _, h⟩ | ⟨_, ⟨_, h⟩ | ⟨_, _, _, ⟨h, _⟩ |
    ⟨_, _, _, ⟨_, _, _, _, h⟩ | h | ⟨_, h⟩⟩⟩⟩⟩ <;> rw [h]
  all_goals try simp
  exact calculateDiffTail_ne_infinite _ _ _ _ _ _ _

/-- Columns of one side. -/
def Col (as bs cs ds : List Int) (j : Nat) (a b c d : Int) : Prop :=
  as[j]? = some a ∧ bs[j]? = some b ∧ cs[j]? = some c ∧ ds[j]? = some d

theorem col_zero {a b c d : Int} {as bs cs ds : List Int} {a' b' c' d' : Int} :
    Col (a :: as) (b :: bs) (c :: cs) (d :: ds) 0 a' b' c' d' ↔
      a = a' ∧ b = b' ∧ c = c' ∧ d = d' := by
  simp [Col]

theorem col_succ {a b c d : Int} {as bs cs ds : List Int} {j : Nat} {a' b' c' d' : Int} :
    Col (a :: as) (b :: bs) (c :: cs) (d :: ds) (j + 1) a' b' c' d' ↔
      Col as bs cs ds j a' b' c' d' := by
  simp [Col]

structure SideSpec (side : Bool) (i : Nat) (as bs cs ds : List Int) (r : Rule) : Prop where
  total : ∀ j a b c d, Col as bs cs ds j a b c d → ∃ o, calculateDiff a b c d = .ok o
  mem : ∀ p op, (p, op) ∈ r ↔ ∃ j a b c d, p = (side, i + j) ∧ Col as bs cs ds j a b c d ∧
    calculateDiff a b c d = .ok (some op)
  nodup : (r.map Prod.fst).Nodup

theorem sideSpec_nil {side : Bool} {i : Nat} {as bs cs ds : List Int}
    (h : ∀ j a b c d, ¬ Col as bs cs ds j a b c d) : SideSpec side i as bs cs ds [] := by
  refine ⟨fun j a b c d hc => absurd hc (h _ _ _ _ _), fun p op => ?_, List.nodup_nil⟩
  constructor
  · intro hm; simp at hm
  · rintro ⟨j, a, b, c, d, _, hc, _⟩; exact absurd hc (h _ _ _ _ _)

theorem makeRuleSide_spec (side : Bool) (i : Nat) (as bs cs ds : List Int) :
    (∀ r, makeRuleSide side i as bs cs ds = .ok (some r) → SideSpec side i as bs cs ds r) ∧
    ((∀ j a b c d, Col as bs cs ds j a b c d → ∃ o, calculateDiff a b c d = .ok o) →
      ∃ r, makeRuleSide side i as bs cs ds = .ok (some r)) ∧
    makeRuleSide side i as bs cs ds ≠ .error .infiniteRule := by
  fun_induction makeRuleSide side i as bs cs ds with
  | case1 i a as b bs c cs d ds h =>
    refine ⟨by simp, fun hall => ?_, by simp⟩
    obtain ⟨o, ho⟩ := hall 0 a b c d (col_zero.mpr ⟨rfl, rfl, rfl, rfl⟩)
    rw [ho] at h; simp at h
  | case2 i a as b bs c cs d ds e he h =>
    refine ⟨by simp, fun hall => ?_, ?_⟩
    · obtain ⟨o, ho⟩ := hall 0 a b c d (col_zero.mpr ⟨rfl, rfl, rfl, rfl⟩)
      rw [ho] at h; simp at h
    · intro hc
      injection hc with hc
      subst hc
      exact calculateDiff_ne_infinite _ _ _ _ h
  | case3 i a as b bs c cs d ds diff h ih =>
    obtain ⟨ih1, ih2, ih3⟩ := ih
    cases hr : makeRuleSide side (i + 1) as bs cs ds with
    | error e =>
      simp only [bind_error]
      refine ⟨by simp, fun hall => ?_, ?_⟩
      · obtain ⟨r, hr'⟩ := ih2 (fun j a b c d hc => hall (j + 1) a b c d (col_succ.mpr hc))
        rw [hr] at hr'; simp at hr'
      · intro hc; injection hc with hc; subst hc; exact ih3 hr
    | ok res =>
      simp only [bind_ok]
      cases res with
      | none =>
        refine ⟨by simp, fun hall => ?_, by simp⟩
        obtain ⟨r, hr'⟩ := ih2 (fun j a b c d hc => hall (j + 1) a b c d (col_succ.mpr hc))
        rw [hr] at hr'; simp at hr'
      | some rest =>
        have hs := ih1 rest hr
        have htot : ∀ j a' b' c' d', Col (a :: as) (b :: bs) (c :: cs) (d :: ds) j a' b' c' d' →
            ∃ o, calculateDiff a' b' c' d' = .ok o := by
          intro j a' b' c' d' hc
          cases j with
          | zero =>
            obtain ⟨rfl, rfl, rfl, rfl⟩ := col_zero.mp hc
            exact ⟨_, h⟩
          | succ j => exact hs.total j _ _ _ _ (col_succ.mp hc)
        have hmemrest : ∀ p op, (p, op) ∈ rest ↔ ∃ j a' b' c' d', p = (side, i + (j + 1)) ∧
            Col (a :: as) (b :: bs) (c :: cs) (d :: ds) (j + 1) a' b' c' d' ∧
            calculateDiff a' b' c' d' = .ok (some op) := by
          intro p op
          rw [hs.mem]
          constructor
          · rintro ⟨j, a', b', c', d', rfl, h1, h2⟩
            exact ⟨j, a', b', c', d', by simp; omega, col_succ.mpr h1, h2⟩
          · rintro ⟨j, a', b', c', d', rfl, h1, h2⟩
            exact ⟨j, a', b', c', d', by simp; omega, col_succ.mp h1, h2⟩
        cases diff with
        | none =>
          refine ⟨fun r hr' => ?_, fun _ => ⟨rest, rfl⟩, by simp⟩
          simp only [Except.ok.injEq, Option.some.injEq] at hr'
          subst hr'
          refine ⟨htot, fun p op => ?_, hs.nodup⟩
          rw [hmemrest]
          constructor
          · rintro ⟨j, a', b', c', d', h1⟩; exact ⟨j + 1, a', b', c', d', h1⟩
          · rintro ⟨j, a', b', c', d', h1, h2, h3⟩
            cases j with
            | zero =>
              obtain ⟨rfl, rfl, rfl, rfl⟩ := col_zero.mp h2
              rw [h] at h3; simp at h3
            | succ j => exact ⟨j, a', b', c', d', h1, h2, h3⟩
        | some o =>
          refine ⟨fun r hr' => ?_, fun _ => ⟨_, rfl⟩, by simp⟩
          simp only [Except.ok.injEq, Option.some.injEq] at hr'
          subst hr'
          refine ⟨htot, fun p op => ?_, ?_⟩
          · rw [List.mem_cons, hmemrest]
            constructor
            · rintro (h1 | ⟨j, a', b', c', d', h1⟩)
              · cases h1
                exact ⟨0, a, b, c, d, rfl, col_zero.mpr ⟨rfl, rfl, rfl, rfl⟩, h⟩
              · exact ⟨j + 1, a', b', c', d', h1⟩
            · rintro ⟨j, a', b', c', d', h1, h2, h3⟩
              cases j with
              | zero =>
                obtain ⟨rfl, rfl, rfl, rfl⟩ := col_zero.mp h2
                rw [h] at h3
                left
                simp only [Except.ok.injEq, Option.some.injEq] at h3
                subst h3
                rw [h1]; rfl
              | succ j => exact .inr ⟨j, a', b', c', d', h1, h2, h3⟩
          · rw [List.map_cons, List.nodup_cons]
            refine ⟨?_, hs.nodup⟩
            intro hm
            obtain ⟨⟨p, op⟩, h1, h2⟩ := List.mem_map.mp hm
            obtain ⟨j, _, _, _, _, h3, _⟩ := (hmemrest p op).mp h1
            simp only at h2
            rw [h2] at h3
            simp at h3
  | case4 as i bs cs ds hno =>
    have hno' : ∀ j a b c d, ¬ Col as bs cs ds j a b c d := by
      intro j a b c d ⟨h1, h2, h3, h4⟩
      cases as with
      | nil => simp at h1
      | cons x as => cases bs with
        | nil => simp at h2
        | cons y bs => cases cs with
          | nil => simp at h3
          | cons z cs => cases ds with
            | nil => simp at h4
            | cons w ds => exact hno x as y bs z cs w ds rfl rfl rfl rfl
    refine ⟨fun r hr => ?_, fun _ => ⟨[], rfl⟩, by simp⟩
    simp only [Except.ok.injEq, Option.some.injEq] at hr
    subst hr
    exact sideSpec_nil hno'

theorem noneNegative_iff (rule : Rule) : Rule.noneNegative rule = true ↔ ¬ rule.Decreases := by
  unfold Rule.noneNegative Rule.Decreases
  rw [List.all_eq_true]
  constructor
  · rintro h ⟨i, d, hm, hd⟩
    have := h _ hm
    simp at this
    omega
  · rintro h ⟨i, op⟩ hm
    cases op with
    | mult m a => rfl
    | plus d =>
      simp only [decide_eq_true_eq]
      by_contra hc
      exact h ⟨i, d, hm, by omega⟩

end BB
