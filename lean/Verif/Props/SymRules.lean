/-
C53, C54: rules on symbolic counts.

`applyRule`, `calculateDiff` and so on with `strict = false` are the program.  With `strict = true` they
stop in the branches that are known to be wrong (`Verif.Model.Num`, `Verif.Model.NumMod`,
`Verif.Model.SymRules`), and return the same as the program where they do not stop.
-/
import Verif.Lemmas.SymRules

namespace BB
open BB.Sym

/-! ### C53: applying a rule -/

/-- A rule leaves symbolic counts that denote what the numbers become in that many rounds, and the
number of rounds is the number that the answer denotes.  One of the counts that are taken from is left
between one and the difference.  Missing for C53: the branches in which the strict evaluation stops, and
that the other counts stay positive (`C53_violation`). -/
theorem C53_apply_partial (flog : Int → Int → Nat) (n : Nat) {rule : SRule} {t t' : Index → Num}
    {times : Num} (hk : (rule.map Prod.fst).Nodup) (hw : ∀ i, (t i).WF)
    (hm : ∀ i m a, (i, SOp.mult m a) ∈ rule → 1 < m)
    (hz : ∀ i d, (i, SOp.plus d) ∈ rule → d < 0 → ∃ z, Sized (t i) z)
    (h : Sym.applyRule true (ops flog true n) rule t = .ok (some times, t')) :
    Sym.applyRule false (ops flog false n) rule t = .ok (some times, t') ∧
    ∃ N : Nat, times.val = N ∧
      (∀ i, (t' i).WF ∧ (t' i).val = (SRule.act rule)^[N] (fun j => (t j).val) i) ∧
      ∃ i d, (i, SOp.plus d) ∈ rule ∧ d < 0 ∧ 1 ≤ (t' i).val ∧ (t' i).val ≤ -d := by
  refine ⟨(rref_applyRule (refOps_strict flog n) rule t).ok h, ?_⟩
  have S := sound_ops flog true n
  generalize ops flog true n = o at h S
  unfold Sym.applyRule at h
  cases hc : Sym.countAppsFrom true o t rule none with
  | error e => rw [hc] at h; cases h
  | ok apps =>
    rw [hc] at h
    cases apps with
    | none => cases h
    | some a =>
      obtain ⟨ts, p, r⟩ := a
      change (Sym.applyRuleFrom true o ts p r rule t >>= fun t' => pure (some ts, t')) = _ at h
      cases ha : Sym.applyRuleFrom true o ts p r rule t with
      | error e => rw [ha] at h; cases h
      | ok t2 =>
        rw [ha] at h
        cases h
        rcases countAppsFrom_some true t rule none _ hc times p r rfl with h' | ⟨d, hd, happ⟩
        · cases h'
        obtain ⟨z, hzz⟩ := hz p d hd.1 hd.2
        have hdpos : 0 < -d := by have := hd.2; omega
        obtain ⟨kt, vt, hr⟩ := ret_appsOf S hzz hdpos _ happ
        dsimp only at kt vt hr
        have hz1 : 0 ≤ (z - 1) / (-d) :=
          Int.ediv_nonneg (by have := hzz.pos; omega) hdpos.le
        have hN : times.val = (((z - 1) / (-d)).toNat : ℝ) := by
          rw [vt]
          exact_mod_cast (Int.toNat_of_nonneg hz1).symm
        have hres : (r : ℝ) = (t p).val + d * (((z - 1) / (-d)).toNat : ℝ) := by
          rw [← hN, vt, Num.val_toInt hzz.wf hzz.exact hzz.toInt]
          have e := Int.mul_ediv_add_emod (z - 1) (-d)
          have : r = z + d * ((z - 1) / (-d)) := by rw [hr]; linarith
          exact_mod_cast this
        have heach := applyRuleFrom_each true times p r rule hk t _ ha
        have hval : ∀ i, (t' i).WF ∧
            (t' i).val = (SRule.act rule)^[((z - 1) / (-d)).toNat] (fun j => (t j).val) i := by
          intro i
          rw [act_iterate]
          cases hl : rule.lookup i with
          | none => rw [(heach i).1 hl]; exact ⟨hw i, rfl⟩
          | some op =>
            have := rret_opResult S kt hN (K_true.mpr (hw i)) op
              (fun m a e => hm i m a (e ▸ mem_of_lookup hl))
              (r := r) (p := p) (i := i) (by
                rintro rfl d' rfl
                have := lookup_of_mem' hk hd.1
                rw [hl] at this
                cases this
                exact hres) _ ((heach i).2 op hl)
            exact ⟨K_true.mp this.1, this.2⟩
        refine ⟨_, hN, hval, p, d, hd.1, hd.2, ?_⟩
        have hfin : t' p = .int r := by
          have := (heach p).2 _ (lookup_of_mem' hk hd.1)
          simp only [Sym.opResult, ne_eq, not_true_eq_false, if_false, hd.2, if_true,
            Except.ok.injEq] at this
          exact this.symm
        rw [hfin, val_int]
        have h0 := Int.emod_nonneg (z - 1) hdpos.ne'
        have h1 := Int.emod_lt_of_pos (z - 1) hdpos
        constructor
        · exact_mod_cast (by omega : 1 ≤ r)
        · exact_mod_cast (by omega : r ≤ -d)

/-- When the comparisons between the numbers of applications are right, every count that is taken from
stays positive. -/
theorem C53_positive_partial (flog : Int → Int → Nat) (n : Nat) {rule : SRule} {t t' : Index → Num}
    {times : Num} (hk : (rule.map Prod.fst).Nodup) (hw : ∀ i, (t i).WF)
    (hm : ∀ i m a, (i, SOp.mult m a) ∈ rule → 1 < m)
    (hz : ∀ i d, (i, SOp.plus d) ∈ rule → d < 0 → ∃ z, Sized (t i) z)
    (hlt : ∀ i j d d' a b r r', (i, SOp.plus d) ∈ rule → (j, SOp.plus d') ∈ rule →
      appsOf true (ops flog true n) (t i) (-d) = .ok (a, r) →
      appsOf true (ops flog true n) (t j) (-d') = .ok (b, r') →
      ∀ x, (ops flog true n).lt a b = .ok x → (x = true ↔ a.val < b.val))
    (h : Sym.applyRule true (ops flog true n) rule t = .ok (some times, t')) {i : Index} {d : Int}
    (hi : (i, SOp.plus d) ∈ rule) (hd : d < 0)
    {z : Int} (hzi : Sized (t i) z) {a : Num} {r : Int}
    (happ : appsOf true (ops flog true n) (t i) (-d) = .ok (a, r)) : 1 ≤ (t' i).val := by
  obtain ⟨-, N, hN, hval, -⟩ := C53_apply_partial flog n hk hw hm hz h
  have S := sound_ops flog true n
  obtain ⟨-, va, -⟩ := ret_appsOf S hzi (by omega : 0 < -d) _ happ
  dsimp only at va
  -- the number of rounds is at most that of this count
  have hle : times.val ≤ a.val := by
    unfold Sym.applyRule at h
    cases hc : Sym.countAppsFrom true (ops flog true n) t rule none with
    | error e => rw [hc] at h; cases h
    | ok apps =>
      rw [hc] at h
      cases apps with
      | none => cases h
      | some c =>
        obtain ⟨ts, p, m⟩ := c
        change (Sym.applyRuleFrom true (ops flog true n) ts p m rule t >>=
          fun t' => pure (some ts, t')) = _ at h
        cases ha : Sym.applyRuleFrom true (ops flog true n) ts p m rule t with
        | error e => rw [ha] at h; cases h
        | ok t2 =>
          rw [ha] at h
          cases h
          have := countAppsFrom_least true t rule
            (fun a => ∃ i d r, (i, SOp.plus d) ∈ rule ∧
              appsOf true (ops flog true n) (t i) (-d) = .ok (a, r))
            (fun a b ⟨i, d, r, h1, h2⟩ ⟨j, d', r', h3, h4⟩ =>
              hlt i j d d' a b r r' h1 h3 h2 h4)
            (fun i d hT c hc => ⟨i, d, c.2, hT.1, hc⟩) none (fun x hx => by cases hx) _ hc times p m rfl
          exact this.2 i d ⟨hi, hd⟩ _ happ
  rw [(hval i).2, act_iterate, lookup_of_mem' hk hi]
  show 1 ≤ (fun x => x + (d : ℝ))^[N] (t i).val
  rw [iterate_add, ← hN, Num.val_toInt hzi.wf hzi.exact hzi.toInt]
  have e := Int.mul_ediv_add_emod (z - 1) (-d)
  have h0 := Int.emod_nonneg (z - 1) (by omega : -d ≠ 0)
  have h1 : -d * ((z - 1) / (-d)) ≤ z - 1 := by omega
  have h2 : ((-d * ((z - 1) / (-d)) : Int) : ℝ) ≤ ((z - 1 : Int) : ℝ) := by exact_mod_cast h1
  push_cast at h2
  have h3 : (0 : ℝ) < -(d : ℝ) := by exact_mod_cast (by omega : 0 < -d)
  have h4 : -(d : ℝ) * times.val ≤ -(d : ℝ) * a.val := mul_le_mul_of_nonneg_left hle h3.le
  rw [va] at h4
  linarith

/-- Without an answer the counts are as before, and nothing is taken or an integer count is too small. -/
theorem C53_none (flog : Int → Int → Nat) (n : Nat) {rule : SRule} {t t' : Index → Num}
    (h : Sym.applyRule false (ops flog false n) rule t = .ok (none, t')) :
    t' = t ∧ ((∀ i d, (i, SOp.plus d) ∈ rule → 0 ≤ d) ∨
      ∃ i d m, (i, SOp.plus d) ∈ rule ∧ d < 0 ∧ t i = .int m ∧ m ≤ -d) := by
  unfold Sym.applyRule at h
  cases hc : Sym.countAppsFrom false (ops flog false n) t rule none with
  | error e => rw [hc] at h; cases h
  | ok apps =>
    rw [hc] at h
    cases apps with
    | none =>
      cases h
      refine ⟨rfl, ?_⟩
      rcases countAppsFrom_none false t rule none _ hc rfl with ⟨-, h2⟩ | ⟨i, d, m, h1, h2, h3⟩
      · exact .inl fun i d hi => not_lt.mp fun hd => h2 i d ⟨hi, hd⟩
      · exact .inr ⟨i, d, m, h1.1, h1.2, h2, h3⟩
    | some c =>
      obtain ⟨ts, p, m⟩ := c
      change (Sym.applyRuleFrom false (ops flog false n) ts p m rule t >>=
        fun t' => pure (some ts, t')) = _ at h
      cases ha : Sym.applyRuleFrom false (ops flog false n) ts p m rule t with
      | error e => rw [ha] at h; cases h
      | ok t2 => rw [ha] at h; cases h

/-- `2 ** 3` on the left, `100` on the right. -/
def eightAndHundred : Index → Num := fun i => if i.1 then .int 100 else .exp 2 (.int 3)

/-- A rule that takes one from both. -/
def takeBoth : SRule := [((false, 0), .plus (-1)), ((true, 0), .plus (-1))]

/-- `count_apps` takes `99` to be below `-1 + 2 ** 3`, and so `apply_rule` takes `99` from `8`.  The
count `2 ** 3` is what `apply_mult(1, 3, 2, 0)` leaves. -/
theorem C53_violation (flog : Int → Int → Nat) :
    Sym.applyMult (ops flog false 20) (.int 1) (.int 3) 2 0 = .ok (.exp 2 (.int 3)) ∧
    (∀ i, ∃ z, Sized (eightAndHundred i) z) ∧
    ∃ t', Sym.applyRule false (ops flog false 20) takeBoth eightAndHundred =
        .ok (some (.int 99), t') ∧
      (eightAndHundred (false, 0)).toInt = some 8 ∧ (t' (false, 0)).toInt = some (-91) := by
  refine ⟨by with_unfolding_all rfl, fun i => ?_, _, rfl, rfl, rfl⟩
  unfold eightAndHundred
  split
  · exact ⟨100, trivial, trivial, trivial, rfl, by decide⟩
  · exact ⟨8, ⟨by decide, trivial⟩, trivial, ⟨trivial, fun k hk => by cases hk; decide⟩, rfl,
      by decide⟩

/-- `('~', 2)` does not look at the base: two more in the exponent is four times a power of two, but
`3 ** 5` becomes `2 ** 7`. -/
theorem C53_violation_base (flog : Int → Int → Nat) :
    applyOps false (ops flog false 20) (.exp 2 (.int 5)) (.int 1) [(.log, 2), (.plus, 2), (.pow, 2)] =
      .ok (.exp 2 (.int 7)) ∧
    applyOps false (ops flog false 20) (.exp 3 (.int 5)) (.int 1) [(.log, 2), (.plus, 2), (.pow, 2)] =
      .ok (.exp 2 (.int 7)) :=
  ⟨by with_unfolding_all rfl, by with_unfolding_all rfl⟩

/-- `2 ** 9` and `7`, `(3, 1)` on the right: 255 rounds, and `7` becomes `(5 * 3 ** 256 - 1) // 2`. -/
example (flog : Int → Int → Nat) : ∃ t',
    Sym.applyRule true (ops flog true 20) [((false, 0), .plus (-2)), ((true, 0), .mult 3 1)]
      (fun i => if i.1 then .int 7 else .exp 2 (.int 9)) =
      .ok (some (.add (.int (-1)) (.exp 2 (.int 8))), t') ∧
      t' (false, 0) = .int 2 ∧
      t' (true, 0) = .div (.add (.int (-1)) (.mul (.int 5) (.exp 3 (.exp 2 (.int 8))))) 2 :=
  ⟨_, by with_unfolding_all rfl, rfl, rfl⟩

/-! ### C54: finding a rule -/

/-- A sequence of operations found for four symbolic counts takes the number each denotes to the next,
when the strict evaluation does not stop.  Missing for C54: where it stops. -/
theorem C54_seq_partial (flog : Int → Int → Nat) (n : Nat) {c1 c2 c3 c4 : Num} (h1 : c1.WF)
    (h2 : c2.WF) (h3 : c3.WF) {s : OpSeq}
    (h : calculateOpSeq true (ops flog true n) c1 c2 c3 c4 = .ok s) :
    calculateOpSeq false (ops flog false n) c1 c2 c3 c4 = .ok s ∧
    OpSeq.act s c1.val = c2.val ∧ OpSeq.act s c2.val = c3.val ∧ OpSeq.act s c3.val = c4.val := by
  refine ⟨(rref_calculateOpSeq (refOps_strict flog n) c1 c2 c3 c4).ok h, ?_⟩
  have S := sound_ops flog true n
  generalize ops flog true n = o at h S
  suffices H : RRet (calculateOpSeq true o c1 c2 c3 c4) (fun s => OpSeq.act s c1.val = c2.val ∧
      OpSeq.act s c2.val = c3.val ∧ OpSeq.act s c3.val = c4.val) from H s h
  unfold calculateOpSeq
  refine RRet.bind (descend_spec c2 ruleDescent c1) ?_
  rintro ⟨down, sub⟩ hdown
  refine RRet.bind (ascend_spec sub ruleDescent c2) fun up hup => ?_
  dsimp only at hdown ⊢
  have once : ∀ {x : Num}, K true x → RRet (applyOps true o x (.int 1) (down ++ up.reverse))
      (fun y => Is true (OpSeq.act (down ++ up.reverse) x.val) y ∧
        ∀ op ∈ down ++ up.reverse, OpOk op) := by
    intro x hx
    have : applyOps true o x (.int 1) (down ++ up.reverse) =
        (applySeq true o (down ++ up.reverse) x >>= fun y => .ok y) := rfl
    rw [this]
    exact RRet.bind (rret_applySeq S _ hx) fun y hy => RRet.ok hy
  refine RRet.bind (once (K_true.mpr h2)) ?_
  rintro x ⟨⟨-, vx⟩, hok⟩
  split
  · exact RRet.throw
  rename_i hx
  refine RRet.bind (once (K_true.mpr h3)) ?_
  rintro y ⟨⟨-, vy⟩, -⟩
  split
  · exact RRet.throw
  rename_i hy
  refine RRet.ok ⟨?_, ?_, ?_⟩
  · rw [OpSeq.act_append,
      (hdown (fun op hop => hok op (List.mem_append_left _ hop)) (K_true.mpr h1)).2, hup]
  · rw [← vx, not_not.mp hx]
  · rw [← vy, not_not.mp hy]

/-- What the program checks of a sequence: it makes the third count of the second and the fourth of the
third, term for term. -/
theorem C54_checked (flog : Int → Int → Nat) (n : Nat) {c1 c2 c3 c4 : Num} {s : OpSeq}
    (h : calculateOpSeq false (ops flog false n) c1 c2 c3 c4 = .ok s) :
    applyOps false (ops flog false n) c2 (.int 1) s = .ok c3 ∧
    applyOps false (ops flog false n) c3 (.int 1) s = .ok c4 := by
  suffices H : RRet (calculateOpSeq false (ops flog false n) c1 c2 c3 c4) (fun s =>
      applyOps false (ops flog false n) c2 (.int 1) s = .ok c3 ∧
      applyOps false (ops flog false n) c3 (.int 1) s = .ok c4) from H s h
  unfold calculateOpSeq
  refine RRet.bind RRet.any ?_
  rintro ⟨down, sub⟩ -
  refine RRet.bind RRet.any fun up _ => RRet.bind RRet.self fun x hx => ?_
  split
  · exact RRet.throw
  rename_i hx'
  refine RRet.bind RRet.self fun y hy => ?_
  split
  · exact RRet.throw
  rename_i hy'
  rw [not_not.mp hx'] at hx
  rw [not_not.mp hy'] at hy
  exact RRet.ok ⟨hx, hy⟩

/-- `calculate_diff` on counts the first of which is symbolic: no operation when the counts are the same,
otherwise one that takes the number each denotes to the next. -/
theorem C54_diff_partial (flog : Int → Int → Nat) (n : Nat) {c1 c2 c3 c4 : Num} (h1 : c1.WF)
    (h2 : c2.WF) (h3 : c3.WF) (h4 : c4.WF) (hi : c1.isInt = false) {r : Option SOp}
    (h : Sym.calculateDiff true (ops flog true n) c1 c2 c3 c4 = .ok r) :
    Sym.calculateDiff false (ops flog false n) c1 c2 c3 c4 = .ok r ∧
    (r = none → c2 = c1 ∧ c3 = c1 ∧ c4 = c1) ∧
    ∀ op, r = some op → op.act c1.val = c2.val ∧ op.act c2.val = c3.val ∧ op.act c3.val = c4.val := by
  refine ⟨(rref_calculateDiff (refOps_strict flog n) c1 c2 c3 c4).ok h, ?_⟩
  have S := sound_ops flog true n
  have hseq := fun s => @C54_seq_partial flog n c1 c2 c3 c4 h1 h2 h3 s
  have hrest : RRet (calculateDiffRest true (ops flog true n) c1 c2 c3 c4) (fun r =>
      (r = none → c2 = c1 ∧ c3 = c1 ∧ c4 = c1) ∧
      ∀ op, r = some op → op.act c1.val = c2.val ∧ op.act c2.val = c3.val ∧
        op.act c3.val = c4.val) := by
    unfold calculateDiffRest
    split
    · cases hi
    · cases hi
    · split
      · exact RRet.error
      · refine RRet.bind RRet.self fun s hs => RRet.ok ⟨fun h => (by cases h), fun op h => ?_⟩
        cases h
        exact (hseq s hs).2
  generalize ops flog true n = o at h S hrest
  suffices H : RRet (Sym.calculateDiff true o c1 c2 c3 c4) (fun r =>
      (r = none → c2 = c1 ∧ c3 = c1 ∧ c4 = c1) ∧
      ∀ op, r = some op → op.act c1.val = c2.val ∧ op.act c2.val = c3.val ∧
        op.act c3.val = c4.val) from H r h
  unfold Sym.calculateDiff
  split
  · rename_i hall
    exact RRet.ok ⟨fun _ => hall, fun op h => by cases h⟩
  refine RRet.bind (RRet.lift (S.sub (K_true.mpr h2) (K_true.mpr h1))) ?_
  rintro plus ⟨-, vp⟩
  refine RRet.bind (RRet.lift (x := sameDiff o plus c2 c3 c4) (P := fun b => b = true →
    plus.val = c3.val - c2.val ∧ plus.val = c4.val - c3.val) ?_) fun same hsame => ?_
  · unfold sameDiff
    refine Ret.bind (S.sub (K_true.mpr h3) (K_true.mpr h2)) ?_
    rintro d2 ⟨-, v2⟩
    split
    · rename_i he
      refine Ret.bind (S.sub (K_true.mpr h4) (K_true.mpr h3)) ?_
      rintro d3 ⟨-, v3⟩
      refine Ret.pure fun hd => ?_
      rw [decide_eq_true_eq] at hd
      exact ⟨by rw [← he, v2], by rw [← hd, v3]⟩
    · exact Ret.pure fun h => by cases h
  split
  · rename_i hs
    obtain ⟨e1, e2⟩ := hsame hs
    split
    · rename_i d
      rw [val_int] at vp e1 e2
      refine RRet.ok ⟨fun h => (by cases h), fun op h => ?_⟩
      cases h
      simp only [SOp.act]
      exact ⟨by rw [vp]; ring, by rw [e1]; ring, by rw [e2]; ring⟩
    · exact RRet.throw
  · split
    · exact hrest
    · exact RRet.error
    · exact RRet.error
    · exact hrest

/-- `C54_ints` in the terms of the model. -/
theorem calculateDiff_ints (flog : Int → Int → Nat) (strict : Bool) (n : Nat) (a b c d : Int) :
    Sym.calculateDiff strict (ops flog strict (n + 1)) (.int a) (.int b) (.int c) (.int d) =
      ofInts (BB.calculateDiff a b c d) := by
  have hsub : ∀ x y : Int, (ops flog strict (n + 1)).sub (.int x) (.int y) = .ok (.int (x - y)) :=
    fun _ _ => rfl
  have hlt : ∀ x y : Int, (ops flog strict (n + 1)).lt (.int x) (.int y) = .ok (decide (x < y)) :=
    fun _ _ => rfl
  generalize ops flog strict (n + 1) = o at hsub hlt
  have hsame : sameDiff o (.int (b - a)) (.int b) (.int c) (.int d) =
      .ok (decide (c - b = b - a ∧ d - c = b - a)) := by
    unfold sameDiff
    rw [hsub, hsub]
    simp only [bind, Except.bind, pure, Except.pure, Num.int.injEq]
    by_cases h : c - b = b - a <;> simp [h]
  have hasc : ascending o (.int a) (.int b) (.int c) (.int d) =
      .ok (decide (a < b ∧ b < c ∧ c < d)) := by
    unfold ascending andR
    rw [hlt, hlt, hlt]
    simp only [bind, Except.bind, pure, Except.pure]
    by_cases h : a < b <;> by_cases h' : b < c <;> simp [h, h']
  unfold Sym.calculateDiff
  rw [hsub, hasc]
  simp only [lift, hsame, bind, Except.bind, pure, Except.pure, Num.int.injEq, calculateDiffRest]
  by_cases h0 : b = a ∧ c = a ∧ d = a
  · obtain ⟨rfl, rfl, rfl⟩ := h0
    simp [BB.calculateDiff, ofInts]
  rw [if_neg h0]
  have e0 : (b == a && c == a && d == a) = false := by
    simpa [and_assoc] using h0
  by_cases h1 : c - b = b - a ∧ d - c = b - a
  · unfold BB.calculateDiff
    simp [e0, h1.1, h1.2, ofInts]
  have e1 : (c - b == b - a && d - c == b - a) = false := by
    simpa using h1
  simp only [h1, decide_false, Bool.false_eq_true, if_false]
  by_cases h2 : a < b ∧ b < c ∧ c < d
  · simp [h2]
  · have e2 : (!(decide (a < b) && decide (b < c) && decide (c < d))) = true := by
      simp only [Bool.not_eq_true', Bool.and_eq_false_iff, decide_eq_false_iff_not]
      tauto
    unfold BB.calculateDiff
    simp [e0, e1, e2, h2, ofInts]

/-- On four integers it is the function of `C18`. -/
theorem C54_ints (flog : Int → Int → Nat) (strict : Bool) (n : Nat) (a b c d : Int) :
    match BB.calculateDiff a b c d,
      Sym.calculateDiff strict (ops flog strict (n + 1)) (.int a) (.int b) (.int c) (.int d) with
    | .ok none, r => r = .ok none
    | .ok (some (.plus x)), r => r = .ok (some (.plus x))
    | .ok (some (.mult m x)), r => r = .ok (some (.mult m x))
    | .error .unknownRule, r => r = .error .unknownRule
    | .error (.suspectedRule x y), r => r = .error (.suspectedRule x y)
    | .error _, r => r = .error (.num .other) := by
  rw [calculateDiff_ints]
  rcases BB.calculateDiff a b c d with e | (_ | (_ | _))
  · cases e <;> rfl
  · rfl
  · rfl
  · rfl

/-- A sequence comes from four symbolic counts: with an integer among them, and not all the same and not
in equal distances, `calculate_diff` makes nothing (the assertions of rules.py L77-93). -/
theorem C54_symbolic (flog : Int → Int → Nat) (strict : Bool) (n : Nat) {c1 c2 c3 c4 : Num}
    (hmix : c1.isInt = true ∨ c2.isInt = true ∨ c3.isInt = true ∨ c4.isInt = true)
    (hmix' : c1.isInt = false ∨ c2.isInt = false ∨ c3.isInt = false ∨ c4.isInt = false) :
    (∃ d, Sym.calculateDiff strict (ops flog strict n) c1 c2 c3 c4 = .ok (some (.plus d))) ∨
    Sym.calculateDiff strict (ops flog strict n) c1 c2 c3 c4 = .error .unknownRule ∨
    Sym.calculateDiff strict (ops flog strict n) c1 c2 c3 c4 = .error .assertion ∨
    ∃ e, Sym.calculateDiff strict (ops flog strict n) c1 c2 c3 c4 = .error (.num e) := by
  generalize ops flog strict n = o
  have hrest : calculateDiffRest strict o c1 c2 c3 c4 = .error .assertion := by
    unfold calculateDiffRest
    split
    · simp [Num.isInt] at hmix'
    · rfl
    · rename_i h1 h2
      have h1' : c1.isInt = false := by
        cases c1 with
        | int a => exact (h1 a rfl).elim
        | _ => rfl
      rw [h1'] at hmix
      rw [if_pos]
      simp only [Bool.or_eq_true]
      rcases hmix with h | h | h | h
      · cases h
      · exact Or.inl (Or.inl h)
      · exact Or.inl (Or.inr h)
      · exact Or.inr h
  unfold Sym.calculateDiff
  rw [if_neg (by rintro ⟨rfl, rfl, rfl⟩; rcases hmix with h | h | h | h <;> simp [h] at hmix')]
  cases h1 : o.sub c2 c1 with
  | error e => exact Or.inr (Or.inr (Or.inr ⟨e, rfl⟩))
  | ok plus =>
    cases h2 : sameDiff o plus c2 c3 c4 with
    | error e => exact Or.inr (Or.inr (Or.inr ⟨e, by simp [lift, h2, bind, Except.bind]⟩))
    | ok same =>
      simp only [lift, h2, bind, Except.bind]
      cases same with
      | true =>
        simp only [if_true]
        cases plus with
        | int d => exact Or.inl ⟨d, rfl⟩
        | _ => exact Or.inr (Or.inr (Or.inl rfl))
      | false =>
        simp only [Bool.false_eq_true, if_false]
        cases h3 : ascending o c1 c2 c3 c4 with
        | error e =>
          cases e with
          | notImpl => exact Or.inr (Or.inr (Or.inl hrest))
          | _ => exact Or.inr (Or.inr (Or.inr ⟨_, rfl⟩))
        | ok b =>
          cases b with
          | true => exact Or.inr (Or.inr (Or.inl hrest))
          | false => exact Or.inr (Or.inl rfl)

/-- A rule that `make_rule` returns has an operation exactly for the positions whose counts are not all
the same, the one of `calculate_diff`, once each; and it takes from some position. -/
theorem C54_rule (flog : Int → Int → Nat) (n : Nat) {k1 k2 k3 k4 : SCounts} {rule : SRule}
    (h : Sym.makeRule false (ops flog false n) k1 k2 k3 k4 = .ok (some rule)) :
    (∀ i op, (i, op) ∈ rule ↔ ∃ a b c d, Sym.Column k1 k2 k3 k4 i a b c d ∧
      Sym.calculateDiff false (ops flog false n) a b c d = .ok (some op)) ∧
    (∀ i a b c d, Sym.Column k1 k2 k3 k4 i a b c d →
      ∃ x, Sym.calculateDiff false (ops flog false n) a b c d = .ok x) ∧
    (rule.map Prod.fst).Nodup ∧ ∃ i d, (i, SOp.plus d) ∈ rule ∧ d < 0 :=
  Sym.makeRule_cases h

/-- `2 ** 400` and what `2 ** x` makes of it three times: the sequence is `('**', 2)`. -/
example (flog : Int → Int → Nat) :
    let c1 : Num := .exp 2 (.int 400)
    Sym.calculateDiff true (ops flog true 20) c1 (.exp 2 c1) (.exp 2 (.exp 2 c1))
      (.exp 2 (.exp 2 (.exp 2 c1))) = .ok (some (.seq [(.pow, 2)])) := by
  with_unfolding_all rfl

/-- The same with one more than a power: the one is taken off and put back. -/
example (flog : Int → Int → Nat) :
    let c1 : Num := .exp 2 (.int 400)
    Sym.calculateDiff true (ops flog true 20) (.add (.int 1) c1) (.add (.int 1) (.exp 2 c1))
      (.add (.int 1) (.exp 2 (.exp 2 c1))) (.add (.int 1) (.exp 2 (.exp 2 (.exp 2 c1)))) =
      .ok (some (.seq [(.plus, -1), (.pow, 2), (.plus, 1)])) := by
  with_unfolding_all rfl

/-- `2 ** 4` and what `2 ** ((x + 1) // 5)` makes of it three times: `16`, `8`, `2`, `1`. -/
def falling : Nat → Num
  | 0 => .exp 2 (.int 4)
  | n + 1 => .exp 2 (.div (.add (.int 1) (falling n)) 5)

/-- The counts become smaller, but `calculate_diff` cannot compare them and `make_rule` raises
`InfiniteRule`. -/
theorem C54_violation_infinite (flog : Int → Int → Nat) :
    (falling 0).toInt = some 16 ∧ (falling 1).toInt = some 8 ∧ (falling 2).toInt = some 2 ∧
      (falling 3).toInt = some 1 ∧
    (∀ n, n < 3 → applyOps false (ops flog false 20) (falling n) (.int 1)
      [(.plus, 1), (.over, 5), (.pow, 2)] = .ok (falling (n + 1))) ∧
    Sym.makeRule false (ops flog false 20) ([falling 0], []) ([falling 1], []) ([falling 2], [])
      ([falling 3], []) = .error .infiniteRule := by
  refine ⟨by decide, by decide, by decide, by decide, ?_, by with_unfolding_all rfl⟩
  intro n hn
  match n, hn with
  | 0, _ => with_unfolding_all rfl
  | 1, _ => with_unfolding_all rfl
  | 2, _ => with_unfolding_all rfl

/-- `2 ** ((1 + 3 ** 1) // 2)`, which is `4`. -/
def powerOfQuotient : Num := .exp 2 (.div (.add (.int 1) (.exp 3 (.int 1))) 2)

/-- A sum with the first count whose other part is symbolic stops `calculate_diff` with an
`AssertionError`. -/
theorem C54_violation_assertion (flog : Int → Int → Nat) :
    let x : Num := .exp 2 (.exp 2 (.int 5))
    let y : Num := .add powerOfQuotient x
    powerOfQuotient.toInt = some 4 ∧
    Sym.calculateDiff false (ops flog false 20) x y y y = .error .assertion := by
  exact ⟨by decide, by with_unfolding_all rfl⟩

/-- Counts of which the first is an integer and the others are not stop it as well. -/
theorem C54_violation_mixed (flog : Int → Int → Nat) :
    Sym.calculateDiff false (ops flog false 20) (.int 5) (.exp 2 (.int 5)) (.exp 2 (.exp 2 (.int 5)))
      (.exp 2 (.exp 2 (.exp 2 (.int 5)))) = .error .assertion := by
  with_unfolding_all rfl

end BB
