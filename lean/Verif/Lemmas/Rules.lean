import Verif.Spec.Rules
import Verif.Lemmas.Run
import Mathlib.Algebra.Ring.Int.Defs
import Mathlib.Tactic.Ring
import Mathlib.Tactic.Linarith
import Mathlib.Tactic.LinearCombination
import Mathlib.Logic.Function.Iterate

/-! # Rule application -/

namespace BB

theorem pyDivmod_ok {a b : Int} (h : b ≠ 0) : pyDivmod a b = .ok (a.fdiv b, a.fmod b) := by
  simp [pyDivmod, h]

theorem bind_ok {α β ε : Type} (a : α) (f : α → Except ε β) : (Except.ok a >>= f) = f a := rfl

theorem bind_error {α β ε : Type} (e : ε) (f : α → Except ε β) :
    ((Except.error e : Except ε α) >>= f) = .error e := rfl

/-- What an accepted candidate `(n, p, m)` of `count_apps` satisfies for its own entry. -/
structure MinEntry (t : Index → Int) (p : Index) (d n m : Int) : Prop where
  neg : d < 0
  low : n * (-d) < t p
  high : t p ≤ (n + 1) * (-d)
  res : m = t p + d * n

theorem countAppsFrom_spec (t : Index → Int) (rule : Rule) (apps : Option (Int × Index × Int)) :
    ((∃ i d, (i, Op.plus d) ∈ rule ∧ d < 0 ∧ t i ≤ -d) ∧
      countAppsFrom funTape rule t apps = .ok (none, t)) ∨
    ((∀ i d, (i, Op.plus d) ∈ rule → d < 0 → -d < t i) ∧
      ∃ r, countAppsFrom funTape rule t apps = .ok (r, t) ∧
        (r = none → apps = none ∧ ∀ i d, (i, Op.plus d) ∈ rule → 0 ≤ d) ∧
        ∀ n p m, r = some (n, p, m) →
          (apps = some (n, p, m) ∨ ∃ d, (p, Op.plus d) ∈ rule ∧ MinEntry t p d n m) ∧
          (∀ i d, (i, Op.plus d) ∈ rule → d < 0 → n * (-d) < t i) ∧
          (∀ n0 p0 m0, apps = some (n0, p0, m0) → n ≤ n0)) := by
  induction rule generalizing apps with
  | nil =>
    right
    refine ⟨by simp, apps, rfl, fun h => ⟨h, by simp⟩, ?_⟩
    rintro n p m rfl
    refine ⟨.inl rfl, by simp, ?_⟩
    rintro n0 p0 m0 h
    cases h
    exact le_refl _
  | cons e rule ih =>
    obtain ⟨pos, op⟩ := e
    cases op with
    | mult mul add =>
      have hmem : ∀ i d, (i, Op.plus d) ∈ (pos, Op.mult mul add) :: rule ↔
          (i, Op.plus d) ∈ rule := by
        intro i d; simp
      simp only [hmem, countAppsFrom]
      exact ih apps
    | plus diff =>
      rw [countAppsFrom]
      by_cases hd : diff ≥ 0
      · rw [if_pos hd]
        rcases ih apps with ⟨⟨i, d, h1, h2, h3⟩, h4⟩ | ⟨h1, r, h2, h3, h4⟩
        · exact .inl ⟨⟨i, d, List.mem_cons_of_mem _ h1, h2, h3⟩, h4⟩
        · right
          refine ⟨?_, r, h2, ?_, ?_⟩
          · intro i d hm hneg
            rcases List.mem_cons.mp hm with h | h
            · cases h; omega
            · exact h1 i d h hneg
          · intro hr
            refine ⟨(h3 hr).1, ?_⟩
            intro i d hm
            rcases List.mem_cons.mp hm with h | h
            · cases h; exact hd
            · exact (h3 hr).2 i d h
          · intro n p m hr
            obtain ⟨k1, k2, k3⟩ := h4 n p m hr
            refine ⟨?_, ?_, k3⟩
            · rcases k1 with k | ⟨d, hm, he⟩
              · exact .inl k
              · exact .inr ⟨d, List.mem_cons_of_mem _ hm, he⟩
            · intro i d hm hneg
              rcases List.mem_cons.mp hm with h | h
              · cases h; omega
              · exact k2 i d h hneg
      · rw [if_neg hd]
        simp only [funTape, bind_ok]
        by_cases hc : -diff ≥ t pos
        · left
          exact ⟨⟨pos, diff, List.mem_cons_self, by omega, by omega⟩, by rw [if_pos hc]⟩
        · rw [if_neg hc, pyDivmod_ok (by omega : -diff ≠ 0)]
          simp only [bind_ok]
          -- the pair (times, min_res)
          obtain ⟨n', m', hnm, hent⟩ : ∃ n' m' : Int,
              (if (t pos).fmod (-diff) > 0 then ((t pos).fdiv (-diff), (t pos).fmod (-diff))
                else ((t pos).fdiv (-diff) - 1, -diff)) = (n', m') ∧
              MinEntry t pos diff n' m' := by
            have e1 := Int.mul_fdiv_add_fmod (t pos) (-diff)
            have e2 : (t pos).fmod (-diff) < -diff := Int.fmod_lt_of_pos _ (by omega)
            have e3 : 0 ≤ (t pos).fmod (-diff) := Int.fmod_nonneg_of_pos _ (by omega)
            generalize (t pos).fdiv (-diff) = q at *
            generalize (t pos).fmod (-diff) = r at *
            by_cases hr : r > 0
            · refine ⟨q, r, by rw [if_pos hr], by omega, ?_, ?_, ?_⟩
              · nlinarith
              · nlinarith
              · nlinarith
            · refine ⟨q - 1, -diff, by rw [if_neg hr], by omega, ?_, ?_, ?_⟩
              · nlinarith
              · nlinarith
              · nlinarith
          simp only [hnm]
          -- combine with the running minimum
          have key : ∀ apps' : Option (Int × Index × Int),
              (∃ n p m, apps' = some (n, p, m) ∧ n ≤ n' ∧
                (apps = some (n, p, m) ∨ (p = pos ∧ MinEntry t p diff n m)) ∧
                (∀ n0 p0 m0, apps = some (n0, p0, m0) → n ≤ n0)) →
              ((∃ i d, (i, Op.plus d) ∈ (pos, Op.plus diff) :: rule ∧ d < 0 ∧ t i ≤ -d) ∧
                countAppsFrom funTape rule t apps' = .ok (none, t)) ∨
              ((∀ i d, (i, Op.plus d) ∈ (pos, Op.plus diff) :: rule → d < 0 → -d < t i) ∧
                ∃ r, countAppsFrom funTape rule t apps' = .ok (r, t) ∧
                  (r = none → apps = none ∧
                    ∀ i d, (i, Op.plus d) ∈ (pos, Op.plus diff) :: rule → 0 ≤ d) ∧
                  ∀ n p m, r = some (n, p, m) →
                    (apps = some (n, p, m) ∨ ∃ d, (p, Op.plus d) ∈ (pos, Op.plus diff) :: rule ∧
                      MinEntry t p d n m) ∧
                    (∀ i d, (i, Op.plus d) ∈ (pos, Op.plus diff) :: rule → d < 0 →
                      n * (-d) < t i) ∧
                    (∀ n0 p0 m0, apps = some (n0, p0, m0) → n ≤ n0)) := by
            rintro _ ⟨n1, p1, m1, rfl, hle, hor, hmin⟩
            rcases ih (some (n1, p1, m1)) with ⟨⟨i, d, h1, h2, h3⟩, h4⟩ | ⟨h1, r, h2, h3, h4⟩
            · exact .inl ⟨⟨i, d, List.mem_cons_of_mem _ h1, h2, h3⟩, h4⟩
            · right
              refine ⟨?_, r, h2, ?_, ?_⟩
              · intro i d hm hneg
                rcases List.mem_cons.mp hm with h | h
                · cases h; omega
                · exact h1 i d h hneg
              · intro hr; exact absurd (h3 hr).1 (by simp)
              · intro n p m hr
                obtain ⟨k1, k2, k3⟩ := h4 n p m hr
                have hn1 : n ≤ n1 := k3 _ _ _ rfl
                refine ⟨?_, ?_, fun n0 p0 m0 h0 => le_trans hn1 (hmin _ _ _ h0)⟩
                · rcases k1 with k | ⟨d, hm, he⟩
                  · cases k
                    rcases hor with h | ⟨rfl, h⟩
                    · exact .inl h
                    · exact .inr ⟨diff, List.mem_cons_self, h⟩
                  · exact .inr ⟨d, List.mem_cons_of_mem _ hm, he⟩
                · intro i d hm hneg
                  rcases List.mem_cons.mp hm with h | h
                  · cases h
                    have := hent.low
                    nlinarith
                  · exact k2 i d h hneg
          apply key
          cases apps with
          | none =>
            exact ⟨n', pos, m', rfl, le_refl _, .inr ⟨rfl, hent⟩, by simp⟩
          | some a =>
            obtain ⟨n0, p0, m0⟩ := a
            by_cases hlt : n' < n0
            · refine ⟨n', pos, m', by simp [hlt], le_refl _, .inr ⟨rfl, hent⟩, ?_⟩
              intro _ _ _ h; cases h; omega
            · refine ⟨n0, p0, m0, by simp [hlt], by omega, .inl rfl, ?_⟩
              intro _ _ _ h; cases h; omega

/-! ## Closed forms -/

theorem iterate_plus (d c : Int) (n : Nat) : (Op.plus d).once^[n] c = c + d * n := by
  induction n with
  | zero => simp
  | succ n ih => rw [Function.iterate_succ_apply', ih]; simp only [Op.once]; push_cast; ring

/-- `1 + m + … + m^(n-1)`. -/
def geom (m : Int) : Nat → Int
  | 0 => 0
  | n + 1 => geom m n * m + 1

theorem geom_mul (m : Int) (n : Nat) : (m - 1) * geom m n = m ^ n - 1 := by
  induction n with
  | zero => simp [geom]
  | succ n ih =>
    rw [geom, pow_succ]
    linear_combination m * ih

theorem iterate_mult (m a c : Int) (n : Nat) :
    (Op.mult m a).once^[n] c = c * m ^ n + a * geom m n := by
  induction n with
  | zero => simp [geom]
  | succ n ih =>
    rw [Function.iterate_succ_apply', ih]
    simp only [Op.once, geom]
    ring

theorem applyMult_eq {m : Int} (hm : m ≠ 1) (a c : Int) {n : Nat} (hn : 1 ≤ n) :
    applyMult c n m a = .ok ((Op.mult m a).once^[n] c) := by
  have hexp : (if ((n : Int) == 1) = true then m else m ^ (n : Int).toNat) = m ^ n := by
    by_cases h : n = 1
    · subst h; simp
    · have : ((n : Int) == 1) = false := by simp; omega
      simp [this]
  rw [iterate_mult, applyMult]
  simp only [hexp]
  by_cases ha : a = 0
  · subst ha; simp
  · have hb : (a == 0) = false := by simpa using ha
    have hm1 : m - 1 ≠ 0 := by omega
    simp only [hb, Bool.false_eq_true, if_false, pyDivmod_ok hm1, bind_ok]
    have h1 : m ^ n - m = (m - 1) * (geom m n - 1) := by
      linear_combination -(geom_mul m n)
    rw [h1, Int.mul_fdiv_cancel_left _ hm1]
    congr 1
    ring

theorem iterate_once (rule : Rule) (t : Index → Int) (n : Nat) (i : Index) :
    (rule.once^[n] t) i = match rule.lookup i with
      | none => t i
      | some op => op.once^[n] (t i) := by
  induction n with
  | zero => cases rule.lookup i <;> rfl
  | succ n ih =>
    rw [Function.iterate_succ_apply', Rule.once, ih]
    cases h : rule.lookup i with
    | none => rfl
    | some op => simp only [Function.iterate_succ_apply']

theorem lookup_of_mem {rule : Rule} (hk : (rule.map Prod.fst).Nodup) {i : Index} {op : Op}
    (h : (i, op) ∈ rule) : rule.lookup i = some op := by
  induction rule with
  | nil => simp at h
  | cons e rule ih =>
    obtain ⟨j, o⟩ := e
    simp only [List.map_cons, List.nodup_cons] at hk
    rcases List.mem_cons.mp h with h' | h'
    · cases h'; simp
    · have : i ≠ j := by
        rintro rfl
        exact hk.1 (List.mem_map.mpr ⟨(i, op), h', rfl⟩)
      rw [List.lookup_cons]
      have hb : (i == j) = false := by simpa using this
      simp only [hb]
      exact ih hk.2 h'

theorem applyRuleFrom_spec (n : Nat) (hn : 1 ≤ n) (minPos : Index) (minRes : Int) (rule : Rule)
    (hk : (rule.map Prod.fst).Nodup)
    (hmul : ∀ i m a, (i, Op.mult m a) ∈ rule → m ≠ 1) (t : Index → Int)
    (hmin : ∀ d, (minPos, Op.plus d) ∈ rule → d < 0 ∧ minRes = t minPos + d * n) :
    applyRuleFrom funTape n minPos minRes rule t = .ok (rule.once^[n] t) := by
  induction rule generalizing t with
  | nil =>
    rw [applyRuleFrom]
    congr 1
    funext i
    rw [iterate_once]; simp
  | cons e rule ih =>
    obtain ⟨pos, op⟩ := e
    simp only [List.map_cons, List.nodup_cons] at hk
    rw [applyRuleFrom]
    rw [show funTape.get t pos = .ok (t pos, t) from rfl, bind_ok]
    have hres : opResult n minPos minRes pos (t pos) op
        = .ok (op.once^[n] (t pos)) := by
      cases op with
      | mult mul add => exact applyMult_eq (hmul pos mul add List.mem_cons_self) _ _ hn
      | plus d =>
        simp only [opResult]
        by_cases hp : pos = minPos
        · subst hp
          obtain ⟨h1, h2⟩ := hmin d List.mem_cons_self
          simp only [bne_self_eq_false, Bool.false_eq_true, if_false, h1, if_true, h2,
            iterate_plus]
        · have : (pos != minPos) = true := by simpa using hp
          simp only [this, if_true, iterate_plus]
    simp only []
    rw [hres, bind_ok, show funTape.set t pos (op.once^[n] (t pos))
      = .ok (fun j => if j = pos then op.once^[n] (t pos) else t j) from rfl, bind_ok]
    have hnot : ∀ op', (pos, op') ∉ rule := fun op' h => hk.1 (List.mem_map.mpr ⟨(pos, op'), h, rfl⟩)
    have := ih hk.2 (fun i m a h => hmul i m a (List.mem_cons_of_mem _ h))
      (fun j => if j = pos then op.once^[n] (t pos) else t j) (by
        intro d hd
        have hne : minPos ≠ pos := by rintro rfl; exact hnot _ hd
        simp only [hne, if_false]
        exact hmin d (List.mem_cons_of_mem _ hd))
    rw [this]
    congr 1
    funext i
    rw [iterate_once, iterate_once, List.lookup_cons]
    by_cases hi : i = pos
    · subst hi
      have hl : rule.lookup i = none := by
        cases h : rule.lookup i with
        | none => rfl
        | some o =>
          exfalso
          rw [List.lookup_eq_some_iff] at h
          obtain ⟨l1, l2, h, _⟩ := h
          exact hnot o (by rw [h]; simp)
      simp [hl]
    · have hb : (i == pos) = false := by simpa using hi
      simp only [hb, hi, if_false]

end BB
