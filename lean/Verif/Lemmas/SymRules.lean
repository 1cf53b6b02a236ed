/-
Rules on symbolic counts: the strict evaluation is an evaluation of the program, and what it returns
denotes what it should.
-/
import Mathlib.Tactic.Ring
import Mathlib.Tactic.FieldSimp
import Mathlib.Tactic.Linarith
import Verif.Lemmas.NumOps
import Verif.Lemmas.NumMisc
import Verif.Spec.SymRules

namespace BB
namespace Sym

/-! ### Strict evaluation -/

/-- `x` is `y`, unless it stops with the error `strict`. -/
def RRef {α : Type} (x y : RR α) : Prop := x = .error (.num .strict) ∨ x = y

theorem RRef.rfl {α : Type} {x : RR α} : RRef x x := .inr (Eq.refl _)

theorem RRef.err {α : Type} {y : RR α} : RRef (.error (.num .strict)) y := .inl (Eq.refl _)

theorem RRef.bind {α β : Type} {x y : RR α} {f h : α → RR β} (hx : RRef x y)
    (hf : ∀ a, RRef (f a) (h a)) : RRef (x >>= f) (y >>= h) := by
  rcases hx with rfl | rfl
  · exact .inl (Eq.refl _)
  · cases x with
    | error e => exact .inr (Eq.refl _)
    | ok a => exact hf a

theorem RRef.lift {α : Type} {x y : R α} (h : Ref .strict x y) : RRef (lift x) (lift y) := by
  rcases h with rfl | rfl
  · exact .inl (Eq.refl _)
  · exact .rfl

theorem RRef.ok {α : Type} {x y : RR α} (h : RRef x y) {a : α} (hx : x = .ok a) : y = .ok a := by
  rcases h with h | h
  · rw [hx] at h; cases h
  · rw [← h, hx]

section
variable {o o' : Ops}

theorem rref_applyOp (H : RefOps .strict o o') (x : Num) (op : OpName × Int) :
    RRef (applyOp true o x op) (applyOp false o' x op) := by
  obtain ⟨name, v⟩ := op
  cases name with
  | plus => exact RRef.lift (H.add _ _)
  | times => exact RRef.lift (H.mul _ _)
  | over =>
    unfold applyOp
    simp only [Bool.true_and, decide_eq_true_eq, Bool.false_and, Bool.false_eq_true, if_false]
    split
    · exact RRef.err
    · exact RRef.lift (H.fdiv _ _)
  | pow =>
    unfold applyOp
    simp only [Bool.true_and, decide_eq_true_eq, Bool.false_and, Bool.false_eq_true, if_false]
    split
    · exact RRef.err
    · exact RRef.lift (ref_makeExp H _ _)
  | log =>
    cases x with
    | exp b e =>
      unfold applyOp
      simp only [Bool.true_and, decide_eq_true_eq, Bool.false_and, Bool.false_eq_true, if_false]
      split
      · exact RRef.err
      · exact RRef.rfl
    | _ => exact RRef.rfl

theorem rref_applySeq (H : RefOps .strict o o') (s : OpSeq) (x : Num) :
    RRef (applySeq true o s x) (applySeq false o' s x) := by
  induction s generalizing x with
  | nil => exact RRef.rfl
  | cons op rest ih => exact RRef.bind (rref_applyOp H x op) fun y => ih y

theorem rref_applySeqTimes (H : RefOps .strict o o') (s : OpSeq) (n : Nat) (x : Num) :
    RRef (applySeqTimes true o s n x) (applySeqTimes false o' s n x) := by
  induction n generalizing x with
  | zero => exact RRef.rfl
  | succ n ih => exact RRef.bind (rref_applySeq H s x) fun y => ih y

theorem rref_applyOps (H : RefOps .strict o o') (count times : Num) (s : OpSeq) :
    RRef (applyOps true o count times s) (applyOps false o' count times s) := by
  unfold applyOps
  split
  · exact rref_applySeqTimes H s _ _
  · exact RRef.rfl

theorem rref_calculateOpSeq (H : RefOps .strict o o') (c1 c2 c3 c4 : Num) :
    RRef (calculateOpSeq true o c1 c2 c3 c4) (calculateOpSeq false o' c1 c2 c3 c4) := by
  unfold calculateOpSeq
  refine RRef.bind RRef.rfl fun ⟨down, sub⟩ => RRef.bind RRef.rfl fun up => ?_
  refine RRef.bind (rref_applyOps H _ _ _) fun x => ?_
  split
  · exact RRef.rfl
  · exact RRef.bind (rref_applyOps H _ _ _) fun y => RRef.rfl

theorem ref_ascending (H : RefOps .strict o o') (c1 c2 c3 c4 : Num) :
    Ref .strict (ascending o c1 c2 c3 c4) (ascending o' c1 c2 c3 c4) :=
  Ref.andR (H.lt _ _) (Ref.andR (H.lt _ _) (H.lt _ _))

theorem rref_calculateDiffRest (H : RefOps .strict o o') (c1 c2 c3 c4 : Num) :
    RRef (calculateDiffRest true o c1 c2 c3 c4) (calculateDiffRest false o' c1 c2 c3 c4) := by
  unfold calculateDiffRest
  split
  · exact RRef.rfl
  · exact RRef.rfl
  · split
    · exact RRef.rfl
    · exact RRef.bind (rref_calculateOpSeq H _ _ _ _) fun _ => RRef.rfl

theorem ref_sameDiff (H : RefOps .strict o o') (plus c2 c3 c4 : Num) :
    Ref .strict (sameDiff o plus c2 c3 c4) (sameDiff o' plus c2 c3 c4) := by
  unfold sameDiff
  refine Ref.bind (H.sub _ _) fun d2 => ?_
  split
  · exact Ref.bind (H.sub _ _) fun _ => Ref.rfl
  · exact Ref.rfl

theorem rref_calculateDiff (H : RefOps .strict o o') (c1 c2 c3 c4 : Num) :
    RRef (calculateDiff true o c1 c2 c3 c4) (calculateDiff false o' c1 c2 c3 c4) := by
  unfold calculateDiff
  split
  · exact RRef.rfl
  refine RRef.bind (RRef.lift (H.sub _ _)) fun plus => ?_
  refine RRef.bind (RRef.lift (ref_sameDiff H _ _ _ _)) fun same => ?_
  split
  · exact RRef.rfl
  · rcases ref_ascending H c1 c2 c3 c4 with h | h
    · rw [h]
      exact RRef.err
    · rw [h]
      split
      · exact rref_calculateDiffRest H _ _ _ _
      · exact RRef.rfl
      · exact RRef.rfl
      · exact rref_calculateDiffRest H _ _ _ _

theorem ref_numDivmod (H : RefOps .strict o o') (x : Num) (d : Int) :
    Ref .strict (numDivmod true o x d) (numDivmod false o' x d) := by
  unfold numDivmod
  split
  · exact Ref.rfl
  · split
    · exact Ref.rfl
    · exact Ref.bind (ref_numMod2 H _ _) fun _ => Ref.bind (H.sub _ _) fun _ =>
        Ref.bind (H.fdiv _ _) fun _ => Ref.rfl

theorem ref_appsOf (H : RefOps .strict o o') (x : Num) (d : Int) :
    Ref .strict (appsOf true o x d) (appsOf false o' x d) := by
  unfold appsOf
  refine Ref.bind (ref_numDivmod H x d) fun ⟨div, rem⟩ => ?_
  dsimp only
  split
  · exact Ref.rfl
  · exact Ref.bind (H.sub _ _) fun _ => Ref.rfl

theorem rref_countAppsFrom (H : RefOps .strict o o') (t : Index → Num) (rule : SRule)
    (apps : Option (Num × Index × Int)) :
    RRef (countAppsFrom true o t rule apps) (countAppsFrom false o' t rule apps) := by
  induction rule generalizing apps with
  | nil => exact RRef.rfl
  | cons e rest ih =>
    obtain ⟨pos, op⟩ := e
    cases op with
    | plus d =>
      unfold countAppsFrom
      split
      · exact ih _
      split
      · exact RRef.rfl
      · refine RRef.bind (RRef.lift (ref_appsOf H _ _)) fun ⟨times, r⟩ => ?_
        dsimp only
        split
        · exact ih _
        · refine RRef.bind (RRef.lift (H.lt _ _)) fun less => ?_
          split
          · exact ih _
          · exact ih _
    | mult m a => exact ih _
    | seq s => exact ih _

theorem rref_applyMult (H : RefOps .strict o o') (count times : Num) (m a : Int) :
    RRef (applyMult o count times m a) (applyMult o' count times m a) := by
  unfold applyMult
  split
  · exact RRef.rfl
  · refine RRef.lift (Ref.bind ?_ fun x => ?_)
    · unfold multExp
      split
      · exact Ref.rfl
      · exact ref_makeExp H _ _
    · split
      · exact H.mul _ _
      · exact Ref.bind (H.mul _ _) fun _ => Ref.bind (H.sub _ _) fun _ => Ref.bind (H.fdiv _ _)
          fun _ => Ref.bind (H.add _ _) fun _ => Ref.bind (H.mul _ _) fun _ => H.add _ _

theorem rref_opResult (H : RefOps .strict o o') (times : Num) (p : Index) (r : Int) (i : Index)
    (count : Num) (op : SOp) :
    RRef (opResult true o times p r i count op) (opResult false o' times p r i count op) := by
  cases op with
  | plus d =>
    simp only [opResult]
    split
    · exact RRef.lift (Ref.bind (H.mul _ _) fun _ => H.add _ _)
    · exact RRef.rfl
  | mult m a => exact rref_applyMult H _ _ _ _
  | seq s => exact rref_applyOps H _ _ _

theorem rref_applyRuleFrom (H : RefOps .strict o o') (times : Num) (p : Index) (r : Int)
    (rule : SRule) (t : Index → Num) :
    RRef (applyRuleFrom true o times p r rule t) (applyRuleFrom false o' times p r rule t) := by
  induction rule generalizing t with
  | nil => exact RRef.rfl
  | cons e rest ih => exact RRef.bind (rref_opResult H _ _ _ _ _ _) fun _ => ih _

theorem rref_applyRule (H : RefOps .strict o o') (rule : SRule) (t : Index → Num) :
    RRef (applyRule true o rule t) (applyRule false o' rule t) := by
  unfold applyRule
  refine RRef.bind (rref_countAppsFrom H t rule none) fun apps => ?_
  split
  · exact RRef.rfl
  · exact RRef.bind (rref_applyRuleFrom H _ _ _ _ _) fun _ => RRef.rfl

end

/-! ### What is returned -/

/-- Every value returned satisfies `P`. -/
def RRet {α : Type} (x : RR α) (P : α → Prop) : Prop := ∀ c, x = .ok c → P c

theorem RRet.ok {α : Type} {a : α} {P : α → Prop} (h : P a) : RRet (.ok a) P := by
  intro c hc; cases hc; exact h

theorem RRet.error {α : Type} {e : RErr} {P : α → Prop} : RRet (.error e : RR α) P := by
  intro c hc; cases hc

theorem RRet.throw {α : Type} {e : RErr} {P : α → Prop} : RRet (throw e : RR α) P := by
  intro c hc; cases hc

theorem RRet.bind {α β : Type} {x : RR α} {f : α → RR β} {Q : α → Prop} {P : β → Prop}
    (hx : RRet x Q) (hf : ∀ a, Q a → RRet (f a) P) : RRet (x >>= f) P := by
  intro c hc
  cases x with
  | error e => cases hc
  | ok a => exact hf a (hx a rfl) c hc

theorem RRet.any {α : Type} {x : RR α} : RRet x (fun _ => True) := fun _ _ => trivial

theorem RRet.mono {α : Type} {x : RR α} {P Q : α → Prop} (h : RRet x P) (hpq : ∀ a, P a → Q a) :
    RRet x Q := fun c hc => hpq c (h c hc)

theorem RRet.lift {α : Type} {x : R α} {P : α → Prop} (h : Ret x P) : RRet (lift x) P := by
  intro c hc
  cases x with
  | error e => cases hc
  | ok a =>
    cases hc
    exact h _ rfl

theorem RRet.self {α : Type} {x : RR α} : RRet x (fun c => x = .ok c) := fun _ h => h

theorem RRet.and {α : Type} {x : RR α} {P Q : α → Prop} (h : RRet x P) (h' : RRet x Q) :
    RRet x (fun c => P c ∧ Q c) := fun c hc => ⟨h c hc, h' c hc⟩

section
variable {o : Ops}

/-- The number of an operation that the strict evaluation lets through. -/
def OpOk : OpName × Int → Prop
  | (.plus, _) => True
  | (.times, _) => True
  | (.over, v) => 0 < v
  | (.pow, v) => 0 < v
  | (.log, v) => 1 < v

theorem rret_applyOp (S : Sound true o) {x : Num} (hx : K true x) (op : OpName × Int) :
    RRet (applyOp true o x op) (fun y => Is true (op.1.act op.2 x.val) y ∧ OpOk op) := by
  obtain ⟨name, v⟩ := op
  cases name with
  | plus => exact (RRet.lift (S.add hx (K_int v))).mono fun y h => ⟨h, trivial⟩
  | times => exact (RRet.lift (S.mul hx (K_int v))).mono fun y h => ⟨h, trivial⟩
  | over =>
    unfold applyOp
    simp only [Bool.true_and, decide_eq_true_eq]
    split
    · exact RRet.error
    · rename_i hv
      exact (RRet.lift (S.fdiv rfl hx (K_int v) (val_pos (by omega)))).mono
        fun y h => ⟨h, not_le.mp hv⟩
  | pow =>
    unfold applyOp
    simp only [Bool.true_and, decide_eq_true_eq]
    split
    · exact RRet.error
    · rename_i hv
      exact (RRet.lift (ret_makeExp S (not_le.mp hv) hx)).mono fun y h => ⟨h, not_le.mp hv⟩
  | log =>
    cases x with
    | exp b e =>
      unfold applyOp
      simp only [Bool.true_and, decide_eq_true_eq]
      split
      · exact RRet.error
      · rename_i hv
        have hb : b = v := by
          by_contra h
          exact hv (.inl h)
        have hv1 : 1 < v := by
          by_contra h
          exact hv (.inr (by omega))
        subst hb
        refine RRet.ok ⟨⟨hx.2, ?_⟩, hv1⟩
        have h0 : (0 : ℝ) < b := by exact_mod_cast (by omega : 0 < b)
        have h1 : (b : ℝ) ≠ 1 := by exact_mod_cast (by omega : b ≠ 1)
        exact (Real.logb_rpow h0 h1).symm
    | _ => exact RRet.error

theorem rret_applySeq (S : Sound true o) (s : OpSeq) {x : Num} (hx : K true x) :
    RRet (applySeq true o s x) (fun y => Is true (OpSeq.act s x.val) y ∧ ∀ op ∈ s, OpOk op) := by
  induction s generalizing x with
  | nil => exact RRet.ok ⟨⟨hx, rfl⟩, by simp⟩
  | cons op rest ih =>
    refine RRet.bind (rret_applyOp S hx op) ?_
    rintro y ⟨⟨ky, vy⟩, hop⟩
    refine (ih ky).mono fun z hz => ⟨?_, ?_⟩
    · rw [OpSeq.act, ← vy]
      exact hz.1
    · intro op' h
      rcases List.mem_cons.mp h with rfl | h
      · exact hop
      · exact hz.2 op' h

theorem rret_applySeqTimes (S : Sound true o) (s : OpSeq) (n : Nat) {x : Num} (hx : K true x) :
    RRet (applySeqTimes true o s n x) (Is true ((OpSeq.act s)^[n] x.val)) := by
  induction n generalizing x with
  | zero => exact RRet.ok ⟨hx, rfl⟩
  | succ n ih =>
    refine RRet.bind (rret_applySeq S s hx) ?_
    rintro y ⟨⟨ky, vy⟩, -⟩
    rw [Function.iterate_succ_apply, ← vy]
    exact ih ky

theorem descend_spec (sup : Num) (n : Nat) (sub : Num) :
    RRet (descend sup n sub) (fun r => (∀ op ∈ r.1, OpOk op) → (K true sub) →
      K true r.2 ∧ OpSeq.act r.1 sub.val = r.2.val) := by
  induction n generalizing sub with
  | zero => exact RRet.error
  | succ n ih =>
    unfold descend
    refine RRet.bind RRet.any fun b _ => ?_
    split
    · exact RRet.ok fun _ hk => ⟨hk, rfl⟩
    split
    · exact RRet.throw
    · rename_i l r
      refine RRet.bind (ih r) ?_
      rintro ⟨s, x⟩ hs
      refine RRet.ok fun h hk => ?_
      obtain ⟨k, v⟩ := hs (fun op hop => h op (List.mem_cons_of_mem _ hop)) hk.2
      refine ⟨k, ?_⟩
      rw [← v]
      show OpSeq.act s _ = _
      congr 1
      simp [OpName.act]
    · exact RRet.throw
    · rename_i l r
      refine RRet.bind (ih r) ?_
      rintro ⟨s, x⟩ hs
      refine RRet.ok fun h hk => ?_
      obtain ⟨k, v⟩ := hs (fun op hop => h op (List.mem_cons_of_mem _ hop)) hk.2
      refine ⟨k, ?_⟩
      have hl : 0 < l := h _ (List.mem_cons_self ..)
      have hl' : (l : ℝ) ≠ 0 := by exact_mod_cast hl.ne'
      rw [← v]
      show OpSeq.act s _ = _
      congr 1
      simp only [OpName.act, val_mul, val_int]
      field_simp
    · exact RRet.throw
    · rename_i num den
      refine RRet.bind (ih num) ?_
      rintro ⟨s, x⟩ hs
      refine RRet.ok fun h hk => ?_
      obtain ⟨k, v⟩ := hs (fun op hop => h op (List.mem_cons_of_mem _ hop)) hk.2.1
      refine ⟨k, ?_⟩
      have hd' : (den : ℝ) ≠ 0 := by exact_mod_cast hk.2.2.ne'
      rw [← v]
      show OpSeq.act s _ = _
      congr 1
      simp only [OpName.act, val_div]
      field_simp
    · exact RRet.throw
    · rename_i b e _
      refine RRet.bind (ih e) ?_
      rintro ⟨s, x⟩ hs
      refine RRet.ok fun h hk => ?_
      obtain ⟨k, v⟩ := hs (fun op hop => h op (List.mem_cons_of_mem _ hop)) hk.2
      refine ⟨k, ?_⟩
      have hb : 1 < b := h _ (List.mem_cons_self ..)
      have h0 : (0 : ℝ) < b := by exact_mod_cast (by omega : 0 < b)
      have h1 : (b : ℝ) ≠ 1 := by exact_mod_cast (by omega : b ≠ 1)
      rw [← v]
      show OpSeq.act s _ = _
      congr 1
      exact Real.logb_rpow h0 h1

theorem OpSeq.act_append (s s' : OpSeq) (x : ℝ) :
    OpSeq.act (s ++ s') x = OpSeq.act s' (OpSeq.act s x) := by
  induction s generalizing x with
  | nil => rfl
  | cons op rest ih => exact ih _

theorem ascend_spec (sub : Num) (n : Nat) (sup : Num) :
    RRet (ascend sub n sup) (fun s => OpSeq.act s.reverse sub.val = sup.val) := by
  have push : ∀ (s : OpSeq) (op : OpName × Int) {v : ℝ}, OpSeq.act s.reverse sub.val = v →
      OpSeq.act (op :: s).reverse sub.val = op.1.act op.2 v := by
    intro s op v h
    rw [List.reverse_cons, OpSeq.act_append, h]
    rfl
  induction n generalizing sup with
  | zero => exact RRet.error
  | succ n ih =>
    unfold ascend
    split
    · rename_i h
      exact RRet.ok (by rw [h]; rfl)
    split
    · exact RRet.error
    · refine RRet.bind (ih _) fun s hs => RRet.ok ?_
      rw [push _ _ hs]
      simp only [OpName.act, val_add, val_int]
      ring
    · exact RRet.error
    · refine RRet.bind (ih _) fun s hs => RRet.ok ?_
      rw [push _ _ hs]
      simp only [OpName.act, val_mul, val_int]
      ring
    · exact RRet.error
    · exact RRet.bind (ih _) fun s hs => RRet.ok (push _ _ hs)
    · exact RRet.error
    · exact RRet.bind (ih _) fun s hs => RRet.ok (push _ _ hs)

/-- A count whose `int()` is the number it denotes, and whose remainders the strict evaluation takes
right. -/
structure Sized (a : Num) (z : Int) : Prop where
  wf : a.WF
  exact : a.Exact
  big : a.BigExp
  toInt : a.toInt = some z
  pos : 0 < z

theorem ret_numDivmod (S : Sound true o) {x : Num} {z : Int} (hx : Sized x z) {d : Int} (hd : 0 < d) :
    Ret (numDivmod true o x d)
      (fun r => K true r.1 ∧ r.1.val = ((z / d : Int) : ℝ) ∧ r.2 = z % d) := by
  unfold numDivmod
  split
  · rename_i n
    have hz : n = z := by
      have := hx.toInt
      simpa [Num.toInt] using this
    subst hz
    rw [if_neg hd.ne']
    exact Ret.ok ⟨trivial, by rw [val_int, fdiv_pos' hd], fmod_pos hd⟩
  · rename_i hni
    have hv := Num.val_toInt hx.wf hx.exact hx.toInt
    have hk : K true x := K_true.mpr hx.wf
    split
    · rename_i h1
      subst h1
      exact Ret.ok ⟨hk, by simp [hv], by simp⟩
    · refine Ret.bind (numMod_spec o hx.wf hx.exact hx.big hx.toInt hd) ?_
      rintro m rfl
      refine Ret.bind (S.sub hk (K_int _)) ?_
      rintro y ⟨ky, vy⟩
      refine Ret.bind (S.fdiv rfl ky (K_int d) (val_pos hd)) ?_
      rintro q ⟨kq, vq⟩
      refine Ret.pure ⟨kq, ?_, rfl⟩
      have hd' : (d : ℝ) ≠ 0 := by exact_mod_cast hd.ne'
      have hdiv : (z : ℝ) = d * ((z / d : Int) : ℝ) + ((z % d : Int) : ℝ) := by
        exact_mod_cast (Int.mul_ediv_add_emod z d).symm
      show q.val = _
      rw [vq, vy, hv, val_int, val_int]
      field_simp
      linarith

theorem ret_appsOf (S : Sound true o) {x : Num} {z : Int} (hx : Sized x z) {d : Int} (hd : 0 < d) :
    Ret (appsOf true o x d)
      (fun r => K true r.1 ∧ r.1.val = (((z - 1) / d : Int) : ℝ) ∧ r.2 = (z - 1) % d + 1) := by
  unfold appsOf
  refine Ret.bind (ret_numDivmod S hx hd) ?_
  rintro ⟨q, r⟩ ⟨kq, vq, hr⟩
  dsimp only at kq vq hr ⊢
  have e := Int.mul_ediv_add_emod z d
  have h0 := Int.emod_nonneg z hd.ne'
  have h1 := Int.emod_lt_of_pos z hd
  split
  · rename_i hpos
    have hq : (z - 1) / d = z / d ∧ (z - 1) % d = z % d - 1 := by
      have hpos' : 0 < z % d := by rw [← hr]; exact hpos
      exact (Int.ediv_emod_unique hd).mpr ⟨by linarith, by omega, by omega⟩
    refine Ret.pure ⟨kq, ?_, ?_⟩
    · rw [hq.1]
      exact vq
    · rw [hq.2, hr]
      ring
  · rename_i hpos
    have hz : z % d = 0 := by rw [hr] at hpos; omega
    have hq : (z - 1) / d = z / d - 1 ∧ (z - 1) % d = d - 1 := by
      refine (Int.ediv_emod_unique hd).mpr ⟨?_, by omega, by omega⟩
      rw [mul_sub]
      linarith
    refine Ret.bind (S.sub kq (K_int 1)) ?_
    rintro y ⟨ky, vy⟩
    refine Ret.pure ⟨ky, ?_, ?_⟩
    · show y.val = _
      rw [hq.1, vy, vq, val_int]
      push_cast
      ring
    · rw [hq.2]
      ring

/-- The positions from which a rule takes. -/
def SRule.Takes (rule : SRule) (i : Index) (d : Int) : Prop := (i, SOp.plus d) ∈ rule ∧ d < 0

theorem SRule.Takes.tail {e : Index × SOp} {rule : SRule} {i : Index} {d : Int}
    (h : SRule.Takes rule i d) : SRule.Takes (e :: rule) i d := ⟨List.mem_cons_of_mem _ h.1, h.2⟩

/-- What `count_apps` returns is one of the counts of applications. -/
theorem countAppsFrom_some (strict : Bool) (t : Index → Num) (rule : SRule)
    (apps : Option (Num × Index × Int)) :
    RRet (countAppsFrom strict o t rule apps) (fun r => ∀ times p m, r = some (times, p, m) →
      apps = some (times, p, m) ∨
      ∃ d, SRule.Takes rule p d ∧ appsOf strict o (t p) (-d) = .ok (times, m)) := by
  induction rule generalizing apps with
  | nil => exact RRet.ok fun _ _ _ h => .inl h
  | cons e rest ih =>
    obtain ⟨pos, op⟩ := e
    have tail : ∀ apps', (∀ times p m, apps' = some (times, p, m) → apps = some (times, p, m) ∨
        ∃ d, SRule.Takes ((pos, op) :: rest) p d ∧ appsOf strict o (t p) (-d) = .ok (times, m)) →
        RRet (countAppsFrom strict o t rest apps') (fun r => ∀ times p m, r = some (times, p, m) →
          apps = some (times, p, m) ∨ ∃ d, SRule.Takes ((pos, op) :: rest) p d ∧
            appsOf strict o (t p) (-d) = .ok (times, m)) := by
      intro apps' h
      refine (ih apps').mono fun r hr times p m e => ?_
      rcases hr times p m e with h' | ⟨d, hd, h'⟩
      · exact h _ _ _ h'
      · exact .inr ⟨d, hd.tail, h'⟩
    cases op with
    | plus d =>
      unfold countAppsFrom
      split
      · exact tail _ fun _ _ _ h => .inl h
      split
      · exact RRet.ok fun _ _ _ h => by cases h
      · rename_i hd _
        cases happ : appsOf strict o (t pos) (-d) with
        | error e => exact RRet.error
        | ok r =>
          obtain ⟨times, m⟩ := r
          have new : ∀ times' p' m', some (times, pos, m) = some (times', p', m') →
              apps = some (times', p', m') ∨ ∃ d', SRule.Takes ((pos, .plus d) :: rest) p' d' ∧
                appsOf strict o (t p') (-d') = .ok (times', m') := by
            intro _ _ _ h
            cases h
            exact .inr ⟨d, ⟨List.mem_cons_self .., by omega⟩, happ⟩
          refine RRet.bind (x := lift (.ok (times, m))) (Q := fun r => r = (times, m))
            (RRet.ok rfl) ?_
          rintro _ rfl
          dsimp only
          split
          · exact tail _ new
          · refine RRet.bind RRet.any fun less _ => ?_
            split
            · exact tail _ new
            · exact tail _ fun _ _ _ h => .inl h
    | mult m a => exact tail _ fun _ _ _ h => .inl h
    | seq s => exact tail _ fun _ _ _ h => .inl h

/-- Without a result nothing is taken, or a count is too small. -/
theorem countAppsFrom_none (strict : Bool) (t : Index → Num) (rule : SRule)
    (apps : Option (Num × Index × Int)) :
    RRet (countAppsFrom strict o t rule apps) (fun r => r = none →
      (apps = none ∧ ∀ i d, ¬ SRule.Takes rule i d) ∨
      ∃ i d n, SRule.Takes rule i d ∧ t i = .int n ∧ n ≤ -d) := by
  induction rule generalizing apps with
  | nil => exact RRet.ok fun h => .inl ⟨h, fun i d h => by simp [SRule.Takes] at h⟩
  | cons e rest ih =>
    obtain ⟨pos, op⟩ := e
    have tail : (∀ i d, ¬ (op = .plus d ∧ d < 0 ∧ i = pos)) →
        RRet (countAppsFrom strict o t rest apps) (fun r => r = none →
          (apps = none ∧ ∀ i d, ¬ SRule.Takes ((pos, op) :: rest) i d) ∨
          ∃ i d n, SRule.Takes ((pos, op) :: rest) i d ∧ t i = .int n ∧ n ≤ -d) := by
      intro hno
      refine (ih apps).mono fun r hr e => ?_
      rcases hr e with ⟨h1, h2⟩ | ⟨i, d, n, h1, h2⟩
      · refine .inl ⟨h1, fun i d h => ?_⟩
        rcases List.mem_cons.mp h.1 with h' | h'
        · cases h'
          exact hno _ _ ⟨rfl, h.2, rfl⟩
        · exact h2 i d ⟨h', h.2⟩
      · exact .inr ⟨i, d, n, h1.tail, h2⟩
    cases op with
    | plus d =>
      unfold countAppsFrom
      split
      · rename_i hd
        exact tail fun i d' h => by
          obtain ⟨h1, h2, -⟩ := h
          cases h1
          omega
      split
      · rename_i hd hsmall
        refine RRet.ok fun _ => .inr ?_
        unfold tooSmall at hsmall
        split at hsmall
        · rename_i n hn
          exact ⟨pos, d, n, ⟨List.mem_cons_self .., by omega⟩, hn, by simpa using hsmall⟩
        · cases hsmall
      · have some' : ∀ a, RRet (countAppsFrom strict o t rest (some a)) (fun r => r = none →
            (apps = none ∧ ∀ i d', ¬ SRule.Takes ((pos, .plus d) :: rest) i d') ∨
            ∃ i d' n, SRule.Takes ((pos, .plus d) :: rest) i d' ∧ t i = .int n ∧ n ≤ -d') := by
          intro a
          refine (ih (some a)).mono fun r hr e => ?_
          rcases hr e with ⟨h1, h2⟩ | ⟨i, d, n, h1, h2⟩
          · cases h1
          · exact .inr ⟨i, d, n, h1.tail, h2⟩
        refine RRet.bind RRet.any ?_
        rintro ⟨times, m⟩ -
        dsimp only
        split
        · exact some' _
        · refine RRet.bind RRet.any fun less _ => ?_
          split
          · exact some' _
          · exact some' _
    | mult m a => exact tail fun _ _ h => by cases h.1
    | seq s => exact tail fun _ _ h => by cases h.1

/-- When the comparisons are right, `count_apps` returns the least. -/
theorem countAppsFrom_least (strict : Bool) (t : Index → Num) (rule : SRule) (A : Num → Prop)
    (hA : ∀ a b, A a → A b → Ret (o.lt a b) (fun r => r = true ↔ a.val < b.val))
    (hrule : ∀ i d, SRule.Takes rule i d → Ret (appsOf strict o (t i) (-d)) (fun r => A r.1))
    (apps : Option (Num × Index × Int)) (happs : ∀ x, apps = some x → A x.1) :
    RRet (countAppsFrom strict o t rule apps) (fun r => ∀ times p m, r = some (times, p, m) →
      (∀ x, apps = some x → times.val ≤ x.1.val) ∧
      ∀ i d, SRule.Takes rule i d → Ret (appsOf strict o (t i) (-d))
        (fun r => times.val ≤ r.1.val)) := by
  induction rule generalizing apps with
  | nil =>
    refine RRet.ok fun times p m h => ⟨fun x hx => ?_, fun i d h => by simp [SRule.Takes] at h⟩
    rw [h] at hx
    cases hx
    exact le_rfl
  | cons e rest ih =>
    obtain ⟨pos, op⟩ := e
    have hrest : ∀ i d, SRule.Takes rest i d → Ret (appsOf strict o (t i) (-d)) (fun r => A r.1) :=
      fun i d h => hrule i d h.tail
    have tail : (∀ i d, ¬ (op = .plus d ∧ d < 0 ∧ i = pos)) →
        RRet (countAppsFrom strict o t rest apps) (fun r => ∀ times p m, r = some (times, p, m) →
          (∀ x, apps = some x → times.val ≤ x.1.val) ∧
          ∀ i d, SRule.Takes ((pos, op) :: rest) i d → Ret (appsOf strict o (t i) (-d))
            (fun r => times.val ≤ r.1.val)) := by
      intro hno
      refine (ih hrest apps happs).mono fun r hr times p m e => ?_
      obtain ⟨h1, h2⟩ := hr times p m e
      refine ⟨h1, fun i d h => ?_⟩
      rcases List.mem_cons.mp h.1 with h' | h'
      · cases h'
        exact absurd ⟨rfl, h.2, rfl⟩ (hno _ _)
      · exact h2 i d ⟨h', h.2⟩
    cases op with
    | plus d =>
      unfold countAppsFrom
      split
      · rename_i hd
        exact tail fun i d' h => by
          obtain ⟨h1, h2, -⟩ := h
          cases h1
          omega
      split
      · exact RRet.ok fun _ _ _ h => by cases h
      · rename_i hd _
        have hself : SRule.Takes ((pos, .plus d) :: rest) pos d := ⟨List.mem_cons_self .., by omega⟩
        cases happ : appsOf strict o (t pos) (-d) with
        | error e => exact RRet.error
        | ok r =>
          obtain ⟨new, m⟩ := r
          have hnew : A new := hrule pos d hself _ happ
          -- continue with `acc`, which is below both
          have go : ∀ acc : Num × Index × Int, A acc.1 → acc.1.val ≤ new.val →
              (∀ x, apps = some x → acc.1.val ≤ x.1.val) →
              RRet (countAppsFrom strict o t rest (some acc)) (fun r => ∀ times p m,
                r = some (times, p, m) → (∀ x, apps = some x → times.val ≤ x.1.val) ∧
                ∀ i d', SRule.Takes ((pos, .plus d) :: rest) i d' → Ret (appsOf strict o (t i) (-d'))
                  (fun r => times.val ≤ r.1.val)) := by
            intro acc hacc hle hold
            refine (ih hrest (some acc) (fun x hx => by cases hx; exact hacc)).mono
              fun r hr times p m' e => ?_
            obtain ⟨h1, h2⟩ := hr times p m' e
            have h1 := h1 acc rfl
            refine ⟨fun x hx => le_trans h1 (hold x hx), fun i d' h => ?_⟩
            rcases List.mem_cons.mp h.1 with h' | h'
            · cases h'
              intro c hc
              rw [happ] at hc
              cases hc
              exact le_trans h1 hle
            · exact h2 i d' ⟨h', h.2⟩
          refine RRet.bind (x := lift (.ok (new, m))) (Q := fun r => r = (new, m))
            (RRet.ok rfl) ?_
          rintro _ rfl
          dsimp only
          split
          · exact go _ hnew le_rfl fun x hx => by cases hx
          · rename_i curr p' r'
            have hcurr : A curr := happs _ rfl
            refine RRet.bind (RRet.lift (hA new curr hnew hcurr)) fun less hless => ?_
            split
            · rename_i hl
              refine go _ hnew le_rfl fun x hx => ?_
              cases hx
              exact (hless.mp hl).le
            · rename_i hl
              refine go _ hcurr (not_lt.mp fun hh => hl (hless.mpr hh)) fun x hx => ?_
              cases hx
              exact le_rfl
    | mult m a => exact tail fun _ _ h => by cases h.1
    | seq s => exact tail fun _ _ h => by cases h.1

/-! ### `apply_rule` -/

theorem iterate_affine {m : ℝ} (hm : m ≠ 1) (a v : ℝ) (n : Nat) :
    (fun x => x * m + a)^[n] v = v * m ^ n + a * (1 + (m ^ n - m) / (m - 1)) := by
  have hm' : m - 1 ≠ 0 := sub_ne_zero.mpr hm
  induction n generalizing v with
  | zero => field_simp; simp
  | succ n ih =>
    rw [Function.iterate_succ_apply, ih]
    field_simp
    ring

theorem rret_applyMult (S : Sound true o) {count times : Num} (hc : K true count)
    (ht : K true times) {n : Nat} (hn : times.val = n) {m : Int} (hm : 1 < m) (a : Int) :
    RRet (applyMult o count times m a) (Is true ((fun x : ℝ => x * m + a)^[n] count.val)) := by
  have hm1 : (m : ℝ) ≠ 1 := by exact_mod_cast (by omega : m ≠ 1)
  unfold applyMult
  split
  · exact RRet.error
  · refine RRet.lift (Ret.bind (Q := Is true ((m : ℝ) ^ n)) ?_ ?_)
    · unfold multExp
      split
      · rename_i h1
        refine Ret.ok ⟨trivial, ?_⟩
        have : n = 1 := by
          rw [h1, val_int] at hn
          exact_mod_cast hn.symm
        rw [this]
        simp
      · refine (ret_makeExp S (by omega) ht).congr ?_
        rw [hn, Real.rpow_natCast]
    · rintro x ⟨kx, vx⟩
      rw [iterate_affine hm1]
      split
      · rename_i h0
        refine (S.mul hc kx).congr ?_
        rw [vx, h0]
        simp
      · refine Ret.bind (S.mul hc kx) ?_
        rintro x1 ⟨k1, v1⟩
        refine Ret.bind (S.sub kx (K_int m)) ?_
        rintro x2 ⟨k2, v2⟩
        refine Ret.bind (S.fdiv rfl k2 (K_int (m - 1)) (val_pos (by omega))) ?_
        rintro x3 ⟨k3, v3⟩
        refine Ret.bind (S.add (K_int 1) k3) ?_
        rintro x4 ⟨k4, v4⟩
        refine Ret.bind (S.mul (K_int a) k4) ?_
        rintro x5 ⟨k5, v5⟩
        refine (S.add k1 k5).congr ?_
        rw [v1, v5, v4, v3, v2, vx]
        simp

theorem iterate_add (d v : ℝ) (n : Nat) : (fun x => x + d)^[n] v = v + d * n := by
  induction n generalizing v with
  | zero => simp
  | succ n ih =>
    rw [Function.iterate_succ_apply, ih]
    push_cast
    ring

theorem rret_opResult (S : Sound true o) {times : Num} (ht : K true times) {n : Nat}
    (hn : times.val = n) {p i : Index} {r : Int} {count : Num} (hc : K true count) (op : SOp)
    (hm : ∀ m a, op = .mult m a → 1 < m)
    (hp : i = p → ∀ d, op = .plus d → (r : ℝ) = count.val + d * n) :
    RRet (opResult true o times p r i count op) (Is true (op.act^[n] count.val)) := by
  cases op with
  | plus d =>
    simp only [opResult]
    rw [show SOp.act (.plus d) = fun x => x + (d : ℝ) from rfl, iterate_add]
    split
    · refine RRet.lift (Ret.bind (S.mul (K_int d) ht) ?_)
      rintro x ⟨kx, vx⟩
      refine (S.add hc kx).congr ?_
      rw [vx, hn, val_int]
    · rename_i h
      split
      · exact RRet.ok ⟨trivial, hp (not_not.mp h) d rfl⟩
      · exact RRet.error
  | mult m a => exact rret_applyMult S hc ht hn (hm m a rfl) a
  | seq s =>
    simp only [opResult, applyOps]
    split
    · rename_i k
      have : k.toNat = n := by
        have : (k : ℝ) = ((n : Int) : ℝ) := by rw [val_int] at hn; exact_mod_cast hn
        have : k = n := by exact_mod_cast this
        omega
      rw [this]
      exact rret_applySeqTimes S s n hc
    · exact RRet.error

theorem lookup_none_of_not_mem {rule : SRule} {i : Index} (h : i ∉ rule.map Prod.fst) :
    rule.lookup i = none := by
  induction rule with
  | nil => rfl
  | cons e rest ih =>
    obtain ⟨pos, op⟩ := e
    simp only [List.map_cons, List.mem_cons, not_or] at h
    rw [List.lookup_cons, show (i == pos) = false by simpa using h.1]
    exact ih h.2

theorem applyRuleFrom_each (strict : Bool) (times : Num) (p : Index) (r : Int) (rule : SRule)
    (hk : (rule.map Prod.fst).Nodup) (t : Index → Num) :
    RRet (applyRuleFrom strict o times p r rule t) (fun t' => ∀ i,
      (rule.lookup i = none → t' i = t i) ∧
      ∀ op, rule.lookup i = some op → opResult strict o times p r i (t i) op = .ok (t' i)) := by
  induction rule generalizing t with
  | nil => exact RRet.ok fun i => ⟨fun _ => rfl, fun op h => by cases h⟩
  | cons e rest ih =>
    obtain ⟨pos, op⟩ := e
    simp only [List.map_cons, List.nodup_cons] at hk
    unfold applyRuleFrom
    refine RRet.bind RRet.self fun x hx => ?_
    refine (ih hk.2 _).mono fun t' ht' i => ?_
    rw [List.lookup_cons]
    by_cases hi : i = pos
    · subst hi
      simp only [beq_self_eq_true]
      refine ⟨(by intro h; cases h), fun op' h => ?_⟩
      cases h
      rw [(ht' i).1 (lookup_none_of_not_mem hk.1), if_pos rfl]
      exact hx
    · rw [show (i == pos) = false by simpa using hi]
      simpa only [if_neg hi] using ht' i

theorem act_iterate (rule : SRule) (v : Index → ℝ) (n : Nat) (i : Index) :
    (SRule.act rule)^[n] v i = match rule.lookup i with
      | none => v i
      | some op => op.act^[n] (v i) := by
  induction n generalizing v with
  | zero => cases rule.lookup i <;> rfl
  | succ n ih =>
    rw [Function.iterate_succ_apply, ih]
    unfold SRule.act
    cases rule.lookup i with
    | none => rfl
    | some op => rfl

theorem mem_of_lookup {rule : SRule} {i : Index} {op : SOp} (h : rule.lookup i = some op) :
    (i, op) ∈ rule := by
  induction rule with
  | nil => cases h
  | cons e rest ih =>
    obtain ⟨pos, op'⟩ := e
    rw [List.lookup_cons] at h
    split at h
    · rename_i hb
      cases h
      rw [beq_iff_eq] at hb
      exact hb ▸ List.mem_cons_self ..
    · exact List.mem_cons_of_mem _ (ih h)

theorem lookup_of_mem' {rule : SRule} (hk : (rule.map Prod.fst).Nodup) {i : Index} {op : SOp}
    (h : (i, op) ∈ rule) : rule.lookup i = some op := by
  induction rule with
  | nil => cases h
  | cons e rest ih =>
    obtain ⟨pos, op'⟩ := e
    simp only [List.map_cons, List.nodup_cons] at hk
    rw [List.lookup_cons]
    rcases List.mem_cons.mp h with h | h'
    · cases h
      simp
    · have : i ≠ pos := by
        rintro rfl
        exact hk.1 (List.mem_map_of_mem (f := Prod.fst) h')
      rw [show (i == pos) = false by simpa using this]
      exact ih hk.2 h'

end

/-! ### `make_rule` -/

/-- Four counts at one position of four lists. -/
def SCol (as bs cs ds : List Num) (j : Nat) (a b c d : Num) : Prop :=
  as[j]? = some a ∧ bs[j]? = some b ∧ cs[j]? = some c ∧ ds[j]? = some d

/-- What `makeRuleSide` returns for one side. -/
structure SSideSpec (strict : Bool) (o : Ops) (side : Bool) (i : Nat) (as bs cs ds : List Num)
    (r : SRule) : Prop where
  total : ∀ j a b c d, SCol as bs cs ds j a b c d → ∃ x, calculateDiff strict o a b c d = .ok x
  mem : ∀ p op, (p, op) ∈ r ↔ ∃ j a b c d, p = (side, i + j) ∧ SCol as bs cs ds j a b c d ∧
    calculateDiff strict o a b c d = .ok (some op)
  nodup : (r.map Prod.fst).Nodup

theorem sSideSpec_nil {strict : Bool} {o : Ops} {side : Bool} {i : Nat} {as bs cs ds : List Num}
    (h : ∀ j a b c d, ¬ SCol as bs cs ds j a b c d) : SSideSpec strict o side i as bs cs ds [] := by
  refine ⟨fun j a b c d hc => absurd hc (h _ _ _ _ _), fun p op => ?_, List.nodup_nil⟩
  constructor
  · intro hm; cases hm
  · rintro ⟨j, a, b, c, d, -, hc, -⟩; exact absurd hc (h _ _ _ _ _)

theorem sSideSpec_cons {strict : Bool} {o : Ops} {side : Bool} {i : Nat} {a b c d : Num}
    {as bs cs ds : List Num} {rest : SRule} {diff : Option SOp}
    (h : calculateDiff strict o a b c d = .ok diff)
    (hs : SSideSpec strict o side (i + 1) as bs cs ds rest) :
    SSideSpec strict o side i (a :: as) (b :: bs) (c :: cs) (d :: ds)
      (match diff with | none => rest | some op => ((side, i), op) :: rest) := by
  have hnot : ∀ op, ((side, i), op) ∉ rest := by
    intro op hm
    obtain ⟨j, _, _, _, _, e, -⟩ := (hs.mem _ _).mp hm
    simp only [Prod.mk.injEq] at e
    omega
  refine ⟨?_, fun p op => ?_, ?_⟩
  · rintro (_ | j) a' b' c' d' ⟨h1, h2, h3, h4⟩
    · cases h1; cases h2; cases h3; cases h4
      exact ⟨_, h⟩
    · exact hs.total j _ _ _ _ ⟨h1, h2, h3, h4⟩
  · have hrest : (p, op) ∈ rest ↔ ∃ j a' b' c' d', p = (side, i + (j + 1)) ∧
        SCol (a :: as) (b :: bs) (c :: cs) (d :: ds) (j + 1) a' b' c' d' ∧
        calculateDiff strict o a' b' c' d' = .ok (some op) := by
      rw [hs.mem]
      constructor
      · rintro ⟨j, a', b', c', d', rfl, h1, h2⟩
        exact ⟨j, a', b', c', d', by congr 1; omega, h1, h2⟩
      · rintro ⟨j, a', b', c', d', rfl, h1, h2⟩
        exact ⟨j, a', b', c', d', by congr 1; omega, h1, h2⟩
    constructor
    · intro hm
      cases diff with
      | none =>
        obtain ⟨j, x⟩ := hrest.mp hm
        exact ⟨j + 1, x⟩
      | some op' =>
        rcases List.mem_cons.mp hm with e | hm
        · cases e
          exact ⟨0, a, b, c, d, rfl, ⟨rfl, rfl, rfl, rfl⟩, h⟩
        · obtain ⟨j, x⟩ := hrest.mp hm
          exact ⟨j + 1, x⟩
    · rintro ⟨j, a', b', c', d', e, hc, hd⟩
      cases j with
      | zero =>
        obtain ⟨h1, h2, h3, h4⟩ := hc
        cases h1; cases h2; cases h3; cases h4
        rw [h] at hd
        cases hd
        rw [e]
        exact List.mem_cons_self
      | succ j =>
        have := hrest.mpr ⟨j, a', b', c', d', e, hc, hd⟩
        cases diff with
        | none => exact this
        | some op' => exact List.mem_cons_of_mem _ this
  · cases diff with
    | none => exact hs.nodup
    | some op' =>
      rw [List.map_cons, List.nodup_cons]
      refine ⟨fun hm => ?_, hs.nodup⟩
      obtain ⟨⟨q, op⟩, h1, rfl⟩ := List.mem_map.mp hm
      exact hnot op h1

theorem makeRuleSide_spec (strict : Bool) (o : Ops) (side : Bool) : ∀ (i : Nat)
    (as bs cs ds : List Num) (r : SRule), makeRuleSide strict o side i as bs cs ds = .ok (some r) →
    SSideSpec strict o side i as bs cs ds r := by
  intro i as
  induction as generalizing i with
  | nil =>
    intro bs cs ds r h
    cases h
    exact sSideSpec_nil fun j a b c d hc => by cases hc.1
  | cons a as ih =>
    intro bs cs ds r h
    rcases bs with _ | ⟨b, bs⟩
    · cases h; exact sSideSpec_nil fun j a b c d hc => by cases hc.2.1
    rcases cs with _ | ⟨c, cs⟩
    · cases h; exact sSideSpec_nil fun j a b c d hc => by cases hc.2.2.1
    rcases ds with _ | ⟨d, ds⟩
    · cases h; exact sSideSpec_nil fun j a b c d hc => by cases hc.2.2.2
    rw [makeRuleSide] at h
    split at h
    · cases h
    · cases h
    rename_i diff hd
    cases hr : makeRuleSide strict o side (i + 1) as bs cs ds with
    | error e => rw [hr] at h; cases h
    | ok res =>
      rw [hr] at h
      cases res with
      | none => cases h
      | some rest =>
        have := sSideSpec_cons (i := i) hd (ih (i + 1) bs cs ds rest hr)
        cases diff with
        | none => cases h; exact this
        | some op => cases h; exact this

theorem makeRule_sides {strict : Bool} {o : Ops} {k1 k2 k3 k4 : SCounts} {left right : SRule}
    (hl : SSideSpec strict o false 0 k1.1 k2.1 k3.1 k4.1 left)
    (hr : SSideSpec strict o true 0 k1.2 k2.2 k3.2 k4.2 right) :
    (∀ i op, (i, op) ∈ left ++ right ↔ ∃ a b c d, Column k1 k2 k3 k4 i a b c d ∧
      calculateDiff strict o a b c d = .ok (some op)) ∧
    (∀ i a b c d, Column k1 k2 k3 k4 i a b c d → ∃ x, calculateDiff strict o a b c d = .ok x) ∧
    ((left ++ right).map Prod.fst).Nodup := by
  refine ⟨?_, ?_, ?_⟩
  · rintro ⟨side, i⟩ op
    rw [List.mem_append, hl.mem, hr.mem]
    constructor
    · rintro (⟨j, a, b, c, d, hj, h1, h2⟩ | ⟨j, a, b, c, d, hj, h1, h2⟩)
      · simp only [Prod.mk.injEq, Nat.zero_add] at hj
        obtain ⟨rfl, rfl⟩ := hj
        exact ⟨a, b, c, d, h1, h2⟩
      · simp only [Prod.mk.injEq, Nat.zero_add] at hj
        obtain ⟨rfl, rfl⟩ := hj
        exact ⟨a, b, c, d, h1, h2⟩
    · rintro ⟨a, b, c, d, h1, h2⟩
      cases side
      · exact .inl ⟨i, a, b, c, d, by simp, h1, h2⟩
      · exact .inr ⟨i, a, b, c, d, by simp, h1, h2⟩
  · rintro ⟨side, i⟩ a b c d h
    cases side
    · exact hl.total i a b c d h
    · exact hr.total i a b c d h
  · rw [List.map_append, List.nodup_append]
    refine ⟨hl.nodup, hr.nodup, ?_⟩
    rintro x hx y hy rfl
    obtain ⟨⟨p, op⟩, h1, rfl⟩ := List.mem_map.mp hx
    obtain ⟨⟨q, op'⟩, h2, h3⟩ := List.mem_map.mp hy
    obtain ⟨j, _, _, _, _, e1, _⟩ := (hl.mem p op).mp h1
    obtain ⟨j', _, _, _, _, e2, _⟩ := (hr.mem q op').mp h2
    simp only at h3
    rw [e1, e2] at h3
    simp at h3

/-- What `makeRule` returns, and when it raises `InfiniteRule`. -/
theorem makeRule_cases {strict : Bool} {o : Ops} {k1 k2 k3 k4 : SCounts} {rule : SRule}
    (h : makeRule strict o k1 k2 k3 k4 = .ok (some rule)) :
    (∀ i op, (i, op) ∈ rule ↔ ∃ a b c d, Column k1 k2 k3 k4 i a b c d ∧
      calculateDiff strict o a b c d = .ok (some op)) ∧
    (∀ i a b c d, Column k1 k2 k3 k4 i a b c d → ∃ x, calculateDiff strict o a b c d = .ok x) ∧
    (rule.map Prod.fst).Nodup ∧ ∃ i d, (i, SOp.plus d) ∈ rule ∧ d < 0 := by
  unfold makeRule at h
  cases hl : makeRuleSide strict o false 0 k1.1 k2.1 k3.1 k4.1 with
  | error e => rw [hl] at h; cases h
  | ok l =>
    rw [hl] at h
    cases l with
    | none => cases h
    | some left =>
      cases hr : makeRuleSide strict o true 0 k1.2 k2.2 k3.2 k4.2 with
      | error e => rw [hr] at h; cases h
      | ok r =>
        rw [hr] at h
        cases r with
        | none => cases h
        | some right =>
          simp only [bind, Except.bind] at h
          split at h
          · cases h
          rename_i hn
          cases h
          obtain ⟨h1, h2, h3⟩ := makeRule_sides (makeRuleSide_spec _ _ _ _ _ _ _ _ _ hl)
            (makeRuleSide_spec _ _ _ _ _ _ _ _ _ hr)
          refine ⟨h1, h2, h3, ?_⟩
          by_contra hno
          apply hn
          unfold SRule.noneNegative
          rw [List.all_eq_true]
          rintro ⟨i, op⟩ hm
          cases op with
          | plus d =>
            simp only [decide_eq_true_eq]
            by_contra hd
            exact hno ⟨i, d, hm, by omega⟩
          | mult m a => rfl
          | seq s => rfl

end Sym
end BB
