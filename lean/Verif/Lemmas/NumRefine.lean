/-
More nested calls, or leaving the strict evaluation for the program, changes no result: it only
replaces the error `fuel`, or the error `strict`, by something else.
-/
import Verif.Model.Num

namespace BB
namespace Sym

/-- `x` is the error `e` or the same as `y`. -/
def Ref {α : Type} (e : Err) (x y : R α) : Prop := x = .error e ∨ x = y

theorem Ref.rfl {α : Type} {e : Err} {x : R α} : Ref e x x := .inr (Eq.refl _)

theorem Ref.err {α : Type} {e : Err} {y : R α} : Ref e (.error e) y := .inl (Eq.refl _)

theorem Ref.bind {α β : Type} {e : Err} {x y : R α} {f h : α → R β} (hx : Ref e x y)
    (hf : ∀ a, Ref e (f a) (h a)) : Ref e (x >>= f) (y >>= h) := by
  rcases hx with hx | hx
  · subst hx
    exact .inl (Eq.refl _)
  · subst hx
    cases x with
    | error => exact .inr (Eq.refl _)
    | ok a => exact hf a

theorem Ref.tryNI {α : Type} {e : Err} (he : e ≠ .notImpl) {x x' y y' : R α} (hx : Ref e x x')
    (hy : Ref e y y') : Ref e (tryNI x y) (tryNI x' y') := by
  rcases hx with hx | hx
  · subst hx
    left
    unfold Sym.tryNI
    split
    · rename_i h
      cases h
      exact absurd (Eq.refl _) he
    · exact (Eq.refl _)
  · subst hx
    unfold Sym.tryNI
    split
    · exact hy
    · exact Ref.rfl

theorem Ref.andR {e : Err} {x x' y y' : R Bool} (hx : Ref e x x') (hy : Ref e y y') :
    Ref e (andR x y) (andR x' y') := by
  unfold Sym.andR
  refine Ref.bind hx fun a => ?_
  split
  · exact hy
  · exact Ref.rfl

theorem Ref.orR {e : Err} {x x' y y' : R Bool} (hx : Ref e x x') (hy : Ref e y y') :
    Ref e (orR x y) (orR x' y') := by
  unfold Sym.orR
  refine Ref.bind hx fun a => ?_
  split
  · exact Ref.rfl
  · exact hy

theorem Ref.notR {e : Err} {x x' : R Bool} (hx : Ref e x x') : Ref e (notR x) (notR x') :=
  Ref.bind hx fun _ => Ref.rfl

/-- The same for every operator. -/
structure RefOps (e : Err) (o o' : Ops) : Prop where
  ni : e ≠ .notImpl
  add : ∀ a b, Ref e (o.add a b) (o'.add a b)
  sub : ∀ a b, Ref e (o.sub a b) (o'.sub a b)
  mul : ∀ a b, Ref e (o.mul a b) (o'.mul a b)
  fdiv : ∀ a b, Ref e (o.fdiv a b) (o'.fdiv a b)
  neg : ∀ a, Ref e (o.neg a) (o'.neg a)
  lt : ∀ a b, Ref e (o.lt a b) (o'.lt a b)

/-- One step of the proof that a function of the operators respects `Ref`. -/
syntax "rf1 " ident : tactic
macro_rules
  | `(tactic| rf1 $H:ident) => `(tactic| first
    | exact Ref.rfl
    | exact ($H).add _ _
    | exact ($H).sub _ _
    | exact ($H).mul _ _
    | exact ($H).fdiv _ _
    | exact ($H).neg _
    | exact ($H).lt _ _
    | assumption
    | (refine Ref.tryNI ($H).ni ?_ ?_)
    | (refine Ref.andR ?_ ?_)
    | (refine Ref.orR ?_ ?_)
    | (refine Ref.notR ?_)
    | (refine Ref.bind ?_ ?_)
    | (intro _)
    | split
    | dsimp only)

syntax "rf " ident : tactic
macro_rules
  | `(tactic| rf $H:ident) => `(tactic| repeat' rf1 $H)

variable {e : Err} {o o' : Ops}

theorem ref_gt (H : RefOps e o o') (x y : Num) : Ref e (gt o x y) (gt o' x y) := by
  unfold gt; rf H

theorem ref_le (H : RefOps e o o') (x y : Num) : Ref e (le o x y) (le o' x y) := by
  unfold le; rf H

theorem ref_assertIf (c : Bool) {x y : R Bool} (h : Ref e x y) :
    Ref e (assertIf c x) (assertIf c y) := by
  unfold assertIf
  split
  · exact Ref.bind h fun _ => Ref.rfl
  · exact Ref.rfl

theorem ref_mulInit (H : RefOps e o o') (l r : Num) : Ref e (mulInit o l r) (mulInit o' l r) := by
  unfold mulInit
  refine Ref.bind (H.lt _ _) fun _ => Ref.bind (ref_assertIf _ (ref_gt H _ _)) fun _ =>
    Ref.bind (H.lt _ _) fun _ =>
    Ref.bind (ref_assertIf _ (Ref.andR (ref_gt H _ _) Ref.rfl)) fun _ => Ref.rfl

theorem ref_makeMul (H : RefOps e o o') (l r : Num) : Ref e (makeMul o l r) (makeMul o' l r) := by
  unfold makeMul
  split <;> exact ref_mulInit H _ _

theorem ref_makeExpLoop (H : RefOps e o o') (n : Nat) (b : Int) (x : Num) :
    Ref e (makeExpLoop o n b x) (makeExpLoop o' n b x) := by
  induction n generalizing b x with
  | zero => exact Ref.rfl
  | succ n ih =>
    unfold makeExpLoop
    split
    · exact Ref.rfl
    split
    · exact Ref.bind (H.mul _ _) fun _ => Ref.rfl
    · dsimp only
      split
      · exact Ref.rfl
      · exact Ref.bind (H.mul _ _) fun _ => ih _ _

theorem ref_makeExp (H : RefOps e o o') (b : Int) (x : Num) :
    Ref e (makeExp o b x) (makeExp o' b x) := ref_makeExpLoop H _ _ _

theorem ref_powInt (H : RefOps e o o') (b : Int) (x : Num) :
    Ref e (powInt o b x) (powInt o' b x) := by
  unfold powInt
  split
  · exact Ref.rfl
  · exact ref_makeExp H _ _

theorem ref_diffPow (H : RefOps e o o') (s : Bool) (b : Int) (x : Num) :
    Ref e (diffPow o s b x) (diffPow o' s b x) := by
  unfold diffPow
  split
  · exact ref_powInt H _ _
  · exact ref_makeExp H _ _

theorem ref_addExponentsOrd (H : RefOps e o o') (b : Int) (x y z w : Num) :
    Ref e (addExponentsOrd o b x y z w) (addExponentsOrd o' b x y z w) := by
  unfold addExponentsOrd
  refine Ref.bind (ref_le H _ _) fun _ => ?_
  split
  · exact Ref.rfl
  · exact Ref.bind (H.sub _ _) fun _ => Ref.bind (H.lt _ _) fun _ =>
      Ref.bind (ref_diffPow H _ _ _) fun _ => Ref.bind (H.mul _ _) fun _ =>
      Ref.bind (H.add _ _) fun _ => H.mul _ _

theorem ref_addExponents (H : RefOps e o o') (b c : Int) (x y z w : Num) :
    Ref e (addExponents o b x y c z w) (addExponents o' b x y c z w) := by
  unfold addExponents
  split
  · exact Ref.bind (H.add _ _) fun _ => H.mul _ _
  split
  · exact Ref.rfl
  · refine Ref.bind (ref_gt H _ _) fun _ => ?_
    split <;> exact ref_addExponentsOrd H _ _ _ _ _

theorem ref_addNeg (H : RefOps e o o') (l r : Num) : Ref e (addNeg o l r) (addNeg o' l r) := by
  unfold addNeg; rf H

theorem ref_addRadd (H : RefOps e o o') (l r : Num) (n : Int) :
    Ref e (addRadd o l r n) (addRadd o' l r n) := by
  unfold addRadd; rf H

theorem ref_addAdd (H : RefOps e o o') (l r y : Num) :
    Ref e (addAdd o l r y) (addAdd o' l r y) := by
  have h : ∀ y, Ref e (addAddRest o l r y) (addAddRest o' l r y) := by
    intro y; unfold addAddRest; rf H
  unfold addAdd
  split
  · rf H
  · split
    · rf H
    split
    · rf H
    · exact h _
  · exact h _

theorem ref_addSub (H : RefOps e o o') (l r y : Num) :
    Ref e (addSub o l r y) (addSub o' l r y) := by
  unfold addSub; rf H

theorem ref_addMul (H : RefOps e o o') (l r y : Num) :
    Ref e (addMul o l r y) (addMul o' l r y) := by
  unfold addMul
  split
  · exact H.mul _ _
  · exact ref_makeMul H _ _

theorem ref_addRmul (H : RefOps e o o') (l r : Num) (n : Int) :
    Ref e (addRmul o l r n) (addRmul o' l r n) := by
  unfold addRmul; rf H

theorem ref_addFdiv (H : RefOps e o o') (flog : Int → Int → Nat) (l r y : Num) :
    Ref e (addFdiv flog o l r y) (addFdiv flog o' l r y) := by
  unfold addFdiv; rf H

theorem ref_addLtRest (H : RefOps e o o') (l r y : Num) :
    Ref e (addLtRest o l r y) (addLtRest o' l r y) := by
  unfold addLtRest; rf H

theorem ref_addLt (H : RefOps e o o') (l r y : Num) :
    Ref e (addLt o l r y) (addLt o' l r y) := by
  have h := ref_addLtRest H l r
  have hg := ref_gt H
  unfold addLt
  split
  · split
    · exact H.lt _ _
    · refine Ref.bind (Ref.andR (H.lt _ _) (H.lt _ _)) fun _ => ?_
      split
      · exact Ref.rfl
      · refine Ref.bind (Ref.andR (H.lt _ _) (H.lt _ _)) fun _ => ?_
        split
        · exact Ref.rfl
        · exact h _
  · split
    · exact hg _ _
    split
    · exact H.lt _ _
    split
    · exact H.lt _ _
    split
    · exact H.lt _ _
    split
    · exact H.lt _ _
    · refine Ref.bind (Ref.andR (H.lt _ _) (H.lt _ _)) fun _ => ?_
      split
      · exact Ref.rfl
      · exact h _
  · exact h _

theorem ref_ltParts (H : RefOps e o o') (x l r : Num) :
    Ref e (ltParts o x l r) (ltParts o' x l r) := by
  unfold ltParts
  refine Ref.bind (Ref.tryNI H.ni (Ref.andR (ref_le H _ _) (ref_gt H _ _)) Ref.rfl) fun _ => ?_
  split
  · exact Ref.rfl
  · refine Ref.bind (Ref.tryNI H.ni (Ref.andR (ref_le H _ _) (ref_gt H _ _)) Ref.rfl) fun _ => ?_
    rf H

theorem ref_baseLt (H : RefOps e o o') (x y : Num) : Ref e (baseLt o x y) (baseLt o' x y) := by
  unfold baseLt
  split
  · refine Ref.bind (ref_ltParts H _ _ _) fun _ => ?_
    rf H
  · refine Ref.bind (ref_ltParts H _ _ _) fun _ => ?_
    rf H
  · exact Ref.rfl

theorem ref_mulNeg (H : RefOps e o o') (l r : Num) : Ref e (mulNeg o l r) (mulNeg o' l r) := by
  unfold mulNeg; rf H

theorem ref_mulMul (H : RefOps e o o') (l r y : Num) :
    Ref e (mulMul o l r y) (mulMul o' l r y) := by
  unfold mulMul; rf H

theorem ref_mulRmul (H : RefOps e o o') (l r : Num) (n : Int) :
    Ref e (mulRmul o l r n) (mulRmul o' l r n) := by
  unfold mulRmul; rf H

theorem ref_mulAddMul2 (H : RefOps e o o') (l r lo ro : Num) :
    Ref e (mulAddMul2 o l r lo ro) (mulAddMul2 o' l r lo ro) := by
  have hs : ∀ (b : Int) (x : Num), Ref e
      (match lo with
        | .exp b2 e2 =>
          if b ≠ b2 then .error .other
          else tryNI (addExponents o b x l b2 e2 ro) (mulAddRest l r (.mul lo ro))
        | _ => mulAddRest l r (.mul lo ro))
      (match lo with
        | .exp b2 e2 =>
          if b ≠ b2 then .error .other
          else tryNI (addExponents o' b x l b2 e2 ro) (mulAddRest l r (.mul lo ro))
        | _ => mulAddRest l r (.mul lo ro)) := by
    intro b x
    split
    · split
      · exact Ref.rfl
      · exact Ref.tryNI H.ni (ref_addExponents H _ _ _ _ _ _) Ref.rfl
    · exact Ref.rfl
  unfold mulAddMul2
  split
  · rf H
  split
  · rf H
  dsimp only
  split
  · rename_i b x _
    specialize hs b x
    split
    · split
      · exact Ref.rfl
      · exact Ref.tryNI H.ni (ref_addExponents H _ _ _ _ _ _) hs
    · exact hs
  · exact Ref.rfl

theorem ref_mulAddMul (H : RefOps e o o') (l r lo ro : Num) :
    Ref e (mulAddMul o l r lo ro) (mulAddMul o' l r lo ro) := by
  have h := ref_mulAddMul2 H l r lo ro
  unfold mulAddMul; rf H

theorem ref_mulAdd (H : RefOps e o o') (l r y : Num) :
    Ref e (mulAdd o l r y) (mulAdd o' l r y) := by
  unfold mulAdd
  split
  · exact Ref.rfl
  · exact ref_mulAddMul H _ _ _ _
  · rf H
  · exact H.add _ _
  · exact H.add _ _

theorem ref_mulSub (H : RefOps e o o') (l r y : Num) :
    Ref e (mulSub o l r y) (mulSub o' l r y) := by
  have h : ∀ y, Ref e (mulSubRest o l r y) (mulSubRest o' l r y) := by
    intro y; unfold mulSubRest; rf H
  unfold mulSub
  split
  · split
    · exact Ref.rfl
    split
    · rf H
    split
    · rf H
    · exact h _
  · rf H
  · split
    · exact H.neg _
    · exact h _
  · exact h _

theorem ref_mulFdiv (H : RefOps e o o') (flog : Int → Int → Nat) (l r y : Num) :
    Ref e (mulFdiv flog o l r y) (mulFdiv flog o' l r y) := by
  unfold mulFdiv; rf H

theorem ref_coefLt (H : RefOps e o o') (l r lo ro : Num) :
    Ref e (coefLt o l r lo ro) (coefLt o' l r lo ro) := by
  unfold coefLt; rf H

theorem ref_mulLtRest (H : RefOps e o o') (l r y : Num) :
    Ref e (mulLtRest o l r y) (mulLtRest o' l r y) := by
  have hle := ref_le H
  unfold mulLtRest
  refine Ref.bind (H.lt _ _) fun _ => ?_
  split
  · refine Ref.bind (H.lt _ _) fun _ => Ref.rfl
  · refine Ref.bind (Ref.tryNI H.ni (Ref.orR (Ref.andR (hle _ _) (H.lt _ _))
      (Ref.andR (hle _ _) (H.lt _ _))) Ref.rfl) fun _ => ?_
    split
    · exact Ref.rfl
    · refine Ref.bind (Ref.orR (Ref.andR (H.lt _ _) (H.lt _ _))
        (Ref.andR (H.lt _ _) (H.lt _ _))) fun _ => ?_
      split
      · exact Ref.rfl
      · refine Ref.bind (Ref.andR Ref.rfl (Ref.andR (H.lt _ _) (H.lt _ _))) fun _ => ?_
        split
        · exact H.lt _ _
        · refine Ref.bind (Ref.andR (H.lt _ _) Ref.rfl) fun _ => ?_
          split
          · exact Ref.rfl
          · exact ref_baseLt H _ _

theorem ref_mulLt (H : RefOps e o o') (l r y : Num) :
    Ref e (mulLt o l r y) (mulLt o' l r y) := by
  have h := ref_mulLtRest H l r
  unfold mulLt
  split
  · exact H.lt _ _
  · split
    · exact H.lt _ _
    split
    · exact H.lt _ _
    split
    · exact H.lt _ _
    split
    · exact H.lt _ _
    · refine Ref.bind (ref_coefLt H _ _ _ _) fun _ => ?_
      split
      · exact Ref.rfl
      · exact h _
  · exact h _

theorem ref_divNeg (H : RefOps e o o') (n : Num) (d : Int) :
    Ref e (divNeg o n d) (divNeg o' n d) := by
  unfold divNeg; rf H

theorem ref_divAdd {s s' : Bool} (hs : s = s' ∨ (e = .strict ∧ s' = false)) (H : RefOps e o o')
    (n : Num) (d : Int) (y : Num) : Ref e (divAdd s o n d y) (divAdd s' o' n d y) := by
  unfold divAdd
  split
  · exact Ref.rfl
  split
  · split
    · rf H
    split
    · rf H
    split
    · rcases hs with rfl | ⟨rfl, rfl⟩
      · rf H
      · simp only [Bool.false_and, Bool.false_eq_true, if_false]
        split
        · exact Ref.err
        · rf H
    · rf H
  · rf H

theorem ref_divRadd (H : RefOps e o o') (n : Num) (d m : Int) :
    Ref e (divRadd o n d m) (divRadd o' n d m) := by
  unfold divRadd; rf H

theorem ref_divSub (H : RefOps e o o') (n : Num) (d : Int) (y : Num) :
    Ref e (divSub o n d y) (divSub o' n d y) := by
  unfold divSub; rf H

theorem ref_divMul (H : RefOps e o o') (n : Num) (d : Int) (y : Num) :
    Ref e (divMul o n d y) (divMul o' n d y) := by
  unfold divMul; rf H

theorem ref_divRmul (H : RefOps e o o') (n : Num) (d m : Int) :
    Ref e (divRmul o n d m) (divRmul o' n d m) := by
  unfold divRmul; rf H

theorem ref_divFdiv (H : RefOps e o o') (flog : Int → Int → Nat) (n : Num) (d : Int) (y : Num) :
    Ref e (divFdiv flog o n d y) (divFdiv flog o' n d y) := by
  unfold divFdiv; rf H

theorem ref_divLt (H : RefOps e o o') (n : Num) (d : Int) (y : Num) :
    Ref e (divLt o n d y) (divLt o' n d y) := by
  unfold divLt; rf H

theorem ref_expAdd (H : RefOps e o o') (b : Int) (x y : Num) :
    Ref e (expAdd o b x y) (expAdd o' b x y) := by
  have hs : ∀ (l r : Num), Ref e
      (match l with
        | .exp b2 e2 =>
          if b2 ≠ b then .error .other
          else tryNI (addExponents o b x (.int 1) b2 e2 r)
            (.ok (makeAdd (.exp b x) (.mul l r)))
        | _ => .ok (makeAdd (.exp b x) (.mul l r)))
      (match l with
        | .exp b2 e2 =>
          if b2 ≠ b then .error .other
          else tryNI (addExponents o' b x (.int 1) b2 e2 r)
            (.ok (makeAdd (.exp b x) (.mul l r)))
        | _ => .ok (makeAdd (.exp b x) (.mul l r))) := by
    intro l r
    split
    · split
      · exact Ref.rfl
      · exact Ref.tryNI H.ni (ref_addExponents H _ _ _ _ _ _) Ref.rfl
    · exact Ref.rfl
  unfold expAdd
  dsimp only
  split
  · exact Ref.rfl
  · rename_i l r
    specialize hs l r
    split
    · split
      · exact Ref.rfl
      · exact Ref.tryNI H.ni (ref_addExponents H _ _ _ _ _ _) hs
    · exact hs
  · split
    · exact Ref.rfl
    split
    · exact Ref.bind (H.add _ _) fun _ => ref_makeExp H _ _
    · exact Ref.tryNI H.ni (ref_addExponents H _ _ _ _ _ _) Ref.rfl
  · exact H.add _ _
  · rf H

theorem ref_expSub (H : RefOps e o o') (b : Int) (x y : Num) :
    Ref e (expSub o b x y) (expSub o' b x y) := by
  unfold expSub
  split
  · exact Ref.rfl
  split
  · exact Ref.rfl
  split
  · split
    · exact Ref.rfl
    · exact ref_addExponents H _ _ _ _ _ _
  · exact Ref.rfl
  · rf H

theorem ref_expMul (H : RefOps e o o') (b : Int) (x y : Num) :
    Ref e (expMul o b x y) (expMul o' b x y) := by
  unfold expMul
  split
  · exact H.mul _ _
  · split
    · exact Ref.rfl
    · exact Ref.bind (H.add _ _) fun _ => ref_makeExp H _ _
  · rf H
  · split
    · rf H
    split
    · rf H
    split
    · rf H
    · exact ref_makeMul H _ _
  · exact Ref.rfl

theorem ref_expRmul (H : RefOps e o o') (b : Int) (x : Num) (n : Int) :
    Ref e (expRmul o b x n) (expRmul o' b x n) := by
  unfold expRmul
  split
  · exact Ref.rfl
  split
  · exact Ref.rfl
  split
  · exact ref_makeMul H _ _
  split
  · exact Ref.rfl
  split
  · rf H
  split
  · exact ref_makeMul H _ _
  · refine Ref.bind Ref.rfl ?_
    rintro ⟨m, i⟩
    exact Ref.bind (H.add _ _) fun _ => Ref.bind (ref_makeExp H _ _) fun _ => H.mul _ _

theorem ref_expOf (H : RefOps e o o') (b : Int) (x : Num) :
    Ref e (expOf o b x) (expOf o' b x) := by
  unfold expOf
  split
  · exact Ref.rfl
  split
  · exact Ref.rfl
  · exact ref_makeExp H _ _

theorem ref_expFdiv (H : RefOps e o o') (b : Int) (x y : Num) :
    Ref e (expFdiv o b x y) (expFdiv o' b x y) := by
  unfold expFdiv
  split
  · split
    · exact Ref.rfl
    · refine Ref.bind Ref.rfl ?_
      rintro ⟨m, i⟩
      refine Ref.bind (H.sub _ _) fun _ => ?_
      split
      · split
        · exact Ref.rfl
        split
        · exact Ref.rfl
        · exact Ref.bind (H.sub _ _) fun _ => Ref.bind (ref_makeExp H _ _) fun _ => H.mul _ _
      · exact ref_expOf H _ _
  · split
    · exact Ref.rfl
    · refine Ref.bind (ref_le H _ _) fun _ => ?_
      split
      · exact Ref.rfl
      · exact Ref.bind (H.sub _ _) fun _ => ref_expOf H _ _
  · exact Ref.rfl

theorem ref_expLtMul (H : RefOps e o o') (b : Int) (x l r : Num) :
    Ref e (expLtMul o b x l r) (expLtMul o' b x l r) := by
  unfold expLtMul
  exact Ref.bind (ref_ltParts H _ _ _) fun _ => Ref.rfl

theorem ref_expLtMul2 (H : RefOps e o o') (b : Int) (x l r : Num) :
    Ref e (expLtMul2 o b x l r) (expLtMul2 o' b x l r) := by
  have h := ref_expLtMul H b x l
  unfold expLtMul2
  split
  · split
    · exact Ref.rfl
    · refine Ref.bind (ref_le H _ _) fun _ => ?_
      split
      · exact Ref.bind (H.fdiv _ _) fun _ => H.lt _ _
      · exact h _
  · exact h _

theorem ref_expLt (H : RefOps e o o') (b : Int) (x y : Num) :
    Ref e (expLt o b x y) (expLt o' b x y) := by
  unfold expLt
  split
  · exact Ref.rfl
  · rf H
  · rf H
  · split
    · split
      · exact Ref.rfl
      · refine Ref.bind (ref_le H _ _) fun _ => ?_
        split
        · exact Ref.bind (H.fdiv _ _) fun _ => H.lt _ _
        · exact ref_expLtMul2 H _ _ _ _
    · exact ref_expLtMul2 H _ _ _ _
  · exact Ref.rfl

theorem ref_intFdiv {s s' : Bool} (hs : s = s' ∨ (e = .strict ∧ s' = false)) (n d : Int) :
    Ref e (intFdiv s n d) (intFdiv s' n d) := by
  unfold intFdiv
  split
  · exact Ref.rfl
  rcases hs with rfl | ⟨rfl, rfl⟩
  · exact Ref.rfl
  · simp only [Bool.false_and, Bool.false_eq_true, if_false]
    split
    · exact Ref.err
    · exact Ref.rfl

theorem RefOps.step {s s' : Bool} (hs : s = s' ∨ (e = .strict ∧ s' = false)) (H : RefOps e o o')
    (flog : Int → Int → Nat) : RefOps e (o.step flog s) (o'.step flog s') where
  ni := H.ni
  add a b := by
    simp only [Ops.step]
    split
    · split
      · exact Ref.rfl
      · exact ref_addRadd H _ _ _
      · exact Ref.rfl
      · exact ref_divRadd H _ _ _
      · exact Ref.rfl
    · exact ref_addAdd H _ _ _
    · exact ref_mulAdd H _ _ _
    · exact ref_divAdd hs H _ _ _
    · exact ref_expAdd H _ _ _
  sub a b := by
    simp only [Ops.step]
    split
    · rf H
    · exact ref_addSub H _ _ _
    · exact ref_mulSub H _ _ _
    · exact ref_divSub H _ _ _
    · exact ref_expSub H _ _ _
  mul a b := by
    simp only [Ops.step]
    split
    · split
      · exact Ref.rfl
      · exact ref_addRmul H _ _ _
      · exact ref_mulRmul H _ _ _
      · exact ref_divRmul H _ _ _
      · exact ref_expRmul H _ _ _
    · exact ref_addMul H _ _ _
    · exact ref_mulMul H _ _ _
    · exact ref_divMul H _ _ _
    · exact ref_expMul H _ _ _
  fdiv a b := by
    simp only [Ops.step]
    split
    · split
      · exact ref_intFdiv hs _ _
      · exact Ref.rfl
    · exact ref_addFdiv H flog _ _ _
    · exact ref_mulFdiv H flog _ _ _
    · exact ref_divFdiv H flog _ _ _
    · exact ref_expFdiv H _ _ _
  neg a := by
    simp only [Ops.step]
    split
    · exact Ref.rfl
    · exact ref_addNeg H _ _
    · exact ref_mulNeg H _ _
    · exact ref_divNeg H _ _
    · exact H.mul _ _
  lt a b := by
    simp only [Ops.step]
    split
    · rf H
    · exact ref_addLt H _ _ _
    · exact ref_mulLt H _ _ _
    · exact ref_divLt H _ _ _
    · exact ref_expLt H _ _ _

/-- One more nested call keeps every result. -/
theorem refOps_fuel (flog : Int → Int → Nat) (s : Bool) (n : Nat) :
    RefOps .fuel (ops flog s n) (ops flog s (n + 1)) := by
  induction n with
  | zero =>
    exact ⟨by decide, fun _ _ => Ref.err, fun _ _ => Ref.err, fun _ _ => Ref.err,
      fun _ _ => Ref.err, fun _ => Ref.err, fun _ _ => Ref.err⟩
  | succ n ih => exact ih.step (.inl rfl) flog

theorem RefOps.trans {e : Err} {o o' o'' : Ops} (H : RefOps e o o') (H' : RefOps e o' o'') :
    RefOps e o o'' := by
  have t : ∀ {α : Type} {x y z : R α}, Ref e x y → Ref e y z → Ref e x z := by
    intro α x y z h h'
    rcases h with h | h
    · exact .inl h
    · subst h; exact h'
  exact ⟨H.ni, fun a b => t (H.add a b) (H'.add a b), fun a b => t (H.sub a b) (H'.sub a b),
    fun a b => t (H.mul a b) (H'.mul a b), fun a b => t (H.fdiv a b) (H'.fdiv a b),
    fun a => t (H.neg a) (H'.neg a), fun a b => t (H.lt a b) (H'.lt a b)⟩

/-- More nested calls keep every result. -/
theorem refOps_fuel_le (flog : Int → Int → Nat) (s : Bool) {n m : Nat} (h : n ≤ m) :
    RefOps .fuel (ops flog s n) (ops flog s m) := by
  induction h with
  | refl =>
    exact ⟨by decide, fun _ _ => Ref.rfl, fun _ _ => Ref.rfl, fun _ _ => Ref.rfl,
      fun _ _ => Ref.rfl, fun _ => Ref.rfl, fun _ _ => Ref.rfl⟩
  | step _ ih => exact ih.trans (refOps_fuel flog s _)

/-- The strict evaluation agrees with the program where it does not stop with `strict`. -/
theorem refOps_strict (flog : Int → Int → Nat) (n : Nat) :
    RefOps .strict (ops flog true n) (ops flog false n) := by
  induction n with
  | zero =>
    exact ⟨by decide, fun _ _ => Ref.rfl, fun _ _ => Ref.rfl, fun _ _ => Ref.rfl,
      fun _ _ => Ref.rfl, fun _ => Ref.rfl, fun _ _ => Ref.rfl⟩
  | succ n ih => exact ih.step (.inr ⟨rfl, rfl⟩) flog

theorem Ref.ok {α : Type} {e : Err} {x y : R α} (h : Ref e x y) {a : α} (hx : x = .ok a) :
    y = .ok a := by
  rcases h with h | h
  · rw [h] at hx; cases hx
  · rw [← h]; exact hx

end Sym
end BB
