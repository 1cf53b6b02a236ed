/-
Runs with symbolic counts whose rules only add: the same as with integers.
-/
import Verif.Spec.SymInt
import Verif.Spec.SymRun
import Verif.Props.SymRules
import Verif.Lemmas.Asked
import Verif.Lemmas.MakeRule
import Verif.Lemmas.SymRun
import Verif.Lemmas.EnumTape
import Verif.Lemmas.Forget

namespace BB
namespace Sym

/-- Operators that compute with integers. -/
structure IntOps (o : Ops) : Prop where
  add : ∀ a b : Int, o.add (.int a) (.int b) = .ok (.int (a + b))
  sub : ∀ a b : Int, o.sub (.int a) (.int b) = .ok (.int (a - b))
  mul : ∀ a b : Int, o.mul (.int a) (.int b) = .ok (.int (a * b))
  lt : ∀ a b : Int, o.lt (.int a) (.int b) = .ok (decide (a < b))

theorem intOps (flog : Int → Int → Nat) (strict : Bool) (n : Nat) : IntOps (ops flog strict (n + 1)) :=
  ⟨fun _ _ => rfl, fun _ _ => rfl, fun _ _ => rfl, fun _ _ => rfl⟩

/-- Non-empty blocks. -/
def EPos (s : List EBlock) : Prop := ∀ b ∈ s, 1 ≤ b.count

def Pos (s : List Block) : Prop := ∀ b ∈ s, 1 ≤ b.count

theorem pos_nil : Pos [] := fun _ h => by cases h
theorem pos_cons {b : Block} {s : List Block} : Pos (b :: s) ↔ 1 ≤ b.count ∧ Pos s := by
  simp [Pos]
theorem epos_nil : EPos [] := fun _ h => by cases h
theorem epos_cons {b : EBlock} {s : List EBlock} : EPos (b :: s) ↔ 1 ≤ b.count ∧ EPos s := by
  simp [EPos]

/-- The pieces of `EnumTape.stepSpans`. -/
def eTakeSkip (pull : List EBlock) (scan : Color) (skip : Bool) : Option EBlock × List EBlock :=
  match pull with
  | [] => (none, [])
  | b :: rest => if skip && b.color == scan then (some b, rest) else (none, b :: rest)

def eSteppedOf : Option EBlock → Nat
  | none => 1
  | some b => 1 + b.count

def ePullOne (pull : List EBlock) (pb : Option EBlock) : Color × List EBlock × Option EBlock :=
  match pull with
  | [] => (0, [], pb)
  | b :: rest =>
    if b.count != 1 then (b.color, { b with count := b.count - 1 } :: rest, pb)
    else (b.color, rest, match pb with | none => some { b with count := 0 } | some b => some b)

def eFresh (color : Color) : Option EBlock → EBlock
  | none => ⟨color, 1, none⟩
  | some b => ⟨color, b.count + 1, b.tag⟩

def ePushOn (push : List EBlock) (color : Color) (k : Nat) (pb : Option EBlock) : List EBlock :=
  match push with
  | top :: rest =>
    if top.color == color then { top with count := top.count + k } :: rest
    else eFresh color pb :: top :: rest
  | [] => if color != 0 then [eFresh color pb] else []

theorem e_stepSpans_eq (pull push : List EBlock) (scan color : Color) (skip : Bool) :
    EnumTape.stepSpans pull push scan color skip =
      (let ts := eTakeSkip pull scan skip
      let po := ePullOne ts.2 ts.1
      (po.2.1, ePushOn push color (eSteppedOf ts.1) po.2.2, po.1)) := rfl

section step
variable {o : Ops} (H : IntOps o)
include H

theorem steppedOf_int (pb : Option Block) :
    STape.steppedOf o (pb.map ofBlock) = .ok (.int (pySteppedOf pb)) := by
  cases pb with
  | none => rfl
  | some b => simp [STape.steppedOf, ofBlock, H.add, pySteppedOf]

omit H in
theorem takeSkip_int (s : List Block) (scan : Color) (skip : Bool) :
    STape.takeSkip (s.map ofBlock) scan skip =
      ((pyTakeSkip s scan skip).1.map ofBlock, (pyTakeSkip s scan skip).2.map ofBlock) ∧
    (Pos s → Pos (pyTakeSkip s scan skip).2) := by
  cases s with
  | nil => exact ⟨rfl, id⟩
  | cons b s =>
    simp only [List.map_cons, STape.takeSkip, pyTakeSkip]
    by_cases h : (skip && b.color == scan) = true
    · rw [if_pos h, if_pos (show (skip && (ofBlock b).color == scan) = true from h)]
      exact ⟨rfl, fun hs => (pos_cons.mp hs).2⟩
    · rw [if_neg h, if_neg (show ¬ (skip && (ofBlock b).color == scan) = true from h)]
      exact ⟨rfl, id⟩

theorem pullOne_int {s : List Block} (hs : Pos s) (pb : Option Block) :
    STape.pullOne o (s.map ofBlock) (pb.map ofBlock) =
      .ok ((pyPullOne s pb).1, (pyPullOne s pb).2.1.map ofBlock, (pyPullOne s pb).2.2.map ofBlock) ∧
    Pos (pyPullOne s pb).2.1 := by
  cases s with
  | nil => exact ⟨rfl, pos_nil⟩
  | cons b s =>
    rw [pos_cons] at hs
    simp only [List.map_cons, STape.pullOne, pyPullOne]
    by_cases hb : b.count = 1
    · have hc : (ofBlock b).count = .int 1 := by simp [ofBlock, hb]
      rw [if_neg (by simp [hc]), if_neg (by simp [hb])]
      cases pb <;> exact ⟨rfl, hs.2⟩
    · have hc : (ofBlock b).count ≠ .int 1 := by
        simp only [ofBlock, ne_eq, Num.int.injEq]; omega
      rw [if_pos hc, if_pos (by simpa using hb)]
      have hd : o.sub (ofBlock b).count (.int 1) = .ok (.int ((b.count - 1 : Nat) : Int)) := by
        simp only [ofBlock, H.sub]
        congr 2; omega
      rw [hd]
      exact ⟨rfl, pos_cons.mpr ⟨by simp only; omega, hs.2⟩⟩

theorem fresh_int (color : Color) (pb : Option Block) :
    STape.freshBlock o color (pb.map ofBlock) = .ok (ofBlock (pyFresh color pb)) ∧
    1 ≤ (pyFresh color pb).count := by
  cases pb with
  | none => exact ⟨rfl, le_refl _⟩
  | some b =>
    refine ⟨?_, by simp [pyFresh]⟩
    simp [STape.freshBlock, ofBlock, H.add, bind, Except.bind, pure, Except.pure, pyFresh]

theorem pushOn_int {push : List Block} (hs : Pos push) (color : Color) (k : Nat) (pb : Option Block) :
    STape.pushOn o (push.map ofBlock) color (.int k) (pb.map ofBlock) =
      .ok ((pyPushOn push color k pb).map ofBlock) ∧ Pos (pyPushOn push color k pb) := by
  cases push with
  | nil =>
    simp only [List.map_nil, STape.pushOn, pyPushOn]
    by_cases h : (color != 0) = true
    · rw [if_pos h, if_pos h, (fresh_int H color pb).1]
      exact ⟨rfl, pos_cons.mpr ⟨(fresh_int H color pb).2, pos_nil⟩⟩
    · rw [if_neg h, if_neg h]; exact ⟨rfl, pos_nil⟩
  | cons top rest =>
    simp only [List.map_cons, STape.pushOn, pyPushOn]
    by_cases h : (top.color == color) = true
    · rw [if_pos h, if_pos (show ((ofBlock top).color == color) = true from h)]
      refine ⟨?_, pos_cons.mpr ⟨?_, (pos_cons.mp hs).2⟩⟩
      · simp [H.add, bind, Except.bind, pure, Except.pure, ofBlock]
      · have := (pos_cons.mp hs).1
        simp only; omega
    · rw [if_neg h, if_neg (show ¬ ((ofBlock top).color == color) = true from h), (fresh_int H color pb).1]
      exact ⟨rfl, pos_cons.mpr ⟨(fresh_int H color pb).2, hs⟩⟩

theorem e_steppedOf_int (pb : Option EBlock) :
    STape.steppedOf o (pb.map ofEBlock) = .ok (.int (eSteppedOf pb)) := by
  cases pb with
  | none => rfl
  | some b => simp [STape.steppedOf, ofEBlock, H.add, eSteppedOf]

omit H in
theorem e_takeSkip_int (s : List EBlock) (scan : Color) (skip : Bool) :
    STape.takeSkip (s.map ofEBlock) scan skip =
      ((eTakeSkip s scan skip).1.map ofEBlock, (eTakeSkip s scan skip).2.map ofEBlock) ∧
    (EPos s → EPos (eTakeSkip s scan skip).2) := by
  cases s with
  | nil => exact ⟨rfl, id⟩
  | cons b s =>
    simp only [List.map_cons, STape.takeSkip, eTakeSkip]
    by_cases h : (skip && b.color == scan) = true
    · rw [if_pos h, if_pos (show (skip && (ofEBlock b).color == scan) = true from h)]
      exact ⟨rfl, fun hs => (epos_cons.mp hs).2⟩
    · rw [if_neg h, if_neg (show ¬ (skip && (ofEBlock b).color == scan) = true from h)]
      exact ⟨rfl, id⟩

theorem e_pullOne_int {s : List EBlock} (hs : EPos s) (pb : Option EBlock) :
    STape.pullOne o (s.map ofEBlock) (pb.map ofEBlock) =
      .ok ((ePullOne s pb).1, (ePullOne s pb).2.1.map ofEBlock, (ePullOne s pb).2.2.map ofEBlock) ∧
    EPos (ePullOne s pb).2.1 := by
  cases s with
  | nil => exact ⟨rfl, epos_nil⟩
  | cons b s =>
    rw [epos_cons] at hs
    simp only [List.map_cons, STape.pullOne, ePullOne]
    by_cases hb : b.count = 1
    · have hc : (ofEBlock b).count = .int 1 := by simp [ofEBlock, hb]
      rw [if_neg (by simp [hc]), if_neg (by simp [hb])]
      cases pb <;> exact ⟨rfl, hs.2⟩
    · have hc : (ofEBlock b).count ≠ .int 1 := by
        simp only [ofEBlock, ne_eq, Num.int.injEq]; omega
      rw [if_pos hc, if_pos (by simpa using hb)]
      have hd : o.sub (ofEBlock b).count (.int 1) = .ok (.int ((b.count - 1 : Nat) : Int)) := by
        simp only [ofEBlock, H.sub]
        congr 2; omega
      rw [hd]
      exact ⟨rfl, epos_cons.mpr ⟨by simp only; omega, hs.2⟩⟩

theorem e_fresh_int (color : Color) (pb : Option EBlock) :
    STape.freshBlock o color (pb.map ofEBlock) = .ok (ofEBlock (eFresh color pb)) ∧
    1 ≤ (eFresh color pb).count := by
  cases pb with
  | none => exact ⟨rfl, le_refl _⟩
  | some b =>
    refine ⟨?_, by simp [eFresh]⟩
    simp [STape.freshBlock, ofEBlock, H.add, bind, Except.bind, pure, Except.pure, eFresh]

theorem e_pushOn_int {push : List EBlock} (hs : EPos push) (color : Color) (k : Nat) (pb : Option EBlock) :
    STape.pushOn o (push.map ofEBlock) color (.int k) (pb.map ofEBlock) =
      .ok ((ePushOn push color k pb).map ofEBlock) ∧ EPos (ePushOn push color k pb) := by
  cases push with
  | nil =>
    simp only [List.map_nil, STape.pushOn, ePushOn]
    by_cases h : (color != 0) = true
    · rw [if_pos h, if_pos h, (e_fresh_int H color pb).1]
      exact ⟨rfl, epos_cons.mpr ⟨(e_fresh_int H color pb).2, epos_nil⟩⟩
    · rw [if_neg h, if_neg h]; exact ⟨rfl, epos_nil⟩
  | cons top rest =>
    simp only [List.map_cons, STape.pushOn, ePushOn]
    by_cases h : (top.color == color) = true
    · rw [if_pos h, if_pos (show ((ofEBlock top).color == color) = true from h)]
      refine ⟨?_, epos_cons.mpr ⟨?_, (epos_cons.mp hs).2⟩⟩
      · simp [H.add, bind, Except.bind, pure, Except.pure, ofEBlock]
      · have := (epos_cons.mp hs).1
        simp only; omega
    · rw [if_neg h, if_neg (show ¬ ((ofEBlock top).color == color) = true from h), (e_fresh_int H color pb).1]
      exact ⟨rfl, epos_cons.mpr ⟨(e_fresh_int H color pb).2, hs⟩⟩

theorem stepSpans_int {pull push : List Block} (h1 : Pos pull) (h2 : Pos push) (scan color : Color)
    (skip : Bool) :
    STape.stepSpans o (pull.map ofBlock) (push.map ofBlock) scan color skip =
      .ok ((Py.stepSpans pull push scan color skip).1.map ofBlock,
        (Py.stepSpans pull push scan color skip).2.1.map ofBlock,
        (Py.stepSpans pull push scan color skip).2.2.1,
        .int (Py.stepSpans pull push scan color skip).2.2.2) ∧
    Pos (Py.stepSpans pull push scan color skip).1 ∧
    Pos (Py.stepSpans pull push scan color skip).2.1 := by
  rw [py_stepSpans_eq]
  obtain ⟨e1, p1⟩ := takeSkip_int pull scan skip
  obtain ⟨e2, p2⟩ := pullOne_int H (p1 h1) (pyTakeSkip pull scan skip).1
  obtain ⟨e3, p3⟩ := pushOn_int H h2 color (pySteppedOf (pyTakeSkip pull scan skip).1)
    (pyPullOne (pyTakeSkip pull scan skip).2 (pyTakeSkip pull scan skip).1).2.2
  refine ⟨?_, p2, p3⟩
  simp only [STape.stepSpans, e1, steppedOf_int H, e2, e3, bind, Except.bind, pure, Except.pure]

theorem e_stepSpans_int {pull push : List EBlock} (h1 : EPos pull) (h2 : EPos push) (scan color : Color)
    (skip : Bool) :
    (∃ k, STape.stepSpans o (pull.map ofEBlock) (push.map ofEBlock) scan color skip =
      .ok ((EnumTape.stepSpans pull push scan color skip).1.map ofEBlock,
        (EnumTape.stepSpans pull push scan color skip).2.1.map ofEBlock,
        (EnumTape.stepSpans pull push scan color skip).2.2, k)) ∧
    EPos (EnumTape.stepSpans pull push scan color skip).1 ∧
    EPos (EnumTape.stepSpans pull push scan color skip).2.1 := by
  rw [e_stepSpans_eq]
  obtain ⟨e1, p1⟩ := e_takeSkip_int pull scan skip
  obtain ⟨e2, p2⟩ := e_pullOne_int H (p1 h1) (eTakeSkip pull scan skip).1
  obtain ⟨e3, p3⟩ := e_pushOn_int H h2 color (eSteppedOf (eTakeSkip pull scan skip).1)
    (ePullOne (eTakeSkip pull scan skip).2 (eTakeSkip pull scan skip).1).2.2
  refine ⟨⟨.int (eSteppedOf (eTakeSkip pull scan skip).1), ?_⟩, p2, p3⟩
  simp only [STape.stepSpans, e1, e_steppedOf_int H, e2, e3, bind, Except.bind, pure, Except.pure]

theorem step_int {t : Tape} (h : Pos t.lspan ∧ Pos t.rspan) (shift : Bool) (color : Color) (skip : Bool) :
    (ofTape t).step o shift color skip =
      .ok (ofTape (Py.step t shift color skip).1, .int (Py.step t shift color skip).2) ∧
    Pos (Py.step t shift color skip).1.lspan ∧ Pos (Py.step t shift color skip).1.rspan := by
  cases shift with
  | true =>
    obtain ⟨e, p1, p2⟩ := stepSpans_int H h.2 h.1 t.scan color skip
    refine ⟨?_, p2, p1⟩
    simp only [STape.step, ofTape, Py.step, if_true, e, bind, Except.bind, pure, Except.pure]
  | false =>
    obtain ⟨e, p1, p2⟩ := stepSpans_int H h.1 h.2 t.scan color skip
    refine ⟨?_, p1, p2⟩
    simp only [STape.step, ofTape, Py.step, if_false, e, bind, Except.bind, pure, Except.pure,
      Bool.false_eq_true]

end step

/-! ### Rules that add -/

/-- What the two models of a tape have to do with each other. -/
structure Agree {τ σ : Type} (T : SimTape τ) (S : SSimTape σ) (f : τ → σ) (P : τ → Prop)
    (cnt : τ → Index → Option Int) : Prop where
  get_some : ∀ t i c, cnt t i = some c → ∃ t', T.get t i = .ok (c, t') ∧
    S.get (f t) i = .ok (.int c, f t') ∧ cnt t' = cnt t ∧ (P t → P t')
  get_none : ∀ t i, cnt t i = none → T.get t i = .error BB.Err.indexError ∧
    S.get (f t) i = .error (.num .other)
  set : ∀ t i c v, P t → cnt t i = some c → 1 ≤ v → ∃ t', T.set t i v = .ok t' ∧
    S.set (f t) i (.int v) = .ok (f t') ∧ (∀ j, j ≠ i → cnt t' j = cnt t j) ∧ P t'
  pos : ∀ t i c, P t → cnt t i = some c → 1 ≤ c
  scan : ∀ t, S.scan (f t) = T.scan t
  signature : ∀ t, S.signature (f t) = T.signature t
  step : ∀ t sh c sk, P t → S.step (f t) sh c sk = .ok (f (T.step t sh c sk)) ∧ P (T.step t sh c sk)

/-- The running minimum of `count_apps` as a term. -/
def ofApps (x : Int × Index × Int) : Num × Index × Int := (.int x.1, x.2.1, x.2.2)

section rules
variable {τ σ : Type} {T : SimTape τ} {S : SSimTape σ} {f : τ → σ} {P : τ → Prop}
  {cnt : τ → Index → Option Int} {o : Ops}

theorem apps_bounds {c d : Int} (hd : d < 0) (hc : -d < c) :
    let r := if c.fmod (-d) > 0 then (c.fdiv (-d), c.fmod (-d)) else (c.fdiv (-d) - 1, -d)
    1 ≤ r.1 ∧ 1 ≤ r.2 ∧ 1 ≤ c + d * r.1 := by
  have e1 : c.fdiv (-d) = c / (-d) := Int.fdiv_eq_ediv_of_nonneg _ (by omega)
  have e2 : c.fmod (-d) = c % (-d) := Int.fmod_eq_emod_of_nonneg _ (by omega)
  have h1 := Int.emod_nonneg c (show -d ≠ 0 by omega)
  have h2 := Int.emod_lt_of_pos c (show 0 < -d by omega)
  have h3 := Int.mul_ediv_add_emod c (-d)
  rw [e1, e2]
  intro r
  simp only [r]
  by_cases h : c % (-d) > 0
  · rw [if_pos h]
    refine ⟨?_, by simp only; omega, by simp only; linarith⟩
    simp only
    by_contra hn
    have : c / (-d) ≤ 0 := by omega
    nlinarith
  · rw [if_neg h]
    refine ⟨?_, by simp only; omega, by simp only; linarith⟩
    simp only
    by_contra hn
    have : c / (-d) ≤ 1 := by omega
    nlinarith

theorem appsOf_int (H : IntOps o) (strict : Bool) (c : Int) {d : Int} (hd : d ≠ 0) :
    appsOf strict o (.int c) d = .ok
      (.int (if c.fmod d > 0 then (c.fdiv d, c.fmod d) else (c.fdiv d - 1, d)).1,
        (if c.fmod d > 0 then (c.fdiv d, c.fmod d) else (c.fdiv d - 1, d)).2) := by
  simp only [appsOf, numDivmod]
  rw [if_neg hd]
  simp only [bind, Except.bind, pure, Except.pure, H.sub]
  by_cases h : c.fmod d > 0
  · rw [if_pos h, if_pos h]
  · rw [if_neg h, if_neg h]

theorem ofRule_plus (i : Index) (d : Int) (rest : Rule) :
    ofRule ((i, Op.plus d) :: rest) = (i, SOp.plus d) :: ofRule rest := rfl

theorem count_int (A : Agree T S f P cnt) (H : IntOps o) (strict : Bool) :
    ∀ (rule : Rule), rule.Adds → ∀ (t : τ) (apps : Option (Int × Index × Int)), P t →
      (∀ x ∈ apps, 1 ≤ x.1 ∧ 1 ≤ x.2.2) →
    (BB.countAppsFrom T.toIndexTape rule t apps = .error BB.Err.indexError ∧
      countAppsOn strict o S (ofRule rule) (f t) (apps.map ofApps) = .error (.num .other)) ∨
    ∃ r t', BB.countAppsFrom T.toIndexTape rule t apps = .ok (r, t') ∧
      countAppsOn strict o S (ofRule rule) (f t) (apps.map ofApps) = .ok (r.map ofApps, f t') ∧
      cnt t' = cnt t ∧ P t' ∧
      ∀ x ∈ r, 1 ≤ x.1 ∧ 1 ≤ x.2.2 ∧ (∀ y ∈ apps, x.1 ≤ y.1) ∧
        ∀ i d, (i, Op.plus d) ∈ rule → d < 0 → ∃ c, cnt t i = some c ∧ 1 ≤ c + d * x.1 := by
  intro rule
  induction rule with
  | nil =>
    intro _ t apps hP hx
    exact .inr ⟨apps, t, rfl, rfl, rfl, hP, fun x h => ⟨(hx x h).1, (hx x h).2,
      fun y hy => by rw [Option.mem_def.mp h] at hy; cases hy; exact le_refl _, by simp⟩⟩
  | cons e rest ih =>
    intro hr t apps hP hx
    have hrest : Rule.Adds rest := fun e he => hr e (List.mem_cons_of_mem _ he)
    obtain ⟨i, op⟩ := e
    obtain ⟨d, rfl⟩ : ∃ d, op = .plus d := hr (i, op) (by simp)
    rw [ofRule_plus]
    simp only [BB.countAppsFrom, countAppsOn]
    by_cases hd : d ≥ 0
    · rw [if_pos hd, if_pos hd]
      rcases ih hrest t apps hP hx with h | ⟨r, t', h1, h2, h3, h4, h5⟩
      · exact .inl h
      · refine .inr ⟨r, t', h1, h2, h3, h4, fun x hxr => ?_⟩
        obtain ⟨a, b, c, k⟩ := h5 x hxr
        refine ⟨a, b, c, fun j d' hm hd' => ?_⟩
        rcases List.mem_cons.mp hm with hm | hm
        · cases hm; omega
        · exact k j d' hm hd'
    · rw [if_neg hd, if_neg hd]
      cases hc : cnt t i with
      | none =>
        obtain ⟨h1, h2⟩ := A.get_none t i hc
        rw [h1, h2]
        exact .inl ⟨rfl, rfl⟩
      | some c =>
        obtain ⟨t1, h1, h2, h3, h4⟩ := A.get_some t i c hc
        rw [h1, h2]
        simp only [bind, Except.bind, tooSmall]
        by_cases hsm : -d ≥ c
        · rw [if_pos hsm, if_pos (by simpa using hsm)]
          exact .inr ⟨none, t1, rfl, rfl, h3, h4 hP, fun x h => by cases h⟩
        · rw [if_neg hsm, if_neg (by simpa using hsm), pyDivmod_ok (show -d ≠ 0 by omega)]
          rw [appsOf_int H strict c (show -d ≠ 0 by omega)]
          have hb := apps_bounds (show d < 0 by omega) (show -d < c by omega)
          obtain ⟨times, res, hq⟩ : ∃ times res, (if c.fmod (-d) > 0 then (c.fdiv (-d), c.fmod (-d))
            else (c.fdiv (-d) - 1, -d)) = (times, res) := ⟨_, _, rfl⟩
          simp only [hq] at hb ⊢
          simp only [lift]
          have fin : ∀ apps' : Option (Int × Index × Int), (∀ x ∈ apps', 1 ≤ x.1 ∧ 1 ≤ x.2.2) →
              (∀ y ∈ apps', y.1 ≤ times ∧ ∀ z ∈ apps, y.1 ≤ z.1) → apps' ≠ none →
              (BB.countAppsFrom T.toIndexTape rest t1 apps' = .error BB.Err.indexError ∧
                countAppsOn strict o S (ofRule rest) (f t1) (apps'.map ofApps) = .error (.num .other)) ∨
              ∃ r t', BB.countAppsFrom T.toIndexTape rest t1 apps' = .ok (r, t') ∧
                countAppsOn strict o S (ofRule rest) (f t1) (apps'.map ofApps) =
                  .ok (r.map ofApps, f t') ∧ cnt t' = cnt t ∧ P t' ∧
                ∀ x ∈ r, 1 ≤ x.1 ∧ 1 ≤ x.2.2 ∧ (∀ y ∈ apps, x.1 ≤ y.1) ∧
                  ∀ j d', (j, Op.plus d') ∈ (i, Op.plus d) :: rest → d' < 0 →
                    ∃ c, cnt t j = some c ∧ 1 ≤ c + d' * x.1 := by
            intro apps' ha hle hne
            rcases ih hrest t1 apps' (h4 hP) ha with h | ⟨r, t', k1, k2, k3, k4, k5⟩
            · exact .inl h
            · refine .inr ⟨r, t', k1, k2, k3.trans h3, k4, fun x hxr => ?_⟩
              obtain ⟨a, b, g, k⟩ := k5 x hxr
              obtain ⟨y, hy⟩ := Option.ne_none_iff_exists'.mp hne
              have hxy := g y hy
              have hy2 := hle y hy
              refine ⟨a, b, fun z hz => le_trans hxy (hy2.2 z hz), fun j d' hm hd' => ?_⟩
              rcases List.mem_cons.mp hm with hm | hm
              · cases hm
                exact ⟨c, hc, by nlinarith [hb.2.2, hy2.1]⟩
              · rw [← h3]
                exact k j d' hm hd'
          cases apps with
          | none =>
            exact fin (some (times, i, res)) (by rintro x ⟨⟩; exact ⟨hb.1, hb.2.1⟩)
              (by rintro y ⟨⟩; exact ⟨le_refl _, fun z hz => by cases hz⟩) (by simp)
          | some a =>
            obtain ⟨curr, p, r⟩ := a
            simp only [Option.map_some, ofApps, H.lt]
            have hcur := hx (curr, p, r) rfl
            by_cases hlt : times < curr
            · rw [if_pos hlt]
              simp only [decide_eq_true hlt, if_true]
              exact fin (some (times, i, res)) (by rintro x ⟨⟩; exact ⟨hb.1, hb.2.1⟩)
                (by rintro y ⟨⟩; exact ⟨le_refl _, by rintro z ⟨⟩; exact le_of_lt hlt⟩) (by simp)
            · rw [if_neg hlt]
              simp only [decide_eq_false hlt, Bool.false_eq_true, if_false]
              exact fin (some (curr, p, r)) (by rintro x ⟨⟩; exact hcur)
                (by rintro y ⟨⟩; exact ⟨by simp only; omega, by rintro z ⟨⟩; exact le_refl _⟩) (by simp)

theorem applyFrom_int (A : Agree T S f P cnt) (H : IntOps o) (strict : Bool) {times minRes : Int}
    (minPos : Index) (ht : 1 ≤ times) (hm : 1 ≤ minRes) :
    ∀ (rule : Rule), rule.Adds → (rule.map Prod.fst).Nodup → ∀ (t : τ), P t →
      (∀ i d, (i, Op.plus d) ∈ rule → d < 0 → ∃ c, cnt t i = some c ∧ 1 ≤ c + d * times) →
    (∃ e, (e = .indexError ∨ e = .assertion) ∧
      BB.applyRuleFrom T.toIndexTape times minPos minRes rule t = .error e ∧
      applyRuleFromOn strict o S (.int times) minPos minRes (ofRule rule) (f t) = .error (ofErr e)) ∨
    ∃ t', BB.applyRuleFrom T.toIndexTape times minPos minRes rule t = .ok t' ∧
      applyRuleFromOn strict o S (.int times) minPos minRes (ofRule rule) (f t) = .ok (f t') ∧ P t' := by
  intro rule
  induction rule with
  | nil => intro _ _ t hP _; exact .inr ⟨t, rfl, rfl, hP⟩
  | cons e rest ih =>
    intro hr hk t hP hneg
    have hrest : Rule.Adds rest := fun e he => hr e (List.mem_cons_of_mem _ he)
    obtain ⟨i, op⟩ := e
    obtain ⟨d, rfl⟩ : ∃ d, op = .plus d := hr (i, op) (by simp)
    simp only [List.map_cons, List.nodup_cons] at hk
    rw [ofRule_plus]
    simp only [BB.applyRuleFrom, applyRuleFromOn]
    cases hc : cnt t i with
    | none =>
      obtain ⟨h1, h2⟩ := A.get_none t i hc
      rw [h1, h2]
      exact .inl ⟨.indexError, .inl rfl, rfl, rfl⟩
    | some c =>
      obtain ⟨t1, h1, h2, h3, h4⟩ := A.get_some t i c hc
      rw [h1, h2]
      simp only [bind, Except.bind]
      have hset : ∀ v, 1 ≤ v → (∃ e, (e = BB.Err.indexError ∨ e = BB.Err.assertion) ∧
          (T.set t1 i v).bind (fun t => BB.applyRuleFrom T.toIndexTape times minPos minRes rest t) =
            .error e ∧
          (S.set (f t1) i (.int v)).bind (fun t =>
            applyRuleFromOn strict o S (.int times) minPos minRes (ofRule rest) t) = .error (ofErr e)) ∨
          ∃ t', (T.set t1 i v).bind (fun t =>
            BB.applyRuleFrom T.toIndexTape times minPos minRes rest t) = .ok t' ∧
          (S.set (f t1) i (.int v)).bind (fun t =>
            applyRuleFromOn strict o S (.int times) minPos minRes (ofRule rest) t) = .ok (f t') ∧
          P t' := by
        intro v hv
        obtain ⟨t2, k1, k2, k3, k4⟩ := A.set t1 i c v (h4 hP) (by rw [h3]; exact hc) hv
        rw [k1, k2]
        refine ih hrest hk.2 t2 k4 fun j d' hj hd' => ?_
        have hji : j ≠ i := by
          rintro rfl
          exact hk.1 (List.mem_map.mpr ⟨_, hj, rfl⟩)
        rw [k3 j hji, h3]
        exact hneg j d' (List.mem_cons_of_mem _ hj) hd'
      simp only [BB.opResult, Sym.opResult]
      by_cases hp : i = minPos
      · rw [if_neg (show ¬ (i != minPos) = true by simp [hp]), if_neg (show ¬ i ≠ minPos by simp [hp])]
        by_cases hd : d < 0
        · rw [if_pos hd, if_pos hd]
          exact hset minRes hm
        · rw [if_neg hd, if_neg hd]
          exact .inl ⟨.assertion, .inr rfl, rfl, rfl⟩
      · rw [if_pos (show (i != minPos) = true by simpa using hp), if_pos (show i ≠ minPos from hp)]
        simp only [H.mul, H.add, lift, bind, Except.bind]
        refine hset _ ?_
        by_cases hd : d < 0
        · obtain ⟨c', hc', h5⟩ := hneg i d (by simp) hd
          rw [hc] at hc'
          cases hc'
          exact h5
        · have := A.pos t i c hP hc
          nlinarith

theorem apply_int (A : Agree T S f P cnt) (H : IntOps o) (strict : Bool) {rule : Rule} (hr : rule.Adds)
    (hk : (rule.map Prod.fst).Nodup) {t : τ} (hP : P t) :
    (∃ e, (e = .indexError ∨ e = .assertion) ∧ BB.applyRule T.toIndexTape rule t = .error e ∧
      applyRuleOn strict o S (ofRule rule) (f t) = .error (ofErr e)) ∨
    ∃ times t', BB.applyRule T.toIndexTape rule t = .ok (times, t') ∧
      applyRuleOn strict o S (ofRule rule) (f t) = .ok (times.map Num.int, f t') ∧ P t' := by
  unfold BB.applyRule countApps applyRuleOn
  rcases count_int A H strict rule hr t none hP (fun x h => by cases h) with
    ⟨h1, h2⟩ | ⟨r, t1, h1, h2, h3, h4, h5⟩
  · rw [h1]
    rw [Option.map_none] at h2
    rw [h2]
    exact .inl ⟨.indexError, .inl rfl, rfl, rfl⟩
  · rw [h1]
    rw [Option.map_none] at h2
    rw [h2]
    simp only [bind, Except.bind]
    cases r with
    | none => exact .inr ⟨none, t1, rfl, rfl, h4⟩
    | some x =>
      obtain ⟨times, minPos, minRes⟩ := x
      obtain ⟨k1, k2, -, k3⟩ := h5 _ rfl
      simp only [Option.map_some, ofApps]
      rcases applyFrom_int A H strict minPos k1 k2 rule hr hk t1 h4 (by rw [h3]; exact k3) with
        ⟨e, he, g1, g2⟩ | ⟨t', g1, g2, g3⟩
      · rw [g1, g2]
        exact .inl ⟨e, he, rfl, rfl⟩
      · rw [g1, g2]
        exact .inr ⟨some times, t', rfl, rfl, g3⟩

end rules

/-! ### The prover -/

/-- The same prover with its rules as rules on terms. -/
def ofKnown (known : List (MinSig × Rule)) : List (MinSig × SRule) := known.map fun e => (e.1, ofRule e.2)

def ofProver (pr : Prover) : SProver := ⟨pr.rules.map fun e => (e.1, ofKnown e.2), pr.configs⟩

/-- The rules are dictionaries. -/
def Keyed (pr : Prover) : Prop :=
  ∀ slot known, (slot, known) ∈ pr.rules → ∀ e ∈ known, (e.2.map Prod.fst).Nodup

theorem lookup_map {κ α β : Type} [BEq κ] (g : α → β) (l : List (κ × α)) (k : κ) :
    (l.map fun e => (e.1, g e.2)).lookup k = (l.lookup k).map g := by
  induction l with
  | nil => rfl
  | cons e l ih =>
    obtain ⟨a, b⟩ := e
    simp only [List.map_cons, List.lookup_cons]
    cases k == a
    · exact ih
    · rfl

theorem ofProver_getRule (pr : Prover) (q : State) (sig : Sig) :
    (ofProver pr).getRule q sig = (pr.getRule q sig).map ofRule := by
  simp only [SProver.getRule, Prover.getRule, ofProver, lookup_map]
  cases pr.rules.lookup (q, sig.scan) with
  | none => rfl
  | some known =>
    simp only [Option.map_some, ofKnown, List.find?_map, Option.map_map]
    rfl

theorem getRule_mem {pr : Prover} {q : State} {sig : Sig} {rule : Rule}
    (h : pr.getRule q sig = some rule) :
    ∃ slot known sig', (slot, known) ∈ pr.rules ∧ (sig', rule) ∈ known := by
  unfold Prover.getRule at h
  split at h
  · cases h
  · rename_i known hl
    rw [List.lookup_eq_some_iff] at hl
    obtain ⟨l1, l2, e, -⟩ := hl
    cases hf : known.find? (fun e => Prover.sigMatches e.1 sig) with
    | none => rw [hf] at h; cases h
    | some x =>
      rw [hf] at h
      cases h
      exact ⟨(q, sig.scan), known, x.1, by rw [e]; simp, List.mem_of_find?_eq_some hf⟩

section sim
variable {τ σ : Type} {T : SimTape τ} {S : SSimTape σ} {f : τ → σ} {P : τ → Prop}
  {cnt : τ → Index → Option Int} {o : Ops}

theorem sim_int (A : Agree T S f P cnt) (H : IntOps o) (strict : Bool) (p : Prog) {pr : Prover}
    (ha : pr.Adds) (hk : Keyed pr) : ∀ (steps : Nat) (q : State) (t : τ), P t →
    (∃ e, (e = .indexError ∨ e = .assertion) ∧ pr.runSimulator T p steps q t = .error e ∧
      (ofProver pr).runSimulator strict o S p steps q (f t) = .error (ofErr e)) ∨
    ∃ q' t', pr.runSimulator T p steps q t = .ok (q', t') ∧
      (ofProver pr).runSimulator strict o S p steps q (f t) = .ok (q', f t') ∧ P t' := by
  intro steps
  induction steps with
  | zero => intro q t hP; exact .inr ⟨some q, t, rfl, rfl, hP⟩
  | succ steps ih =>
    intro q t hP
    have plain : ∀ t, P t →
        (∃ e, (e = BB.Err.indexError ∨ e = BB.Err.assertion) ∧
          (match p (q, T.scan t) with
            | none => (.ok (none, t) : Except BB.Err (Option State × τ))
            | some (color, shift, nextState) =>
              pr.runSimulator T p steps nextState (T.step t shift color (q == nextState))) = .error e ∧
          (match p (q, S.scan (f t)) with
            | none => (.ok (none, f t) : RR (Option State × σ))
            | some (color, shift, nextState) => do
              let t' ← lift (S.step (f t) shift color (q == nextState))
              (ofProver pr).runSimulator strict o S p steps nextState t') = .error (ofErr e)) ∨
        ∃ q' t', (match p (q, T.scan t) with
            | none => (.ok (none, t) : Except BB.Err (Option State × τ))
            | some (color, shift, nextState) =>
              pr.runSimulator T p steps nextState (T.step t shift color (q == nextState))) =
              .ok (q', t') ∧
          (match p (q, S.scan (f t)) with
            | none => (.ok (none, f t) : RR (Option State × σ))
            | some (color, shift, nextState) => do
              let t' ← lift (S.step (f t) shift color (q == nextState))
              (ofProver pr).runSimulator strict o S p steps nextState t') = .ok (q', f t') ∧ P t' := by
      intro t hP
      rw [A.scan]
      cases p (q, T.scan t) with
      | none => exact .inr ⟨none, t, rfl, rfl, hP⟩
      | some i =>
        obtain ⟨c, sh, q'⟩ := i
        obtain ⟨e, hP'⟩ := A.step t sh c (q == q') hP
        simp only [e, lift, bind, Except.bind]
        exact ih q' _ hP'
    unfold Prover.runSimulator SProver.runSimulator
    rw [A.signature, ofProver_getRule]
    cases hg : pr.getRule q (T.signature t) with
    | none => exact plain t hP
    | some rule =>
      obtain ⟨slot, known, sig', m1, m2⟩ := getRule_mem hg
      simp only [Option.map_some]
      rcases apply_int A H strict (ha slot known m1 _ m2) (hk slot known m1 _ m2) hP with
        ⟨e, he, h1, h2⟩ | ⟨times, t1, h1, h2, h3⟩
      · rw [h1, h2]
        exact .inl ⟨e, he, rfl, rfl⟩
      · rw [h1, h2]
        cases times with
        | none => exact plain t1 h3
        | some n => exact ih q t1 h3

end sim

/-! ### The two tapes -/

def TPos (t : Tape) : Prop := Pos t.lspan ∧ Pos t.rspan

def tapeCnt (t : Tape) (i : Index) : Option Int :=
  ((if i.1 then t.rspan else t.lspan)[i.2]?).map fun b => (b.count : Int)

theorem sigSpan_int (s : List Block) : STape.sigSpan (s.map ofBlock) = BB.sigSpan s := by
  simp only [STape.sigSpan, BB.sigSpan, List.map_map]
  refine List.map_congr_left fun b _ => ?_
  simp only [Function.comp, ofBlock, Num.int.injEq, Prod.mk.injEq, true_and]
  by_cases h : b.count = 1
  · simp [h]
  · rw [decide_eq_false (by omega)]
    simp [h]

theorem signature_int (t : Tape) : (ofTape t).signature = t.signature := by
  simp [STape.signature, Tape.signature, ofTape, sigSpan_int]

theorem pos_set {s : List Block} (h : Pos s) (i : Nat) {b : Block} (hb : 1 ≤ b.count) :
    Pos (s.set i b) := by
  intro c hc
  rcases List.mem_or_eq_of_mem_set hc with h' | rfl
  · exact h c h'
  · exact hb

theorem epos_set {s : List EBlock} (h : EPos s) (i : Nat) {b : EBlock} (hb : 1 ≤ b.count) :
    EPos (s.set i b) := by
  intro c hc
  rcases List.mem_or_eq_of_mem_set hc with h' | rfl
  · exact h c h'
  · exact hb

theorem ofTape_block (t : Tape) (i : Index) :
    (ofTape t).block? i = ((if i.1 then t.rspan else t.lspan)[i.2]?).map ofBlock := by
  obtain ⟨sd, k⟩ := i
  cases sd <;> simp [STape.block?, ofTape]

theorem agree_tape {o : Ops} (H : IntOps o) :
    Agree Tape.simTape (STape.simTape o) ofTape TPos tapeCnt where
  get_some t i c h := by
    simp only [tapeCnt, Option.map_eq_some_iff] at h
    obtain ⟨b, hb, rfl⟩ := h
    refine ⟨t, ?_, ?_, rfl, id⟩
    · simp only [Tape.simTape, Tape.indexTape, Tape.getCount, hb]
      rfl
    · simp only [STape.simTape, STape.getCount, ofTape_block, hb]
      rfl
  get_none t i h := by
    simp only [tapeCnt, Option.map_eq_none_iff] at h
    constructor
    · simp only [Tape.simTape, Tape.indexTape, Tape.getCount, h]
      rfl
    · simp only [STape.simTape, STape.getCount, ofTape_block, h]
      rfl
  set t i c v hP h hv := by
    simp only [tapeCnt, Option.map_eq_some_iff] at h
    obtain ⟨b, hb, rfl⟩ := h
    have hv' : ((v.toNat : Nat) : Int) = v := by omega
    obtain ⟨sd, k⟩ := i
    cases sd with
    | true =>
      simp only [if_true] at hb
      refine ⟨{ t with rspan := t.rspan.set k { b with count := v.toNat } }, ?_, ?_, ?_, hP.1,
        pos_set hP.2 k (by simp only; omega)⟩
      · simp only [Tape.simTape, Tape.indexTape, Tape.setCount]
        rw [if_neg (by omega)]
        simp [hb]
      · simp only [STape.simTape, STape.setCount, ofTape_block, if_true, hb, Option.map_some]
        simp [ofTape, ofBlock, List.map_set, hv']
      · rintro ⟨sd, j⟩ hj
        cases sd with
        | false => rfl
        | true =>
          have : j ≠ k := fun e => hj (by rw [e])
          simp [tapeCnt, List.getElem?_set_ne (Ne.symm this)]
    | false =>
      simp only [Bool.false_eq_true, if_false] at hb
      refine ⟨{ t with lspan := t.lspan.set k { b with count := v.toNat } }, ?_, ?_, ?_,
        pos_set hP.1 k (by simp only; omega), hP.2⟩
      · simp only [Tape.simTape, Tape.indexTape, Tape.setCount]
        rw [if_neg (by omega)]
        simp [hb]
      · simp only [STape.simTape, STape.setCount, ofTape_block, Bool.false_eq_true,
          if_false, hb, Option.map_some]
        simp [ofTape, ofBlock, List.map_set, hv']
      · rintro ⟨sd, j⟩ hj
        cases sd with
        | true => rfl
        | false =>
          have : j ≠ k := fun e => hj (by rw [e])
          simp [tapeCnt, List.getElem?_set_ne (Ne.symm this)]
  pos t i c hP h := by
    simp only [tapeCnt, Option.map_eq_some_iff] at h
    obtain ⟨b, hb, rfl⟩ := h
    have hm := List.mem_of_getElem? hb
    obtain ⟨sd, k⟩ := i
    cases sd with
    | true => have := hP.2 b hm; omega
    | false => have := hP.1 b hm; omega
  scan _ := rfl
  signature := signature_int
  step t sh c sk hP := by
    obtain ⟨e, h⟩ := step_int H hP sh c sk
    refine ⟨?_, h⟩
    simp only [STape.simTape, e]
    rfl

def EnumPos (t : EnumTape) : Prop := EPos t.tape.lspan ∧ EPos t.tape.rspan

def enumCnt (t : EnumTape) (i : Index) : Option Int :=
  ((if i.1 then t.tape.rspan else t.tape.lspan)[i.2]?).map fun b => (b.count : Int)

theorem ofEnum_block (t : EnumTape) (i : Index) :
    (ofEnumTape t).tape.block? i =
      ((if i.1 then t.tape.rspan else t.tape.lspan)[i.2]?).map ofEBlock := by
  obtain ⟨sd, k⟩ := i
  cases sd <;> simp [STape.block?, ofEnumTape]

theorem ofEnum_checkOffsets (t : EnumTape) (b : EBlock) :
    (ofEnumTape t).checkOffsets (ofEBlock b) = ofEnumTape (t.checkOffsets b) := by
  obtain ⟨c, n, tag⟩ := b
  cases tag with
  | none => rfl
  | some x =>
    obtain ⟨sd, k⟩ := x
    simp only [SEnumTape.checkOffsets, EnumTape.checkOffsets, ofEBlock]
    cases sd
    · simp only [Bool.false_eq_true, if_false]
      by_cases h : k > t.lOffset
      · rw [if_pos (show k > (ofEnumTape t).lOffset from h), if_pos h]; rfl
      · rw [if_neg (show ¬ k > (ofEnumTape t).lOffset from h), if_neg h]
    · simp only [if_true]
      by_cases h : k > t.rOffset
      · rw [if_pos (show k > (ofEnumTape t).rOffset from h), if_pos h]; rfl
      · rw [if_neg (show ¬ k > (ofEnumTape t).rOffset from h), if_neg h]

theorem ofEnum_touchEdge (t : EnumTape) (sh : Bool) :
    (ofEnumTape t).touchEdge sh = ofEnumTape (t.touchEdge sh) := by
  cases sh <;> rfl

/-- What `check` does with the side that is pushed onto. -/
def ePushCheck (c : Color) (push : List EBlock) (t : EnumTape) : EnumTape :=
  match push with
  | [] => t
  | opp :: _ => if c == opp.color then t.checkOffsets opp else t

/-- The same with symbolic counts. -/
def sPushCheck (c : Color) (push : List SBlock) (t : SEnumTape) : SEnumTape :=
  match push with
  | [] => t
  | opp :: _ => if c == opp.color then t.checkOffsets opp else t

/-- What `check` does with the side that is pulled from. -/
def ePullCheck (sh sk : Bool) (pull : List EBlock) (t : EnumTape) : EnumTape :=
  match pull with
  | [] => t.touchEdge sh
  | near :: rest =>
    if sk && near.color == (t.checkOffsets near).tape.scan then
      match rest with
      | [] => (t.checkOffsets near).touchEdge sh
      | next :: _ => (t.checkOffsets near).checkOffsets next
    else t.checkOffsets near

/-- The same with symbolic counts. -/
def sPullCheck (sh sk : Bool) (pull : List SBlock) (t : SEnumTape) : SEnumTape :=
  match pull with
  | [] => t.touchEdge sh
  | near :: rest =>
    if sk && near.color == (t.checkOffsets near).tape.scan then
      match rest with
      | [] => (t.checkOffsets near).touchEdge sh
      | next :: _ => (t.checkOffsets near).checkOffsets next
    else t.checkOffsets near

theorem ofEnum_check (t : EnumTape) (sh : Bool) (c : Color) (sk : Bool) :
    (ofEnumTape t).check sh c sk = ofEnumTape (t.check sh c sk) := by
  have hpush : ∀ (push : List EBlock) (t : EnumTape),
      sPushCheck c (push.map ofEBlock) (ofEnumTape t) = ofEnumTape (ePushCheck c push t) := by
    intro push t
    cases push with
    | nil => rfl
    | cons b s =>
      simp only [sPushCheck, ePushCheck, List.map_cons]
      by_cases h : (c == b.color) = true
      · rw [if_pos h, if_pos (show (c == (ofEBlock b).color) = true from h), ofEnum_checkOffsets]
      · rw [if_neg h, if_neg (show ¬ (c == (ofEBlock b).color) = true from h)]
  have hpull : ∀ (pull : List EBlock) (t : EnumTape),
      sPullCheck sh sk (pull.map ofEBlock) (ofEnumTape t) = ofEnumTape (ePullCheck sh sk pull t) := by
    intro pull t
    cases pull with
    | nil => exact ofEnum_touchEdge t sh
    | cons b s =>
      simp only [sPullCheck, ePullCheck, List.map_cons, ofEnum_checkOffsets]
      by_cases h : (sk && b.color == (t.checkOffsets b).tape.scan) = true
      · rw [if_pos h, if_pos (show (sk && (ofEBlock b).color ==
          (ofEnumTape (t.checkOffsets b)).tape.scan) = true from h)]
        cases s with
        | nil => exact ofEnum_touchEdge _ sh
        | cons d s => exact ofEnum_checkOffsets _ d
      · rw [if_neg h, if_neg (show ¬ (sk && (ofEBlock b).color ==
          (ofEnumTape (t.checkOffsets b)).tape.scan) = true from h)]
  cases sh with
  | true =>
    have e1 : t.check true c sk = ePushCheck c t.tape.lspan (ePullCheck true sk t.tape.rspan t) :=
      rfl
    have e2 : (ofEnumTape t).check true c sk = sPushCheck c (t.tape.lspan.map ofEBlock)
        (sPullCheck true sk (t.tape.rspan.map ofEBlock) (ofEnumTape t)) := rfl
    rw [e1, e2, hpull, hpush]
  | false =>
    have e1 : t.check false c sk = ePushCheck c t.tape.rspan (ePullCheck false sk t.tape.lspan t) :=
      rfl
    have e2 : (ofEnumTape t).check false c sk = sPushCheck c (t.tape.rspan.map ofEBlock)
        (sPullCheck false sk (t.tape.lspan.map ofEBlock) (ofEnumTape t)) := rfl
    rw [e1, e2, hpull, hpush]

theorem agree_enum {o : Ops} (H : IntOps o) :
    Agree EnumTape.simTape (SEnumTape.simTape o) ofEnumTape EnumPos enumCnt where
  get_some t i c h := by
    simp only [enumCnt, Option.map_eq_some_iff] at h
    obtain ⟨b, hb, rfl⟩ := h
    refine ⟨t.checkOffsets b, ?_, ?_, ?_, ?_⟩
    · simp only [EnumTape.simTape, EnumTape.getCount, hb]
    · simp only [SEnumTape.simTape, SEnumTape.getCount, ofEnum_block, hb, Option.map_some,
        ofEnum_checkOffsets]
      rfl
    · funext j; simp only [enumCnt, EnumTape.checkOffsets_tape]
    · simp only [EnumPos, EnumTape.checkOffsets_tape]; exact id
  get_none t i h := by
    simp only [enumCnt, Option.map_eq_none_iff] at h
    constructor
    · simp only [EnumTape.simTape, EnumTape.getCount, h]
    · simp only [SEnumTape.simTape, SEnumTape.getCount, ofEnum_block, h]
      rfl
  set t i c v hP h hv := by
    simp only [enumCnt, Option.map_eq_some_iff] at h
    obtain ⟨b, hb, rfl⟩ := h
    have hv' : ((v.toNat : Nat) : Int) = v := by omega
    obtain ⟨sd, k⟩ := i
    cases sd with
    | true =>
      simp only [if_true] at hb
      refine ⟨{ t with tape := { t.tape with rspan := t.tape.rspan.set k { b with count := v.toNat } } },
        ?_, ?_, ?_, hP.1, epos_set hP.2 k (by simp only; omega)⟩
      · simp only [EnumTape.simTape, EnumTape.setCount]
        rw [if_neg (by omega)]
        simp [hb]
      · simp only [SEnumTape.simTape, SEnumTape.setCount, STape.setCount, ofEnum_block, if_true, hb,
          Option.map_some, bind, Except.bind, pure, Except.pure]
        simp [ofEnumTape, ofEBlock, List.map_set, hv']
      · rintro ⟨sd, j⟩ hj
        cases sd with
        | false => rfl
        | true =>
          have : j ≠ k := fun e => hj (by rw [e])
          simp [enumCnt, List.getElem?_set_ne (Ne.symm this)]
    | false =>
      simp only [Bool.false_eq_true, if_false] at hb
      refine ⟨{ t with tape := { t.tape with lspan := t.tape.lspan.set k { b with count := v.toNat } } },
        ?_, ?_, ?_, epos_set hP.1 k (by simp only; omega), hP.2⟩
      · simp only [EnumTape.simTape, EnumTape.setCount]
        rw [if_neg (by omega)]
        simp [hb]
      · simp only [SEnumTape.simTape, SEnumTape.setCount, STape.setCount, ofEnum_block,
          Bool.false_eq_true, if_false, hb, Option.map_some, bind, Except.bind, pure, Except.pure]
        simp [ofEnumTape, ofEBlock, List.map_set, hv']
      · rintro ⟨sd, j⟩ hj
        cases sd with
        | true => rfl
        | false =>
          have : j ≠ k := fun e => hj (by rw [e])
          simp [enumCnt, List.getElem?_set_ne (Ne.symm this)]
  pos t i c hP h := by
    simp only [enumCnt, Option.map_eq_some_iff] at h
    obtain ⟨b, hb, rfl⟩ := h
    have hm := List.mem_of_getElem? hb
    obtain ⟨sd, k⟩ := i
    cases sd with
    | true => have := hP.2 b hm; omega
    | false => have := hP.1 b hm; omega
  scan _ := rfl
  signature t := by
    have : (ofEnumTape t).tape.signature = (ofTape t.tape.forget).signature := by
      simp only [STape.signature, ofEnumTape, ofTape, ETape.forget, STape.sigSpan, List.map_map]
      rfl
    simp only [SEnumTape.simTape, EnumTape.simTape, this, signature_int]
  step t sh c sk hP := by
    have ht : (t.check sh c sk).tape = t.tape := EnumTape.check_tape t sh c sk
    simp only [SEnumTape.simTape, EnumTape.simTape, SEnumTape.step, EnumTape.step, ofEnum_check, ht]
    cases sh with
    | true =>
      obtain ⟨⟨k, e⟩, p1, p2⟩ := e_stepSpans_int H hP.2 hP.1 t.tape.scan c sk
      refine ⟨?_, p2, p1⟩
      simp only [STape.step, ofEnumTape, if_true, e, bind, Except.bind, pure, Except.pure]
    | false =>
      obtain ⟨⟨k, e⟩, p1, p2⟩ := e_stepSpans_int H hP.1 hP.2 t.tape.scan c sk
      refine ⟨?_, p1, p2⟩
      simp only [STape.step, ofEnumTape, Bool.false_eq_true, if_false, e, bind, Except.bind, pure,
        Except.pure]

end Sym
end BB
