/-
Applying rules to tapes with symbolic counts: the access to the tape, and what the application does to
the tape that is denoted.
-/
import Verif.Lemmas.SymRun
import Verif.Props.SymRules

namespace BB
namespace Sym

/-! ### Counts of a tape -/

theorem getCount_ok {t : STape} {i : Index} {c : Num} (h : t.getCount i = .ok c) :
    t.count i = c ∧ ∃ b, t.block? i = some b := by
  unfold STape.getCount at h
  unfold STape.count
  cases hb : t.block? i with
  | none => rw [hb] at h; cases h
  | some b => rw [hb] at h; cases h; exact ⟨rfl, b, rfl⟩

/-- Colours in their places. -/
def STape.shape (t : STape) : List Color × Color × List Color :=
  (t.lspan.map SBlock.color, t.scan, t.rspan.map SBlock.color)

theorem set_count {s : List SBlock} {i : Nat} {b : SBlock} (h : s[i]? = some b) (v : Num) (j : Nat) :
    (((s.set i { b with count := v })[j]?).map SBlock.count) =
      if j = i then some v else (s[j]?).map SBlock.count := by
  rw [List.getElem?_set]
  have hi : i < s.length := by
    rw [List.getElem?_eq_some_iff] at h
    exact h.1
  by_cases hj : j = i
  · rw [if_pos hj, if_pos hj.symm, if_pos (hj ▸ hi)]
    rfl
  · rw [if_neg hj, if_neg (fun e => hj e.symm)]

theorem set_color {s : List SBlock} {i : Nat} {b : SBlock} (h : s[i]? = some b) (v : Num) :
    (s.set i { b with count := v }).map SBlock.color = s.map SBlock.color := by
  rw [List.map_set]
  apply List.ext_getElem?
  intro j
  rw [List.getElem?_set]
  split
  · rename_i e
    subst e
    rw [List.getElem?_map, h]
    have hi : i < s.length := (List.getElem?_eq_some_iff.mp h).1
    simp [hi]
  · rfl

theorem setCount_ok {t t' : STape} {i : Index} {v : Num} (h : t.setCount i v = .ok t') :
    (t'.count = fun j => if j = i then v else t.count j) ∧ t'.shape = t.shape ∧
      ∀ j, (t'.block? j).isSome = (t.block? j).isSome := by
  unfold STape.setCount at h
  cases hb : t.block? i with
  | none => rw [hb] at h; cases h
  | some b =>
    rw [hb] at h
    obtain ⟨side, k⟩ := i
    unfold STape.block? at hb
    cases side with
    | true =>
      simp only [if_true] at hb h
      cases h
      refine ⟨?_, ?_, ?_⟩
      · funext ⟨side', j⟩
        cases side' with
        | true =>
          simp only [STape.count, STape.block?, if_true, set_count hb, Prod.mk.injEq, true_and]
          split <;> rfl
        | false => simp [STape.count, STape.block?]
      · simp only [STape.shape, set_color hb]
      · rintro ⟨side', j⟩
        cases side' with
        | true =>
          have := congrArg Option.isSome (set_count hb v j)
          simp only [Option.isSome_map] at this
          simp only [STape.block?, if_true, this]
          split
          · rename_i e; subst e; simp [hb]
          · simp
        | false => simp [STape.block?]
    | false =>
      simp only [Bool.false_eq_true, if_false] at hb h
      cases h
      refine ⟨?_, ?_, ?_⟩
      · funext ⟨side', j⟩
        cases side' with
        | false =>
          simp only [STape.count, STape.block?, Bool.false_eq_true, if_false, set_count hb,
            Prod.mk.injEq, true_and]
          split <;> rfl
        | true => simp [STape.count, STape.block?]
      · simp only [STape.shape, set_color hb]
      · rintro ⟨side', j⟩
        cases side' with
        | false =>
          have := congrArg Option.isSome (set_count hb v j)
          simp only [Option.isSome_map] at this
          simp only [STape.block?, Bool.false_eq_true, if_false, this]
          split
          · rename_i e; subst e; simp [hb]
          · simp
        | true => simp [STape.block?]

/-! ### `apply_rule` on a tape is `apply_rule` on its counts -/

theorem countAppsOn_counts (strict : Bool) (o : Ops) (rule : SRule) (t : STape)
    (apps : Option (Num × Index × Int)) :
    RRet (countAppsOn strict o (STape.simTape o) rule t apps) (fun r =>
      r.2 = t ∧ Sym.countAppsFrom strict o t.count rule apps = .ok r.1) := by
  induction rule generalizing apps with
  | nil => exact RRet.ok ⟨rfl, rfl⟩
  | cons e rest ih =>
    obtain ⟨pos, op⟩ := e
    cases op with
    | plus d =>
      unfold countAppsOn Sym.countAppsFrom
      split
      · exact ih _
      · refine RRet.bind (Q := fun r => r.2 = t ∧ t.count pos = r.1) ?_ fun r hr => ?_
        · exact RRet.bind RRet.self fun c hc => RRet.ok ⟨rfl, (getCount_ok hc).1⟩
        · obtain ⟨c, t'⟩ := r
          obtain ⟨h1, h2⟩ := hr
          simp only at h1 h2
          subst h1
          rw [h2]
          dsimp only
          split
          · exact RRet.ok ⟨rfl, rfl⟩
          · refine RRet.bind RRet.self fun ⟨times, res⟩ hr => ?_
            rw [hr]
            dsimp only
            split
            · exact ih _
            · refine RRet.bind RRet.self fun less hl => ?_
              simp only [bind, Except.bind, hl]
              split
              · exact ih _
              · exact ih _
    | mult m a => exact ih _
    | seq s => exact ih _

theorem applyRuleFromOn_counts (strict : Bool) (o : Ops) (times : Num) (p : Index) (r : Int)
    (rule : SRule) (t : STape) :
    RRet (applyRuleFromOn strict o (STape.simTape o) times p r rule t) (fun t' =>
      Sym.applyRuleFrom strict o times p r rule t.count = .ok t'.count ∧ t'.shape = t.shape ∧
      (∀ j, (t'.block? j).isSome = (t.block? j).isSome) ∧
      ∀ i op, (i, op) ∈ rule → ∃ b, t.block? i = some b) := by
  induction rule generalizing t with
  | nil => exact RRet.ok ⟨rfl, rfl, fun _ => rfl, fun i op h => by cases h⟩
  | cons e rest ih =>
    obtain ⟨pos, op⟩ := e
    unfold applyRuleFromOn Sym.applyRuleFrom
    refine RRet.bind (Q := fun r => r.2 = t ∧ t.count pos = r.1 ∧ ∃ b, t.block? pos = some b) ?_
      fun x hx => ?_
    · exact RRet.bind RRet.self fun c hc => RRet.ok ⟨rfl, (getCount_ok hc).1, (getCount_ok hc).2⟩
    · obtain ⟨c, t'⟩ := x
      obtain ⟨h1, h2, h3⟩ := hx
      simp only at h1 h2
      subst h1
      rw [h2]
      refine RRet.bind RRet.self fun res hres => ?_
      rw [hres]
      refine RRet.bind RRet.self fun t2 ht2 => ?_
      obtain ⟨s1, s2, s3⟩ := setCount_ok ht2
      refine (ih t2).mono fun t3 ht3 => ⟨?_, ht3.2.1.trans s2, fun j => (ht3.2.2.1 j).trans (s3 j), ?_⟩
      · have := ht3.1
        rw [s1] at this
        exact this
      · intro i op' hi
        rcases List.mem_cons.mp hi with e | h
        · cases e; exact h3
        · obtain ⟨b, hb⟩ := ht3.2.2.2 i op' h
          have := s3 i
          rw [hb] at this
          exact Option.isSome_iff_exists.mp this.symm

theorem applyRuleOn_counts {strict : Bool} {o : Ops} {rule : SRule} {t t' : STape} {times : Num}
    (h : applyRuleOn strict o (STape.simTape o) rule t = .ok (some times, t')) :
    Sym.applyRule strict o rule t.count = .ok (some times, t'.count) ∧ t'.shape = t.shape ∧
      (∀ j, (t'.block? j).isSome = (t.block? j).isSome) ∧
      ∀ i op, (i, op) ∈ rule → ∃ b, t.block? i = some b := by
  unfold applyRuleOn at h
  unfold Sym.applyRule
  cases hc : countAppsOn strict o (STape.simTape o) rule t none with
  | error e => rw [hc] at h; cases h
  | ok x =>
    obtain ⟨apps, u⟩ := x
    obtain ⟨h1, h2⟩ := countAppsOn_counts strict o rule t none _ hc
    simp only at h1 h2
    rw [hc, h1] at h
    rw [h2]
    cases apps with
    | none => cases h
    | some a =>
      obtain ⟨a, b, c⟩ := a
      change (applyRuleFromOn strict o (STape.simTape o) a b c rule t >>=
        fun t => pure (some a, t)) = _ at h
      cases hf : applyRuleFromOn strict o (STape.simTape o) a b c rule t with
      | error e => rw [hf] at h; cases h
      | ok v =>
        rw [hf] at h
        cases h
        obtain ⟨f1, f2, f3, f4⟩ := applyRuleFromOn_counts strict o _ _ _ rule t _ hf
        refine ⟨?_, f2, f3, f4⟩
        change (Sym.applyRuleFrom strict o times b c rule t.count >>= fun t => pure (some times, t)) = _
        rw [f1]
        rfl

theorem rref_getSet {o o' : Ops} : (STape.simTape o).get = (STape.simTape o').get ∧
    (STape.simTape o).set = (STape.simTape o').set := ⟨rfl, rfl⟩

theorem rref_countAppsOn {o o' : Ops} (H : RefOps .strict o o') (rule : SRule) (t : STape)
    (apps : Option (Num × Index × Int)) :
    RRef (countAppsOn true o (STape.simTape o) rule t apps)
      (countAppsOn false o' (STape.simTape o') rule t apps) := by
  induction rule generalizing apps t with
  | nil => exact RRef.rfl
  | cons e rest ih =>
    obtain ⟨pos, op⟩ := e
    cases op with
    | plus d =>
      unfold countAppsOn
      split
      · exact ih _ _
      · refine RRef.bind RRef.rfl fun ⟨c, t'⟩ => ?_
        dsimp only
        split
        · exact RRef.rfl
        · refine RRef.bind (RRef.lift (ref_appsOf H _ _)) fun ⟨times, res⟩ => ?_
          dsimp only
          split
          · exact ih _ _
          · refine RRef.bind (RRef.lift (H.lt _ _)) fun less => ?_
            split
            · exact ih _ _
            · exact ih _ _
    | mult m a => exact ih _ _
    | seq s => exact ih _ _

theorem rref_applyRuleFromOn {o o' : Ops} (H : RefOps .strict o o') (times : Num) (p : Index) (r : Int)
    (rule : SRule) (t : STape) :
    RRef (applyRuleFromOn true o (STape.simTape o) times p r rule t)
      (applyRuleFromOn false o' (STape.simTape o') times p r rule t) := by
  induction rule generalizing t with
  | nil => exact RRef.rfl
  | cons e rest ih =>
    obtain ⟨pos, op⟩ := e
    unfold applyRuleFromOn
    refine RRef.bind RRef.rfl fun ⟨c, t'⟩ => ?_
    refine RRef.bind (rref_opResult H _ _ _ _ _ _) fun res => RRef.bind RRef.rfl fun t2 => ih _

theorem rref_applyRuleOn {o o' : Ops} (H : RefOps .strict o o') (rule : SRule) (t : STape) :
    RRef (applyRuleOn true o (STape.simTape o) rule t)
      (applyRuleOn false o' (STape.simTape o') rule t) := by
  unfold applyRuleOn
  refine RRef.bind (rref_countAppsOn H rule t none) fun ⟨apps, u⟩ => ?_
  cases apps with
  | none => exact RRef.rfl
  | some a => exact RRef.bind (rref_applyRuleFromOn H _ _ _ _ _) fun _ => RRef.rfl

/-! ### The tape that is denoted -/

/-- The tape with other counts. -/
def withCounts (T : Tape) (f : Index → Nat) : Tape :=
  ⟨T.lspan.mapIdx (fun i b => { b with count := f (false, i) }), T.scan,
    T.rspan.mapIdx (fun i b => { b with count := f (true, i) })⟩

theorem withCounts_block (T : Tape) (f : Index → Nat) (i : Index) :
    (withCounts T f).block? i = (T.block? i).map (fun b => { b with count := f i }) := by
  obtain ⟨side, j⟩ := i
  cases side
  · simp [withCounts, Tape.block?]
  · simp [withCounts, Tape.block?]

theorem withCounts_colors (T : Tape) (f : Index → Nat) : (withCounts T f).SameColors T := by
  refine ⟨rfl, ?_, ?_⟩ <;>
  · apply List.ext_getElem?
    intro j
    simp [withCounts, Option.map_map, Function.comp_def]

theorem withCounts_self (T : Tape) {f : Index → Nat} (h : ∀ i B, T.block? i = some B → f i = B.count) :
    withCounts T f = T := by
  obtain ⟨l, c, r⟩ := T
  have key : ∀ (s : List Block) (g : Nat → Nat), (∀ j B, s[j]? = some B → g j = B.count) →
      s.mapIdx (fun i b => { b with count := g i }) = s := by
    intro s g hg
    apply List.ext_getElem?
    intro j
    rw [List.getElem?_mapIdx]
    cases hs : s[j]? with
    | none => rfl
    | some b => simp [hg j b hs]
  simp only [withCounts, Tape.mk.injEq, true_and]
  exact ⟨key l _ fun j B hB => h (false, j) B hB, key r _ fun j B hB => h (true, j) B hB⟩

theorem withCounts_positive {T : Tape} {f : Index → Nat} (h : ∀ i B, T.block? i = some B → 1 ≤ f i) :
    (withCounts T f).Positive := by
  intro b hb
  rcases List.mem_append.mp hb with hb | hb
  · obtain ⟨j, hj⟩ := List.mem_iff_getElem?.mp hb
    have := withCounts_block T f (false, j)
    simp only [Tape.block?, Bool.false_eq_true, if_false, hj] at this
    cases hB : T.lspan[j]? with
    | none => rw [hB] at this; cases this
    | some B =>
      rw [hB] at this
      cases this
      exact h (false, j) B hB
  · obtain ⟨j, hj⟩ := List.mem_iff_getElem?.mp hb
    have := withCounts_block T f (true, j)
    simp only [Tape.block?, if_true, hj] at this
    cases hB : T.rspan[j]? with
    | none => rw [hB] at this; cases this
    | some B =>
      rw [hB] at this
      cases this
      exact h (true, j) B hB

theorem canon_of_colors {s s' : List Block} (hs : Canon s) (hc : s'.map Block.color = s.map Block.color)
    (hp : ∀ b ∈ s', 1 ≤ b.count) : Canon s' := by
  induction hs generalizing s' with
  | nil => simp only [List.map_nil, List.map_eq_nil_iff] at hc; rw [hc]; exact .nil
  | last c n h0 hn =>
    cases s' with
    | nil => cases hc
    | cons b s' =>
      simp only [List.map_cons, List.map_nil, List.cons.injEq, List.map_eq_nil_iff] at hc
      obtain ⟨hb, rfl⟩ := hc
      obtain ⟨c', k⟩ := b
      simp only at hb
      subst hb
      exact .last _ _ h0 (hp _ List.mem_cons_self)
  | cons c n d m s hne hn hs ih =>
    cases s' with
    | nil => cases hc
    | cons b s' =>
      cases s' with
      | nil => simp at hc
      | cons b' s' =>
        simp only [List.map_cons, List.cons.injEq] at hc
        obtain ⟨c1, k1⟩ := b
        obtain ⟨c2, k2⟩ := b'
        simp only at hc
        obtain ⟨h1, h2, h3⟩ := hc
        subst h1 h2
        refine .cons _ _ _ _ _ hne (hp _ List.mem_cons_self) (ih ?_ fun b hb => hp b (List.mem_cons_of_mem _ hb))
        simp [h3]

theorem canonical_of_colors {T T' : Tape} (hT : T.Canonical) (hc : T'.SameColors T) (hp : T'.Positive) :
    T'.Canonical :=
  ⟨canon_of_colors hT.l hc.2.1 fun b hb => hp b (by simp [hb]),
    canon_of_colors hT.r hc.2.2 fun b hb => hp b (by simp [hb])⟩

theorem Forall₂_getElem? {D : Num → Nat → Prop} {s : List SBlock} {S : List Block}
    (h : List.Forall₂ (SBlock.Rel D) s S) (j : Nat) :
    match s[j]?, S[j]? with
    | none, none => True
    | some b, some B => SBlock.Rel D b B
    | _, _ => False := by
  induction h generalizing j with
  | nil => simp
  | cons hb hs ih =>
    cases j with
    | zero => exact hb
    | succ j => exact ih j

theorem STape.Rel.block {D : Num → Nat → Prop} {t : STape} {T : Tape} (h : t.Rel D T) (i : Index) :
    match t.block? i, T.block? i with
    | none, none => True
    | some b, some B => SBlock.Rel D b B
    | _, _ => False := by
  obtain ⟨side, j⟩ := i
  cases side
  · exact Forall₂_getElem? h.l j
  · exact Forall₂_getElem? h.r j

theorem rel_of_block {D : Num → Nat → Prop} {t : STape} {T : Tape} (hs : t.scan = T.scan)
    (h : ∀ i, match t.block? i, T.block? i with
      | none, none => True
      | some b, some B => SBlock.Rel D b B
      | _, _ => False) : t.Rel D T := by
  have key : ∀ (s : List SBlock) (S : List Block), (∀ j : Nat, match s[j]?, S[j]? with
      | none, none => True
      | some b, some B => SBlock.Rel D b B
      | _, _ => False) → List.Forall₂ (SBlock.Rel D) s S := by
    intro s
    induction s with
    | nil =>
      intro S hS
      cases S with
      | nil => exact .nil
      | cons B S => exact (hS 0).elim
    | cons b s ih =>
      intro S hS
      cases S with
      | nil => exact (hS 0).elim
      | cons B S => exact .cons (hS 0) (ih S fun j => hS (j + 1))
  exact ⟨hs, key _ _ fun j => h (false, j), key _ _ fun j => h (true, j)⟩

/-- After `k` rounds every count is a positive number of cells. -/
theorem act_nat {rule : SRule} {i : Index} {v : Index → ℝ} {c N : Nat} (hv : v i = c) (hc : 1 ≤ c)
    (hop : ∀ op, rule.lookup i = some op →
      (∃ d, op = .plus d) ∨ ∃ m a, op = .mult m a ∧ 1 < m ∧ 1 ≤ m + a)
    (hfin : ∀ d, rule.lookup i = some (.plus d) → d < 0 → 1 ≤ (SRule.act rule)^[N] v i) (k : Nat)
    (hk : k ≤ N) : ∃ x : Nat, 1 ≤ x ∧ (SRule.act rule)^[k] v i = x := by
  rw [act_iterate]
  cases hl : rule.lookup i with
  | none => exact ⟨c, hc, hv⟩
  | some op =>
    rcases hop op hl with ⟨d, rfl⟩ | ⟨m, a, rfl, hm, hma⟩
    · have e : ∀ k, (SOp.act (.plus d))^[k] (v i) = ((c + d * k : Int) : ℝ) := by
        intro k
        have : SOp.act (.plus d) = fun x => x + (d : ℝ) := rfl
        rw [this, iterate_add, hv]
        push_cast
        ring
      have hpos : 1 ≤ (c + d * k : Int) := by
        by_cases hd : d < 0
        · have h1 := hfin d hl hd
          rw [act_iterate, hl] at h1
          have h2 : (1 : ℝ) ≤ ((c + d * N : Int) : ℝ) := by
            rw [← e N]
            exact h1
          have h3 : (1 : Int) ≤ c + d * N := by exact_mod_cast h2
          have h4 : d * N ≤ d * k :=
            mul_le_mul_of_nonpos_left (by exact_mod_cast hk) hd.le
          omega
        · have : 0 ≤ d * (k : Int) := Int.mul_nonneg (by omega) (by omega)
          omega
      refine ⟨(c + d * k : Int).toNat, by omega, ?_⟩
      show (SOp.act (.plus d))^[k] (v i) = _
      rw [e k]
      have : ((c + d * k : Int).toNat : Int) = c + d * k := Int.toNat_of_nonneg (by omega)
      exact_mod_cast this.symm
    · show ∃ x : Nat, 1 ≤ x ∧ (SOp.act (.mult m a))^[k] (v i) = x
      clear hk
      induction k with
      | zero => exact ⟨c, hc, hv⟩
      | succ k ih =>
        obtain ⟨x, hx, he⟩ := ih
        rw [Function.iterate_succ_apply', he]
        have h1 : 1 ≤ (x : Int) * m + a := by
          have : 1 * m ≤ (x : Int) * m := Int.mul_le_mul_of_nonneg_right (by omega) (by omega)
          omega
        refine ⟨((x : Int) * m + a).toNat, by omega, ?_⟩
        have : (((x : Int) * m + a).toNat : Int) = x * m + a := Int.toNat_of_nonneg (by omega)
        show (x : ℝ) * m + a = _
        exact_mod_cast this.symm

/-- Rounds one after the other. -/
theorem rounds_reach {p : Prog} {q : State} {U : Nat → Tape} {N : Nat}
    (h : ∀ k, k < N → ∃ m pos', runFor p m ((U k).cfg q 0) = some ((U (k + 1)).cfg q pos')) :
    ∃ m pos', runFor p m ((U 0).cfg q 0) = some ((U N).cfg q pos') := by
  induction N with
  | zero => exact ⟨0, 0, rfl⟩
  | succ N ih =>
    obtain ⟨m, pos, hm⟩ := ih fun k hk => h k (by omega)
    obtain ⟨m', pos', hm'⟩ := h N (by omega)
    obtain ⟨pos'', h''⟩ := rightAt_shift pos hm'
    exact ⟨m + m', pos'', runFor_trans hm h''⟩

end Sym
end BB
