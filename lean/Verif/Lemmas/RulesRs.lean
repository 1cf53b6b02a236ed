import Verif.Lemmas.Rules

/-! # Rule application on real tapes, and the Rust version -/

namespace BB

/-! ## Tapes -/

def Tape.span (t : Tape) (side : Bool) : List Block := if side then t.rspan else t.lspan

/-- The counts of a tape as a function (0 outside). -/
def Tape.countsFn (t : Tape) (i : Index) : Int :=
  match (t.span i.1)[i.2]? with
  | none => 0
  | some b => b.count

/-- Two tapes differ at most in their counts. -/
structure SameShape (t t' : Tape) : Prop where
  scan : t'.scan = t.scan
  left : t'.lspan.map Block.color = t.lspan.map Block.color
  right : t'.rspan.map Block.color = t.rspan.map Block.color

theorem SameShape.trans {a b c : Tape} (h : SameShape a b) (h' : SameShape b c) :
    SameShape a c :=
  ⟨h'.scan.trans h.scan, h'.left.trans h.left, h'.right.trans h.right⟩

def Tape.InRange (t : Tape) (i : Index) : Prop := i.2 < (t.span i.1).length

theorem SameShape.inRange {t t' : Tape} (h : SameShape t t') (i : Index) :
    t'.InRange i ↔ t.InRange i := by
  have hl := congrArg List.length h.left
  have hr := congrArg List.length h.right
  simp only [List.length_map] at hl hr
  unfold Tape.InRange Tape.span
  cases i.1 <;> simp [hl, hr]

theorem getCount_ok {t : Tape} {i : Index} (h : t.InRange i) :
    t.getCount i = .ok (t.countsFn i) := by
  unfold Tape.getCount Tape.countsFn Tape.InRange Tape.span at *
  rw [List.getElem?_eq_getElem h]

theorem setCount_ok {t : Tape} {i : Index} (h : t.InRange i) {v : Int} (hv : 0 ≤ v) :
    ∃ t', t.setCount i v = .ok t' ∧ SameShape t t' ∧
      t'.countsFn = fun j => if j = i then v else t.countsFn j := by
  obtain ⟨side, pos⟩ := i
  unfold Tape.setCount
  rw [if_neg (by omega)]
  have hset : ∀ (s : List Block) (hp : pos < s.length),
      (s.set pos { s[pos] with count := v.toNat }).map Block.color = s.map Block.color := by
    intro s hp
    apply List.ext_getElem
    · simp
    · intro k h1 h2
      simp only [List.getElem_map, List.getElem_set]
      split
      · rename_i hk; subst hk; rfl
      · rfl
  cases side
  · simp only [Tape.InRange, Tape.span, Bool.false_eq_true, if_false] at h ⊢
    rw [List.getElem?_eq_getElem h]
    refine ⟨_, rfl, ⟨rfl, hset _ h, rfl⟩, ?_⟩
    funext ⟨sj, pj⟩
    simp only [Tape.countsFn, Tape.span, Prod.mk.injEq]
    cases sj
    · simp only [Bool.false_eq_true, if_false, List.getElem?_set, true_and]
      by_cases hk : pj = pos
      · subst hk; simp [h, hv]
      · have hk' : pos ≠ pj := fun e => hk e.symm
        simp [hk, hk']
    · simp
  · simp only [Tape.InRange, Tape.span, if_true] at h ⊢
    rw [List.getElem?_eq_getElem h]
    refine ⟨_, rfl, ⟨rfl, rfl, hset _ h⟩, ?_⟩
    funext ⟨sj, pj⟩
    simp only [Tape.countsFn, Tape.span, Prod.mk.injEq]
    cases sj
    · simp
    · simp only [if_true, List.getElem?_set, true_and]
      by_cases hk : pj = pos
      · subst hk; simp [h, hv]
      · have hk' : pos ≠ pj := fun e => hk e.symm
        simp [hk, hk']

theorem countAppsFrom_tape (t : Tape) (rule : Rule) (hr : ∀ i op, (i, op) ∈ rule → t.InRange i)
    (apps r : Option (Int × Index × Int)) (f : Index → Int)
    (h : countAppsFrom funTape rule t.countsFn apps = .ok (r, f)) :
    countAppsFrom Tape.indexTape rule t apps = .ok (r, t) := by
  induction rule generalizing apps with
  | nil => simp only [countAppsFrom, Except.ok.injEq, Prod.mk.injEq] at h ⊢; exact ⟨h.1, trivial⟩
  | cons e rule ih =>
    obtain ⟨pos, op⟩ := e
    have ih := ih (fun i op h => hr i op (List.mem_cons_of_mem _ h))
    cases op with
    | mult mul add => simp only [countAppsFrom] at h ⊢; exact ih _ h
    | plus diff =>
      simp only [countAppsFrom] at h ⊢
      by_cases hd : diff ≥ 0
      · rw [if_pos hd] at h ⊢; exact ih _ h
      · rw [if_neg hd] at h ⊢
        have hg : Tape.indexTape.get t pos = .ok (t.countsFn pos, t) := by
          simp only [Tape.indexTape, getCount_ok (hr pos _ List.mem_cons_self), bind_ok]
        rw [hg]
        rw [show funTape.get t.countsFn pos = .ok (t.countsFn pos, t.countsFn) from rfl] at h
        rw [bind_ok] at h ⊢
        simp only [] at h ⊢
        by_cases hc : -diff ≥ t.countsFn pos
        · rw [if_pos hc] at h ⊢
          simp only [Except.ok.injEq, Prod.mk.injEq] at h ⊢
          exact ⟨h.1, trivial⟩
        · rw [if_neg hc, pyDivmod_ok (by omega), bind_ok] at h ⊢
          exact ih _ h

theorem applyRuleFrom_tape (times : Int) (minPos : Index) (minRes : Int) (rule : Rule) (t : Tape)
    (hr : ∀ i op, (i, op) ∈ rule → t.InRange i) (hk : (rule.map Prod.fst).Nodup)
    (f : Index → Int) (h : applyRuleFrom funTape times minPos minRes rule t.countsFn = .ok f)
    (hpos : ∀ i op, (i, op) ∈ rule → 0 ≤ f i) :
    ∃ t', applyRuleFrom Tape.indexTape times minPos minRes rule t = .ok t' ∧ SameShape t t' ∧
      t'.countsFn = f := by
  -- the positions not named by the rule keep their count
  have hkeep : ∀ (rule : Rule) (g f : Index → Int),
      applyRuleFrom funTape times minPos minRes rule g = .ok f →
      ∀ i, i ∉ rule.map Prod.fst → f i = g i := by
    intro rule
    induction rule with
    | nil => intro g f h i _; simp only [applyRuleFrom, Except.ok.injEq] at h; rw [h]
    | cons e rule ih =>
      intro g f h i hi
      obtain ⟨pos, op⟩ := e
      simp only [List.map_cons, List.mem_cons, not_or] at hi
      rw [applyRuleFrom, show funTape.get g pos = .ok (g pos, g) from rfl, bind_ok] at h
      simp only [] at h
      cases ho : opResult times minPos minRes pos (g pos) op with
      | error e => rw [ho] at h; simp [bind_error] at h
      | ok v =>
        rw [ho, bind_ok, show funTape.set g pos v
          = .ok (fun j => if j = pos then v else g j) from rfl, bind_ok] at h
        rw [ih _ _ h i hi.2, if_neg hi.1]
  induction rule generalizing t with
  | nil =>
    simp only [applyRuleFrom, Except.ok.injEq] at h ⊢
    exact ⟨t, rfl, ⟨rfl, rfl, rfl⟩, h⟩
  | cons e rule ih =>
    obtain ⟨pos, op⟩ := e
    simp only [List.map_cons, List.nodup_cons] at hk
    have hin := hr pos op List.mem_cons_self
    have hg : Tape.indexTape.get t pos = .ok (t.countsFn pos, t) := by
      simp only [Tape.indexTape, getCount_ok hin, bind_ok]
    rw [applyRuleFrom, hg, bind_ok]
    rw [applyRuleFrom, show funTape.get t.countsFn pos = .ok (t.countsFn pos, t.countsFn) from rfl,
      bind_ok] at h
    simp only [] at h ⊢
    cases ho : opResult times minPos minRes pos (t.countsFn pos) op with
    | error e => rw [ho] at h; simp [bind_error] at h
    | ok v =>
      rw [ho, bind_ok, show funTape.set t.countsFn pos v
        = .ok (fun j => if j = pos then v else t.countsFn j) from rfl, bind_ok] at h
      have hv : 0 ≤ v := by
        have := hkeep _ _ _ h pos hk.1
        rw [if_pos rfl] at this
        rw [← this]
        exact hpos pos op List.mem_cons_self
      obtain ⟨t1, h1, h2, h3⟩ := setCount_ok hin hv
      rw [bind_ok, show Tape.indexTape.set t pos v = .ok t1 from h1, bind_ok]
      rw [← h3] at h
      obtain ⟨t', k1, k2, k3⟩ := ih t1
        (fun i op hm => (h2.inRange i).mpr (hr i op (List.mem_cons_of_mem _ hm))) hk.2 h
        (fun i op hm => hpos i op (List.mem_cons_of_mem _ hm))
      exact ⟨t', k1, h2.trans k2, k3⟩

/-! ## Rust -/

/-- `u64` counts read as integers. -/
def castApps : Option (Nat × Index × Nat) → Option (Int × Index × Int)
  | none => none
  | some (n, p, m) => some (n, p, m)

theorem rs_countAppsFrom (t : Index → Nat) (rule : Rule)
    (hplus : ∀ e ∈ rule, ∃ d, e.2 = Op.plus d) (apps : Option (Nat × Index × Nat)) :
    ∃ r, Rs.countAppsFrom rule t apps = .ok r ∧
      countAppsFrom funTape rule (fun i => (t i : Int)) (castApps apps)
        = .ok (castApps r, fun i => (t i : Int)) := by
  induction rule generalizing apps with
  | nil => exact ⟨apps, rfl, rfl⟩
  | cons e rule ih =>
    obtain ⟨pos, op⟩ := e
    obtain ⟨diff, rfl⟩ : ∃ d, op = Op.plus d := hplus _ List.mem_cons_self
    have ih := ih (fun e he => hplus e (List.mem_cons_of_mem _ he))
    simp only [Rs.countAppsFrom, countAppsFrom]
    by_cases hd : diff ≥ 0
    · simp only [hd, if_true]; exact ih apps
    · simp only [hd, if_false]
      rw [show funTape.get (fun i => (t i : Int)) pos = .ok ((t pos : Int), fun i => (t i : Int))
        from rfl, bind_ok]
      simp only []
      have hab : -diff = (diff.natAbs : Int) := by omega
      by_cases hc : diff.natAbs ≥ t pos
      · refine ⟨none, by rw [if_pos hc], ?_⟩
        rw [if_pos (by omega)]; rfl
      · have hc' : ¬ (-diff ≥ (t pos : Int)) := by omega
        have hdm : pyDivmod (t pos : Int) (-diff)
            = .ok (((t pos / diff.natAbs : Nat) : Int), ((t pos % diff.natAbs : Nat) : Int)) := by
          rw [pyDivmod_ok (by omega), hab, Int.fdiv_eq_ediv_of_nonneg _ (by omega),
            Int.fmod_eq_emod_of_nonneg _ (by omega), ← Int.natCast_ediv, ← Int.natCast_emod]
        simp only [hc, hc', if_false, hdm, bind_ok]
        rw [hab]
        have hdiv : 1 ≤ t pos / diff.natAbs := by
          rw [Nat.le_div_iff_mul_le (by omega)]; omega
        generalize t pos / diff.natAbs = q at *
        generalize t pos % diff.natAbs = m at *
        have hpair : (if (m : Int) > 0 then ((q : Int), (m : Int))
            else ((q : Int) - 1, (diff.natAbs : Int)))
            = (((if m > 0 then (q, m) else (q - 1, diff.natAbs)).1 : Int),
               ((if m > 0 then (q, m) else (q - 1, diff.natAbs)).2 : Int)) := by
          by_cases hm : m > 0
          · have : (m : Int) > 0 := by omega
            simp [hm]
          · have : ¬ (m : Int) > 0 := by omega
            simp only [hm, this, if_false, Prod.mk.injEq, and_true]
            omega
        simp only [hpair]
        generalize (if m > 0 then (q, m) else (q - 1, diff.natAbs)) = nm
        obtain ⟨n, r⟩ := nm
        simp only []
        cases apps with
        | none => exact ih (some (n, pos, r))
        | some a =>
          obtain ⟨n0, p0, r0⟩ := a
          simp only [castApps]
          by_cases hlt : n < n0
          · have : (n : Int) < n0 := by omega
            simp only [hlt, this, if_true]
            exact ih (some (n, pos, r))
          · have : ¬ (n : Int) < n0 := by omega
            simp only [hlt, this, if_false]
            exact ih (some (n0, p0, r0))

theorem rs_applyRuleFrom (n : Nat) (minPos : Index) (minRes : Nat) (rule : Rule)
    (hplus : ∀ e ∈ rule, ∃ d, e.2 = Op.plus d)
    (hneg : ∀ i d, (i, Op.plus d) ∈ rule → d < 0 → i = minPos)
    (hmin : ∀ d, (minPos, Op.plus d) ∈ rule → d < 0) (t : Index → Nat) :
    ∃ t', Rs.applyRuleFrom n minPos minRes rule t = .ok t' ∧
      applyRuleFrom funTape n minPos minRes rule (fun i => (t i : Int))
        = .ok (fun i => (t' i : Int)) := by
  induction rule generalizing t with
  | nil => exact ⟨t, rfl, rfl⟩
  | cons e rule ih =>
    obtain ⟨pos, op⟩ := e
    obtain ⟨d, rfl⟩ : ∃ d, op = Op.plus d := hplus _ List.mem_cons_self
    have ih := ih (fun e he => hplus e (List.mem_cons_of_mem _ he))
      (fun i d h => hneg i d (List.mem_cons_of_mem _ h))
      (fun d h => hmin d (List.mem_cons_of_mem _ h))
    rw [Rs.applyRuleFrom, applyRuleFrom, show funTape.get (fun i => (t i : Int)) pos
      = .ok ((t pos : Int), fun i => (t i : Int)) from rfl, bind_ok]
    simp only [opResult]
    by_cases hp : pos = minPos
    · subst hp
      have hd := hmin d List.mem_cons_self
      simp only [beq_self_eq_true, if_true, hd, bne_self_eq_false, Bool.false_eq_true, if_false,
        bind_ok]
      obtain ⟨t', h1, h2⟩ := ih (fun j => if j = pos then minRes else t j)
      refine ⟨t', h1, ?_⟩
      rw [← h2]
      rw [show funTape.set (fun i => (t i : Int)) pos minRes
        = .ok (fun j => if j = pos then (minRes : Int) else (t j : Int)) from rfl, bind_ok]
      congr 1
      funext j
      split <;> rfl
    · have hb : (pos == minPos) = false := by simpa using hp
      have hb' : (pos != minPos) = true := by simpa using hp
      have hd : 0 ≤ d := by
        by_contra hc
        exact hp (hneg pos d List.mem_cons_self (by omega))
      simp only [hb, hb', Bool.false_eq_true, if_false, if_true, bind_ok]
      obtain ⟨t', h1, h2⟩ := ih (fun j => if j = pos then Rs.applyPlus (t pos) d n else t j)
      refine ⟨t', h1, ?_⟩
      rw [← h2]
      rw [show funTape.set (fun i => (t i : Int)) pos (t pos + d * n)
        = .ok (fun j => if j = pos then ((t pos : Int) + d * n) else (t j : Int)) from rfl, bind_ok]
      congr 1
      funext j
      split
      · simp only [Rs.applyPlus]
        push_cast
        rw [show |d| = d from abs_of_nonneg hd]
      · rfl

end BB
