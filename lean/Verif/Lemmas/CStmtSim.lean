import Verif.Lemmas.CStmtRun

/-! # The variables of a C program and the configuration of the machine -/

namespace BB
namespace CS

/-- The variables after `n` moves. -/
structure Sim (len K : Nat) (p : Prog) (n : Nat) (m : Mem) (c : Cfg) : Prop where
  run : runFor p n initCfg = some c
  pos : m.pos = (len / 2 : Nat) + c.pos
  tape : ∀ x, m.tape ((len / 2 : Nat) + x) = c.tape x
  steps : m.steps = n
  marks : ∃ k : Nat, MarksAre c k ∧ m.marks = k
  span : ∀ x, (∃ j d, j ≤ n ∧ runFor p j initCfg = some d ∧ d.pos = x) ↔
    m.pmin - (len / 2 : Nat) ≤ x ∧ x < m.pmax - (len / 2 : Nat)
  outside : ∀ x, ¬ (m.pmin - (len / 2 : Nat) ≤ x ∧ x < m.pmax - (len / 2 : Nat)) → c.tape x = 0
  colors : ∀ x, c.tape x < K

/-- What is known about the cells near the head is right. -/
structure Knows (s : Spot) (c : Cfg) : Prop where
  state : c.state = s.state
  left : ∀ i y : Nat, s.left[i]? = some y → c.tape (c.pos - 1 - i) = y
  here : ∀ y, s.here = some y → c.tape c.pos = y
  right : ∀ i y : Nat, s.right[i]? = some y → c.tape (c.pos + 1 + i) = y

variable {len K : Nat} {p : Prog} {n : Nat} {m : Mem} {c : Cfg}

theorem Sim.start (main : Stmt) (len : Nat) (hK : 1 ≤ K) (p : Prog) :
    Sim len K p 0 (start main len).mem initCfg where
  run := rfl
  pos := by simp [CS.start, initCfg]
  tape _ := rfl
  steps := rfl
  marks := ⟨0, CSim.MarksAre.zero fun _ => rfl, rfl⟩
  span x := by
    simp only [CS.start]
    constructor
    · rintro ⟨j, d, hj, hd, rfl⟩
      obtain rfl : j = 0 := by omega
      cases hd
      simp only [initCfg]
      omega
    · intro hx
      refine ⟨0, initCfg, Nat.le_refl _, rfl, ?_⟩
      simp only [initCfg]
      omega
  outside _ _ := rfl
  colors _ := by
    show (0 : Nat) < K
    omega

theorem Knows.start (main : Stmt) (wd : Nat) : Knows (firstSpot main wd) initCfg where
  state := rfl
  left i y h := (List.eq_of_mem_replicate (List.mem_of_getElem? h)).symm
  here y h := by
    simp only [firstSpot, Option.some.injEq] at h
    exact h
  right i y h := (List.eq_of_mem_replicate (List.mem_of_getElem? h)).symm

theorem Sim.scan (h : Sim len K p n m c) : m.tape m.pos = c.tape c.pos := by
  rw [h.pos, h.tape]

theorem Sim.inSpan (h : Sim len K p n m c) : m.pmin ≤ m.pos ∧ m.pos < m.pmax := by
  have := (h.span c.pos).1 ⟨n, c, Nat.le_refl _, h.run, rfl⟩
  have hp := h.pos
  omega

theorem Sim.marks_zero (h : Sim len K p n m c) : m.marks = 0 ↔ c.Blank := by
  obtain ⟨k, hk, he⟩ := h.marks
  rw [← CSim.marks_zero_iff hk]
  omega

/-- The scanned colour is one of those the check has looked at. -/
theorem Knows.mem_colors {s : Spot} (h : Knows s c) (hc : c.tape c.pos < K) :
    c.tape c.pos ∈ s.colors K := by
  unfold Spot.colors
  split
  · rename_i y hy
    exact List.mem_singleton.2 (h.here y hy)
  · exact List.mem_range.2 hc

@[simp] theorem Spot.after_code (s : Spot) (wd x : Nat) (d : Bool) (code : Stmt) (kont : Kont) (q : Nat) :
    (s.after wd x d code kont q).code = code := by
  unfold Spot.after
  split <;> rfl

@[simp] theorem Spot.after_kont (s : Spot) (wd x : Nat) (d : Bool) (code : Stmt) (kont : Kont) (q : Nat) :
    (s.after wd x d code kont q).kont = kont := by
  unfold Spot.after
  split <;> rfl

theorem Knows.after {s : Spot} (h : Knows s c) (wd : Nat) (i : Instr) (code : Stmt) (kont : Kont) :
    Knows (s.after wd i.1 i.2.1 code kont i.2.2) (c.exec i) := by
  have htake : ∀ {l : List Nat} {k y : Nat}, (l.take wd)[k]? = some y → l[k]? = some y := by
    intro l k y hk
    rw [List.getElem?_take] at hk
    split at hk
    · exact hk
    · cases hk
  unfold Spot.after
  cases hd : i.2.1
  · simp only [Bool.false_eq_true, if_false]
    refine ⟨rfl, fun k y hk => ?_, fun y hy => ?_, fun k y hk => ?_⟩
    · simp only [Cfg.exec, hd, Bool.false_eq_true, if_false]
      rw [if_neg (by omega)]
      rw [List.getElem?_tail] at hk
      have := h.left _ _ hk
      rw [← this]
      congr 1
      push_cast
      omega
    · simp only [Cfg.exec, hd, Bool.false_eq_true, if_false]
      rw [if_neg (by omega)]
      rw [List.head?_eq_getElem?] at hy
      have := h.left _ _ hy
      rw [← this]
      congr 1
      simp
    · simp only [Cfg.exec, hd, Bool.false_eq_true, if_false]
      have hk := htake hk
      cases k with
      | zero =>
        simp only [List.getElem?_cons_zero, Option.some.injEq] at hk
        rw [if_pos (by simp)]
        exact hk
      | succ k =>
        simp only [List.getElem?_cons_succ] at hk
        rw [if_neg (by push_cast; omega)]
        have := h.right _ _ hk
        rw [← this]
        congr 1
        push_cast
        omega
  · simp only [if_true]
    refine ⟨rfl, fun k y hk => ?_, fun y hy => ?_, fun k y hk => ?_⟩
    · simp only [Cfg.exec, hd, if_true]
      have hk := htake hk
      cases k with
      | zero =>
        simp only [List.getElem?_cons_zero, Option.some.injEq] at hk
        rw [if_pos (by simp)]
        exact hk
      | succ k =>
        simp only [List.getElem?_cons_succ] at hk
        rw [if_neg (by push_cast; omega)]
        have := h.left _ _ hk
        rw [← this]
        congr 1
        push_cast
        omega
    · simp only [Cfg.exec, hd, if_true]
      rw [if_neg (by omega)]
      rw [List.head?_eq_getElem?] at hy
      have := h.right _ _ hy
      rw [← this]
      congr 1
      simp
    · simp only [Cfg.exec, hd, if_true]
      rw [if_neg (by omega)]
      rw [List.getElem?_tail] at hk
      have := h.right _ _ hk
      rw [← this]
      congr 1
      push_cast
      omega

/-- The next cell has not been visited. -/
theorem Sim.atEdge_iff (h : Sim len K p n m c) (d : Bool) :
    m.atEdge d = true ↔ ∀ j e, j ≤ n → runFor p j initCfg = some e →
      e.pos ≠ if d then c.pos + 1 else c.pos - 1 := by
  obtain ⟨g1, g2⟩ := h.inSpan
  have hpos := h.pos
  have hvis : ∀ y, (∀ j e, j ≤ n → runFor p j initCfg = some e → e.pos ≠ y) ↔
      ¬ (m.pmin - (len / 2 : Nat) ≤ y ∧ y < m.pmax - (len / 2 : Nat)) := by
    intro y
    rw [← h.span y]
    constructor
    · rintro hy ⟨j, d, hj, hd, e⟩
      exact hy j d hj hd e
    · intro hy j e hj he e'
      exact hy ⟨j, e, hj, he, e'⟩
  rw [hvis]
  unfold Mem.atEdge
  cases d
  · simp only [Bool.false_eq_true, if_false, beq_iff_eq]
    omega
  · simp only [if_true, beq_iff_eq]
    omega

/-- A move. -/
theorem Sim.move (h : Sim len K p n m c) {i : Instr} (hi : p c.slot = some i) (hK : i.1 < K)
    {m2 : Mem} (hw : Wrote m m2) (ht : m2.tape m.pos = i.1) :
    Sim len K p (n + 1) (m2.move i.2.1) (c.exec i) ∧ (m2.marks = 0 ↔ (c.exec i).Blank) := by
  obtain ⟨g1, g2⟩ := h.inSpan
  have hpos := h.pos
  have hrun' : runFor p (n + 1) initCfg = some (c.exec i) := by
    rw [runFor_succ', h.run, Option.bind_some, step_some hi]
  have hmarks : ∃ k : Nat, MarksAre (c.exec i) k ∧ m2.marks = k := by
    obtain ⟨k, hk, he⟩ := h.marks
    refine ⟨_, CSim.marks_exec hk i, ?_⟩
    have hm := hw.marks
    rw [h.scan, ht] at hm
    have hz := CSim.marks_zero_iff hk
    have hk0 : c.tape c.pos ≠ 0 → k ≠ 0 := fun hne e => hne (hz.1 e _)
    by_cases h1 : i.1 = 0
    · by_cases h2 : c.tape c.pos = 0
      · rw [if_neg fun e => e.1 h1, if_neg fun e => e.2 h2]
        rw [if_pos h1, if_pos h2] at hm
        omega
      · rw [if_neg fun e => e.1 h1, if_pos ⟨h1, h2⟩]
        rw [if_pos h1, if_neg h2] at hm
        have := hk0 h2
        omega
    · by_cases h2 : c.tape c.pos = 0
      · rw [if_pos ⟨h1, h2⟩]
        rw [if_neg h1, if_pos h2] at hm
        push_cast
        omega
      · rw [if_neg fun e => h2 e.2, if_neg fun e => h1 e.1]
        rw [if_neg h1, if_neg h2] at hm
        omega
  have hspan : ∀ x, (∃ j d, j ≤ n + 1 ∧ runFor p j initCfg = some d ∧ d.pos = x) ↔
      (m.pmin - (len / 2 : Nat) ≤ x ∧ x < m.pmax - (len / 2 : Nat)) ∨ x = (c.exec i).pos := by
    intro x
    rw [← h.span x]
    constructor
    · rintro ⟨j, d, hj, hd, e⟩
      rcases Nat.lt_or_ge n j with hlt | hle
      · obtain rfl : j = n + 1 := by omega
        rw [hrun'] at hd
        cases hd
        exact .inr e.symm
      · exact .inl ⟨j, d, hle, hd, e⟩
    · rintro (⟨j, d, hj, hd, e⟩ | e)
      · exact ⟨j, d, by omega, hd, e⟩
      · exact ⟨n + 1, _, Nat.le_refl _, hrun', e.symm⟩
  have hp' : (if i.2.1 then m2.pos + 1 else m2.pos - 1) = (len / 2 : Nat) + (c.exec i).pos := by
    rw [hw.pos, hpos]
    simp only [Cfg.exec]
    split <;> omega
  have hadj : (c.exec i).pos = c.pos + 1 ∨ (c.exec i).pos = c.pos - 1 := by
    simp only [Cfg.exec]
    split <;> simp
  refine ⟨⟨hrun', hp', fun x => ?_, ?_, hmarks, fun x => ?_, fun x hx => ?_, fun x => ?_⟩, ?_⟩
  · show m2.tape _ = _
    simp only [Cfg.exec]
    by_cases hx : x = c.pos
    · rw [if_pos hx, hx, ← hpos, ht]
    · rw [if_neg hx, hw.tape _ (by omega), h.tape]
  · show m2.steps + 1 = n + 1
    rw [hw.steps, h.steps]
  · rw [hspan]
    simp only [Mem.move, hp', hw.pmin, hw.pmax]
    split
    · constructor
      · rintro (hx | rfl) <;> omega
      · intro hx
        by_cases e : x = (c.exec i).pos
        · exact .inr e
        · left; omega
    · split
      · constructor
        · rintro (hx | rfl) <;> omega
        · intro hx
          by_cases e : x = (c.exec i).pos
          · exact .inr e
          · left; omega
      · constructor
        · rintro (hx | rfl) <;> omega
        · exact .inl
  · have hx' : ¬ (m.pmin - (len / 2 : Nat) ≤ x ∧ x < m.pmax - (len / 2 : Nat)) := by
      intro hh
      refine hx ?_
      simp only [Mem.move, hp', hw.pmin, hw.pmax]
      split
      · omega
      · split <;> omega
    simp only [Cfg.exec]
    rw [if_neg (by omega)]
    exact h.outside x hx'
  · simp only [Cfg.exec]
    split
    · exact hK
    · exact h.colors x
  · obtain ⟨k, hk, he⟩ := hmarks
    rw [← CSim.marks_zero_iff hk]
    omega

/-! ## The program and the machine -/

variable {main : Stmt} {limit wd : Nat} {tab : List (List (Option Instr))} {checks : Bool}
  {R : List Spot}

/-- The program is at a place after `n` moves. -/
def At (main : Stmt) (len limit K : Nat) (R : List Spot) (p : Prog) (n : Nat) (c : Cfg) : Prop :=
  ∃ s ∈ R, ∃ m, Reaches main len limit (start main len) ⟨s.code, s.kont, m⟩ ∧ Sim len K p n m c ∧
    Knows s c

theorem ofTable_seven (ht : tab.length ≤ 7) (x : Nat) : ofTable tab (7, x) = none := by
  unfold ofTable
  rw [List.getElem?_eq_none ht]
  rfl

/-- From a place to the next one, or to `H`. -/
theorem At.next (hR : ∀ s ∈ R, SpotOk main tab checks K wd R s) (ht : tab.length ≤ 7) {i : Instr}
    (h : At main len limit K R (ofTable tab) n c) (hi : ofTable tab c.slot = some i)
    (hin : 0 ≤ ((len / 2 : Nat) : Int) + c.pos ∧ ((len / 2 : Nat) : Int) + c.pos < len) :
    (checks = true ∧ LeavesAt (ofTable tab) n → ∃ m s2, Sim len K (ofTable tab) n m c ∧
      Reaches main len limit (start main len) s2 ∧ step main len limit s2 = toH main m) ∧
    (¬ (checks = true ∧ LeavesAt (ofTable tab) n) → (c.exec i).Blank →
      ∃ m s2, Sim len K (ofTable tab) (n + 1) m (c.exec i) ∧
        Reaches main len limit (start main len) s2 ∧ step main len limit s2 = toH main m) ∧
    (¬ (checks = true ∧ LeavesAt (ofTable tab) n) → ¬ (c.exec i).Blank →
      At main len limit K R (ofTable tab) (n + 1) (c.exec i)) := by
  obtain ⟨s, hs, m, hr, hsim, hk⟩ := h
  have hq : s.state ≠ 7 := by
    intro h7
    rw [show c.slot = (7, c.tape c.pos) by rw [Cfg.slot, hk.state, h7], ofTable_seven ht] at hi
    cases hi
  have hi' : ofTable tab (s.state, c.tape c.pos) = some i := by
    rw [← hk.state]; exact hi
  obtain ⟨r, s', k', htr, hiK, hrec, hmem⟩ :=
    (hR s hs).move _ (hk.mem_colors (hsim.colors _)) hq i hi'
  rw [← hsim.pos] at hin
  obtain ⟨-, g1, g2⟩ := trace_run (main := main) (len := len) (limit := limit) fuel htr m m (.refl m)
    (fun _ => rfl) hsim.scan hin.1 hin.2
  -- a `CHECK_RECUR` at the edge is where the machine leaves
  have hleave : (∃ e, r = some e ∧ m.atEdge e = true) ↔ (checks = true ∧ LeavesAt (ofTable tab) n) := by
    constructor
    · rintro ⟨e, rfl, he⟩
      simp only [recurOk, Bool.and_eq_true, beq_iff_eq] at hrec
      obtain ⟨⟨⟨h1, h2⟩, rfl⟩, h4⟩ := hrec
      refine ⟨h1, c, i.1, i.2.1, hsim.run, h2, ?_, ?_⟩
      · rw [h2, ← hk.state] at hi'
        rw [hi']
        have : i.2.2 = c.state := h4.trans hk.state.symm
        exact congrArg some (Prod.ext rfl (Prod.ext rfl this))
      · exact (hsim.atEdge_iff _).1 he
    · rintro ⟨h1, d, pr, dir, hd, h0, hp, hv⟩
      rw [hsim.run] at hd
      cases hd
      have hi'' : i = (pr, dir, c.state) := by
        have : c.slot = (c.state, 0) := by rw [Cfg.slot, h0]
        rw [this, hp] at hi
        exact (Option.some.inj hi).symm
      subst hi''
      have hedge := (hsim.atEdge_iff dir).2 hv
      cases r with
      | some e =>
        simp only [recurOk, Bool.and_eq_true, beq_iff_eq] at hrec
        obtain ⟨⟨⟨-, -⟩, rfl⟩, -⟩ := hrec
        exact ⟨_, rfl, hedge⟩
      | none =>
        exfalso
        simp only [recurOk, h1, h0, hk.state, Bool.true_and, beq_self_eq_true, Bool.not_true,
          Bool.false_or] at hrec
        obtain ⟨e1, e2⟩ := hsim.inSpan
        have hpos := hsim.pos
        cases dir
        · simp only [Bool.false_eq_true, if_false] at hrec
          split at hrec
          · rename_i y ys hy
            have := hk.left 0 y (by rw [hy]; rfl)
            simp only [bne_iff_ne, ne_eq] at hrec
            refine hrec ?_
            rw [← this]
            refine hsim.outside _ ?_
            simp only [Mem.atEdge, Bool.false_eq_true, if_false, beq_iff_eq] at hedge
            push_cast
            omega
          · cases hrec
        · simp only [if_true] at hrec
          split at hrec
          · rename_i y ys hy
            have := hk.right 0 y (by rw [hy]; rfl)
            simp only [bne_iff_ne, ne_eq] at hrec
            refine hrec ?_
            rw [← this]
            refine hsim.outside _ ?_
            simp only [Mem.atEdge, if_true, beq_iff_eq] at hedge
            push_cast
            omega
          · cases hrec
  refine ⟨fun hl => ?_, fun hl hb => ?_, fun hl hb => ?_⟩
  · obtain ⟨e, he, ha⟩ := hleave.2 hl
    obtain ⟨s2, a1, a2⟩ := g2 e he rfl ha
    exact ⟨m, s2, hsim, hr.trans a1, a2⟩
  · obtain ⟨s2, m2, a1, a2, a3, a4⟩ := g1 fun e he _ => by
      cases ha : m.atEdge e
      · rfl
      · exact absurd (hleave.1 ⟨e, he, ha⟩) hl
    obtain ⟨b1, b2⟩ := hsim.move hi hiK a2 a3
    rw [if_pos (b2.2 hb)] at a4
    exact ⟨_, s2, b1, hr.trans a1, a4⟩
  · obtain ⟨s2, m2, a1, a2, a3, a4⟩ := g1 fun e he _ => by
      cases ha : m.atEdge e
      · rfl
      · exact absurd (hleave.1 ⟨e, he, ha⟩) hl
    obtain ⟨b1, b2⟩ := hsim.move hi hiK a2 a3
    rw [if_neg fun e => hb (b2.1 e)] at a4
    exact ⟨_, hmem, m2.move i.2.1, (hr.trans a1).trans (.step (by simpa using a4)), b1,
      hk.after wd i s' k'⟩

/-- The program follows the machine until it stops. -/
theorem at_all (hR : ∀ s ∈ R, SpotOk main tab checks K wd R s) (ht : tab.length ≤ 7) (hK : 1 ≤ K)
    (h0 : firstSpot main wd ∈ R) (n : Nat) :
    ∀ {c : Cfg}, runFor (ofTable tab) n initCfg = some c → StaysIn len (ofTable tab) n →
      (∀ k, k < n → ¬ Stops checks (ofTable tab) k) → ¬ ErasesAt (ofTable tab) n →
      At main len limit K R (ofTable tab) n c := by
  induction n with
  | zero =>
    intro c hc _ _ _
    cases hc
    exact ⟨_, h0, _, .refl _, Sim.start main len hK _, Knows.start main wd⟩
  | succ n ih =>
    intro c hc hin hno hne
    have hc' := hc
    rw [runFor_succ'] at hc'
    obtain ⟨d, hd, hs⟩ := Option.bind_eq_some_iff.1 hc'
    simp only [BB.step] at hs
    obtain ⟨i, hi, rfl⟩ := Option.map_eq_some_iff.1 hs
    have hA := ih hd (fun k e hk => hin k e (by omega)) (fun k hk => hno k (by omega))
      fun he => hno n (by omega) (.inl he)
    obtain ⟨-, -, h3⟩ := hA.next hR ht hi (hin n d (by omega) hd)
    exact h3 (fun hl => hno n (by omega) (.inr (.inr hl)))
      fun hb => hne ⟨by omega, _, hc, hb⟩

theorem end_of_toH {sH : Stmt} (hH : findLabel ['H'] main = some sH)
    (hx : ∀ x, x < K → toCheck main x fuel sH [] = true) {p : Prog} {m : Mem} {s2 : St}
    (hsim : Sim len K p n m c) (hr : Reaches main len limit (start main len) s2)
    (hs : step main len limit s2 = toH main m) :
    ∃ j, run main len limit j (start main len) = if n = limit then .exit n else .abort n := by
  have h1 : Reaches main len limit s2 ⟨sH, [], m⟩ := .step (by rw [hs, toH, hH])
  obtain ⟨j, hj⟩ := toCheck_run (main := main) (len := len) (limit := limit) fuel (s := sH) (k := []) m
    (hx _ (by rw [hsim.scan]; exact hsim.colors _))
  obtain ⟨j', hj'⟩ := hr.trans h1
  exact ⟨j' + j, by rw [run_add hj', hj, hsim.steps]⟩

/-- At the first stop the program ends. -/
theorem ends (h : follows main tab checks wd = true) (n : Nat)
    (hstop : Stops checks (ofTable tab) n) (hno : ∀ k, k < n → ¬ Stops checks (ofTable tab) k)
    (hin : StaysIn len (ofTable tab) n) :
    ∃ j, run main len limit j (start main len) = if n = limit then .exit n else .abort n := by
  obtain ⟨ht, hK, ⟨sH, hH, hx⟩, R, h0, hR⟩ := follows_sound h
  by_cases he : ErasesAt (ofTable tab) n
  · obtain ⟨hn, c, hc, hb⟩ := he
    obtain ⟨n, rfl⟩ : ∃ k, n = k + 1 := ⟨n - 1, by omega⟩
    have hc' := hc
    rw [runFor_succ'] at hc'
    obtain ⟨d, hd, hs⟩ := Option.bind_eq_some_iff.1 hc'
    simp only [BB.step] at hs
    obtain ⟨i, hi, rfl⟩ := Option.map_eq_some_iff.1 hs
    have hA := at_all (limit := limit) hR ht hK h0 n hd (fun k e hk => hin k e (by omega))
      (fun k hk => hno k (by omega)) fun he => hno n (by omega) (.inl he)
    obtain ⟨-, h2, -⟩ := hA.next hR ht hi (hin n d (by omega) hd)
    obtain ⟨m, s2, a1, a2, a3⟩ := h2 (fun hl => hno n (by omega) (.inr (.inr hl))) hb
    exact end_of_toH hH hx a1 a2 a3
  · rcases hstop with hs | ⟨y, c, hc, hsl, -⟩ | hl
    · exact absurd hs he
    · obtain ⟨s, hs, m, hr, hsim, hk⟩ := at_all (limit := limit) hR ht hK h0 n hc hin hno he
      have h7 : s.state = 7 := by
        rw [← hk.state]
        exact congrArg Prod.fst hsl
      have := (hR s hs).halt _ (hk.mem_colors (hsim.colors _)) h7
      rw [← hsim.scan] at this
      obtain ⟨j, hj⟩ := toCheck_run (main := main) (len := len) (limit := limit) fuel m this
      obtain ⟨j', hj'⟩ := hr
      exact ⟨j' + j, by rw [run_add hj', hj, hsim.steps]⟩
    · obtain ⟨c, pr, dir, hc, h00, hp, -⟩ := hl.2
      have hA := at_all (limit := limit) hR ht hK h0 n hc hin hno he
      obtain ⟨h1, -, -⟩ := hA.next hR ht (i := (pr, dir, c.state)) (by rw [Cfg.slot, h00]; exact hp)
        (hin n c (Nat.le_refl _) hc)
      obtain ⟨m, s2, a1, a2, a3⟩ := h1 hl
      exact end_of_toH hH hx a1 a2 a3

end CS
end BB
