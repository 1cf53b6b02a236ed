import Verif.Model.LinRec
import Verif.Lemmas.Quick

/-! # Translated cycles -/

namespace BB

/-- Same state and position, same cells on `A`. -/
structure AgreeOn (A : Int → Prop) (c d : Cfg) : Prop where
  state : c.state = d.state
  pos : c.pos = d.pos
  tape : ∀ x, A x → c.tape x = d.tape x

/-- A run that reads only cells in `A` depends only on the cells in `A`. -/
theorem AgreeOn.run {p : Prog} {A : Int → Prop} {n : Nat} :
    ∀ {c d c' : Cfg}, AgreeOn A c d → runFor p n c = some c' →
      (∀ m, m < n → ∀ e, runFor p m c = some e → A e.pos) →
      ∃ d', runFor p n d = some d' ∧ AgreeOn A c' d' := by
  induction n with
  | zero =>
    intro c d c' h hr _
    simp only [runFor, Option.some.injEq] at hr
    subst hr
    exact ⟨d, rfl, h⟩
  | succ n ih =>
    intro c d c' h hr hA
    have h0 : A c.pos := hA 0 (by omega) c rfl
    have hslot : c.slot = d.slot := by
      have := h.tape _ h0
      rw [h.pos] at this
      simp only [Cfg.slot, h.state, this, h.pos]
    rw [runFor] at hr
    cases hp : p c.slot with
    | none => simp [step_none hp] at hr
    | some i =>
      rw [step_some hp, Option.bind_some] at hr
      have hag : AgreeOn A (c.exec i) (d.exec i) := by
        refine ⟨rfl, ?_, ?_⟩
        · simp only [Cfg.exec, h.pos]
        · intro x hx
          simp only [Cfg.exec, h.pos, h.tape x hx]
      obtain ⟨d', h1, h2⟩ := ih hag hr (by
        intro m hm e he
        apply hA (m + 1) (by omega) e
        rw [runFor, step_some hp, Option.bind_some, he])
      refine ⟨d', ?_, h2⟩
      rw [runFor, step_some (hslot ▸ hp), Option.bind_some, h1]

/-- Lin's recurrence: if after `n > 0` moves, during which only cells of `A` were read, the
machine is in the same state and the cells of `A` reappear shifted by `k` (with `A` shifted by
`k` inside `A`), it runs forever. -/
theorem neverHalts_recurrence {p : Prog} {c c' : Cfg} {n : Nat} {k : Int} (A : Int → Prop)
    (hn : 0 < n) (hrun : runFor p n c = some c')
    (hA : ∀ m, m < n → ∀ e, runFor p m c = some e → A e.pos)
    (hq : c'.state = c.state) (hpos : c'.pos = c.pos + k)
    (htape : ∀ x, A x → c'.tape (x + k) = c.tape x)
    (hsub : ∀ x, A x → A (x + k)) : NeverHalts p c := by
  apply neverHalts_of_invariant (fun d => ∃ e, AgreeOn (fun x => A (x - e)) (c.translate e) d)
  · rintro d ⟨e, hd⟩
    have hr : runFor p n (c.translate e) = some (c'.translate e) := by
      rw [runFor_translate, hrun]; rfl
    obtain ⟨d', h1, h2⟩ := hd.run hr (by
      intro m hm f hf
      rw [runFor_translate] at hf
      cases hm' : runFor p m c with
      | none => rw [hm'] at hf; simp at hf
      | some g =>
        rw [hm'] at hf
        simp only [Option.map_some, Option.some.injEq] at hf
        subst hf
        simp only [Cfg.translate]
        rw [show g.pos + e - e = g.pos by omega]
        exact hA m hm g hm')
    refine ⟨n, d', hn, h1, e + k, ?_, ?_, ?_⟩
    · rw [← h2.state]; exact hq.symm
    · rw [← h2.pos]; simp only [Cfg.translate, hpos]; omega
    · intro x hx
      have hx' : A (x - e) := by
        have := hsub _ hx
        rwa [show x - (e + k) + k = x - e by omega] at this
      rw [← h2.tape x hx']
      simp only [Cfg.translate]
      have := htape _ hx
      rw [show x - (e + k) + k = x - e by omega] at this
      exact this.symm
  · refine ⟨0, ?_, ?_, ?_⟩
    · rfl
    · simp [Cfg.translate]
    · intro x _; simp [Cfg.translate]

/-- Head positions during one `tape.step`. -/
theorem Rs.step_positions {p : Prog} {q q' : State} {t : Tape} {shift : Bool} {c : Color}
    (ht : t.Canonical) (hp : p (q, t.scan) = some (c, shift, q'))
    (he : ¬ ((q == q') && t.atEdge shift) = true) (pos : Int) :
    ∀ m, m ≤ (step t shift c (q == q')).2 →
      ∃ d, runFor p m (t.cfg q pos) = some d ∧ d.pos = pos + disp shift m := by
  intro m hm
  obtain ⟨h1, _, h3, _, _⟩ := step_full ht hp he pos
  by_cases hq : q = q'
  · subst hq
    have hedge : ¬ t.atEdge shift = true := by simpa using he
    obtain ⟨k1, k2⟩ := (step_stepped ht shift c true pos).2 rfl hedge
    simp only [beq_self_eq_true] at hm h1
    obtain ⟨n, hn⟩ : ∃ n, (step t shift c true).2 = n + 1 := ⟨_, (Nat.sub_add_cancel h1).symm⟩
    rw [hn] at k1 hm
    obtain ⟨d, d1, _, d3, _⟩ := sweep_mid hp n (t.cfg q pos) rfl
      (fun k hk => k1 k (by omega)) m (by omega)
    exact ⟨d, d1, d3⟩
  · have hb : (q == q') = false := by simpa using hq
    rw [hb] at hm h3
    rw [(step_stepped ht shift c false pos).1 rfl] at hm h3
    rcases Nat.lt_or_ge m 1 with h | h
    · obtain rfl : m = 0 := by omega
      exact ⟨_, rfl, by cases shift <;> simp [Tape.cfg, disp]⟩
    · obtain rfl : m = 1 := by omega
      exact ⟨_, h3, rfl⟩

/-! ## Slices -/

theorem sliceNear_eq (s : List Block) (n : Nat) :
    HeadTape.sliceNear s n = (List.range n).map (half s) := by
  induction s generalizing n with
  | nil =>
    rw [HeadTape.sliceNear, half_nil]
    apply List.ext_getElem <;> simp
  | cons b s ih =>
    rw [HeadTape.sliceNear, ih, half_cons]
    apply List.ext_getElem
    · simp
    · intro i h1 h2
      simp only [List.getElem_map, List.getElem_range, hrep_apply]
      rw [List.getElem_append]
      simp only [List.length_replicate, List.getElem_replicate, List.getElem_map,
        List.getElem_range]
      simp at h1 h2
      by_cases hi : i < b.count
      · rw [dif_pos (by omega), if_pos hi]
      · rw [dif_neg (by omega), if_neg hi, Nat.min_eq_left (by omega)]

theorem slices_agree {s u far : List Block} {n : Nat}
    (h : HeadTape.sliceNear s n ++ HeadTape.sliceFar far
      = HeadTape.sliceNear u n ++ HeadTape.sliceFar far) :
    ∀ i, i < n → half s i = half u i := by
  have := List.append_cancel_right h
  rw [sliceNear_eq, sliceNear_eq] at this
  intro i hi
  have h1 : ((List.range n).map (half s))[i]'(by simpa using hi)
      = ((List.range n).map (half u))[i]'(by simpa using hi) := by
    congr 1
  simpa using h1

/-- What `aligns_with` establishes, on cells. -/
theorem alignsWith_cells {t prev : HeadTape} {lm rm : Int}
    (h : t.alignsWith prev lm rm = true) (hlm : lm ≤ prev.head) (hrm : prev.head ≤ rm) :
    ∃ A : Int → Prop, (∀ x, lm ≤ x → x ≤ rm → A x) ∧
      (∀ x, A x → A (x + (t.head - prev.head))) ∧
      ∀ x, A x → t.tape.cells t.head (x + (t.head - prev.head)) = prev.tape.cells prev.head x := by
  unfold HeadTape.alignsWith at h
  by_cases hs : (t.tape.scan != prev.tape.scan) = true
  · simp [hs] at h
  simp only [hs, Bool.false_eq_true, if_false] at h
  have hscan : t.tape.scan = prev.tape.scan := by simpa using hs
  generalize hk : t.head - prev.head = k at h
  have hcell : ∀ x, t.tape.cells t.head (x + k) =
      if x = prev.head then t.tape.scan
      else if prev.head < x then half t.tape.rspan (x - prev.head - 1).toNat
      else half t.tape.lspan (prev.head - x - 1).toNat := by
    intro x
    simp only [Tape.cells, RT.at, Tape.rt]
    have e1 : (x + k = t.head) ↔ x = prev.head := by omega
    have e2 : (t.head < x + k) ↔ prev.head < x := by omega
    have e3 : x + k - t.head - 1 = x - prev.head - 1 := by omega
    have e4 : t.head - (x + k) - 1 = prev.head - x - 1 := by omega
    simp only [e1, e2, e3, e4]
  have hcell' : ∀ x, prev.tape.cells prev.head x =
      if x = prev.head then prev.tape.scan
      else if prev.head < x then half prev.tape.rspan (x - prev.head - 1).toNat
      else half prev.tape.lspan (prev.head - x - 1).toNat := fun x => rfl
  by_cases h1 : 0 < k
  · simp only [h1, if_true, Bool.and_eq_true, beq_iff_eq] at h
    obtain ⟨⟨_, hr⟩, hsl⟩ := h
    refine ⟨fun x => lm ≤ x, fun x hx _ => hx, fun x hx => by omega, fun x hx => ?_⟩
    rw [hcell, hcell', hscan, hr]
    by_cases hx1 : x = prev.head
    · simp only [hx1, if_true]
    · by_cases hx2 : prev.head < x
      · simp only [hx1, if_false, hx2, if_true]
      · simp only [hx1, if_false, hx2]
        simp only [HeadTape.getSlice, if_true] at hsl
        have e : t.head - (lm + k) = prev.head - lm := by omega
        rw [e, if_pos (by omega), if_pos (by omega), hr] at hsl
        exact (slices_agree hsl _ (by omega)).symm
  · simp only [h1, if_false] at h
    by_cases h2 : k < 0
    · simp only [h2, if_true, Bool.and_eq_true, beq_iff_eq] at h
      obtain ⟨⟨_, hr⟩, hsl⟩ := h
      refine ⟨fun x => x ≤ rm, fun x _ hx => hx, fun x hx => by omega, fun x hx => ?_⟩
      rw [hcell, hcell', hscan, hr]
      by_cases hx1 : x = prev.head
      · simp only [hx1, if_true]
      · by_cases hx2 : prev.head < x
        · simp only [hx1, if_false, hx2, if_true]
          simp only [HeadTape.getSlice, Bool.false_eq_true, if_false] at hsl
          have e : rm + k - t.head = rm - prev.head := by omega
          rw [e, if_pos (by omega), if_pos (by omega), hr] at hsl
          exact (slices_agree hsl _ (by omega)).symm
        · simp only [hx1, if_false, hx2]
    · simp only [h2, if_false, Bool.and_eq_true, beq_iff_eq] at h
      obtain ⟨⟨_, hl⟩, hr⟩ := h
      refine ⟨fun _ => True, fun _ _ _ => trivial, fun _ _ => trivial, fun x _ => ?_⟩
      rw [hcell, hcell', hscan, hl, hr]

/-! ## The loop -/

structure LInv (p : Prog) (s : LState) : Prop where
  canon : s.tape.tape.Canonical
  reached : ∃ n, runFor p n initCfg = some (s.refTape.tape.cfg s.refState s.refTape.head)
  span : ∃ n, runFor p n (s.refTape.tape.cfg s.refState s.refTape.head)
        = some (s.tape.tape.cfg s.state s.tape.head) ∧
      ∀ m, m ≤ n → ∀ e, runFor p m (s.refTape.tape.cfg s.refState s.refTape.head) = some e →
        s.leftmost ≤ e.pos ∧ e.pos ≤ s.rightmost

theorem LInv.rebase {p : Prog} {s : LState} (h : LInv p s) (cycle : Nat) :
    LInv p (s.rebase cycle) ∧ (s.rebase cycle).state = s.state ∧
      (s.rebase cycle).tape = s.tape := by
  unfold LState.rebase
  split
  · refine ⟨⟨h.canon, ?_, ?_⟩, rfl, rfl⟩
    · obtain ⟨n, hn⟩ := h.reached
      obtain ⟨m, hm, _⟩ := h.span
      exact ⟨n + m, runFor_trans hn hm⟩
    · refine ⟨0, rfl, fun m hm e he => ?_⟩
      obtain rfl : m = 0 := by omega
      simp only [runFor, Option.some.injEq] at he
      subst he
      simp [Tape.cfg]
  · exact ⟨h, rfl, rfl⟩

theorem LInv.advance {p : Prog} {s : LState} (h : LInv p s) {color : Color} {shift : Bool}
    {q' : State} (hp : p (s.state, s.tape.tape.scan) = some (color, shift, q'))
    (he : ¬ ((s.state == q') && s.tape.tape.atEdge shift) = true) :
    LInv p (s.advance color shift q' (s.state == q')) ∧
    ∃ n, 0 < n ∧ runFor p n (s.refTape.tape.cfg s.refState s.refTape.head)
      = some ((s.tape.step shift color (s.state == q')).tape.cfg q'
          (s.tape.step shift color (s.state == q')).head) ∧
      ∀ m, m ≤ n → ∀ e, runFor p m (s.refTape.tape.cfg s.refState s.refTape.head) = some e →
        (s.advance color shift q' (s.state == q')).leftmost ≤ e.pos ∧
        e.pos ≤ (s.advance color shift q' (s.state == q')).rightmost := by
  obtain ⟨state, ⟨head, t⟩, refState, refTape, lm, rm, reset⟩ := s
  obtain ⟨hc, hre, n, hn, hext⟩ := h
  simp only at hc hre hn hext hp he ⊢
  obtain ⟨k1, k2, k3, _, _⟩ := Rs.step_full hc hp he head
  have kpos := Rs.step_positions hc hp he head
  have hstep : HeadTape.step ⟨head, t⟩ shift color (state == q')
      = ⟨head + disp shift (Rs.step t shift color (state == q')).2,
          (Rs.step t shift color (state == q')).1⟩ := by
    cases shift
    · simp [HeadTape.step, disp]; omega
    · simp [HeadTape.step, disp]
  rw [hstep]
  generalize hst : Rs.step t shift color (state == q') = st at k1 k2 k3 kpos hstep
  obtain ⟨t', k⟩ := st
  simp only at k1 k2 k3 kpos
  have hrun := runFor_trans hn k3
  -- bounds of all positions
  have hb0 := hext n (Nat.le_refl _) _ hn
  simp only [Tape.cfg] at hb0
  have hall : ∀ m, m ≤ n + k → ∀ e,
      runFor p m (refTape.tape.cfg refState refTape.head) = some e →
      min lm (head + disp shift k) ≤ e.pos ∧ e.pos ≤ max rm (head + disp shift k) := by
    intro m hm e hme
    by_cases hmn : m ≤ n
    · have := hext m hmn e hme
      omega
    · obtain ⟨d, d1, d2⟩ := kpos (m - n) (by omega)
      have : runFor p m (refTape.tape.cfg refState refTape.head) = some d := by
        have := runFor_trans hn d1
        rwa [show n + (m - n) = m by omega] at this
      rw [this] at hme
      cases hme
      rw [d2]
      cases shift <;> simp [disp] <;> omega
  suffices hfin : ∀ m, m ≤ n + k → ∀ e,
      runFor p m (refTape.tape.cfg refState refTape.head) = some e →
      (LState.advance ⟨state, ⟨head, t⟩, refState, refTape, lm, rm, reset⟩ color shift q'
        (state == q')).leftmost ≤ e.pos ∧
      e.pos ≤ (LState.advance ⟨state, ⟨head, t⟩, refState, refTape, lm, rm, reset⟩ color shift q'
        (state == q')).rightmost by
    refine ⟨⟨?_, hre, n + k, ?_, hfin⟩, n + k, by omega, hrun, hfin⟩
    · simp only [LState.advance, hstep]; exact k2
    · simp only [LState.advance, hstep]; exact hrun
  · intro m hm e hme
    simp only [LState.advance, hstep]
    have := hall m hm e hme
    by_cases h1 : head + disp shift k < lm
    · simp only [h1, if_true]
      omega
    · simp only [h1, if_false]
      by_cases h2 : rm < head + disp shift k
      · simp only [h2, if_true]
        omega
      · simp only [h2, if_false]
        omega

theorem recLoop_sound {p : Prog} (fuel cycle : Nat) (s : LState) (hs : LInv p s)
    (h : recLoop p false fuel cycle s = true) : NeverHalts p initCfg := by
  induction fuel generalizing cycle s with
  | zero => simp [recLoop] at h
  | succ fuel ih =>
    rw [recLoop] at h
    cases hp : p (s.state, s.tape.tape.scan) with
    | none => simp [hp] at h
    | some i =>
      obtain ⟨color, shift, q'⟩ := i
      simp only [hp] at h
      by_cases he : ((s.state == q') && s.tape.tape.atEdge shift) = true
      · obtain ⟨n, hn⟩ := hs.reached
        obtain ⟨m, hm, _⟩ := hs.span
        refine NeverHalts.of_later (runFor_trans hn hm) ?_
        simp only [Bool.and_eq_true, beq_iff_eq] at he
        obtain ⟨rfl, he⟩ := he
        refine neverHalts_spinout (col := color) (shift := shift) ?_ ?_
        · have hz : s.tape.tape.scan = 0 := by
            simp only [Tape.atEdge, Bool.and_eq_true, beq_iff_eq] at he; exact he.1
          rw [hz] at hp; exact hp
        · intro k
          cases shift
          · exact (hs.canon.atEdge_left_iff _).mp he _ (by simp [Tape.cfg, disp])
          · exact (hs.canon.atEdge_right_iff _).mp he _ (by simp [Tape.cfg, disp])
      · simp only [he, Bool.false_eq_true, if_false] at h
        obtain ⟨hr1, hr2, hr3⟩ := hs.rebase cycle
        rw [← hr2, ← hr3] at hp he
        rw [← hr2] at h
        obtain ⟨ha1, n, ha2, ha3, hext⟩ := hr1.advance hp he
        generalize s.rebase cycle = u at *
        by_cases hal : ((u.advance color shift q' (u.state == q')).state
            == (u.advance color shift q' (u.state == q')).refState &&
            (u.advance color shift q' (u.state == q')).tape.alignsWith
              (u.advance color shift q' (u.state == q')).refTape
              (u.advance color shift q' (u.state == q')).leftmost
              (u.advance color shift q' (u.state == q')).rightmost) = true
        · generalize hv : u.advance color shift q' (u.state == q') = v at *
          have hvs : v.state = q' := by rw [← hv]; rfl
          have hvt : v.tape = u.tape.step shift color (u.state == q') := by rw [← hv]; rfl
          have hvr : v.refTape = u.refTape := by rw [← hv]; rfl
          have hvq : v.refState = u.refState := by rw [← hv]; rfl
          simp only [Bool.and_eq_true, beq_iff_eq] at hal
          obtain ⟨hq, hal⟩ := hal
          obtain ⟨_, ⟨n0, hn0⟩, _⟩ := ha1
          rw [← hvt, ← hvs] at ha3
          rw [← hvr, ← hvq] at ha3 hext
          have h0 := hext 0 (Nat.zero_le _) _ rfl
          simp only [Tape.cfg] at h0
          obtain ⟨A, hA1, hA2, hA3⟩ := alignsWith_cells hal h0.1 h0.2
          refine NeverHalts.of_later hn0 ?_
          refine neverHalts_recurrence (k := v.tape.head - v.refTape.head) A ha2 ha3 ?_ hq
            (by simp only [Tape.cfg]; omega) hA3 hA2
          intro j hj e hje
          have := hext j (by omega) e hje
          exact hA1 _ this.1 this.2
        · simp only [hal, Bool.false_eq_true, if_false] at h
          exact ih _ _ ha1 h

/-- The starting locals of `quick_term_or_rec`. -/
theorem LInv.init {p : Prog} (h : p (0, 0) = some (1, true, 1)) :
    LInv p ⟨1, .initStepped, 1, .initStepped, HeadTape.initStepped.head,
      HeadTape.initStepped.head, 1⟩ := by
  have hc : (HeadTape.initStepped).tape = (Rs.step Tape.init true 1 false).1 := by decide
  have hfull := Rs.step_full (p := p) (q := 0) (q' := 1) (t := Tape.init) (shift := true) (c := 1)
    Tape.canonical_init h (by decide) 0
  refine ⟨?_, ⟨1, ?_⟩, 0, rfl, ?_⟩
  · simp only [hc]; exact hfull.2.1
  · rw [initCfg_eq]; exact hfull.2.2.1
  · intro m hm e he
    obtain rfl : m = 0 := by omega
    simp only [runFor, Option.some.injEq] at he
    subst he
    simp [Tape.cfg]

/-- Each cycle makes at least one move. -/
theorem recLoop_long {p : Prog} {dropHalt : Bool} (fuel cycle : Nat) (s : LState) (hs : LInv p s)
    (n : Nat) (hn : runFor p n initCfg = some (s.tape.tape.cfg s.state s.tape.head))
    (h : recLoop p dropHalt fuel cycle s = false) (hd : dropHalt = true) :
    ∃ m, n + fuel ≤ m ∧ (runFor p m initCfg).isSome := by
  induction fuel generalizing cycle s n with
  | zero => exact ⟨n, by omega, by rw [hn]; rfl⟩
  | succ fuel ih =>
    rw [recLoop] at h
    cases hp : p (s.state, s.tape.tape.scan) with
    | none => simp [hp, hd] at h
    | some i =>
      obtain ⟨color, shift, q'⟩ := i
      simp only [hp] at h
      by_cases he : ((s.state == q') && s.tape.tape.atEdge shift) = true
      · simp [he] at h
      · simp only [he, Bool.false_eq_true, if_false] at h
        obtain ⟨hr1, hr2, hr3⟩ := hs.rebase cycle
        rw [← hr2, ← hr3] at hp he
        rw [← hr2, ← hr3] at hn
        rw [← hr2] at h
        obtain ⟨ha1, _⟩ := hr1.advance hp he
        generalize s.rebase cycle = u at *
        obtain ⟨k1, _, k3, _, _⟩ := Rs.step_full hr1.canon hp he u.tape.head
        split at h
        · simp at h
        · obtain ⟨m, hm, hsome⟩ := ih _ _ ha1 (n + (Rs.step u.tape.tape shift color
            (u.state == q')).2) (by
              rw [runFor_trans hn k3]
              cases shift
              · simp [LState.advance, HeadTape.step, disp]; congr 1
              · simp [LState.advance, HeadTape.step, disp]) h
          exact ⟨m, by omega, hsome⟩

end BB
