import Verif.Lemmas.ReasonSearch

/-!
# The three kinds of targets
-/

namespace BB

/-- What comes after a point on a path. -/
theorem Sem.after {p : Prog} {q : State} {b : Backstepper} {ss : List Slot} {τ : BConfig}
    (h : Sem p q b ss τ) (hb : b.blank = true) {ss' : List Slot} {d : Cfg}
    (hf : Follows p ss' (blankCfg q) d) (hlt : ss'.length < ss.length) :
    ∃ s r e, ss = ss' ++ s :: r ∧ Follows p (s :: r) d e := by
  obtain ⟨e, he, -, -⟩ := h.blank_follows hb
  obtain ⟨r, hr, hfr⟩ := hf.prefix he (by omega)
  cases r with
  | nil =>
    rw [List.append_nil] at hr
    rw [hr] at hlt
    omega
  | cons s r => exact ⟨s, r, e, hr, hfr⟩

/-! ## Halting -/

theorem mem_haltConfigs {t : Table} {τ : BConfig} (h : τ ∈ t.haltConfigs) :
    ∃ s c, t.get? (s, c) = none ∧ τ = .new s (.initHalt c) := by
  simp only [Table.haltConfigs, List.mem_flatMap, List.mem_filterMap] at h
  obtain ⟨s, -, c, -, h⟩ := h
  split at h
  · rename_i hn
    cases h
    exact ⟨s, c, by simpa using hn, rfl⟩
  · cases h

theorem initHalt_match (c : Color) (d : Cfg) :
    (Backstepper.initHalt c).Match d ↔ d.tape d.pos = c := by
  simp [Backstepper.Match, Backstepper.initHalt, spanCells, SideFits]

theorem haltTargets {t : Table} : Targets t.get? t.haltConfigs where
  wf τ hτ := by
    obtain ⟨s, c, -, rfl⟩ := mem_haltConfigs hτ
    simp [BConfig.new, Backstepper.initHalt, Backstepper.Wf, Full]
  unique τ hτ τ' hτ' h1 h2 := by
    obtain ⟨s, c, -, rfl⟩ := mem_haltConfigs hτ
    obtain ⟨s', c', -, rfl⟩ := mem_haltConfigs hτ'
    simp only [BConfig.new, Backstepper.initHalt] at h2 ⊢
    rw [h2]
  skip q b ss τ ss' d c hτ hsem hb hf hhit hlt _ _ := by
    obtain ⟨s, r, e, -, hfr⟩ := hsem.after hb hf hlt
    obtain ⟨τ', hτ', hs, hm⟩ := hhit
    obtain ⟨s', c', hn, rfl⟩ := mem_haltConfigs hτ'
    have hm' := (initHalt_match c' d).1 hm
    obtain ⟨h1, i, h2, -⟩ := hfr
    rw [← h1] at h2
    simp only [Cfg.slot, hm'] at h2
    rw [hs] at h2
    simp only [BConfig.new] at h2
    rw [hn] at h2
    cases h2

theorem foldl_max (l : Table) (m : Nat × Nat) :
    let r := l.foldl (fun (m : Nat × Nat) e => (max m.1 e.1.1, max m.2 e.1.2)) m
    m.1 ≤ r.1 ∧ m.2 ≤ r.2 ∧ ∀ e ∈ l, e.1.1 ≤ r.1 ∧ e.1.2 ≤ r.2 := by
  induction l generalizing m with
  | nil => simp
  | cons e l ih =>
    obtain ⟨h1, h2, h3⟩ := ih (max m.1 e.1.1, max m.2 e.1.2)
    rw [List.foldl_cons]
    simp only at h1 h2 h3 ⊢
    refine ⟨by omega, by omega, fun x hx => ?_⟩
    rcases List.mem_cons.1 hx with rfl | hx
    · constructor
      · exact Nat.le_trans (Nat.le_max_right _ _) h1
      · exact Nat.le_trans (Nat.le_max_right _ _) h2
    · exact h3 x hx

theorem haltConfigs_complete {t : Table} {s c : Nat} (hn : t.get? (s, c) = none)
    (hs : s = 0 ∨ ∃ e ∈ t, s ≤ e.1.1) (hc : c = 0 ∨ ∃ e ∈ t, c ≤ e.1.2) :
    BConfig.new s (.initHalt c) ∈ t.haltConfigs := by
  have hmax := (foldl_max t (0, 0)).2.2
  simp only [Table.haltConfigs, List.mem_flatMap, List.mem_filterMap, List.mem_range]
  refine ⟨s, ?_, c, ?_, by rw [hn]; rfl⟩
  · rcases hs with rfl | ⟨e, he, hle⟩
    · omega
    · have := (hmax e he).1
      exact Nat.lt_succ_of_le (Nat.le_trans hle this)
  · rcases hc with rfl | ⟨e, he, hle⟩
    · omega
    · have := (hmax e he).2
      exact Nat.lt_succ_of_le (Nat.le_trans hle this)

/-! ## Blanking -/

theorem mem_eraseConfigs {t : Table} {τ : BConfig} :
    τ ∈ t.eraseConfigs ↔ ∃ e ∈ t, e.2.1 = 0 ∧ e.1.2 ≠ 0 ∧ τ = .new e.1.1 (.initBlank e.1.2) := by
  simp only [Table.eraseConfigs, List.mem_filterMap]
  constructor
  · rintro ⟨e, he, h⟩
    split at h
    · rename_i hc
      cases h
      exact ⟨e, he, hc.1, hc.2, rfl⟩
    · cases h
  · rintro ⟨e, he, h1, h2, rfl⟩
    exact ⟨e, he, by rw [if_pos ⟨h1, h2⟩]⟩

theorem initBlank_match (c : Color) (d : Cfg) :
    (Backstepper.initBlank c).Match d ↔ d.tape d.pos = c ∧ ∀ x, x ≠ d.pos → d.tape x = 0 := by
  simp only [Backstepper.Match, Backstepper.initBlank, spanCells, List.flatMap_nil, SideFits,
    forall_true_left]
  constructor
  · rintro ⟨h1, h2, h3⟩
    refine ⟨h1, fun x hx => ?_⟩
    rcases Int.lt_or_gt_of_ne hx with h | h
    · have := h2 (d.pos - 1 - x).toNat
      rwa [show d.pos - 1 - ((d.pos - 1 - x).toNat : Int) = x by omega] at this
    · have := h3 (x - d.pos - 1).toNat
      rwa [show d.pos + 1 + ((x - d.pos - 1).toNat : Int) = x by omega] at this
  · rintro ⟨h1, h2⟩
    exact ⟨h1, fun i => h2 _ (by omega), fun i => h2 _ (by omega)⟩

theorem match_translate {b : Backstepper} {c : Cfg} (k : Int) (h : b.Match c) :
    b.Match (c.translate k) := by
  obtain ⟨h1, h2, h3⟩ := h
  refine ⟨?_, ?_, ?_⟩
  · rw [← h1]
    show c.tape (c.pos + k - k) = _
    congr 1
    omega
  · have : (fun i : Nat => (c.translate k).tape ((c.translate k).pos - 1 - i))
        = fun i : Nat => c.tape (c.pos - 1 - i) := by
      funext i
      show c.tape (c.pos + k - 1 - i - k) = _
      congr 1
      omega
    rw [this]
    exact h2
  · have : (fun i : Nat => (c.translate k).tape ((c.translate k).pos + 1 + i))
        = fun i : Nat => c.tape (c.pos + 1 + i) := by
      funext i
      show c.tape (c.pos + k + 1 + i - k) = _
      congr 1
      omega
    rw [this]
    exact h3

theorem eraseTargets {t : Table} : Targets t.get? t.eraseConfigs where
  wf τ hτ := by
    obtain ⟨e, -, -, -, rfl⟩ := mem_eraseConfigs.1 hτ
    simp [BConfig.new, Backstepper.initBlank, Backstepper.Wf, Full]
  unique τ hτ τ' hτ' h1 h2 := by
    obtain ⟨e, -, -, -, rfl⟩ := mem_eraseConfigs.1 hτ
    obtain ⟨e', -, -, -, rfl⟩ := mem_eraseConfigs.1 hτ'
    simp only [BConfig.new, Backstepper.initBlank] at h2 ⊢
    rw [h2]
  skip q b ss τ ss' d c hτ hsem hb hf hhit hlt hc hm := by
    obtain ⟨e, -, -, -, rfl⟩ := mem_eraseConfigs.1 hτ
    have hz := blank_of_match_blanks hb hsem.2.1 hsem.2.2.1 hm
    have hce : c = (blankCfg q).translate c.pos := by
      obtain ⟨cs, cp, ct⟩ := c
      simp only at hc hz
      subst hc
      have : ct = fun _ => 0 := funext hz
      subst this
      simp [Cfg.translate, blankCfg]
    refine ⟨ss'.length, hlt, d.translate c.pos, ?_, ?_⟩
    · have := runFor_translate t.get? ss'.length (blankCfg q) c.pos
      rw [← hce, hf.run] at this
      exact this
    · obtain ⟨τ', h1, h2, h3⟩ := hhit
      exact ⟨τ', h1, h2, match_translate _ h3⟩

/-! ## Spinning out -/

theorem mem_zeroReflexiveConfigs {t : Table} {τ : BConfig} :
    τ ∈ t.zeroReflexiveConfigs ↔ ∃ e ∈ t, e.1.2 = 0 ∧ e.2.2.2 = e.1.1 ∧
      τ = .new e.1.1 (.initSpinout e.2.2.1) := by
  simp only [Table.zeroReflexiveConfigs, List.mem_filterMap]
  constructor
  · rintro ⟨e, he, h⟩
    split at h
    · rename_i hc
      cases h
      exact ⟨e, he, hc.1, hc.2, rfl⟩
    · cases h
  · rintro ⟨e, he, h1, h2, rfl⟩
    exact ⟨e, he, by rw [if_pos ⟨h1, h2⟩]⟩

theorem initSpinout_match (dir : Bool) (d : Cfg) :
    (Backstepper.initSpinout dir).Match d ↔
      d.tape d.pos = 0 ∧ ∀ i : Nat, d.tape (if dir then d.pos + 1 + i else d.pos - 1 - i) = 0 := by
  cases dir <;>
    simp [Backstepper.Match, Backstepper.initSpinout, spanCells, SideFits]

/-- A configuration that spins out stays one. -/
theorem spinout_exec {print : Color} {dir : Bool} {s : State} {d : Cfg}
    (h : (Backstepper.initSpinout dir).Match d) :
    (Backstepper.initSpinout dir).Match (d.exec (print, dir, s)) := by
  rw [initSpinout_match] at h ⊢
  obtain ⟨h1, h2⟩ := h
  cases dir with
  | true =>
    simp only [Cfg.exec, if_true] at h2 ⊢
    constructor
    · rw [if_neg (by omega)]
      simpa using h2 0
    · intro i
      rw [if_neg (by omega), show d.pos + 1 + 1 + (i : Int) = d.pos + 1 + ((i + 1 : Nat) : Int) by
        push_cast; omega]
      exact h2 (i + 1)
  | false =>
    simp only [Cfg.exec, Bool.false_eq_true, if_false] at h2 ⊢
    constructor
    · rw [if_neg (by omega)]
      simpa using h2 0
    · intro i
      rw [if_neg (by omega), show d.pos - 1 - 1 - (i : Int) = d.pos - 1 - ((i + 1 : Nat) : Int) by
        push_cast; omega]
      exact h2 (i + 1)

/-- And was one if it was there already. -/
theorem spinout_back {print : Color} {dir : Bool} {s : State} {d : Cfg} (h0 : d.tape d.pos = 0)
    (h : (Backstepper.initSpinout dir).Match (d.exec (print, dir, s))) :
    (Backstepper.initSpinout dir).Match d := by
  rw [initSpinout_match] at h ⊢
  obtain ⟨h1, h2⟩ := h
  refine ⟨h0, fun i => ?_⟩
  cases dir with
  | true =>
    simp only [Cfg.exec, if_true] at h1 h2 ⊢
    cases i with
    | zero =>
      rw [if_neg (by omega)] at h1
      simpa using h1
    | succ i =>
      have := h2 i
      rw [if_neg (by omega)] at this
      rw [show d.pos + 1 + ((i + 1 : Nat) : Int) = d.pos + 1 + 1 + (i : Int) by push_cast; omega]
      exact this
  | false =>
    simp only [Cfg.exec, Bool.false_eq_true, if_false] at h1 h2 ⊢
    cases i with
    | zero =>
      rw [if_neg (by omega)] at h1
      simpa using h1
    | succ i =>
      have := h2 i
      rw [if_neg (by omega)] at this
      rw [show d.pos - 1 - ((i + 1 : Nat) : Int) = d.pos - 1 - 1 - (i : Int) by push_cast; omega]
      exact this

theorem follows_spinout {p : Prog} {s : State} {print : Color} {dir : Bool}
    (hp : p (s, 0) = some (print, dir, s)) : ∀ {ss : List Slot} {d e : Cfg}, d.state = s →
    (Backstepper.initSpinout dir).Match d → Follows p ss d e → ∀ x ∈ ss, x = (s, 0) := by
  intro ss
  induction ss with
  | nil => simp
  | cons a ss ih =>
    intro d e hd hm hf x hx
    obtain ⟨h1, i, h2, h3⟩ := hf
    have ha : a = (s, 0) := by
      rw [← h1, Cfg.slot, hd, ((initSpinout_match dir d).1 hm).1]
    subst ha
    rw [hp] at h2
    cases h2
    rcases List.mem_cons.1 hx with rfl | hx
    · rfl
    · exact ih rfl (spinout_exec hm) h3 x hx

theorem spinoutTargets {t : Table} (hs : t.Sorted) : Targets t.get? t.zeroReflexiveConfigs where
  wf τ hτ := by
    obtain ⟨⟨⟨s, c⟩, print, dir, q⟩, -, -, -, rfl⟩ := mem_zeroReflexiveConfigs.1 hτ
    cases dir <;> simp [BConfig.new, Backstepper.initSpinout, Backstepper.Wf, Full]
  unique τ hτ τ' hτ' h1 _ := by
    obtain ⟨⟨⟨s, c⟩, i⟩, he, h3, h4, rfl⟩ := mem_zeroReflexiveConfigs.1 hτ
    obtain ⟨⟨⟨s', c'⟩, i'⟩, he', h3', h4', rfl⟩ := mem_zeroReflexiveConfigs.1 hτ'
    simp only [BConfig.new] at h1 h3 h3' ⊢
    subst h1 h3 h3'
    have e1 := Table.get?_of_mem hs he
    rw [Table.get?_of_mem hs he'] at e1
    cases e1
    rfl
  skip q b ss τ ss' d c hτ hsem hb hf hhit hlt hc hm := by
    obtain ⟨a, r, e, hss, hfr⟩ := hsem.after hb hf hlt
    obtain ⟨τ', hτ', hd, hdm⟩ := hhit
    obtain ⟨⟨⟨s, z⟩, print, dir, s'⟩, he, h3, h4, rfl⟩ := mem_zeroReflexiveConfigs.1 hτ'
    simp only [BConfig.new] at h3 h4 hd hdm
    subst h3 h4
    have hp := Table.get?_of_mem hs he
    have hall := follows_spinout hp hd hdm hfr
    -- the last instruction on the path is that one
    obtain ⟨l, hl⟩ : ∃ l, ss = l ++ [(s', 0)] := by
      refine ⟨ss' ++ (a :: r).dropLast, ?_⟩
      rw [hss, List.append_assoc]
      congr 1
      rw [← List.dropLast_append_getLast (l := a :: r) (by simp)]
      congr 1
      · simp
      · rw [hall _ (List.getLast_mem (by simp))]
    obtain ⟨x, hx1, hx2, hx3⟩ := (hsem.2.2.2 c hc).1 hm
    rw [hl] at hx1
    obtain ⟨y, hy1, hy2, i, hy3, hy4⟩ := hx1.split
    rw [hp] at hy3
    cases hy3
    cases hy4
    have hstate : τ.state = s' := hx2.symm
    have htape : τ.tape = Backstepper.initSpinout dir := by
      obtain ⟨⟨⟨u, v⟩, i'⟩, he', h3', h4', rfl⟩ := mem_zeroReflexiveConfigs.1 hτ
      simp only [BConfig.new] at hstate h3' ⊢
      subst hstate h3'
      have e1 := Table.get?_of_mem hs he'
      rw [hp] at e1
      cases e1
      rfl
    rw [htape] at hx3
    have hslot : y.state = s' ∧ y.tape y.pos = 0 := by
      simp only [Cfg.slot, Prod.mk.injEq] at hy2
      exact hy2
    refine ⟨l.length, by rw [hl]; simp, y, hy1.run, τ, hτ, hslot.1.trans hstate.symm, ?_⟩
    rw [htape]
    exact spinout_back hslot.2 hx3

end BB
