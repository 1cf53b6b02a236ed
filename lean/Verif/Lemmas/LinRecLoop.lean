import Verif.Lemmas.LinRecStrict

/-! # The strict recurrence checker: results -/

namespace BB.PyRec

theorem RecursFrom.mul {p : Prog} {n per : Nat} (h : RecursFrom p n per) {j : Nat} (hj : 0 < j) :
    RecursFrom p n (j * per) := by
  obtain ⟨f, hf⟩ := h.neverHalts.run
  obtain ⟨k, hk⟩ := h.fn hf
  exact RecursFrom.of_fn (Nat.mul_pos hj h.1) hf fun t ht => recurs_mul hk j t ht

theorem Keep.fn {p : Prog} {t : Nat} (h : Keep p t) {f : Nat → Cfg}
    (hf : ∀ t, runFor p t initCfg = some (f t)) : (f t).slot = (f (t - 1)).slot := by
  obtain ⟨_, c, d, h1, h2, h3⟩ := h
  rw [hf] at h1 h2
  cases h1; cases h2
  exact h3

theorem Chg.fn {p : Prog} {t : Nat} (h : Chg p t) {f : Nat → Cfg}
    (hf : ∀ t, runFor p t initCfg = some (f t)) : (f t).slot ≠ (f (t - 1)).slot := by
  obtain ⟨_, c, d, h1, h2, h3⟩ := h
  rw [hf] at h1 h2
  cases h1; cases h2
  exact h3

/-- The period found is the least one. -/
theorem SInv.least {p : Prog} {cr cycle : Nat} {s : SState} (h : SInv p cr cycle s) {a : Nat}
    (ha : Rec s.hist a) (hlt : a < s.step) (hr : RecursFrom p a (s.step - a)) {m per : Nat}
    (hm : RecursFrom p m per) : s.step - a ≤ per := by
  by_contra hcon
  have hr' := hr.transfer hm
  have hper := hm.1
  obtain ⟨sl, ha'⟩ := ha
  have hcr := (h.slotok sl a ha').1
  rcases h.rec1 s.step (Or.inr rfl) with h0 | h0 | ⟨h0, h1⟩
  · omega
  · by_cases hb : Rec s.hist (a + per)
    · exact h.nope a (a + per) ⟨sl, ha'⟩ hb (by omega) (by
        rwa [show a + per - a = per by omega])
    · obtain ⟨hk, _⟩ := h.rec2 (a + per) (by omega) (by omega) hb
      obtain ⟨f, hf⟩ := hr.neverHalts.run
      obtain ⟨k1, e1⟩ := hr.fn hf
      obtain ⟨k2, e2⟩ := hr'.fn hf
      have c1 := h0.fn hf
      have c2 := hk.fn hf
      have d1 := (e2 s.step (by omega)).1
      have d2 := (e1 (a + per) (by omega)).1
      have d3 := (e2 (s.step - 1) (by omega)).1
      have d4 := (e1 (a + per - 1) (by omega)).1
      rw [show a + per + (s.step - a) = s.step + per by omega] at d2
      rw [show a + per - 1 + (s.step - a) = s.step - 1 + per by omega] at d4
      apply c1
      rw [← d1, d2, c2, ← d4, d3]
  · have hrec := h1 (by omega)
    have : RecursFrom p a (s.step - 1 - a) := by
      have := RecursFrom.mul (hr.transfer h0) (j := s.step - 1 - a) (by omega)
      rwa [Nat.mul_one] at this
    exact h.nope a (s.step - 1) ⟨sl, ha'⟩ hrec (by omega) this

/-- While the loop goes on, no recurrence fits into the cycles done. -/
theorem SInv.limit {p : Prog} {cr cycle : Nat} {s : SState} (h : SInv p cr cycle s) {m per : Nat}
    (hm : RecursFrom p m per) : cycle ≤ max (m + 1) cr + per := by
  by_contra hcon
  rcases h.prog (max (m + 1) cr) (by omega) with ⟨h1, h2⟩ | ⟨t, h1, h2, h3, h4⟩
  · omega
  · have hper := hm.1
    have ht : Rec s.hist t := by
      rcases h2 with rfl | h2
      · omega
      · exact h2
    have hmt : RecursFrom p t per := hm.mono (by omega)
    by_cases hb : Rec s.hist (t + per)
    · exact h.nope t (t + per) ht hb (by omega) (by rwa [show t + per - t = per by omega])
    · obtain ⟨hk, t1, g1, g2, g3⟩ := h.rec2 (t + per) (by omega) (by omega) hb
      obtain ⟨f, hf⟩ := hm.neverHalts.run
      obtain ⟨k, e⟩ := hm.fn hf
      have c2 := hk.fn hf
      rcases h.rec1 t (Or.inl ht) with h0 | h0 | ⟨h0, _⟩
      · omega
      · have c1 := h0.fn hf
        have d1 := (e t (by omega)).1
        have d2 := (e (t - 1) (by omega)).1
        rw [show t - 1 + per = t + per - 1 by omega] at d2
        exact c1 (by rw [← d1, c2, d2])
      · have c1 := g3.fn hf
        obtain ⟨k', e'⟩ := h0.fn hf
        have := (e' (t1 - 1) (by omega)).1
        rw [show t1 - 1 + 1 = t1 by omega] at this
        exact c1 this

/-! ## Quasihalting -/

theorem beep_spec {l : List State} {q : State} {i : Nat} (h : History.beep l q = some i) :
    l[i]? = some q ∧ ∀ j, i < j → l[j]? ≠ some q := by
  unfold History.beep at h
  split at h
  case isFalse => simp at h
  rename_i hc
  have hmem : q ∈ l.reverse := by simpa using hc
  simp only [Option.some.injEq] at h
  have hlt : l.reverse.idxOf q < l.reverse.length := List.idxOf_lt_length_iff.mpr hmem
  have hlen : l.reverse.length = l.length := List.length_reverse
  have hget : l.reverse[l.reverse.idxOf q]? = some q := by
    rw [List.getElem?_eq_getElem hlt, List.getElem_idxOf hlt]
  constructor
  · rw [List.getElem?_reverse (by omega)] at hget
    rw [← h]
    exact hget
  · intro j hj hjq
    obtain ⟨hjl, hjq'⟩ := List.getElem?_eq_some_iff.mp hjq
    have hlt' : l.length - 1 - j < l.reverse.idxOf q := by omega
    have := List.not_of_lt_findIdx (p := (· == q)) (xs := l.reverse) (i := l.length - 1 - j) hlt'
    rw [beq_eq_false_iff_ne] at this
    apply this
    simp only [List.getElem_reverse]
    refine Eq.trans ?_ hjq'
    congr 1
    omega

theorem beep_some {l : List State} {q : State} (h : q ∈ l) : ∃ i, History.beep l q = some i := by
  unfold History.beep
  rw [if_pos (by simpa using h)]
  exact ⟨_, rfl⟩

/-- `any(hc_beeps[st] <= hp_beeps[st] ...)`: some state occurs before `start` and not after. -/
theorem qsihlt_iff (h : History) (start : Nat) :
    h.qsihlt start = true ↔ ∃ q i, i < start ∧ h.states[i]? = some q ∧
      ∀ j : Nat, start ≤ j → h.states[j]? ≠ some q := by
  unfold History.qsihlt
  rw [List.any_eq_true]
  constructor
  · rintro ⟨q, hq, hb⟩
    obtain ⟨hp, e2⟩ := beep_some hq
    obtain ⟨hc, e1⟩ := beep_some (List.mem_of_mem_take hq)
    rw [e1, e2] at hb
    simp only [decide_eq_true_eq] at hb
    obtain ⟨a1, a2⟩ := beep_spec e1
    obtain ⟨b1, b2⟩ := beep_spec e2
    have hlt : hp < start := by
      obtain ⟨hl, _⟩ := List.getElem?_eq_some_iff.mp b1
      simp only [List.length_take] at hl
      omega
    exact ⟨q, hc, by omega, a1, fun j hj => a2 j (by omega)⟩
  · rintro ⟨q, i, hi, hq, hno⟩
    have hm : q ∈ h.states.take start := by
      rw [List.mem_iff_getElem?]
      exact ⟨i, by rw [List.getElem?_take, if_pos hi, hq]⟩
    obtain ⟨hp, e2⟩ := beep_some hm
    obtain ⟨hc, e1⟩ := beep_some (List.mem_of_mem_take hm)
    refine ⟨q, hm, ?_⟩
    rw [e1, e2]
    simp only [decide_eq_true_eq]
    obtain ⟨a1, a2⟩ := beep_spec e1
    obtain ⟨b1, b2⟩ := beep_spec e2
    have hlt : hc < start := by
      by_contra hge
      exact hno hc (by omega) a1
    by_contra hcon
    have := b2 hc (by omega)
    rw [List.getElem?_take, if_pos hlt] at this
    exact this a1

/-- `qsihlt` is quasihalting, looking only at states used from `check_rec` on. -/
theorem SInv.qsihlt {p : Prog} {cr cycle : Nat} {s : SState} (h : SInv p cr cycle s) {a : Nat}
    (hcr : cr ≤ a) (hlt : a < s.step) (hr : RecursFrom p a (s.step - a)) :
    s.record.qsihlt a = true ↔ QuasiHaltsSince p cr := by
  obtain ⟨_, _, _, r4, _, _, _, _, hst⟩ := h.record (by omega)
  obtain ⟨f, hf⟩ := hr.neverHalts.run
  obtain ⟨k, e⟩ := hr.fn hf
  have hin : ∀ q n, InStateAt p q n ↔ (f n).state = q := by
    intro q n
    constructor
    · rintro ⟨c, h1, h2⟩
      rw [hf] at h1; cases h1; exact h2
    · exact fun h => ⟨_, hf n, h⟩
  have hget : ∀ (i : Nat), cr ≤ i → i ≤ s.step → s.record.states[i]? = some (f i).state := by
    intro i hi' hi
    rw [List.getElem?_eq_getElem (by omega)]
    have := (hst i _ (List.getElem?_eq_getElem (show i < s.record.states.length by omega))).1 hi'
    rw [hin] at this
    rw [this]
  have hmul : ∀ j t, a ≤ t → (f (t + j * (s.step - a))).state = (f t).state := fun j t ht =>
    congrArg Prod.fst (recurs_mul e j t ht).1
  -- every later state occurs in the period
  have hred : ∀ n, a ≤ n → ∃ i, a ≤ i ∧ i < s.step ∧ (f i).state = (f n).state := by
    intro n hn
    refine ⟨a + (n - a) % (s.step - a), by omega, ?_, ?_⟩
    · have := Nat.mod_lt (n - a) (show 0 < s.step - a by omega)
      omega
    · have := hmul ((n - a) / (s.step - a)) (a + (n - a) % (s.step - a)) (by omega)
      have hd := Nat.mod_add_div (n - a) (s.step - a)
      rw [Nat.mul_comm] at hd
      rw [← this]
      congr 2
      omega
  rw [qsihlt_iff]
  constructor
  · rintro ⟨q, i, hi, hq, hno⟩
    refine ⟨hr.neverHalts, q, (hst i q hq).2, a, fun n hn hq' => ?_⟩
    rw [hin] at hq'
    obtain ⟨j, h1, h2, h3⟩ := hred n hn
    apply hno j h1
    rw [hget j (by omega) (by omega), h3, hq']
  · rintro ⟨_, q, ⟨n, hcn, hn⟩, N, hN⟩
    rw [hin] at hn
    have hno : ∀ i, a ≤ i → (f i).state ≠ q := by
      intro i hi hq
      refine hN (i + N * (s.step - a)) ?_ ?_
      · have := Nat.le_mul_of_pos_right N (show 0 < s.step - a by omega)
        omega
      · rw [hin, hmul N i hi, hq]
    have hna : n < a := by
      by_contra hge
      exact hno n (by omega) hn
    refine ⟨q, n, hna, by rw [hget n hcn (by omega), hn], fun j hj hq => ?_⟩
    obtain ⟨hl, _⟩ := List.getElem?_eq_some_iff.mp hq
    rw [hget j (by omega) (by omega)] at hq
    exact hno j hj (by simpa using hq)

/-! ## The loop -/

/-- What a run of the strict checker reports. -/
structure StrictSpec (p : Prog) (cr lim : Nat) (r : StrictRes) : Prop where
  linrec : ∀ n per, r.linrec = some (n, per) → cr ≤ n ∧ RecursFrom p n per ∧
    (∀ m per', RecursFrom p m per' → per ≤ per') ∧ BlanksExact p r.blanks (n + per) ∧
    r.undfnd = none ∧ r.xlimit = none ∧ ∃ b, r.qsihlt = some b
  undfnd : ∀ n slot, r.undfnd = some (n, slot) → HaltsAt p initCfg n slot ∧
    BlanksExact p r.blanks n ∧ r.linrec = none ∧ r.xlimit = none
  xlimit : ∀ n, r.xlimit = some n → lim ≤ n ∧ (runFor p n initCfg).isSome ∧
    BlanksExact p r.blanks n ∧ r.linrec = none ∧ r.undfnd = none ∧
    ∀ m per, RecursFrom p m per → lim ≤ max (m + 1) cr + per
  one : r.linrec ≠ none ∨ r.undfnd ≠ none ∨ r.xlimit ≠ none
  spnout : ∀ n, r.spnout = some n ↔ r.linrec = some (n, 1)
  qsihlt : r.qsihlt = some true ↔ r.linrec ≠ none ∧ QuasiHaltsSince p cr

theorem strictLoop_spec (p : Prog) (cr fuel cycle : Nat) (s : SState) (h : SInv p cr cycle s)
    (hs : cycle ≤ s.step) :
    ∃ r, strictLoop p cr fuel cycle s = some r ∧ StrictSpec p cr (cycle + fuel) r := by
  induction fuel generalizing cycle s with
  | zero =>
    refine ⟨_, rfl, ?_⟩
    refine ⟨by simp, by simp, ?_, by simp, by simp, by simp⟩
    intro n hn
    simp only [Option.some.injEq] at hn
    subst hn
    exact ⟨by omega, by rw [h.run]; rfl, h.blanks, rfl, rfl, fun m per hm => by
      simpa using h.limit hm⟩
  | succ fuel ih =>
    -- the rest of the body, once the entries are made
    have body : ∀ u : SState, MInv p cr cycle u → u.step = s.step → u.blanks = s.blanks →
        ∃ r, (match SState.move p u with
          | .error u' => some ⟨none, none, none, some u', none, s.blanks, cycle⟩
          | .ok s' => strictLoop p cr fuel (cycle + 1) s') = some r ∧
          StrictSpec p cr (cycle + (fuel + 1)) r := by
      intro u hu hstep hbl
      unfold SState.move
      cases hp : p u.slot with
      | none =>
        refine ⟨_, rfl, ?_⟩
        refine ⟨by simp, ?_, by simp, by simp, by simp, by simp⟩
        intro n slot hn
        simp only [Option.some.injEq, Prod.mk.injEq] at hn
        obtain ⟨rfl, rfl⟩ := hn
        exact ⟨⟨_, hu.run, cfg_slot .., hp⟩, by rw [← hbl]; exact hu.blanks, rfl, rfl⟩
      | some i =>
        obtain ⟨color, shift, q'⟩ := i
        simp only
        have hn := hu.move hp
        obtain ⟨r, h1, h2⟩ := ih (cycle + 1) _ hn (by
          have := (headStep_facts (skip := u.state == q') hu.canon hp (Or.inr rfl)).pos
          simp only [SState.advance]
          omega)
        exact ⟨r, h1, by rwa [show cycle + (fuel + 1) = cycle + 1 + fuel by omega]⟩
    rw [strictLoop]
    by_cases hge : s.step ≥ cr
    · rw [if_pos hge]
      obtain ⟨r, c1, c2, c3⟩ := h.check hge
      rw [c1]
      cases r with
      | none =>
        exact body _ (h.toM hge (c3 rfl)) rfl rfl
      | some res =>
        obtain ⟨a, ha, hlt, rfl, hrec⟩ := c2 res rfl
        simp only
        refine ⟨_, rfl, ?_⟩
        refine ⟨?_, by simp, by simp, by simp, ?_, ?_⟩
        · intro n per hn
          simp only [Option.some.injEq, Prod.mk.injEq] at hn
          obtain ⟨rfl, rfl⟩ := hn
          obtain ⟨sl, ha'⟩ := ha
          refine ⟨(h.slotok sl a ha').1, hrec, fun m per' hm => h.least ⟨sl, ha'⟩ hlt hrec hm, ?_,
            rfl, rfl, _, rfl⟩
          rw [show a + (s.step - a) = s.step by omega]
          exact h.blanks
        · intro n
          simp only [Option.some.injEq, Prod.mk.injEq]
          by_cases h1 : s.step - a = 1
          · simp only [h1, beq_self_eq_true, if_true, Option.some.injEq, and_true]
            omega
          · have : (s.step - a == 1) = false := by simpa using h1
            simp [this, h1]
        · simp only [Option.some.injEq, ne_eq, reduceCtorEq, not_false_eq_true, true_and]
          obtain ⟨sl, ha'⟩ := ha
          exact h.qsihlt (h.slotok sl a ha').1 hlt hrec
    · rw [if_neg hge]
      exact body s (h.skip (by omega)) rfl rfl

theorem strictRun_spec (p : Prog) (lim cr : Nat) :
    ∃ r, strictRun p lim cr = some r ∧
      StrictSpec p cr (if lim = 0 then 1000000 else lim) r := by
  obtain ⟨r, h1, h2⟩ := strictLoop_spec p cr (if lim == 0 then 1000000 else lim) 0 _
    (SInv.start p cr) (Nat.zero_le _)
  refine ⟨r, h1, ?_⟩
  by_cases h0 : lim = 0
  · subst h0; simpa using h2
  · have : (lim == 0) = false := by simpa using h0
    simpa [this, h0] using h2

end BB.PyRec
