import Verif.Lemmas.LinRecStrict

/-! # The sampler -/

namespace BB.PyRec

/-- What the history of a sampled run says; `n` bounds the steps it covers. -/
structure Sampled (p : Prog) (samples : List Nat) (h : History) : Prop where
  hist : HInv p h
  len : h.states.length = h.positions.length
  states : ∀ t P, h.tapes.lookup t = some P → ∃ q, h.states[t]? = some q ∧ InStateAt p q t
  taken : ∀ t ∈ samples, t < h.states.length → (h.tapes.lookup t).isSome

structure LoopInv (p : Prog) (samples : List Nat) (s : SState) : Prop
    extends Sampled p samples s.hist where
  canon : s.tape.tape.Canonical
  run : runFor p s.step initCfg = some (s.tape.tape.cfg s.state s.tape.head)
  short : s.hist.states.length ≤ s.step
  all : ∀ t ∈ samples, t < s.step → (s.hist.tapes.lookup t).isSome

theorem LoopInv.start (p : Prog) (samples : List Nat) : LoopInv p samples .start where
  hist := HInv.empty p
  len := rfl
  states := by intro t P h; simp [SState.start, History.empty] at h
  taken := by intro t _ h; simp [SState.start, History.empty] at h
  canon := Tape.canonical_init
  run := by
    show runFor p 0 initCfg = _
    rw [initCfg_eq]; rfl
  short := by simp [SState.start, History.empty]
  all := by intro t _ h; simp [SState.start] at h

theorem LoopInv.record {p : Prog} {samples : List Nat} {s : SState} (h : LoopInv p samples s) :
    Sampled p samples s.record ∧
    (∀ t ∈ samples, t < s.step + 1 → (s.record.tapes.lookup t).isSome) ∧
    s.record.states.length = s.step + 1 := by
  have hlen : s.hist.positions.length ≤ s.step := by rw [← h.len]; exact h.short
  have hsl : s.record.states.length = s.step + 1 := by
    have := h.short
    simp [SState.record, History.addTape, History.addState]; omega
  have hall : ∀ t ∈ samples, t < s.step + 1 → (s.record.tapes.lookup t).isSome := by
    intro t ht hlt
    simp only [SState.record, History.addTape, History.addState, List.lookup_cons]
    split
    · rfl
    · rename_i hne
      have : t ≠ s.step := by simpa using hne
      exact h.all t ht (by omega)
  refine ⟨⟨?_, ?_, ?_, ?_⟩, hall, hsl⟩
  · exact HInv.addTape (h := s.hist.addState s.step s.state) (h.hist.congr rfl rfl) h.canon h.run hlen
  · have := (addTape_positions (s.hist.addState s.step s.state) s.step s.tape hlen).1
    rw [hsl]; exact this.symm
  · intro t P hl
    simp only [SState.record, History.addTape, History.addState, List.lookup_cons] at hl ⊢
    by_cases ht : t = s.step
    · subst ht
      refine ⟨s.state, ?_, _, h.run, rfl⟩
      rw [List.append_assoc, List.getElem?_append_right h.short, ← List.replicate_succ',
        List.getElem?_replicate, if_pos (by omega)]
    · rw [beq_false_of_ne ht] at hl
      obtain ⟨q, h1, h2⟩ := h.states t P hl
      obtain ⟨hlt, _⟩ := List.getElem?_eq_some_iff.mp h1
      exact ⟨q, by rw [List.append_assoc, List.getElem?_append_left hlt, h1], h2⟩
  · intro t ht hlt
    rw [hsl] at hlt
    exact hall t ht hlt

theorem sampleLoop_spec (p : Prog) (samples : List Nat) (fuel : Nat) (s : SState)
    (h : LoopInv p samples s) : Sampled p samples (sampleLoop p samples fuel s).hist := by
  induction fuel generalizing s with
  | zero => exact h.toSampled
  | succ fuel ih =>
    rw [sampleLoop]
    -- after the entries
    have main : ∀ u : SState, u.tape.tape.Canonical →
        runFor p u.step initCfg = some (u.tape.tape.cfg u.state u.tape.head) →
        Sampled p samples u.hist → u.hist.states.length ≤ u.step + 1 →
        (∀ t ∈ samples, t < u.step + 1 → (u.hist.tapes.lookup t).isSome) →
        Sampled p samples (match p u.slot with
          | none => u
          | some (color, shift, nextState) =>
            sampleLoop p samples fuel (u.advance false color shift nextState)).hist := by
      intro u hc hr hs hl ha
      cases hp : p u.slot with
      | none => exact hs
      | some i =>
        obtain ⟨color, shift, q'⟩ := i
        simp only
        have hF := headStep_facts (skip := false) hc hp (Or.inl rfl)
        have h1 : (headStep u.tape shift color false).2 = 1 := by
          have hpy := py_step_eq_rs_step u.tape.tape hc.l.posCounts hc.r.posCounts shift color false
          simp only [headStep, hpy]
          exact (Rs.step_stepped hc shift color false 0).1 rfl
        apply ih
        refine ⟨hs, hF.canon, ?_, ?_, ?_⟩
        · exact runFor_trans hr hF.run
        · simp only [SState.advance, h1]; exact hl
        · simp only [SState.advance, h1]; exact ha
    by_cases hm : samples.contains s.step = true
    · simp only [hm, if_true]
      obtain ⟨r1, r2, r3⟩ := h.record
      exact main { s with hist := s.record } h.canon h.run r1 (by simp only [r3]; omega) r2
    · simp only [hm]
      refine main s h.canon h.run h.toSampled (by have := h.short; omega) ?_
      intro t ht hlt
      have : t ≠ s.step := by
        rintro rfl
        exact hm (by simpa using ht)
      exact h.all t ht (by omega)

theorem sample_spec (p : Prog) (lim : Nat) (samples : List Nat) :
    Sampled p samples (sample p lim samples) :=
  sampleLoop_spec p samples _ _ (LoopInv.start p samples)

/-- `assert_lin_rec` on sampled steps. -/
theorem assert_sound {p : Prog} {samples : List Nat} {h : History} (hs : Sampled p samples h)
    {a b : Nat} (hab : a < b) (ha : a ∈ samples) (hb : b ∈ samples)
    (hv : assertLinRec h a b = true)
    (hcov : ∀ m c, a ≤ m → m < b → runFor p m initCfg = some c →
      ∃ i ∈ samples, ∃ j ∈ samples, ∃ ci cj, a ≤ i ∧ a ≤ j ∧ i < h.states.length ∧
        j < h.states.length ∧ runFor p i initCfg = some ci ∧
        runFor p j initCfg = some cj ∧ ci.pos ≤ c.pos ∧ c.pos ≤ cj.pos) :
    RecursFrom p a (b - a) := by
  unfold assertLinRec at hv
  split at hv
  case h_2 => cases hv
  rename_i x y hx hy
  simp only [Bool.and_eq_true, beq_iff_eq] at hv
  obtain ⟨rfl, hv⟩ := hv
  obtain ⟨hla, _⟩ := List.getElem?_eq_some_iff.mp hx
  obtain ⟨hlb, _⟩ := List.getElem?_eq_some_iff.mp hy
  have la := hs.taken a ha hla
  have lb := hs.taken b hb hlb
  have hpos : ∀ i ∈ samples, i < h.states.length → ∀ ci, runFor p i initCfg = some ci →
      h.positions[i]? = some ci.pos := by
    intro i hi hil ci hci
    obtain ⟨P, hP⟩ := Option.isSome_iff_exists.mp (hs.taken i hi hil)
    obtain ⟨u, q, _, u2, _, u4⟩ := hs.hist.tape i P hP
    rw [hci] at u2
    cases u2
    exact u4
  refine (verify_sound hs.hist hab la lb hv ?_ ?_).2
  · obtain ⟨P, hP⟩ := Option.isSome_iff_exists.mp la
    obtain ⟨Q, hQ⟩ := Option.isSome_iff_exists.mp lb
    obtain ⟨q, q1, q2⟩ := hs.states a P hP
    obtain ⟨r, r1, r2⟩ := hs.states b Q hQ
    rw [hx] at q1; rw [hy] at r1
    cases q1; cases r1
    exact ⟨_, q2, r2⟩
  · intro m c h1 h2 hc
    obtain ⟨i, hi, j, hj, ci, cj, a1, a2, a3, a4, a5, a6, a7, a8⟩ := hcov m c h1 h2 hc
    exact ⟨i, j, _, _, a1, a2, hpos i hi a3 ci a5, hpos j hj a4 cj a6, a7, a8⟩

/-- `deny_lin_rec` on sampled steps. -/
theorem deny_sound {p : Prog} {samples : List Nat} {h : History} (hs : Sampled p samples h)
    {a b : Nat} (hab : a < b) (ha : a ∈ samples) (hb : b ∈ samples)
    (hv : denyLinRec h a b = true) : ¬ RecursFrom p a (b - a) := by
  intro hr
  unfold denyLinRec at hv
  split at hv
  case h_2 => cases hv
  rename_i x y hx hy
  obtain ⟨hla, _⟩ := List.getElem?_eq_some_iff.mp hx
  obtain ⟨hlb, _⟩ := List.getElem?_eq_some_iff.mp hy
  have la := hs.taken a ha hla
  have lb := hs.taken b hb hlb
  have hc := verify_complete hs.hist hab la lb hr
  by_cases hxy : x = y
  · subst hxy
    simp only [beq_self_eq_true, if_true, hc] at hv
    simp at hv
  · obtain ⟨P, hP⟩ := Option.isSome_iff_exists.mp la
    obtain ⟨Q, hQ⟩ := Option.isSome_iff_exists.mp lb
    obtain ⟨q, q1, c, c1, c2⟩ := hs.states a P hP
    obtain ⟨r, r1, d, d1, d2⟩ := hs.states b Q hQ
    rw [hx] at q1; rw [hy] at r1
    cases q1; cases r1
    have := RecursFrom.slot hr (Nat.le_refl _) c1
      (by rw [show a + (b - a) = b by omega]; exact d1)
    exact hxy (by rw [← c2, ← d2]; exact (congrArg Prod.fst this).symm)

end BB.PyRec
