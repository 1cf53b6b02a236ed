import Verif.Lemmas.Marks

/-! # Ways of seeing that a machine never halts -/

namespace BB

/-- Spin-out: one instruction repeated towards a blank side. -/
theorem neverHalts_spinout {p : Prog} {c : Cfg} {col : Color} {shift : Bool}
    (hp : p (c.state, 0) = some (col, shift, c.state))
    (hz : ∀ k : Nat, c.tape (c.pos + disp shift k) = 0) : NeverHalts p c := by
  apply neverHalts_of_invariant (fun d => d.state = c.state ∧
    ∀ k : Nat, d.tape (d.pos + disp shift k) = 0) _ ⟨rfl, hz⟩
  rintro d ⟨hq, hd⟩
  have hs : p d.slot = some (col, shift, c.state) := by
    have := hd 0
    have e : d.pos + disp shift 0 = d.pos := by cases shift <;> simp [disp]
    rw [e] at this
    simp only [Cfg.slot, this, hq, hp]
  refine ⟨1, d.exec (col, shift, c.state), Nat.one_pos, ?_, ?_⟩
  · rw [runFor_one, step_some hs]
  · refine ⟨rfl, fun k => ?_⟩
    have h1 := hd (k + 1)
    rw [disp_succ] at h1
    cases shift
    · simp only [Cfg.exec, Bool.false_eq_true, if_false]
      have e : d.pos - 1 + disp false k = d.pos + (disp false 1 + disp false k) := by
        simp [disp]; omega
      rw [e, h1, if_neg]
      simp [disp]; omega
    · simp only [Cfg.exec, if_true]
      have e : d.pos + 1 + disp true k = d.pos + (disp true 1 + disp true k) := by
        simp [disp]; omega
      rw [e, h1, if_neg]
      simp [disp]; omega

theorem Cfg.translate_translate (c : Cfg) (a b : Int) :
    (c.translate a).translate b = c.translate (a + b) := by
  simp only [Cfg.translate, Cfg.mk.injEq, true_and]
  constructor
  · omega
  · funext x; congr 1; omega

/-- A configuration that comes back translated is repeated forever. -/
theorem neverHalts_of_translate {p : Prog} {c : Cfg} {n : Nat} {k : Int} (hn : 0 < n)
    (h : runFor p n c = some (c.translate k)) : NeverHalts p c := by
  apply neverHalts_of_invariant (fun d => ∃ e, d = c.translate e) _ ⟨0, ?_⟩
  · rintro d ⟨e, rfl⟩
    refine ⟨n, _, hn, ?_, k + e, rfl⟩
    rw [runFor_translate, h]
    simp [Cfg.translate_translate]
  · simp [Cfg.translate]

theorem Cfg.Blank.eq_translate {c d : Cfg} (hc : c.Blank) (hd : d.Blank)
    (hs : c.state = d.state) : d = c.translate (d.pos - c.pos) := by
  obtain ⟨q, x, t⟩ := c
  obtain ⟨q', x', t'⟩ := d
  simp only [Cfg.translate, Cfg.mk.injEq]
  refine ⟨hs.symm, by omega, ?_⟩
  funext y
  have h1 : t (y - (x' - x)) = 0 := hc _
  have h2 : t' y = 0 := hd y
  rw [h1, h2]

/-- Two blank configurations in the same state: the machine loops. -/
theorem neverHalts_blank_twice {p : Prog} {c d : Cfg} {n : Nat} (hn : 0 < n)
    (h : runFor p n c = some d) (hc : c.Blank) (hd : d.Blank) (hs : c.state = d.state) :
    NeverHalts p c :=
  neverHalts_of_translate hn (by rw [h, ← hc.eq_translate hd hs])

/-- The middle of a sweep, cell by cell. -/
theorem sweep_mid {p : Prog} {q : State} {s c : Color} {shift : Bool}
    (h : p (q, s) = some (c, shift, q)) (n : Nat) :
    ∀ (cf : Cfg), cf.state = q → (∀ k : Nat, k ≤ n → cf.tape (cf.pos + disp shift k) = s) →
      ∀ m, m ≤ n + 1 → ∃ d, runFor p m cf = some d ∧ d.state = q ∧
        d.pos = cf.pos + disp shift m ∧
        (∀ k : Nat, d.tape (d.pos + disp shift k) = cf.tape (cf.pos + disp shift (m + k))) := by
  intro cf hq hcells m
  induction m with
  | zero =>
    intro _
    refine ⟨cf, rfl, hq, by cases shift <;> simp [disp], fun k => by rw [Nat.zero_add]⟩
  | succ m ih =>
    intro hm
    obtain ⟨d, h1, h2, h3, h4⟩ := ih (by omega)
    have hs : d.tape d.pos = s := by
      have := h4 0
      have e : d.pos + disp shift 0 = d.pos := by cases shift <;> simp [disp]
      rw [e] at this
      rw [this]; exact hcells m (by omega)
    have hp : p d.slot = some (c, shift, q) := by
      simp only [Cfg.slot, h2, hs, h]
    refine ⟨_, by rw [runFor_succ', h1, Option.bind_some, step_some hp], rfl, ?_, ?_⟩
    · rw [Nat.add_comm m 1, disp_add]
      cases shift <;> simp [Cfg.exec, disp, h3] <;> omega
    · intro k
      have := h4 (k + 1)
      rw [← Nat.add_assoc, Nat.add_right_comm] at this
      rw [← this]
      cases shift
      · simp only [Cfg.exec, Bool.false_eq_true, if_false]
        have e : d.pos - 1 + disp false k = d.pos + disp false (k + 1) := by
          simp [disp]; omega
        rw [e, if_neg]
        simp [disp]; omega
      · simp only [Cfg.exec, if_true]
        have e : d.pos + 1 + disp true k = d.pos + disp true (k + 1) := by
          simp [disp]; omega
        rw [e, if_neg]
        simp [disp]; omega

end BB
