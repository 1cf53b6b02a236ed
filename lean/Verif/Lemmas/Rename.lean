import Verif.Lemmas.Run

/-! # Renaming states and colours, mirroring the tape -/

namespace BB

/-- `p'` is `p` with states renamed by `σ`, colours by `τ`, and, if `m`, directions flipped. -/
def Renames (p p' : Prog) (σ τ : Nat → Nat) (m : Bool) : Prop :=
  ∀ s c, p' (σ s, τ c) = (p (s, c)).map fun i => (τ i.1, i.2.1 != m, σ i.2.2)

/-- The configuration seen through the renaming. -/
def Cfg.rename (c : Cfg) (σ τ : Nat → Nat) (m : Bool) : Cfg where
  state := σ c.state
  pos := if m then - c.pos else c.pos
  tape := fun x => τ (c.tape (if m then - x else x))

theorem Cfg.slot_rename (c : Cfg) (σ τ : Nat → Nat) (m : Bool) :
    (c.rename σ τ m).slot = (σ c.slot.1, τ c.slot.2) := by
  cases m <;> simp [Cfg.slot, Cfg.rename]

theorem Cfg.exec_rename (c : Cfg) (σ τ : Nat → Nat) (m : Bool) (i : Instr) :
    (c.rename σ τ m).exec (τ i.1, i.2.1 != m, σ i.2.2) = (c.exec i).rename σ τ m := by
  obtain ⟨co, sh, st⟩ := i
  cases m
  · simp only [Cfg.exec, Cfg.rename, Bool.bne_false, Cfg.mk.injEq, true_and]
    refine ⟨by simp, ?_⟩
    funext x
    simp only [Bool.false_eq_true, if_false]
    split <;> rfl
  · simp only [Cfg.exec, Cfg.rename, if_true, Cfg.mk.injEq, true_and]
    constructor
    · cases sh <;> simp <;> omega
    · funext x
      have : x = -c.pos ↔ -x = c.pos := by omega
      by_cases h : x = -c.pos
      · simp [h]
      · have h' : ¬ (-x = c.pos) := fun h' => h (this.2 h')
        simp [h, h']

theorem step_rename {p p' : Prog} {σ τ : Nat → Nat} {m : Bool} (h : Renames p p' σ τ m) (c : Cfg) :
    step p' (c.rename σ τ m) = (step p c).map fun d => d.rename σ τ m := by
  simp only [step, Cfg.slot_rename]
  rw [h c.slot.1 c.slot.2]
  cases p (c.slot.1, c.slot.2) with
  | none => rfl
  | some i =>
    simp only [Option.map_some]
    rw [Cfg.exec_rename]

theorem runFor_rename {p p' : Prog} {σ τ : Nat → Nat} {m : Bool} (h : Renames p p' σ τ m)
    (n : Nat) (c : Cfg) :
    runFor p' n (c.rename σ τ m) = (runFor p n c).map fun d => d.rename σ τ m := by
  induction n generalizing c with
  | zero => rfl
  | succ n ih =>
    simp only [runFor, step_rename h]
    cases step p c with
    | none => rfl
    | some d => simpa using ih d

theorem initCfg_rename {σ τ : Nat → Nat} (m : Bool) (hσ : σ 0 = 0) (hτ : τ 0 = 0) :
    initCfg.rename σ τ m = initCfg := by
  cases m <;> simp [initCfg, Cfg.rename, hσ, hτ]

theorem Renames.trans {p p' p'' : Prog} {σ τ σ' τ' : Nat → Nat} {m m' : Bool}
    (h : Renames p p' σ τ m) (h' : Renames p' p'' σ' τ' m') :
    Renames p p'' (σ' ∘ σ) (τ' ∘ τ) (m != m') := by
  intro s c
  simp only [Function.comp_def]
  rw [h' (σ s) (τ c), h s c, Option.map_map]
  congr 1
  funext i
  simp only [Function.comp_def, Prod.mk.injEq, true_and, and_true]
  cases i.2.1 <;> cases m <;> cases m' <;> rfl

theorem Renames.refl (p : Prog) : Renames p p id id false := by
  intro s c
  simp only [id, Bool.bne_false]
  cases p (s, c) <;> rfl

/-- The renamed machine stops after the same number of steps, at the renamed slot. -/
theorem Renames.halts {p p' : Prog} {σ τ : Nat → Nat} {m : Bool} (h : Renames p p' σ τ m)
    (hσ : σ 0 = 0) (hτ : τ 0 = 0) (n : Nat) :
    (∀ s c, HaltsAt p initCfg n (s, c) → HaltsAt p' initCfg n (σ s, τ c)) ∧
    ((∃ s, HaltsAt p' initCfg n s) → ∃ s, HaltsAt p initCfg n s) := by
  have hr := runFor_rename h n initCfg
  rw [initCfg_rename m hσ hτ] at hr
  constructor
  · rintro s c ⟨d, h1, h2, h3⟩
    refine ⟨d.rename σ τ m, by rw [hr, h1]; rfl, by rw [Cfg.slot_rename, h2], ?_⟩
    rw [h s c, h3]
    rfl
  · rintro ⟨s, d, h1, h2, h3⟩
    rw [hr] at h1
    obtain ⟨e, h4, h5⟩ := Option.map_eq_some_iff.1 h1
    refine ⟨e.slot, e, h4, rfl, ?_⟩
    rw [← h2, ← h5, Cfg.slot_rename, h e.slot.1 e.slot.2] at h3
    simpa using h3

end BB
