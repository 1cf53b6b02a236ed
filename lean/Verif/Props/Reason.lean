import Verif.Lemmas.ReasonTargets

/-!
# C08, C09, C10: the backward reasoner

`cant_halt`, `cant_blank` and `cant_spin_out` return a number only when the search backwards from
the configurations in question dies out.  That is right as long as state A can be entered from a
cycle of instructions; `get_entrypoints` throws away the instructions of all other states
(`/repo/src/reason.rs` L293-305), and with them the beginning of the run.
-/

namespace BB

/-- There is a cycle of instructions from which state A is reached. -/
def Table.EntersA (t : Table) : Prop :=
  ∃ q, Relation.TransGen (fun a b => ∃ c i, t.get? (a, c) = some i ∧ i.2.2 = b) q q ∧
    Relation.ReflTransGen (fun a b => ∃ c i, t.get? (a, c) = some i ∧ i.2.2 = b) q 0

theorem Table.EntersA.key {t : Table} (h : t.EntersA) : 0 ∈ t.entrypoints.keys := by
  obtain ⟨q, h1, h2⟩ := h
  exact Table.entrypoints_of_cycle h1 h2

instance (t : Table) : Decidable t.Sorted := by
  unfold Table.Sorted
  infer_instance

/-! ## C08 -/

/-- C08.  Missing: programs in which A is not entered from a cycle, in which A0 is undefined, or
in which a state or colour occurs that has no slot in the table; for these the claim is false. -/
theorem C08_cant_halt_partial (t : Table) (hs : t.Sorted) (hA : t.EntersA)
    (h0 : (t.get? (0, 0)).isSome)
    (hstate : ∀ s i, t.get? s = some i → ∃ s' i', t.get? s' = some i' ∧ i.2.2 ≤ s'.1)
    (hcolor : ∀ s i, t.get? s = some i → ∃ s' i', t.get? s' = some i' ∧ i.1 ≤ s'.2)
    (depth r : Nat) (h : t.cantHalt depth = some r) : NeverHalts t.get? initCfg := by
  rw [neverHalts_iff_not_haltsAt]
  rintro ⟨n, s, d, hd, hds, hn⟩
  -- the states and colours of the run are small
  have hbound : ∀ n d, runFor t.get? n initCfg = some d →
      (d.state = 0 ∨ ∃ e ∈ t, d.state ≤ e.1.1) ∧ ∀ x, d.tape x = 0 ∨ ∃ e ∈ t, d.tape x ≤ e.1.2 := by
    intro n
    induction n with
    | zero =>
      intro d hd
      cases hd
      exact ⟨.inl rfl, fun _ => .inl rfl⟩
    | succ n ih =>
      intro d hd
      rw [runFor_succ'] at hd
      obtain ⟨c, hc, hd⟩ := Option.bind_eq_some_iff.1 hd
      simp only [step] at hd
      obtain ⟨i, hi, rfl⟩ := Option.map_eq_some_iff.1 hd
      constructor
      · obtain ⟨s', i', h1, h2⟩ := hstate _ i hi
        exact .inr ⟨_, Table.get?_mem h1, h2⟩
      · intro x
        simp only [Cfg.exec]
        split
        · obtain ⟨s', i', h1, h2⟩ := hcolor _ i hi
          exact .inr ⟨_, Table.get?_mem h1, h2⟩
        · exact (ih c hc).2 x
  obtain ⟨b1, b2⟩ := hbound n d hd
  subst hds
  refine cantReach_sound hs haltTargets hA.key h ?_ n d hd ?_
  · rintro ⟨τ, hτ, hτs, hτm⟩
    obtain ⟨s', c', hn', rfl⟩ := mem_haltConfigs hτ
    have e1 : (0 : Nat) = s' := hτs
    have e2 : (0 : Nat) = c' := (initHalt_match c' initCfg).1 hτm
    subst e1 e2
    rw [hn'] at h0
    cases h0
  · exact ⟨_, haltConfigs_complete hn b1 (b2 d.pos), rfl, (initHalt_match _ _).2 rfl⟩

/-- "1RB ...  1RC ...  ... ..." halts after two moves, and `cant_halt` says it cannot: its states
are not on a cycle. -/
theorem C08_cycle_violation : ∃ (t : Table) (d : Nat), t.Sorted ∧ (t.get? (0, 0)).isSome ∧
    (t.cantHalt d).isSome ∧ HaltsAt t.get? initCfg 2 (2, 0) :=
  ⟨[((0, 0), (1, true, 1)), ((1, 0), (1, true, 2))], 1, by decide, by decide, by decide,
    ⟨2, 2, _⟩, rfl, rfl, rfl⟩

/-- "1RB ...  1LA ...": A lies on a cycle, but colour 1, which is printed, has no slot, so the
undefined slot A1 at which the machine halts is not looked at (`halt_configs` takes the range of
the colours from the keys of the table). -/
theorem C08_range_violation : ∃ (t : Table) (d : Nat), t.Sorted ∧ t.EntersA ∧
    (t.get? (0, 0)).isSome ∧ (t.cantHalt d).isSome ∧ HaltsAt t.get? initCfg 2 (0, 1) :=
  ⟨[((0, 0), (1, true, 1)), ((1, 0), (1, false, 0))], 1, by decide,
    ⟨0, .tail (.single ⟨0, (1, true, 1), rfl, rfl⟩) ⟨0, (1, false, 0), rfl, rfl⟩, .refl⟩,
    by decide, by decide, ⟨0, 0, _⟩, rfl, rfl, rfl⟩

/-- "... 1RB  ... 1LA": the machine halts at once at A0. -/
theorem C08_start_violation : ∃ (t : Table) (d : Nat), t.Sorted ∧ t.EntersA ∧
    (t.cantHalt d).isSome ∧ HaltsAt t.get? initCfg 0 (0, 0) :=
  ⟨[((0, 1), (1, true, 1)), ((1, 1), (1, false, 0))], 3, by decide,
    ⟨0, .tail (.single ⟨1, (1, true, 1), rfl, rfl⟩) ⟨1, (1, false, 0), rfl, rfl⟩, .refl⟩,
    by decide, initCfg, rfl, rfl, rfl⟩

/-- "1RB 0LC  1LC 0LA  ... 0RB": refuted after five rounds, so it never halts. -/
example : NeverHalts (Table.get? [((0, 0), (1, true, 1)), ((0, 1), (0, false, 2)),
    ((1, 0), (1, false, 2)), ((1, 1), (0, false, 0)), ((2, 1), (0, true, 1))]) initCfg := by
  refine C08_cant_halt_partial _ (by decide) ?_ (by decide) ?_ ?_ 12 5 (by decide +kernel)
  · exact ⟨0, .tail (.single ⟨0, (1, true, 1), rfl, rfl⟩) ⟨1, (0, false, 0), rfl, rfl⟩, .refl⟩
  · intro s i h
    refine ⟨(2, 1), _, rfl, ?_⟩
    have := Table.get?_mem h
    simp only [List.mem_cons, Prod.mk.injEq, List.not_mem_nil, or_false] at this
    rcases this with ⟨-, rfl⟩ | ⟨-, rfl⟩ | ⟨-, rfl⟩ | ⟨-, rfl⟩ | ⟨-, rfl⟩ <;> decide
  · intro s i h
    refine ⟨(2, 1), _, rfl, ?_⟩
    have := Table.get?_mem h
    simp only [List.mem_cons, Prod.mk.injEq, List.not_mem_nil, or_false] at this
    rcases this with ⟨-, rfl⟩ | ⟨-, rfl⟩ | ⟨-, rfl⟩ | ⟨-, rfl⟩ | ⟨-, rfl⟩ <;> decide

/-! ## C09 -/

/-- C09.  Missing: programs in which A is not entered from a cycle; for these the claim is
false. -/
theorem C09_cant_blank_partial (t : Table) (hs : t.Sorted) (hA : t.EntersA)
    (depth r : Nat) (h : t.cantBlank depth = some r) (n : Nat) (c d : Cfg)
    (hc : runFor t.get? n initCfg = some c) (hd : runFor t.get? (n + 1) initCfg = some d)
    (hblank : d.Blank) : c.Blank := by
  by_contra hne
  rw [runFor_succ', hc, Option.bind_some] at hd
  simp only [step] at hd
  obtain ⟨⟨print, shift, q⟩, hi, rfl⟩ := Option.map_eq_some_iff.1 hd
  have hother : ∀ x, x ≠ c.pos → c.tape x = 0 := by
    intro x hx
    have := hblank x
    simp only [Cfg.exec, if_neg hx] at this
    exact this
  have hprint : print = 0 := by
    have := hblank c.pos
    simpa [Cfg.exec] using this
  have hscan : c.tape c.pos ≠ 0 := by
    intro h0
    refine hne fun x => ?_
    by_cases hx : x = c.pos
    · rw [hx, h0]
    · exact hother x hx
  refine cantReach_sound hs eraseTargets hA.key h ?_ n c hc ?_
  · rintro ⟨τ, hτ, hτs, hτm⟩
    obtain ⟨e, -, -, he, rfl⟩ := mem_eraseConfigs.1 hτ
    exact he ((initBlank_match _ _).1 hτm).1.symm
  · exact ⟨_, mem_eraseConfigs.2 ⟨_, Table.get?_mem hi, hprint, hscan, rfl⟩, rfl,
      (initBlank_match _ _).2 ⟨rfl, hother⟩⟩

/-- "1RB ...  0LC ...  ... 0RD  ... ..." erases its only mark in the third move. -/
theorem C09_violation : ∃ (t : Table) (depth : Nat) (c d : Cfg), t.Sorted ∧
    (t.cantBlank depth).isSome ∧ runFor t.get? 2 initCfg = some c ∧
    runFor t.get? 3 initCfg = some d ∧ ¬ c.Blank ∧ d.Blank := by
  refine ⟨[((0, 0), (1, true, 1)), ((1, 0), (0, false, 2)), ((2, 1), (0, true, 3))], 1,
    ⟨2, 0, fun x => if x = 1 then 0 else if x = 0 then 1 else 0⟩,
    ⟨3, 1, fun x => if x = 0 then 0 else if x = 1 then 0 else if x = 0 then 1 else 0⟩,
    by decide, by decide, rfl, rfl, ?_, ?_⟩
  · intro h
    have := h 0
    simp at this
  · intro x
    simp only
    split
    · rfl
    · split <;> rfl

/-- "1RB 0LB  1LB 0RC  ... 1RA": refuted after six rounds, so the run never goes from a
non-blank tape to a blank one. -/
example (n : Nat) (c d : Cfg) (t : Table)
    (ht : t = [((0, 0), (1, true, 1)), ((0, 1), (0, false, 1)), ((1, 0), (1, false, 1)),
      ((1, 1), (0, true, 2)), ((2, 1), (1, true, 0))])
    (hc : runFor t.get? n initCfg = some c) (hd : runFor t.get? (n + 1) initCfg = some d)
    (hblank : d.Blank) : c.Blank := by
  subst ht
  refine C09_cant_blank_partial _ (by decide) ?_ 12 6 (by decide +kernel) n c d hc hd hblank
  exact ⟨0, .tail (.tail (.single ⟨0, (1, true, 1), rfl, rfl⟩) ⟨1, (0, true, 2), rfl, rfl⟩)
    ⟨1, (1, true, 0), rfl, rfl⟩, .refl⟩

/-! ## C10 -/

/-- The machine is in a state whose instruction on blank keeps the state, on a blank cell, and all
cells ahead are blank: it repeats that instruction forever. -/
def SpinsOut (p : Prog) (c : Cfg) : Prop :=
  ∃ print dir, p (c.state, 0) = some (print, dir, c.state) ∧ c.tape c.pos = 0 ∧
    ∀ x, (if dir then c.pos < x else x < c.pos) → c.tape x = 0

theorem spinout_match {c : Cfg} {dir : Bool}
    (h0 : c.tape c.pos = 0) (h : ∀ x, (if dir then c.pos < x else x < c.pos) → c.tape x = 0) :
    (Backstepper.initSpinout dir).Match c := by
  rw [initSpinout_match]
  refine ⟨h0, fun i => h _ ?_⟩
  cases dir <;> simp <;> omega

/-- C10.  Missing: programs in which A is not entered from a cycle; for these the claim is
false. -/
theorem C10_cant_spin_out_partial (t : Table) (hs : t.Sorted) (hA : t.EntersA)
    (depth r : Nat) (h : t.cantSpinOut depth = some r) (n : Nat) (c : Cfg)
    (hc : runFor t.get? n initCfg = some c) : ¬ SpinsOut t.get? c := by
  rintro ⟨print, dir, hi, h0, hside⟩
  have hhit : ∀ c' : Cfg, SpinsOut t.get? c' → Hit t.zeroReflexiveConfigs c' := by
    rintro c' ⟨print, dir, hi, h0, hside⟩
    exact ⟨_, mem_zeroReflexiveConfigs.2 ⟨_, Table.get?_mem hi, rfl, rfl, rfl⟩, rfl,
      spinout_match h0 hside⟩
  refine cantReach_sound hs (spinoutTargets hs) hA.key h ?_ n c hc
    (hhit c ⟨print, dir, hi, h0, hside⟩)
  -- a machine that spins out at once does so again after one move
  rintro ⟨τ, hτ, hτs, hτm⟩
  obtain ⟨⟨⟨s, z⟩, print, dir, s'⟩, he, h3, h4, rfl⟩ := mem_zeroReflexiveConfigs.1 hτ
  simp only [BConfig.new] at h3 h4 hτs hτm
  have hs0 : (0 : Nat) = s := hτs
  subst h3 h4 hs0
  refine cantReach_start (spinoutTargets hs) hA.key h (Table.get?_of_mem hs he)
    ⟨_, hτ, rfl, spinout_exec hτm⟩

/-- "1RB ...  1RB ..." spins out after one move. -/
theorem C10_violation : ∃ (t : Table) (depth : Nat) (c : Cfg), t.Sorted ∧
    (t.cantSpinOut depth).isSome ∧ runFor t.get? 1 initCfg = some c ∧ SpinsOut t.get? c := by
  refine ⟨[((0, 0), (1, true, 1)), ((1, 0), (1, true, 1))], 2, initCfg.exec (1, true, 1),
    by decide, by decide, rfl, 1, true, rfl, ?_, ?_⟩
  · simp [Cfg.exec, initCfg]
  · intro x hx
    have hx' : (0 : Int) + 1 < x := hx
    have : x ≠ 0 := by omega
    simp [Cfg.exec, initCfg, this]

/-- `SpinsOut` is what it says. -/
theorem SpinsOut.forever {p : Prog} {c : Cfg} (h : SpinsOut p c) (n : Nat) :
    ∃ d, runFor p n c = some d ∧ d.state = c.state ∧ d.slot = (c.state, 0) ∧ SpinsOut p d := by
  induction n generalizing c with
  | zero =>
    obtain ⟨print, dir, hi, h0, hside⟩ := h
    exact ⟨c, rfl, rfl, by rw [Cfg.slot, h0], print, dir, hi, h0, hside⟩
  | succ n ih =>
    obtain ⟨print, dir, hi, h0, hside⟩ := h
    have hs : SpinsOut p (c.exec (print, dir, c.state)) := by
      refine ⟨print, dir, hi, ?_, ?_⟩
      · simp only [Cfg.exec]
        cases dir
        · simp only [Bool.false_eq_true, if_false] at hside ⊢
          rw [if_neg (by omega)]
          exact hside _ (by omega)
        · simp only [if_true] at hside ⊢
          rw [if_neg (by omega)]
          exact hside _ (by omega)
      · intro x hx
        simp only [Cfg.exec] at hx ⊢
        cases dir
        · simp only [Bool.false_eq_true, if_false] at hside hx ⊢
          rw [if_neg (by omega)]
          exact hside _ (by omega)
        · simp only [if_true] at hside hx ⊢
          rw [if_neg (by omega)]
          exact hside _ (by omega)
    obtain ⟨d, h1, h2, h3, h4⟩ := ih hs
    refine ⟨d, ?_, h2, h3, h4⟩
    rw [runFor, step_some (i := (print, dir, c.state)) (by rw [Cfg.slot, h0]; exact hi),
      Option.bind_some, h1]

/-- "1RB 0LB  1LB 0RC  ... 1RA": refuted after one round, though B0 keeps its state. -/
example (n : Nat) (c : Cfg) (t : Table)
    (ht : t = [((0, 0), (1, true, 1)), ((0, 1), (0, false, 1)), ((1, 0), (1, false, 1)),
      ((1, 1), (0, true, 2)), ((2, 1), (1, true, 0))])
    (hc : runFor t.get? n initCfg = some c) : ¬ SpinsOut t.get? c := by
  subst ht
  refine C10_cant_spin_out_partial _ (by decide) ?_ 12 1 (by decide +kernel) n c hc
  exact ⟨0, .tail (.tail (.single ⟨0, (1, true, 1), rfl, rfl⟩) ⟨1, (0, true, 2), rfl, rfl⟩)
    ⟨1, (1, true, 0), rfl, rfl⟩, .refl⟩

end BB
