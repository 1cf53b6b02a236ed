import Verif.Model.RsProver
import Verif.Model.Reason
import Verif.Lemmas.Table
import Verif.Props.Reduce

/-!
# C52: what the graph of a program says about its runs

`Graph.zero_reflexive_states`, `reflexive_states`, `is_irreflexive`, `exits_dispersed`.
-/

namespace BB

/-- The program with the given rows. -/
def rowsProg (rows : List (List (Option Instr))) : Prog := fun s =>
  ((rows[s.1]?).bind fun row => row[s.2]?).join

theorem rowsProg_some {rows : List (List (Option Instr))} {s : Slot} {i : Instr} :
    rowsProg rows s = some i ↔ ∃ row, rows[s.1]? = some row ∧ row[s.2]? = some (some i) := by
  simp [rowsProg, Option.join_eq_some_iff, Option.bind_eq_some_iff]

theorem arrowsOf_getElem? (rows : List (List (Option Instr))) (s : State) :
    (arrowsOf rows)[s]? = (rows[s]?).map fun row => row.map fun i => i.map fun j => j.2.2 := by
  simp [arrowsOf]

/-! ## The states the graph calls reflexive -/

theorem mem_reflexiveStates {a : Arrows} {s : State} :
    s ∈ a.reflexiveStates ↔ a.Edge s s := by
  simp only [Arrows.reflexiveStates, List.mem_filter, List.mem_range, Arrows.Edge]
  constructor
  · rintro ⟨h1, h2⟩
    rw [getD_row h1] at h2
    exact ⟨_, List.getElem?_eq_getElem h1, by simpa using h2⟩
  · rintro ⟨row, h1, h2⟩
    obtain ⟨h3, rfl⟩ := List.getElem?_eq_some_iff.1 h1
    exact ⟨h3, by rw [getD_row h3]; simpa using h2⟩

theorem zeroReflexive_iff {a : Arrows} (h : ∀ row ∈ a, row ≠ []) :
    ∃ l, a.zeroReflexiveStates = some l ∧
      ∀ s, s ∈ l ↔ ∃ row, a[s]? = some row ∧ row[0]? = some (some s) := by
  have hn : (a.any fun row => row.isEmpty) = false := by
    rw [List.any_eq_false]
    intro row hrow
    simpa using h row hrow
  refine ⟨_, by rw [Arrows.zeroReflexiveStates, hn]; rfl, ?_⟩
  intro s
  simp only [List.mem_filter, List.mem_range, beq_iff_eq]
  constructor
  · rintro ⟨h1, h2⟩
    rw [getD_row h1] at h2
    exact ⟨_, List.getElem?_eq_getElem h1, by rw [← h2, List.head?_eq_getElem?]⟩
  · rintro ⟨row, h1, h2⟩
    obtain ⟨h3, rfl⟩ := List.getElem?_eq_some_iff.1 h1
    exact ⟨h3, by rw [getD_row h3, List.head?_eq_getElem?, h2]⟩

/-- **C52, the states.**  With a colour, `zero_reflexive_states` raises nothing and has exactly the
states whose instruction for the blank stays in the state; `reflexive_states` has exactly those
with an instruction that stays; the former are among the latter. -/
theorem C52_states (rows : List (List (Option Instr))) (h : ∀ row ∈ rows, row ≠ []) :
    ∃ z, (arrowsOf rows).zeroReflexiveStates = some z ∧
      (∀ s, s ∈ z ↔ ∃ co sh, rowsProg rows (s, 0) = some (co, sh, s)) ∧
      (∀ s, s ∈ (arrowsOf rows).reflexiveStates ↔ Leads rows s s) ∧
      (∀ s ∈ z, s ∈ (arrowsOf rows).reflexiveStates) := by
  obtain ⟨z, h1, h2⟩ := zeroReflexive_iff (a := arrowsOf rows) (by
    intro row hrow
    obtain ⟨r, hr, rfl⟩ := List.mem_map.1 hrow
    simpa using h r hr)
  have h3 : ∀ s, s ∈ z ↔ ∃ co sh, rowsProg rows (s, 0) = some (co, sh, s) := by
    intro s
    rw [h2]
    simp only [rowsProg_some, arrowsOf_getElem?, Option.map_eq_some_iff]
    constructor
    · rintro ⟨_, ⟨row, e, rfl⟩, e2⟩
      rw [List.getElem?_map, Option.map_eq_some_iff] at e2
      obtain ⟨oi, e3, e4⟩ := e2
      obtain ⟨⟨co, sh, t⟩, rfl, rfl⟩ := Option.map_eq_some_iff.1 e4
      exact ⟨co, sh, row, e, e3⟩
    · rintro ⟨co, sh, row, e, e2⟩
      exact ⟨_, ⟨row, e, rfl⟩, by rw [List.getElem?_map, e2]; rfl⟩
  refine ⟨z, h1, h3, fun s => by rw [mem_reflexiveStates, edge_arrowsOf], ?_⟩
  intro s hs
  rw [mem_reflexiveStates, edge_arrowsOf]
  obtain ⟨co, sh, e⟩ := (h3 s).1 hs
  obtain ⟨row, e1, e2⟩ := rowsProg_some.1 e
  exact ⟨row, _, e1, List.mem_of_getElem? e2, rfl⟩

/-! ## Reports of spin-out -/

/-- The state stays in its instruction for the blank. -/
def StaysOnBlank (p : Prog) : Prop := ∃ s co sh, p (s, 0) = some (co, sh, s)

theorem quickBody_spnout {p : Prog} {cycle : Nat} {s s' : QState} {cs : Nat} {slot : Option Slot}
    (h : quickBody p cycle s = .stop .spnout s' cs slot) : StaysOnBlank p := by
  unfold quickBody at h
  simp only at h
  split at h
  · simp at h
  · next co sh ns e =>
    split at h
    · next hc =>
      simp only [Bool.and_eq_true, beq_iff_eq, Tape.atEdge] at hc
      obtain ⟨rfl, h0, -⟩ := hc
      rw [h0] at e
      exact ⟨_, _, _, e⟩
    · split at h
      · split at h
        · simp at h
        · split at h <;> simp at h
      · simp at h

theorem quickLoop_spnout {p : Prog} (fuel cycle : Nat) (s : QState)
    (h : (quickLoop p fuel cycle s).result = .spnout) : StaysOnBlank p := by
  induction fuel generalizing cycle s with
  | zero => simp [quickLoop, quickResult] at h
  | succ fuel ih =>
    rw [quickLoop] at h
    split at h
    · next r s' cs slot e =>
      simp only [quickResult] at h
      subst h
      exact quickBody_spnout e
    · exact ih _ _ h

theorem proverLoop_spnout {π : Type} {try_ : Rs.TryRule π} {p : Prog} (fuel cycle : Nat) (pr : π)
    (s : QState) (rulapp : Nat) (r : MachineResult)
    (hr : Rs.proverLoop try_ p fuel cycle pr s rulapp = .ok r) (h : r.result = .spnout) :
    StaysOnBlank p := by
  induction fuel generalizing cycle pr s rulapp with
  | zero =>
    simp only [Rs.proverLoop, Except.ok.injEq] at hr
    subst hr
    simp [Rs.proverResult, quickResult] at h
  | succ fuel ih =>
    have go : ∀ (pr' : π) (s' : QState), (match quickBody p cycle s' with
        | .stop r s'' cycles slot => (.ok (Rs.proverResult r s'' cycles rulapp slot) :
            Except Err MachineResult)
        | .next s'' => Rs.proverLoop try_ p fuel (cycle + 1) pr' s'' rulapp) = .ok r →
        StaysOnBlank p := by
      intro pr' s' hg
      split at hg
      · next e =>
        simp only [Except.ok.injEq] at hg
        subst hg
        simp only [Rs.proverResult, quickResult] at h
        subst h
        exact quickBody_spnout e
      · exact ih _ _ _ _ hg
    simp only [Rs.proverLoop] at hr
    split at hr
    · simp at hr
    · exact go _ _ hr
    · simp only [Except.ok.injEq] at hr
      subst hr
      simp [Rs.proverResult, quickResult] at h
    · simp only [Except.ok.injEq] at hr
      subst hr
      simp [Rs.proverResult, quickResult] at h
    · simp only [Except.ok.injEq] at hr
      subst hr
      simp [Rs.proverResult, quickResult] at h
    · split at hr
      · simp at hr
      · exact ih _ _ _ _ hr
      · exact go _ _ hr

theorem plainStep_spnout {π : Type} {p : Prog} {s : RState π}
    (h : plainStep p s = .error .spnout) : StaysOnBlank p := by
  unfold plainStep at h
  split at h
  · simp at h
  · next co sh ns e =>
    simp only at h
    split at h
    · next hc =>
      simp only [Bool.and_eq_true, beq_iff_eq, Tape.atEdge] at hc
      obtain ⟨rfl, h0, -⟩ := hc
      rw [h0] at e
      exact ⟨_, _, _, e⟩
    · simp at h

theorem runLoop_spnout {π : Type} {try_ : TryRule π} {p : Prog} (fuel cycle : Nat) (s : RState π)
    (h : (runLoop try_ p fuel cycle s).result = .spnout) : StaysOnBlank p := by
  induction fuel generalizing cycle s with
  | zero => simp [runLoop, RState.out] at h
  | succ fuel ih =>
    have go : ∀ (s : RState π), (match plainStep p s with
        | .error r => s.out cycle r
        | .ok s' =>
          let color := match p (s.state, s.tape.scan) with | some (c, _, _) => c | none => 0
          let (s', stop) := blankCheck color s'
          if stop then s'.out cycle .infrul else runLoop try_ p fuel (cycle + 1) s').result
            = .spnout → StaysOnBlank p := by
      intro s hg
      split at hg
      · next r e =>
        simp only [RState.out] at hg
        subst hg
        exact plainStep_spnout e
      · simp only at hg
        generalize (match p (s.state, s.tape.scan) with | some (c, _, _) => c | none => 0) = co
          at hg
        split at hg
        · simp [RState.out] at hg
        · exact ih _ _ hg
    simp only [runLoop] at h
    split at h
    · simp [RState.out] at h
    · simp [RState.out] at h
    · simp [RState.out] at h
    · exact go _ h
    · simp [RState.out] at h
    · exact go _ h
    · split at h
      · simp [RState.out] at h
      · simp [RState.out] at h
      · exact ih _ _ h
      · exact go _ h

/-- **C52, spin-out.**  A run of `run_quick_machine`, of `run_prover` or of `Machine.run` — with
whatever rule prover, right or wrong — reports a spin-out only for programs that
`is_zero_reflexive` and that are not `is_irreflexive`. -/
theorem C52_spinout (rows : List (List (Option Instr))) (hw : ∀ row ∈ rows, row ≠ [])
    (h : (∃ lim, (runQuick (rowsProg rows) lim).result = .spnout) ∨
      (∃ (π : Type) (try_ : Rs.TryRule π) (init : π) (lim : Nat) (r : MachineResult),
        Rs.runProverWith try_ init (rowsProg rows) lim = .ok r ∧ r.result = .spnout) ∨
      (∃ (π : Type) (try_ : TryRule π) (init : π) (lim : Nat),
        (runWith try_ init (rowsProg rows) lim).result = .spnout)) :
    (arrowsOf rows).isZeroReflexive = some true ∧ (arrowsOf rows).isIrreflexive = false := by
  have hst : StaysOnBlank (rowsProg rows) := by
    rcases h with ⟨lim, h⟩ | ⟨π, try_, init, lim, r, h1, h2⟩ | ⟨π, try_, init, lim, h⟩
    · exact quickLoop_spnout _ _ _ h
    · exact proverLoop_spnout _ _ _ _ _ _ h1 h2
    · exact runLoop_spnout _ _ _ h
  obtain ⟨s, hs⟩ := hst
  obtain ⟨z, h1, h2, -, h4⟩ := C52_states rows hw
  have hz := (h2 s).2 hs
  constructor
  · rw [Arrows.isZeroReflexive, h1, Option.map_some]
    cases z with
    | nil => simp at hz
    | cons => rfl
  · have := h4 s hz
    rw [Arrows.isIrreflexive]
    cases e : (arrowsOf rows).reflexiveStates with
    | nil => rw [e] at this; simp at this
    | cons => rfl

/-- **C52, `cant_spin_out`.**  For a program that is not `is_zero_reflexive`, `cant_spin_out` answers
at once, at any depth. -/
theorem C52_cant (rows : List (List (Option Instr))) (t : Table) (ht : t.Sorted)
    (htr : ∀ s, t.get? s = rowsProg rows s) (hz : (arrowsOf rows).isZeroReflexive = some false)
    (depth : Nat) : t.cantSpinOut depth = some 0 := by
  have hw : ∀ row ∈ rows, row ≠ [] := by
    intro row hrow e
    subst e
    have : ((arrowsOf rows).any fun row => row.isEmpty) = true := by
      rw [List.any_eq_true]
      exact ⟨[], List.mem_map.2 ⟨[], hrow, rfl⟩, rfl⟩
    simp [Arrows.isZeroReflexive, Arrows.zeroReflexiveStates, this] at hz
  obtain ⟨z, h1, h2, -, -⟩ := C52_states rows hw
  rw [Arrows.isZeroReflexive, h1, Option.map_some] at hz
  have hz0 : z = [] := by
    cases z with
    | nil => rfl
    | cons => simp at hz
  have : t.zeroReflexiveConfigs = [] := by
    rw [Table.zeroReflexiveConfigs, List.filterMap_eq_nil_iff]
    rintro ⟨⟨s, c⟩, co, sh, ns⟩ he
    rw [if_neg]
    rintro ⟨h3, h4⟩
    simp only at h3 h4
    subst h3 h4
    have := Table.get?_of_mem ht he
    rw [htr] at this
    have := (h2 ns).2 ⟨co, sh, this⟩
    rw [hz0] at this
    simp at this
  rw [Table.cantSpinOut, this]
  rfl

/-! ## Steps and cycles -/

theorem Rs.step_one (t : Tape) (shift : Bool) (c : Color) : (Rs.step t shift c false).2 = 1 := by
  have : ∀ span scan, (Rs.pull span scan false).2.1 = 1 := by
    intro span scan
    unfold Rs.pull
    cases span with
    | nil => rfl
    | cons b rest => simp only [Bool.false_and, Bool.false_eq_true, if_false]; split <;> rfl
  cases shift <;> simp [Rs.step, this]

theorem Py.step_one (t : Tape) (shift : Bool) (c : Color) : (Py.step t shift c false).2 = 1 := by
  have : ∀ pull push scan, (Py.stepSpans pull push scan c false).2.2.2 = 1 := by
    intro pull push scan
    unfold Py.stepSpans
    cases pull with
    | nil => rfl
    | cons b rest => simp
  cases shift <;> simp [Py.step, this]

/-- No instruction stays in its state. -/
def Moves (p : Prog) : Prop := ∀ s c i, p (s, c) = some i → i.2.2 ≠ s

theorem quickBody_moves {p : Prog} (hp : Moves p) {cycle : Nat} {s : QState}
    (hs : s.steps = cycle) :
    (∀ s', quickBody p cycle s = .next s' → s'.steps = cycle + 1) ∧
    (∀ r s' cs slot, quickBody p cycle s = .stop r s' cs slot → r = .undfnd → s'.steps = cs) := by
  unfold quickBody
  simp only
  cases e : p (s.state, s.tape.scan) with
  | none =>
    simp only [QOut.stop.injEq, reduceCtorEq, false_implies, implies_true, true_and]
    rintro r s' cs slot ⟨-, rfl, rfl, -⟩ -
    exact hs
  | some i =>
    obtain ⟨co, sh, ns⟩ := i
    have hne : (s.state == ns) = false := by
      have := hp _ _ _ e
      simpa using fun h => this h.symm
    simp only [hne, Bool.false_and, Bool.false_eq_true, if_false]
    have h1 := Rs.step_one s.tape sh co
    generalize hst : Rs.step s.tape sh co false = st at h1
    obtain ⟨tape, n⟩ := st
    simp only at h1
    subst h1
    simp only
    split
    · split
      · constructor
        · intro s' h; simp at h
        · rintro r s' cs slot h rfl; simp at h
      · split
        · constructor
          · intro s' h; simp at h
          · rintro r s' cs slot h rfl; simp at h
        · constructor
          · intro s' h
            simp only [QOut.next.injEq] at h
            subst h
            simp [hs]
          · rintro r s' cs slot h rfl; simp at h
    · constructor
      · intro s' h
        simp only [QOut.next.injEq] at h
        subst h
        simp [hs]
      · rintro r s' cs slot h rfl; simp at h

theorem quickLoop_moves {p : Prog} (hp : Moves p) (fuel cycle : Nat) (s : QState)
    (hs : s.steps = cycle) :
    ((quickLoop p fuel cycle s).result = .undfnd →
      (quickLoop p fuel cycle s).steps = (quickLoop p fuel cycle s).cycles) ∧
    ((quickLoop p fuel cycle s).result = .xlimit →
      (quickLoop p fuel cycle s).steps = cycle + fuel) := by
  induction fuel generalizing cycle s with
  | zero => simp [quickLoop, quickResult, hs]
  | succ fuel ih =>
    have hb := quickBody_moves hp hs
    rw [quickLoop]
    cases e : quickBody p cycle s with
    | stop r s' cs slot =>
      simp only [quickResult]
      refine ⟨fun h => hb.2 _ _ _ _ e h, ?_⟩
      rintro rfl
      exfalso
      unfold quickBody at e
      simp only at e
      split at e
      · simp at e
      · split at e
        · simp at e
        · split at e
          · split at e
            · simp at e
            · split at e <;> simp at e
          · simp at e
    | next s' =>
      obtain ⟨h1, h2⟩ := ih (cycle + 1) s' (hb.1 _ e)
      exact ⟨h1, fun h => by rw [h2 h]; omega⟩

theorem runLoop_moves {π : Type} {try_ : TryRule π} {p : Prog} (hp : Moves p) (fuel cycle : Nat)
    (s : RState π) (hs : s.step = -1 ∨ s.step = cycle) (slot : Slot)
    (h : (runLoop try_ p fuel cycle s).result = .undfnd slot) :
    (runLoop try_ p fuel cycle s).steps = -1 ∨
      (runLoop try_ p fuel cycle s).steps = (runLoop try_ p fuel cycle s).cycles := by
  induction fuel generalizing cycle s with
  | zero => simp [runLoop, RState.out] at h
  | succ fuel ih =>
    have go : ∀ (s : RState π), (s.step = -1 ∨ s.step = cycle) → ∀ r, r = (match plainStep p s with
        | .error r => s.out cycle r
        | .ok s' =>
          let color := match p (s.state, s.tape.scan) with | some (c, _, _) => c | none => 0
          let (s', stop) := blankCheck color s'
          if stop then s'.out cycle .infrul else runLoop try_ p fuel (cycle + 1) s') →
        r.result = .undfnd slot → r.steps = -1 ∨ r.steps = r.cycles := by
      intro s hs r hr hu
      subst hr
      have hplain : ∀ s', plainStep p s = .ok s' → s'.step = -1 ∨ s'.step = cycle + 1 := by
        intro s' e
        unfold plainStep at e
        cases ep : p (s.state, s.tape.scan) with
        | none => rw [ep] at e; simp at e
        | some i =>
          obtain ⟨co, sh, ns⟩ := i
          have hne : (s.state == ns) = false := by
            have := hp _ _ _ ep
            simpa using fun h => this h.symm
          rw [ep] at e
          simp only [hne, Bool.false_and, Bool.false_eq_true, if_false, Except.ok.injEq] at e
          have h1 := Py.step_one s.tape sh co
          subst e
          simp only [h1, bne_iff_ne, ne_eq, ite_not]
          split
          · left; assumption
          · right
            rcases hs with hs | hs
            · contradiction
            · rw [hs]; rfl
      cases e : plainStep p s with
      | error r' =>
        rw [e] at hu
        exact hs
      | ok s' =>
        rw [e] at hu
        simp only at hu ⊢
        have hbc : ∀ co, (blankCheck co s').1.step = s'.step := by
          intro co
          unfold blankCheck
          split
          · split <;> rfl
          · rfl
        generalize (match p (s.state, s.tape.scan) with | some (c, _, _) => c | none => 0) = co
          at hu ⊢
        specialize hbc co
        generalize blankCheck co s' = bc at hu hbc ⊢
        split at hu
        · simp [RState.out] at hu
        · next hst =>
          rw [if_neg hst]
          refine ih _ _ ?_ hu
          rw [hbc]
          exact_mod_cast hplain s' e
    simp only [runLoop] at h ⊢
    generalize try_ s.prover cycle s.state s.tape = tr at h ⊢
    obtain ⟨pr, tried⟩ := tr
    simp only at h ⊢
    split at h
    · simp [RState.out] at h
    · simp [RState.out] at h
    · simp [RState.out] at h
    · exact go { s with prover := pr } hs _ rfl h
    · simp [RState.out] at h
    · exact go { s with prover := pr } hs _ rfl h
    · split at h
      · simp [RState.out] at h
      · simp [RState.out] at h
      · exact ih _ _ (.inl rfl) h
      · next tape _ => exact go { s with prover := pr, tape := tape } hs _ rfl h

/-- **C52, steps.**  If the program `is_irreflexive`, a cycle is a step: runs that end at an undefined
slot report as many steps as cycles (`Machine.run`: if it applied no rule, -1 otherwise), and a
quick run to its limit makes that many steps. -/
theorem C52_steps (rows : List (List (Option Instr)))
    (hi : (arrowsOf rows).isIrreflexive = true) (lim : Nat) :
    ((runQuick (rowsProg rows) lim).result = .undfnd →
      (runQuick (rowsProg rows) lim).steps = (runQuick (rowsProg rows) lim).cycles) ∧
    ((runQuick (rowsProg rows) lim).result = .xlimit →
      (runQuick (rowsProg rows) lim).steps = lim) ∧
    (∀ (π : Type) (try_ : TryRule π) (init : π) (slot : Slot),
      (runWith try_ init (rowsProg rows) lim).result = .undfnd slot →
      (runWith try_ init (rowsProg rows) lim).steps = -1 ∨
        (runWith try_ init (rowsProg rows) lim).steps
          = (runWith try_ init (rowsProg rows) lim).cycles) := by
  have hm : Moves (rowsProg rows) := by
    rintro s c i h rfl
    obtain ⟨row, e1, e2⟩ := rowsProg_some.1 h
    have : i.2.2 ∈ (arrowsOf rows).reflexiveStates := by
      rw [mem_reflexiveStates, edge_arrowsOf]
      exact ⟨row, i, e1, List.mem_of_getElem? e2, rfl⟩
    simp only [Arrows.isIrreflexive, List.isEmpty_iff] at hi
    rw [hi] at this
    simp at this
  have h1 := quickLoop_moves hm lim 0 ⟨Tape.init, [], 0, 0⟩ rfl
  refine ⟨h1.1, fun h => (h1.2 h).trans (Nat.zero_add lim), ?_⟩
  intro π try_ init slot h
  exact runLoop_moves hm lim 0 _ (.inr rfl) slot h

/-! ## Dispersed programs do not halt -/

/-- **C52, halting.**  A program with `exits_dispersed` has no empty slot; if it prints only colours
of its table it never halts. -/
theorem C52_dispersed (rows : List (List (Option Instr))) (C : Nat) (h : Grid rows C) (hC : 1 ≤ C)
    (hp : ∀ row ∈ rows, ∀ i, some i ∈ row → i.1 < C)
    (hd : (arrowsOf rows).exitsDispersed = true) :
    (∀ row ∈ rows, none ∉ row) ∧ NeverHalts (rowsProg rows) initCfg := by
  have hhead : ((arrowsOf rows).headD []).length = C := by
    obtain ⟨row, rest, e⟩ := List.exists_cons_of_ne_nil h.nonempty
    have := h.width row (by rw [e]; exact List.mem_cons_self ..)
    rw [e]
    simp [arrowsOf, this]
  have hnone : ∀ row ∈ rows, none ∉ row := by
    intro row hrow hn
    simp only [Arrows.exitsDispersed, List.all_eq_true, beq_iff_eq, hhead] at hd
    have hc := hd _ (List.mem_map.2 ⟨row, hrow, rfl⟩)
    have h1 : (targets (row.map fun i => i.map fun j => j.2.2)).card
        ≤ (row.filterMap fun i => i.map fun j => j.2.2).length := by
      refine (List.toFinset_card_le _).trans (le_of_eq ?_)
      rw [List.filterMap_map]
      rfl
    have h2 : (row.filterMap fun i => i.map fun j => j.2.2).length < row.length := by
      clear hc h1 hrow
      induction row with
      | nil => simp at hn
      | cons a row ih =>
        have hle := List.length_filterMap_le (fun i : Option Instr => i.map fun j => j.2.2) row
        cases a with
        | none => simpa using Nat.lt_succ_of_le hle
        | some i =>
          have := ih (by simpa using hn)
          simpa using this
    rw [h.width row hrow] at h2
    rw [hc] at h1
    omega
  refine ⟨hnone, ?_⟩
  have hslot : ∀ s c, s < rows.length → c < C → ∃ i, rowsProg rows (s, c) = some i ∧
      i.1 < C ∧ i.2.2 < rows.length := by
    intro s c hs hc
    have hrow : rows[s] ∈ rows := List.getElem_mem hs
    have hc' : c < rows[s].length := by rw [h.width _ hrow]; exact hc
    cases e : rows[s][c] with
    | none => exact absurd (by rw [← e]; exact List.getElem_mem hc') (hnone _ hrow)
    | some i =>
      have hi : some i ∈ rows[s] := by rw [← e]; exact List.getElem_mem hc'
      refine ⟨i, rowsProg_some.2 ⟨rows[s], List.getElem?_eq_getElem hs, ?_⟩, hp _ hrow i hi,
        h.inside s _ ⟨rows[s], i, List.getElem?_eq_getElem hs, hi, rfl⟩⟩
      rw [List.getElem?_eq_getElem hc', e]
  have hrun : ∀ n c, c.state < rows.length → (∀ x, c.tape x < C) →
      (runFor (rowsProg rows) n c).isSome := by
    intro n
    induction n with
    | zero => intro c _ _; rfl
    | succ n ih =>
      intro c hs hc
      obtain ⟨i, h1, h2, h3⟩ := hslot c.state (c.tape c.pos) hs (hc _)
      have : step (rowsProg rows) c = some (c.exec i) := by
        rw [step]
        show Option.map _ (rowsProg rows (c.state, c.tape c.pos)) = _
        rw [h1]
        rfl
      rw [runFor, this, Option.bind_some]
      refine ih _ h3 ?_
      intro x
      simp only [Cfg.exec]
      split
      · exact h2
      · exact hc x
  intro n
  refine hrun n _ ?_ fun _ => hC
  exact List.length_pos_of_ne_nil h.nonempty

/-- Concrete cases: a spin-out and its graph; an irreflexive program whose run ends; a dispersed
program. -/
theorem C52_cases :
    (runQuick (rowsProg [[some (1, true, 1), some (1, true, 1)],
      [some (1, false, 0), some (0, true, 2)], [some (0, true, 2), none]]) 200).result = .spnout ∧
    (arrowsOf [[some (1, true, 1), some (1, true, 1)],
      [some (1, false, 0), some (0, true, 2)], [some (0, true, 2), none]]).zeroReflexiveStates
        = some [2] ∧
    (arrowsOf [[some (1, true, 1), some (1, false, 1)],
      [some (1, false, 0), some (1, false, 2)], [none, some (1, true, 0)]]).isIrreflexive = true ∧
    (arrowsOf (toRows [[1, 2], [2, 0], [0, 1]])).exitsDispersed = true := by
  decide +kernel

end BB
