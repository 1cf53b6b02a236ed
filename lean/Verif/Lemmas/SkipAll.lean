import Mathlib.Logic.Relation
import Mathlib.Data.Fintype.EquivFin
import Mathlib.Data.Fintype.Pigeonhole
import Mathlib.Data.List.ProdSigma
import Mathlib.Data.List.Nodup
import Verif.Model.SkipAll
import Verif.Lemmas.Sweeps
import Verif.Lemmas.Table
import Verif.Lemmas.RsProver

/-! # The filter of the tree search -/

namespace BB

/-! ## The prover without caches -/

namespace Rs

/-- A result beside nothing. -/
def bare {α : Type} : Except Err α → Except Err (α × Unit)
  | .error e => .error e
  | .ok a => .ok (a, ())

theorem runSimulatorM_table {τ : Type} (T : SimTape τ) (comp : Prog) (pr : Prover) (n : Nat) (q : State)
    (t : τ) : runSimulatorM T (fetchTable comp) pr n () q t = bare (runSimulator T comp pr n q t) := by
  induction n generalizing q t with
  | zero => rfl
  | succ n ih =>
    rw [runSimulatorM, runSimulator]
    cases pr.getRule q (T.signature t) with
    | none =>
      simp only [fetchTable]
      cases comp (q, T.scan t) with
      | none => rfl
      | some i => exact ih _ _
    | some rule =>
      simp only
      cases applyRuleOn T.toIndexTape rule t with
      | error e => rfl
      | ok r =>
        obtain ⟨r, t'⟩ := r
        cases r with
        | none =>
          simp only [fetchTable]
          cases comp (q, T.scan t') with
          | none => rfl
          | some i => exact ih _ _
        | some k => exact ih _ _

theorem getMinSigM_table (comp : Prog) (pr : Prover) (n : Nat) (q : State) (t : EnumTape) (sig : Sig) :
    getMinSigM (fetchTable comp) pr n () q t sig = bare (getMinSig comp pr n q t sig) := by
  rw [getMinSigM, getMinSig, runSimulatorM_table]
  cases runSimulator simEnum comp pr n q t with
  | error e => rfl
  | ok r =>
    cases r with
    | none => rfl
    | some r =>
      simp only [bare]
      split <;> rfl

theorem roundM_table (comp : Prog) (pr : Prover) (q : State) (sig : Sig) (delta : Int) (t : Tape) :
    roundM (fetchTable comp) pr () q sig delta t = bare (round comp pr q sig delta t) := by
  rw [roundM, round, runSimulatorM_table]
  cases runSimulator simBasic comp pr delta.toNat q t with
  | error e => rfl
  | ok r =>
    cases r with
    | none => rfl
    | some r =>
      simp only [bare]
      split <;> rfl

theorem inferRuleM_table (comp : Prog) (pr : Prover) (q : State) (t : Tape) (sig : Sig) (d : Deltas) :
    inferRuleM (fetchTable comp) pr () q t sig d = bare (inferRule comp pr q t sig d) := by
  rw [inferRuleM, inferRule, roundM_table]
  rcases round comp pr q sig d.1 t with e | _ | t1
  · rfl
  · rfl
  · simp only [bare, roundM_table]
    rcases round comp pr q sig d.2.1 t1 with e | _ | t2
    · rfl
    · rfl
    · simp only [bare, roundM_table]
      rcases round comp pr q sig d.2.2 t2 with e | _ | t3 <;> rfl

/-- Without caches the prover is the one of `run_prover`. -/
theorem tryRuleM_table (comp : Prog) (pr : Prover) (cycle : Nat) (q : State) (t : Tape) :
    tryRuleM (fetchTable comp) (pr, ()) cycle q t
      = (((tryRule comp pr cycle q t).1, ()), (tryRule comp pr cycle q t).2) := by
  unfold tryRuleM tryRule
  simp only
  cases pr.getRule q t.signature with
  | some r => rfl
  | none =>
    simp only
    cases pr.configs.lookup t.signature with
    | none =>
      simp only
      split <;> rfl
    | some past =>
      simp only
      cases past.nextDeltas q cycle with
      | error e => rfl
      | ok r =>
        obtain ⟨d, past⟩ := r
        cases d with
        | none => rfl
        | some d =>
          simp only [inferRuleM_table]
          split
          · rfl
          · rcases inferRule comp _ q t t.signature d with e | _ | rule
            · rfl
            · rfl
            · simp only [bare, getMinSigM_table]
              split
              · rfl
              · split
                · rfl
                · split
                  · rfl
                  · rcases getMinSig comp _ d.1.toNat q t.toEnum t.signature with e | sig <;> rfl

/-- A program without caches beside any prover. -/
def fetchBeside {π : Type} (comp : Prog) : Fetch π := fun pr slot => .ok (comp slot, pr)

/-- One move of `run_for_infrul`, with what is done afterwards. -/
def infrulMove {π : Type} (get : Fetch π) (next : π → State → Tape → Except Err Bool) (pr : π)
    (q : State) (t : Tape) : Except Err Bool :=
  match get pr (q, t.scan) with
  | .error e => .error e
  | .ok (none, _) => .ok false
  | .ok (some (color, shift, q'), pr) =>
    if (q == q') && t.atEdge shift then .ok false
    else next pr q' (Rs.step t shift color (q == q')).1

theorem infrulLoop_succ {π : Type} (try_ : TryRule π) (get : Fetch π) (fuel cycle : Nat) (pr : π)
    (q : State) (t : Tape) : infrulLoop try_ get (fuel + 1) cycle pr q t =
      match (try_ pr cycle q t).2 with
      | .error e => .error e
      | .ok .none => infrulMove get (infrulLoop try_ get fuel (cycle + 1)) (try_ pr cycle q t).1 q t
      | .ok .configLimit => .ok false
      | .ok .multRule => .ok false
      | .ok .infiniteRule => .ok true
      | .ok (.got rule) =>
        match applyRuleOn basicTape rule t with
        | .error e => .error e
        | .ok (some _, t') => infrulLoop try_ get fuel (cycle + 1) (try_ pr cycle q t).1 q t'
        | .ok (none, t') =>
          infrulMove get (infrulLoop try_ get fuel (cycle + 1)) (try_ pr cycle q t).1 q t' := by
  rw [infrulLoop]
  rfl

/-- One move of `run_prover`, with what is done afterwards. -/
def proverMove (comp : Prog) (cycle rulapp : Nat) (next : QState → Except Err MachineResult)
    (s : QState) : Except Err MachineResult :=
  match quickBody comp cycle s with
  | .stop r s' cycles slot => .ok (proverResult r s' cycles rulapp slot)
  | .next s' => next s'

theorem proverLoop_succ {π : Type} (try_ : TryRule π) (comp : Prog) (fuel cycle : Nat) (pr : π)
    (s : QState) (rulapp : Nat) : proverLoop try_ comp (fuel + 1) cycle pr s rulapp =
      match (try_ pr cycle s.state s.tape).2 with
      | .error e => .error e
      | .ok .none => proverMove comp cycle rulapp
          (fun s' => proverLoop try_ comp fuel (cycle + 1) (try_ pr cycle s.state s.tape).1 s' rulapp) s
      | .ok .configLimit => .ok (proverResult .cfglim s cycle rulapp none)
      | .ok .infiniteRule => .ok (proverResult .infrul s cycle rulapp none)
      | .ok .multRule => .ok (proverResult .mulrul s cycle rulapp none)
      | .ok (.got rule) =>
        match applyRuleOn basicTape rule s.tape with
        | .error e => .error e
        | .ok (some times, tape) =>
          proverLoop try_ comp fuel (cycle + 1) (try_ pr cycle s.state s.tape).1 { s with tape := tape }
            (rulapp + times)
        | .ok (none, tape) => proverMove comp cycle rulapp
            (fun s' => proverLoop try_ comp fuel (cycle + 1) (try_ pr cycle s.state s.tape).1 s' rulapp)
            { s with tape := tape } := by
  rw [proverLoop]
  rfl

theorem infrulMove_prover {π : Type} {comp : Prog} {next : π → State → Tape → Except Err Bool}
    {next' : QState → Except Err MachineResult} (cycle rulapp : Nat) (pr : π) (s : QState)
    (hn : ∀ s' : QState, next pr s'.state s'.tape = .ok true → ∃ r, next' s' = .ok r ∧ r.result = .infrul)
    (h : infrulMove (fetchBeside comp) next pr s.state s.tape = .ok true) :
    ∃ r, proverMove comp cycle rulapp next' s = .ok r ∧ r.result = .infrul := by
  simp only [infrulMove, fetchBeside] at h
  simp only [proverMove, quickBody]
  cases hp : comp (s.state, s.tape.scan) with
  | none => simp [hp] at h
  | some i =>
    obtain ⟨color, shift, q'⟩ := i
    simp only [hp] at h ⊢
    by_cases he : ((s.state == q') && s.tape.atEdge shift) = true
    · simp [he] at h
    · rw [if_neg he] at h
      simp only [he, Bool.false_eq_true, if_false]
      by_cases hb : (color == 0 && (Rs.step s.tape shift color (s.state == q')).1.blank) = true
      · simp only [hb, if_true]
        by_cases hl : (s.blanks.lookup q').isSome = true
        · simp only [hl, if_true]
          exact ⟨_, rfl, rfl⟩
        · simp only [hl, Bool.false_eq_true, if_false]
          by_cases h0 : (q' == 0) = true
          · simp only [h0, if_true]
            exact ⟨_, rfl, rfl⟩
          · simp only [h0, Bool.false_eq_true, if_false]
            exact hn _ h
      · simp only [hb, Bool.false_eq_true, if_false]
        exact hn _ h

/-- `run_for_infrul` says yes only where `run_prover` reports `infrul`. -/
theorem infrulLoop_prover {π : Type} {try_ : TryRule π} {comp : Prog} (fuel cycle : Nat) (pr : π)
    (s : QState) (rulapp : Nat)
    (h : infrulLoop try_ (fetchBeside comp) fuel cycle pr s.state s.tape = .ok true) :
    ∃ r, proverLoop try_ comp fuel cycle pr s rulapp = .ok r ∧ r.result = .infrul := by
  induction fuel generalizing cycle pr s rulapp with
  | zero => simp [infrulLoop] at h
  | succ fuel ih =>
    rw [infrulLoop_succ] at h
    rw [proverLoop_succ]
    rcases hr : (try_ pr cycle s.state s.tape).2 with e | o
    · simp [hr] at h
    · cases o with
      | none =>
        rw [hr] at h
        exact infrulMove_prover _ _ _ s (fun s' hs' => ih _ _ s' _ hs') h
      | configLimit => simp [hr] at h
      | multRule => simp [hr] at h
      | infiniteRule => exact ⟨_, rfl, rfl⟩
      | got rule =>
        rw [hr] at h
        simp only at h ⊢
        rcases ha : applyRuleOn basicTape rule s.tape with e | ⟨_ | k, t'⟩
        · simp [ha] at h
        · rw [ha] at h
          exact infrulMove_prover _ _ _ { s with tape := t' } (fun s' hs' => ih _ _ s' _ hs') h
        · rw [ha] at h
          exact ih _ _ { s with tape := t' } _ h

theorem infrulMove_table {comp : Prog} {next : Prover × Unit → State → Tape → Except Err Bool}
    {next' : Prover → State → Tape → Except Err Bool} (pr : Prover) (q : State) (t : Tape)
    (hn : ∀ q t, next (pr, ()) q t = next' pr q t) :
    infrulMove (fetchTable comp).beside next (pr, ()) q t = infrulMove (fetchBeside comp) next' pr q t := by
  simp only [infrulMove, Fetch.beside, fetchTable, fetchBeside]
  cases comp (q, t.scan) with
  | none => rfl
  | some i =>
    simp only
    split
    · rfl
    · exact hn _ _

theorem infrulLoop_table (comp : Prog) (fuel cycle : Nat) (pr : Prover) (q : State) (t : Tape) :
    infrulLoop (tryRuleM (fetchTable comp)) (fetchTable comp).beside fuel cycle (pr, ()) q t
      = infrulLoop (tryRule comp) (fetchBeside comp) fuel cycle pr q t := by
  induction fuel generalizing cycle pr q t with
  | zero => rfl
  | succ fuel ih =>
    rw [infrulLoop_succ, infrulLoop_succ, tryRuleM_table]
    generalize tryRule comp pr cycle q t = tr
    obtain ⟨pr', tried⟩ := tr
    simp only
    rcases tried with e | o
    · rfl
    · cases o with
      | none => exact infrulMove_table _ _ _ fun q t => ih _ _ q t
      | configLimit => rfl
      | multRule => rfl
      | infiniteRule => rfl
      | got rule =>
        simp only
        rcases applyRuleOn basicTape rule t with e | ⟨_ | k, t'⟩
        · rfl
        · exact infrulMove_table _ _ _ fun q t => ih _ _ q t
        · exact ih _ _ _ _

theorem runForInfrul_table {comp : Prog} {lim : Nat}
    (h : runForInfrul (fetchTable comp) () lim = .ok true) :
    ∃ r, runProver comp lim = .ok r ∧ r.result = .infrul := by
  rw [runForInfrul, infrulLoop_table] at h
  exact infrulLoop_prover (π := Prover) lim 0 Prover.init ⟨Tape.init, [], 0, 0⟩ 0 h

end Rs

/-! ## Complete programs -/

theorem Table.Sorted.nodup_keys {t : Table} (h : t.Sorted) : (t.map (·.1)).Nodup := by
  rw [List.Nodup, List.pairwise_map]
  refine h.imp fun {a b} hab hc => ?_
  rw [hc] at hab
  simp [Slot.lt] at hab

/-- A list of different slots in range, all missing from the table, makes it short. -/
theorem Table.length_add_missing {t : Table} {S C : Nat} (hs : t.Sorted)
    (hr : ∀ s i, t.get? s = some i → s.1 < S ∧ s.2 < C) (l : List Slot) (hl : l.Nodup)
    (hin : ∀ s ∈ l, (s.1 < S ∧ s.2 < C) ∧ t.get? s = none) : t.length + l.length ≤ S * C := by
  have hnd : (t.map (·.1) ++ l).Nodup := by
    refine List.nodup_append.2 ⟨hs.nodup_keys, hl, ?_⟩
    rintro a ha b hb rfl
    obtain ⟨e, he, rfl⟩ := List.mem_map.1 ha
    have := (hin _ hb).2
    rw [Table.get?_of_mem hs (i := e.2) he] at this
    cases this
  have hsub : (t.map (·.1) ++ l) ⊆ (List.range S ×ˢ List.range C) := by
    intro a ha
    have : a.1 < S ∧ a.2 < C := by
      rcases List.mem_append.1 ha with ha | ha
      · obtain ⟨e, he, rfl⟩ := List.mem_map.1 ha
        exact hr _ e.2 (Table.get?_of_mem hs he)
      · exact (hin _ ha).1
    exact List.mem_product.2 ⟨List.mem_range.2 this.1, List.mem_range.2 this.2⟩
  have := (hnd.subperm hsub).length_le
  rw [List.length_product, List.length_range, List.length_range] at this
  simpa using this

/-- If few slots are defined, different ones are missing. -/
theorem Table.missing_of_length (t : Table) (S C : Nat) :
    ∃ l : List Slot, l.Nodup ∧ (∀ s ∈ l, (s.1 < S ∧ s.2 < C) ∧ t.get? s = none) ∧
      S * C ≤ t.length + l.length := by
  refine ⟨(List.range S ×ˢ List.range C).filter fun s => (t.get? s).isNone,
    (List.Nodup.product List.nodup_range List.nodup_range).filter _, ?_, ?_⟩
  · intro s h
    obtain ⟨h1, h2⟩ := List.mem_filter.1 h
    have := List.mem_product.1 h1
    exact ⟨⟨List.mem_range.1 this.1, List.mem_range.1 this.2⟩, by simpa using h2⟩
  · have h1 : (List.range S ×ˢ List.range C).length = S * C := by
      rw [List.length_product, List.length_range, List.length_range]
    have h2 := List.length_eq_length_filter_add
      (l := (List.range S ×ˢ List.range C)) fun s => (t.get? s).isNone
    have h3 : ((List.range S ×ˢ List.range C).filter fun s => !(t.get? s).isNone).length
        ≤ (t.map (·.1)).length := by
      refine List.Subperm.length_le (List.Nodup.subperm
        ((List.Nodup.product List.nodup_range List.nodup_range).filter _) ?_)
      intro s h
      obtain ⟨-, h4⟩ := List.mem_filter.1 h
      simp only [Bool.not_eq_true', Option.isNone_eq_false_iff, Option.isSome_iff_exists] at h4
      obtain ⟨i, hi⟩ := h4
      exact List.mem_map.2 ⟨_, Table.get?_mem hi, rfl⟩
    rw [List.length_map] at h3
    rw [h1] at h2
    rw [h2, Nat.add_comm]
    exact Nat.add_le_add_right h3 _

/-- Walking back along entries one comes round. -/
theorem cycle_of_entered {r : Nat → Nat → Prop} {S : Nat} (hS : 0 < S)
    (h : ∀ s < S, ∃ a < S, r a s) :
    ∃ q, Relation.TransGen r q q ∧ Relation.ReflTransGen r q 0 := by
  choose! f hf1 hf2 using h
  have hb : ∀ n, f^[n] 0 < S := by
    intro n
    induction n with
    | zero => exact hS
    | succ n ih =>
      rw [Function.iterate_succ_apply']
      exact hf1 _ ih
  have hstep : ∀ i k, Relation.ReflTransGen r (f^[i + k] 0) (f^[i] 0) := by
    intro i k
    induction k with
    | zero => exact .refl
    | succ k ih =>
      rw [← Nat.add_assoc, Function.iterate_succ_apply']
      exact .head (hf2 _ (hb _)) ih
  obtain ⟨i, j, hij, he⟩ := Finite.exists_ne_map_eq_of_infinite
    fun n => (⟨f^[n] 0, hb n⟩ : Fin S)
  have he : f^[i] 0 = f^[j] 0 := by simpa using he
  have key : ∀ i j, i < j → f^[i] 0 = f^[j] 0 →
      ∃ q, Relation.TransGen r q q ∧ Relation.ReflTransGen r q 0 := by
    intro i j hij he
    refine ⟨f^[i] 0, ?_, by simpa using hstep 0 i⟩
    have h1 : Relation.TransGen r (f^[i + 1 + (j - (i + 1))] 0) (f^[i] 0) :=
      .tail' (hstep (i + 1) _) (by
        rw [Function.iterate_succ_apply']
        exact hf2 _ (hb _))
    rw [show i + 1 + (j - (i + 1)) = j by omega, ← he] at h1
    exact h1
  rcases Nat.lt_or_gt_of_ne hij with h | h
  · exact key i j h he
  · exact key j i h he.symm

end BB
