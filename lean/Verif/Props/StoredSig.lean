import Verif.Props.SeenRs

/-!
# C37: the signature stored with a new rule

A rule is kept together with a minimal signature, and used on every tape the signature matches.
`C37_min_sig` says what a signature computed from `n` steps covers; here: the signature that
`try_rule` stores is computed from the very steps whose effect the rule describes.
-/

namespace BB

/-- What the signature `m` promises about the stretch of `n` steps from `t` to `t'` in state `q`:
any other tape it matches, with the same counts where it looks, goes through the same `n` steps. -/
def Covers (p : Prog) (pr : Prover) (m : MinSig) (n : Nat) (q : State) (t t' : Tape) : Prop :=
  ∀ u : Tape, u.Canonical → Prover.sigMatches m u.signature = true →
    (∀ s i, i < (m.1.span s).length →
      ((u.span s)[i]?).map Block.count = ((t.span s)[i]?).map Block.count) →
    ∃ u', pr.runSimulator Tape.simTape p n q u = .ok (some q, u') ∧ u'.scan = t'.scan ∧
      ∀ s, ∃ front : List Color,
        half (t'.span s) = prepend front (half ((t.span s).drop (m.1.span s).length)) ∧
        half (u'.span s) = prepend front (half ((u.span s).drop (m.1.span s).length))

theorem runSimulator_rules {p : Prog} {pr pr' : Prover} (h : pr.rules = []) (h' : pr'.rules = [])
    {n : Nat} {q q' : State} {t t' : Tape} (ht : t.Canonical)
    (hr : pr.runSimulator Tape.simTape p n q t = .ok (some q', t')) :
    pr'.runSimulator Tape.simTape p n q t = .ok (some q', t') :=
  (runSimulator_tape h' n q t ht q' t').mpr ((runSimulator_tape h n q t ht q' t').mp hr)

theorem round_some {p : Prog} {pr : Prover} {q : State} {sig : Sig} {d : Int} {t t' : Tape}
    (h : pr.round p q sig d t = .ok (some t')) :
    pr.runSimulator Tape.simTape p d.toNat q t = .ok (some q, t') := by
  unfold Prover.round at h
  split at h
  · simp at h
  · rename_i q' u hu
    split at h
    · simp at h
    · rename_i hc
      simp only [Except.ok.injEq, Option.some.injEq] at h
      subst h
      rw [hu]
      simp only [Bool.or_eq_true, bne_iff_ne, ne_eq, not_or, not_not] at hc
      rw [hc.1]

/-- **C37 (the stored signature).**  When a prover that knows no rules proposes one, it stores it
under the state and scanned colour of the tape, with a signature that covers the stretch of steps
whose effect is the first of the three the rule was made from. -/
theorem C37_stored (p : Prog) (pr : Prover) (hp : pr.rules = []) (cycle : Nat) (q : State)
    (t : Tape) (ht : t.Canonical) (rule : Rule)
    (h : (pr.tryRule p cycle q t).2 = .ok (some rule)) :
    ∃ (m : MinSig) (n : Nat) (t1 t2 t3 : Tape), (pr.tryRule p cycle q t).1.rules = [((q, t.scan), [(m, rule)])] ∧
      pr.runSimulator Tape.simTape p n q t = .ok (some q, t1) ∧
      makeRule t.counts t1.counts t2.counts t3.counts = .ok (some rule) ∧
      Covers p pr m n q t t1 := by
  have hg : pr.getRule q t.signature = none := by simp [Prover.getRule, hp]
  unfold Prover.tryRule at h ⊢
  simp only [hg] at h ⊢
  cases hl : pr.configs.lookup t.signature with
  | none =>
    rw [hl] at h
    simp only at h
    split at h <;> simp at h
  | some past =>
    rw [hl] at h
    simp only at h ⊢
    cases hd : past.nextDeltas q cycle with
    | error e => rw [hd] at h; simp at h
    | ok x =>
      obtain ⟨deltas, past'⟩ := x
      rw [hd] at h
      cases deltas with
      | none => simp at h
      | some ds =>
        simp only at h ⊢
        have hp' : ({ pr with configs := assocInsert pr.configs t.signature past' } : Prover).rules
          = [] := hp
        cases hpr : Prover.proveRule p
            { pr with configs := assocInsert pr.configs t.signature past' } q t t.signature ds with
        | error e => rw [hpr] at h; simp at h
        | ok o =>
          rw [hpr] at h
          cases o with
          | none => simp at h
          | some x =>
            obtain ⟨rule', m⟩ := x
            simp only [Except.ok.injEq, Option.some.injEq] at h
            subst h
            simp only
            generalize ({ pr with configs := assocInsert pr.configs t.signature past' } : Prover)
              = pr' at hpr hp'
            obtain ⟨d1, d2, d3⟩ := ds
            unfold Prover.proveRule at hpr
            simp only at hpr
            cases r1 : pr'.round p q t.signature d1 t with
            | error e => rw [r1, bind_error] at hpr; simp at hpr
            | ok o1 =>
              rw [r1, bind_ok] at hpr
              cases o1 with
              | none => simp at hpr
              | some t1 =>
                simp only at hpr
                cases r2 : pr'.round p q t.signature d2 t1 with
                | error e => rw [r2, bind_error] at hpr; simp at hpr
                | ok o2 =>
                  rw [r2, bind_ok] at hpr
                  cases o2 with
                  | none => simp at hpr
                  | some t2 =>
                    simp only at hpr
                    cases r3 : pr'.round p q t.signature d3 t2 with
                    | error e => rw [r3, bind_error] at hpr; simp at hpr
                    | ok o3 =>
                      rw [r3, bind_ok] at hpr
                      cases o3 with
                      | none => simp at hpr
                      | some t3 =>
                        simp only at hpr
                        cases hm : makeRule t.counts t1.counts t2.counts t3.counts with
                        | error e => rw [hm, bind_error] at hpr; simp at hpr
                        | ok o4 =>
                          rw [hm, bind_ok] at hpr
                          cases o4 with
                          | none => simp at hpr
                          | some rule =>
                            simp only at hpr
                            split at hpr
                            · simp at hpr
                            · cases hs : pr'.getMinSig p d1.toNat q t.toEnum t.signature with
                              | error e => rw [hs, bind_error] at hpr; simp at hpr
                              | ok m' =>
                                rw [hs, bind_ok] at hpr
                                simp only [Except.ok.injEq, Option.some.injEq,
                                  Prod.mk.injEq] at hpr
                                obtain ⟨rfl, rfl⟩ := hpr
                                have hrun := round_some r1
                                have hscan : m'.1.scan = t.scan := by
                                  unfold Prover.getMinSig at hs
                                  split at hs
                                  · simp at hs
                                  · simp only [Except.ok.injEq] at hs
                                    rw [← hs]
                                    rfl
                                refine ⟨m', d1.toNat, t1, t2, t3, ?_,
                                  runSimulator_rules hp' hp ht hrun, hm, ?_⟩
                                · simp only [Prover.setRule, hp, hscan]
                                  rfl
                                · intro u hu hmatch hcount
                                  obtain ⟨u', g1, g2⟩ := C37_min_sig p pr' hp' _ q q t t1 u m' ht
                                    hu hrun hs hmatch hcount
                                  exact ⟨u', runSimulator_rules hp' hp hu g1, g2⟩

namespace Rs

theorem round_some {p : Prog} {pr : Prover} {q : State} {sig : Sig} {d : Int} {t t' : Tape}
    (h : round p pr q sig d t = .ok (some t')) :
    runSimulator simBasic p pr d.toNat q t = .ok (some (q, t')) := by
  unfold round at h
  split at h
  · simp at h
  · simp at h
  · rename_i q' u hu
    split at h
    · simp at h
    · rename_i hc
      simp only [Except.ok.injEq, Option.some.injEq] at h
      subst h
      rw [hu]
      simp only [Bool.or_eq_true, bne_iff_ne, ne_eq, not_or, not_not] at hc
      rw [hc.1]

/-- **C37 for Rust (the stored signature).** -/
theorem C37_rs_stored (p : Prog) (pr : Prover) (hp : pr.rules = []) (cycle : Nat) (q : State)
    (t : Tape) (ht : t.Canonical) (rule : Rule)
    (h : (tryRule p pr cycle q t).2 = .ok (.got rule)) :
    ∃ (m : MinSig) (n : Nat) (t1 t2 t3 : Tape), (tryRule p pr cycle q t).1.rules = [((q, t.scan), [(m, rule)])] ∧
      pr.runSimulator Tape.simTape p n q t = .ok (some q, t1) ∧
      makeRule (counts t) (counts t1) (counts t2) (counts t3) = some rule ∧
      Covers p pr m n q t t1 := by
  have hg : pr.getRule q t.signature = none := by simp [Prover.getRule, hp]
  unfold tryRule at h ⊢
  simp only [hg] at h ⊢
  cases hl : pr.configs.lookup t.signature with
  | none =>
    rw [hl] at h
    simp only at h
    split at h <;> simp at h
  | some past =>
    rw [hl] at h
    simp only at h ⊢
    cases hd : past.nextDeltas q cycle with
    | error e => rw [hd] at h; simp at h
    | ok x =>
      obtain ⟨deltas, past'⟩ := x
      rw [hd] at h
      cases deltas with
      | none => simp at h
      | some ds =>
        simp only at h ⊢
        have hp' : ({ pr with configs := assocInsert pr.configs t.signature past' } : Prover).rules
          = [] := hp
        split at h
        · simp at h
        · rename_i hlim
          rw [if_neg hlim]
          cases hi : inferRule p { pr with configs := assocInsert pr.configs t.signature past' }
              q t t.signature ds with
          | error e => rw [hi] at h; simp at h
          | ok o =>
            rw [hi] at h
            cases o with
            | none => simp at h
            | some rule' =>
              simp only at h ⊢
              split at h
              · simp at h
              · rename_i h1
                rw [if_neg h1]
                split at h
                · simp at h
                · rename_i h2
                  rw [if_neg h2]
                  split at h
                  · simp at h
                  · rename_i h3
                    rw [if_neg h3]
                    split at h
                    · simp at h
                    · rename_i m hs
                      simp only [Except.ok.injEq, ProverResult.got.injEq] at h
                      subst h
                      simp only
                      generalize hpr : ({ pr with
                        configs := assocInsert pr.configs t.signature past' } : Prover)
                        = pr' at hi hp'
                      unfold inferRule at hi
                      split at hi
                      · simp at hi
                      · simp at hi
                      · rename_i t1 r1
                        split at hi
                        · simp at hi
                        · simp at hi
                        · rename_i t2 r2
                          split at hi
                          · simp at hi
                          · simp at hi
                          · rename_i t3 r3
                            simp only [Except.ok.injEq] at hi
                            have hrun := round_some r1
                            have hpy := (runSimulator_tape hp' _ q t ht q t1).mp hrun
                            have hscan : m.1.scan = t.scan := by
                              unfold getMinSig at hs
                              split at hs
                              · simp at hs
                              · simp at hs
                              · split at hs
                                · simp only [Except.ok.injEq] at hs
                                  rw [← hs]
                                  rfl
                                · simp at hs
                            refine ⟨m, ds.1.toNat, t1, t2, t3, ?_,
                              runSimulator_rules hp' hp ht hpy, hi, ?_⟩
                            · simp only [Prover.setRule, hp, hscan]
                              rfl
                            · intro u hu hmatch hcount
                              have hp2 : ({ pr with
                                configs := assocInsert (assocInsert pr.configs t.signature past')
                                  t.signature (past'.delete q) } : Prover).rules = [] := hp
                              have hrun2 := (runSimulator_tape hp2 _ q t ht q t1).mpr
                                (runSimulator_rules hp' hp2 ht hpy)
                              obtain ⟨u', g1, g2⟩ := (C37_rs_min_sig p _ hp2 _ q q t t1 u m ht
                                hu hrun2 hs).2 hmatch hcount
                              refine ⟨u', ?_, g2⟩
                              exact runSimulator_rules hp2 hp hu
                                ((runSimulator_tape hp2 _ q u hu q u').mp g1)

end Rs

/-! ### A case: the rule of `twoByTwo`, found on a block of twenty 1s -/

example : ((sighted ones20).tryRule twoByTwo 8 0 ones20).2
      = .ok (some [((false, 0), .plus (-2)), ((true, 0), .plus 2)]) ∧
    (Rs.tryRule twoByTwo (sighted ones20) 8 0 ones20).2
      = .ok (.got [((false, 0), .plus (-2)), ((true, 0), .plus 2)]) := by decide +kernel

end BB
