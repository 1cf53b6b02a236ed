import Verif.Lemmas.SymIntRun
import Verif.Props.Asked

/-!
# C56: symbolic counts do not change a run whose rules only add

`Machine.run` keeps a count as an expression once a multiplicative rule has been applied.  Here: as long as
the prover knows only rules that add, the run with symbolic counts is the run with integers, of which the
claims C20, C45 and others speak.
-/

namespace BB
open BB.Sym

/-- The start of a run. -/
def start : RState Prover := ⟨Prover.init, Tape.init, [], 0, 0, 0⟩

/-- **C56.**  As long as the prover, asked in the run with integers, knows only rules that add, the run with
symbolic counts reports the same: result, steps, cycles, applications of rules, blank tapes, and the same
tape with the same counts, none of which has become an expression. -/
theorem C56_partial (flog : Int → Int → Nat) (strict : Bool) (n : Nat) (p : Prog) (lim : Nat)
    (h : ∀ x ∈ asked (Prover.tryRule p) p lim 0 start,
      (Prover.tryRule p x.2.prover x.1 x.2.state x.2.tape).1.Adds) :
    SMachine.run strict (ops flog strict (n + 1)) p lim = ofOut (Machine.run p lim) ∧
      (Machine.run p lim).result ≠ .crash .negCount :=
  runLoop_int flog strict n p lim 0 start ⟨(fun _ _ h => by cases h), (fun _ _ h => by cases h),
    ⟨(fun _ h => by cases h), fun _ h => by cases h⟩⟩ h

/-- A rule that only adds, checked. -/
def Rule.adds (rule : Rule) : Bool := rule.all fun e => match e.2 with | .plus _ => true | .mult _ _ => false

/-- A prover that knows only rules that add, checked. -/
def Prover.adds (pr : Prover) : Bool := pr.rules.all fun e => e.2.all fun f => f.2.adds

theorem Prover.adds_spec {pr : Prover} (h : pr.adds = true) : pr.Adds := by
  intro slot known h1 e h2 x hx
  simp only [Prover.adds, Rule.adds, List.all_eq_true] at h
  have := h _ h1 _ h2 _ hx
  revert this
  cases x.2 with
  | plus d => exact fun _ => ⟨d, rfl⟩
  | mult m a => intro h; cases h

/-- The same with a hypothesis that can be computed. -/
theorem C56_checked_partial (flog : Int → Int → Nat) (strict : Bool) (n : Nat) (p : Prog) (lim : Nat)
    (h : (asked (Prover.tryRule p) p lim 0 start).all
      (fun x => (Prover.tryRule p x.2.prover x.1 x.2.state x.2.tape).1.adds) = true) :
    SMachine.run strict (ops flog strict (n + 1)) p lim = ofOut (Machine.run p lim) ∧
      (Machine.run p lim).result ≠ .crash .negCount :=
  C56_partial flog strict n p lim fun x hx => Prover.adds_spec (List.all_eq_true.mp h x hx)

theorem bb24_adds : (asked (Prover.tryRule bb24) bb24 400 0 start).all
    (fun x => (Prover.tryRule bb24 x.2.prover x.1 x.2.state x.2.tape).1.adds) = true := by decide +kernel

/-- Case: the run of the two-state, four-colour champion, which applies rules 987 times, is the run with
integers, whatever the logarithm and the depth; so its report is right (`C20_checked_partial`). -/
example (flog : Int → Int → Nat) (strict : Bool) (n : Nat) :
    (SMachine.run strict (ops flog strict (n + 1)) bb24 400).result = .undfnd (1, 3) ∧
    (SMachine.run strict (ops flog strict (n + 1)) bb24 400).rulapp = .int 987 ∧
    ∃ m, HaltsAt bb24 initCfg m (1, 3) := by
  obtain ⟨e, -⟩ := C56_checked_partial flog strict n bb24 400 bb24_adds
  have h1 : (Machine.run bb24 400).rulapp = 987 := by decide +kernel
  rw [e]
  refine ⟨?_, ?_, ((C20_checked_partial bb24 400 5000 bb24_replays).1 _ bb24_result).imp fun _ h => h.1⟩
  · simp only [ofOut, bb24_result, ofResult]
  · simp only [ofOut, h1]

end BB
