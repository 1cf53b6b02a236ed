import Verif.Lemmas.Asked
import Verif.Props.Tape
import Verif.Props.Prover

/-!
# C20: reports of the code's own prover when its answers in the run are right

`C20_right_prover_partial` asks for a prover that is right about every configuration and with every
store of rules.  Here only the answers given in the run itself have to be right, which the prover of
the code satisfies in many runs; whether it does can be checked by replaying each application.
-/

namespace BB

/-- **C20, what holds (right answers).**  If the answers that the prover of the code gives in the
run are right (an infinite rule only if the machine never halts, and each application leads to a
configuration that the machine reaches from there by making moves), the reports are right, and
the reported number of steps is exact unless it is -1. -/
theorem C20_asked_partial (p : Prog) (lim : Nat)
    (hr : ∀ x ∈ asked (Prover.tryRule p) p lim 0 ⟨Prover.init, Tape.init, [], 0, 0, 0⟩,
      RightAt p (Prover.tryRule p) x.1 x.2) :
    (∀ slot, (Machine.run p lim).result = .undfnd slot →
      ∃ n, HaltsAt p initCfg n slot ∧
        ((Machine.run p lim).steps = -1 ∨ (Machine.run p lim).steps = n)) ∧
    ((Machine.run p lim).result = .spnout ∨ (Machine.run p lim).result = .infrul →
      NeverHalts p initCfg) := by
  have := runLoop_asked lim 0 _ 0 (rinv_init p Prover.init) hr
  exact ⟨this.undfnd, this.never⟩

/-! ### Checking the answers of a run -/

/-- Replays up to `fuel` tape operations (one at least) until the given configuration is met. -/
def replays (p : Prog) (q' : State) (t' : Tape) : Nat → State → Tape → Bool
  | 0, _, _ => false
  | fuel + 1, q, t =>
    (t.lspan ++ t.rspan).all (fun b => 1 ≤ b.count) &&
    match p (q, t.scan) with
    | none => false
    | some (c, sh, q1) =>
      let t1 := (Py.step t sh c (q == q1)).1
      (q1 == q' && t1 == t') || replays p q' t' fuel q1 t1

theorem replays_spec {p : Prog} {q' : State} {t' : Tape} (fuel : Nat) (q : State) (t : Tape)
    (pos : Int) (h : replays p q' t' fuel q t = true) :
    ∃ m pos', 1 ≤ m ∧ runFor p m (t.cfg q pos) = some (t'.cfg q' pos') := by
  induction fuel generalizing q t pos with
  | zero => cases h
  | succ fuel ih =>
    simp only [replays, Bool.and_eq_true, List.all_eq_true, decide_eq_true_eq] at h
    obtain ⟨hc, h⟩ := h
    cases hp : p (q, t.scan) with
    | none => rw [hp] at h; cases h
    | some i =>
      obtain ⟨c, sh, q1⟩ := i
      rw [hp] at h
      simp only [Bool.or_eq_true, Bool.and_eq_true, beq_iff_eq] at h
      obtain ⟨h1, h2⟩ := C01_py_step p q q1 t sh c (q == q1) hc hp
        (fun h => (beq_iff_eq.mp h).symm) pos
      rcases h with ⟨rfl, rfl⟩ | h
      · exact ⟨_, _, h1, h2⟩
      · obtain ⟨m, pos', hm, hm'⟩ := ih q1 _ _ h
        exact ⟨_, pos', by omega, runFor_trans h2 hm'⟩

/-- Whether the blocks of a half tape are non-empty, of different colours, the last one not blank. -/
def canonB : List Block → Bool
  | [] => true
  | [b] => b.color != 0 && decide (1 ≤ b.count)
  | b :: d :: s => b.color != d.color && decide (1 ≤ b.count) && canonB (d :: s)

theorem canon_of_canonB : ∀ {s : List Block}, canonB s = true → Canon s
  | [], _ => .nil
  | [b], h => by
    simp only [canonB, Bool.and_eq_true, bne_iff_ne, ne_eq, decide_eq_true_eq] at h
    exact .last _ _ h.1 h.2
  | b :: d :: s, h => by
    simp only [canonB, Bool.and_eq_true, bne_iff_ne, ne_eq, decide_eq_true_eq] at h
    exact .cons _ _ _ _ _ h.1.1 h.1.2 (canon_of_canonB h.2)

/-- The answer given at one point of a run is none, or its application is confirmed by replaying. -/
def answerReplays {π : Type} (p : Prog) (try_ : TryRule π) (fuel : Nat) (x : Nat × RState π) :
    Bool :=
  match (try_ x.2.prover x.1 x.2.state x.2.tape).2 with
  | .error .infiniteRule => false
  | .error _ => true
  | .ok none => true
  | .ok (some rule) =>
    match applyRule Tape.indexTape rule x.2.tape with
    | .ok (some _, t') => canonB t'.lspan && canonB t'.rspan &&
      replays p x.2.state t' fuel x.2.state x.2.tape
    | _ => true

theorem answerReplays_right {π : Type} {p : Prog} {try_ : TryRule π} {fuel cycle : Nat}
    {s : RState π} (h : answerReplays p try_ fuel (cycle, s) = true) :
    RightAt p try_ cycle s := by
  constructor
  · intro h'
    simp [answerReplays, h'] at h
  · intro rule times t' h' ha
    simp only [answerReplays, h', ha, Bool.and_eq_true] at h
    exact ⟨⟨canon_of_canonB h.1.1, canon_of_canonB h.1.2⟩, replays_spec fuel _ _ 0 h.2⟩

/-- **C20, what holds (a check that a run can be put to).**  If replaying confirms every
application of a rule in the run, by at most `fuel` tape operations each, the reports are right. -/
theorem C20_checked_partial (p : Prog) (lim fuel : Nat)
    (hr : (asked (Prover.tryRule p) p lim 0 ⟨Prover.init, Tape.init, [], 0, 0, 0⟩).all
      (answerReplays p (Prover.tryRule p) fuel) = true) :
    (∀ slot, (Machine.run p lim).result = .undfnd slot →
      ∃ n, HaltsAt p initCfg n slot ∧
        ((Machine.run p lim).steps = -1 ∨ (Machine.run p lim).steps = n)) ∧
    ((Machine.run p lim).result = .spnout ∨ (Machine.run p lim).result = .infrul →
      NeverHalts p initCfg) :=
  C20_asked_partial p lim fun x hx => answerReplays_right (List.all_eq_true.mp hr x hx)

/-- `1RB 2LA 1RA 1RA  1LB 1LA 3RB ...`, the champion of two states and four colours. -/
def bb24 : Prog := fun s =>
  if s = (0, 0) then some (1, true, 1)
  else if s = (0, 1) then some (2, false, 0)
  else if s = (0, 2) then some (1, true, 0)
  else if s = (0, 3) then some (1, true, 0)
  else if s = (1, 0) then some (1, false, 1)
  else if s = (1, 1) then some (1, false, 0)
  else if s = (1, 2) then some (3, true, 1)
  else none

theorem bb24_replays :
    (asked (Prover.tryRule bb24) bb24 400 0 ⟨Prover.init, Tape.init, [], 0, 0, 0⟩).all
      (answerReplays bb24 (Prover.tryRule bb24) 5000) = true := by decide +kernel

theorem bb24_result : (Machine.run bb24 400).result = .undfnd (1, 3) := by decide +kernel

/-- The run applies rules (987 times in all; the machine makes 3932963 moves) and reports the slot
at which the machine halts. -/
example : (Machine.run bb24 400).rulapp = 987 ∧ ∃ n, HaltsAt bb24 initCfg n (1, 3) := by
  refine ⟨by decide +kernel, ?_⟩
  have := (C20_checked_partial bb24 400 5000 bb24_replays).1 _ bb24_result
  exact this.imp fun n hn => hn.1

end BB
