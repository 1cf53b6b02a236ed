import Verif.Lemmas.LinRec
import Verif.Props.Quick

/-! # C07: the recurrence checker `quick_term_or_rec` -/

namespace BB

/-- **C07.**  `True` (with halting programs not dropped) means that the machine never stops. -/
theorem C07_sound (p : Prog) (simLim : Nat) (h0 : p (0, 0) = some (1, true, 1))
    (h : quickTermOrRec p simLim false = true) : NeverHalts p initCfg :=
  recLoop_sound _ _ _ (LInv.init h0) h

/-- **C07 (`drop_halt`).**  With `drop_halt`, a program that stops in fewer than `sim_lim` moves
is always reported. -/
theorem C07_drop_halt (p : Prog) (simLim n : Nat) (slot : Slot)
    (h0 : p (0, 0) = some (1, true, 1)) (hn : n < simLim) (hh : HaltsAt p initCfg n slot) :
    quickTermOrRec p simLim true = true := by
  cases hc : quickTermOrRec p simLim true with
  | true => rfl
  | false =>
    exfalso
    have hinv := LInv.init h0
    have hn1 : runFor p 1 initCfg = some (HeadTape.initStepped.tape.cfg 1
        HeadTape.initStepped.head) := by
      have := (Rs.step_full (p := p) (q := 0) (q' := 1) (t := Tape.init) (shift := true) (c := 1)
        Tape.canonical_init h0 (by decide) 0).2.2.1
      rw [initCfg_eq]; exact this
    obtain ⟨m, hm, hs⟩ := recLoop_long _ _ _ hinv 1 hn1 hc rfl
    obtain ⟨e, he, hsl, hp⟩ := hh
    have := runFor_isSome_of_le (p := p) (c := initCfg) (m := n + 1) (n := m) (by omega) hs
    rw [runFor_succ', he] at this
    subst hsl
    simp [step_none hp] at this

/-- The hypothesis on A0 is needed: the checker starts from the second configuration of a
program opening with 1RB, whatever A0 is. -/
theorem C07_needs_1RB :
    ∃ p : Prog, ∃ simLim, quickTermOrRec p simLim false = true ∧ HaltsAt p initCfg 0 (0, 0) := by
  refine ⟨fun s => if s = (1, 0) then some (1, true, 1) else none, 2, by decide, ?_⟩
  exact ⟨initCfg, rfl, rfl, rfl⟩

/-! ## Concrete cases -/

/-- `1RB 0LB  1LA 0RB`: a translated cycle (not a spin-out). -/
def drifter : Prog
  | (0, 0) => some (1, true, 1)
  | (0, 1) => some (0, false, 1)
  | (1, 0) => some (1, false, 0)
  | (1, 1) => some (0, true, 1)
  | _ => none

example : quickTermOrRec drifter 60 false = true := by decide

example : quickTermOrRec bb2 20 false = false ∧ quickTermOrRec bb2 20 true = true := by decide

end BB
