import Verif.Props.EnumTape

/-!
# C37 for the minimal signature that is stored with a rule
-/

namespace BB

/-- The steps a plain simulation takes, if it does not stop. -/
def simOps (comp : Prog) : Nat → State → Tape → Option (State × List (Bool × Color × Bool))
  | 0, q, _ => some (q, [])
  | n + 1, q, t =>
    match comp (q, t.scan) with
    | none => none
    | some (color, shift, next) =>
      (simOps comp n next (Rs.step t shift color (q == next)).1).map fun r =>
        (r.1, (shift, color, q == next) :: r.2)

theorem getRule_empty {pr : Prover} (h : pr.rules = []) (q : State) (g : Sig) :
    pr.getRule q g = none := by
  simp [Prover.getRule, h]

theorem runSimulator_tape {comp : Prog} {pr : Prover} (hp : pr.rules = []) :
    ∀ (n : Nat) (q : State) (t : Tape), t.Canonical → ∀ q' t',
      pr.runSimulator Tape.simTape comp n q t = .ok (some q', t') ↔
        ∃ ops, simOps comp n q t = some (q', ops) ∧ (Rs.trace t ops).2 = t' := by
  intro n
  induction n with
  | zero =>
    intro q t _ q' t'
    simp only [Prover.runSimulator, simOps, Except.ok.injEq, Prod.mk.injEq, Option.some.injEq]
    constructor
    · rintro ⟨rfl, rfl⟩
      exact ⟨[], ⟨rfl, rfl⟩, rfl⟩
    · rintro ⟨ops, ⟨rfl, rfl⟩, rfl⟩
      exact ⟨rfl, rfl⟩
  | succ n ih =>
    intro q t ht q' t'
    have hstep : ∀ shift color skip, (Py.step t shift color skip).1 = (Rs.step t shift color skip).1 :=
      fun shift color skip => by
        rw [py_step_eq_rs_step t ht.l.posCounts ht.r.posCounts]
    simp only [Prover.runSimulator, getRule_empty hp, simOps]
    show (match comp (q, t.scan) with
      | none => _
      | some (color, shift, nextState) => _) = _ ↔ _
    cases hc : comp (q, t.scan) with
    | none => simp
    | some i =>
      obtain ⟨color, shift, next⟩ := i
      simp only [Tape.simTape, hstep]
      have := ih next (Rs.step t shift color (q == next)).1 (ht.rsStep _ _ _) q' t'
      simp only [Tape.simTape] at this
      rw [this]
      constructor
      · rintro ⟨ops, h1, h2⟩
        exact ⟨(shift, color, q == next) :: ops, by rw [h1]; rfl, h2⟩
      · rintro ⟨ops, h1, h2⟩
        obtain ⟨⟨q1, ops1⟩, h3, h4⟩ := Option.map_eq_some_iff.1 h1
        simp only [Prod.mk.injEq] at h4
        obtain ⟨rfl, rfl⟩ := h4
        exact ⟨ops1, h3, h2⟩

theorem runSimulator_enum {comp : Prog} {pr : Prover} (hp : pr.rules = []) :
    ∀ (n : Nat) (q : State) (e : EnumTape) (q' : State) (ops : List (Bool × Color × Bool)),
      e.tape.forget.Canonical → simOps comp n q e.tape.forget = some (q', ops) →
      pr.runSimulator EnumTape.simTape comp n q e = .ok (some q', e.steps ops) := by
  intro n
  induction n with
  | zero =>
    intro q e q' ops _ h
    simp only [simOps, Option.some.injEq, Prod.mk.injEq] at h
    obtain ⟨rfl, rfl⟩ := h
    rfl
  | succ n ih =>
    intro q e q' ops hc h
    simp only [simOps] at h
    simp only [Prover.runSimulator, getRule_empty hp, EnumTape.simTape]
    have hscan : e.tape.forget.scan = e.tape.scan := rfl
    rw [hscan] at h
    cases hi : comp (q, e.tape.scan) with
    | none => simp [hi] at h
    | some i =>
      obtain ⟨color, shift, next⟩ := i
      simp only [hi] at h ⊢
      obtain ⟨⟨q1, ops1⟩, h3, h4⟩ := Option.map_eq_some_iff.1 h
      simp only [Prod.mk.injEq] at h4
      obtain ⟨rfl, rfl⟩ := h4
      rw [← e.step_forget hc] at h3
      exact ih next (e.step shift color (q == next)) q1 ops1
        (by rw [e.step_forget hc]; exact hc.rsStep _ _ _) h3

theorem simOps_congr {comp : Prog} : ∀ (n : Nat) (q : State) (t u : Tape) (q' : State)
    (ops : List (Bool × Color × Bool)), simOps comp n q t = some (q', ops) →
    (Rs.trace u ops).1 = (Rs.trace t ops).1 → simOps comp n q u = some (q', ops) := by
  intro n
  induction n with
  | zero =>
    intro q t u q' ops h _
    exact h
  | succ n ih =>
    intro q t u q' ops h htr
    simp only [simOps] at h ⊢
    cases hi : comp (q, t.scan) with
    | none => simp [hi] at h
    | some i =>
      obtain ⟨color, shift, next⟩ := i
      simp only [hi] at h
      obtain ⟨⟨q1, ops1⟩, h3, h4⟩ := Option.map_eq_some_iff.1 h
      simp only [Prod.mk.injEq] at h4
      obtain ⟨rfl, rfl⟩ := h4
      simp only [Rs.trace, List.cons.injEq, Prod.mk.injEq] at htr
      rw [htr.1.1, hi]
      simp only
      rw [ih _ _ _ _ _ h3 htr.2]
      rfl

/-- **C37 (minimal signature).**  Let `m` be the minimal signature that is computed for a rule
found while no rule was known, from a simulation of `n` steps from state `q` and tape `t`.  Any
other tape that `m` matches, and whose blocks have the same counts where `m` looks, goes through
the same `n` steps: it comes to the same state and scanned colour, and on each side the same cells
are left in front of whatever `m` does not look at. -/
theorem C37_min_sig (comp : Prog) (pr : Prover) (hp : pr.rules = []) (n : Nat) (q q' : State)
    (t t' u : Tape) (m : MinSig) (ht : t.Canonical) (hu : u.Canonical)
    (hrun : pr.runSimulator Tape.simTape comp n q t = .ok (some q', t'))
    (hm : pr.getMinSig comp n q t.toEnum t.signature = .ok m)
    (hmatch : Prover.sigMatches m u.signature = true)
    (hcount : ∀ s i, i < (m.1.span s).length →
      ((u.span s)[i]?).map Block.count = ((t.span s)[i]?).map Block.count) :
    ∃ u', pr.runSimulator Tape.simTape comp n q u = .ok (some q', u') ∧ u'.scan = t'.scan ∧
      ∀ s, ∃ front : List Color,
        half (t'.span s) = prepend front (half ((t.span s).drop (m.1.span s).length)) ∧
        half (u'.span s) = prepend front (half ((u.span s).drop (m.1.span s).length)) := by
  obtain ⟨ops, hops, rfl⟩ := (runSimulator_tape hp n q t ht q' t').1 hrun
  have henum := runSimulator_enum hp n q t.toEnum q' ops (by rw [toEnum_forget]; exact ht)
    (by rw [toEnum_forget]; exact hops)
  simp only [Prover.getMinSig, henum, Except.ok.injEq] at hm
  set e := t.toEnum.steps ops with he
  have hspan : ∀ s, m.1.span s = (sigSpan (t.span s)).take (e.offset s) := by
    intro s
    subst hm
    cases s <;> rfl
  have hflag : ∀ s, (if s then m.2.2 else m.2.1) = e.edge s := by
    intro s
    subst hm
    cases s <;> rfl
  have hsides : ∀ s, m.1.span s = (if (if s then m.2.2 else m.2.1) then sigSpan (u.span s)
      else (sigSpan (u.span s)).take (m.1.span s).length) := by
    intro s
    simp only [Prover.sigMatches, Bool.and_eq_true, beq_iff_eq] at hmatch
    cases s
    · exact hmatch.1.2
    · exact hmatch.2
  have hscan : u.scan = t.scan := by
    simp only [Prover.sigMatches, Bool.and_eq_true, beq_iff_eq] at hmatch
    have := hmatch.1.1
    subst hm
    exact this.symm
  -- the blocks looked at are the same
  have hlen : ∀ s, (m.1.span s).length = min (e.offset s) (t.span s).length := by
    intro s
    rw [hspan]
    simp [sigSpan]
  have hpre : ∀ s, m.1.span s <+: sigSpan (u.span s) := by
    intro s
    have := hsides s
    by_cases hf : (if s then m.2.2 else m.2.1) = true
    · rw [if_pos hf] at this
      rw [this]
      exact List.prefix_rfl
    · rw [if_neg hf] at this
      exact List.prefix_iff_eq_take.2 this
  have hblocks : ∀ s, (u.span s).take (m.1.span s).length = (t.span s).take (e.offset s) := by
    intro s
    have hul : (m.1.span s).length ≤ (u.span s).length := by
      have := (hpre s).length_le
      simpa [sigSpan] using this
    refine List.ext_getElem ?_ ?_
    · simp only [List.length_take]
      have := hlen s
      omega
    · intro i h1 h2
      simp only [List.length_take] at h1 h2
      have hi : i < (m.1.span s).length := by omega
      have hiu : i < (u.span s).length := by omega
      have hit : i < (t.span s).length := by omega
      have hc := hcount s i hi
      rw [List.getElem?_eq_getElem hiu, List.getElem?_eq_getElem hit] at hc
      simp only [Option.map_some, Option.some.injEq] at hc
      have e1 : (m.1.span s)[i]? = (sigSpan (u.span s))[i]? := by
        have := (List.prefix_iff_eq_take.1 (hpre s))
        rw [this, List.getElem?_take_of_lt hi]
      have e2 : (m.1.span s)[i]? = (sigSpan (t.span s))[i]? := by
        rw [hspan, List.getElem?_take_of_lt (by omega)]
      rw [e1] at e2
      simp only [sigSpan, List.getElem?_map, List.getElem?_eq_getElem hiu,
        List.getElem?_eq_getElem hit, Option.map_some, Option.some.injEq, Prod.mk.injEq] at e2
      simp only [List.getElem_take]
      cases hx : (u.span s)[i]
      cases hy : (t.span s)[i]
      rw [hx, hy] at e2 hc
      simp only at e2 hc
      rw [e2.1, hc]
  obtain ⟨front, hf1, hf2⟩ := C37_frame t ht ops
  obtain ⟨k1, k2, k3⟩ := hf2 u (fun s => half ((u.span s).drop (m.1.span s).length)) hu hscan
    (by
      intro s
      show half (u.span s) = prepend (unroll ((t.span s).take (e.offset s))) _
      rw [← hblocks s, ← half_append, List.take_append_drop])
    (by
      intro s hs
      have hs' : e.edge s = true := hs
      have := hsides s
      rw [hflag, hs', if_pos rfl] at this
      have hl : (u.span s).length ≤ (m.1.span s).length := by
        rw [this]
        simp [sigSpan]
      show half ((u.span s).drop (m.1.span s).length) = _
      rw [List.drop_eq_nil_of_le hl, half_nil])
  refine ⟨(Rs.trace u ops).2, (runSimulator_tape hp n q u hu _ _).2
    ⟨ops, simOps_congr n q t u q' ops hops k1, rfl⟩, k2, fun s => ⟨front s, ?_, k3 s⟩⟩
  rw [hf1 s]
  congr 1
  show half ((t.span s).drop (e.offset s)) = _
  rw [hlen s]
  by_cases hle : e.offset s ≤ (t.span s).length
  · rw [Nat.min_eq_left hle]
  · rw [List.drop_eq_nil_of_le (by omega), List.drop_eq_nil_of_le (by omega)]

/-- A case: three steps on `2 1^3 [2] 3^4 4^5 1` look at the blocks of 1s, 3s and 4s next to the
head. -/
example : Prover.getMinSig (fun s => if s = (0, 2) then some (1, true, 1) else
      if s = (1, 3) then some (3, true, 1) else if s = (1, 4) then some (2, false, 0) else none)
    .init 3 0 (Tape.toEnum ⟨[⟨1, 3⟩, ⟨2, 1⟩], 2, [⟨3, 4⟩, ⟨4, 5⟩, ⟨1, 1⟩]⟩)
    (Tape.signature ⟨[⟨1, 3⟩, ⟨2, 1⟩], 2, [⟨3, 4⟩, ⟨4, 5⟩, ⟨1, 1⟩]⟩) =
    .ok (⟨2, [(1, false)], [(3, false), (4, false)]⟩, (false, false)) := by
  rfl

end BB
