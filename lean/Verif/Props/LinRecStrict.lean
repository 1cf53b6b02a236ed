import Verif.Lemmas.LinRecLoop
import Verif.Lemmas.LinRecSample

/-!
# C57, C58: the Python recurrence checks

`StrictLinRecMachine` finds the period of a machine; `LinRecSampler` with `verify_lin_rec` confirms a
recurrence written down beforehand.
-/

namespace BB
open BB.PyRec

/-- `sim_lim or 1_000_000`. -/
def strictLim (lim : Nat) : Nat := if lim = 0 then 1000000 else lim

/-- **C57.**  The search never raises an exception, and what it reports is right:
a recurrence `(n, per)` is one, and no recurrence of the machine, whenever it starts, has a shorter
period; an undefined slot is where and when the machine halts; a limit has been reached. -/
theorem C57_sound (p : Prog) (lim cr : Nat) : ∃ r, strictRun p lim cr = some r ∧
    (∀ n per, r.linrec = some (n, per) → cr ≤ n ∧ RecursFrom p n per ∧ NeverHalts p initCfg ∧
      ∀ m per', RecursFrom p m per' → per ≤ per') ∧
    (∀ n slot, r.undfnd = some (n, slot) → HaltsAt p initCfg n slot) ∧
    (∀ n, r.xlimit = some n → strictLim lim ≤ n ∧ (runFor p n initCfg).isSome) ∧
    (∀ n, r.spnout = some n ↔ r.linrec = some (n, 1)) ∧
    (r.linrec.isSome.toNat + r.undfnd.isSome.toNat + r.xlimit.isSome.toNat = 1) := by
  obtain ⟨r, hr, h⟩ := strictRun_spec p lim cr
  refine ⟨r, hr, ?_, fun n slot hn => (h.undfnd n slot hn).1,
    fun n hn => ⟨(h.xlimit n hn).1, (h.xlimit n hn).2.1⟩, h.spnout, ?_⟩
  · intro n per hn
    obtain ⟨h1, h2, h3, _⟩ := h.linrec n per hn
    exact ⟨h1, h2, h2.neverHalts, h3⟩
  · cases hl : r.linrec with
    | some x =>
      obtain ⟨_, _, _, _, h5, h6, _⟩ := h.linrec x.1 x.2 hl
      simp [h5, h6]
    | none =>
      cases hu : r.undfnd with
      | some x =>
        obtain ⟨_, _, _, h6⟩ := h.undfnd x.1 x.2 hu
        simp [h6]
      | none =>
        cases hx : r.xlimit with
        | some x => simp
        | none => rcases h.one with h' | h' | h' <;> contradiction

/-- **C57.**  Nothing is missed: a machine that recurs from move `m` with period `per` is reported
once the limit is larger than `max (m + 1) check_rec + per`, and a machine that halts in fewer moves
than the limit is never reported as having reached it. -/
theorem C57_complete (p : Prog) (lim cr : Nat) : ∃ r, strictRun p lim cr = some r ∧
    (∀ m per, RecursFrom p m per → max (m + 1) cr + per < strictLim lim →
      ∃ n per', r.linrec = some (n, per') ∧ per' ≤ per) ∧
    (∀ n slot, HaltsAt p initCfg n slot → n < strictLim lim → r.undfnd = some (n, slot)) := by
  obtain ⟨r, hr, h⟩ := strictRun_spec p lim cr
  refine ⟨r, hr, ?_, ?_⟩
  · intro m per hm hlt
    rcases h.one with h' | h' | h'
    · obtain ⟨⟨n, per'⟩, hn⟩ := Option.ne_none_iff_exists'.mp h'
      exact ⟨n, per', hn, (h.linrec n per' hn).2.2.1 m per hm⟩
    · obtain ⟨⟨n, slot⟩, hn⟩ := Option.ne_none_iff_exists'.mp h'
      exact absurd ⟨n, slot, (h.undfnd n slot hn).1⟩ (neverHalts_iff_not_haltsAt.mp hm.neverHalts)
    · obtain ⟨n, hn⟩ := Option.ne_none_iff_exists'.mp h'
      have := (h.xlimit n hn).2.2.2.2.2 m per hm
      unfold strictLim at hlt
      omega
  · intro n slot hh hlt
    rcases h.one with h' | h' | h'
    · obtain ⟨⟨m, per'⟩, hn⟩ := Option.ne_none_iff_exists'.mp h'
      exact absurd ⟨n, slot, hh⟩ (neverHalts_iff_not_haltsAt.mp (h.linrec m per' hn).2.1.neverHalts)
    · obtain ⟨⟨m, slot'⟩, hn⟩ := Option.ne_none_iff_exists'.mp h'
      obtain ⟨h1, h2⟩ := HaltsAt.unique (h.undfnd m slot' hn).1 hh
      subst h1 h2
      exact hn
    · obtain ⟨m, hn⟩ := Option.ne_none_iff_exists'.mp h'
      obtain ⟨h1, h2, _⟩ := h.xlimit m hn
      unfold strictLim at hlt
      obtain ⟨d, h3, h4, h5⟩ := hh
      have := runFor_isSome_of_le (p := p) (c := initCfg) (show n + 1 ≤ m by omega) h2
      subst h4
      rw [runFor_succ', h3] at this
      simp [step_none h5] at this

/-- **C57.**  The table of blank tapes lists exactly the first move after which the tape is blank in
each state, as far as the run went. -/
theorem C57_blanks (p : Prog) (lim cr : Nat) : ∃ r, strictRun p lim cr = some r ∧
    ∃ last : Nat × Nat, (r.linrec = some (last.1, last.2) ∨ (last.2 = 0 ∧ ((∃ slot, r.undfnd = some (last.1, slot)) ∨
        r.xlimit = some last.1))) ∧
      ∀ q n, r.blanks.lookup q = some n ↔ FirstBlankAt p q n ∧ n ≤ last.1 + last.2 := by
  obtain ⟨r, hr, h⟩ := strictRun_spec p lim cr
  refine ⟨r, hr, ?_⟩
  rcases h.one with h' | h' | h'
  · obtain ⟨⟨n, per'⟩, hn⟩ := Option.ne_none_iff_exists'.mp h'
    exact ⟨(n, per'), Or.inl hn, (h.linrec n per' hn).2.2.2.1⟩
  · obtain ⟨⟨n, slot⟩, hn⟩ := Option.ne_none_iff_exists'.mp h'
    exact ⟨(n, 0), Or.inr ⟨rfl, Or.inl ⟨slot, hn⟩⟩, (h.undfnd n slot hn).2.1⟩
  · obtain ⟨n, hn⟩ := Option.ne_none_iff_exists'.mp h'
    exact ⟨(n, 0), Or.inr ⟨rfl, Or.inr hn⟩, (h.xlimit n hn).2.2.1⟩

theorem quasiHaltsSince_zero (p : Prog) : QuasiHaltsSince p 0 ↔ QuasiHalts p := by
  simp [QuasiHaltsSince, QuasiHalts]

theorem QuasiHaltsSince.quasiHalts {p : Prog} {n : Nat} (h : QuasiHaltsSince p n) : QuasiHalts p := by
  obtain ⟨h1, q, ⟨m, _, h2⟩, h3⟩ := h
  exact ⟨h1, q, ⟨m, h2⟩, h3⟩

/-- **C57.**  When a recurrence is found, `qsihlt` says whether some state entered at move `check_rec`
or later is used only finitely often.  So it says whether the machine quasihalts when `check_rec` is 0,
and `True` is right always; `False` with a positive `check_rec` may be wrong (`C57_violated`). -/
theorem C57_qsihlt_partial (p : Prog) (lim cr : Nat) : ∃ r, strictRun p lim cr = some r ∧
    (r.linrec ≠ none → (r.qsihlt = some true ↔ QuasiHaltsSince p cr) ∧
      (r.qsihlt = some true → QuasiHalts p) ∧
      (cr = 0 → (r.qsihlt = some true ↔ QuasiHalts p) ∧ (r.qsihlt = some false ↔ ¬ QuasiHalts p))) ∧
    (r.linrec = none → r.qsihlt = none ∨ r.qsihlt = some false) := by
  obtain ⟨r, hr, h⟩ := strictRun_spec p lim cr
  refine ⟨r, hr, ?_, ?_⟩
  · intro hl
    have hq : r.qsihlt = some true ↔ QuasiHaltsSince p cr := by rw [h.qsihlt]; tauto
    refine ⟨hq, fun h' => (hq.mp h').quasiHalts, ?_⟩
    rintro rfl
    rw [quasiHaltsSince_zero] at hq
    refine ⟨hq, ?_⟩
    rw [← hq]
    obtain ⟨⟨n, per⟩, hn⟩ := Option.ne_none_iff_exists'.mp hl
    obtain ⟨b, hb⟩ := (h.linrec n per hn).2.2.2.2.2.2
    rw [hb]
    cases b <;> simp
  · intro hl
    match hq : r.qsihlt with
    | none => exact Or.inl rfl
    | some false => exact Or.inr rfl
    | some true => exact absurd hl (h.qsihlt.mp hq).1

/-- `1RB ...  1RC ...  1RB ...`: A is used for one move only. -/
def quasiWalker : Prog
  | (0, 0) => some (1, true, 1)
  | (1, 0) => some (1, true, 2)
  | (2, 0) => some (1, true, 1)
  | _ => none

theorem quasiWalker_qsihlt : (strictRun quasiWalker 100 0).map (fun r => (r.linrec, r.qsihlt)) =
    some (some (1, 2), some true) := by decide +kernel

/-- **C57, violated.**  With `check_rec` = 1 the machine `1RB ...  1RC ...  1RB ...` is said not to
quasihalt, but it does. -/
theorem C57_violated : (strictRun quasiWalker 100 1).map (fun r => (r.linrec, r.qsihlt)) =
      some (some (1, 2), some false) ∧ QuasiHalts quasiWalker := by
  refine ⟨by decide +kernel, ?_⟩
  obtain ⟨r, h1, h2, _⟩ := C57_qsihlt_partial quasiWalker 100 0
  have h3 := quasiWalker_qsihlt
  rw [h1] at h3
  simp only [Option.map_some, Option.some.injEq, Prod.mk.injEq] at h3
  exact (h2 (by simp [h3.1])).2.1 h3.2

/-- `1RB 0LB  1LA 1RA`, which recurs with period 6. -/
def bouncer : Prog
  | (0, 0) => some (1, true, 1)
  | (0, 1) => some (0, false, 1)
  | (1, 0) => some (1, false, 0)
  | (1, 1) => some (1, true, 0)
  | _ => none

theorem bouncer_run : (strictRun bouncer 100 0).map (fun r => (r.linrec, r.qsihlt)) =
    some (some (5, 6), some false) := by decide +kernel

/-- The theorems at work: the period is 6, and no state dies out. -/
example : RecursFrom bouncer 5 6 ∧ (∀ m per, RecursFrom bouncer m per → 6 ≤ per) ∧
    ¬ QuasiHalts bouncer := by
  have h := bouncer_run
  obtain ⟨r, h1, h2, _⟩ := C57_sound bouncer 100 0
  obtain ⟨r', h1', h3, _⟩ := C57_qsihlt_partial bouncer 100 0
  rw [h1] at h1' h
  cases h1'
  simp only [Option.map_some, Option.some.injEq, Prod.mk.injEq] at h
  obtain ⟨_, a, _, b⟩ := h2 5 6 h.1
  exact ⟨a, b, ((h3 (by simp [h.1])).2.2 rfl).2.mp h.2⟩

/-! ## The sampler and its test -/

/-- `wit`: `1RB ...  0LD 1RB  0RC 1LA  1LD 1LC`. -/
def samplerWitness : Prog
  | (0, 0) => some (1, true, 1)
  | (1, 0) => some (0, false, 3)
  | (1, 1) => some (1, true, 1)
  | (2, 0) => some (0, true, 2)
  | (2, 1) => some (1, false, 0)
  | (3, 0) => some (1, false, 3)
  | (3, 1) => some (1, false, 2)
  | _ => none

set_option maxRecDepth 200000 in
/-- **C58, violated.**  `verify_lin_rec` accepts that `1RB ...  0LD 1RB  0RC 1LA  1LD 1LC` recurs from move
1 with period 6, but the machine halts after 16 moves. -/
theorem C58_violated : testVerify samplerWitness 1 6 = true ∧
    HaltsAt samplerWitness initCfg 16 (0, 1) ∧ ¬ ∃ n per, RecursFrom samplerWitness n per := by
  have h : HaltsAt samplerWitness initCfg 16 (0, 1) := by
    obtain ⟨r, h1, _, h2, _⟩ := C57_sound samplerWitness 100 0
    have : (strictRun samplerWitness 100 0).map (fun r => r.undfnd) = some (some (16, (0, 1))) := by
      decide +kernel
    rw [h1] at this
    exact h2 _ _ (by simpa using this)
  exact ⟨by decide +kernel, h, fun ⟨n, per, hr⟩ => neverHalts_iff_not_haltsAt.mp hr.neverHalts ⟨_, _, h⟩⟩

/-- The moves at which the test looks. -/
def sampledMoves (steps period : Nat) : List Nat :=
  [steps, steps + 1, steps + period - 1, steps + period, steps + period + 1, steps + 2 * period]

/-- **C58.**  What a passing test says for certain: what it denies is so. -/
theorem C58_denied (p : Prog) (steps period : Nat) (h : testVerify p steps period = true) :
    1 < period ∧ ¬ RecursFrom p steps (period + 1) ∧ ¬ RecursFrom p steps (period - 1) ∧
      (1 ≤ steps → ¬ RecursFrom p (steps - 1) (period + 1)) := by
  simp only [testVerify, Bool.and_eq_true, decide_eq_true_eq] at h
  obtain ⟨⟨⟨⟨_, hp⟩, h1⟩, h2⟩, h3⟩ := h
  have hs := sample_spec p (1 + (period + (period + steps)))
    ((if steps = 0 then [] else [steps - 1]) ++
      [steps, steps + 1, (period + steps) - 1, period + steps, (period + steps) + 1,
        (period + steps) + period])
  refine ⟨hp, ?_, ?_, ?_⟩
  · have := deny_sound hs (by omega) (by simp) (by simp [Nat.add_comm 1]) h1
    rwa [show 1 + (period + steps) - steps = period + 1 by omega] at this
  · have := deny_sound hs (by omega) (by simp) (by simp) h2
    rwa [show period + steps - 1 - steps = period - 1 by omega] at this
  · intro h1s
    rw [if_pos h1s] at h3
    have hne : steps ≠ 0 := by omega
    have := deny_sound hs (by omega) (by simp [hne]) (by simp) h3
    rwa [show period + steps - (steps - 1) = period + 1 by omega] at this

/-- **C58.**  A passing test has seen the machine in the same state at the moves it compares, so it has run
that far. -/
theorem C58_states (p : Prog) (steps period : Nat) (h : testVerify p steps period = true) :
    ∀ x ∈ [(steps, steps + period), (steps + 1, steps + period + 1), (steps, steps + 2 * period)],
      ∃ q, InStateAt p q x.1 ∧ InStateAt p q x.2 := by
  simp only [testVerify, Bool.and_eq_true, decide_eq_true_eq] at h
  obtain ⟨⟨⟨⟨⟨⟨h1, h2⟩, h3⟩, _⟩, _⟩, _⟩, _⟩ := h
  have hs : Sampled p _ (testHistory p steps period) := sample_spec p (1 + (period + (period + steps)))
    ((if steps = 0 then [] else [steps - 1]) ++
      [steps, steps + 1, (period + steps) - 1, period + steps, (period + steps) + 1,
        (period + steps) + period])
  have key : ∀ a b, a ∈ ((if steps = 0 then [] else [steps - 1]) ++
      [steps, steps + 1, (period + steps) - 1, period + steps, (period + steps) + 1,
        (period + steps) + period]) → b ∈ ((if steps = 0 then [] else [steps - 1]) ++
      [steps, steps + 1, (period + steps) - 1, period + steps, (period + steps) + 1,
        (period + steps) + period]) → assertLinRec (testHistory p steps period) a b = true →
      ∃ q, InStateAt p q a ∧ InStateAt p q b := by
    intro a b ha hb hv
    unfold assertLinRec at hv
    split at hv
    case h_2 => cases hv
    rename_i x y hx hy
    simp only [Bool.and_eq_true, beq_iff_eq] at hv
    obtain ⟨rfl, _⟩ := hv
    obtain ⟨hla, _⟩ := List.getElem?_eq_some_iff.mp hx
    obtain ⟨hlb, _⟩ := List.getElem?_eq_some_iff.mp hy
    obtain ⟨P, hP⟩ := Option.isSome_iff_exists.mp (hs.taken a ha hla)
    obtain ⟨Q, hQ⟩ := Option.isSome_iff_exists.mp (hs.taken b hb hlb)
    obtain ⟨q, q1, q2⟩ := hs.states a P hP
    obtain ⟨r, r1, r2⟩ := hs.states b Q hQ
    rw [hx] at q1; rw [hy] at r1
    cases q1; cases r1
    exact ⟨_, q2, r2⟩
  intro x hx
  simp only [List.mem_cons, List.not_mem_nil, or_false] at hx
  rcases hx with rfl | rfl | rfl
  · have := key _ _ (by simp) (by simp) h1
    simpa [Nat.add_comm] using this
  · have := key _ _ (by simp [Nat.add_comm]) (by simp [Nat.add_comm]) h2
    rw [show 1 + (period + steps) = steps + period + 1 by omega, show 1 + steps = steps + 1 by omega] at this
    exact this
  · have := key _ _ (by simp) (by simp [Nat.add_comm]) h3
    rw [show period + (period + steps) = steps + 2 * period by omega] at this
    exact this

/-- **C58.**  A test that passes is right about the recurrence if the head, during the first period, stays
between places where it is at one of the moves the test looks at.  Without this it need not be right
(`C58_violated`): `verify_lin_rec` takes the extremes of the head over the sampled moves for the extremes
over all moves. -/
theorem C58_partial (p : Prog) (steps period : Nat) (h : testVerify p steps period = true)
    (hc : ∀ m c, steps ≤ m → m < steps + period → runFor p m initCfg = some c →
      ∃ i ∈ sampledMoves steps period, ∃ j ∈ sampledMoves steps period, ∃ ci cj,
        runFor p i initCfg = some ci ∧ runFor p j initCfg = some cj ∧
        ci.pos ≤ c.pos ∧ c.pos ≤ cj.pos) :
    RecursFrom p steps period := by
  simp only [testVerify, Bool.and_eq_true, decide_eq_true_eq] at h
  obtain ⟨⟨⟨⟨⟨⟨h1, _⟩, h2⟩, hp⟩, _⟩, _⟩, _⟩ := h
  have hs : Sampled p _ (testHistory p steps period) := sample_spec p (1 + (period + (period + steps)))
    ((if steps = 0 then [] else [steps - 1]) ++
      [steps, steps + 1, (period + steps) - 1, period + steps, (period + steps) + 1,
        (period + steps) + period])
  have hlen : period + (period + steps) < (testHistory p steps period).states.length := by
    unfold assertLinRec at h2
    split at h2
    · rename_i hy; exact (List.getElem?_eq_some_iff.mp hy).1
    · cases h2
  have hsub : ∀ i ∈ sampledMoves steps period,
      i ∈ ((if steps = 0 then [] else [steps - 1]) ++
        [steps, steps + 1, (period + steps) - 1, period + steps, (period + steps) + 1,
          (period + steps) + period]) ∧ steps ≤ i ∧ i ≤ period + (period + steps) := by
    intro i hi
    simp only [sampledMoves, List.mem_cons, List.not_mem_nil, or_false] at hi
    refine ⟨?_, by omega, by omega⟩
    simp only [List.mem_append, List.mem_cons, List.not_mem_nil, or_false]
    right; omega
  have := assert_sound hs (a := steps) (b := period + steps) (by omega) (by simp) (by simp) h1 (by
    intro m c m1 m2 hm
    obtain ⟨i, hi, j, hj, ci, cj, a1, a2, a3, a4⟩ := hc m c m1 (by omega) hm
    obtain ⟨i1, i2, i3⟩ := hsub i hi
    obtain ⟨j1, j2, j3⟩ := hsub j hj
    exact ⟨i, i1, j, j1, ci, cj, i2, j2, by omega, by omega, a1, a2, a3, a4⟩)
  rwa [show period + steps - steps = period by omega] at this

/-- Where the head of `bouncer` is after `n` moves. -/
theorem bouncer_pos : ∀ n ∈ List.range 18, (runFor bouncer n initCfg).map (·.pos) =
    ([0, 1, 0, -1, -2, -1, 0, 1, 2, 3, 2, 1, 2, 3, 4, 5, 4, 3] : List Int)[n]? := by decide +kernel

/-- `C58_partial` at work. -/
example : testVerify bouncer 5 6 = true ∧ RecursFrom bouncer 5 6 := by
  have h : testVerify bouncer 5 6 = true := by decide +kernel
  refine ⟨h, C58_partial bouncer 5 6 h ?_⟩
  intro m c h1 h2 hm
  have hp := bouncer_pos
  obtain ⟨ci, hi⟩ := Option.map_eq_some_iff.mp (hp 5 (by decide))
  obtain ⟨cj, hj⟩ := Option.map_eq_some_iff.mp (hp 17 (by decide))
  refine ⟨5, by decide, 17, by decide, ci, cj, hi.1, hj.1, ?_⟩
  have hc := hp m (by simp; omega)
  rw [hm] at hc
  rw [hi.2, hj.2]
  have : m = 5 ∨ m = 6 ∨ m = 7 ∨ m = 8 ∨ m = 9 ∨ m = 10 := by omega
  rcases this with rfl | rfl | rfl | rfl | rfl | rfl <;> simp at hc <;> omega

/-- **C58.**  Neither the start nor the period that the test accepts need be the least: `1RB 0LB  1LA 1RA`
recurs from move 5 with period 6, and the test accepts start 7 and period 12. -/
theorem C58_not_least : testVerify bouncer 7 12 = true ∧ RecursFrom bouncer 5 6 := by
  refine ⟨by decide +kernel, ?_⟩
  have h := bouncer_run
  obtain ⟨r, h1, h2, _⟩ := C57_sound bouncer 100 0
  rw [h1] at h
  simp only [Option.map_some, Option.some.injEq, Prod.mk.injEq] at h
  exact (h2 5 6 h.1).2.1

end BB
