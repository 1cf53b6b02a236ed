import Verif.Model.Macro
import Verif.Lemmas.Run
import Mathlib.Data.Fintype.Card
import Mathlib.Data.Fintype.Pi
import Mathlib.Data.Fintype.Prod
import Mathlib.Data.Fintype.BigOperators
import Mathlib.Data.Fintype.Pigeonhole
import Mathlib.Tactic.Push

/-! # The in-window simulation follows the base machine -/

namespace BB

/-- `omega` that sees through the abbreviations `State` and `Color`. -/
macro "tm_omega" : tactic => `(tactic| first | omega | (delta State Color at *; omega))

/-- The tape that has `w` at `o, o+1, …` and `out` elsewhere. -/
def winTape (o : Int) (w : List Color) (out : Int → Color) : Int → Color := fun x =>
  if o ≤ x ∧ x < o + w.length then w.getD (x - o).toNat 0 else out x

/-- Configurations whose head is inside the window. -/
def InWin (o : Int) (len : Nat) (c : Cfg) : Prop := o ≤ c.pos ∧ c.pos < o + len

/-- The first `n` configurations of the run from `c` satisfy `I`. -/
def Inside (p : Prog) (I : Cfg → Prop) (n : Nat) (c : Cfg) : Prop :=
  ∀ m, m < n → ∃ e, runFor p m c = some e ∧ I e

theorem Inside.add {p : Prog} {I : Cfg → Prop} {m n : Nat} {c d : Cfg} (h1 : Inside p I m c)
    (hr : runFor p m c = some d) (h2 : Inside p I n d) : Inside p I (m + n) c := by
  intro j hj
  by_cases h : j < m
  · exact h1 j h
  · obtain ⟨e, he, hI⟩ := h2 (j - m) (by omega)
    refine ⟨e, ?_, hI⟩
    have := runFor_trans hr he
    rwa [Nat.add_sub_cancel' (by omega)] at this

theorem Inside.one {p : Prog} {I : Cfg → Prop} {c : Cfg} (h : I c) : Inside p I 1 c := by
  intro m hm
  obtain rfl : m = 0 := by omega
  exact ⟨c, rfl, h⟩

/-- A run of `n` moves from `c` to `d`, all of whose configurations but the last satisfy `I`. -/
def RunIn (p : Prog) (I : Cfg → Prop) (n : Nat) (c d : Cfg) : Prop :=
  runFor p n c = some d ∧ Inside p I n c

theorem RunIn.refl {p : Prog} {I : Cfg → Prop} {c : Cfg} : RunIn p I 0 c c :=
  ⟨rfl, fun _ h => absurd h (Nat.not_lt_zero _)⟩

theorem RunIn.trans {p : Prog} {I : Cfg → Prop} {m n : Nat} {c d e : Cfg}
    (h1 : RunIn p I m c d) (h2 : RunIn p I n d e) : RunIn p I (m + n) c e :=
  ⟨runFor_trans h1.1 h2.1, h1.2.add h1.1 h2.2⟩

theorem winTape_set (o : Int) (w : List Color) (out : Int → Color) (p : Nat) (col : Color)
    (hp : p < w.length) :
    (fun x => if x = o + p then col else winTape o w out x) = winTape o (w.set p col) out := by
  funext x
  simp only [winTape, List.length_set]
  by_cases hx : x = o + p
  · subst hx
    have h1 : o ≤ o + (p : Int) ∧ o + (p : Int) < o + (w.length : Int) := by omega
    rw [if_pos rfl, if_pos h1]
    simp [List.getD, hp]
  · rw [if_neg hx]
    by_cases h : o ≤ x ∧ x < o + (w.length : Int)
    · rw [if_pos h, if_pos h]
      have h2 : p ≠ (x - o).toNat := by omega
      simp [List.getD, h2]
    · rw [if_neg h, if_neg h]

/-- The configuration with the head at `o + p`. -/
def wcfg (o : Int) (q : State) (p : Int) (w : List Color) (out : Int → Color) : Cfg :=
  ⟨q, o + p, winTape o w out⟩

theorem wcfg_slot (o : Int) (q : State) (p : Nat) (w : List Color) (out : Int → Color)
    (hp : p < w.length) : (wcfg o q p w out).slot = (q, w.getD p 0) := by
  have h1 : o ≤ o + (p : Int) ∧ o + (p : Int) < o + (w.length : Int) := by omega
  have h2 : (o + (p : Int) - o).toNat = p := by omega
  simp only [Cfg.slot, wcfg, winTape, if_pos h1, h2]

theorem GetInstr.prog_ok {g : GetInstr} {s : Slot} {i : Instr} (h : g s = .ok i) :
    g.prog s = some i := by
  simp [GetInstr.prog, h, Except.toOption]

theorem GetInstr.prog_error {g : GetInstr} {s : Slot} {e : MErr} (h : g s = .error e) :
    g.prog s = none := by
  simp [GetInstr.prog, h, Except.toOption]

theorem wcfg_step {g : GetInstr} (o : Int) {q q' : State} (p : Nat) (w : List Color)
    (out : Int → Color) {col : Color} {sh : Bool} (hp : p < w.length)
    (hg : g (q, w.getD p 0) = .ok (col, sh, q')) :
    RunIn g.prog (InWin o w.length) 1 (wcfg o q p w out)
      (wcfg o q' (if sh then (p : Int) + 1 else p - 1) (w.set p col) out) := by
  refine ⟨?_, Inside.one ?_⟩
  · have hs := wcfg_slot o q p w out hp
    rw [runFor_one, step_some (i := (col, sh, q')) (by rw [hs]; exact GetInstr.prog_ok hg)]
    simp only [Cfg.exec, wcfg, Option.some.injEq, Cfg.mk.injEq, true_and]
    refine ⟨?_, winTape_set o w out p col hp⟩
    split <;> omega
  · simp only [InWin, wcfg]; omega

/-! ## Sweeps -/

/-- How the position after a turn of the loop is to be read: past the right end, or one before
the left end when the window was left to the left. -/
def exitPos (side : Bool) (len : Nat) : Int := if side then (len : Int) else -1

theorem sweepRight_spec {g : GetInstr} {q : State} {scan col : Color}
    (hg : g (q, scan) = .ok (col, true, q)) (o : Int) (out : Int → Color) :
    ∀ (rem pos : Nat) (w : List Color), pos + rem = w.length →
      let r := sweepRight scan col rem pos w
      ∃ n, RunIn g.prog (InWin o w.length) n (wcfg o q pos w out) (wcfg o q r.2.1 r.2.2 out) ∧
        r.2.2.length = w.length ∧ n + pos = r.2.1 ∧ (r.1 = true → r.2.1 = w.length) ∧
        (r.1 = false → r.2.1 < w.length) ∧ (0 < rem → w.getD pos 0 = scan → 0 < n) := by
  intro rem
  induction rem with
  | zero =>
    intro pos w h
    refine ⟨0, RunIn.refl, rfl, by simp [sweepRight], ?_, ?_, by omega⟩
    · intro _; simp [sweepRight]; omega
    · intro h; simp [sweepRight] at h
  | succ rem ih =>
    intro pos w h
    simp only [sweepRight]
    by_cases hs : w.getD pos 0 = scan
    · rw [if_pos (by rw [hs]; simp)]
      obtain ⟨n, h1, h2, h3, h4, h5, _⟩ := ih (pos + 1) (w.set pos col) (by simp; omega)
      have hst := wcfg_step (g := g) o pos w out (by omega) (by rw [hs]; exact hg)
      simp only [if_true] at hst
      simp only [List.length_set] at h1 h2 h4 h5
      have e : ((pos : Int) + 1) = ((pos + 1 : Nat) : Int) := by omega
      rw [e] at hst
      refine ⟨1 + n, hst.trans h1, h2, by omega, h4, h5, by omega⟩
    · rw [if_neg (by simpa using hs)]
      refine ⟨0, RunIn.refl, rfl, by simp, by simp, fun _ => by simp; omega, fun _ h => absurd h hs⟩

theorem sweepLeft_spec {g : GetInstr} {q : State} {scan col : Color}
    (hg : g (q, scan) = .ok (col, false, q)) (o : Int) (out : Int → Color) :
    ∀ (pos : Nat) (w : List Color), pos < w.length →
      let r := sweepLeft scan col pos w
      ∃ n, RunIn g.prog (InWin o w.length) n (wcfg o q pos w out)
          (wcfg o q (bif r.1 then -1 else r.2.1) r.2.2 out) ∧
        r.2.2.length = w.length ∧ (r.1 = true → r.2.1 = 0) ∧
        (r.1 = false → r.2.1 < w.length) ∧ (w.getD pos 0 = scan → 0 < n) := by
  intro pos
  induction pos with
  | zero =>
    intro w h
    simp only [sweepLeft]
    by_cases hs : w.getD 0 0 = scan
    · rw [if_pos (by rw [hs]; simp)]
      have hst := wcfg_step (g := g) o 0 w out h (by rw [hs]; exact hg)
      exact ⟨1, by simpa using hst, by simp, by simp, by simp, by simp⟩
    · rw [if_neg (by simpa using hs)]
      exact ⟨0, by simpa using RunIn.refl, rfl, by simp, fun _ => h, fun h => absurd h hs⟩
  | succ pos ih =>
    intro w h
    simp only [sweepLeft]
    by_cases hs : w.getD (pos + 1) 0 = scan
    · rw [if_pos (by rw [hs]; simp)]
      obtain ⟨n, h1, h2, h3, h4, _⟩ := ih (w.set (pos + 1) col) (by simp; omega)
      have hst := wcfg_step (g := g) o (pos + 1) w out h (by rw [hs]; exact hg)
      simp only [List.length_set, Bool.false_eq_true, if_false] at h1 h2 h4 hst
      have e : (((pos + 1 : Nat) : Int) - 1) = (pos : Int) := by omega
      rw [e] at hst
      exact ⟨1 + n, hst.trans h1, h2, h3, h4, by omega⟩
    · rw [if_neg (by simpa using hs)]
      exact ⟨0, by simpa using RunIn.refl, rfl, by simp, fun _ => h, fun h => absurd h hs⟩

/-! ## One turn of the loop -/

/-- What one turn of the loop does to the base machine. -/
theorem winBody_spec {g : GetInstr} {w : Win} {r : WOut} (h : winBody g w = .ok r)
    (hp : w.pos < w.tape.length) (o : Int) (out : Int → Color) :
    ∃ n, 0 < n ∧ match r with
      | .next w' => RunIn g.prog (InWin o w.tape.length) n (wcfg o w.state w.pos w.tape out)
            (wcfg o w'.state w'.pos w'.tape out) ∧ w'.pos < w'.tape.length ∧
            w'.tape.length = w.tape.length
      | .exit side w' => RunIn g.prog (InWin o w.tape.length) n
            (wcfg o w.state w.pos w.tape out)
            (wcfg o w'.state (exitPos side w.tape.length) w'.tape out) ∧
            w'.tape.length = w.tape.length ∧ side = decide (w'.tape.length ≤ w'.pos) := by
  obtain ⟨q, pos, w⟩ := w
  simp only [winBody] at h
  simp only at hp
  cases hg : g (q, w.getD pos 0) with
  | error e => rw [hg] at h; cases h
  | ok i =>
    rw [hg] at h
    obtain ⟨col, sh, q'⟩ := i
    simp only [Except.ok.injEq] at h
    subst h
    simp only [winExec]
    by_cases hq : q' = q
    · subst hq
      simp only [bne_self_eq_false, Bool.false_eq_true, if_false]
      cases sh
      · simp only [Bool.false_eq_true, if_false]
        obtain ⟨n, h1, h2, h3, h4, h5⟩ := sweepLeft_spec hg o out pos w hp
        refine ⟨n, h5 rfl, ?_⟩
        cases hr : (sweepLeft (w.getD pos 0) col pos w).1 with
        | true =>
          simp only [hr, cond_true] at h1
          simp only [if_true]
          refine ⟨by simpa [exitPos] using h1, h2, ?_⟩
          rw [h3 hr, h2]
          simp; intro h; subst h; simp at hp
        | false =>
          simp only [hr, cond_false] at h1
          simp only [Bool.false_eq_true, if_false]
          exact ⟨h1, by rw [h2]; exact h4 hr, h2⟩
      · simp only [if_true]
        obtain ⟨n, h1, h2, h3, h4, h5, h6⟩ :=
          sweepRight_spec hg o out (w.length - pos) pos w (by omega)
        refine ⟨n, h6 (by omega) rfl, ?_⟩
        cases hr : (sweepRight (w.getD pos 0) col (w.length - pos) pos w).1 with
        | true =>
          simp only [if_true]
          rw [h4 hr] at h1
          refine ⟨by simpa [exitPos] using h1, h2, ?_⟩
          rw [h4 hr, h2]
          simp
        | false =>
          simp only [Bool.false_eq_true, if_false]
          exact ⟨h1, by rw [h2]; exact h5 hr, h2⟩
    · rw [if_pos (by simpa using hq)]
      have hst := wcfg_step o pos w out hp hg
      refine ⟨1, by omega, ?_⟩
      cases sh
      · simp only [Bool.false_eq_true, if_false] at hst ⊢
        by_cases h0 : pos = 0
        · subst h0
          simp only [beq_self_eq_true, if_true]
          refine ⟨by simpa [exitPos] using hst, by simp, ?_⟩
          simp; intro h; subst h; simp at hp
        · rw [if_neg (by simpa using h0)]
          have e : ((pos : Int) - 1) = ((pos - 1 : Nat) : Int) := by omega
          rw [e] at hst
          exact ⟨hst, by simp; omega, by simp⟩
      · simp only [if_true] at hst ⊢
        have e : ((pos : Int) + 1) = ((pos + 1 : Nat) : Int) := by omega
        by_cases h0 : w.length ≤ pos + 1
        · rw [if_pos h0]
          have : w.length = pos + 1 := by omega
          refine ⟨by simpa [exitPos, this] using hst, by simp, ?_⟩
          simp; omega
        · rw [if_neg h0]
          rw [e] at hst
          exact ⟨hst, by simp; omega, by simp⟩

theorem winBody_error {g : GetInstr} {w : Win} {e : MErr} (h : winBody g w = .error e) :
    g (w.state, w.tape.getD w.pos 0) = .error e := by
  simp only [winBody] at h
  split at h
  · rename_i e' he; cases h; exact he
  · cases h

/-! ## The whole loop -/

/-- The machine sits in the window at a slot for which `g` raises `e`. -/
def StopsIn (g : GetInstr) (I : Cfg → Prop) (c : Cfg) (e : MErr) : Prop :=
  ∃ n d, RunIn g.prog I n c d ∧ I d ∧ g d.slot = .error e

theorem winLoop_ok {g : GetInstr} (o : Int) (out : Int → Color) :
    ∀ (lim : Nat) (w : Win) (r : MConfig), winLoop g lim w = .ok r → w.pos < w.tape.length →
      r.2.2.length = w.tape.length ∧
      ∃ n, 0 < n ∧ RunIn g.prog (InWin o w.tape.length) n (wcfg o w.state w.pos w.tape out)
          (wcfg o r.1 (exitPos r.2.1 w.tape.length) r.2.2 out) := by
  intro lim
  induction lim with
  | zero => intro w r h; simp [winLoop] at h
  | succ lim ih =>
    intro w r h hp
    simp only [winLoop] at h
    cases hb : winBody g w with
    | error e => rw [hb] at h; cases h
    | ok b =>
      rw [hb] at h
      obtain ⟨n, hn, hs⟩ := winBody_spec hb hp o out
      cases b with
      | next w' =>
        simp only at h hs
        obtain ⟨h1, n', hn', h2⟩ := ih w' r h hs.2.1
        rw [hs.2.2] at h1 h2
        exact ⟨h1, n + n', by omega, hs.1.trans h2⟩
      | exit side w' =>
        simp only [Except.ok.injEq] at h hs
        subst h
        refine ⟨hs.2.1, n, hn, ?_⟩
        simp only
        rw [← hs.2.2]
        exact hs.1

theorem winLoop_keyError {g : GetInstr} (o : Int) (out : Int → Color) {e : MErr}
    (he : e ≠ .infLoop) :
    ∀ (lim : Nat) (w : Win), winLoop g lim w = .error e → w.pos < w.tape.length →
      StopsIn g (InWin o w.tape.length) (wcfg o w.state w.pos w.tape out) e := by
  intro lim
  induction lim with
  | zero => intro w h; simp [winLoop] at h; exact absurd h.symm he
  | succ lim ih =>
    intro w h hp
    simp only [winLoop] at h
    cases hb : winBody g w with
    | error e' =>
      rw [hb] at h
      cases h
      refine ⟨0, _, RunIn.refl, ?_, ?_⟩
      · simp only [InWin, wcfg]; omega
      · rw [wcfg_slot _ _ _ _ _ hp]; exact winBody_error hb
    | ok b =>
      rw [hb] at h
      obtain ⟨n, hn, hs⟩ := winBody_spec hb hp o out
      cases b with
      | next w' =>
        simp only at h hs
        obtain ⟨n', d, h1, h2, h3⟩ := ih w' h hs.2.1
        rw [hs.2.2] at h1 h2
        exact ⟨n + n', d, hs.1.trans h1, h2, h3⟩
      | exit side w' => simp at h

/-! ## Exhausting the limit -/

/-- `n` turns of the loop that all stay in the window. -/
def winIter (g : GetInstr) : Nat → Win → Option Win
  | 0, w => some w
  | n + 1, w =>
    match winBody g w with
    | .ok (.next w') => winIter g n w'
    | _ => none

theorem winIter_add {g : GetInstr} (m n : Nat) (w : Win) :
    winIter g (m + n) w = (winIter g m w).bind (winIter g n) := by
  induction m generalizing w with
  | zero => simp [winIter]
  | succ m ih =>
    rw [Nat.succ_add]
    simp only [winIter]
    split
    · exact ih _
    · rfl

theorem winIter_spec {g : GetInstr} (o : Int) (out : Int → Color) :
    ∀ (k : Nat) (w w' : Win), winIter g k w = some w' → w.pos < w.tape.length →
      w'.pos < w'.tape.length ∧ w'.tape.length = w.tape.length ∧
      ∃ n, k ≤ n ∧ RunIn g.prog (InWin o w.tape.length) n (wcfg o w.state w.pos w.tape out)
          (wcfg o w'.state w'.pos w'.tape out) := by
  intro k
  induction k with
  | zero =>
    intro w w' h hp
    simp only [winIter, Option.some.injEq] at h
    subst h
    exact ⟨hp, rfl, 0, Nat.le_refl _, RunIn.refl⟩
  | succ k ih =>
    intro w w' h hp
    simp only [winIter] at h
    split at h
    · rename_i v hb
      obtain ⟨n, hn, hs, h1, h2⟩ := winBody_spec hb hp o out
      obtain ⟨a1, a2, n', hn', a3⟩ := ih v w' h h1
      rw [h2] at a2 a3
      exact ⟨a1, a2, n + n', by omega, hs.trans a3⟩
    · cases h

/-- The limit ran out, or `g` itself reported a loop inside the window. -/
theorem winLoop_infLoop {g : GetInstr} (o : Int) (out : Int → Color) :
    ∀ (lim : Nat) (w : Win), winLoop g lim w = .error .infLoop → w.pos < w.tape.length →
      (winIter g lim w).isSome ∨
      StopsIn g (InWin o w.tape.length) (wcfg o w.state w.pos w.tape out) .infLoop := by
  intro lim
  induction lim with
  | zero => intro w _ _; exact .inl rfl
  | succ lim ih =>
    intro w h hp
    simp only [winLoop] at h
    simp only [winIter]
    cases hb : winBody g w with
    | error e' =>
      rw [hb] at h
      cases h
      refine .inr ⟨0, _, RunIn.refl, ?_, ?_⟩
      · simp only [InWin, wcfg]; omega
      · rw [wcfg_slot _ _ _ _ _ hp]; exact winBody_error hb
    | ok b =>
      rw [hb] at h
      obtain ⟨n, hn, hs⟩ := winBody_spec hb hp o out
      cases b with
      | next w' =>
        simp only at h hs ⊢
        rcases ih w' h hs.2.1 with hh | ⟨n', d, h1, h2, h3⟩
        · exact .inl hh
        · rw [hs.2.2] at h1 h2
          exact .inr ⟨n + n', d, hs.1.trans h1, h2, h3⟩
      | exit side w' => simp at h

/-- The program stays within `S` states and `C` colours. -/
def GetInstr.Within (g : GetInstr) (S C : Nat) : Prop :=
  ∀ s col sh q, g s = .ok (col, sh, q) → col < C ∧ q < S

/-- A window configuration within `S` states, `C` colours, `n` cells. -/
structure Win.Ok (w : Win) (S C n : Nat) : Prop where
  state : w.state < S
  pos : w.pos < n
  len : w.tape.length = n
  cells : ∀ c ∈ w.tape, c < C

theorem mem_set_lt {C : Nat} {w : List Color} {p : Nat} {col : Color} (h : ∀ c ∈ w, c < C)
    (hc : col < C) : ∀ c ∈ w.set p col, c < C := by
  intro c hm
  rcases List.mem_or_eq_of_mem_set hm with h1 | h1
  · exact h c h1
  · exact h1 ▸ hc

theorem sweepRight_cells {C : Nat} {scan col : Color} (hc : col < C) :
    ∀ (rem pos : Nat) (w : List Color), (∀ c ∈ w, c < C) →
      ∀ c ∈ (sweepRight scan col rem pos w).2.2, c < C := by
  intro rem
  induction rem with
  | zero => intro pos w h; simpa [sweepRight] using h
  | succ rem ih =>
    intro pos w h
    simp only [sweepRight]
    split
    · exact ih _ _ (mem_set_lt h hc)
    · exact h

theorem sweepLeft_cells {C : Nat} {scan col : Color} (hc : col < C) :
    ∀ (pos : Nat) (w : List Color), (∀ c ∈ w, c < C) →
      ∀ c ∈ (sweepLeft scan col pos w).2.2, c < C := by
  intro pos
  induction pos with
  | zero =>
    intro w h
    simp only [sweepLeft]
    split
    · exact mem_set_lt h hc
    · exact h
  | succ pos ih =>
    intro w h
    simp only [sweepLeft]
    split
    · exact ih _ (mem_set_lt h hc)
    · exact h

/-- The window after a turn, whether it was left or not. -/
def WOut.win : WOut → Win
  | .next w => w
  | .exit _ w => w

theorem winBody_cells {g : GetInstr} {S C : Nat} (hw : g.Within S C) {w : Win} {r : WOut}
    (h : winBody g w = .ok r) (hc : ∀ c ∈ w.tape, c < C) :
    r.win.state < S ∧ ∀ c ∈ r.win.tape, c < C := by
  simp only [winBody] at h
  cases hg : g (w.state, w.tape.getD w.pos 0) with
  | error e => rw [hg] at h; cases h
  | ok i =>
    rw [hg] at h
    obtain ⟨col, sh, q'⟩ := i
    obtain ⟨h1, h2⟩ := hw _ _ _ _ hg
    simp only [Except.ok.injEq] at h
    subst h
    simp only [winExec]
    by_cases hq : q' = w.state
    · rw [if_neg (by simpa using hq)]
      have hcells : ∀ c ∈ (if sh then sweepRight (w.tape.getD w.pos 0) col
          (w.tape.length - w.pos) w.pos w.tape
          else sweepLeft (w.tape.getD w.pos 0) col w.pos w.tape).2.2, c < C := by
        cases sh
        · exact sweepLeft_cells h1 _ _ hc
        · exact sweepRight_cells h1 _ _ _ hc
      generalize (if sh then sweepRight (w.tape.getD w.pos 0) col
          (w.tape.length - w.pos) w.pos w.tape
          else sweepLeft (w.tape.getD w.pos 0) col w.pos w.tape) = r at hcells ⊢
      split
      · exact ⟨hq ▸ h2, hcells⟩
      · exact ⟨hq ▸ h2, hcells⟩
    · rw [if_pos (by simpa using hq)]
      have hcells := mem_set_lt (p := w.pos) hc h1
      split
      · split <;> exact ⟨h2, hcells⟩
      · split <;> exact ⟨h2, hcells⟩

theorem winIter_ok {g : GetInstr} {S C n : Nat} (hw : g.Within S C) :
    ∀ (k : Nat) (w w' : Win), winIter g k w = some w' → w.Ok S C n → w'.Ok S C n := by
  intro k
  induction k with
  | zero => intro w w' h hk; simp only [winIter, Option.some.injEq] at h; exact h ▸ hk
  | succ k ih =>
    intro w w' h hk
    simp only [winIter] at h
    split at h
    · rename_i v hb
      have hp : w.pos < w.tape.length := by rw [hk.len]; exact hk.pos
      obtain ⟨_, _, _, h1, h2⟩ := winBody_spec hb hp 0 (fun _ => 0)
      obtain ⟨c1, c2⟩ := winBody_cells hw hb hk.cells
      refine ih v w' h ⟨c1, ?_, ?_, c2⟩
      · rw [← hk.len, ← h2]; exact h1
      · rw [h2]; exact hk.len
    · cases h

/-- Too many turns force a repetition. -/
theorem winIter_repeat {g : GetInstr} {S C n : Nat} (hw : g.Within S C) {w : Win}
    (hk : w.Ok S C n) (h : (winIter g (S * n * C ^ n) w).isSome) :
    ∃ i j v, i < j ∧ winIter g i w = some v ∧ winIter g j w = some v := by
  have hall : ∀ i : Fin (S * n * C ^ n + 1), ∃ v, winIter g i w = some v ∧ v.Ok S C n := by
    intro i
    have hle : S * n * C ^ n = i + (S * n * C ^ n - i) := by omega
    rw [hle, winIter_add] at h
    cases hv : winIter g i w with
    | none => rw [hv] at h; simp at h
    | some v => exact ⟨v, rfl, winIter_ok hw _ _ _ hv hk⟩
  choose f hf hok using hall
  let code : Fin (S * n * C ^ n + 1) → Fin S × Fin n × (Fin n → Fin C) := fun i =>
    (⟨(f i).state, (hok i).state⟩, ⟨(f i).pos, (hok i).pos⟩, fun j =>
      ⟨(f i).tape[j.1]'(by rw [(hok i).len]; exact j.2), (hok i).cells _ (List.getElem_mem _)⟩)
  have hcard : Fintype.card (Fin S × Fin n × (Fin n → Fin C)) <
      Fintype.card (Fin (S * n * C ^ n + 1)) := by
    simp only [Fintype.card_prod, Fintype.card_fin, Fintype.card_pi, Finset.prod_const,
      Finset.card_univ]
    have : S * (n * C ^ n) = S * n * C ^ n := by rw [Nat.mul_assoc]
    omega
  obtain ⟨i, j, hne, heq⟩ := Fintype.exists_ne_map_eq_of_card_lt code hcard
  have hff : f i = f j := by
    simp only [code, Prod.mk.injEq, Fin.mk.injEq] at heq
    obtain ⟨e1, e2, e3⟩ := heq
    have e4 : (f i).tape = (f j).tape := by
      apply List.ext_getElem
      · rw [(hok i).len, (hok j).len]
      · intro m h1 h2
        have := congrFun e3 ⟨m, by rw [← (hok i).len]; exact h1⟩
        simpa using this
    cases hi : f i; cases hj : f j
    simp_all
  rcases Nat.lt_or_gt_of_ne (fun h => hne (Fin.ext h)) with hlt | hlt
  · exact ⟨i, j, f i, hlt, hf i, hff ▸ hf j⟩
  · exact ⟨j, i, f j, hlt, hf j, hff ▸ hf i⟩

/-- A repeated window configuration is a loop that never leaves the window. -/
theorem winIter_forever {g : GetInstr} {w v : Win} {i j : Nat} (hij : i < j)
    (hi : winIter g i w = some v) (hj : winIter g j w = some v) : ∀ k, (winIter g k w).isSome := by
  have hcyc : winIter g (j - i) v = some v := by
    have : j = i + (j - i) := by omega
    rw [this, winIter_add, hi] at hj
    exact hj
  have hmul : ∀ m, winIter g (m * (j - i)) v = some v := by
    intro m
    induction m with
    | zero => simp [winIter]
    | succ m ih => rw [Nat.succ_mul, winIter_add, ih]; exact hcyc
  intro k
  have hbig : winIter g (i + k * (j - i)) w = some v := by
    rw [winIter_add, hi]; exact hmul k
  have hle : i + k * (j - i) = k + (i + k * (j - i) - k) := by
    have : k * 1 ≤ k * (j - i) := Nat.mul_le_mul_left _ (by omega)
    omega
  rw [hle, winIter_add] at hbig
  cases hk : winIter g k w with
  | none => rw [hk] at hbig; simp at hbig
  | some _ => rfl

/-- From `c` the machine runs for ever with its head in the window. -/
def StaysIn (p : Prog) (I : Cfg → Prop) (c : Cfg) : Prop :=
  ∀ n, ∃ d, runFor p n c = some d ∧ I d

theorem staysIn_of_iter {g : GetInstr} {w : Win} (hp : w.pos < w.tape.length)
    (h : ∀ k, (winIter g k w).isSome) (o : Int) (out : Int → Color) :
    StaysIn g.prog (InWin o w.tape.length) (wcfg o w.state w.pos w.tape out) := by
  intro n
  obtain ⟨v, hv⟩ := Option.isSome_iff_exists.mp (h (n + 1))
  obtain ⟨_, _, m, hm, hr⟩ := winIter_spec o out _ _ _ hv hp
  exact hr.2 n (by omega)

theorem StaysIn.neverHalts {p : Prog} {I : Cfg → Prop} {c : Cfg} (h : StaysIn p I c) :
    NeverHalts p c := fun n => by
  obtain ⟨d, hd, _⟩ := h n
  rw [hd]; rfl

end BB
