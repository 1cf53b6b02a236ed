import Verif.Lemmas.Ring
import Verif.Lemmas.MacroRun
import Verif.Lemmas.Forever

/-! # Infinite loops of backsymbol macros

The limit of a backsymbol macro with `k` remembered cells is `2 * S * C ^ (k + 1)`; its window has
`k + 1` cells. -/

namespace BB

/-- The configurations of a run, one after the other. -/
def along (p : Prog) (c : Cfg) (t : Nat) : Cfg := (runFor p t c).getD c

theorem along_succ {p : Prog} {c : Cfg} {t : Nat} (h : (runFor p (t + 1) c).isSome) :
    step p (along p c t) = some (along p c (t + 1)) := by
  obtain ⟨e, he⟩ := Option.isSome_iff_exists.mp h
  obtain ⟨d, hd⟩ := Option.isSome_iff_exists.mp (runFor_isSome_of_le (Nat.le_succ t) h)
  have h1 := runFor_succ' p t c
  rw [he, hd] at h1
  simp only [along, he, hd, Option.getD_some]
  exact h1.symm

theorem step_exec {p : Prog} {c d : Cfg} (h : step p c = some d) :
    ∃ i, p c.slot = some i ∧ d = c.exec i := by
  cases hp : p c.slot with
  | none => rw [step_none hp] at h; cases h
  | some i =>
    rw [step_some hp, Option.some.injEq] at h
    exact ⟨i, rfl, h.symm⟩

/-- Colours and states stay below the parameters. -/
theorem along_bounds {g : GetInstr} {S C : Nat} (hw : g.Within S C) {c : Cfg} {I : Int → Prop}
    (hq : c.state < S) (hc : ∀ x, I x → c.tape x < C) : ∀ t, (runFor g.prog t c).isSome →
      (along g.prog c t).state < S ∧ ∀ x, I x → (along g.prog c t).tape x < C := by
  intro t
  induction t with
  | zero => intro _; exact ⟨hq, hc⟩
  | succ t ih =>
    intro h
    obtain ⟨h1, h2⟩ := ih (runFor_isSome_of_le (Nat.le_succ t) h)
    obtain ⟨⟨col, sh, q⟩, hp, he⟩ := step_exec (along_succ h)
    have hg : g (along g.prog c t).slot = .ok (col, sh, q) := by
      generalize (along g.prog c t).slot = s at hp
      unfold GetInstr.prog at hp
      cases hgs : g s with
      | error e => rw [hgs] at hp; cases hp
      | ok i =>
        rw [hgs] at hp
        simp only [Except.toOption, Option.some.injEq] at hp
        rw [hp]
    obtain ⟨hcol, hst⟩ := hw _ _ _ _ hg
    rw [he]
    refine ⟨hst, fun x hx => ?_⟩
    simp only [Cfg.exec]
    split
    · exact hcol
    · exact h2 x hx

/-- A configuration that comes back in a window keeps the machine there. -/
theorem staysIn_of_repeat {p : Prog} {I : Cfg → Prop} {c d : Cfg} {a b : Nat} (hab : a < b)
    (ha : runFor p a c = some d) (hb : runFor p b c = some d)
    (hI : ∀ m, m ≤ b → ∃ e, runFor p m c = some e ∧ I e) : StaysIn p I c := by
  intro m
  induction m using Nat.strongRecOn with
  | ind m ih =>
    by_cases hm : m ≤ b
    · exact hI m hm
    · obtain ⟨k, rfl⟩ : ∃ k, m = b + k := ⟨m - b, by omega⟩
      obtain ⟨e, he, hi⟩ := ih (a + k) (by omega)
      refine ⟨e, ?_, hi⟩
      rw [runFor_add, ha] at he
      rw [runFor_add, hb]
      exact he

/-- With two colours or more, a head that stays for `2 * S * C ^ n` moves in a window of `n` cells
stays there for ever. -/
theorem staysIn_of_long {g : GetInstr} {S C n : Nat} (hw : g.Within S C) (hC : 2 ≤ C) {o : Int}
    {c : Cfg} (hn : 0 < n) (hq : c.state < S) (hc : ∀ x, o ≤ x ∧ x < o + n → c.tape x < C)
    (h : ∀ m, m ≤ 2 * (S * C ^ n) → ∃ e, runFor g.prog m c = some e ∧ InWin o n e) :
    StaysIn g.prog (InWin o n) c := by
  have hsome : ∀ m, m ≤ 2 * (S * C ^ n) → (runFor g.prog m c).isSome := by
    intro m hm
    obtain ⟨e, he, _⟩ := h m hm
    rw [he]; rfl
  have hat : ∀ m, m ≤ 2 * (S * C ^ n) → runFor g.prog m c = some (along g.prog c m) ∧
      InWin o n (along g.prog c m) := by
    intro m hm
    obtain ⟨e, he, hI⟩ := h m hm
    simp only [along, he, Option.getD_some]
    exact ⟨trivial, hI⟩
  let r : Trace n S C (2 * (S * C ^ n)) :=
    { q := fun t => (along g.prog c t).state
      pos := fun t => (along g.prog c t).pos - o
      tape := fun t x => (along g.prog c t).tape (x + o)
      q_lt := fun t ht => (along_bounds hw hq hc t (hsome t ht)).1
      pos_in := fun t ht => by
        have := (hat t ht).2
        simp only [InWin] at this
        omega
      cell_lt := fun t ht x h0 h1 =>
        (along_bounds hw hq hc t (hsome t ht)).2 _ (by omega)
      det := fun s t hs ht hqq hcc => by
        obtain ⟨i, hi, hie⟩ := step_exec (along_succ (hsome (s + 1) hs))
        obtain ⟨j, hj, hje⟩ := step_exec (along_succ (hsome (t + 1) ht))
        rw [Int.sub_add_cancel, Int.sub_add_cancel] at hcc ⊢
        have hij : i = j := by
          have : (along g.prog c s).slot = (along g.prog c t).slot := by
            simp only [Cfg.slot, hqq, hcc]
          rw [this, hj, Option.some.injEq] at hi
          exact hi.symm
        subst hij
        rw [hie, hje]
        obtain ⟨col, sh, q⟩ := i
        refine ⟨rfl, ?_, ?_⟩
        · cases sh <;> simp [Cfg.exec]
        · simp [Cfg.exec]
      frame := fun t ht x hx => by
        obtain ⟨i, hi, hie⟩ := step_exec (along_succ (hsome (t + 1) ht))
        rw [hie]
        obtain ⟨col, sh, q⟩ := i
        simp only [Cfg.exec]
        exact if_neg (by omega) }
  obtain ⟨a, b, hab, hb, h1, h2, h3⟩ := Trace.repeats hC hn r
  have hout : ∀ t, t ≤ 2 * (S * C ^ n) → ∀ x, ¬ (o ≤ x ∧ x < o + n) →
      (along g.prog c t).tape x = c.tape x := by
    intro t ht x hx
    have h4 := r.tape_same 0 (x - o) t (by omega) (fun u hu e => by
      have := r.pos_in (0 + u) (by omega)
      omega)
    rw [Nat.zero_add] at h4
    simpa [r, along, runFor] using h4
  have heq : along g.prog c a = along g.prog c b := by
    have ht : (along g.prog c a).tape = (along g.prog c b).tape := by
      funext x
      by_cases hx : o ≤ x ∧ x < o + n
      · have := h3 (x - o) (by omega) (by omega)
        simpa [r] using this
      · rw [hout a (by omega) x hx, hout b hb x hx]
    have hp : (along g.prog c a).pos = (along g.prog c b).pos := by
      simp only [r] at h2
      omega
    have hs : (along g.prog c a).state = (along g.prog c b).state := h1
    generalize along g.prog c a = u at *
    generalize along g.prog c b = v at *
    cases u; cases v
    simp only at ht hp hs
    subst ht hp hs
    rfl
  exact staysIn_of_repeat hab (by rw [(hat a (by omega)).1, heq]) (hat b hb).1
    (fun m hm => h m (by omega))

/-- With one colour, a machine that has made `S` moves never halts. -/
theorem neverHalts_one {g : GetInstr} {S : Nat} (hw : g.Within S 1) {c : Cfg} (hq : c.state < S)
    (hc : ∀ x, c.tape x < 1) {m : Nat} (hm : S ≤ m) (h : (runFor g.prog m c).isSome) :
    NeverHalts g.prog c := by
  have hsome : ∀ t, t ≤ S → (runFor g.prog t c).isSome :=
    fun t ht => runFor_isSome_of_le (by omega) h
  have hb : ∀ t, t ≤ S → (along g.prog c t).state < S ∧ (along g.prog c t).Blank := by
    intro t ht
    obtain ⟨h1, h2⟩ := along_bounds hw (I := fun _ => True) hq (fun x _ => hc x) t (hsome t ht)
    exact ⟨h1, fun x => Nat.lt_one_iff.mp (h2 x trivial)⟩
  have hat : ∀ t, t ≤ S → runFor g.prog t c = some (along g.prog c t) := by
    intro t ht
    obtain ⟨e, he⟩ := Option.isSome_iff_exists.mp (hsome t ht)
    simp only [along, he, Option.getD_some]
  obtain ⟨x, y, hxy, he⟩ := Fintype.exists_ne_map_eq_of_card_lt
    (fun i : Fin (S + 1) => (⟨(along g.prog c i).state, (hb i (by omega)).1⟩ : Fin S)) (by simp)
  simp only [Fin.mk.injEq] at he
  have main : ∀ a b : Nat, a < b → b ≤ S → (along g.prog c a).state = (along g.prog c b).state →
      NeverHalts g.prog c := by
    intro a b hab hbS hs
    have h1 := (hb a (by omega)).2.eq_translate (hb b hbS).2 hs
    have h2 : runFor g.prog (b - a) (along g.prog c a) = some (along g.prog c b) := by
      have := hat b hbS
      rw [← Nat.add_sub_cancel' hab.le, runFor_add, hat a (by omega)] at this
      rw [Nat.add_sub_cancel' hab.le] at this
      exact this
    rw [h1] at h2
    have h3 := neverHalts_of_translate (by omega) h2
    intro k
    have h4 := h3 k
    apply runFor_isSome_of_le (Nat.le_add_left k a)
    rw [runFor_add, hat a (by omega)]
    exact h4
  rcases Nat.lt_or_gt_of_ne (fun e => hxy (Fin.ext e)) with h1 | h1
  · exact main x y h1 (by omega) he
  · exact main y x h1 (by omega) he.symm

theorem back_limit (S C k : Nat) : 2 * S * C ^ k * C = 2 * (S * C ^ (k + 1)) := by
  rw [Nat.pow_succ]
  simp only [Nat.mul_assoc]

/-- What is known when the limit is reached. -/
theorem backInstr_long {g : GetInstr} {S C k : Nat} {c : Cfg}
    (h : backInstr g k S C c.slot = .error .infLoop) :
    (∀ m, m ≤ 2 * (S * C ^ (k + 1)) → ∃ e, runFor g.prog m (unback C k c) = some e ∧
      InWin (-c.pos - k) (k + 1) e) ∨
    StopsIn g (InWin (-c.pos - k) (k + 1)) (unback C k c) .infLoop := by
  simp only [backInstr] at h
  have hlw := backWindow_length k C c.slot
  cases hs : simulate g (2 * S * C ^ k * C) (backWindow k C c.slot) with
  | ok r => rw [hs] at h; cases h
  | error e' =>
    rw [hs] at h
    cases h
    have hp := winStart_pos (backWindow k C c.slot) (by omega)
    have hlen : (winStart (backWindow k C c.slot)).tape.length = k + 1 := by
      rw [← hlw]; rfl
    have hst := unback_start C k c
    have := winLoop_infLoop (-c.pos - k) (unback C k c).tape _ _ hs hp
    rw [hlen] at this
    simp only [winStart] at this
    rw [hst] at this
    rcases this with h1 | h1
    · left
      obtain ⟨v, hv⟩ := Option.isSome_iff_exists.mp h1
      obtain ⟨a1, a2, m, hm, hr⟩ := winIter_spec (-c.pos - k) (unback C k c).tape _ _ _ hv hp
      simp only at a2
      rw [hlw] at a2
      simp only at hr
      rw [hst, hlw] at hr
      rw [back_limit] at hm
      intro i hi
      by_cases him : i < m
      · exact hr.2 i him
      · obtain rfl : i = m := by omega
        refine ⟨_, hr.1, ?_⟩
        simp only [InWin, wcfg]
        omega
    · exact .inr h1

theorem unback_state_lt {S C k : Nat} {c : Cfg} (hC : 0 < C) (hq : c.state < 2 * S * C ^ k) :
    (unback C k c).state < S := by
  simp only [unback]
  rw [Nat.div_lt_iff_lt_mul (Nat.pow_pos hC)]
  have : 2 * S * C ^ k = 2 * (S * C ^ k) := Nat.mul_assoc _ _ _
  tm_omega

/-- Cells of the window, which hold the colour that the macro head reads and the remembered ones. -/
theorem unback_window_lt {C k : Nat} {c : Cfg} (hC : 0 < C) (hcol : c.tape c.pos < C) (x : Int)
    (hx : -c.pos - k ≤ x ∧ x < -c.pos - k + (k + 1 : Nat)) : (unback C k c).tape x < C := by
  simp only [unback]
  split
  · split
    · have : -(k : Int) - x = c.pos := by omega
      rw [this]; exact hcol
    · split
      · exact Nat.mod_lt _ hC
      · omega
  · split
    · omega
    · split
      · exact Nat.mod_lt _ hC
      · have : -x = c.pos := by omega
        rw [this]; exact hcol

theorem unback_cells_lt {C k : Nat} {c : Cfg} (hC : 0 < C) (hcol : ∀ x, c.tape x < C) (x : Int) :
    (unback C k c).tape x < C := by
  simp only [unback]
  repeat' split
  all_goals first
    | exact hcol _
    | exact Nat.mod_lt _ hC

/-- The loop is real: the head never leaves the window. -/
theorem backInstr_infLoop_all {g : GetInstr} {S C k : Nat} (hw : g.Within S C) (hC : 2 ≤ C)
    {c : Cfg} (hcol : c.tape c.pos < C) (hq : c.state < 2 * S * C ^ k)
    (h : backInstr g k S C c.slot = .error .infLoop) :
    StaysIn g.prog (InWin (-c.pos - k) (k + 1)) (unback C k c) ∨
      StopsIn g (InWin (-c.pos - k) (k + 1)) (unback C k c) .infLoop := by
  rcases backInstr_long h with h1 | h1
  · exact .inl (staysIn_of_long hw hC (by omega) (unback_state_lt (by omega) hq)
      (unback_window_lt (by omega) hcol) h1)
  · exact .inr h1

theorem back_loopsRight {g : GetInstr} {S C k : Nat} (hw : g.Within S C) (hC : 0 < C) :
    LoopsRight (backInstr g k S C) g (unback C k) (BackOk S C k) where
  loop := by
    intro c hj h
    rcases Nat.lt_or_ge C 2 with h2 | h2
    · obtain rfl : C = 1 := by omega
      rcases backInstr_long h with h1 | h1
      · left
        obtain ⟨e, he, _⟩ := h1 _ (le_refl _)
        refine neverHalts_one hw (unback_state_lt hC hj.1) (unback_cells_lt hC hj.2)
          (m := 2 * (S * 1 ^ (k + 1))) (by rw [Nat.one_pow]; omega) ?_
        rw [he]; rfl
      · exact .inr h1.stop
    · rcases backInstr_infLoop_all hw h2 (hj.2 c.pos) hj.1 h with h1 | h1
      · exact .inl h1.neverHalts
      · exact .inr h1.stop

end BB
