import Verif.Lemmas.CStmtCheck
import Verif.Lemmas.CSim

/-! # A C program that passes the check follows the machine -/

namespace BB
namespace CS

/-! ## What the check says -/

theorem explore_sound {f : Spot → Option (List Spot)} (n : Nat) :
    ∀ {todo seen R : List Spot}, explore f n todo seen = some R →
      (∀ s ∈ seen, ∃ l, f s = some l ∧ ∀ t ∈ l, t ∈ seen ∨ t ∈ todo) →
      (∀ s ∈ todo, s ∈ R) ∧ (∀ s ∈ seen, s ∈ R) ∧ ∀ s ∈ R, ∃ l, f s = some l ∧ ∀ t ∈ l, t ∈ R := by
  induction n with
  | zero =>
    intro todo seen R h hs
    cases todo with
    | cons s todo => simp [explore] at h
    | nil =>
      simp only [explore, Option.some.injEq] at h
      subst h
      refine ⟨by simp, fun s h => h, fun s h => ?_⟩
      obtain ⟨l, h1, h2⟩ := hs s h
      exact ⟨l, h1, fun t ht => (h2 t ht).elim id (by simp)⟩
  | succ n ih =>
    intro todo seen R h hs
    cases todo with
    | nil =>
      simp only [explore, Option.some.injEq] at h
      subst h
      refine ⟨by simp, fun s h => h, fun s h => ?_⟩
      obtain ⟨l, h1, h2⟩ := hs s h
      exact ⟨l, h1, fun t ht => (h2 t ht).elim id (by simp)⟩
    | cons s todo =>
      rw [explore] at h
      split at h
      · rename_i hm
        obtain ⟨h1, h2, h3⟩ := ih h fun t ht => by
          obtain ⟨l, g1, g2⟩ := hs t ht
          refine ⟨l, g1, fun u hu => ?_⟩
          rcases g2 u hu with g | g
          · exact .inl g
          · rcases List.mem_cons.1 g with rfl | g
            · exact .inl hm
            · exact .inr g
        refine ⟨fun t ht => ?_, h2, h3⟩
        rcases List.mem_cons.1 ht with rfl | ht
        · exact h2 _ hm
        · exact h1 _ ht
      · obtain ⟨l, hl, h⟩ := Option.bind_eq_some_iff.1 h
        obtain ⟨h1, h2, h3⟩ := ih h fun t ht => by
          rcases List.mem_cons.1 ht with rfl | ht
          · exact ⟨l, hl, fun u hu => .inr (List.mem_append_left _ hu)⟩
          · obtain ⟨l', g1, g2⟩ := hs t ht
            refine ⟨l', g1, fun u hu => ?_⟩
            rcases g2 u hu with g | g
            · exact .inl (List.mem_cons_of_mem _ g)
            · rcases List.mem_cons.1 g with rfl | g
              · exact .inl (List.mem_cons_self ..)
              · exact .inr (List.mem_append_right _ g)
        refine ⟨fun t ht => ?_, fun t ht => h2 t (List.mem_cons_of_mem _ ht), h3⟩
        rcases List.mem_cons.1 ht with rfl | ht
        · exact h2 _ (List.mem_cons_self ..)
        · exact h1 _ (List.mem_append_right _ ht)

/-- What is true of a spot with the spots `R` after it. -/
structure SpotOk (main : Stmt) (tab : List (List (Option Instr))) (checks : Bool) (K wd : Nat)
    (R : List Spot) (s : Spot) : Prop where
  halt : ∀ x ∈ s.colors K, s.state = 7 → toCheck main x fuel s.code s.kont = true
  move : ∀ x ∈ s.colors K, s.state ≠ 7 → ∀ i, ofTable tab (s.state, x) = some i →
    ∃ r s' k', trace main fuel x none false s.code s.kont = .move i.1 i.2.1 r s' k' ∧ i.1 < K ∧
      recurOk checks s x i r = true ∧ s.after wd i.1 i.2.1 s' k' i.2.2 ∈ R

theorem nexts_sound {main : Stmt} {tab : List (List (Option Instr))} {checks : Bool} {K wd : Nat}
    {s : Spot} {l : List Spot} (h : nexts main tab checks K wd s = some l) :
    SpotOk main tab checks K wd l s := by
  unfold nexts at h
  suffices hk : ∀ (xs : List Nat) (l : List Spot), xs.foldr (fun x r =>
      r.bind fun l =>
        if s.state = 7 then (if toCheck main x fuel s.code s.kont then some l else none)
        else
          match ofTable tab (s.state, x) with
          | none => some l
          | some i =>
            match trace main fuel x none false s.code s.kont with
            | .bad => none
            | .move c d r s' k' =>
              if c = i.1 ∧ d = i.2.1 ∧ c < K ∧ recurOk checks s x i r then
                some (s.after wd c d s' k' i.2.2 :: l)
              else none) (some []) = some l →
      (∀ x ∈ xs, s.state = 7 → toCheck main x fuel s.code s.kont = true) ∧
      (∀ x ∈ xs, s.state ≠ 7 → ∀ i, ofTable tab (s.state, x) = some i →
        ∃ r s' k', trace main fuel x none false s.code s.kont = .move i.1 i.2.1 r s' k' ∧ i.1 < K ∧
          recurOk checks s x i r = true ∧ s.after wd i.1 i.2.1 s' k' i.2.2 ∈ l) from
    ⟨(hk _ _ h).1, (hk _ _ h).2⟩
  intro xs
  induction xs with
  | nil => intro l _; simp
  | cons x xs ih =>
    intro l h
    rw [List.foldr_cons] at h
    obtain ⟨l', hl', h⟩ := Option.bind_eq_some_iff.1 h
    obtain ⟨ih1, ih2⟩ := ih l' hl'
    by_cases h7 : s.state = 7
    · rw [if_pos h7] at h
      split at h
      · rename_i hc
        refine ⟨fun y hy _ => ?_, fun y _ hn => absurd h7 hn⟩
        rcases List.mem_cons.1 hy with rfl | hy
        · exact hc
        · exact ih1 y hy h7
      · cases h
    · rw [if_neg h7] at h
      refine ⟨fun y _ e => absurd e h7, fun y hy _ i hi => ?_⟩
      have hsub : ∀ t ∈ l', t ∈ l := by
        split at h
        · cases h; exact fun t ht => ht
        · split at h
          · cases h
          · split at h
            · cases h
              exact fun t ht => List.mem_cons_of_mem _ ht
            · cases h
      rcases List.mem_cons.1 hy with rfl | hy
      · rw [hi] at h
        simp only at h
        split at h
        · cases h
        · rename_i c d r s' k' ht
          split at h
          · rename_i hc
            obtain ⟨rfl, rfl, h1, h2⟩ := hc
            cases h
            exact ⟨r, s', k', ht, h1, h2, List.mem_cons_self ..⟩
          · cases h
      · obtain ⟨r, s', k', g1, g2, g3, g4⟩ := ih2 y hy h7 i hi
        exact ⟨r, s', k', g1, g2, g3, hsub _ g4⟩

/-- What the check says. -/
theorem follows_sound {main : Stmt} {tab : List (List (Option Instr))} {checks : Bool} {wd : Nat}
    (h : follows main tab checks wd = true) :
    tab.length ≤ 7 ∧ 1 ≤ colorsOf tab ∧
    (∃ sH, findLabel ['H'] main = some sH ∧
      ∀ x, x < colorsOf tab → toCheck main x fuel sH [] = true) ∧
    ∃ R : List Spot, firstSpot main wd ∈ R ∧
      ∀ s ∈ R, SpotOk main tab checks (colorsOf tab) wd R s := by
  unfold follows at h
  simp only [Bool.and_eq_true, decide_eq_true_eq, Option.any_eq_true_iff_get] at h
  obtain ⟨⟨⟨h1, h2⟩, h3, h4⟩, h5⟩ := h
  refine ⟨h1, h2, ⟨_, (Option.some_get h3).symm, fun x hx => ?_⟩, ?_⟩
  · exact List.all_eq_true.1 h4 x (List.mem_range.2 hx)
  · obtain ⟨R, hR⟩ := Option.isSome_iff_exists.1 h5
    obtain ⟨g1, -, g3⟩ := explore_sound 1000 hR (by simp)
    refine ⟨R, g1 _ (List.mem_cons_self ..), fun s hs => ?_⟩
    obtain ⟨l, e1, e2⟩ := g3 s hs
    obtain ⟨f1, f2⟩ := nexts_sound e1
    refine ⟨f1, fun x hx hn i hi => ?_⟩
    obtain ⟨r, s', k', a1, a2, a3, a4⟩ := f2 x hx hn i hi
    exact ⟨r, s', k', a1, a2, a3, e2 _ a4⟩

/-! ## Running -/

section

variable {main : Stmt} {len limit : Nat}

def Reaches (main : Stmt) (len limit : Nat) (a b : St) : Prop :=
  ∃ j, run main len limit j a = .next b

theorem run_add {a b : St} {i : Nat} (h : run main len limit i a = .next b) (j : Nat) :
    run main len limit (i + j) a = run main len limit j b := by
  induction i generalizing a with
  | zero =>
    simp only [run, Res.next.injEq] at h
    rw [h, Nat.zero_add]
  | succ i ih =>
    rw [Nat.succ_add]
    simp only [run] at h ⊢
    split at h
    · rename_i s' hs
      exact ih h
    · rename_i r hr
      exact absurd h (hr b)

theorem Reaches.trans {a b c : St} (h : Reaches main len limit a b) (h' : Reaches main len limit b c) :
    Reaches main len limit a c := by
  obtain ⟨i, hi⟩ := h
  obtain ⟨j, hj⟩ := h'
  exact ⟨i + j, by rw [run_add hi, hj]⟩

theorem Reaches.step {a b : St} (h : CS.step main len limit a = .next b) : Reaches main len limit a b :=
  ⟨1, by simp only [run, h]⟩

theorem Reaches.refl (a : St) : Reaches main len limit a a := ⟨0, rfl⟩

/-- The cell under the head has been written. -/
structure Wrote (m m' : Mem) : Prop where
  pos : m'.pos = m.pos
  pmin : m'.pmin = m.pmin
  pmax : m'.pmax = m.pmax
  steps : m'.steps = m.steps
  tape : ∀ x, x ≠ m.pos → m'.tape x = m.tape x
  marks : m'.marks + (if m.tape m.pos = 0 then 0 else 1) =
    m.marks + (if m'.tape m.pos = 0 then 0 else 1)

theorem Wrote.refl (m : Mem) : Wrote m m := ⟨rfl, rfl, rfl, rfl, fun _ _ => rfl, rfl⟩

theorem Wrote.put {m m' : Mem} (h : Wrote m m') (c : Nat) : Wrote m (m'.put c) := by
  refine ⟨h.pos, h.pmin, h.pmax, h.steps, fun x hx => ?_, ?_⟩
  · simp only [Mem.put, h.pos, if_neg hx]
    exact h.tape x hx
  · have := h.marks
    simp only [Mem.put, h.pos, if_true]
    rcases Nat.eq_zero_or_pos c with rfl | hc <;>
      rcases Nat.eq_zero_or_pos (m'.tape m.pos) with h0 | h0 <;>
      simp_all [Nat.pos_iff_ne_zero] <;> omega

/-- The statements before a move. -/
theorem trace_run (n : Nat) :
    ∀ {x : Nat} {r : Option Bool} {w : Bool} {s : Stmt} {k : Kont} {c : Nat} {d : Bool}
      {rf : Option Bool} {s' : Stmt} {k' : Kont},
      trace main n x r w s k = .move c d rf s' k' →
      ∀ (m m1 : Mem), Wrote m m1 → (w = false → m1 = m) → m1.tape m1.pos = x →
        0 ≤ m.pos → m.pos < len →
        ((∃ e, r = some e ∧ rf = some e) ∨ r = none) ∧
        ((∀ e, rf = some e → r = none → m.atEdge e = false) → ∃ s2 m2,
          Reaches main len limit ⟨s, k, m1⟩ s2 ∧ Wrote m m2 ∧ m2.tape m.pos = c ∧
          CS.step main len limit s2 =
            if m2.marks = 0 then toH main (m2.move d) else .next ⟨s', k', m2.move d⟩) ∧
        (∀ e, rf = some e → r = none → m.atEdge e = true → ∃ s2,
          Reaches main len limit ⟨s, k, m1⟩ s2 ∧ CS.step main len limit s2 = toH main m) := by
  induction n with
  | zero => intro x r w s k c d rf s' k' h; simp [trace] at h
  | succ n ih =>
    intro x r w s k c d rf s' k' h m m1 hw hmm hx hp0 hp1
    rw [trace] at h
    have hin : 0 ≤ m1.pos ∧ m1.pos < len := by rw [hw.pos]; exact ⟨hp0, hp1⟩
    split at h
    · rename_i s1 k1 hc
      have hs : Reaches main len limit ⟨s, k, m1⟩ ⟨s1, k1, m1⟩ := .step (by simp only [CS.step, hx, hc])
      obtain ⟨g0, g1, g2⟩ := ih h m m1 hw hmm hx hp0 hp1
      refine ⟨g0, fun he => ?_, fun e he hr ha => ?_⟩
      · obtain ⟨s2, m2, a1, a2⟩ := g1 he
        exact ⟨s2, m2, hs.trans a1, a2⟩
      · obtain ⟨s2, a1, a2⟩ := g2 e he hr ha
        exact ⟨s2, hs.trans a1, a2⟩
    · rename_i s1 k1 hc
      have hs : Reaches main len limit ⟨s, k, m1⟩ ⟨s1, k1, m1⟩ :=
        .step (by simp only [CS.step, hx, hc]; rw [if_pos hin])
      obtain ⟨g0, g1, g2⟩ := ih h m m1 hw hmm hx hp0 hp1
      refine ⟨g0, fun he => ?_, fun e he hr ha => ?_⟩
      · obtain ⟨s2, m2, a1, a2⟩ := g1 he
        exact ⟨s2, m2, hs.trans a1, a2⟩
      · obtain ⟨s2, a1, a2⟩ := g2 e he hr ha
        exact ⟨s2, hs.trans a1, a2⟩
    · rename_i y s1 k1 hc
      have hs : Reaches main len limit ⟨s, k, m1⟩ ⟨s1, k1, m1.put y⟩ :=
        .step (by simp only [CS.step, hx, hc]; rw [if_pos hin])
      obtain ⟨g0, g1, g2⟩ := ih h m (m1.put y) (hw.put y) (by simp) (by simp [Mem.put]) hp0 hp1
      refine ⟨g0, fun he => ?_, fun e he hr ha => ?_⟩
      · obtain ⟨s2, m2, a1, a2⟩ := g1 he
        exact ⟨s2, m2, hs.trans a1, a2⟩
      · obtain ⟨s2, a1, a2⟩ := g2 e he hr ha
        exact ⟨s2, hs.trans a1, a2⟩
    · rename_i e0 s1 k1 hc
      split at h
      · rename_i hrw
        obtain ⟨rfl, rfl⟩ := hrw
        obtain rfl := hmm rfl
        obtain ⟨g0, g1, g2⟩ := ih h m1 m1 hw hmm hx hp0 hp1
        obtain rfl : rf = some e0 := by
          rcases g0 with ⟨e, g, g'⟩ | g
          · rw [g', ← g]
          · cases g
        refine ⟨.inr rfl, fun he => ?_, fun e he _ ha => ?_⟩
        · have hs : Reaches main len limit ⟨s, k, m1⟩ ⟨s1, k1, m1⟩ :=
            .step (by simp only [CS.step, hx, hc, he e0 rfl rfl]; rfl)
          obtain ⟨s2, m2, a1, a2⟩ := g1 (by simp)
          exact ⟨s2, m2, hs.trans a1, a2⟩
        · cases he
          exact ⟨_, .refl _, by simp only [CS.step, hx, hc, ha]; rfl⟩
      · cases h
    · rename_i e0 s1 k1 hc
      simp only [Out.move.injEq] at h
      obtain ⟨rfl, rfl, rfl, rfl, rfl⟩ := h
      refine ⟨?_, fun he => ?_, fun e he hr => ?_⟩
      · cases r with
        | none => exact .inr rfl
        | some e => exact .inl ⟨e, rfl, rfl⟩
      · refine ⟨_, m1, .refl _, hw, ?_, ?_⟩
        · rw [← hw.pos, hx]
        · simp only [CS.step, hx, hc]
      · rw [hr] at he
        cases he
    · cases h

theorem toExit_run (n : Nat) : ∀ {s : Stmt} {k : Kont} (m : Mem),
    toExit main (m.tape m.pos) n s k = true →
    ∃ j, run main len limit j ⟨s, k, m⟩ = .exit m.steps := by
  induction n with
  | zero => intro s k m h; simp [toExit] at h
  | succ n ih =>
    intro s k m h
    rw [toExit] at h
    split at h
    · rename_i s1 k1 hc
      obtain ⟨j, hj⟩ := ih m h
      exact ⟨j + 1, by simp only [run, CS.step, hc, hj]⟩
    · rename_i s1 k1 hc
      exact ⟨1, by simp only [run, CS.step, hc]⟩
    · cases h

theorem toCheck_run (n : Nat) : ∀ {s : Stmt} {k : Kont} (m : Mem),
    toCheck main (m.tape m.pos) n s k = true →
    ∃ j, run main len limit j ⟨s, k, m⟩ =
      if m.steps = limit then .exit m.steps else .abort m.steps := by
  induction n with
  | zero => intro s k m h; simp [toCheck] at h
  | succ n ih =>
    intro s k m h
    rw [toCheck] at h
    split at h
    · rename_i s1 k1 hc
      obtain ⟨j, hj⟩ := ih m h
      exact ⟨j + 1, by simp only [run, CS.step, hc, hj]⟩
    · rename_i s1 k1 hc
      by_cases hl : m.steps = limit
      · obtain ⟨j, hj⟩ := toExit_run n m h
        refine ⟨j + 1, ?_⟩
        rw [if_pos hl]
        simp only [run, CS.step, hc]
        rw [if_pos hl]
        exact hj
      · refine ⟨1, ?_⟩
        rw [if_neg hl]
        simp only [run, CS.step, hc]
        rw [if_neg hl]
    · cases h

end

end CS
end BB
