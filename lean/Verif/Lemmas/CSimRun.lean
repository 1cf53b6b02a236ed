import Verif.Lemmas.CSim

/-! # The C simulators: one program -/

namespace BB
namespace CSim

/-- What is added to the number of moves when the machine leaves. -/
def File.extra (F : File) (q : State) : Nat := if F.early q then 0 else 1

/-- The variables at `H`, when they are as they should be. -/
structure Good (F : File) (p : Prog) (v : Vars) : Prop where
  pmax : v.pmax ≤ F.tapeLen
  tape : ∀ i, ¬ (v.pmin ≤ i ∧ i < v.pmax) → v.tape i = 0
  report : (∃ m, Reports F.extra p v.steps m ∧ v.steps ≤ F.limit ∧ v.marks = m) ∨
    (v.steps = F.limit + 1 ∧ ∀ s m, Reports F.extra p s m → F.limit ≤ s)

/-- The variables at `H` when the head has gone too far. -/
def Bad (F : File) (f : Flow) : Prop := f = .ub ∨ ∃ v, f = .toH v ∧ wipe F v = none

section

variable {F : File} {P : Nat → Nat → Instr} {ins : Nat → Nat → Act}

theorem Sim.pmax_le {p : Prog} {n : Nat} {v : Vars} {c : Cfg}
    (h : Sim F p n v c) (hn : n ≤ F.limit) (hc : ¬ (n = F.limit ∧ c.pos = F.limit)) :
    v.pmax ≤ F.tapeLen := by
  unfold File.tapeLen
  obtain ⟨g1, g2⟩ := h.inSpan
  have hm := h.minmax
  by_contra hgt
  have hn' : n = F.limit := by omega
  obtain ⟨m, d, hm', hd, e⟩ := (h.span F.limit).2 (by omega)
  have hfar : ∀ m d, runFor p m initCfg = some d → d.pos ≤ m := by
    intro m
    induction m with
    | zero => intro d hd; cases hd; simp [initCfg]
    | succ m ih =>
      intro d hd
      rw [runFor_succ'] at hd
      obtain ⟨e, he, hd⟩ := Option.bind_eq_some_iff.1 hd
      have := ih e he
      simp only [step] at hd
      obtain ⟨⟨col, dir, q⟩, -, rfl⟩ := Option.map_eq_some_iff.1 hd
      simp only [Cfg.exec]
      cases dir <;> simp <;> omega
  have := hfar m d hd
  obtain rfl : m = n := by omega
  rw [h.run] at hd
  cases hd
  exact hc ⟨hn', e⟩

theorem Sim.wipe_none {p : Prog} {n : Nat} {v : Vars} {c : Cfg}
    (h : Sim F p n v c) (hc : c.pos = F.limit) {w : Vars} (e1 : w.pmin = v.pmin)
    (e2 : w.pmax = v.pmax) : wipe F w = none := by
  unfold wipe File.tapeLen
  have hpos := h.pos
  obtain ⟨g1, g2⟩ := h.inSpan
  rw [if_pos (by rw [e1, e2]; omega)]

theorem Sim.tape_out {p : Prog} {n : Nat} {v : Vars} {c : Cfg} (h : Sim F p n v c) (i : Nat)
    (hi : ¬ (v.pmin ≤ i ∧ i < v.pmax)) : v.tape i = 0 := by
  rw [h.tape]
  exact h.outside _ (by omega)

theorem Sim.not_halts {n : Nat} {v : Vars} {c : Cfg}
    (h : Sim F (machine F.states F.colors P) n v c) (hq : c.state < F.states) :
    ¬ ∃ s, HaltsAt (machine F.states F.colors P) initCfg n s := by
  rintro ⟨s, d, hd, rfl, hnone⟩
  rw [h.run] at hd
  cases hd
  unfold machine Cfg.slot at hnone
  rw [if_pos ⟨hq, h.colors _⟩] at hnone
  cases hnone

/-- What happens after a label, before the limit. -/
theorem Sim.atLabel (hF : F.Ok)
    (hins : ∀ q co, q < F.states → co < F.colors → ins q co = enc (P q co))
    {n : Nat} {v : Vars} {c : Cfg}
    (h : Sim F (machine F.states F.colors P) n v c) (hn : n < F.limit) (hq : c.state < F.states) :
    (LeavesAt (machine F.states F.colors P) n →
      CSim.atLabel F ins c.state v = .toH { v with steps := n + F.extra c.state }) ∧
    (¬ LeavesAt (machine F.states F.colors P) n →
      CSim.atLabel F ins c.state v =
        CSim.action F (enc (P c.state (c.tape c.pos))) { v with steps := n + 1 }) := by
  have hcol := h.colors c.pos
  have hco := hF.colors
  have hlim := hF.limit
  have hpos := h.pos
  have hnear := h.near
  have hlt : ¬ F.tapeLen ≤ v.pos := by unfold File.tapeLen; omega
  have hst : u32 ((v.steps : Int) + 1) = n + 1 := by
    rw [h.steps]
    exact u32_of (by push_cast; rfl) (by omega)
  have h0 : ins c.state 0 = enc (P c.state 0) := hins _ _ hq (by omega)
  have hrec0 := h.isRecur_iff hF (by omega) hq (v' := v) rfl rfl rfl rfl
  have hrec1 := h.isRecur_iff hF (by omega) hq (v' := { v with steps := n + 1 }) rfl rfl rfl rfl
  have hinstr : CSim.instruction F ins c.state v =
      if isRecur { v with steps := n + 1 } (enc (P c.state 0)).2.1 (enc (P c.state 0)).2.2 c.state
      then .toH { v with steps := n + 1 }
      else CSim.action F (enc (P c.state (c.tape c.pos))) { v with steps := n + 1 } := by
    unfold CSim.instruction
    simp only [hst]
    rw [if_neg (by omega), if_neg hlt, h0, h.scan]
    by_cases hs : c.tape c.pos = 0
    · rw [if_neg (by rw [hs]; exact fun e => absurd e.1 (by decide)), hs]
    · have hs1 : 1 ≤ c.tape c.pos := Nat.one_le_iff_ne_zero.2 hs
      rw [if_pos ⟨hs1, hcol⟩, hins _ _ hq hcol, if_neg]
      simp [isRecur, h.scan, hs]
  constructor
  · intro hl
    have e0 := hrec0.2 hl
    have e1 := hrec1.2 hl
    unfold CSim.atLabel File.extra
    rw [if_neg hlt, h0]
    cases he : F.early c.state
    · simp only [Bool.false_eq_true, if_false]
      rw [hinstr, if_pos e1]
    · simp only [if_true]
      rw [if_pos e0]
      have : v = { v with steps := n } := by rw [← h.steps]
      exact congrArg Flow.toH this
  · intro hl
    have e0 : ¬ _ := fun e => hl (hrec0.1 e)
    have e1 : ¬ _ := fun e => hl (hrec1.1 e)
    unfold CSim.atLabel
    rw [if_neg hlt, h0, if_neg e0, hinstr, if_neg e1]
    simp

theorem run_spec (hF : F.Ok) (hP : ProgFits F.states F.colors P)
    (hins : ∀ q co, q < F.states → co < F.colors → ins q co = enc (P q co)) (f : Nat) :
    ∀ {n : Nat} {v : Vars} {c : Cfg}, Sim F (machine F.states F.colors P) n v c → n ≤ F.limit →
      c.state < F.states → (∀ k, k < n → ¬ StopsAt (machine F.states F.colors P) k) →
      ¬ ErasesAt (machine F.states F.colors P) n → F.limit + 1 ≤ f + n →
      (¬ RunsRight (machine F.states F.colors P) F.limit →
        ∃ v', run F ins f c.state v = .toH v' ∧ Good F (machine F.states F.colors P) v') ∧
      (RunsRight (machine F.states F.colors P) F.limit → Bad F (run F ins f c.state v)) := by
  induction f with
  | zero => intro n v c _ hn _ _ _ hf; omega
  | succ f ih =>
    intro n v c h hn hq hno her hf
    have hco := hF.colors
    have hlim := hF.limit
    have hpos := h.pos
    have hnh := h.not_halts hq
    generalize hp : machine F.states F.colors P = p at *
    rcases Nat.lt_or_ge n F.limit with hlt | hge
    · obtain ⟨hA, hB⟩ := (hp ▸ h).atLabel hF hins hlt hq
      rw [hp] at hA hB
      by_cases hl : LeavesAt p n
      · have hA := hA hl
        have hr : run F ins (f + 1) c.state v = .toH { v with steps := n + F.extra c.state } := by
          rw [run, hA]
        rw [hr]
        constructor
        · intro _
          refine ⟨_, rfl, ?_, h.tape_out, .inl ⟨v.marks, ?_, ?_, rfl⟩⟩
          · exact h.pmax_le hn (by omega)
          · exact ⟨n, c, ⟨hno, .inr (.inr hl), h.run⟩, h.marks, .inr ⟨her, hnh, rfl⟩⟩
          · show n + F.extra c.state ≤ F.limit
            unfold File.extra
            split <;> omega
        · intro hR
          exact absurd (.inr (.inr hl)) (hR.2.1 n hlt)
      · have hB := hB hl
        have hnos : ∀ k, k < n + 1 → ¬ StopsAt p k := by
          intro k hk
          rcases Nat.lt_or_ge k n with hk' | hk'
          · exact hno k hk'
          · obtain rfl : k = n := by omega
            rintro (hs | hs | hs)
            · exact her hs
            · exact hnh hs
            · exact hl hs
        have hmach : p c.slot = some (P c.state (c.tape c.pos)) := by
          rw [← hp]
          unfold machine Cfg.slot
          rw [if_pos ⟨hq, h.colors _⟩]
        have hrun' : runFor p (n + 1) initCfg = some (c.exec (P c.state (c.tape c.pos))) := by
          rw [runFor_succ', h.run, Option.bind_some, step_some hmach]
        obtain ⟨v', hN, hE⟩ := (hp ▸ h).action hF hP hlt hq rfl
        rw [hp] at hN
        have hstate := hP.state c.state (c.tape c.pos) hq (h.colors _)
        by_cases hb : (c.exec (P c.state (c.tape c.pos))).Blank
        · obtain ⟨e1, e2, e3, e4, e5, e6⟩ := hE hb
          have hes : ErasesAt p (n + 1) := ⟨by omega, _, hrun', hb⟩
          have hr : run F ins (f + 1) c.state v = .toH v' := by
            rw [run, hB, e1]
          rw [hr]
          constructor
          · intro _
            refine ⟨_, rfl, ?_, fun i _ => e6 i, .inl ⟨0, ?_, by omega, e3⟩⟩
            · rw [e4]
              exact h.pmax_le hn (by omega)
            · exact ⟨n + 1, _, ⟨hnos, .inl hes, hrun'⟩, MarksAre.zero hb, .inl ⟨.inl hes, e2⟩⟩
          · intro hR
            rcases Nat.lt_or_ge (n + 1) F.limit with h' | h'
            · exact absurd (.inl hes) (hR.2.1 _ h')
            · have e : n + 1 = F.limit := by omega
              exact absurd (e ▸ hes) hR.2.2
        · obtain ⟨hS, e1⟩ := hN hb
          have her' : ¬ ErasesAt p (n + 1) := by
            rintro ⟨-, d, hd, hd'⟩
            rw [hrun'] at hd
            cases hd
            exact hb hd'
          rcases hstate with hs | hs
          · have hr : run F ins (f + 1) c.state v =
                run F ins f (c.exec (P c.state (c.tape c.pos))).state v' := by
              rw [run, hB, e1]
              unfold doTrans
              have hst := hF.states
              have hs' : (((c.exec (P c.state (c.tape c.pos))).state : Nat) : Int) < F.states := by
                exact_mod_cast hs
              rw [if_neg (by omega), if_neg (by omega), if_pos hs']
              simp
            rw [hr]
            exact ih hS (by omega) hs hnos her' (by omega)
          · have hr : run F ins (f + 1) c.state v = .toH v' := by
              rw [run, hB, e1]
              have : (c.exec (P c.state (c.tape c.pos))).state = 7 := hs
              rw [this]
              rfl
            have hhalt : ∃ s, HaltsAt p initCfg (n + 1) s := by
              refine ⟨_, _, hrun', rfl, ?_⟩
              rw [← hp]
              unfold machine Cfg.slot
              have hst := hF.states
              rw [if_neg]
              rintro ⟨g, -⟩
              have : (c.exec (P c.state (c.tape c.pos))).state = 7 := hs
              rw [this] at g
              exact absurd (show 7 < F.states from g) (by omega)
            rw [hr]
            constructor
            · intro hR
              refine ⟨_, rfl, ?_, hS.tape_out, .inl ⟨v'.marks, ?_, ?_, rfl⟩⟩
              · refine hS.pmax_le (by omega) ?_
                rintro ⟨g1, g2⟩
                rw [← g1] at hR g2
                exact hR ⟨⟨_, hrun', g2⟩, hnos, her'⟩
              · exact ⟨n + 1, _, ⟨hnos, .inr (.inl hhalt), hrun'⟩, hS.marks,
                  .inl ⟨.inr hhalt, hS.steps⟩⟩
              · rw [hS.steps]; omega
            · rintro ⟨⟨d, hd, hd'⟩, hR, -⟩
              right
              refine ⟨_, rfl, ?_⟩
              rcases Nat.lt_or_ge (n + 1) F.limit with h' | h'
              · exact absurd (.inr (.inl hhalt)) (hR _ h')
              · have e : F.limit = n + 1 := by omega
                rw [e, hrun'] at hd
                cases hd
                refine hS.wipe_none (w := v') ?_ rfl rfl
                rw [hd', e]
    · obtain rfl : n = F.limit := by omega
      have hst : u32 ((v.steps : Int) + 1) = F.limit + 1 := by
        rw [h.steps]
        exact u32_of (by push_cast; rfl) (by omega)
      have hinstr : CSim.instruction F ins c.state v = .toH { v with steps := F.limit + 1 } := by
        unfold CSim.instruction
        simp only [hst]
        rw [if_pos (by omega)]
      constructor
      · intro hR
        have hcp : c.pos ≠ F.limit := fun e => hR ⟨⟨c, h.run, e⟩, hno, her⟩
        have hpm := h.pmax_le hn (fun e => hcp e.2)
        obtain ⟨g1, g2⟩ := h.inSpan
        have hlen : ¬ F.tapeLen ≤ v.pos := by omega
        have h0 : ins c.state 0 = enc (P c.state 0) := hins _ _ hq (by omega)
        have hlate : Good F p { v with steps := F.limit + 1 } := by
          refine ⟨hpm, h.tape_out, .inr ⟨rfl, ?_⟩⟩
          rintro s m ⟨k, d, ⟨-, hk, -⟩, -, hs⟩
          have : F.limit ≤ k := by
            by_contra hlt
            exact hno k (by omega) hk
          rcases hs with hs | hs <;> omega
        have hrec := (hp ▸ h).isRecur_iff hF hn hq (v' := v) rfl rfl rfl rfl
        rw [hp] at hrec
        cases he : F.early c.state
        · refine ⟨_, ?_, hlate⟩
          rw [run, CSim.atLabel, he, hinstr]
          rfl
        · by_cases hl : LeavesAt p F.limit
          · refine ⟨v, ?_, hpm, h.tape_out, .inl ⟨v.marks, ?_, ?_, rfl⟩⟩
            · rw [run, CSim.atLabel, he, if_pos rfl, if_neg hlen, h0, if_pos (hrec.2 hl)]
            · refine ⟨F.limit, c, ⟨hno, .inr (.inr hl), h.run⟩, h.marks, .inr ⟨her, hnh, ?_⟩⟩
              rw [h.steps, File.extra, he]
              rfl
            · exact Nat.le_of_eq h.steps
          · refine ⟨_, ?_, hlate⟩
            rw [run, CSim.atLabel, he, if_pos rfl, if_neg hlen, h0, if_neg (fun e => hl (hrec.1 e)),
              hinstr]
      · rintro ⟨⟨d, hd, hd'⟩, -, -⟩
        rw [h.run] at hd
        cases hd
        have hlen : F.tapeLen ≤ v.pos := by unfold File.tapeLen; omega
        cases he : F.early c.state
        · right
          refine ⟨_, ?_, h.wipe_none (w := { v with steps := F.limit + 1 }) hd' rfl rfl⟩
          rw [run, CSim.atLabel, he, hinstr]
          rfl
        · left
          rw [run, CSim.atLabel, he, if_pos rfl, if_pos hlen]

/-- The numbers to report are determined. -/
theorem Reports.unique {extra : State → Nat} {p : Prog} {s m s' m' : Nat}
    (h : Reports extra p s m) (h' : Reports extra p s' m') : s = s' ∧ m = m' := by
  obtain ⟨n, d, ⟨h1, h2, h3⟩, h4, h5⟩ := h
  obtain ⟨n', d', ⟨h1', h2', h3'⟩, h4', h5'⟩ := h'
  have hn : n = n' := by
    rcases Nat.lt_trichotomy n n' with hlt | rfl | hlt
    · exact absurd h2 (h1' n hlt)
    · rfl
    · exact absurd h2' (h1 n' hlt)
  subst hn
  rw [h3] at h3'
  cases h3'
  refine ⟨?_, marks_unique h4 h4'⟩
  rcases h5 with ⟨a, rfl⟩ | ⟨a, b, rfl⟩ <;> rcases h5' with ⟨a', rfl⟩ | ⟨a', b', rfl⟩
  · rfl
  · exact absurd a (by rintro (e | e) <;> contradiction)
  · exact absurd a' (by rintro (e | e) <;> contradiction)
  · rfl

end

end CSim
end BB
