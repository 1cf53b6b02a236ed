import Verif.Model.CSim
import Verif.Spec.Sim
import Verif.Lemmas.Run

/-! # The C simulators follow the machine -/

namespace BB
namespace CSim

theorem u32_nat {x : Int} (h0 : 0 ≤ x) (h1 : x < 4294967296) : (u32 x : Int) = x := by
  unfold u32
  rw [Int.emod_eq_of_lt h0 h1]
  exact Int.toNat_of_nonneg h0

theorem u32_of {x : Int} {n : Nat} (h : x = n) (h1 : n < 4294967296) : u32 x = n := by
  subst h
  have := u32_nat (x := (n : Int)) (by omega) (by omega)
  omega

/-! ## Marks -/

theorem MarksAre.zero {d : Cfg} (h : d.Blank) : MarksAre d 0 :=
  ⟨[], List.nodup_nil, fun x => by simp [h x], rfl⟩

theorem marks_zero_iff {d : Cfg} {m : Nat} (h : MarksAre d m) : m = 0 ↔ d.Blank := by
  obtain ⟨l, -, h2, h3⟩ := h
  constructor
  · intro h0
    have : l = [] := List.length_eq_zero_iff.1 (by omega)
    subst this
    intro x
    by_contra hx
    simpa using (h2 x).2 hx
  · intro hb
    rw [← h3]
    apply List.length_eq_zero_iff.2
    apply List.eq_nil_iff_forall_not_mem.2
    intro x hx
    exact (h2 x).1 hx (hb x)

theorem marks_unique {d : Cfg} {m m' : Nat} (h : MarksAre d m) (h' : MarksAre d m') : m = m' := by
  obtain ⟨l, h1, h2, rfl⟩ := h
  obtain ⟨l', h1', h2', rfl⟩ := h'
  apply List.Perm.length_eq
  exact (List.perm_ext_iff_of_nodup h1 h1').2 fun x => (h2 x).trans (h2' x).symm

/-- Writing one cell. -/
theorem marks_exec {d : Cfg} {m : Nat} (h : MarksAre d m) (i : Instr) :
    MarksAre (d.exec i) (if i.1 ≠ 0 ∧ d.tape d.pos = 0 then m + 1
      else if i.1 = 0 ∧ d.tape d.pos ≠ 0 then m - 1 else m) := by
  obtain ⟨l, h1, h2, rfl⟩ := h
  split
  · rename_i hc
    refine ⟨d.pos :: l, List.nodup_cons.2 ⟨fun hm => (h2 _).1 hm hc.2, h1⟩, fun x => ?_, rfl⟩
    simp only [Cfg.exec, List.mem_cons]
    by_cases hx : x = d.pos
    · simp [hx, hc.1]
    · simp [hx, h2]
  · rename_i hc
    split
    · rename_i hc'
      refine ⟨l.erase d.pos, h1.erase _, fun x => ?_, List.length_erase_of_mem ((h2 _).2 hc'.2)⟩
      simp only [Cfg.exec]
      rw [h1.mem_erase_iff, h2]
      by_cases hx : x = d.pos
      · simp [hx, hc'.1]
      · simp [hx]
    · rename_i hc'
      refine ⟨l, h1, fun x => ?_, rfl⟩
      simp only [Cfg.exec]
      by_cases hx : x = d.pos
      · subst hx
        rw [h2, if_pos rfl]
        by_cases h0 : i.1 = 0
        · simp only [h0, true_and, not_not] at hc'
          simp [h0, hc']
        · simp only [h0, ne_eq, not_false_eq_true, true_and] at hc
          simp [h0, hc]
      · rw [if_neg hx]
        exact h2 x

/-! ## One program -/

/-- The program as the C variables hold it. -/
def enc (i : Instr) : Act := (i.1, if i.2.1 then 1 else -1, i.2.2)

/-- What the theorems need to know about a file. -/
structure File.Ok (F : File) : Prop where
  states : 2 ≤ F.states ∧ F.states ≤ 7
  colors : 2 ≤ F.colors ∧ F.colors ≤ 10
  limit : 2 ≤ F.limit ∧ F.limit < 1000000000

theorem File.center_eq (F : File) : F.center = F.limit := by
  unfold File.center File.tapeLen
  omega

/-- The variables after `n` moves. -/
structure Sim (F : File) (p : Prog) (n : Nat) (v : Vars) (c : Cfg) : Prop where
  run : runFor p n initCfg = some c
  pos : (v.pos : Int) = F.limit + c.pos
  tape : ∀ i : Nat, v.tape i = c.tape ((i : Int) - F.limit)
  steps : v.steps = n
  marks : MarksAre c v.marks
  marksLe : v.marks ≤ n
  near : -(n : Int) ≤ c.pos ∧ c.pos ≤ n
  span : ∀ x, (∃ m d, m ≤ n ∧ runFor p m initCfg = some d ∧ d.pos = x) ↔
    (v.pmin : Int) - F.limit ≤ x ∧ x < (v.pmax : Int) - F.limit
  minmax : F.limit ≤ v.pmin + n ∧ v.pmax ≤ F.limit + n + 1
  outside : ∀ x, x < (v.pmin : Int) - F.limit ∨ (v.pmax : Int) - F.limit ≤ x → c.tape x = 0
  colors : ∀ x, c.tape x < F.colors

/-- The variables between programs. -/
structure Clean (F : File) (v : Vars) : Prop where
  pos : v.pos = F.limit
  pmin : v.pmin = F.limit
  pmax : v.pmax = F.limit + 1
  tape : ∀ i, v.tape i = 0

theorem Sim.start {F : File} (hF : F.Ok) (p : Prog) {v : Vars} (h : Clean F v) :
    Sim F p 0 { v with steps := 0, marks := 0 } initCfg where
  run := rfl
  pos := by simp [h.pos, initCfg]
  tape i := by simp [h.tape, initCfg]
  steps := rfl
  marks := MarksAre.zero fun _ => rfl
  marksLe := Nat.le_refl _
  near := by simp [initCfg]
  span x := by
    simp only [h.pmin, h.pmax]
    constructor
    · rintro ⟨m, d, hm, hd, rfl⟩
      obtain rfl : m = 0 := by omega
      cases hd
      simp only [initCfg]
      omega
    · intro hx
      refine ⟨0, initCfg, Nat.le_refl _, rfl, ?_⟩
      simp only [initCfg]
      push_cast at hx
      omega
  minmax := by simp [h.pmin, h.pmax]
  outside _ _ := rfl
  colors _ := by
    have := hF.colors
    show (0 : Nat) < F.colors
    omega

section

variable {F : File} {P : Nat → Nat → Instr}

theorem Sim.inSpan {p : Prog} {n : Nat} {v : Vars} {c : Cfg} (h : Sim F p n v c) :
    v.pmin ≤ v.pos ∧ v.pos < v.pmax := by
  have := (h.span c.pos).1 ⟨n, c, Nat.le_refl _, h.run, rfl⟩
  have hp := h.pos
  omega

theorem Sim.scan {p : Prog} {n : Nat} {v : Vars} {c : Cfg} (h : Sim F p n v c) :
    v.tape v.pos = c.tape c.pos := by
  rw [h.tape, h.pos]
  congr 1
  omega

/-- `IS_RECUR` says that the machine is about to leave. -/
theorem Sim.isRecur_iff (hF : F.Ok) {n : Nat} {v v' : Vars} {c : Cfg}
    (h : Sim F (machine F.states F.colors P) n v c) (hn : n ≤ F.limit) (hq : c.state < F.states)
    (e1 : v'.tape = v.tape) (e2 : v'.pos = v.pos) (e3 : v'.pmin = v.pmin) (e4 : v'.pmax = v.pmax) :
    isRecur v' (enc (P c.state 0)).2.1 (enc (P c.state 0)).2.2 c.state = true ↔
      LeavesAt (machine F.states F.colors P) n := by
  obtain ⟨h1, h2⟩ := h.inSpan
  have hm := h.minmax
  have hlim := hF.limit
  have hpos := h.pos
  have hnear := h.near
  have hu : u32 ((v.pos : Int) + 1) = v.pos + 1 :=
    u32_of (by push_cast; rfl) (by omega)
  have hcol := hF.colors
  unfold isRecur intoEdge
  rw [e1, e2, e3, e4, h.scan, hu]
  have hmach : machine F.states F.colors P (c.state, 0) = some (P c.state 0) := by
    unfold machine
    rw [if_pos ⟨hq, show (0 : Nat) < F.colors by omega⟩]
  have hvis : ∀ y, (∀ m e, m ≤ n → runFor (machine F.states F.colors P) m initCfg = some e →
      e.pos ≠ y) ↔ ¬ ((v.pmin : Int) - F.limit ≤ y ∧ y < (v.pmax : Int) - F.limit) := by
    intro y
    rw [← h.span y]
    constructor
    · rintro hy ⟨m, d, hm, hd, e⟩
      exact hy m d hm hd e
    · intro hy m e hm he e'
      exact hy ⟨m, e, hm, he, e'⟩
  constructor
  · intro hr
    simp only [enc, Bool.and_eq_true, beq_iff_eq, Bool.or_eq_true] at hr
    obtain ⟨⟨ht, hs⟩, he⟩ := hr
    refine ⟨c, (P c.state 0).1, (P c.state 0).2.1, h.run, ht, ?_, ?_⟩
    · rw [hmach]
      have : (P c.state 0).2.2 = c.state := by exact_mod_cast hs
      exact congrArg some (Prod.ext rfl (Prod.ext rfl this))
    · rw [hvis]
      rintro ⟨g1, g2⟩
      rcases he with ⟨he, hd⟩ | ⟨he, hd⟩
      · have : (P c.state 0).2.1 = false := by
          cases hb : (P c.state 0).2.1
          · rfl
          · rw [hb] at hd; simp at hd
        rw [this] at g1
        simp only [Bool.false_eq_true, if_false] at g1
        omega
      · have : (P c.state 0).2.1 = true := by
          cases hb : (P c.state 0).2.1
          · rw [hb] at hd; simp at hd
          · rfl
        rw [this] at g2
        simp only [if_true] at g2
        omega
  · rintro ⟨d, pr, dir, hd, ht, hi, hv⟩
    rw [h.run] at hd
    cases hd
    rw [hmach] at hi
    have hi := Option.some.inj hi
    rw [hi, ht]
    rw [hvis] at hv
    simp only [enc, Bool.and_eq_true, beq_iff_eq, Bool.or_eq_true]
    refine ⟨⟨trivial, trivial⟩, ?_⟩
    cases dir
    · left
      simp only [Bool.false_eq_true, if_false] at hv ⊢
      exact ⟨by omega, trivial⟩
    · right
      simp only [if_true] at hv ⊢
      exact ⟨by omega, trivial⟩

/-- Doing an instruction. -/
theorem Sim.action (hF : F.Ok) (hP : ProgFits F.states F.colors P) {n : Nat} {v v1 : Vars} {c : Cfg}
    (h : Sim F (machine F.states F.colors P) n v c) (hn : n < F.limit) (hq : c.state < F.states)
    (hv1 : v1 = { v with steps := n + 1 }) :
    ∃ v', (¬ (c.exec (P c.state (c.tape c.pos))).Blank →
        Sim F (machine F.states F.colors P) (n + 1) v' (c.exec (P c.state (c.tape c.pos))) ∧
        CSim.action F (enc (P c.state (c.tape c.pos))) v1 =
          doTrans F (c.exec (P c.state (c.tape c.pos))).state v') ∧
      ((c.exec (P c.state (c.tape c.pos))).Blank →
        CSim.action F (enc (P c.state (c.tape c.pos))) v1 = .toH v' ∧ v'.steps = n + 1 ∧
          v'.marks = 0 ∧ v'.pmax = v.pmax ∧ v'.pmin = v.pmin ∧ ∀ i, v'.tape i = 0) := by
  have hcol := h.colors c.pos
  have hmach : machine F.states F.colors P c.slot = some (P c.state (c.tape c.pos)) := by
    unfold machine Cfg.slot
    rw [if_pos ⟨hq, hcol⟩]
  have hi1 := hP.color c.state (c.tape c.pos) hq hcol
  generalize hi : P c.state (c.tape c.pos) = i at *
  obtain ⟨g1, g2⟩ := h.inSpan
  have hm := h.minmax
  have hlim := hF.limit
  have hco := hF.colors
  have hpos := h.pos
  have hscan := h.scan
  have hnear := h.near
  have hrun' : runFor (machine F.states F.colors P) (n + 1) initCfg = some (c.exec i) := by
    rw [runFor_succ', h.run, Option.bind_some, step_some hmach]
  have hmarks := marks_exec h.marks i
  have hml := h.marksLe
  have hu : u32 (i.1 : Int) = i.1 := 
    u32_of rfl (Nat.lt_trans hi1 (by omega))
  -- the cell is written
  have hmk : (doColor (i.1 : Int) v1).marks = (if i.1 ≠ 0 ∧ c.tape c.pos = 0 then v.marks + 1
      else if i.1 = 0 ∧ c.tape c.pos ≠ 0 then v.marks - 1 else v.marks) := by
    subst hv1
    simp only [doColor, hscan]
    have hcast : ((i.1 : Int) = 0) ↔ i.1 = 0 := Int.natCast_eq_zero
    simp only [ne_eq, hcast]
    by_cases h1 : ¬ i.1 = 0 ∧ c.tape c.pos = 0
    · rw [if_pos h1, if_pos h1]
      exact u32_of (by push_cast; rfl) (by omega)
    · rw [if_neg h1, if_neg h1]
      by_cases hh : i.1 = 0 ∧ ¬ c.tape c.pos = 0
      · rw [if_pos hh, if_pos hh]
        have hpos0 : v.marks ≠ 0 := fun e => hh.2 ((marks_zero_iff h.marks).1 e _)
        exact u32_of (by omega) (by omega)
      · rw [if_neg hh, if_neg hh]
  have htp : ∀ k : Nat, (doColor (i.1 : Int) v1).tape k = (c.exec i).tape ((k : Int) - F.limit) := by
    intro k
    subst hv1
    simp only [doColor, Cfg.exec, Function.update_apply, hu]
    by_cases hk : k = v.pos
    · rw [if_pos hk, if_pos (by omega)]
    · rw [if_neg hk, if_neg (by omega)]
      exact h.tape k
  have hst : (doColor (i.1 : Int) v1).steps = n + 1 := by subst hv1; rfl
  have hp0 : (doColor (i.1 : Int) v1).pos = v.pos := by subst hv1; rfl
  have hpm : (doColor (i.1 : Int) v1).pmin = v.pmin := by subst hv1; rfl
  have hpx : (doColor (i.1 : Int) v1).pmax = v.pmax := by subst hv1; rfl
  rw [← hmk] at hmarks
  generalize hw : doColor (i.1 : Int) v1 = w at *
  have hmle : w.marks ≤ n + 1 := by rw [hmk]; split <;> [omega; (split <;> omega)]
  have houts : ∀ x, x < (v.pmin : Int) - F.limit ∨ (v.pmax : Int) - F.limit ≤ x →
      (c.exec i).tape x = 0 := by
    intro x hx
    simp only [Cfg.exec]
    rw [if_neg (by omega)]
    exact h.outside x hx
  have hcols : ∀ x, (c.exec i).tape x < F.colors := by
    intro x
    simp only [Cfg.exec]
    split
    · exact hi1
    · exact h.colors x
  have hact : CSim.action F (enc i) v1 =
      if w.marks = 0 then .toH w else doTrans F (i.2.2 : Int) (doShift (enc i).2.1 w) := by
    unfold CSim.action
    rw [show (enc i).1 = (i.1 : Int) from rfl, hw]
    rfl
  by_cases hb : (c.exec i).Blank
  · refine ⟨w, fun hh => absurd hb hh, fun _ => ?_⟩
    have h0 := (marks_zero_iff hmarks).2 hb
    rw [hact, if_pos h0]
    exact ⟨rfl, hst, h0, hpx, hpm, fun k => by rw [htp]; exact hb _⟩
  · refine ⟨doShift (enc i).2.1 w, fun _ => ⟨?_, ?_⟩, fun hh => absurd hh hb⟩
    swap
    · rw [hact, if_neg fun e => hb ((marks_zero_iff hmarks).1 e)]
      rfl
    have hspan : ∀ x, (∃ m d, m ≤ n + 1 ∧
        runFor (machine F.states F.colors P) m initCfg = some d ∧ d.pos = x) ↔
        ((v.pmin : Int) - F.limit ≤ x ∧ x < (v.pmax : Int) - F.limit) ∨ x = (c.exec i).pos := by
      intro x
      rw [← h.span x]
      constructor
      · rintro ⟨m, d, hm, hd, e⟩
        rcases Nat.lt_or_ge n m with hlt | hle
        · obtain rfl : m = n + 1 := by omega
          rw [hrun'] at hd
          cases hd
          exact .inr e.symm
        · exact .inl ⟨m, d, hle, hd, e⟩
      · rintro (⟨m, d, hm, hd, e⟩ | e)
        · exact ⟨m, d, by omega, hd, e⟩
        · exact ⟨n + 1, _, Nat.le_refl _, hrun', e.symm⟩
    -- the new position
    have hnp : ((u32 ((w.pos : Int) + (enc i).2.1) : Nat) : Int) = F.limit + (c.exec i).pos ∧
        (-((n + 1 : Nat) : Int) ≤ (c.exec i).pos ∧ (c.exec i).pos ≤ (n + 1 : Nat)) ∧
        ((c.exec i).pos = c.pos + 1 ∨ (c.exec i).pos = c.pos - 1) := by
      rw [hp0, hpos]
      simp only [enc, Cfg.exec]
      cases i.2.1
      · simp only [Bool.false_eq_true, if_false]
        refine ⟨?_, by push_cast; omega, by simp⟩
        have := u32_nat (x := (F.limit : Int) + c.pos + -1) (by omega) (by omega)
        omega
      · simp only [if_true]
        refine ⟨?_, by push_cast; omega, by simp⟩
        have := u32_nat (x := (F.limit : Int) + c.pos + 1) (by omega) (by omega)
        omega
    obtain ⟨hnp, hnear', hadj⟩ := hnp
    unfold doShift
    simp only
    generalize u32 ((w.pos : Int) + (enc i).2.1) = np at hnp ⊢
    generalize (c.exec i) = c' at *
    by_cases hlt : np < w.pmin
    · rw [if_pos hlt]
      rw [hpm] at hlt ⊢
      have hun : u32 ((v.pmin : Int) - 1) = v.pmin - 1 := u32_of (by omega) (by omega)
      rw [hun]
      refine ⟨hrun', hnp, htp, hst, hmarks, hmle, hnear', fun x => ?_, ?_, fun x hx => ?_, hcols⟩
      · rw [hspan x]
        simp only [hpx]
        constructor
        · rintro (hx | rfl) <;> omega
        · intro hx
          by_cases e : x = c'.pos
          · exact .inr e
          · left
            omega
      · simp only [hpx]
        omega
      · refine houts x ?_
        simp only [hpx] at hx
        omega
    · rw [if_neg hlt]
      by_cases hge : w.pmax ≤ np
      · rw [if_pos hge]
        rw [hpx] at hge ⊢
        have hun : u32 ((v.pmax : Int) + 1) = v.pmax + 1 := u32_of (by push_cast; rfl) (by omega)
        rw [hun]
        refine ⟨hrun', hnp, htp, hst, hmarks, hmle, hnear', fun x => ?_, ?_, fun x hx => ?_, hcols⟩
        · rw [hspan x]
          simp only [hpm]
          constructor
          · rintro (hx | rfl) <;> omega
          · intro hx
            by_cases e : x = c'.pos
            · exact .inr e
            · left
              omega
        · simp only [hpm]
          omega
        · refine houts x ?_
          simp only [hpm] at hx
          omega
      · rw [if_neg hge]
        rw [hpm] at hlt
        rw [hpx] at hge
        refine ⟨hrun', hnp, htp, hst, hmarks, hmle, hnear', fun x => ?_, ?_, fun x hx => ?_, hcols⟩
        · rw [hspan x]
          simp only [hpm, hpx]
          constructor
          · rintro (hx | rfl) <;> omega
          · exact .inl
        · simp only [hpm, hpx]
          omega
        · refine houts x ?_
          simp only [hpm, hpx] at hx
          omega

end

end CSim
end BB
