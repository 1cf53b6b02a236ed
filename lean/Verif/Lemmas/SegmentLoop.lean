import Verif.Lemmas.Segment
import Mathlib.Data.List.Perm.Subperm

/-!
# The loops of the segment analysis
-/

namespace BB

/-! ## `run_to_edge` -/

/-- A blank window in the initial state, at some point of the run from `x`, at or before `m`. -/
def InitBy (p : Prog) (x : WCfg) (m : Nat) : Prop :=
  ∃ j t, j ≤ m ∧ wrun p j x = some (0, t) ∧ t.blank = true

/-- What is known about the end of a run in the window. -/
def EdgeSpec (p : Prog) (x : WCfg) (m : Nat) (c : SegConfig) : Option SearchResult → Prop
  | none => c.tape.scan = none
  | some .halted => ∃ s, c.tape.scan = some s ∧ p (c.state, s) = none
  | some .spinout => c.init = true ∧
      ∃ print shift, p (c.state, 0) = some (print, shift, c.state) ∧ c.tape.atEdge shift = true
  | some .repeats => (∀ n, (wrun p n x).isSome) ∨
      (c.init = true ∧ c.state = 0 ∧ c.tape.blank = true ∧
        ∃ j t, j < m ∧ wrun p j x = some (0, t) ∧ t.blank = true)
  | some .limit => False
  | some .reached => False

theorem wstep_of_slot {p : Prog} {c : SegConfig} {slot : Slot} {i : Instr}
    (h1 : c.slot = some slot) (h2 : p slot = some i) :
    wstep p (c.state, c.tape) = some ((c.step i).state, (c.step i).tape) := by
  obtain ⟨s, hs, rfl⟩ := Option.map_eq_some_iff.1 h1
  simp only [wstep, hs, h2]
  rfl

theorem runToEdge_spec {p : Prog} {x : WCfg} : ∀ (fuel : Nat) {m : Nat} {self copy : SegConfig}
    {step : Bool} {blanks : List (State × Nat)} {self' : SegConfig} {blanks' : List (State × Nat)}
    {res : Option SearchResult},
    SegConfig.runToEdge p fuel self copy step blanks = some (self', blanks', res) →
    wrun p m x = some (self.state, self.tape) →
    wrun p (m / 2) x = some (copy.state, copy.tape) →
    step = (m % 2 == 1) →
    (self.init = true → InitBy p x m) →
    ∃ m', wrun p m' x = some (self'.state, self'.tape) ∧
      (self'.init = true → InitBy p x m') ∧
      (∀ e ∈ blanks', e ∈ blanks ∨ ∃ j t, wrun p j x = some (e.1, t) ∧ t.blank = true ∧
        t.pos = e.2) ∧
      blanks ⊆ blanks' ∧ EdgeSpec p x m' self' res := by
  intro fuel
  induction fuel with
  | zero =>
    intro m self copy step blanks self' blanks' res h
    cases h
  | succ fuel ih =>
    intro m self copy step blanks self' blanks' res h hm hc hst hin
    simp only [SegConfig.runToEdge] at h
    split at h
    · next hslot =>
      cases h
      refine ⟨m, hm, hin, fun e he => .inl he, fun _ he => he, ?_⟩
      show self.tape.scan = none
      simpa [SegConfig.slot] using hslot
    · next slot hslot =>
      split at h
      · next hp =>
        cases h
        refine ⟨m, hm, hin, fun e he => .inl he, fun _ he => he, ?_⟩
        obtain ⟨s, hs, rfl⟩ := Option.map_eq_some_iff.1 hslot
        exact ⟨s, hs, hp⟩
      · next instr hp =>
        have hnext := wrun_succ hm
        rw [wstep_of_slot hslot hp] at hnext
        split at h
        · next hspin =>
          cases h
          refine ⟨m, hm, hin, fun e he => .inl he, fun _ he => he, ?_⟩
          simp only [SegConfig.spinout, Bool.and_eq_true, beq_iff_eq] at hspin
          obtain ⟨hi, hq, hedge⟩ := hspin
          refine ⟨hi, instr.1, instr.2.1, ?_, hedge⟩
          obtain ⟨s, hs, rfl⟩ := Option.map_eq_some_iff.1 hslot
          have hs0 : s = 0 := by
            simp only [SegTape.atEdge, hs, Bool.and_eq_true, beq_iff_eq, Option.some.injEq]
              at hedge
            exact hedge.1
          subst hs0
          rw [hp]
          obtain ⟨a, b, q⟩ := instr
          simp only at hq
          rw [hq]
        · split at h
          · next hrep =>
            cases h
            simp only [Bool.and_eq_true, beq_iff_eq] at hrep
            obtain ⟨⟨⟨-, hbl⟩, hq⟩, hi⟩ := hrep
            refine ⟨m + 1, hnext, ?_, fun e he => .inl he, fun _ he => he, .inr ⟨hi, hq, hbl, ?_⟩⟩
            · intro _
              obtain ⟨j, t, hj, hr, hb⟩ := hin hi
              exact ⟨j, t, by omega, hr, hb⟩
            · obtain ⟨j, t, hj, hr, hb⟩ := hin hi
              exact ⟨j, t, by omega, hr, hb⟩
          · have hinit : (self.init || (instr.1 == 0 && (self.step instr).tape.blank &&
                instr.2.2 == 0)) = true → InitBy p x (m + 1) := by
              intro hor
              rw [Bool.or_eq_true] at hor
              rcases hor with hi | hb
              · obtain ⟨j, t, hj, hr, hb⟩ := hin hi
                exact ⟨j, t, by omega, hr, hb⟩
              · simp only [Bool.and_eq_true, beq_iff_eq] at hb
                obtain ⟨⟨-, hbl⟩, hq⟩ := hb
                refine ⟨m + 1, (self.step instr).tape, by omega, ?_, hbl⟩
                rw [hnext, show (self.step instr).state = 0 from hq]
            have hblanks : ∀ e ∈ (if (instr.1 == 0 && (self.step instr).tape.blank) = true then
                (instr.2.2, (self.step instr).tape.pos) :: blanks else blanks),
                e ∈ blanks ∨ ∃ j t, wrun p j x = some (e.1, t) ∧ t.blank = true ∧
                  t.pos = e.2 := by
              intro e he
              split at he
              · next hb =>
                rcases List.mem_cons.1 he with rfl | he
                · right
                  simp only [Bool.and_eq_true] at hb
                  exact ⟨m + 1, _, hnext, hb.2, rfl⟩
                · exact .inl he
              · exact .inl he
            have hsub : blanks ⊆ (if (instr.1 == 0 && (self.step instr).tape.blank) = true then
                (instr.2.2, (self.step instr).tape.pos) :: blanks else blanks) := by
              split
              · exact List.subset_cons_self _ _
              · exact fun _ he => he
            have key : ∀ {m' : Nat} {copy' : SegConfig} {step' : Bool}, m' = m + 1 →
                SegConfig.runToEdge p fuel
                  { self.step instr with
                    init := self.init || (instr.1 == 0 && (self.step instr).tape.blank &&
                      instr.2.2 == 0) }
                  copy' step' (if (instr.1 == 0 && (self.step instr).tape.blank) = true then
                    (instr.2.2, (self.step instr).tape.pos) :: blanks else blanks)
                  = some (self', blanks', res) →
                wrun p (m' / 2) x = some (copy'.state, copy'.tape) → step' = (m' % 2 == 1) →
                ∃ m'', wrun p m'' x = some (self'.state, self'.tape) ∧
                (self'.init = true → InitBy p x m'') ∧
                (∀ e ∈ blanks', e ∈ blanks ∨ ∃ j t, wrun p j x = some (e.1, t) ∧ t.blank = true ∧
                  t.pos = e.2) ∧
                blanks ⊆ blanks' ∧ EdgeSpec p x m'' self' res := by
              intro m' copy' step' hm' hr hc' hst'
              subst hm'
              obtain ⟨m'', h1, h2, h3, h4, h5⟩ := ih hr hnext hc' hst' hinit
              refine ⟨m'', h1, h2, fun e he => ?_, fun _ he => h4 (hsub he), h5⟩
              rcases h3 e he with he | he
              · exact hblanks e he
              · exact .inr he
            split at h
            · next hs =>
              have hs' : step = false := by simpa using hs
              rw [hs'] at hst
              have hmod : ¬ m % 2 = 1 := by simpa using hst.symm
              refine key rfl h ?_ ?_
              · rw [show (m + 1) / 2 = m / 2 by omega]
                exact hc
              · simp
                omega
            · next hs =>
              have hs' : step = true := by simpa using hs
              rw [hs'] at hst
              have hmod : m % 2 = 1 := by simpa using hst.symm
              split at h
              · cases h
              · next instr' hcp =>
                obtain ⟨slot', hslot', hp'⟩ := Option.bind_eq_some_iff.1 hcp
                have hcn := wrun_succ hc
                rw [wstep_of_slot hslot' hp'] at hcn
                split at h
                · next heq =>
                  cases h
                  refine ⟨m + 1, hnext, hinit, hblanks, hsub, .inl ?_⟩
                  simp only [Bool.and_eq_true, beq_iff_eq] at heq
                  obtain ⟨e1, e2⟩ := heq
                  rw [e1, e2] at hcn
                  exact wrun_loop hcn hnext (by omega)
                · refine key rfl h ?_ ?_
                  · rw [show (m + 1) / 2 = m / 2 + 1 by omega]
                    exact hcn
                  · simp
                    omega

/-! ## Marks -/

namespace SegConfigs

def Marked (c : SegConfigs) (x : WCfg) : Prop :=
  if x.2.blank = true then (x.1, x.2.pos) ∈ c.blanks else x ∈ c.seen

/-- The run from `x` in the window has been followed to its end. -/
def Handled (p : Prog) (a : Analyzed) (c : SegConfigs) (x : WCfg) : Prop :=
  (∃ n y, wrun p n x = some y ∧ y.2.scan = none ∧
    (y.1 ∈ a.halts → (y.1, y.2.pos) ∈ c.reached) ∧
    ∃ diffs dirs, a.branches.lookup y.1 = some (diffs, dirs) ∧
      (∀ q ∈ dirs (!y.2.side), c.Marked (q, y.2.stepIn (!y.2.side))) ∧
      ∀ q ∈ diffs, c.Marked (q, y.2)) ∨
  (∃ n y s, wrun p n x = some y ∧ y.2.scan = some s ∧ p (y.1, s) = none ∧
    (y.1 ∈ a.halts → (y.1, y.2.pos) ∈ c.reached)) ∨
  ∀ n, (wrun p n x).isSome

structure Le (c d : SegConfigs) : Prop where
  seen : c.seen ⊆ d.seen
  blanks : c.blanks ⊆ d.blanks
  reached : c.reached ⊆ d.reached

theorem Le.refl (c : SegConfigs) : c.Le c := ⟨fun _ h => h, fun _ h => h, fun _ h => h⟩

theorem Le.trans {c d e : SegConfigs} (h1 : c.Le d) (h2 : d.Le e) : c.Le e :=
  ⟨fun _ h => h2.seen (h1.seen h), fun _ h => h2.blanks (h1.blanks h),
    fun _ h => h2.reached (h1.reached h)⟩

theorem Marked.mono {c d : SegConfigs} (h : c.Le d) {x : WCfg} (hx : c.Marked x) : d.Marked x := by
  unfold Marked at hx ⊢
  split at hx
  · next hb => rw [if_pos hb]; exact h.blanks hx
  · next hb => rw [if_neg hb]; exact h.seen hx

theorem Handled.mono {p : Prog} {a : Analyzed} {c d : SegConfigs} (h : c.Le d) {x : WCfg}
    (hx : Handled p a c x) : Handled p a d x := by
  rcases hx with ⟨n, y, h1, h2, h3, diffs, dirs, h4, h5, h6⟩ | ⟨n, y, s, h1, h2, h3, h4⟩ | hx
  · exact .inl ⟨n, y, h1, h2, fun hh => h.reached (h3 hh), diffs, dirs, h4,
      fun q hq => (h5 q hq).mono h, fun q hq => (h6 q hq).mono h⟩
  · exact .inr (.inl ⟨n, y, s, h1, h2, h3, fun hh => h.reached (h4 hh)⟩)
  · exact .inr (.inr hx)

/-- A point of a run that has been followed. -/
theorem Handled.later {p : Prog} {a : Analyzed} {c : SegConfigs} {x y : WCfg} {j : Nat}
    (hx : Handled p a c x) (hj : wrun p j x = some y) : Handled p a c y := by
  have rest : ∀ {n : Nat} {z : WCfg}, wrun p n x = some z → wstep p z = none →
      wrun p (n - j) y = some z := by
    intro n z hz hs
    have hle := wrun_stuck hz hs hj
    have : wrun p (j + (n - j)) x = some z := by rw [show j + (n - j) = n by omega]; exact hz
    rw [wrun_add, hj, Option.bind_some] at this
    exact this
  rcases hx with ⟨n, z, h1, h2, h3⟩ | ⟨n, z, s, h1, h2, h3, h4⟩ | hx
  · exact .inl ⟨n - j, z, rest h1 (by simp [wstep, h2]), h2, h3⟩
  · exact .inr (.inl ⟨n - j, z, s, rest h1 (by simp [wstep, h2, h3]), h2, h3, h4⟩)
  · refine .inr (.inr fun n => ?_)
    have := hx (j + n)
    rw [wrun_add, hj, Option.bind_some] at this
    exact this

/-- What the loop keeps true; `pend` are the points whose run is being followed. -/
structure Inv (p : Prog) (a : Analyzed) (W : Nat) (pend : WCfg → Prop) (c : SegConfigs) :
    Prop where
  seg : c.seg = W + 2
  todo : ∀ e ∈ c.todo, Wid W e.tape ∧ (e.init = true → e.state = 0 ∧ e.tape.blank = true)
  marks : ∀ x : WCfg, Wid W x.2 → c.Marked x →
    pend x ∨ (∃ e ∈ c.todo, x = (e.state, e.tape)) ∨ Handled p a c x
  count : ∀ s, (c.reached.filter (·.1 == s)).length < c.seg

theorem visit_spec {p : Prog} {a : Analyzed} {W : Nat} (hW : 1 ≤ W) {pend : WCfg → Prop}
    {c : SegConfigs} (h : c.Inv p a W pend) (q : State) {t : SegTape} (ht : Wid W t) :
    (c.visit q t).Inv p a W pend ∧ c.Le (c.visit q t) ∧ (c.visit q t).Marked (q, t) := by
  unfold visit
  split
  · next hb =>
    split
    · next hc =>
      refine ⟨h, .refl c, ?_⟩
      rw [Marked, if_pos hb]
      simpa using hc
    · have hle : c.Le { c with blanks := (q, t.pos) :: c.blanks,
                               todo := ⟨q, t, q == 0⟩ :: c.todo } :=
        ⟨fun _ h => h, List.subset_cons_self _ _, fun _ h => h⟩
      refine ⟨⟨h.seg, ?_, ?_, h.count⟩, hle, ?_⟩
      · intro e he
        rcases List.mem_cons.1 he with rfl | he
        · exact ⟨ht, fun hq => ⟨by simpa using hq, hb⟩⟩
        · exact h.todo e he
      · intro x hx hm
        have hold : c.Marked x → pend x ∨ (∃ e ∈ ⟨q, t, q == 0⟩ :: c.todo,
            x = (e.state, e.tape)) ∨ Handled p a _ x := fun hm =>
          (h.marks x hx hm).imp id fun hh => hh.imp
            (fun ⟨e, he, hxe⟩ => ⟨e, List.mem_cons_of_mem _ he, hxe⟩) (Handled.mono hle)
        unfold Marked at hm
        split at hm
        · next hbx =>
          rcases List.mem_cons.1 hm with he | hm
          · right; left
            refine ⟨_, List.mem_cons_self, ?_⟩
            simp only [Prod.mk.injEq] at he
            exact Prod.ext he.1 (blank_unique hW hx ht hbx hb he.2)
          · refine hold ?_
            rw [Marked, if_pos hbx]
            exact hm
        · next hbx =>
          refine hold ?_
          rw [Marked, if_neg hbx]
          exact hm
      · rw [Marked, if_pos hb]
        exact List.mem_cons_self
  · next hb =>
    split
    · next hc =>
      refine ⟨h, .refl c, ?_⟩
      rw [Marked, if_neg hb]
      simpa using hc
    · have hle : c.Le { c with seen := (q, t) :: c.seen, todo := ⟨q, t, false⟩ :: c.todo } :=
        ⟨List.subset_cons_self _ _, fun _ h => h, fun _ h => h⟩
      refine ⟨⟨h.seg, ?_, ?_, h.count⟩, hle, ?_⟩
      · intro e he
        rcases List.mem_cons.1 he with rfl | he
        · exact ⟨ht, fun hq => by cases hq⟩
        · exact h.todo e he
      · intro x hx hm
        have hold : c.Marked x → pend x ∨ (∃ e ∈ ⟨q, t, false⟩ :: c.todo,
            x = (e.state, e.tape)) ∨ Handled p a _ x := fun hm =>
          (h.marks x hx hm).imp id fun hh => hh.imp
            (fun ⟨e, he, hxe⟩ => ⟨e, List.mem_cons_of_mem _ he, hxe⟩) (Handled.mono hle)
        unfold Marked at hm
        split at hm
        · next hbx =>
          refine hold ?_
          rw [Marked, if_pos hbx]
          exact hm
        · next hbx =>
          rcases List.mem_cons.1 hm with rfl | hm
          · exact .inr (.inl ⟨_, List.mem_cons_self, rfl⟩)
          · refine hold ?_
            rw [Marked, if_neg hbx]
            exact hm
      · rw [Marked, if_neg hb]
        exact List.mem_cons_self

theorem visits_spec {p : Prog} {a : Analyzed} {W : Nat} (hW : 1 ≤ W) {pend : WCfg → Prop}
    {t : SegTape} (ht : Wid W t) : ∀ (qs : List State) {c : SegConfigs}, c.Inv p a W pend →
    (qs.foldl (fun c q => c.visit q t) c).Inv p a W pend ∧
    c.Le (qs.foldl (fun c q => c.visit q t) c) ∧
    ∀ q ∈ qs, (qs.foldl (fun c q => c.visit q t) c).Marked (q, t)
  | [], c, h => ⟨h, .refl c, by simp⟩
  | q :: qs, c, h => by
    obtain ⟨h1, h2, h3⟩ := visit_spec hW h q ht
    obtain ⟨i1, i2, i3⟩ := visits_spec hW ht qs h1
    refine ⟨i1, h2.trans i2, fun r hr => ?_⟩
    rcases List.mem_cons.1 hr with rfl | hr
    · exact h3.mono i2
    · exact i3 r hr

theorem checkReached_spec {p : Prog} {a : Analyzed} {W : Nat} {pend : WCfg → Prop}
    {c d : SegConfigs} (h : c.Inv p a W pend) {q : State} {t : SegTape}
    (hd : c.checkReached a.halts q t = (d, false)) :
    d.Inv p a W pend ∧ c.Le d ∧ (q ∈ a.halts → (q, t.pos) ∈ d.reached) := by
  unfold checkReached at hd
  split at hd
  · next hq =>
    simp only [Prod.mk.injEq, beq_eq_false_iff_ne, ne_eq] at hd
    obtain ⟨rfl, hne⟩ := hd
    have hsub : c.reached ⊆ (if c.reached.contains (q, t.pos) = true then c.reached
        else (q, t.pos) :: c.reached) := by
      split
      · exact fun _ h => h
      · exact List.subset_cons_self _ _
    have hle : c.Le { c with reached := if c.reached.contains (q, t.pos) = true then c.reached
        else (q, t.pos) :: c.reached } := ⟨fun _ h => h, fun _ h => h, hsub⟩
    refine ⟨⟨h.seg, h.todo, ?_, ?_⟩, hle, fun _ => ?_⟩
    · intro x hx hm
      exact (h.marks x hx hm).imp id fun hh => hh.imp id (Handled.mono hle)
    · intro s
      simp only
      split
      · exact h.count s
      · next hc =>
        rw [if_neg hc] at hne
        by_cases hs : q = s
        · subst hs
          have := h.count q
          simp only [List.filter_cons, beq_self_eq_true, if_true, List.length_cons] at hne ⊢
          omega
        · rw [List.filter_cons_of_neg (by simpa using hs)]
          exact h.count s
    · simp only
      split
      · next hc => simpa using hc
      · exact List.mem_cons_self
  · next hq =>
    cases hd
    refine ⟨h, .refl c, fun hh => ?_⟩
    simp at hq
    exact absurd hh hq

end SegConfigs

/-! ## Initial tapes -/

theorem init_spec {W pos : Nat} (hW : 1 ≤ W) (hp : pos < W + 2) :
    Wid W (.init (W + 2) pos) ∧ (SegTape.init (W + 2) pos).blank = true ∧
      (SegTape.init (W + 2) pos).pos = pos := by
  have hb : ∀ n, SegTape.spanBlank (List.replicate n 0) = true := by
    intro n
    simp [SegTape.spanBlank]
  unfold SegTape.init
  split
  · next h =>
    subst h
    simp only [Wid, SegTape.blank, SegTape.pos, hb]
    simp [SegTape.spanBlank]
  · split
    · next h1 h2 =>
      simp only [Wid, SegTape.blank, SegTape.pos, hb]
      simp [SegTape.spanBlank, show 0 < W by omega]
      omega
    · next h1 h2 =>
      simp only [Wid, SegTape.blank, SegTape.pos, hb]
      simp
      omega

namespace SegConfigs

theorem next_spec {p : Prog} {a : Analyzed} {W : Nat} (hW : 1 ≤ W) {c d : SegConfigs}
    {e : SegConfig} (h : c.Inv p a W fun _ => False) (hn : c.next = some (e, d)) :
    d.Inv p a W (fun x => x = (e.state, e.tape)) ∧ Wid W e.tape ∧
      (e.init = true → e.state = 0 ∧ e.tape.blank = true) := by
  unfold next at hn
  split at hn
  · next r hr =>
    cases hn
    obtain ⟨pos, hpos, he⟩ := Option.map_eq_some_iff.1 hr
    cases he
    have hlt : pos < W + 2 := by
      have := List.mem_of_find?_eq_some hpos
      rw [List.mem_range, h.seg] at this
      exact this
    obtain ⟨w1, w2, w3⟩ := init_spec hW hlt
    rw [h.seg]
    have hle : c.Le { c with blanks := (0, pos) :: c.blanks } :=
      ⟨fun _ h => h, List.subset_cons_self _ _, fun _ h => h⟩
    refine ⟨⟨rfl, h.todo, ?_, ?_⟩, w1, fun _ => ⟨rfl, w2⟩⟩
    · intro x hx hm
      have hold : c.Marked x → x = (0, SegTape.init (W + 2) pos) ∨
          (∃ e ∈ c.todo, x = (e.state, e.tape)) ∨
          Handled p a { c with blanks := (0, pos) :: c.blanks } x := fun hm =>
        (h.marks x hx hm).elim False.elim fun hh => .inr (hh.imp id (Handled.mono hle))
      unfold Marked at hm
      split at hm
      · next hbx =>
        rcases List.mem_cons.1 hm with he | hm
        · left
          simp only [Prod.mk.injEq] at he
          exact Prod.ext he.1 (blank_unique hW hx w1 hbx w2 (he.2.trans w3.symm))
        · refine hold ?_
          rw [Marked, if_pos hbx]
          exact hm
      · next hbx =>
        refine hold ?_
        rw [Marked, if_neg hbx]
        exact hm
    · intro s
      rw [← h.seg]
      exact h.count s
  · split at hn
    · cases hn
    · next config todo htodo =>
      cases hn
      have hmem : e ∈ c.todo := by rw [htodo]; exact List.mem_cons_self
      refine ⟨⟨h.seg, fun f hf => h.todo f (by rw [htodo]; exact List.mem_cons_of_mem _ hf),
        fun x hx hm => ?_, h.count⟩, h.todo e hmem⟩
      rcases h.marks x hx hm with hf | ⟨f, hf, rfl⟩ | hh
      · exact hf.elim
      · rw [htodo] at hf
        rcases List.mem_cons.1 hf with rfl | hf
        · exact .inl rfl
        · exact .inr (.inl ⟨f, hf, rfl⟩)
      · exact .inr (.inr (hh.mono ⟨fun _ h => h, fun _ h => h, fun _ h => h⟩))

end SegConfigs

/-! ## The loop -/

/-- Everything the search is left with when it has nothing more to look at. -/
structure SegClosed (p : Prog) (a : Analyzed) (W : Nat) (c : SegConfigs) : Prop where
  init : ∀ pos < W + 2, (0, pos) ∈ c.blanks
  marks : ∀ x : WCfg, Wid W x.2 → c.Marked x → c.Handled p a x
  count : ∀ s, (c.reached.filter (·.1 == s)).length < W + 2

theorem neverHalts_of_initBy {p : Prog} {W : Nat} (hW : 1 ≤ W) {x : WCfg} (hx : Wid W x.2)
    {m : Nat} (h : InitBy p x m) {c : SegConfig} {r : SearchResult}
    (hm : wrun p m x = some (c.state, c.tape)) (hr : r = .spinout ∨ r = .repeats)
    (hs : EdgeSpec p x m c (some r)) : NeverHalts p initCfg := by
  have cut : ∀ {j k : Nat} {t : SegTape} {y : WCfg}, j ≤ k → wrun p j x = some (0, t) →
      wrun p k x = some y → wrun p (k - j) (0, t) = some y := by
    intro j k t y hjk hj hk
    have : wrun p (j + (k - j)) x = some y := by rw [show j + (k - j) = k by omega]; exact hk
    rw [wrun_add, hj, Option.bind_some] at this
    exact this
  obtain ⟨j, t, hjm, hj, hb⟩ := h
  rcases hr with rfl | rfl
  · obtain ⟨-, print, shift, hp, hedge⟩ := hs
    exact neverHalts_of_wspinout hW (hx.wrun hj) hb (cut hjm hj hm) hp hedge
  · rcases hs with hs | ⟨-, hq, hbl, i, u, him, hi, hbu⟩
    · refine neverHalts_of_wrun hW (hx.wrun hj) hb fun n => ?_
      have := hs (j + n)
      rw [wrun_add, hj, Option.bind_some] at this
      exact this
    · rw [hq] at hm
      exact neverHalts_of_wblank hW (hx.wrun hi) hbu (by omega) (cut (by omega) hi hm) hbl

theorem segLoop_spec {p : Prog} {a : Analyzed} {W inner : Nat} (hW : 1 ≤ W) :
    ∀ (fuel : Nat) {c : SegConfigs} {r : Option SearchResult}, c.Inv p a W (fun _ => False) →
    segLoop p a inner fuel c = some r → r = none ∨ r = some .spinout ∨ r = some .repeats →
    NeverHalts p initCfg ∨ ∃ d, SegClosed p a W d := by
  intro fuel
  induction fuel with
  | zero =>
    intro c r _ h
    cases h
  | succ fuel ih =>
    intro c r hinv h hr
    simp only [segLoop] at h
    split at h
    · next hnone =>
      right
      unfold SegConfigs.next at hnone
      split at hnone
      · cases hnone
      · next hni =>
        split at hnone
        · next htodo =>
          refine ⟨c, fun pos hpos => ?_, fun x hx hm => ?_, ?_⟩
          · rw [SegConfigs.nextInit, Option.map_eq_none_iff, List.find?_eq_none] at hni
            have := hni pos (List.mem_range.2 (by rw [hinv.seg]; exact hpos))
            simpa using this
          · rcases hinv.marks x hx hm with hf | ⟨e, he, -⟩ | hh
            · exact hf.elim
            · rw [htodo] at he
              cases he
            · exact hh
          · rw [← hinv.seg]
            exact hinv.count
        · cases hnone
    · next e d hnext =>
      obtain ⟨hd, hwid, hinit⟩ := SegConfigs.next_spec hW hinv hnext
      split at h
      · cases h
      · next e' blanks res hrun =>
        obtain ⟨m, hm, hin, hbl, hsub, hspec⟩ := runToEdge_spec (x := (e.state, e.tape)) inner
          (m := 0) hrun rfl rfl rfl (fun hi => ⟨0, e.tape, Nat.le_refl 0, by
            rw [wrun, (hinit hi).1], (hinit hi).2⟩)
        have hle : d.Le { d with blanks := blanks } := ⟨fun _ h => h, hsub, fun _ h => h⟩
        have hd' : SegConfigs.Inv p a W (fun x => ∃ j, wrun p j (e.state, e.tape) = some x)
            { d with blanks := blanks } := by
          refine ⟨hd.seg, hd.todo, fun x hx hmk => ?_, hd.count⟩
          have hold : d.Marked x → (∃ j, wrun p j (e.state, e.tape) = some x) ∨
              (∃ e ∈ d.todo, x = (e.state, e.tape)) ∨
              SegConfigs.Handled p a { d with blanks := blanks } x := fun hmk =>
            (hd.marks x hx hmk).imp (fun hxe => ⟨0, by rw [wrun, hxe]⟩)
              fun hh => hh.imp id (SegConfigs.Handled.mono hle)
          unfold SegConfigs.Marked at hmk
          split at hmk
          · next hbx =>
            rcases hbl _ hmk with hmk | ⟨j, t, hj, hbt, hpt⟩
            · refine hold ?_
              rw [SegConfigs.Marked, if_pos hbx]
              exact hmk
            · left
              refine ⟨j, ?_⟩
              rw [hj]
              have : t = x.2 := blank_unique hW (Wid.wrun (x := (e.state, e.tape)) hwid hj) hx
                hbt hbx hpt
              rw [this]
          · next hbx =>
            refine hold ?_
            rw [SegConfigs.Marked, if_neg hbx]
            exact hmk
        have close : ∀ {f : SegConfigs},
            f.Inv p a W (fun x => ∃ j, wrun p j (e.state, e.tape) = some x) →
            f.Handled p a (e.state, e.tape) → f.Inv p a W (fun _ => False) := by
          intro f hf hh
          refine ⟨hf.seg, hf.todo, fun x hx hmk => .inr ?_, hf.count⟩
          rcases hf.marks x hx hmk with ⟨j, hj⟩ | hh'
          · exact .inr (hh.later hj)
          · exact hh'
        split at h
        · -- halted
          split at h
          · cases h
            rcases hr with hr | hr | hr <;> cases hr
          · split at h
            · cases h
              rcases hr with hr | hr | hr <;> cases hr
            · next hdone =>
              obtain ⟨i1, i2, i3⟩ := SegConfigs.checkReached_spec hd' (q := e'.state)
                (t := e'.tape) (d := (SegConfigs.checkReached { d with blanks := blanks } a.halts
                  e'.state e'.tape).1) (Prod.ext rfl (by simpa using hdone))
              obtain ⟨s, hs, hp⟩ := hspec
              exact ih (close i1 (.inr (.inl ⟨m, _, s, hm, hs, hp, i3⟩))) h hr
        · -- repeats
          split at h
          · next hi =>
            left
            exact neverHalts_of_initBy hW hwid (hin hi) hm (.inr rfl) hspec
          · next hi =>
            rcases hspec with hspec | ⟨hi', -⟩
            · exact ih (close hd' (.inr (.inr hspec))) h hr
            · exact absurd hi' hi
        · -- spinout
          left
          exact neverHalts_of_initBy hW hwid (hin hspec.1) hm (.inl rfl) hspec
        · next r' h1 h2 h3 =>
          cases r' with
          | limit => exact hspec.elim
          | reached => exact hspec.elim
          | halted => exact absurd rfl h1
          | repeats => exact absurd rfl h2
          | spinout => exact absurd rfl h3
        · -- the edge
          split at h
          · cases h
            rcases hr with hr | hr | hr <;> cases hr
          · next hdone =>
            obtain ⟨i1, i2, i3⟩ := SegConfigs.checkReached_spec hd' (q := e'.state)
              (t := e'.tape) (d := (SegConfigs.checkReached { d with blanks := blanks } a.halts
                e'.state e'.tape).1) (Prod.ext rfl (by simpa using hdone))
            split at h
            · cases h
            · next diffs dirs hlook =>
              have hwid' : Wid W e'.tape := Wid.wrun (x := (e.state, e.tape)) hwid hm
              have hwin := (hwid'.stepIn hW hspec).1
              obtain ⟨j1, j2, j3⟩ := SegConfigs.visits_spec hW hwin (dirs (!e'.tape.side)) i1
              obtain ⟨k1, k2, k3⟩ := SegConfigs.visits_spec hW hwid' diffs j1
              split at h
              · cases h
                rcases hr with hr | hr | hr <;> cases hr
              · refine ih (close k1 (.inl ⟨m, _, hm, hspec, fun hh => ?_, diffs, dirs, hlook,
                  fun q hq => (j3 q hq).mono k2, k3⟩)) h hr
                exact k2.reached (j2.reached (i3 hh))

/-! ## The whole run -/

/-- What the analysis of the program must say. -/
structure SegSound (p : Prog) (a : Analyzed) (S C : Nat) : Prop where
  range : ∀ s i, p s = some i → i.1 < C ∧ i.2.2 < S
  halts : ∀ q c, q < S → c < C → p (q, c) = none → q ∈ a.halts
  branch : ∀ q c i diffs dirs, c < C → p (q, c) = some i →
    a.branches.lookup q = some (diffs, dirs) →
    (i.2.2 ≠ q → i.2.2 ∈ diffs) ∧ i.2.2 ∈ dirs i.2.1

theorem inRange_run {p : Prog} {a : Analyzed} {S C : Nat} (h : SegSound p a S C) (hS : 0 < S)
    (hC : 0 < C) : ∀ (n : Nat) {c : Cfg}, runFor p n initCfg = some c →
      c.state < S ∧ ∀ x, c.tape x < C := by
  intro n
  induction n with
  | zero =>
    intro c hc
    cases hc
    exact ⟨hS, fun _ => hC⟩
  | succ n ih =>
    intro c hc
    rw [runFor_succ'] at hc
    obtain ⟨d, hd, hc⟩ := Option.bind_eq_some_iff.1 hc
    obtain ⟨i, hi, rfl⟩ := Option.map_eq_some_iff.1 hc
    obtain ⟨h1, h2⟩ := h.range _ _ hi
    refine ⟨h2, fun x => ?_⟩
    simp only [Cfg.exec]
    split
    · exact h1
    · exact (ih hd).2 x

theorem covered {p : Prog} {a : Analyzed} {S C W : Nat} (hs : SegSound p a S C) (hS : 0 < S)
    (hC : 0 < C) (hW : 1 ≤ W) {d : SegConfigs} (hd : SegClosed p a W d) (o : Int) :
    ∀ (n : Nat) {c : Cfg}, runFor p n initCfg = some c →
      ∃ x m, Wid W x.2 ∧ d.Marked x ∧ wrun p m x = some (c.state, proj W o c) := by
  intro n
  induction n with
  | zero =>
    intro c hc
    cases hc
    have hb : (proj W o initCfg).blank = true := blank_proj fun _ => rfl
    refine ⟨(0, proj W o initCfg), 0, wid_proj _ _ _, ?_, rfl⟩
    rw [SegConfigs.Marked, if_pos hb]
    exact hd.init _ (blank_init hW (wid_proj _ _ _) hb).2
  | succ n ih =>
    intro c hc
    rw [runFor_succ'] at hc
    obtain ⟨b, hb, hc⟩ := Option.bind_eq_some_iff.1 hc
    obtain ⟨x, m, hx, hmk, hm⟩ := ih hb
    by_cases hin : o < b.pos ∧ b.pos ≤ o + W
    · refine ⟨x, m + 1, hx, hmk, ?_⟩
      rw [wrun_succ hm, wstep_proj hin.1 hin.2, hc]
      rfl
    · have hout : b.pos ≤ o ∨ o + W < b.pos := by omega
      have hscan : (proj W o b).scan = none := by
        rcases hout with h | h
        · rw [proj_left h]
        · rw [proj_right h]
      have hstuck := wstep_out (p := p) hout
      rcases hd.marks x hx hmk with ⟨k, y, h1, h2, h3, diffs, dirs, h4, h5, h6⟩ |
          ⟨k, y, s, h1, h2, h3, -⟩ | hf
      · have hy : y = (b.state, proj W o b) :=
          wrun_stuck_unique h1 (by simp [wstep, h2]) hm hstuck
        subst hy
        obtain ⟨i, hi, rfl⟩ := Option.map_eq_some_iff.1 hc
        obtain ⟨b1, b2⟩ := hs.branch _ _ i diffs dirs ((inRange_run hs hS hC n hb).2 b.pos) hi h4
        have hst : (b.exec i).state = i.2.2 := rfl
        rcases proj_outside hout hW i with he | ⟨he1, he2⟩
        · rw [he, hst]
          by_cases hq : i.2.2 = b.state
          · rw [hq]
            exact ⟨x, m, hx, hmk, hm⟩
          · exact ⟨_, 0, wid_proj W o b, h6 _ (b1 hq), rfl⟩
        · rw [he2, hst, he1]
          rw [he1] at b2
          exact ⟨_, 0, ((wid_proj W o b).stepIn hW hscan).1, h5 _ b2, rfl⟩
      · have hy : y = (b.state, proj W o b) :=
          wrun_stuck_unique h1 (by simp [wstep, h2, h3]) hm hstuck
        subst hy
        rw [hscan] at h2
        cases h2
      · have := hf (m + 1)
        rw [wrun_succ hm, hstuck] at this
        cases this

theorem neverHalts_of_closed {p : Prog} {a : Analyzed} {S C W : Nat} (hs : SegSound p a S C)
    (hS : 0 < S) (hC : 0 < C) (hW : 1 ≤ W) {d : SegConfigs} (hd : SegClosed p a W d)
    : NeverHalts p initCfg := by
  rw [neverHalts_iff_not_haltsAt]
  rintro ⟨n, slot, c, hc, hslot, hp⟩
  obtain ⟨r1, r2⟩ := inRange_run hs hS hC n hc
  have hp' : p (c.state, c.tape c.pos) = none := by
    subst hslot
    exact hp
  have hhalt : c.state ∈ a.halts := hs.halts _ _ r1 (r2 c.pos) hp'
  have hall : ∀ k < W + 2, (c.state, k) ∈ d.reached := by
    intro k hk
    obtain ⟨x, m, hx, hmk, hm⟩ := covered hs hS hC hW hd (c.pos - k) n hc
    have hpos : (proj W (c.pos - k) c).pos = k := by
      have := pos_proj hW (c.pos - k) c
      omega
    have hstuck : wstep p (c.state, proj W (c.pos - k) c) = none := by
      by_cases hin : c.pos - k < c.pos ∧ c.pos ≤ c.pos - k + W
      · rw [wstep_proj hin.1 hin.2, step, show c.slot = (c.state, c.tape c.pos) from rfl, hp']
        rfl
      · exact wstep_out (by omega)
    rcases hd.marks x hx hmk with ⟨j, y, h1, h2, h3, -⟩ | ⟨j, y, s, h1, h2, h3, h4⟩ | hf
    · have hy := wrun_stuck_unique h1 (by simp [wstep, h2]) hm hstuck
      subst hy
      have := h3 hhalt
      rw [hpos] at this
      exact this
    · have hy := wrun_stuck_unique h1 (by simp [wstep, h2, h3]) hm hstuck
      subst hy
      have := h4 hhalt
      rw [hpos] at this
      exact this
    · have := hf (m + 1)
      rw [wrun_succ hm, hstuck] at this
      cases this
  have hnd : ((List.range (W + 2)).map fun k => (c.state, k)).Nodup :=
    List.nodup_range.map fun a b h => (Prod.ext_iff.1 h).2
  have hsub : ((List.range (W + 2)).map fun k => (c.state, k)) ⊆
      d.reached.filter (·.1 == c.state) := by
    intro e he
    obtain ⟨k, hk, rfl⟩ := List.mem_map.1 he
    exact List.mem_filter.2 ⟨hall k (List.mem_range.1 hk), by simp⟩
  have hlen := (hnd.subperm hsub).length_le
  have := hd.count c.state
  simp only [List.length_map, List.length_range] at hlen
  omega

theorem segSound_analyze {t : Table} {S C : Nat}
    (h : ∀ s i, t.get? s = some i → i.1 < C ∧ i.2.2 < S) :
    SegSound t.get? (t.analyze S C) S C := by
  refine ⟨h, fun q c hq hc hp => ?_, fun q c i diffs dirs hc hp hl => ?_⟩
  · simp only [Table.analyze, List.mem_filter, List.mem_range, List.any_eq_true]
    exact ⟨hq, c, hc, by rw [hp]; rfl⟩
  · have hmem : (q, (diffs, dirs)) ∈ (t.analyze S C).branches := by
      rw [List.lookup_eq_some_iff] at hl
      obtain ⟨l1, l2, he, -⟩ := hl
      rw [he]
      exact List.mem_append_right _ List.mem_cons_self
    simp only [Table.analyze, List.mem_map, List.mem_range, Prod.mk.injEq] at hmem
    obtain ⟨q', hq', rfl, hdiffs, hdirs⟩ := hmem
    have hi : i ∈ (List.range C).filterMap fun c => t.get? (q', c) :=
      List.mem_filterMap.2 ⟨c, List.mem_range.2 hc, hp⟩
    have hfold : ∀ (l : List State) (y : State), y ∈ l → y ∈ l.foldr insertUniq [] := by
      intro l
      induction l with
      | nil => intro y hy; cases hy
      | cons z l ih =>
        intro y hy
        rw [List.foldr_cons, mem_insertUniq]
        rcases List.mem_cons.1 hy with rfl | hy
        · exact .inl rfl
        · exact .inr (ih y hy)
    rw [← hdiffs, ← hdirs]
    refine ⟨fun hne => hfold _ _ ?_, hfold _ _ ?_⟩
    · exact List.mem_filter.2 ⟨List.mem_map.2 ⟨i, hi, rfl⟩, by simpa using hne⟩
    · exact List.mem_map.2 ⟨i, List.mem_filter.2 ⟨hi, by simp⟩, rfl⟩

theorem allSegmentsReached_sound {p : Prog} {a : Analyzed} {S C fuel seg : Nat}
    {r : Option SearchResult} (hs : SegSound p a S C) (hS : 0 < S) (hC : 0 < C) (hseg : 3 ≤ seg)
    (h : allSegmentsReached p a fuel seg = some r)
    (hr : r = none ∨ r = some .spinout ∨ r = some .repeats) : NeverHalts p initCfg := by
  obtain ⟨W, rfl⟩ : ∃ W, seg = W + 2 := ⟨seg - 2, by omega⟩
  have hinv : SegConfigs.Inv p a W (fun _ => False) ⟨W + 2, [], [], [], []⟩ := by
    refine ⟨rfl, (fun e he => by cases he), fun x _ hm => ?_, fun s => by simp⟩
    unfold SegConfigs.Marked at hm
    split at hm <;> cases hm
  rcases segLoop_spec (by omega) fuel hinv h hr with h | ⟨d, hd⟩
  · exact h
  · exact neverHalts_of_closed hs hS hC (by omega) hd

theorem segmentLoop_sound {p : Prog} {a : Analyzed} {S C fuel : Nat} (hs : SegSound p a S C)
    (hS : 0 < S) (hC : 0 < C) : ∀ (n seg : Nat) {k : Nat}, 1 ≤ seg →
    segmentLoop p a fuel seg n = some (some k) → NeverHalts p initCfg
  | 0, _, _, _, h => by cases h
  | n + 1, seg, k, hseg, h => by
    simp only [segmentLoop] at h
    split at h
    · cases h
    · next he => exact allSegmentsReached_sound hs hS hC (by omega) he (.inl rfl)
    · exact segmentLoop_sound hs hS hC n (seg + 1) (by omega) h
    · cases h
    · cases h
    · next he => exact allSegmentsReached_sound hs hS hC (by omega) he (.inr (.inl rfl))
    · next he => exact allSegmentsReached_sound hs hS hC (by omega) he (.inr (.inr rfl))

end BB
