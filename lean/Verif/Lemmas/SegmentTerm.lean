import Verif.Lemmas.SegmentLoop
import Mathlib.Data.Set.Finite.List
import Mathlib.Data.Set.Finite.Lattice
import Mathlib.Order.Preorder.Finite
import Mathlib.Data.Set.Finite.Range
import Mathlib.Data.Finset.Prod
import Mathlib.Data.Finset.Lattice.Fold

/-!
# The segment analysis ends

Every loop of the analysis ends, and no `unwrap`, index or assertion in it fails, if the program
stays within the given numbers of states and colours.
-/

namespace BB

/-! ## The windows -/

/-- A state and a window within the numbers of states and colours. -/
structure WRange (S C W : Nat) (x : WCfg) : Prop where
  state : x.1 < S
  wid : Wid W x.2
  scan : ∀ s ∈ x.2.scan, s < C
  lspan : ∀ s ∈ x.2.lspan, s < C
  rspan : ∀ s ∈ x.2.rspan, s < C

theorem finite_lists (C n : Nat) :
    {l : List Color | l.length ≤ n ∧ ∀ s ∈ l, s < C}.Finite := by
  refine ((List.finite_length_le (Fin C) n).image (List.map Fin.val)).subset ?_
  rintro l ⟨h1, h2⟩
  refine ⟨l.pmap (fun s hs => ⟨s, hs⟩) h2, by simpa using h1, ?_⟩
  rw [List.map_pmap]
  simp

theorem finite_wrange (S C W : Nat) : {x : WCfg | WRange S C W x}.Finite := by
  have h1 : {s : Option Color | ∀ c ∈ s, c < C}.Finite := by
    refine ((Set.finite_lt_nat C).image some |>.union (Set.finite_singleton none)).subset ?_
    intro s hs
    cases s with
    | none => right; rfl
    | some s => left; exact ⟨s, hs s rfl, rfl⟩
  have h2 := ((Set.finite_lt_nat S).prod (h1.prod ((finite_lists C W).prod (finite_lists C W))))
  refine (h2.image fun e => ((e.1, (⟨e.2.1, e.2.2.1, e.2.2.2⟩ : SegTape)) : WCfg)).subset ?_
  rintro ⟨q, s, l, r⟩ ⟨a1, a2, a3, a4, a5⟩
  have := a2.1
  simp only at this
  exact ⟨(q, s, l, r), ⟨a1, a3, ⟨by simp only; omega, a4⟩, ⟨by simp only; omega, a5⟩⟩, rfl⟩

theorem WRange.wstep {p : Prog} {S C W : Nat} (hp : ∀ s i, p s = some i → i.1 < C ∧ i.2.2 < S)
    {x y : WCfg} (hx : WRange S C W x) (h : wstep p x = some y) : WRange S C W y := by
  have hwid : Wid W y.2 := Wid.wrun (n := 1) hx.wid (by rw [wrun_succ (n := 0) rfl]; exact h)
  simp only [BB.wstep] at h
  split at h
  · cases h
  · next s hs =>
    split at h
    · cases h
    · next i hi =>
      obtain ⟨h1, h2⟩ := hp _ _ hi
      have e := (Option.some.inj h).symm
      subst e
      refine ⟨h2, hwid, ?_, ?_, ?_⟩
      · simp only [SegTape.step]
        split
        · exact fun c hc => hx.rspan c (List.mem_of_head? hc)
        · exact fun c hc => hx.lspan c (List.mem_of_head? hc)
      · simp only [SegTape.step]
        split
        · intro c hc
          rcases List.mem_cons.1 hc with rfl | hc
          · exact h1
          · exact hx.lspan c hc
        · exact fun c hc => hx.lspan c (List.mem_of_mem_tail hc)
      · simp only [SegTape.step]
        split
        · exact fun c hc => hx.rspan c (List.mem_of_mem_tail hc)
        · intro c hc
          rcases List.mem_cons.1 hc with rfl | hc
          · exact h1
          · exact hx.rspan c hc

theorem WRange.wrun {p : Prog} {S C W : Nat} (hp : ∀ s i, p s = some i → i.1 < C ∧ i.2.2 < S)
    {x y : WCfg} (hx : WRange S C W x) {n : Nat} (h : wrun p n x = some y) : WRange S C W y := by
  induction n generalizing y with
  | zero => cases h; exact hx
  | succ n ih =>
    rw [BB.wrun] at h
    obtain ⟨z, hz, hy⟩ := Option.bind_eq_some_iff.1 h
    exact (ih hz).wstep hp hy

theorem WRange.stepIn {S C W : Nat} (hW : 1 ≤ W) {q r : State} {t : SegTape}
    (hx : WRange S C W (q, t)) (hs : t.scan = none) (hr : r < S) :
    WRange S C W (r, t.stepIn (!t.side)) := by
  refine ⟨hr, (hx.wid.stepIn hW hs).1, ?_, ?_, ?_⟩ <;> simp only [SegTape.stepIn] <;> split
  · exact fun c hc => hx.rspan c (List.mem_of_head? hc)
  · exact fun c hc => hx.lspan c (List.mem_of_head? hc)
  · exact hx.lspan
  · exact fun c hc => hx.lspan c (List.mem_of_mem_tail hc)
  · exact fun c hc => hx.rspan c (List.mem_of_mem_tail hc)
  · exact hx.rspan

/-! ## `run_to_edge` ends -/

/-- As long as it has not ended, the run goes on and the copy has not been met. -/
theorem runToEdge_none {p : Prog} {x : WCfg} : ∀ (fuel : Nat) {m : Nat} {self copy : SegConfig}
    {step : Bool} {blanks : List (State × Nat)},
    SegConfig.runToEdge p fuel self copy step blanks = none →
    wrun p m x = some (self.state, self.tape) →
    wrun p (m / 2) x = some (copy.state, copy.tape) →
    step = (m % 2 == 1) →
    (wrun p (m + fuel) x).isSome ∧
      ∀ k, m < 2 * k → 2 * k ≤ m + fuel → wrun p k x ≠ wrun p (2 * k) x := by
  intro fuel
  induction fuel with
  | zero =>
    intro m self copy step blanks _ hm _ _
    exact ⟨by rw [Nat.add_zero, hm]; rfl, fun k h1 h2 => by omega⟩
  | succ fuel ih =>
    intro m self copy step blanks h hm hc hst
    simp only [SegConfig.runToEdge] at h
    split at h
    · cases h
    · next slot hslot =>
      split at h
      · cases h
      · next instr hp =>
        have hnext := wrun_succ hm
        rw [wstep_of_slot hslot hp] at hnext
        split at h
        · cases h
        · split at h
          · cases h
          · split at h
            · next hs =>
              have hs' : step = false := by simpa using hs
              rw [hs'] at hst
              have hmod : ¬ m % 2 = 1 := by simpa using hst.symm
              obtain ⟨h1, h2⟩ := ih (m := m + 1) h hnext
                (by rw [show (m + 1) / 2 = m / 2 by omega]; exact hc) (by simp; omega)
              refine ⟨by rw [show m + (fuel + 1) = m + 1 + fuel by omega]; exact h1,
                fun k hk1 hk2 => h2 k (by omega) (by omega)⟩
            · next hs =>
              have hs' : step = true := by simpa using hs
              rw [hs'] at hst
              have hmod : m % 2 = 1 := by simpa using hst.symm
              split at h
              · next hcp =>
                exfalso
                have := wrun_isSome_of_le (show m / 2 + 1 ≤ m + 1 by omega) (p := p) (x := x)
                  (by rw [hnext]; rfl)
                rw [wrun_succ hc] at this
                simp only [wstep] at this
                split at this
                · cases this
                · next s hsc =>
                  have hsl : copy.slot = some (copy.state, s) := by rw [SegConfig.slot, hsc]; rfl
                  rw [hsl, Option.bind_some] at hcp
                  rw [hcp] at this
                  cases this
              · next instr' hcp =>
                obtain ⟨slot', hslot', hp'⟩ := Option.bind_eq_some_iff.1 hcp
                have hcn := wrun_succ hc
                rw [wstep_of_slot hslot' hp'] at hcn
                split at h
                · cases h
                · next hne =>
                  obtain ⟨h1, h2⟩ := ih (m := m + 1) h hnext
                    (by rw [show (m + 1) / 2 = m / 2 + 1 by omega]; exact hcn) (by simp; omega)
                  refine ⟨by rw [show m + (fuel + 1) = m + 1 + fuel by omega]; exact h1,
                    fun k hk1 hk2 => ?_⟩
                  by_cases hk : 2 * k = m + 1
                  · rw [hk, show k = m / 2 + 1 by omega, hcn, hnext]
                    intro he
                    apply hne
                    simp only [Option.some.injEq, Prod.mk.injEq] at he
                    simp [he.1, he.2]
                  · exact h2 k (by omega) (by omega)

theorem runToEdge_ends {p : Prog} {S C W : Nat} (hp : ∀ s i, p s = some i → i.1 < C ∧ i.2.2 < S)
    {x : WCfg} (hx : WRange S C W x) : ∃ F, ∀ f, F ≤ f → ∀ (c : SegConfig) blanks,
      x = (c.state, c.tape) → SegConfig.runToEdge p f c c false blanks ≠ none := by
  by_cases hrun : ∀ n, (wrun p n x).isSome
  · obtain ⟨a, b, hab, he⟩ := (finite_wrange S C W).exists_lt_map_eq_of_forall_mem
      (f := fun n => (wrun p n x).get (hrun n))
      (fun n => hx.wrun hp (Option.some_get (hrun n)).symm)
    have he' : wrun p a x = wrun p b x := by
      have e1 := Option.some_get (hrun a)
      have e2 := Option.some_get (hrun b)
      rw [← e1, ← e2, he]
    obtain ⟨l, rfl⟩ := Nat.exists_eq_add_of_le (Nat.le_of_lt hab)
    have hper : ∀ k, a ≤ k → wrun p k x = wrun p (k + l) x := by
      intro k hk
      obtain ⟨d, rfl⟩ := Nat.exists_eq_add_of_le hk
      rw [wrun_add, he', show a + d + l = a + l + d by omega, wrun_add p (a + l)]
    have hmul : ∀ j k, a ≤ k → wrun p k x = wrun p (k + j * l) x := by
      intro j
      induction j with
      | zero => intro k _; simp
      | succ j ih =>
        intro k hk
        rw [ih k hk, hper _ (by omega), Nat.succ_mul, Nat.add_assoc]
    have hl : 1 ≤ l := by omega
    have hge : a + 1 ≤ (a + 1) * l := Nat.le_mul_of_pos_right _ hl
    refine ⟨2 * ((a + 1) * l), fun f hf c blanks hc hn => ?_⟩
    have := (runToEdge_none (m := 0) (x := x) f hn (by rw [wrun, hc]) (by rw [wrun, hc]) rfl).2
      ((a + 1) * l) (by omega) (by omega)
    refine this ?_
    rw [hmul (a + 1) ((a + 1) * l) (by omega), Nat.two_mul]
  · obtain ⟨n, hn⟩ := Classical.not_forall.1 hrun
    refine ⟨n, fun f hf c blanks hc hnone => hn ?_⟩
    have := (runToEdge_none (m := 0) (x := x) f hnone (by rw [wrun, hc]) (by rw [wrun, hc]) rfl).1
    exact wrun_isSome_of_le (by omega) this

theorem exists_uniform {α : Type} {s : Set α} (hs : s.Finite) {P : α → Nat → Prop}
    (h : ∀ x ∈ s, ∃ F, ∀ f, F ≤ f → P x f) : ∃ F, ∀ x ∈ s, ∀ f, F ≤ f → P x f := by
  classical
  have h' : ∀ x, ∃ F, x ∈ s → ∀ f, F ≤ f → P x f := by
    intro x
    by_cases hx : x ∈ s
    · obtain ⟨F, hF⟩ := h x hx
      exact ⟨F, fun _ => hF⟩
    · exact ⟨0, fun hx' => absurd hx' hx⟩
  choose G hG using h'
  refine ⟨hs.toFinset.sup G, fun x hx f hf => hG x hx f (Nat.le_trans ?_ hf)⟩
  exact Finset.le_sup (f := G) (hs.mem_toFinset.2 hx)

/-! ## The search ends -/

section Search

variable {p : Prog} {a : Analyzed} {S C W : Nat}

open Classical in
/-- What remains to be marked and to be looked at. -/
noncomputable def segMeasure (S C W : Nat) (c : SegConfigs) : Nat :=
  2 * ((Finset.range S ×ˢ Finset.range (W + 2)) \ c.blanks.toFinset).card +
  2 * ((finite_wrange S C W).toFinset \ c.seen.toFinset).card + c.todo.length

structure SegRange (S C W : Nat) (c : SegConfigs) : Prop where
  seg : c.seg = W + 2
  todo : ∀ e ∈ c.todo, WRange S C W (e.state, e.tape) ∧
    (e.init = true → e.state = 0 ∧ e.tape.blank = true)

theorem card_sdiff_cons {α : Type} [DecidableEq α] (U : Finset α) (l : List α) (x : α)
    (hx : x ∈ U) (hl : x ∉ l) :
    (U \ (x :: l).toFinset).card + 1 = (U \ l.toFinset).card := by
  have : U \ (x :: l).toFinset = (U \ l.toFinset).erase x := by
    ext y
    simp only [List.toFinset_cons, Finset.mem_sdiff, Finset.mem_insert, List.mem_toFinset,
      Finset.mem_erase, not_or]
    constructor
    · rintro ⟨h1, h2, h3⟩; exact ⟨h2, h1, h3⟩
    · rintro ⟨h1, h2, h3⟩; exact ⟨h2, h1, h3⟩
  rw [this]
  exact Finset.card_erase_add_one (by simp [hx, hl])

theorem card_sdiff_mono {α : Type} [DecidableEq α] (U : Finset α) {l l' : List α} (h : l ⊆ l') :
    (U \ l'.toFinset).card ≤ (U \ l.toFinset).card := by
  refine Finset.card_le_card (Finset.sdiff_subset_sdiff (Finset.Subset.refl U) ?_)
  intro y hy
  rw [List.mem_toFinset] at hy ⊢
  exact h hy

theorem pos_lt {t : SegTape} (hW : 1 ≤ W) (h : Wid W t) (hb : t.blank = true) : t.pos < W + 2 :=
  (blank_init hW h hb).2

theorem visit_measure (hW : 1 ≤ W) {c : SegConfigs} (h : SegRange S C W c) {q : State}
    {t : SegTape} (ht : WRange S C W (q, t)) :
    SegRange S C W (c.visit q t) ∧ segMeasure S C W (c.visit q t) ≤ segMeasure S C W c := by
  classical
  unfold SegConfigs.visit
  split
  · next hb =>
    split
    · exact ⟨h, Nat.le_refl _⟩
    · next hc =>
      refine ⟨⟨h.seg, fun e he => ?_⟩, ?_⟩
      · rcases List.mem_cons.1 he with rfl | he
        · exact ⟨ht, fun hq => ⟨by simpa using hq, hb⟩⟩
        · exact h.todo e he
      · have := card_sdiff_cons (Finset.range S ×ˢ Finset.range (W + 2)) c.blanks (q, t.pos)
          (by simp [ht.state, pos_lt hW ht.wid hb]) (by simpa using hc)
        simp only [segMeasure, List.length_cons]
        omega
  · split
    · exact ⟨h, Nat.le_refl _⟩
    · next hc =>
      refine ⟨⟨h.seg, fun e he => ?_⟩, ?_⟩
      · rcases List.mem_cons.1 he with rfl | he
        · exact ⟨ht, fun hq => by cases hq⟩
        · exact h.todo e he
      · have := card_sdiff_cons (finite_wrange S C W).toFinset c.seen (q, t)
          (by simpa using ht) (by simpa using hc)
        simp only [segMeasure, List.length_cons]
        omega

theorem visits_measure (hW : 1 ≤ W) {t : SegTape} : ∀ (qs : List State) {c : SegConfigs},
    (∀ q ∈ qs, WRange S C W (q, t)) → SegRange S C W c →
    SegRange S C W (qs.foldl (fun c q => c.visit q t) c) ∧
      segMeasure S C W (qs.foldl (fun c q => c.visit q t) c) ≤ segMeasure S C W c
  | [], _, _, h => ⟨h, Nat.le_refl _⟩
  | q :: qs, c, hq, h => by
    obtain ⟨h1, h2⟩ := visit_measure hW h (hq q List.mem_cons_self)
    obtain ⟨i1, i2⟩ := visits_measure hW qs (fun r hr => hq r (List.mem_cons_of_mem _ hr)) h1
    exact ⟨i1, Nat.le_trans i2 h2⟩

theorem next_measure (hW : 1 ≤ W) (hS : 0 < S) (hC : 0 < C) {c d : SegConfigs} {e : SegConfig}
    (h : SegRange S C W c) (hn : c.next = some (e, d)) :
    SegRange S C W d ∧ (WRange S C W (e.state, e.tape) ∧
      (e.init = true → e.state = 0 ∧ e.tape.blank = true)) ∧
      segMeasure S C W d < segMeasure S C W c := by
  classical
  unfold SegConfigs.next at hn
  split at hn
  · next r hr =>
    cases hn
    obtain ⟨pos, hpos, he⟩ := Option.map_eq_some_iff.1 hr
    cases he
    have hlt : pos < W + 2 := by
      have := List.mem_of_find?_eq_some hpos
      rw [List.mem_range, h.seg] at this
      exact this
    have hnot : (0, pos) ∉ c.blanks := by
      have := List.find?_some hpos
      simpa using this
    obtain ⟨w1, w2, w3⟩ := init_spec hW hlt
    refine ⟨⟨h.seg, h.todo⟩, ?_, ?_⟩
    · rw [h.seg]
      refine ⟨?_, fun _ => ⟨rfl, w2⟩⟩
      simp only [SegTape.blank, Bool.and_eq_true, Bool.or_eq_true, beq_iff_eq,
        SegTape.spanBlank, List.all_eq_true] at w2
      obtain ⟨⟨b1, b2⟩, b3⟩ := w2
      refine ⟨hS, w1, fun s hs => ?_, fun s hs => ?_, fun s hs => ?_⟩
      · rcases b1 with b1 | b1
        · rw [b1] at hs
          cases hs
          exact hC
        · rw [b1] at hs
          cases hs
      · rw [b2 s hs]; exact hC
      · rw [b3 s hs]; exact hC
    · have := card_sdiff_cons (Finset.range S ×ˢ Finset.range (W + 2)) c.blanks (0, pos)
        (by simp [hlt]; exact hS) hnot
      simp only [segMeasure]
      omega
  · split at hn
    · cases hn
    · next config todo htodo =>
      cases hn
      refine ⟨⟨h.seg, fun f hf => h.todo f (by rw [htodo]; exact List.mem_cons_of_mem _ hf)⟩,
        h.todo e (by rw [htodo]; exact List.mem_cons_self), ?_⟩
      simp only [segMeasure, htodo, List.length_cons]
      omega

theorem checkReached_measure {c : SegConfigs} (h : SegRange S C W c) (halts : List State)
    (q : State) (t : SegTape) : SegRange S C W (c.checkReached halts q t).1 ∧
      segMeasure S C W (c.checkReached halts q t).1 = segMeasure S C W c := by
  unfold SegConfigs.checkReached
  split
  · exact ⟨⟨h.seg, h.todo⟩, rfl⟩
  · exact ⟨h, rfl⟩

/-- What else the analysis of the program must say. -/
structure SegTotal (a : Analyzed) (S : Nat) : Prop where
  lookup : ∀ q, q < S → (a.branches.lookup q).isSome
  diffs : ∀ q diffs dirs, a.branches.lookup q = some (diffs, dirs) → ∀ r ∈ diffs, r < S
  dirs : ∀ q diffs dirs, a.branches.lookup q = some (diffs, dirs) → ∀ b, ∀ r ∈ dirs b, r < S

theorem segLoop_ends (hW : 1 ≤ W) (hS : 0 < S) (hC : 0 < C)
    (hp : ∀ s i, p s = some i → i.1 < C ∧ i.2.2 < S) (ha : SegTotal a S) {inner : Nat}
    (hin : ∀ x, WRange S C W x → ∀ (c : SegConfig) blanks, x = (c.state, c.tape) →
      SegConfig.runToEdge p inner c c false blanks ≠ none) :
    ∀ (fuel : Nat) {c : SegConfigs}, SegRange S C W c → segMeasure S C W c < fuel →
      segLoop p a inner fuel c ≠ none := by
  intro fuel
  induction fuel with
  | zero => intro c _ h; omega
  | succ fuel ih =>
    intro c hc hlt h
    simp only [segLoop] at h
    split at h
    · cases h
    · next e d hnext =>
      obtain ⟨n1, ⟨n2, n4⟩, n3⟩ := next_measure hW hS hC hc hnext
      split at h
      · next hrun => exact hin _ n2 e d.blanks rfl hrun
      · next e' blanks res hrun =>
        obtain ⟨m, hm, -, -, hsub, hspec⟩ := runToEdge_spec (x := (e.state, e.tape)) inner
          (m := 0) hrun rfl rfl rfl (fun hi => ⟨0, e.tape, Nat.le_refl 0, by
            rw [wrun, (n4 hi).1], (n4 hi).2⟩)
        have hd : SegRange S C W { d with blanks := blanks } := ⟨n1.seg, n1.todo⟩
        have hdm : segMeasure S C W { d with blanks := blanks } ≤ segMeasure S C W d := by
          classical
          have := card_sdiff_mono (Finset.range S ×ˢ Finset.range (W + 2)) hsub
          simp only [segMeasure]
          omega
        have he' : WRange S C W (e'.state, e'.tape) := n2.wrun hp hm
        obtain ⟨r1, r2⟩ := checkReached_measure hd a.halts e'.state e'.tape
        split at h
        · split at h
          · cases h
          · split at h
            · cases h
            · exact ih r1 (by omega) h
        · split at h
          · cases h
          · exact ih hd (by omega) h
        · cases h
        · exact ih hd (by omega) h
        · split at h
          · cases h
          · split at h
            · next hlook =>
              have := ha.lookup _ he'.state
              rw [hlook] at this
              cases this
            · next diffs dirs hlook =>
              have hscan : e'.tape.scan = none := hspec
              obtain ⟨v1, v2⟩ := visits_measure hW (dirs (!e'.tape.side))
                (t := e'.tape.stepIn (!e'.tape.side))
                (fun q hq => he'.stepIn hW hscan (ha.dirs _ _ _ hlook _ q hq)) r1
              obtain ⟨u1, u2⟩ := visits_measure hW diffs (t := e'.tape)
                (fun q hq => ⟨ha.diffs _ _ _ hlook q hq, he'.wid, he'.scan, he'.lspan, he'.rspan⟩)
                v1
              split at h
              · cases h
              · exact ih u1 (by omega) h

end Search

/-! ## More fuel changes nothing -/

theorem runToEdge_mono {p : Prog} : ∀ {f f' : Nat} {self copy : SegConfig} {step : Bool}
    {blanks : List (State × Nat)} {r : SegConfig × List (State × Nat) × Option SearchResult},
    f ≤ f' → SegConfig.runToEdge p f self copy step blanks = some r →
    SegConfig.runToEdge p f' self copy step blanks = some r := by
  intro f
  induction f with
  | zero => intro f' self copy step blanks r _ h; cases h
  | succ f ih =>
    intro f' self copy step blanks r hf h
    obtain ⟨f', rfl⟩ : ∃ k, f' = k + 1 := ⟨f' - 1, by omega⟩
    have hf' : f ≤ f' := by omega
    simp only [SegConfig.runToEdge] at h ⊢
    cases hslot : self.slot with
    | none => simp only [hslot] at h ⊢; exact h
    | some slot =>
      simp only [hslot] at h ⊢
      cases hp : p slot with
      | none => simp only [hp] at h ⊢; exact h
      | some instr =>
        simp only [hp] at h ⊢
        split at h
        · next hc => rw [if_pos hc]; exact h
        · next hc =>
          rw [if_neg hc]
          split at h
          · next hc2 => rw [if_pos hc2]; exact h
          · next hc2 =>
            rw [if_neg hc2]
            split at h
            · next hc3 => rw [if_pos hc3]; exact ih hf' h
            · next hc3 =>
              rw [if_neg hc3]
              split at h
              · cases h
              · next instr' hcp =>
                split at h
                · next hc4 => rw [if_pos hc4]; exact h
                · next hc4 => rw [if_neg hc4]; exact ih hf' h

theorem segLoop_mono {p : Prog} {a : Analyzed} {g g' : Nat} (hg : g ≤ g') :
    ∀ {f f' : Nat} {c : SegConfigs} {r : Option SearchResult},
    f ≤ f' → segLoop p a g f c = some r → segLoop p a g' f' c = some r := by
  intro f
  induction f with
  | zero => intro f' c r _ h; cases h
  | succ f ih =>
    intro f' c r hf h
    obtain ⟨f', rfl⟩ : ∃ k, f' = k + 1 := ⟨f' - 1, by omega⟩
    have hf' : f ≤ f' := by omega
    simp only [segLoop] at h ⊢
    split at h
    · exact h
    · next e d hn =>
      split at h
      · cases h
      · next e' blanks res hrun =>
        simp only [runToEdge_mono hg hrun]
        split at h
        · split at h
          · next hc => simp only [if_pos hc]; exact h
          · next hc =>
            simp only [if_neg hc]
            split at h
            · next hc2 => rw [if_pos hc2]; exact h
            · next hc2 => rw [if_neg hc2]; exact ih hf' h
        · split at h
          · next hc => simp only [if_pos hc]; exact h
          · next hc => simp only [if_neg hc]; exact ih hf' h
        · exact h
        · next r' h1 h2 h3 =>
          cases r' with
          | limit => exact ih hf' h
          | reached => exact ih hf' h
          | halted => exact absurd rfl h1
          | repeats => exact absurd rfl h2
          | spinout => exact absurd rfl h3
        · split at h
          · next hc => simp only [if_pos hc]; exact h
          · next hc =>
            simp only [if_neg hc]
            split at h
            · cases h
            · next diffs dirs hl =>
              split at h
              · next hc2 => rw [if_pos hc2]; exact h
              · next hc2 => rw [if_neg hc2]; exact ih hf' h

theorem segmentLoop_mono {p : Prog} {a : Analyzed} {f f' : Nat} (hf : f ≤ f') :
    ∀ (n : Nat) {seg : Nat} {r : Option Nat}, segmentLoop p a f seg n = some r →
      segmentLoop p a f' seg n = some r := by
  intro n
  induction n with
  | zero => intro seg r h; exact h
  | succ n ih =>
    intro seg r h
    simp only [segmentLoop] at h ⊢
    cases hc : allSegmentsReached p a f (2 + seg) with
    | none => simp only [hc] at h; cases h
    | some x =>
      have hc' : allSegmentsReached p a f' (2 + seg) = some x := segLoop_mono hf hf hc
      simp only [hc] at h
      simp only [hc']
      cases x with
      | none => exact h
      | some x =>
        cases x with
        | reached => exact ih h
        | _ => exact h

/-! ## The whole analysis ends -/

theorem allSegmentsReached_ends {p : Prog} {a : Analyzed} {S C seg : Nat} (hS : 0 < S) (hC : 0 < C)
    (hp : ∀ s i, p s = some i → i.1 < C ∧ i.2.2 < S) (ha : SegTotal a S) (hseg : 3 ≤ seg) :
    ∃ F, ∀ f, F ≤ f → allSegmentsReached p a f seg ≠ none := by
  obtain ⟨W, rfl⟩ : ∃ W, seg = W + 2 := ⟨seg - 2, by omega⟩
  obtain ⟨G, hG⟩ := exists_uniform (finite_wrange S C W)
    (P := fun x f => ∀ (c : SegConfig) blanks, x = (c.state, c.tape) →
      SegConfig.runToEdge p f c c false blanks ≠ none) (fun x hx => runToEdge_ends hp hx)
  refine ⟨max G (segMeasure S C W ⟨W + 2, [], [], [], []⟩ + 1), fun f hf => ?_⟩
  exact segLoop_ends (by omega) hS hC hp ha (fun x hx => hG x hx f (by omega)) f
    ⟨rfl, by simp⟩ (by omega)

theorem segmentLoop_ends {p : Prog} {a : Analyzed} {S C : Nat} (hS : 0 < S) (hC : 0 < C)
    (hp : ∀ s i, p s = some i → i.1 < C ∧ i.2.2 < S) (ha : SegTotal a S) : ∀ (n seg : Nat),
    1 ≤ seg → ∃ F, ∀ f, F ≤ f → segmentLoop p a f seg n ≠ none := by
  intro n
  induction n with
  | zero => intro seg _; exact ⟨0, fun f _ h => by cases h⟩
  | succ n ih =>
    intro seg hseg
    obtain ⟨F1, h1⟩ := allSegmentsReached_ends hS hC hp ha (show 3 ≤ 2 + seg by omega)
    obtain ⟨F2, h2⟩ := ih (seg + 1) (by omega)
    refine ⟨max F1 F2, fun f hf h => ?_⟩
    simp only [segmentLoop] at h
    split at h
    · next hn => exact h1 f (by omega) hn
    · cases h
    · exact h2 f (by omega) h
    · cases h
    · cases h
    · cases h
    · cases h

theorem mem_foldr_insertUniq {l : List State} {y : State} (h : y ∈ l.foldr insertUniq []) :
    y ∈ l := by
  induction l with
  | nil => cases h
  | cons z l ih =>
    rw [List.foldr_cons, mem_insertUniq] at h
    rcases h with rfl | h
    · exact List.mem_cons_self
    · exact List.mem_cons_of_mem _ (ih h)

theorem lookup_map_range {β : Type} (g : Nat → β) : ∀ {n q : Nat}, q < n →
    (((List.range n).map fun i => (i, g i)).lookup q).isSome := by
  intro n q hq
  rw [List.lookup_isSome_iff]
  exact ⟨(q, g q), List.mem_map.2 ⟨q, List.mem_range.2 hq, rfl⟩, by simp⟩

theorem segTotal_analyze {t : Table} {S C : Nat}
    (h : ∀ s i, t.get? s = some i → i.1 < C ∧ i.2.2 < S) : SegTotal (t.analyze S C) S := by
  have hmem : ∀ {q diffs dirs}, (t.analyze S C).branches.lookup q = some (diffs, dirs) →
      (q, (diffs, dirs)) ∈ (t.analyze S C).branches := by
    intro q diffs dirs hl
    rw [List.lookup_eq_some_iff] at hl
    obtain ⟨l1, l2, he, -⟩ := hl
    rw [he]
    exact List.mem_append_right _ List.mem_cons_self
  refine ⟨fun q hq => lookup_map_range _ hq, fun q diffs dirs hl r hr => ?_,
    fun q diffs dirs hl b r hr => ?_⟩
  · have := hmem hl
    simp only [Table.analyze, List.mem_map, List.mem_range, Prod.mk.injEq] at this
    obtain ⟨q', hq', rfl, rfl, rfl⟩ := this
    have h1 := (List.mem_filter.1 (mem_foldr_insertUniq hr)).1
    obtain ⟨i, hi, rfl⟩ := List.mem_map.1 h1
    obtain ⟨c, -, hc⟩ := List.mem_filterMap.1 hi
    exact (h _ _ hc).2
  · have := hmem hl
    simp only [Table.analyze, List.mem_map, List.mem_range, Prod.mk.injEq] at this
    obtain ⟨q', hq', rfl, rfl, rfl⟩ := this
    obtain ⟨i, hi, rfl⟩ := List.mem_map.1 (mem_foldr_insertUniq hr)
    obtain ⟨c, -, hc⟩ := List.mem_filterMap.1 (List.mem_filter.1 hi).1
    exact (h _ _ hc).2

end BB
