import Verif.Lemmas.Normalize
import Mathlib.Logic.Function.Basic

/-! # The passes of the normaliser on programs in which nothing is unused -/

namespace BB

/-- The two programs are the same up to names of states and colours (the start state and the blank
keep theirs) and possibly left and right. -/
def SameUpTo (p p' : Prog) : Prop :=
  ∃ (σ τ : Nat → Nat) (m : Bool), Function.Bijective σ ∧ Function.Bijective τ ∧
    σ 0 = 0 ∧ τ 0 = 0 ∧ Renames p p' σ τ m

theorem SameUpTo.refl (p : Prog) : SameUpTo p p :=
  ⟨id, id, false, Function.bijective_id, Function.bijective_id, rfl, rfl, Renames.refl p⟩

theorem SameUpTo.trans {p p' p'' : Prog} (h : SameUpTo p p') (h' : SameUpTo p' p'') :
    SameUpTo p p'' := by
  obtain ⟨σ, τ, m, a, b, c, d, e⟩ := h
  obtain ⟨σ', τ', m', a', b', c', d', e'⟩ := h'
  exact ⟨σ' ∘ σ, τ' ∘ τ, m != m', a'.comp a, b'.comp b, by simp [c, c'], by simp [d, d'],
    e.trans e'⟩

theorem Norm.swapNat_bijective (a b : Nat) : Function.Bijective (Norm.swapNat a b) :=
  Function.Involutive.bijective (fun x => Norm.swapNat_invol a b x)

theorem SameUpTo.halts {p p' : Prog} (h : SameUpTo p p') (n : Nat) :
    (∃ s, HaltsAt p initCfg n s) ↔ ∃ s, HaltsAt p' initCfg n s := by
  obtain ⟨σ, τ, m, -, -, hσ, hτ, hr⟩ := h
  have := hr.halts hσ hτ n
  constructor
  · rintro ⟨s, hs⟩
    exact ⟨_, this.1 s.1 s.2 hs⟩
  · exact this.2

/-- Nothing is unused: every state but the first is the target of an instruction, every state and
every colour has an instruction, and the first instruction prints a mark. -/
structure Used (p : Prog) (S C : Nat) : Prop where
  target : ∀ s, s < S → s ≠ 0 → ∃ slot i, p slot = some i ∧ i.2.2 = s
  rows : ∀ s, s < S → ∃ c, c < C ∧ (p (s, c)).isSome
  cols : ∀ c, c < C → ∃ s, s < S ∧ (p (s, c)).isSome
  start : ∃ i, p (0, 0) = some i ∧ i.1 ≠ 0

theorem Used.rename {p p' : Prog} {S C : Nat} (h : Used p S C) {σ τ : Nat → Nat} {m : Bool}
    (hr : Renames p p' σ τ m) (hσ0 : σ 0 = 0) (hτ0 : τ 0 = 0)
    (hσ : ∀ x, σ (σ x) = x) (hτ : ∀ x, τ (τ x) = x)
    (hS : ∀ s, s < S → σ s < S) (hC : ∀ c, c < C → τ c < C) : Used p' S C where
  target := by
    intro s hs h0
    obtain ⟨⟨u, v⟩, i, h1, h2⟩ := h.target (σ s) (hS s hs) (by
      intro hz
      have := hσ s
      rw [hz, hσ0] at this
      exact h0 this.symm)
    refine ⟨(σ u, τ v), (τ i.1, i.2.1 != m, σ i.2.2), by rw [hr u v, h1]; rfl, ?_⟩
    simp only
    rw [h2, hσ]
  rows := by
    intro s hs
    obtain ⟨c, hc, h1⟩ := h.rows (σ s) (hS s hs)
    refine ⟨τ c, hC c hc, ?_⟩
    have := hr (σ s) c
    rw [hσ] at this
    rw [this]
    simpa using h1
  cols := by
    intro c hc
    obtain ⟨s, hs, h1⟩ := h.cols (τ c) (hC c hc)
    refine ⟨σ s, hS s hs, ?_⟩
    have := hr s (τ c)
    rw [hτ] at this
    rw [this]
    simpa using h1
  start := by
    obtain ⟨i, h1, h2⟩ := h.start
    have := hr 0 0
    rw [hσ0, hτ0, h1] at this
    refine ⟨_, this, ?_⟩
    simp only
    intro hz
    have := hτ i.1
    rw [hz, hτ0] at this
    exact h2 this.symm

/-- All printed colours are below `B`, all targets below `D`. -/
def Below (p : Prog) (B D : Nat) : Prop := ∀ s i, p s = some i → i.1 < B ∧ i.2.2 < D

theorem Below.rename {p p' : Prog} {B D : Nat} (h : Below p B D) {σ τ : Nat → Nat} {m : Bool}
    (hr : Renames p p' σ τ m) (hσ : ∀ x, σ (σ x) = x) (hτ : ∀ x, τ (τ x) = x)
    (hB : ∀ c, c < B → τ c < B) (hD : ∀ s, s < D → σ s < D) : Below p' B D := by
  rintro ⟨s, c⟩ i hi
  have := hr (σ s) (τ c)
  rw [hσ, hτ, hi] at this
  cases hp : p (σ s, τ c) with
  | none => rw [hp] at this; simp at this
  | some j =>
    rw [hp] at this
    simp only [Option.map_some, Option.some.injEq] at this
    subst this
    have := h _ _ hp
    exact ⟨hB _ this.1, hD _ this.2⟩

namespace Norm

/-- What every pass keeps. -/
structure Good (n : Norm) (S C : Nat) : Prop where
  dense : Dense n S C
  used : Used n.getitem S C

/-- What a pass does: it ends, keeps everything used, and only renames. -/
def Passes (n : Norm) (S C : Nat) (r : Option Norm) : Prop :=
  ∃ n', r = some n' ∧ Good n' S C ∧ SameUpTo n.getitem n'.getitem ∧
    ∀ B D, C ≤ B → S ≤ D → Below n.getitem B D → Below n'.getitem B D

theorem Passes.bind {n : Norm} {S C : Nat} {r : Option Norm} {f : Norm → Option Norm}
    (h : Passes n S C r) (hf : ∀ n', Good n' S C → Passes n' S C (f n')) :
    Passes n S C (r.bind f) := by
  obtain ⟨n1, rfl, h2, h3, h4⟩ := h
  obtain ⟨n2, k1, k2, k3, k4⟩ := hf n1 h2
  exact ⟨n2, by simpa using k1, k2, h3.trans k3, fun B D hB hD h => k4 B D hB hD (h4 B D hB hD h)⟩

theorem Good.self {n : Norm} {S C : Nat} (h : Good n S C) : Passes n S C (some n) :=
  ⟨n, rfl, h, SameUpTo.refl _, fun _ _ _ _ h => h⟩

theorem Good.swapStates {n : Norm} {S C a b : Nat} (h : Good n S C) (ha : a < S) (hb : b < S)
    (ha0 : a ≠ 0) (hb0 : b ≠ 0) : Passes n S C (n.swapStates a b) := by
  obtain ⟨n', h1, h2, h3⟩ := h.dense.swapStates ha hb
  refine ⟨n', h1, ⟨h2, ?_⟩, ⟨swapNat a b, id, false, swapNat_bijective a b,
    Function.bijective_id, swapNat_zero ha0 hb0, rfl, h3⟩, fun B D hB hD hb' =>
    hb'.rename h3 (swapNat_invol a b) (fun _ => rfl) (fun _ h => h)
      (fun s hs => swapNat_lt (by omega) (by omega) hs)⟩
  exact h.used.rename h3 (swapNat_zero ha0 hb0) rfl (swapNat_invol a b) (fun _ => rfl)
    (fun s hs => swapNat_lt ha hb hs) (fun _ h => h)

theorem Good.swapColors {n : Norm} {S C a b : Nat} (h : Good n S C) (ha : a < C) (hb : b < C)
    (ha0 : a ≠ 0) (hb0 : b ≠ 0) : Passes n S C (n.swapColors a b) := by
  obtain ⟨n', h1, h2, h3⟩ := h.dense.swapColors ha hb
  refine ⟨n', h1, ⟨h2, ?_⟩, ⟨id, swapNat a b, false, Function.bijective_id,
    swapNat_bijective a b, rfl, swapNat_zero ha0 hb0, h3⟩, fun B D hB hD hb' =>
    hb'.rename h3 (fun _ => rfl) (swapNat_invol a b)
      (fun s hs => swapNat_lt (by omega) (by omega) hs) (fun _ h => h)⟩
  exact h.used.rename h3 rfl (swapNat_zero ha0 hb0) (fun _ => rfl) (swapNat_invol a b)
    (fun _ h => h) (fun s hs => swapNat_lt ha hb hs)

theorem mem_todoList {n x : Nat} (h : x ∈ todoList n) : x < n ∧ x ≠ 0 := by
  cases n with
  | zero => simp [todoList] at h
  | succ n =>
    simp only [todoList, List.range_succ_eq_map, List.tail_cons, List.mem_map,
      List.mem_range] at h
    obtain ⟨y, hy, rfl⟩ := h
    omega

theorem statesPass_spec {S C : Nat} (l : List Slot) (todo : List State) (n : Norm)
    (h : Good n S C) (hl : ∀ s ∈ l, s.1 < S ∧ s.2 < C) (ht : ∀ s ∈ todo, s < S ∧ s ≠ 0) :
    ∃ r, statesPass l todo n = some r ∧ Passes n S C (some r.1) := by
  induction l generalizing todo with
  | nil => exact ⟨(n, false), rfl, h.self⟩
  | cons s rest ih =>
    have hs := hl s (List.mem_cons_self ..)
    have hrest : ∀ s ∈ rest, s.1 < S ∧ s.2 < C := fun s hs => hl s (List.mem_cons_of_mem _ hs)
    obtain ⟨oi, h1, -⟩ := h.dense.at? hs.1 hs.2
    simp only [statesPass, h1]
    cases oi with
    | none => exact ih todo hrest ht
    | some i =>
      simp only
      by_cases hc : todo.contains i.2.2
      · simp only [hc, if_true]
        have hm : i.2.2 ∈ todo := by simpa using hc
        cases todo with
        | nil => simp at hm
        | cons norm todo' =>
          simp only
          have h2 := ht _ hm
          have h3 := ht norm (List.mem_cons_self ..)
          by_cases hne : i.2.2 ≠ norm
          · rw [if_pos hne]
            obtain ⟨n', k1, k2, k3⟩ := h.swapStates h2.1 h3.1 h2.2 h3.2
            exact ⟨(n', true), by rw [k1]; rfl, n', rfl, k2, k3⟩
          · rw [if_neg hne]
            exact ih todo' hrest (fun s hs => ht s (List.mem_cons_of_mem _ hs))
      · simp only [hc]
        exact ih todo hrest ht

theorem statesLoop_spec {S C : Nat} (k : Nat) (n : Norm) (h : Good n S C) :
    Passes n S C (statesLoop k n) := by
  induction k generalizing n with
  | zero => exact h.self
  | succ k ih =>
    obtain ⟨r, h1, h2⟩ := statesPass_spec (S := S) (C := C) n.slots (todoList n.numStates) n h
      (fun s hs => (h.dense.mem_slots s).1 hs)
      (fun s hs => by
        rw [h.dense.numStates] at hs
        exact mem_todoList hs)
    simp only [statesLoop, h1, Option.bind_some]
    by_cases hb : r.2
    · simp only [hb, if_true]
      exact h2.bind (f := statesLoop k) fun n' hn' => ih n' hn'
    · simp only [hb]
      exact h2

theorem colorsPass_spec {S C : Nat} (l : List Slot) (todo : List Color) (n : Norm)
    (h : Good n S C) (hl : ∀ s ∈ l, s.1 < S ∧ s.2 < C) (ht : ∀ s ∈ todo, s < C ∧ s ≠ 0) :
    Passes n S C (colorsPass l todo n) := by
  induction l generalizing todo n with
  | nil => exact h.self
  | cons s rest ih =>
    have hs := hl s (List.mem_cons_self ..)
    have hrest : ∀ s ∈ rest, s.1 < S ∧ s.2 < C := fun s hs => hl s (List.mem_cons_of_mem _ hs)
    obtain ⟨oi, h1, -⟩ := h.dense.at? hs.1 hs.2
    simp only [colorsPass, h1]
    cases oi with
    | none => exact ih todo n h hrest ht
    | some i =>
      simp only
      by_cases hc : todo.contains i.1
      · simp only [hc, if_true]
        have hm : i.1 ∈ todo := by simpa using hc
        cases todo with
        | nil => simp at hm
        | cons norm todo' =>
          simp only
          have h2 := ht _ hm
          have h3 := ht norm (List.mem_cons_self ..)
          have ht' : ∀ s ∈ todo', s < C ∧ s ≠ 0 := fun s hs => ht s (List.mem_cons_of_mem _ hs)
          by_cases hne : i.1 ≠ norm
          · rw [if_pos hne]
            exact (h.swapColors h2.1 h3.1 h2.2 h3.2).bind fun n' hn' => ih todo' n' hn' hrest ht'
          · rw [if_neg hne]
            exact ih todo' n h hrest ht'
      · simp only [hc]
        exact ih todo n h hrest ht

theorem normalizeColors_spec {n : Norm} {S C : Nat} (hS : 0 < S) (h : Good n S C) :
    Passes n S C n.normalizeColors := by
  simp only [normalizeColors, h.dense.numColors hS, Option.bind_some]
  split
  · exact h.self
  · exact colorsPass_spec _ _ n h (fun s hs => (h.dense.mem_slots s).1 hs)
      (fun s hs => mem_todoList hs)

theorem allNone_spec (sw : Switch) (l : List Color)
    (hl : ∀ c ∈ l, (sw.lookup c).isSome) (hu : ∃ c ∈ l, ((sw.lookup c).join).isSome) :
    allNone sw l = some false := by
  induction l with
  | nil => simp at hu
  | cons c cs ih =>
    have h1 := hl c (List.mem_cons_self ..)
    simp only [allNone]
    cases hc : sw.lookup c with
    | none => rw [hc] at h1; simp at h1
    | some oi =>
      cases oi with
      | some i => rfl
      | none =>
        simp only
        apply ih (fun c hc => hl c (List.mem_cons_of_mem _ hc))
        obtain ⟨c', hc', hi⟩ := hu
        rcases List.mem_cons.1 hc' with rfl | hc'
        · rw [hc] at hi; simp at hi
        · exact ⟨c', hc', hi⟩

theorem deadStates_spec (cols : List Color) (n : Norm)
    (h : ∀ e ∈ n, allNone e.2 cols = some false) : deadStates cols n = some [] := by
  induction n with
  | nil => rfl
  | cons e n ih =>
    obtain ⟨st, sw⟩ := e
    have h1 := h _ (List.mem_cons_self ..)
    simp only at h1
    simp only [deadStates, h1, ih fun e he => h e (List.mem_cons_of_mem _ he)]
    rfl

theorem cutLoop_spec (l : List State) (n : Norm)
    (h : ∀ s ∈ l, n.usedInstrSlots.any (fun e => inInstr s e.2) = true) :
    cutLoop l n = some n := by
  induction l with
  | nil => rfl
  | cons s l ih =>
    simp only [cutLoop, h s (List.mem_cons_self ..), if_true]
    exact ih fun s hs => h s (List.mem_cons_of_mem _ hs)

theorem getitem_row {n : Norm} {s : Nat} {sw : Switch}
    (h1 : n.lookup s = some sw) (c : Nat) : n.getitem (s, c) = (sw.lookup c).join := by
  simp [Norm.getitem, Norm.at?, h1]

theorem cutUnusedStates_spec {n : Norm} {S C : Nat} (hS : 0 < S) (h : Good n S C) :
    n.cutUnusedStates = some n := by
  have hdead : deadStates (List.range C) n = some [] := by
    apply deadStates_spec
    rintro ⟨s, sw⟩ he
    have hs : s < S := h.dense.mem_rows.1 (List.mem_map.2 ⟨_, he, rfl⟩)
    have hlk : n.lookup s = some sw :=
      lookup_of_mem' (by rw [h.dense.rows]; exact List.nodup_range) he
    obtain ⟨c, hc, hi⟩ := h.used.rows s hs
    rw [getitem_row hlk] at hi
    apply allNone_spec
    · intro c hc
      rw [lookup_isSome_iff, h.dense.cols _ he]
      exact hc
    · exact ⟨c, List.mem_range.2 hc, hi⟩
  have hcut : cutLoop (todoList n.numStates).reverse n = some n := by
    apply cutLoop_spec
    intro s hs
    rw [List.mem_reverse, h.dense.numStates] at hs
    obtain ⟨h1, h2⟩ := mem_todoList hs
    obtain ⟨slot, i, h3, h4⟩ := h.used.target s h1 h2
    rw [List.any_eq_true]
    refine ⟨(slot, i), (h.dense.mem_used slot i).2 h3, ?_⟩
    simp [inInstr, h4]
  have hcol := h.dense.numColors hS
  cases n with
  | nil => rfl
  | cons e n =>
    simp only [cutUnusedStates, hcol, Option.bind_some, hdead]
    have : List.filter (fun e => !([] : List State).contains e.1) (e :: n) = e :: n := by
      rw [List.filter_eq_self]
      simp
    rw [this]
    exact hcut

theorem colorUsed_spec (co : Color) (n : Norm) (hl : ∀ e ∈ n, (e.2.lookup co).isSome)
    (hu : ∃ e ∈ n, ((e.2.lookup co).join).isSome) : colorUsed co n = some true := by
  induction n with
  | nil => simp at hu
  | cons e n ih =>
    obtain ⟨st, sw⟩ := e
    have h1 := hl _ (List.mem_cons_self ..)
    simp only at h1
    simp only [colorUsed]
    cases hc : sw.lookup co with
    | none => rw [hc] at h1; simp at h1
    | some oi =>
      cases oi with
      | some i => rfl
      | none =>
        simp only
        apply ih (fun c hc => hl c (List.mem_cons_of_mem _ hc))
        obtain ⟨c', hc', hi⟩ := hu
        rcases List.mem_cons.1 hc' with rfl | hc'
        · simp only [hc] at hi; simp at hi
        · exact ⟨c', hc', hi⟩

theorem cutColorsLoop_spec (l : List Color) (n : Norm)
    (h : ∀ c ∈ l, colorUsed c n = some true) : cutColorsLoop l n = some n := by
  induction l with
  | nil => rfl
  | cons s l ih =>
    simp only [cutColorsLoop, h s (List.mem_cons_self ..), Option.bind_some, if_true]
    exact ih fun s hs => h s (List.mem_cons_of_mem _ hs)

theorem cutUnusedColors_spec {n : Norm} {S C : Nat} (hS : 0 < S) (h : Good n S C) :
    n.cutUnusedColors = some n := by
  simp only [cutUnusedColors, h.dense.numColors hS, Option.bind_some]
  apply cutColorsLoop_spec
  intro c hc
  apply colorUsed_spec
  · intro e he
    rw [lookup_isSome_iff, h.dense.cols _ he]
    exact hc
  · obtain ⟨s, hs, hi⟩ := h.used.cols c (List.mem_range.1 hc)
    obtain ⟨sw, h1, -⟩ := h.dense.row hs
    rw [getitem_row h1] at hi
    exact ⟨(s, sw), mem_of_lookup' h1, hi⟩

theorem cinch_spec {n : Norm} {S C : Nat} (hS : 0 < S) (hC : 0 < C) (h : Good n S C) :
    n.cinch = some n := by
  obtain ⟨i, h1, h2⟩ := h.used.start
  obtain ⟨oi, h3, h4⟩ := h.dense.at? hS hC
  rw [h1] at h4
  subst h4
  obtain ⟨S', rfl⟩ : ∃ S', S = S' + 1 := ⟨S - 1, by omega⟩
  simp only [cinch, h.dense.numStates, List.range_succ_eq_map, cinchLoop, h3, h2, if_false]
  rfl

theorem round_spec {n : Norm} {S C : Nat} (hS : 0 < S) (hC : 0 < C) (h : Good n S C) :
    Passes n S C n.round := by
  simp only [round]
  refine (statesLoop_spec _ n h).bind fun n1 g1 => ?_
  refine (normalizeColors_spec hS g1).bind fun n2 g2 => ?_
  rw [cutUnusedStates_spec hS g2, Option.bind_some, cutUnusedColors_spec hS g2, Option.bind_some,
    cinch_spec hS hC g2]
  exact g2.self

theorem rounds_spec {S C : Nat} (hS : 0 < S) (hC : 0 < C) (k : Nat) (n : Norm) (h : Good n S C) :
    Passes n S C (rounds k n) := by
  induction k generalizing n with
  | zero => exact h.self
  | succ k ih =>
    simp only [rounds]
    exact (round_spec hS hC h).bind fun n' hn' => ih n' hn'

theorem normalize_spec {n : Norm} {S C : Nat} (hS : 0 < S) (hC : 0 < C) (h : Good n S C) :
    Passes n S C n.normalize := by
  simp only [normalize, h.dense.numColors hS, Option.bind_some]
  refine (rounds_spec hS hC C n h).bind fun n1 g1 => ?_
  obtain ⟨i, h1, -⟩ := g1.used.start
  obtain ⟨n', k1, k2, k3⟩ := g1.dense.directions h1
  refine ⟨n', k1, ⟨k2, ?_⟩, ⟨id, id, _, Function.bijective_id, Function.bijective_id, rfl, rfl,
    k3⟩, fun B D hB hD hb' => hb'.rename k3 (fun _ => rfl) (fun _ => rfl) (fun _ h => h)
      (fun _ h => h)⟩
  exact g1.used.rename k3 rfl rfl (fun _ => rfl) (fun _ => rfl) (fun _ h => h) (fun _ h => h)

/-! ## Text -/

/-- The rows of a dense program. -/
def toRows (n : Norm) : List (List (Option Instr)) := n.map fun e => e.2.map Prod.snd

theorem repr_eq (n : Norm) : n.repr = renderGrid n.toRows := by
  simp [Norm.repr, renderGrid, toRows, List.map_map, Function.comp_def]

theorem enumDict_of_keys {β : Type} (k : Nat) (d : List (Nat × β))
    (h : d.map Prod.fst = (List.range d.length).map (k + ·)) : enumDict k (d.map Prod.snd) = d := by
  induction d generalizing k with
  | nil => rfl
  | cons e d ih =>
    simp only [List.map_cons, List.length_cons, List.range_succ_eq_map, List.cons.injEq,
      List.map_map] at h
    simp only [List.map_cons, enumDict]
    rw [ih (k + 1)]
    · obtain ⟨a, b⟩ := e
      simp only [Nat.add_zero] at h
      simp [h.1]
    · rw [h.2]
      apply List.map_congr_left
      intro x _
      simp only [Function.comp_def]
      omega

theorem Dense.ofRows_toRows {n : Norm} {S C : Nat} (h : Dense n S C) : ofRows n.toRows = n := by
  have h1 : n.map (fun e => enumDict 0 (e.2.map Prod.snd)) = n.map Prod.snd := by
    apply List.map_congr_left
    intro e he
    apply enumDict_of_keys
    have := h.cols e he
    have hl := congrArg List.length this
    simp only [List.length_map, List.length_range] at hl
    simp [this, hl]
  simp only [ofRows, toRows, List.map_map, Function.comp_def]
  rw [h1]
  apply enumDict_of_keys
  have hl := congrArg List.length h.rows
  simp only [List.length_map, List.length_range] at hl
  rw [h.rows, hl]
  simp

theorem Dense.toRows_length {n : Norm} {S C : Nat} (h : Dense n S C) :
    n.toRows.length = S ∧ ∀ row ∈ n.toRows, row.length = C := by
  constructor
  · have hl := congrArg List.length h.rows
    simpa [toRows] using hl
  · intro row hrow
    obtain ⟨e, he, rfl⟩ := List.mem_map.1 hrow
    have hl := congrArg List.length (h.cols e he)
    simpa using hl

end Norm

end BB
