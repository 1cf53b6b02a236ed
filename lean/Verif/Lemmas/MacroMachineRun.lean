import Verif.Lemmas.MacroMachine
import Verif.Lemmas.Prover
import Verif.Lemmas.EnumTape

/-! # Runs of program objects with caches are runs without -/

namespace BB

/-! ## Colours on tapes -/

/-- `col P t`: all colours on `t` satisfy `P`; the operations keep it. -/
structure SimTape.Colored {τ : Type} (T : SimTape τ) (col : (Color → Prop) → τ → Prop) : Prop where
  scan : ∀ P t, col P t → P (T.scan t)
  mono : ∀ (P P' : Color → Prop) t, (∀ c, P c → P' c) → col P t → col P' t
  step : ∀ (P : Color → Prop) t sh c skip, P 0 → P c → col P t → col P (T.step t sh c skip)
  get : ∀ P t i c t', T.get t i = .ok (c, t') → col P t → col P t'
  set : ∀ P t i v t', T.set t i v = .ok t' → col P t → col P t'

theorem SimTape.Colored.countAppsFrom {τ : Type} {T : SimTape τ} {col : (Color → Prop) → τ → Prop}
    (h : T.Colored col) {P : Color → Prop} :
    ∀ (rule : Rule) (t : τ) (best : Option (Int × Index × Int))
      (r : Option (Int × Index × Int) × τ), countAppsFrom T.toIndexTape rule t best = .ok r →
      col P t → col P r.2 := by
  intro rule
  induction rule with
  | nil =>
    intro t best r hr ht
    simp only [BB.countAppsFrom, Except.ok.injEq] at hr
    rw [← hr]; exact ht
  | cons e rest ih =>
    intro t best r hr ht
    obtain ⟨pos, op⟩ := e
    cases op with
    | mult m a => exact ih t best r hr ht
    | plus d =>
      simp only [BB.countAppsFrom] at hr
      by_cases hd : d ≥ 0
      · rw [if_pos hd] at hr; exact ih t best r hr ht
      · rw [if_neg hd] at hr
        cases hg : T.get t pos with
        | error e => rw [hg, bind_error] at hr; cases hr
        | ok ct =>
          obtain ⟨c, t'⟩ := ct
          have ht' := h.get P t pos c t' hg ht
          rw [hg, bind_ok] at hr
          simp only at hr
          by_cases hc : -d ≥ c
          · rw [if_pos hc] at hr
            simp only [Except.ok.injEq] at hr
            rw [← hr]; exact ht'
          · rw [if_neg hc, pyDivmod_ok (by omega : -d ≠ 0)] at hr
            simp only [bind_ok] at hr
            exact ih t' _ r hr ht'

theorem SimTape.Colored.applyRuleFrom {τ : Type} {T : SimTape τ} {col : (Color → Prop) → τ → Prop}
    (h : T.Colored col) {P : Color → Prop} (times : Int) (minPos : Index) (minRes : Int) :
    ∀ (rule : Rule) (t t' : τ),
      applyRuleFrom T.toIndexTape times minPos minRes rule t = .ok t' → col P t → col P t' := by
  intro rule
  induction rule with
  | nil =>
    intro t t' hr ht
    simp only [BB.applyRuleFrom, Except.ok.injEq] at hr
    rw [← hr]; exact ht
  | cons e rest ih =>
    intro t t' hr ht
    obtain ⟨pos, op⟩ := e
    simp only [BB.applyRuleFrom] at hr
    cases hg : T.get t pos with
    | error e => rw [hg, bind_error] at hr; cases hr
    | ok ct =>
      obtain ⟨c, t1⟩ := ct
      have ht1 := h.get P t pos c t1 hg ht
      rw [hg, bind_ok] at hr
      simp only at hr
      cases ho : opResult times minPos minRes pos c op with
      | error e => rw [ho, bind_error] at hr; cases hr
      | ok v =>
        rw [ho, bind_ok] at hr
        cases hs : T.set t1 pos v with
        | error e => rw [hs, bind_error] at hr; cases hr
        | ok t2 =>
          rw [hs, bind_ok] at hr
          exact ih t2 t' hr (h.set P t1 pos v t2 hs ht1)

theorem SimTape.Colored.applyRule {τ : Type} {T : SimTape τ} {col : (Color → Prop) → τ → Prop}
    (h : T.Colored col) {P : Color → Prop} {rule : Rule} {t : τ} {r : Option Int × τ}
    (hr : applyRule T.toIndexTape rule t = .ok r) (ht : col P t) : col P r.2 := by
  unfold BB.applyRule countApps at hr
  cases hc : BB.countAppsFrom T.toIndexTape rule t none with
  | error e => rw [hc, bind_error] at hr; cases hr
  | ok a =>
    have ha := h.countAppsFrom rule t none a hc ht
    obtain ⟨apps, u⟩ := a
    rw [hc, bind_ok] at hr
    cases apps with
    | none =>
      simp only [Except.ok.injEq] at hr
      rw [← hr]; exact ha
    | some a =>
      obtain ⟨x, y, z⟩ := a
      simp only at hr
      cases hf : BB.applyRuleFrom T.toIndexTape x y z rule u with
      | error e => rw [hf, bind_error] at hr; cases hr
      | ok v =>
        rw [hf, bind_ok] at hr
        simp only [Except.ok.injEq] at hr
        rw [← hr]
        exact h.applyRuleFrom x y z rule u v hf ha

/-- All colours of a tape satisfy `P`. -/
def Tape.Colors (P : Color → Prop) (t : Tape) : Prop :=
  P t.scan ∧ (∀ b ∈ t.lspan, P b.color) ∧ ∀ b ∈ t.rspan, P b.color

theorem Py.stepSpans_colors {P : Color → Prop} {pull push : List Block} {scan color : Color}
    (skip : Bool) (h0 : P 0) (hc : P color) (hl : ∀ b ∈ pull, P b.color)
    (hs : ∀ b ∈ push, P b.color) :
    (∀ b ∈ (Py.stepSpans pull push scan color skip).1, P b.color) ∧
    (∀ b ∈ (Py.stepSpans pull push scan color skip).2.1, P b.color) ∧
    P (Py.stepSpans pull push scan color skip).2.2.1 := by
  have hpush : ∀ (fr : Block) (n : Nat), fr.color = color → ∀ b ∈ (match push with
      | top :: rest =>
        if top.color == color then { top with count := top.count + n } :: rest
        else fr :: top :: rest
      | [] => if color != 0 then [fr] else []), P b.color := by
    intro fr n hfr b hb
    cases push with
    | nil =>
      simp only at hb
      split at hb
      · rw [List.mem_singleton.mp hb, hfr]; exact hc
      · simp at hb
    | cons top rest =>
      simp only at hb
      split at hb
      · rcases List.mem_cons.mp hb with rfl | hb
        · exact hs top List.mem_cons_self
        · exact hs b (List.mem_cons_of_mem _ hb)
      · rcases List.mem_cons.mp hb with rfl | hb
        · rw [hfr]; exact hc
        · exact hs b hb
  have hrest : ∀ (o : Option Block) (l : List Block) (n : Nat), (∀ b ∈ l, P b.color) →
      let r : Color × List Block × Option Block :=
        match l with
        | [] => (0, [], o)
        | nextPull :: rest =>
          if nextPull.count != 1 then
            (nextPull.color, { nextPull with count := nextPull.count - 1 } :: rest, o)
          else
            (nextPull.color, rest,
              match o with
              | none => some { nextPull with count := 0 }
              | some b => some b)
      P r.1 ∧ ∀ b ∈ r.2.1, P b.color := by
    intro o l n hl
    cases l with
    | nil => exact ⟨h0, by simp⟩
    | cons np rest =>
      have h1 := hl np List.mem_cons_self
      have h2 : ∀ b ∈ rest, P b.color := fun b hb => hl b (List.mem_cons_of_mem _ hb)
      simp only
      split
      · refine ⟨h1, fun b hb => ?_⟩
        rcases List.mem_cons.mp hb with rfl | hb
        · exact h1
        · exact h2 b hb
      · exact ⟨h1, h2⟩
  unfold Py.stepSpans
  simp only
  cases pull with
  | nil => exact ⟨(hrest none [] 0 (by simp)).2, hpush _ _ (by first | rfl | (split <;> rfl)), (hrest none [] 0 (by simp)).1⟩
  | cons p ps =>
    have hps : ∀ b ∈ ps, P b.color := fun b hb => hl b (List.mem_cons_of_mem _ hb)
    simp only
    by_cases hk : (skip && p.color == scan) = true
    · simp only [if_pos hk]
      exact ⟨(hrest (some p) ps 0 hps).2, hpush _ _ (by first | rfl | (split <;> rfl)), (hrest (some p) ps 0 hps).1⟩
    · simp only [if_neg hk]
      exact ⟨(hrest none (p :: ps) 0 hl).2, hpush _ _ (by first | rfl | (split <;> rfl)), (hrest none (p :: ps) 0 hl).1⟩

theorem Py.step_colors {P : Color → Prop} {t : Tape} (sh : Bool) {color : Color} (skip : Bool)
    (h0 : P 0) (hc : P color) (h : t.Colors P) : (Py.step t sh color skip).1.Colors P := by
  obtain ⟨_, hl, hr⟩ := h
  cases sh
  · obtain ⟨a, b, c⟩ := Py.stepSpans_colors (scan := t.scan) skip h0 hc hl hr
    exact ⟨c, a, b⟩
  · obtain ⟨a, b, c⟩ := Py.stepSpans_colors (scan := t.scan) skip h0 hc hr hl
    exact ⟨c, b, a⟩

theorem Tape.setCount_colors {P : Color → Prop} {t t' : Tape} {i : Index} {v : Int}
    (h : t.setCount i v = .ok t') (ht : t.Colors P) : t'.Colors P := by
  have hset : ∀ (l : List Block) (k : Nat) (b : Block), l[k]? = some b → (∀ b ∈ l, P b.color) →
      ∀ c ∈ l.set k { b with count := v.toNat }, P c.color := by
    intro l k b hb hl c hc
    rcases List.mem_or_eq_of_mem_set hc with hc | rfl
    · exact hl c hc
    · exact hl b (List.mem_of_getElem? hb)
  obtain ⟨hs, hl, hr⟩ := ht
  obtain ⟨side, k⟩ := i
  unfold Tape.setCount at h
  by_cases hv : v < 0
  · rw [if_pos hv] at h; cases h
  · rw [if_neg hv] at h
    cases side
    · simp only [Bool.false_eq_true, if_false] at h
      cases hb : t.lspan[k]? with
      | none => rw [hb] at h; cases h
      | some b =>
        rw [hb] at h
        simp only [Except.ok.injEq] at h
        rw [← h]
        exact ⟨hs, hset _ _ _ hb hl, hr⟩
    · simp only [if_true] at h
      cases hb : t.rspan[k]? with
      | none => rw [hb] at h; cases h
      | some b =>
        rw [hb] at h
        simp only [Except.ok.injEq] at h
        rw [← h]
        exact ⟨hs, hl, hset _ _ _ hb hr⟩

theorem Tape.colored : Tape.simTape.Colored Tape.Colors where
  scan := fun _ _ h => h.1
  mono := fun _ _ _ hP h => ⟨hP _ h.1, fun b hb => hP _ (h.2.1 b hb), fun b hb => hP _ (h.2.2 b hb)⟩
  step := fun _ _ sh _ skip h0 hc h => Py.step_colors sh skip h0 hc h
  get := by
    intro P t i c t' h ht
    simp only [Tape.simTape, Tape.indexTape] at h
    cases hg : t.getCount i with
    | error e => rw [hg, bind_error] at h; cases h
    | ok x =>
      rw [hg, bind_ok] at h
      simp only [Except.ok.injEq, Prod.mk.injEq] at h
      rw [← h.2]; exact ht
  set := fun _ _ _ _ _ h ht => Tape.setCount_colors h ht

/-- All colours of a tagged tape satisfy `P`. -/
def EnumTape.Colors (P : Color → Prop) (t : EnumTape) : Prop :=
  P t.tape.scan ∧ (∀ b ∈ t.tape.lspan, P b.color) ∧ ∀ b ∈ t.tape.rspan, P b.color

theorem EnumTape.check_tape (t : EnumTape) (sh : Bool) (color : Color) (skip : Bool) :
    (t.check sh color skip).tape = t.tape := by
  have hsecond : ∀ (push : List EBlock) (u : EnumTape), u.tape = t.tape →
      (match push with
        | [] => u
        | opp :: _ => if color == opp.color then u.checkOffsets opp else u).tape = t.tape := by
    intro push u hu
    cases push with
    | nil => exact hu
    | cons o _ =>
      simp only
      split
      · rw [EnumTape.checkOffsets_tape]; exact hu
      · exact hu
  have hfirst : ∀ (pull : List EBlock), (match pull with
      | [] => t.touchEdge sh
      | near :: rest =>
        if skip && near.color == (t.checkOffsets near).tape.scan then
          match rest with
          | [] => (t.checkOffsets near).touchEdge sh
          | next :: _ => (t.checkOffsets near).checkOffsets next
        else t.checkOffsets near).tape = t.tape := by
    intro pull
    cases pull with
    | nil => exact EnumTape.touchEdge_tape _ _
    | cons near rest =>
      simp only
      split
      · cases rest with
        | nil => simp only [EnumTape.touchEdge_tape, EnumTape.checkOffsets_tape]
        | cons n _ => simp only [EnumTape.checkOffsets_tape]
      · exact EnumTape.checkOffsets_tape _ _
  unfold EnumTape.check
  cases sh
  · exact hsecond t.tape.rspan _ (hfirst t.tape.lspan)
  · exact hsecond t.tape.lspan _ (hfirst t.tape.rspan)

theorem EnumTape.stepSpans_colors {P : Color → Prop} {pull push : List EBlock} {scan color : Color}
    (skip : Bool) (h0 : P 0) (hc : P color) (hl : ∀ b ∈ pull, P b.color)
    (hs : ∀ b ∈ push, P b.color) :
    (∀ b ∈ (EnumTape.stepSpans pull push scan color skip).1, P b.color) ∧
    (∀ b ∈ (EnumTape.stepSpans pull push scan color skip).2.1, P b.color) ∧
    P (EnumTape.stepSpans pull push scan color skip).2.2 := by
  have hpush : ∀ (fr : EBlock) (n : Nat), fr.color = color → ∀ b ∈ (match push with
      | top :: rest =>
        if top.color == color then { top with count := top.count + n } :: rest
        else fr :: top :: rest
      | [] => if color != 0 then [fr] else []), P b.color := by
    intro fr n hfr b hb
    cases push with
    | nil =>
      simp only at hb
      split at hb
      · rw [List.mem_singleton.mp hb, hfr]; exact hc
      · simp at hb
    | cons top rest =>
      simp only at hb
      split at hb
      · rcases List.mem_cons.mp hb with rfl | hb
        · exact hs top List.mem_cons_self
        · exact hs b (List.mem_cons_of_mem _ hb)
      · rcases List.mem_cons.mp hb with rfl | hb
        · rw [hfr]; exact hc
        · exact hs b hb
  have hrest : ∀ (o : Option EBlock) (l : List EBlock), (∀ b ∈ l, P b.color) →
      let r : Color × List EBlock × Option EBlock :=
        match l with
        | [] => (0, [], o)
        | nextPull :: rest =>
          if nextPull.count != 1 then
            (nextPull.color, { nextPull with count := nextPull.count - 1 } :: rest, o)
          else
            (nextPull.color, rest,
              match o with
              | none => some { nextPull with count := 0 }
              | some b => some b)
      P r.1 ∧ ∀ b ∈ r.2.1, P b.color := by
    intro o l hl
    cases l with
    | nil => exact ⟨h0, by simp⟩
    | cons np rest =>
      have h1 := hl np List.mem_cons_self
      have h2 : ∀ b ∈ rest, P b.color := fun b hb => hl b (List.mem_cons_of_mem _ hb)
      simp only
      split
      · refine ⟨h1, fun b hb => ?_⟩
        rcases List.mem_cons.mp hb with rfl | hb
        · exact h1
        · exact h2 b hb
      · exact ⟨h1, h2⟩
  unfold EnumTape.stepSpans
  simp only
  cases pull with
  | nil => exact ⟨(hrest none [] (by simp)).2, hpush _ _ (by first | rfl | (split <;> rfl)), (hrest none [] (by simp)).1⟩
  | cons p ps =>
    have hps : ∀ b ∈ ps, P b.color := fun b hb => hl b (List.mem_cons_of_mem _ hb)
    simp only
    by_cases hk : (skip && p.color == scan) = true
    · simp only [if_pos hk]
      exact ⟨(hrest (some p) ps hps).2, hpush _ _ (by first | rfl | (split <;> rfl)), (hrest (some p) ps hps).1⟩
    · simp only [if_neg hk]
      exact ⟨(hrest none (p :: ps) hl).2, hpush _ _ (by first | rfl | (split <;> rfl)), (hrest none (p :: ps) hl).1⟩

theorem EnumTape.colored : EnumTape.simTape.Colored EnumTape.Colors where
  scan := fun _ _ h => h.1
  mono := fun _ _ _ hP h => ⟨hP _ h.1, fun b hb => hP _ (h.2.1 b hb), fun b hb => hP _ (h.2.2 b hb)⟩
  step := by
    intro P t sh c skip h0 hc h
    have ht := EnumTape.check_tape t sh c skip
    obtain ⟨_, hl, hr⟩ := h
    rw [← ht] at hl hr
    simp only [EnumTape.simTape, EnumTape.step]
    generalize t.check sh c skip = u at hl hr
    cases sh
    · obtain ⟨a, b, d⟩ := EnumTape.stepSpans_colors (scan := u.tape.scan) skip h0 hc hl hr
      exact ⟨d, a, b⟩
    · obtain ⟨a, b, d⟩ := EnumTape.stepSpans_colors (scan := u.tape.scan) skip h0 hc hr hl
      exact ⟨d, b, a⟩
  get := by
    intro P t i c t' h ht
    simp only [EnumTape.simTape, EnumTape.getCount] at h
    split at h
    · cases h
    · rename_i b _
      simp only [Except.ok.injEq, Prod.mk.injEq] at h
      rw [← h.2]
      unfold EnumTape.Colors
      rw [EnumTape.checkOffsets_tape]
      exact ht
  set := by
    intro P t i v t' h ht
    have hset : ∀ (l : List EBlock) (k : Nat) (b : EBlock), l[k]? = some b →
        (∀ b ∈ l, P b.color) → ∀ c ∈ l.set k { b with count := v.toNat }, P c.color := by
      intro l k b hb hl c hc
      rcases List.mem_or_eq_of_mem_set hc with hc | rfl
      · exact hl c hc
      · exact hl b (List.mem_of_getElem? hb)
    obtain ⟨hs, hl, hr⟩ := ht
    obtain ⟨side, k⟩ := i
    simp only [EnumTape.simTape, EnumTape.setCount] at h
    by_cases hv : v < 0
    · rw [if_pos hv] at h; cases h
    · rw [if_neg hv] at h
      cases side
      · simp only [Bool.false_eq_true, if_false] at h
        cases hb : t.tape.lspan[k]? with
        | none => rw [hb] at h; cases h
        | some b =>
          rw [hb] at h
          simp only [Except.ok.injEq] at h
          rw [← h]
          exact ⟨hs, hset _ _ _ hb hl, hr⟩
      · simp only [if_true] at h
        cases hb : t.tape.rspan[k]? with
        | none => rw [hb] at h; cases h
        | some b =>
          rw [hb] at h
          simp only [Except.ok.injEq] at h
          rw [← h]
          exact ⟨hs, hl, hset _ _ _ hb hr⟩

theorem Tape.toEnum_colors {P : Color → Prop} {t : Tape} (h : t.Colors P) :
    EnumTape.Colors P t.toEnum := by
  have htag : ∀ (side : Bool) (l : List Block), (∀ b ∈ l, P b.color) →
      ∀ b ∈ tagSpan side l, P b.color := by
    intro side l hl b hb
    simp only [tagSpan, List.mem_mapIdx] at hb
    obtain ⟨i, hi, rfl⟩ := hb
    exact hl _ (List.getElem_mem hi)
  exact ⟨h.1, htag _ _ h.2.1, htag _ _ h.2.2⟩

end BB
