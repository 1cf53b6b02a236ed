import Verif.Model.Reason
import Verif.Lemmas.Run
import Verif.Lemmas.Table
import Verif.Lemmas.Graph

/-!
# What the patterns of the backward reasoner stand for
-/

namespace BB

/-! ## Spans -/

/-- The cells of a span, nearest first. -/
def spanCells (s : List Block) : List Color := s.flatMap fun b => List.replicate b.count b.color

/-- Cells `f 0, f 1, …` begin with the list, and go on with blanks or anything. -/
def SideFits (e : TapeEnd) : List Color → (Nat → Color) → Prop
  | [], f => e = .blanks → ∀ i, f i = 0
  | a :: l, f => f 0 = a ∧ SideFits e l fun i => f (i + 1)

/-- No empty blocks. -/
def Full (s : List Block) : Prop := ∀ b ∈ s, 0 < b.count

theorem spanCells_nil : spanCells [] = [] := rfl

theorem spanCells_cons (b : Block) (s : List Block) :
    spanCells (b :: s) = List.replicate b.count b.color ++ spanCells s := rfl

theorem spanCells_pull1 {s : List Block} (h : Full s) :
    spanCells (Backstepper.pull1 s) = (spanCells s).tail := by
  cases s with
  | nil => rfl
  | cons b s =>
    have hb := h b (by simp)
    obtain ⟨n, hn⟩ : ∃ n, b.count = n + 1 := ⟨b.count - 1, by omega⟩
    simp only [Backstepper.pull1]
    split
    · rename_i h1
      rw [spanCells_cons, h1]
      rfl
    · rw [spanCells_cons, spanCells_cons]
      simp only [hn, Nat.add_sub_cancel, List.replicate_succ, List.cons_append, List.tail_cons]

theorem Full.pull1 {s : List Block} (h : Full s) : Full (Backstepper.pull1 s) := by
  cases s with
  | nil => exact h
  | cons b s =>
    have hb := h b (by simp)
    simp only [Backstepper.pull1]
    split
    · exact fun x hx => h x (List.mem_cons_of_mem _ hx)
    · intro x hx
      rcases List.mem_cons.1 hx with rfl | hx
      · show 0 < b.count - 1
        omega
      · exact h x (List.mem_cons_of_mem _ hx)

theorem Full.push1 {s : List Block} (h : Full s) (scan : Color) (e : TapeEnd) :
    Full (Backstepper.push1 scan e s) := by
  simp only [Backstepper.push1]
  split
  · cases s with
    | nil => simp [Full]
    | cons b s =>
      simp only
      split
      · intro x hx
        rcases List.mem_cons.1 hx with rfl | hx
        · show 0 < b.count + 1
          omega
        · exact h x (List.mem_cons_of_mem _ hx)
      · intro x hx
        rcases List.mem_cons.1 hx with rfl | hx
        · show 0 < 1
          omega
        · exact h x hx
  · exact h

/-- The near cell pulled off. -/
theorem sideFits_pull {s : List Block} (h : Full s) (push : List Block) (e : TapeEnd) (print : Color)
    (f f' : Nat → Color) (h0 : f 0 = print) (hs : ∀ i, f (i + 1) = f' i) :
    SideFits e (spanCells s) f ↔ (Backstepper.checkSpans s push e print).isSome ∧
      SideFits e (spanCells (Backstepper.pull1 s)) f' := by
  have hs' : (fun i => f (i + 1)) = f' := funext hs
  rw [spanCells_pull1 h]
  cases s with
  | nil =>
    simp only [spanCells_nil, SideFits, Backstepper.checkSpans, List.tail_nil]
    cases e with
    | unknown => simp
    | blanks =>
      simp only [forall_true_left]
      constructor
      · intro hf
        rw [← h0, hf 0]
        simp only [if_true, Option.isSome_some, true_and]
        intro i
        rw [← hs, hf]
      · rintro ⟨h1, h2⟩ i
        cases i with
        | zero =>
          rw [h0]
          by_contra hne
          rw [if_neg hne] at h1
          simp at h1
        | succ i => rw [hs, h2]
  | cons b s =>
    have hb := h b (by simp)
    obtain ⟨n, hn⟩ : ∃ n, b.count = n + 1 := ⟨b.count - 1, by omega⟩
    rw [spanCells_cons, hn]
    simp only [List.replicate_succ, List.cons_append, List.tail_cons, SideFits, Backstepper.checkSpans,
      hs', h0]
    by_cases hp : print = b.color <;> simp [hp]

/-- The scanned cell pushed on. -/
theorem sideFits_push (s : List Block) (e : TapeEnd) (scan : Color)
    (g g' : Nat → Color) (hs : ∀ i, g' (i + 1) = g i) :
    (g' 0 = scan ∧ SideFits e (spanCells s) g) ↔ SideFits e (spanCells (Backstepper.push1 scan e s)) g' := by
  have hs' : (fun i => g' (i + 1)) = g := funext hs
  simp only [Backstepper.push1]
  split
  · cases s with
    | nil =>
      simp only [spanCells_cons, spanCells_nil, List.replicate_one, List.singleton_append, SideFits, hs]
    | cons b s =>
      simp only
      split
      · rename_i hb
        subst hb
        simp only [spanCells_cons, List.replicate_succ, List.cons_append, SideFits, hs']
      · simp only [spanCells_cons, List.replicate_one, List.singleton_append, SideFits, hs']
  · rename_i h
    simp only [not_or, not_not] at h
    obtain ⟨rfl, rfl, he⟩ := h
    cases e with
    | unknown => simp at he
    | blanks =>
      simp only [spanCells_nil, SideFits, forall_true_left]
      constructor
      · rintro ⟨h1, h2⟩ i
        cases i with
        | zero => exact h1
        | succ i => rw [hs, h2]
      · intro h
        exact ⟨h 0, fun i => by rw [← hs, h]⟩

/-! ## Patterns -/

/-- The configuration fits the pattern. -/
def Backstepper.Match (b : Backstepper) (c : Cfg) : Prop :=
  c.tape c.pos = b.scan ∧
  SideFits b.lEnd (spanCells b.lspan) (fun i => c.tape (c.pos - 1 - i)) ∧
  SideFits b.rEnd (spanCells b.rspan) (fun i => c.tape (c.pos + 1 + i))

def Backstepper.Wf (b : Backstepper) : Prop := Full b.lspan ∧ Full b.rspan

theorem Backstepper.Wf.backstep {b : Backstepper} (h : b.Wf) (shift : Bool) (read : Color) :
    (b.backstep shift read).Wf := by
  cases shift
  · exact ⟨h.1.push1 _ _, h.2.pull1⟩
  · exact ⟨h.1.pull1, h.2.push1 _ _⟩

/-- Stepping back is exact. -/
theorem match_backstep {b : Backstepper} (h : b.Wf) (c : Cfg) (print : Color) (shift : Bool)
    (q : State) :
    b.Match (c.exec (print, shift, q)) ↔
      (b.checkStep shift print).isSome ∧ (b.backstep shift (c.tape c.pos)).Match c := by
  have hself : (c.exec (print, shift, q)).tape c.pos = print := by simp [Cfg.exec]
  have hother : ∀ x, x ≠ c.pos → (c.exec (print, shift, q)).tape x = c.tape x := by
    intro x hx
    simp [Cfg.exec, hx]
  cases shift with
  | true =>
    have hpos : (c.exec (print, true, q)).pos = c.pos + 1 := by simp [Cfg.exec]
    have e1 := sideFits_pull h.1 b.rspan b.lEnd print
      (fun i : Nat => (c.exec (print, true, q)).tape ((c.exec (print, true, q)).pos - 1 - i))
      (fun i : Nat => c.tape (c.pos - 1 - i))
      (by
        show (c.exec (print, true, q)).tape ((c.exec (print, true, q)).pos - 1 - ((0 : Nat) : Int))
          = print
        rw [hpos, show c.pos + 1 - 1 - ((0 : Nat) : Int) = c.pos by simp]
        exact hself)
      (by
        intro i
        show (c.exec (print, true, q)).tape
          ((c.exec (print, true, q)).pos - 1 - ((i + 1 : Nat) : Int)) = _
        rw [hpos, hother _ (by push_cast; omega)]
        congr 1
        push_cast
        omega)
    have e2 := sideFits_push b.rspan b.rEnd b.scan
      (fun i : Nat => (c.exec (print, true, q)).tape ((c.exec (print, true, q)).pos + 1 + i))
      (fun i : Nat => c.tape (c.pos + 1 + i))
      (by
        intro i
        show _ = (c.exec (print, true, q)).tape ((c.exec (print, true, q)).pos + 1 + (i : Int))
        rw [hpos, hother _ (by omega)]
        congr 1
        push_cast
        omega)
    have e3 : (c.exec (print, true, q)).tape (c.exec (print, true, q)).pos = b.scan
        ↔ c.tape (c.pos + 1 + ((0 : Nat) : Int)) = b.scan := by
      rw [hpos, hother _ (by omega)]
      simp
    simp only [Backstepper.Match, Backstepper.checkStep, Backstepper.backstep, if_true]
    rw [e1, ← e2, e3]
    simp only [true_and]
    constructor
    · rintro ⟨h1, ⟨h2, h3⟩, h4⟩
      exact ⟨h2, h3, h1, h4⟩
    · rintro ⟨h2, h3, h1, h4⟩
      exact ⟨h1, ⟨h2, h3⟩, h4⟩
  | false =>
    have hpos : (c.exec (print, false, q)).pos = c.pos - 1 := by simp [Cfg.exec]
    have e1 := sideFits_pull h.2 b.lspan b.rEnd print
      (fun i : Nat => (c.exec (print, false, q)).tape ((c.exec (print, false, q)).pos + 1 + i))
      (fun i : Nat => c.tape (c.pos + 1 + i))
      (by
        show (c.exec (print, false, q)).tape
          ((c.exec (print, false, q)).pos + 1 + ((0 : Nat) : Int)) = print
        rw [hpos, show c.pos - 1 + 1 + ((0 : Nat) : Int) = c.pos by simp]
        exact hself)
      (by
        intro i
        show (c.exec (print, false, q)).tape
          ((c.exec (print, false, q)).pos + 1 + ((i + 1 : Nat) : Int)) = _
        rw [hpos, hother _ (by push_cast; omega)]
        congr 1
        push_cast
        omega)
    have e2 := sideFits_push b.lspan b.lEnd b.scan
      (fun i : Nat => (c.exec (print, false, q)).tape ((c.exec (print, false, q)).pos - 1 - i))
      (fun i : Nat => c.tape (c.pos - 1 - i))
      (by
        intro i
        show _ = (c.exec (print, false, q)).tape ((c.exec (print, false, q)).pos - 1 - (i : Int))
        rw [hpos, hother _ (by omega)]
        congr 1
        push_cast
        omega)
    have e3 : (c.exec (print, false, q)).tape (c.exec (print, false, q)).pos = b.scan
        ↔ c.tape (c.pos - 1 - ((0 : Nat) : Int)) = b.scan := by
      rw [hpos, hother _ (by omega)]
      simp
    simp only [Backstepper.Match, Backstepper.checkStep, Backstepper.backstep, Bool.false_eq_true,
      if_false]
    rw [e1, ← e2, e3]
    simp only [true_and]
    constructor
    · rintro ⟨h1, h4, ⟨h2, h3⟩⟩
      exact ⟨h2, ⟨h1, h4⟩, h3⟩
    · rintro ⟨h2, ⟨h1, h4⟩, h3⟩
      exact ⟨h1, h4, ⟨h2, h3⟩⟩

theorem sideFits_blank {e : TapeEnd} {l : List Color} (f : Nat → Color) (hf : ∀ i, f i = 0)
    (hl : ∀ a ∈ l, a = 0) : SideFits e l f := by
  induction l generalizing f with
  | nil => exact fun _ => hf
  | cons a l ih =>
    exact ⟨by rw [hf, hl a (by simp)], ih _ (fun i => hf _) fun x hx => hl x (by simp [hx])⟩

theorem sideFits_zero {e : TapeEnd} {l : List Color} {f : Nat → Color} (h : SideFits e l f)
    (hf : ∀ i, f i = 0) : ∀ a ∈ l, a = 0 := by
  induction l generalizing f with
  | nil => simp
  | cons a l ih =>
    intro x hx
    rcases List.mem_cons.1 hx with rfl | hx
    · rw [← h.1, hf]
    · exact ih h.2 (fun i => hf _) x hx

theorem sideFits_blanks {l : List Color} {f : Nat → Color} (h : SideFits .blanks l f)
    (hl : ∀ a ∈ l, a = 0) : ∀ i, f i = 0 := by
  induction l generalizing f with
  | nil => exact h rfl
  | cons a l ih =>
    intro i
    cases i with
    | zero => rw [h.1, hl a (by simp)]
    | succ i => exact ih h.2 (fun x hx => hl x (by simp [hx])) i

theorem mem_spanCells {s : List Block} {a : Color} (h : a ∈ spanCells s) :
    ∃ b ∈ s, b.color = a := by
  simp only [spanCells, List.mem_flatMap, List.mem_replicate] at h
  obtain ⟨b, hb, -, rfl⟩ := h
  exact ⟨b, hb, rfl⟩

theorem color_mem_spanCells {s : List Block} (hs : Full s) {b : Block} (h : b ∈ s) :
    b.color ∈ spanCells s := by
  simp only [spanCells, List.mem_flatMap, List.mem_replicate]
  exact ⟨b, h, by have := hs b h; omega, rfl⟩

/-- A blank pattern fits the blank tape. -/
theorem match_of_blank {b : Backstepper} (h : b.blank = true) (q : State) (pos : Int) :
    b.Match ⟨q, pos, fun _ => 0⟩ := by
  simp only [Backstepper.blank, Bool.and_eq_true, beq_iff_eq, List.all_eq_true] at h
  refine ⟨h.1.symm, sideFits_blank _ (fun _ => rfl) ?_, sideFits_blank _ (fun _ => rfl) ?_⟩
  · intro a ha
    obtain ⟨x, hx, rfl⟩ := mem_spanCells ha
    exact h.2 x (by simp [hx])
  · intro a ha
    obtain ⟨x, hx, rfl⟩ := mem_spanCells ha
    exact h.2 x (by simp [hx])

/-- A pattern that fits a blank tape is blank. -/
theorem blank_of_match {b : Backstepper} (hw : b.Wf) {c : Cfg} (h : b.Match c)
    (hc : ∀ x, c.tape x = 0) : b.blank = true := by
  simp only [Backstepper.blank, Bool.and_eq_true, beq_iff_eq, List.all_eq_true]
  refine ⟨by rw [← h.1, hc], fun x hx => ?_⟩
  rcases List.mem_append.1 hx with hx | hx
  · exact sideFits_zero h.2.1 (fun i => hc _) _ (color_mem_spanCells hw.1 hx)
  · exact sideFits_zero h.2.2 (fun i => hc _) _ (color_mem_spanCells hw.2 hx)

/-- A blank pattern with blank ends fits only the blank tape. -/
theorem blank_of_match_blanks {b : Backstepper} (hb : b.blank = true) (hl : b.lEnd = .blanks)
    (hr : b.rEnd = .blanks) {c : Cfg} (h : b.Match c) : ∀ x, c.tape x = 0 := by
  simp only [Backstepper.blank, Bool.and_eq_true, beq_iff_eq, List.all_eq_true] at hb
  obtain ⟨h0, h1, h2⟩ := h
  rw [hl] at h1
  rw [hr] at h2
  have e1 := sideFits_blanks h1 (by
    intro a ha
    obtain ⟨x, hx, rfl⟩ := mem_spanCells ha
    exact hb.2 x (by simp [hx]))
  have e2 := sideFits_blanks h2 (by
    intro a ha
    obtain ⟨x, hx, rfl⟩ := mem_spanCells ha
    exact hb.2 x (by simp [hx]))
  intro x
  rcases Int.lt_trichotomy x c.pos with hlt | rfl | hgt
  · have := e1 (c.pos - 1 - x).toNat
    rw [Int.toNat_of_nonneg (by omega)] at this
    rw [← this]
    congr 1
    omega
  · rw [h0, hb.1]
  · have := e2 (x - c.pos - 1).toNat
    rw [Int.toNat_of_nonneg (by omega)] at this
    rw [← this]
    congr 1
    omega

end BB
