import Verif.Lemmas.EnumTape
import Mathlib.Data.List.Forall2

/-! # Python and Rust tracking tapes -/

namespace BB

theorem map_forget_tagSpan (side : Bool) (s : List Block) :
    (tagSpan side s).map EBlock.forget = s := by
  apply List.ext_getElem
  · simp [tagSpan]
  · intro i h1 h2
    simp [tagSpan, EBlock.forget]

theorem toEnum_span (t : Tape) (side : Bool) : t.toEnum.span side = tagSpan side (t.span side) := by
  cases side <;> rfl

theorem toEnum_forget (t : Tape) : t.toEnum.tape.forget = t := by
  simp [Tape.toEnum, ETape.forget, map_forget_tagSpan]

/-- A sequence of steps of the Rust tracking tape. -/
def Rs.esteps (e : EnumTape) : List (Bool × Color × Bool) → EnumTape
  | [] => e
  | (shift, color, skip) :: ops => Rs.esteps (Rs.estep e shift color skip) ops

/-- Same block; same tag, or a tag the Rust version has dropped because it no longer matters. -/
def TagRel (off : Bool → Nat) (b b' : EBlock) : Prop :=
  b.color = b'.color ∧ b.count = b'.count ∧
    (b.tag = b'.tag ∨ (b'.tag = none ∧ ∀ s k, b.tag = some (s, k) → k ≤ off s))

theorem TagRel.mono {off off' : Bool → Nat} (h : ∀ s, off s ≤ off' s) {b b' : EBlock}
    (hb : TagRel off b b') : TagRel off' b b' :=
  ⟨hb.1, hb.2.1, hb.2.2.imp id fun ⟨h1, h2⟩ => ⟨h1, fun s k e => Nat.le_trans (h2 s k e) (h s)⟩⟩

/-- Two tracking tapes that agree in everything but tags that no longer matter. -/
structure TapeRel (e r : EnumTape) : Prop where
  off : ∀ s, e.offset s = r.offset s
  edge : ∀ s, e.edge s = r.edge s
  scan : e.tape.scan = r.tape.scan
  span : ∀ s, List.Forall₂ (TagRel e.offset) (e.span s) (r.span s)

theorem EnumTape.ext_sides {e r : EnumTape} (h1 : ∀ s, e.offset s = r.offset s)
    (h2 : ∀ s, e.edge s = r.edge s) : e.lOffset = r.lOffset ∧ e.rOffset = r.rOffset ∧
      e.lEdge = r.lEdge ∧ e.rEdge = r.rEdge :=
  ⟨h1 false, h1 true, h2 false, h2 true⟩

/-- Offsets after looking at a block. -/
theorem EnumTape.checkOffsets_offset (e : EnumTape) (b : EBlock) (s : Bool) :
    (e.checkOffsets b).offset s =
      match b.tag with
      | none => e.offset s
      | some (s', k) => if s = s' then max (e.offset s) k else e.offset s := by
  unfold checkOffsets
  cases hb : b.tag with
  | none => rfl
  | some x =>
    obtain ⟨s', k⟩ := x
    cases s <;> cases s' <;> simp only [offset, Bool.false_eq_true, if_false, if_true,
      reduceCtorEq] <;> split <;> first | rfl | omega | (simp only []; omega)

theorem TagRel.check {e r : EnumTape} {b b' : EBlock} (ho : ∀ s, e.offset s = r.offset s)
    (hb : TagRel e.offset b b') (s : Bool) :
    (e.checkOffsets b).offset s = (r.checkOffsets b').offset s := by
  rw [EnumTape.checkOffsets_offset, EnumTape.checkOffsets_offset, ← ho]
  rcases hb.2.2 with h | ⟨h1, h2⟩
  · rw [h]
  · rw [h1]
    cases hb : b.tag with
    | none => rfl
    | some x =>
      obtain ⟨s', k⟩ := x
      have := h2 s' k hb
      simp only
      split
      · rename_i h; subst h; omega
      · rfl

theorem TapeRel.checkPush {e r : EnumTape} (h : ∀ s, e.offset s = r.offset s)
    (h' : ∀ s, e.edge s = r.edge s) (color : Color) {p q : List EBlock}
    (hpq : List.Forall₂ (TagRel e.offset) p q) :
    (∀ s, (e.checkPush color p).offset s = (r.checkPush color q).offset s) ∧
    (∀ s, (e.checkPush color p).edge s = (r.checkPush color q).edge s) := by
  cases hpq with
  | nil => exact ⟨h, h'⟩
  | cons hb _ =>
    simp only [EnumTape.checkPush, hb.1]
    split
    · exact ⟨hb.check h, fun s => by rw [EnumTape.checkOffsets_edge, EnumTape.checkOffsets_edge, h']⟩
    · exact ⟨h, h'⟩

theorem EnumTape.touchEdge_edge' {e r : EnumTape} (h : ∀ s, e.edge s = r.edge s) (shift s : Bool) :
    (e.touchEdge shift).edge s = (r.touchEdge shift).edge s := by
  have := h false
  have := h true
  cases shift <;> cases s <;> simp_all [touchEdge, edge]

theorem TapeRel.checkPull {e r : EnumTape} (h : ∀ s, e.offset s = r.offset s)
    (h' : ∀ s, e.edge s = r.edge s) (hs : e.tape.scan = r.tape.scan) (shift skip : Bool)
    {p q : List EBlock} (hpq : List.Forall₂ (TagRel e.offset) p q) :
    (∀ s, (e.checkPull shift skip p).offset s = (r.checkPull shift skip q).offset s) ∧
    (∀ s, (e.checkPull shift skip p).edge s = (r.checkPull shift skip q).edge s) := by
  cases hpq with
  | nil =>
    simp only [EnumTape.checkPull, EnumTape.touchEdge_offset]
    exact ⟨h, EnumTape.touchEdge_edge' h' _⟩
  | @cons b b' p q hb hpq =>
    have he : ∀ s, (e.checkOffsets b).edge s = (r.checkOffsets b').edge s := fun s => by
      rw [EnumTape.checkOffsets_edge, EnumTape.checkOffsets_edge, h']
    simp only [EnumTape.checkPull, EnumTape.checkOffsets_tape, hb.1, hs]
    split
    · cases hpq with
      | nil =>
        simp only [EnumTape.touchEdge_offset]
        exact ⟨hb.check h, EnumTape.touchEdge_edge' he _⟩
      | cons hb2 _ =>
        refine ⟨(hb2.mono (EnumTape.checkOffsets_mono e b)).check (hb.check h), fun s => ?_⟩
        simp only [EnumTape.checkOffsets_edge, h']
    · exact ⟨hb.check h, he⟩

theorem etakeNext_rel {off : Bool → Nat} {p q : List EBlock}
    (h : List.Forall₂ (TagRel off) p q) :
    (etakeNext p).1 = (etakeNext q).1 ∧
    List.Forall₂ (TagRel off) (etakeNext p).2 (etakeNext q).2 := by
  cases h with
  | nil => exact ⟨rfl, .nil⟩
  | cons hb h =>
    simp only [etakeNext, hb.2.1]
    split
    · exact ⟨hb.1, .cons ⟨hb.1, rfl, hb.2.2⟩ h⟩
    · exact ⟨hb.1, h⟩

theorem epull_rel {off : Bool → Nat} {p q : List EBlock} (h : List.Forall₂ (TagRel off) p q)
    (scan : Color) (skip : Bool) :
    (Rs.epull p scan skip).1 = (Rs.epull q scan skip).1 ∧
    (Rs.epull p scan skip).2.1 = (Rs.epull q scan skip).2.1 ∧
    List.Forall₂ (TagRel off) (Rs.epull p scan skip).2.2 (Rs.epull q scan skip).2.2 := by
  cases h with
  | nil => exact ⟨rfl, rfl, .nil⟩
  | @cons b b' p q hb h =>
    by_cases hk : (skip && b.color == scan) = true
    · have hk' := hk
      rw [hb.1] at hk'
      rw [epull_skip hk, epull_skip hk', hb.2.1]
      exact ⟨(etakeNext_rel h).1, rfl, (etakeNext_rel h).2⟩
    · have hk' := hk
      rw [hb.1] at hk'
      rw [epull_noskip (by intro x r e; cases e; exact hk),
        epull_noskip (by intro x r e; cases e; exact hk')]
      exact ⟨(etakeNext_rel (.cons hb h)).1, rfl, (etakeNext_rel (.cons hb h)).2⟩

/-- The tag of Python's reused block was at the front of the side pulled from, or next to it. -/
theorem stepSpans_tag (pull push : List EBlock) (scan color : Color) (skip : Bool)
    (hc : ∀ b ∈ pull, 1 ≤ b.count) :
    ∃ tag, (EnumTape.stepSpans pull push scan color skip =
      ((Rs.epull pull scan skip).2.2, epushTag push color (Rs.epull pull scan skip).2.1 tag,
        (Rs.epull pull scan skip).1)) ∧
      (tag = none ∨ ∃ b rest, pull = b :: rest ∧ tag = b.tag) := by
  have aux : ∀ (b : EBlock), 1 ≤ b.count → (b.count != 1) = decide (b.count > 1) := by
    intro b hb
    by_cases h : b.count = 1
    · simp [h]
    · have : b.count > 1 := by omega
      simp [h, this]
  cases pull with
  | nil =>
    exact ⟨none, by cases push <;> simp [EnumTape.stepSpans, Rs.epull, epushTag], Or.inl rfl⟩
  | cons b rest =>
    have hb := aux b (hc b (by simp))
    by_cases h : (skip && b.color == scan) = true
    · refine ⟨b.tag, ?_, Or.inr ⟨b, rest, rfl, rfl⟩⟩
      cases rest with
      | nil => cases push <;> simp [EnumTape.stepSpans, Rs.epull, epushTag, h, Nat.add_comm]
      | cons b' rest' =>
        have hb' := aux b' (hc b' (by simp))
        by_cases h1 : b'.count > 1 <;> cases push <;>
          simp [EnumTape.stepSpans, Rs.epull, epushTag, h, hb', h1, Nat.add_comm]
    · simp only [Bool.not_eq_true] at h
      by_cases h1 : b.count > 1
      · refine ⟨none, ?_, Or.inl rfl⟩
        cases push <;> simp [EnumTape.stepSpans, Rs.epull, epushTag, h, hb, h1]
      · refine ⟨b.tag, ?_, Or.inr ⟨b, rest, rfl, rfl⟩⟩
        cases push <;> simp [EnumTape.stepSpans, Rs.epull, epushTag, h, hb, h1]

theorem epushTag_rel {off : Bool → Nat} {p q : List EBlock} (h : List.Forall₂ (TagRel off) p q)
    (color : Color) (n : Nat) (tag : Option Index)
    (ht : ∀ s k, tag = some (s, k) → k ≤ off s) :
    List.Forall₂ (TagRel off) (epushTag p color n tag) (Rs.epush q color n) := by
  cases h with
  | nil =>
    simp only [epushTag, Rs.epush]
    split
    · exact .cons ⟨rfl, rfl, Or.inr ⟨rfl, ht⟩⟩ .nil
    · exact .nil
  | cons hb h =>
    simp only [epushTag, Rs.epush, hb.1]
    split
    · exact .cons ⟨rfl, by simp [hb.2.1], hb.2.2⟩ h
    · exact .cons ⟨rfl, rfl, Or.inr ⟨rfl, ht⟩⟩ (.cons hb h)

theorem TapeRel.step {e r : EnumTape} (h : TapeRel e r) (hcan : e.tape.forget.Canonical)
    (shift : Bool) (color : Color) (skip : Bool) :
    TapeRel (e.step shift color skip) (Rs.estep r shift color skip) := by
  have hc : ∀ b ∈ e.span shift, 1 ≤ b.count := by
    intro b hb
    exact (hcan.span shift).posCounts b.forget (by
      rw [ETape.forget_span]; exact List.mem_map_of_mem hb)
  obtain ⟨a1, a2, a3, a4, _, _⟩ := e.checkPull_spec shift skip (e.span shift)
  obtain ⟨b1, b2, b3, b4⟩ := (e.checkPull shift skip (e.span shift)).checkPush_spec color
    (e.span (!shift))
  obtain ⟨c1, c2⟩ := TapeRel.checkPull h.off h.edge h.scan shift skip (h.span shift)
  obtain ⟨d1, d2⟩ := TapeRel.checkPush c1 c2 color
    ((h.span (!shift)).imp (fun _ _ => TagRel.mono a2))
  rw [← EnumTape.check_eq, ← EnumTape.check_eq] at d1 d2
  have htape : (e.check shift color skip).tape = e.tape := by
    rw [EnumTape.check_eq, b1, a1]
  have htape' : (r.check shift color skip).tape = r.tape := by
    rw [EnumTape.check_eq, (EnumTape.checkPush_spec _ _ _).1, (EnumTape.checkPull_spec _ _ _ _).1]
  rw [← EnumTape.check_eq] at b2
  have hmono : ∀ s, e.offset s ≤ (e.check shift color skip).offset s :=
    fun s => Nat.le_trans (a2 s) (b2 s)
  have hrel : ∀ s, List.Forall₂ (TagRel (e.check shift color skip).offset) (e.span s) (r.span s) :=
    fun s => (h.span s).imp (fun _ _ => TagRel.mono hmono)
  obtain ⟨tag, ht, htag⟩ := stepSpans_tag (e.span shift) (e.span (!shift)) e.tape.scan color skip hc
  have htag' : ∀ s k, tag = some (s, k) → k ≤ (e.check shift color skip).offset s := by
    intro s k hk
    rcases htag with h0 | ⟨b, rest, hb, hb'⟩
    · rw [h0] at hk; simp at hk
    · exact Nat.le_trans (a4 b rest s k hb (by rw [← hb', hk])) (b2 s)
  have hp := epull_rel (hrel shift) e.tape.scan skip
  have hq := epushTag_rel (hrel (!shift)) color (Rs.epull (e.span shift) e.tape.scan skip).2.1 tag
    htag'
  cases shift
  · simp only [EnumTape.span, Bool.false_eq_true, if_false, Bool.not_false, if_true] at ht hp hq
    have he : e.step false color skip = { e.check false color skip with
        tape := ⟨(Rs.epull e.tape.lspan e.tape.scan skip).2.2,
          (Rs.epull e.tape.lspan e.tape.scan skip).1,
          epushTag e.tape.rspan color (Rs.epull e.tape.lspan e.tape.scan skip).2.1 tag⟩ } := by
      simp only [EnumTape.step, htape, Bool.false_eq_true, if_false, ht]
    have hr : Rs.estep r false color skip = { r.check false color skip with
        tape := ⟨(Rs.epull r.tape.lspan e.tape.scan skip).2.2,
          (Rs.epull r.tape.lspan e.tape.scan skip).1,
          Rs.epush r.tape.rspan color (Rs.epull r.tape.lspan e.tape.scan skip).2.1⟩ } := by
      simp only [Rs.estep, htape', Bool.false_eq_true, if_false, h.scan]
    rw [he, hr]
    refine ⟨fun s => d1 s, fun s => d2 s, hp.1, ?_⟩
    intro s
    cases s
    · exact hp.2.2
    · rw [hp.2.1] at hq ⊢; exact hq
  · simp only [EnumTape.span, Bool.not_true, Bool.false_eq_true, if_false, if_true] at ht hp hq
    have he : e.step true color skip = { e.check true color skip with
        tape := ⟨epushTag e.tape.lspan color (Rs.epull e.tape.rspan e.tape.scan skip).2.1 tag,
          (Rs.epull e.tape.rspan e.tape.scan skip).1,
          (Rs.epull e.tape.rspan e.tape.scan skip).2.2⟩ } := by
      simp only [EnumTape.step, htape, if_true, ht]
    have hr : Rs.estep r true color skip = { r.check true color skip with
        tape := ⟨Rs.epush r.tape.lspan color (Rs.epull r.tape.rspan e.tape.scan skip).2.1,
          (Rs.epull r.tape.rspan e.tape.scan skip).1,
          (Rs.epull r.tape.rspan e.tape.scan skip).2.2⟩ } := by
      simp only [Rs.estep, htape', if_true, h.scan]
    rw [he, hr]
    refine ⟨fun s => d1 s, fun s => d2 s, hp.1, ?_⟩
    intro s
    cases s
    · rw [hp.2.1] at hq ⊢; exact hq
    · exact hp.2.2

end BB
