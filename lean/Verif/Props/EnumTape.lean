import Verif.Lemmas.EnumTapeRs
import Verif.Model.Prover

/-!
# C37 (offsets cover everything a stretch of steps depends on), C38 (signatures)
-/

namespace BB

/-! ## C37 -/

/-- **C37.**  Let `e` be the tracking tape made from `t` after any sequence of steps.  Take any
other tape `u` with the same scanned colour that starts, on each side, with the cells of the
recorded blocks (`offset` of them) followed by anything at all (`f`), or by nothing but zeros on a
side whose edge was touched.  Then the same sequence of steps on `u` sees the same scanned
colours and goes the same distances, ends on the same colour, and leaves on each side the same
cells in front as it leaves on `t`, followed by the untouched `f` (on `t`: by the untouched blocks
beyond the offset). -/
theorem C37_frame (t : Tape) (ht : t.Canonical) (ops : List (Bool × Color × Bool)) :
    let e := t.toEnum.steps ops
    ∃ m : Bool → List Color,
      (∀ s, half ((Rs.trace t ops).2.span s) = prepend (m s) (half ((t.span s).drop (e.offset s)))) ∧
      ∀ (u : Tape) (f : Bool → Nat → Color), u.Canonical → u.scan = t.scan →
        (∀ s, half (u.span s) = prepend (unroll ((t.span s).take (e.offset s))) (f s)) →
        (∀ s, e.edge s = true → f s = fun _ => 0) →
        (Rs.trace u ops).1 = (Rs.trace t ops).1 ∧
        (Rs.trace u ops).2.scan = (Rs.trace t ops).2.scan ∧
        ∀ s, half ((Rs.trace u ops).2.span s) = prepend (m s) (f s) := by
  intro e
  obtain ⟨m', h1, h2, h3⟩ := EnumTape.steps_frame ops t.toEnum
    (fun s => (tagSpan s (t.span s)).drop (e.offset s))
    (fun s => unroll ((t.span s).take (e.offset s)))
    (by rw [toEnum_forget]; exact ht)
    (by
      intro s
      refine ⟨(tagSpan s (t.span s)).take (e.offset s), 0, ?_, ?_, by simp⟩
      · rw [toEnum_span, List.take_append_drop]
      · rw [List.map_take, map_forget_tagSpan]; simp)
    (by
      intro s b rest hb
      have hlt : e.offset s < (tagSpan s (t.span s)).length := by
        by_contra hcon
        rw [List.drop_eq_nil_of_le (by omega)] at hb
        simp at hb
      rw [List.drop_eq_getElem_cons hlt] at hb
      simp only [List.cons.injEq] at hb
      refine ⟨e.offset s + 1, ?_, Nat.lt_succ_self _⟩
      rw [← hb.1]
      simp [tagSpan])
  rw [toEnum_forget] at h2 h3
  refine ⟨m', ?_, ?_⟩
  · intro s
    have := (h1 s).half
    rw [← ETape.forget_span, h2, List.map_drop, map_forget_tagSpan] at this
    exact this
  · intro u f hu hscan hh hf
    obtain ⟨k1, k2, k3⟩ := h3 u f hu hscan hh hf
    exact ⟨k1, by rw [k2, ← h2]; rfl, k3⟩

/-- Case for C37: five steps around the head of `1^3 2^2 [0] 3^4 4^1` look at one block on the
left and two on the right (skipping over the 3s), and at no edge. -/
example :
    let e := (Tape.toEnum ⟨[⟨2, 2⟩, ⟨1, 3⟩], 0, [⟨3, 4⟩, ⟨4, 1⟩, ⟨5, 1⟩]⟩).steps
      [(true, 6, false), (true, 7, true), (false, 0, false), (false, 1, false), (true, 2, false)]
    (e.lOffset, e.rOffset, e.lEdge, e.rEdge) = (0, 2, false, false) := by decide

example : Tape.Canonical ⟨[⟨2, 2⟩, ⟨1, 3⟩], 0, [⟨3, 4⟩, ⟨4, 1⟩, ⟨5, 1⟩]⟩ :=
  ⟨.cons _ _ _ _ _ (by decide) (by decide) (.last _ _ (by decide) (by decide)),
    .cons _ _ _ _ _ (by decide) (by decide)
      (.cons _ _ _ _ _ (by decide) (by decide) (.last _ _ (by decide) (by decide)))⟩

/-! ### The Rust version records the same -/

/-- **C37 (Rust).**  The Rust tracking tape records the same offsets and edges as the Python one,
so C37 holds of it as well. -/
theorem C37_rs_same (t : Tape) (ht : t.Canonical) (ops : List (Bool × Color × Bool)) :
    (∀ s, (Rs.esteps t.toEnum ops).offset s = (t.toEnum.steps ops).offset s) ∧
    (∀ s, (Rs.esteps t.toEnum ops).edge s = (t.toEnum.steps ops).edge s) := by
  have key : ∀ (ops : List (Bool × Color × Bool)) (e r : EnumTape), TapeRel e r →
      e.tape.forget.Canonical → TapeRel (e.steps ops) (Rs.esteps r ops) := by
    intro ops
    induction ops with
    | nil => intro e r h _; exact h
    | cons op ops ih =>
      intro e r h hc
      obtain ⟨shift, color, skip⟩ := op
      exact ih _ _ (h.step hc shift color skip)
        (by rw [e.step_forget hc]; exact hc.rsStep _ _ _)
  have := key ops t.toEnum t.toEnum ⟨fun _ => rfl, fun _ => rfl, rfl, fun s => by
    rw [List.forall₂_same]
    exact fun b _ => ⟨rfl, rfl, Or.inl rfl⟩⟩ (by rw [toEnum_forget]; exact ht)
  exact ⟨fun s => (this.off s).symm, fun s => (this.edge s).symm⟩

/-! ## C38 -/

/-- **C38 (signature).**  Two tapes have the same signature iff they have the same scanned colour
and, on each side, the same number of blocks, of the same colours in order, with the blocks of
count one in the same places. -/
theorem C38_signature (t u : Tape) :
    t.signature = u.signature ↔
      t.scan = u.scan ∧ ∀ s, (t.span s).length = (u.span s).length ∧
        ∀ (i : Nat) (b b' : Block), (t.span s)[i]? = some b → (u.span s)[i]? = some b' →
          b.color = b'.color ∧ (b.count = 1 ↔ b'.count = 1) := by
  have key : ∀ s s' : List Block, sigSpan s = sigSpan s' ↔ s.length = s'.length ∧
      ∀ (i : Nat) (b b' : Block), s[i]? = some b → s'[i]? = some b' →
          b.color = b'.color ∧ (b.count = 1 ↔ b'.count = 1) := by
    intro s s'
    constructor
    · intro h
      refine ⟨by simpa [sigSpan] using congrArg List.length h, ?_⟩
      intro i b b' h1 h2
      have := congrArg (·[i]?) h
      simp only [sigSpan, List.getElem?_map, h1, h2, Option.map_some, Option.some.injEq,
        Prod.mk.injEq] at this
      refine ⟨this.1, ?_⟩
      have h3 := this.2
      by_cases e : b.count = 1 <;> by_cases e' : b'.count = 1 <;> simp_all
    · rintro ⟨h1, h2⟩
      apply List.ext_getElem
      · simpa [sigSpan] using h1
      · intro i i1 i2
        simp only [sigSpan, List.length_map] at i1 i2
        have := h2 i s[i] s'[i] (by simp [i1]) (by simp [i2])
        simp only [sigSpan, List.getElem_map, Prod.mk.injEq]
        refine ⟨this.1, ?_⟩
        have h3 := this.2
        by_cases e : s[i].count = 1 <;> by_cases e' : s'[i].count = 1 <;> simp_all
  simp only [Tape.signature, Sig.mk.injEq, key]
  constructor
  · rintro ⟨h1, h2, h3⟩
    exact ⟨h1, fun s => by cases s <;> assumption⟩
  · rintro ⟨h1, h2⟩
    exact ⟨h1, h2 false, h2 true⟩

/-- The part of a signature on a given side. -/
def Sig.span (g : Sig) (side : Bool) : List SigItem := if side then g.rspan else g.lspan

/-- **C38 (compatibility).**  `sig_compatible(sig)` iff the scanned colours agree and on each side
the tape starts with blocks of the signature's colours. -/
theorem C38_compatible (t : Tape) (g : Sig) :
    t.sigCompatible g = true ↔
      t.scan = g.scan ∧ ∀ s, (g.span s).map Prod.fst <+: (t.span s).map Block.color := by
  have key : ∀ (s : List Block) (g : List SigItem), spanCompatible s g = true ↔
      g.map Prod.fst <+: s.map Block.color := by
    intro s g
    induction g generalizing s with
    | nil => simp [spanCompatible]
    | cons x g ih =>
      cases s with
      | nil => simp [spanCompatible]
      | cons b s =>
        have := ih s
        simp only [spanCompatible, List.length_cons, List.take_succ_cons, List.zip_cons_cons,
          List.all_cons, Bool.and_eq_true, decide_eq_true_eq, ge_iff_le, Nat.add_le_add_iff_right,
          beq_iff_eq, List.map_cons, List.cons_prefix_cons] at this ⊢
        rw [← this, eq_comm (a := b.color)]
        tauto
  simp only [Tape.sigCompatible, Bool.and_eq_true, beq_iff_eq, key, and_assoc]
  constructor
  · rintro ⟨h1, h2, h3⟩
    exact ⟨h1, fun s => by cases s <;> assumption⟩
  · rintro ⟨h1, h2⟩
    exact ⟨h1, h2 false, h2 true⟩

/-- **C38 (rule lookup).**  A stored rule is used for a tape iff it is the first one, stored for
this state and scanned colour, whose minimal signature is on each side a prefix of the tape's
signature, or all of it on a side whose edge the rule depends on. -/
theorem C38_lookup (pr : Prover) (q : State) (t : Tape) (rule : Rule) :
    pr.getRule q t.signature = some rule ↔
      ∃ stored before m after, pr.rules.lookup (q, t.scan) = some stored ∧
        stored = before ++ (m, rule) :: after ∧
        (let fits := fun (m : MinSig) => m.1.scan = t.scan ∧
          ∀ s, if (if s then m.2.2 else m.2.1) then m.1.span s = t.signature.span s
            else m.1.span s <+: t.signature.span s
        fits m ∧ ∀ e ∈ before, ¬ fits e.1) := by
  have hm : ∀ m : MinSig, Prover.sigMatches m t.signature = true ↔
      m.1.scan = t.scan ∧ ∀ s, if (if s then m.2.2 else m.2.1) then m.1.span s = t.signature.span s
            else m.1.span s <+: t.signature.span s := by
    intro m
    have side : ∀ (ex : Bool) (a b : List SigItem),
        (a == if ex then b else b.take a.length) = true ↔
          (if ex then a = b else a <+: b) := by
      intro ex a b
      cases ex
      · simp only [Bool.false_eq_true, if_false, beq_iff_eq]
        exact List.prefix_iff_eq_take.symm
      · simp
    simp only [Prover.sigMatches, Bool.and_eq_true, side, beq_iff_eq, and_assoc]
    constructor
    · rintro ⟨h1, h2, h3⟩
      exact ⟨h1, fun s => by cases s <;> assumption⟩
    · rintro ⟨h1, h2⟩
      exact ⟨h1, h2 false, h2 true⟩
  simp only [← hm]
  have hscan : t.signature.scan = t.scan := rfl
  simp only [Prover.getRule, hscan]
  cases hl : pr.rules.lookup (q, t.scan) with
  | none => simp
  | some stored =>
    simp only [Option.map_eq_some_iff, List.find?_eq_some_iff_append]
    constructor
    · rintro ⟨⟨m, r⟩, ⟨h1, before, after, h2, h3⟩, rfl⟩
      exact ⟨stored, before, m, after, rfl, h2, h1, fun e he => by simpa using h3 e he⟩
    · rintro ⟨stored', before, m, after, h1, h2, h3, h4⟩
      cases h1
      exact ⟨(m, rule), ⟨h3, before, after, h2, fun e he => by simpa using h4 e he⟩, rfl⟩

/-- Cases for C38. -/
example : Tape.signature ⟨[⟨1, 5⟩, ⟨2, 1⟩], 3, [⟨4, 7⟩]⟩ = Tape.signature ⟨[⟨1, 2⟩, ⟨2, 1⟩], 3, [⟨4, 9⟩]⟩
    ∧ Tape.signature ⟨[⟨1, 5⟩], 3, []⟩ ≠ Tape.signature ⟨[⟨1, 1⟩], 3, []⟩ := by decide

example : Tape.sigCompatible ⟨[⟨1, 5⟩, ⟨2, 1⟩], 3, [⟨4, 7⟩]⟩ ⟨3, [(1, true)], []⟩ = true ∧
    Tape.sigCompatible ⟨[⟨1, 5⟩, ⟨2, 1⟩], 3, [⟨4, 7⟩]⟩ ⟨3, [(2, true)], []⟩ = false := by decide

end BB
