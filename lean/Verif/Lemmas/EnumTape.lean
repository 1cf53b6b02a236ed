import Verif.Lemmas.RulesRs
import Verif.Model.EnumTape
import Verif.Lemmas.Tape

/-! # Frame lemmas for offset-tracking tapes -/

namespace BB

/-- A list of cells followed by a half tape. -/
def prepend (m : List Color) (f : Nat → Color) : Nat → Color := m.foldr hcons f

@[simp] theorem prepend_nil (f) : prepend [] f = f := rfl
@[simp] theorem prepend_cons (c m f) : prepend (c :: m) f = hcons c (prepend m f) := rfl

theorem prepend_append (m k : List Color) (f) : prepend (m ++ k) f = prepend m (prepend k f) := by
  simp [prepend, List.foldr_append]

theorem prepend_replicate (c : Color) (n : Nat) (f) :
    prepend (List.replicate n c) f = hrep c n f := by
  induction n with
  | zero => rfl
  | succ n ih => simp [List.replicate_succ, hrep, ih]

theorem half_append (s u : List Block) : half (s ++ u) = prepend (unroll s) (half u) := by
  induction s with
  | nil => rfl
  | cons b s ih =>
    rw [List.cons_append, half_cons, ih, unroll_cons, prepend_append, prepend_replicate]

theorem half_eq_prepend (s : List Block) : half s = prepend (unroll s) (fun _ => 0) := by
  have := half_append s []
  simpa using this

/-- A canonical span that starts with a complete run has it as its first block. -/
theorem Canon.of_hrep {s : List Block} (hs : Canon s) {c : Color} {n : Nat} {g : Nat → Color}
    (hn : 1 ≤ n) (h : half s = hrep c n g) (hg : g 0 ≠ c) :
    ∃ s', s = ⟨c, n⟩ :: s' ∧ half s' = g := by
  cases s with
  | nil =>
    exfalso
    have h0 := congrFun h 0
    have h1 := congrFun h n
    simp only [half_nil, hrep_apply] at h0 h1
    rw [if_pos (by omega)] at h0
    simp at h1
    exact hg (by rw [← h0, ← h1])
  | cons b s' =>
    obtain ⟨d, m⟩ := b
    have hm : 1 ≤ m := hs.posCounts ⟨d, m⟩ (by simp)
    have hcd : d = c := by
      have := congrFun h 0
      rwa [half_cons, hrep_apply, hrep_apply, if_pos (by exact hm), if_pos (by exact hn)] at this
    subst hcd
    have hnm : m = n := by
      rcases Nat.lt_trichotomy m n with hlt | heq | hlt
      · have h1 := hs.half_head
        rw [h, hrep_apply, if_pos hlt] at h1
        exact absurd rfl h1
      · exact heq
      · have h1 := congrFun h n
        rw [half_cons, hrep_apply, hrep_apply, if_pos (by exact hlt), if_neg (by simp)] at h1
        simp only [Nat.sub_self] at h1
        exact absurd h1.symm hg
    subst hnm
    refine ⟨s', rfl, ?_⟩
    funext i
    have := congrFun h (i + m)
    rw [half_cons, hrep_apply, hrep_apply, if_neg (by simp), if_neg (by simp)] at this
    simpa using this

/-! ## The tagged step is the plain step -/

theorem forget_pushes (push : List EBlock) (c : Color) (n : Nat) :
    (Rs.epush push c n).map EBlock.forget = Rs.push (push.map EBlock.forget) c n := by
  cases push with
  | nil => simp only [Rs.epush, Rs.push, List.map_nil]; split <;> rfl
  | cons b rest =>
    simp only [Rs.epush, Rs.push, List.map_cons, EBlock.forget]
    split <;> simp [EBlock.forget]

theorem forget_pull (s : List EBlock) (scan : Color) (skip : Bool) :
    Rs.pull (s.map EBlock.forget) scan skip =
      ((Rs.epull s scan skip).1, (Rs.epull s scan skip).2.1,
        (Rs.epull s scan skip).2.2.map EBlock.forget) := by
  have next : ∀ (s : List EBlock) (n : Nat),
      (match s.map EBlock.forget with
      | [] => ((0 : Color), n, ([] : List Block))
      | b :: rest =>
        if b.count > 1 then (b.color, n, { b with count := b.count - 1 } :: rest)
        else (b.color, n, rest)) =
      let r := (match s with
      | [] => ((0 : Color), n, ([] : List EBlock))
      | b :: rest =>
        if b.count > 1 then (b.color, n, { b with count := b.count - 1 } :: rest)
        else (b.color, n, rest))
      (r.1, r.2.1, r.2.2.map EBlock.forget) := by
    intro s n
    cases s with
    | nil => rfl
    | cons b rest =>
      by_cases h : b.count > 1 <;> simp [EBlock.forget, h]
  cases s with
  | nil => rfl
  | cons b rest =>
    by_cases h : (skip && b.color == scan) = true
    · have h' : (skip && b.forget.color == scan) = true := h
      simp only [List.map_cons, Rs.pull, Rs.epull, h, h', if_true]
      exact next rest _
    · have h' : ¬ (skip && b.forget.color == scan) = true := h
      simp only [List.map_cons, Rs.pull, Rs.epull, h, h']
      exact next (b :: rest) _

/-- Python's `push_block` only matters for the tag. -/
def epushTag (push : List EBlock) (color : Color) (n : Nat) (tag : Option Index) : List EBlock :=
  match push with
  | [] => if color != 0 then [⟨color, n, tag⟩] else []
  | b :: rest =>
    if b.color == color then { b with count := b.count + n } :: rest
    else ⟨color, n, tag⟩ :: b :: rest

theorem stepSpans_eq (pull push : List EBlock) (scan color : Color) (skip : Bool)
    (hc : ∀ b ∈ pull, 1 ≤ b.count) :
    ∃ tag, EnumTape.stepSpans pull push scan color skip =
      ((Rs.epull pull scan skip).2.2, epushTag push color (Rs.epull pull scan skip).2.1 tag,
        (Rs.epull pull scan skip).1) := by
  have aux : ∀ (b : EBlock), 1 ≤ b.count → (b.count != 1) = decide (b.count > 1) := by
    intro b hb
    by_cases h : b.count = 1
    · simp [h]
    · have : b.count > 1 := by omega
      simp [h, this]
  cases pull with
  | nil => exact ⟨none, by cases push <;> simp [EnumTape.stepSpans, Rs.epull, epushTag]⟩
  | cons b rest =>
    have hb := aux b (hc b (by simp))
    by_cases h : (skip && b.color == scan) = true
    · refine ⟨b.tag, ?_⟩
      cases rest with
      | nil => cases push <;> simp [EnumTape.stepSpans, Rs.epull, epushTag, h, Nat.add_comm]
      | cons b' rest' =>
        have hb' := aux b' (hc b' (by simp))
        by_cases h1 : b'.count > 1 <;> cases push <;>
          simp [EnumTape.stepSpans, Rs.epull, epushTag, h, hb', h1, Nat.add_comm]
    · simp only [Bool.not_eq_true] at h
      by_cases h1 : b.count > 1
      · refine ⟨none, ?_⟩
        cases push <;> simp [EnumTape.stepSpans, Rs.epull, epushTag, h, hb, h1]
      · refine ⟨b.tag, ?_⟩
        cases push <;> simp [EnumTape.stepSpans, Rs.epull, epushTag, h, hb, h1]

theorem forget_epushTag (push : List EBlock) (c : Color) (n : Nat) (tag) :
    (epushTag push c n tag).map EBlock.forget = Rs.push (push.map EBlock.forget) c n := by
  cases push with
  | nil => simp only [epushTag, Rs.push, List.map_nil]; split <;> rfl
  | cons b rest =>
    simp only [epushTag, Rs.push, List.map_cons, EBlock.forget]
    split <;> simp [EBlock.forget]

/-! ## One side -/

/-- `s` is some blocks followed by the untouched blocks `d`; the blocks in front (with zeros if
nothing is left behind them) are the cells `m`. -/
def Side (s d : List EBlock) (m : List Color) : Prop :=
  ∃ p z, s = p ++ d ∧ m = unroll (p.map EBlock.forget) ++ List.replicate z 0 ∧ (0 < z → d = [])

theorem Side.half {s d : List EBlock} {m : List Color} (h : Side s d m) :
    half (s.map EBlock.forget) = prepend m (half (d.map EBlock.forget)) := by
  obtain ⟨p, z, rfl, rfl, hz⟩ := h
  rw [List.map_append, half_append, prepend_append]
  by_cases h : 0 < z
  · rw [hz h]; simp [prepend_replicate, hrep_zero]
  · have : z = 0 := by omega
    subst this; rfl

theorem Side.push {s d : List EBlock} {m : List Color} (h : Side s d m) (c : Color) (n : Nat)
    (tag : Option Index) (ht : ∀ b rest, s = b :: rest → b.color = c → s ≠ d) :
    Side (epushTag s c n tag) d (List.replicate n c ++ m) := by
  obtain ⟨p, z, rfl, rfl, hz⟩ := h
  cases p with
  | nil =>
    cases hd : d with
    | nil =>
      simp only [List.nil_append, epushTag]
      by_cases hc : c = 0
      · subst hc
        refine ⟨[], n + z, ?_, ?_, fun _ => rfl⟩
        · simp
        · simp [List.replicate_append_replicate]
      · refine ⟨[⟨c, n, tag⟩], z, ?_, ?_, fun _ => rfl⟩
        · simp [hc]
        · simp [EBlock.forget]
    | cons b rest =>
      have hne : ¬ b.color = c := by
        intro e
        exact ht b rest (by simp [hd]) e (by simp)
      refine ⟨[⟨c, n, tag⟩], z, ?_, ?_, ?_⟩
      · simp [epushTag, hne]
      · simp [EBlock.forget]
      · intro h; have := hz h; simp [hd] at this
  | cons b p =>
    by_cases hc : b.color = c
    · refine ⟨{ b with count := b.count + n } :: p, z, ?_, ?_, hz⟩
      · simp [epushTag, hc]
      · subst hc
        simp [EBlock.forget, ← List.append_assoc,
          List.replicate_append_replicate, Nat.add_comm]
    · refine ⟨⟨c, n, tag⟩ :: b :: p, z, ?_, ?_, hz⟩
      · simp [epushTag, hc]
      · simp [EBlock.forget]

/-- Second half of `epull`. -/
def etakeNext : List EBlock → Color × List EBlock
  | [] => (0, [])
  | b :: rest =>
    if b.count > 1 then (b.color, { b with count := b.count - 1 } :: rest)
    else (b.color, rest)

theorem epull_skip {b : EBlock} {rest : List EBlock} {scan : Color} {skip : Bool}
    (h : (skip && b.color == scan) = true) :
    Rs.epull (b :: rest) scan skip
      = ((etakeNext rest).1, 1 + b.count, (etakeNext rest).2) := by
  simp only [Rs.epull, h, if_true]
  cases rest with
  | nil => rfl
  | cons b' r => by_cases h' : b'.count > 1 <;> simp [etakeNext, h']

theorem epull_noskip {s : List EBlock} {scan : Color} {skip : Bool}
    (h : ∀ b rest, s = b :: rest → ¬ (skip && b.color == scan) = true) :
    Rs.epull s scan skip = ((etakeNext s).1, 1, (etakeNext s).2) := by
  cases s with
  | nil => rfl
  | cons b rest =>
    simp only [Rs.epull, h b rest rfl]
    by_cases h' : b.count > 1 <;> simp [etakeNext, h']

/-- Taking one cell off a block that is in front of the untouched ones. -/
theorem side_takeNext (b : EBlock) (p d : List EBlock) (z : Nat) (hz : 0 < z → d = [])
    (hb : 1 ≤ b.count) :
    ∃ m', Side (etakeNext (b :: p ++ d)).2 d m' ∧ (etakeNext (b :: p ++ d)).1 = b.color ∧
      unroll ((b :: p).map EBlock.forget) ++ List.replicate z 0 = b.color :: m' := by
  obtain ⟨c, n, tag⟩ := b
  obtain ⟨k, rfl⟩ : ∃ k, n = k + 1 := ⟨n - 1, by simp at hb; omega⟩
  cases k with
  | zero =>
    refine ⟨unroll (p.map EBlock.forget) ++ List.replicate z 0, ⟨p, z, ?_, rfl, hz⟩, ?_, ?_⟩
    · simp [etakeNext]
    · simp [etakeNext]
    · simp [EBlock.forget]
  | succ k =>
    refine ⟨unroll ((⟨c, k + 1, tag⟩ :: p : List EBlock).map EBlock.forget)
      ++ List.replicate z 0, ⟨⟨c, k + 1, tag⟩ :: p, z, ?_, rfl, hz⟩, ?_, ?_⟩
    · simp [etakeNext]
    · simp [etakeNext]
    · simp [EBlock.forget, List.replicate_succ]

/-- `half_takeNext` for a half tape with a known first cell. -/
theorem takeNext_cons {s : List Block} (hs : Canon s) {c : Color} {g : Nat → Color}
    (h : half s = hcons c g) : (Rs.takeNext s).1 = c ∧ half (Rs.takeNext s).2 = g := by
  have := Rs.half_takeNext s hs.posCounts
  rw [h] at this
  exact this

theorem Side.pull {s d : List EBlock} {m : List Color} (h : Side s d m) (scan : Color)
    (skip : Bool) (hcan : Canon (s.map EBlock.forget))
    (hnear : s ≠ [] → s ≠ d)
    (hnext : ∀ b rest, s = b :: rest → (skip && b.color == scan) = true → rest ≠ [] → rest ≠ d) :
    ∃ m', Side (Rs.epull s scan skip).2.2 d m' ∧
      ∀ (u : List Block) (f : Nat → Color), Canon u → BB.half u = prepend m f →
        ((s = [] ∨ ∃ b, s = [b] ∧ (skip && b.color == scan) = true) → f = fun _ => 0) →
        (Rs.pull u scan skip).1 = (Rs.epull s scan skip).1 ∧
        (Rs.pull u scan skip).2.1 = (Rs.epull s scan skip).2.1 ∧
        BB.half (Rs.pull u scan skip).2.2 = prepend m' f := by
  obtain ⟨p, z, rfl, rfl, hz⟩ := h
  cases p with
  | nil =>
    cases d with
    | cons b rest => exact absurd rfl (hnear (by simp))
    | nil =>
      refine ⟨[], ⟨[], 0, rfl, rfl, by simp⟩, ?_⟩
      intro u f hu hm hf
      have hf := hf (Or.inl rfl)
      subst hf
      have : u = [] := hu.eq_nil_of_half (fun i => by
        rw [hm]; simp [prepend_replicate, hrep_zero])
      subst this
      exact ⟨rfl, rfl, by simp [Rs.pull]⟩
  | cons b p =>
    have hbc : 1 ≤ b.count := hcan.posCounts b.forget (by simp)
    by_cases hk : (skip && b.color == scan) = true
    · have hbs : b.color = scan := by simp at hk; exact hk.2
      have hsk : skip = true := by simp at hk; exact hk.1
      rw [List.cons_append, epull_skip hk]
      cases p with
      | nil =>
        cases d with
        | cons b' rest =>
          exact absurd rfl (hnext b (b' :: rest) rfl hk (by simp))
        | nil =>
          refine ⟨[], ⟨[], 0, rfl, rfl, by simp⟩, ?_⟩
          intro u f hu hm hf
          have hf := hf (Or.inr ⟨b, rfl, hk⟩)
          subst hf
          have hu' : u = [b.forget] := by
            apply hu.half_inj hcan
            rw [hm]
            simp only [List.append_nil, List.map_cons, List.map_nil, unroll_cons, unroll_nil,
              prepend_append, prepend_replicate, hrep_zero, half_cons, half_nil]
          subst hu'
          have h' : (skip && b.forget.color == scan) = true := hk
          rw [Rs.pull_skip h']
          exact ⟨rfl, rfl, by simp [Rs.takeNext]⟩
      | cons b' p =>
        have hcan' : Canon ((b'.forget) :: (p ++ d).map EBlock.forget) := by
          simpa using hcan.tail
        have hb' : 1 ≤ b'.count := hcan'.posCounts b'.forget (by simp)
        have hne : b.color ≠ b'.color := by
          have : Canon (b.forget :: b'.forget :: (p ++ d).map EBlock.forget) := by
            simpa using hcan
          cases this with
          | cons _ _ _ _ _ h => exact h
        obtain ⟨m', h1, h2, h3⟩ := side_takeNext b' p d z hz hb'
        refine ⟨m', h1, ?_⟩
        intro u f hu hm _
        have hm' : BB.half u = hrep b.color b.count (hcons b'.color (prepend m' f)) := by
          rw [hm, List.map_cons, unroll_cons, List.append_assoc, h3, prepend_append]
          simp only [EBlock.forget, prepend_replicate, prepend_cons]
        obtain ⟨u', rfl, hu'⟩ := hu.of_hrep hbc hm' (by simpa using hne.symm)
        have h' : (skip && (⟨b.color, b.count⟩ : Block).color == scan) = true := hk
        rw [Rs.pull_skip h']
        have := takeNext_cons hu.tail hu'
        exact ⟨by rw [this.1]; exact h2.symm, rfl, this.2⟩
    · have hns : ∀ b' rest, b :: p ++ d = b' :: rest → ¬ (skip && b'.color == scan) = true := by
        intro b' rest e
        simp only [List.cons_append, List.cons.injEq] at e
        rw [← e.1]; exact hk
      rw [epull_noskip hns]
      obtain ⟨m', h1, h2, h3⟩ := side_takeNext b p d z hz hbc
      refine ⟨m', h1, ?_⟩
      intro u f hu hm _
      have hm' : BB.half u = hcons b.color (prepend m' f) := by
        rw [hm, h3]; rfl
      have hns' : ∀ b' rest, u = b' :: rest → ¬ (skip && b'.color == scan) = true := by
        intro b' rest e
        subst e
        have hb' : 1 ≤ b'.count := hu.posCounts b' (by simp)
        have := congrFun hm' 0
        rw [half_cons, hrep_apply, if_pos (by omega)] at this
        simp only [hcons_zero] at this
        rw [this]; exact hk
      rw [Rs.pull_noskip hns']
      have := takeNext_cons hu hm'
      exact ⟨by rw [this.1]; exact h2.symm, rfl, this.2⟩

/-! ## What the checks record -/

namespace EnumTape

def offset (e : EnumTape) (side : Bool) : Nat := if side then e.rOffset else e.lOffset
def edge (e : EnumTape) (side : Bool) : Bool := if side then e.rEdge else e.lEdge
def span (e : EnumTape) (side : Bool) : List EBlock := if side then e.tape.rspan else e.tape.lspan

theorem checkOffsets_tape (e : EnumTape) (b : EBlock) : (e.checkOffsets b).tape = e.tape := by
  unfold checkOffsets; split
  · rfl
  · split <;> split <;> rfl

theorem checkOffsets_edge (e : EnumTape) (b : EBlock) (s : Bool) :
    (e.checkOffsets b).edge s = e.edge s := by
  unfold checkOffsets; split
  · rfl
  · split <;> split <;> rfl

theorem checkOffsets_mono (e : EnumTape) (b : EBlock) (s : Bool) :
    e.offset s ≤ (e.checkOffsets b).offset s := by
  unfold checkOffsets; split
  · exact Nat.le_refl _
  · split <;> split <;> cases s <;> simp [offset] <;> omega

theorem checkOffsets_ge (e : EnumTape) (b : EBlock) (s : Bool) (k : Nat)
    (h : b.tag = some (s, k)) : k ≤ (e.checkOffsets b).offset s := by
  unfold checkOffsets
  rw [h]
  cases s
  · simp only [Bool.false_eq_true, if_false]
    split <;> simp [offset]
    omega
  · simp only [if_true]
    split <;> simp [offset]
    omega

theorem touchEdge_tape (e : EnumTape) (s : Bool) : (e.touchEdge s).tape = e.tape := by
  cases s <;> rfl

theorem touchEdge_offset (e : EnumTape) (s s' : Bool) : (e.touchEdge s).offset s' = e.offset s' := by
  cases s <;> cases s' <;> rfl

theorem touchEdge_edge (e : EnumTape) (s : Bool) : (e.touchEdge s).edge s = true := by
  cases s <;> rfl

theorem touchEdge_mono (e : EnumTape) (s s' : Bool) (h : e.edge s' = true) :
    (e.touchEdge s).edge s' = true := by
  cases s <;> cases s' <;> first | rfl | exact h

/-- First part of `check`: the side pulled from. -/
def checkPull (e : EnumTape) (shift : Bool) (skip : Bool) (pull : List EBlock) : EnumTape :=
  match pull with
  | [] => e.touchEdge shift
  | near :: rest =>
    let t := e.checkOffsets near
    if skip && near.color == t.tape.scan then
      match rest with
      | [] => t.touchEdge shift
      | next :: _ => t.checkOffsets next
    else t

/-- Second part of `check`: the side pushed to. -/
def checkPush (e : EnumTape) (color : Color) (push : List EBlock) : EnumTape :=
  match push with
  | [] => e
  | opp :: _ => if color == opp.color then e.checkOffsets opp else e

theorem check_eq (e : EnumTape) (shift : Bool) (color : Color) (skip : Bool) :
    e.check shift color skip =
      (e.checkPull shift skip (e.span shift)).checkPush color (e.span (!shift)) := by
  cases shift <;> rfl

theorem checkPush_spec (e : EnumTape) (color : Color) (push : List EBlock) :
    (e.checkPush color push).tape = e.tape ∧
    (∀ s, e.offset s ≤ (e.checkPush color push).offset s) ∧
    (∀ s, (e.checkPush color push).edge s = e.edge s) ∧
    (∀ b rest s k, push = b :: rest → b.color = color → b.tag = some (s, k) →
      k ≤ (e.checkPush color push).offset s) := by
  cases push with
  | nil => exact ⟨rfl, fun _ => Nat.le_refl _, fun _ => rfl, by simp⟩
  | cons opp rest =>
    simp only [checkPush]
    by_cases h : (color == opp.color) = true
    · simp only [h, if_true]
      refine ⟨checkOffsets_tape _ _, checkOffsets_mono _ _, checkOffsets_edge _ _, ?_⟩
      intro b r s k he _ ht
      cases he
      exact checkOffsets_ge _ _ _ _ ht
    · simp only [h]
      refine ⟨rfl, fun _ => Nat.le_refl _, fun _ => rfl, ?_⟩
      intro b r s k he hc _
      cases he
      simp [hc] at h

theorem checkPull_spec (e : EnumTape) (shift skip : Bool) (pull : List EBlock) :
    (e.checkPull shift skip pull).tape = e.tape ∧
    (∀ s, e.offset s ≤ (e.checkPull shift skip pull).offset s) ∧
    (∀ s, e.edge s = true → (e.checkPull shift skip pull).edge s = true) ∧
    (∀ b rest s k, pull = b :: rest → b.tag = some (s, k) →
      k ≤ (e.checkPull shift skip pull).offset s) ∧
    (∀ b b' rest s k, pull = b :: b' :: rest → (skip && b.color == e.tape.scan) = true →
      b'.tag = some (s, k) → k ≤ (e.checkPull shift skip pull).offset s) ∧
    ((pull = [] ∨ ∃ b, pull = [b] ∧ (skip && b.color == e.tape.scan) = true) →
      (e.checkPull shift skip pull).edge shift = true) := by
  cases pull with
  | nil =>
    refine ⟨touchEdge_tape _ _, fun s => ?_, fun s => touchEdge_mono _ _ _, by simp, by simp,
      fun _ => touchEdge_edge _ _⟩
    simp only [checkPull, touchEdge_offset]
    exact Nat.le_refl _
  | cons near rest =>
    have hscan : (e.checkOffsets near).tape.scan = e.tape.scan := by rw [checkOffsets_tape]
    simp only [checkPull, hscan]
    by_cases h : (skip && near.color == e.tape.scan) = true
    · simp only [h, if_true]
      cases rest with
      | nil =>
        refine ⟨by rw [touchEdge_tape, checkOffsets_tape], fun s => ?_, fun s hs => ?_, ?_,
          by simp, fun _ => touchEdge_edge _ _⟩
        · rw [touchEdge_offset]; exact checkOffsets_mono _ _ _
        · apply touchEdge_mono; rw [checkOffsets_edge]; exact hs
        · intro b r s k he ht
          cases he
          rw [touchEdge_offset]
          exact checkOffsets_ge _ _ _ _ ht
      | cons next rest' =>
        refine ⟨by simp only [checkOffsets_tape], fun s => ?_, fun s hs => ?_, ?_, ?_, ?_⟩
        · exact Nat.le_trans (checkOffsets_mono _ _ _) (checkOffsets_mono _ _ _)
        · simp only [checkOffsets_edge]; exact hs
        · intro b r s k he ht
          cases he
          exact Nat.le_trans (checkOffsets_ge _ _ _ _ ht) (checkOffsets_mono _ _ _)
        · intro b b' r s k he _ ht
          cases he
          exact checkOffsets_ge _ _ _ _ ht
        · simp
    · simp only [h]
      refine ⟨checkOffsets_tape _ _, checkOffsets_mono _ _, fun s hs => ?_, ?_, ?_, ?_⟩
      · simp only [Bool.false_eq_true, if_false, checkOffsets_edge]; exact hs
      · intro b r s k he ht
        cases he
        exact checkOffsets_ge _ _ _ _ ht
      · intro b b' r s k he hs _
        cases he
        exact absurd hs h
      · rintro (h' | ⟨b, he, hs⟩)
        · simp at h'
        · cases he
          exact absurd hs h

/-- The spans after a step. -/
theorem step_spans (e : EnumTape) (shift : Bool) (color : Color) (skip : Bool)
    (hc : ∀ b ∈ e.span shift, 1 ≤ b.count) :
    ∃ tag, (e.step shift color skip).span shift
        = (Rs.epull (e.span shift) e.tape.scan skip).2.2 ∧
      (e.step shift color skip).span (!shift)
        = epushTag (e.span (!shift)) color (Rs.epull (e.span shift) e.tape.scan skip).2.1 tag ∧
      (e.step shift color skip).tape.scan = (Rs.epull (e.span shift) e.tape.scan skip).1 ∧
      (∀ s, (e.step shift color skip).offset s = (e.check shift color skip).offset s) ∧
      (∀ s, (e.step shift color skip).edge s = (e.check shift color skip).edge s) := by
  have htape : (e.check shift color skip).tape = e.tape := by
    rw [check_eq, (checkPush_spec _ _ _).1, (checkPull_spec _ _ _ _).1]
  obtain ⟨tag, ht⟩ := stepSpans_eq (e.span shift) (e.span (!shift)) e.tape.scan color skip hc
  refine ⟨tag, ?_⟩
  cases shift
  · simp only [span, Bool.false_eq_true, if_false, Bool.not_false, if_true] at ht
    simp only [step, htape, Bool.false_eq_true, if_false, ht, span, Bool.not_false, if_true]
    exact ⟨trivial, trivial, trivial, fun s => by cases s <;> rfl, fun s => by cases s <;> rfl⟩
  · simp only [span, Bool.not_true, Bool.false_eq_true, if_false, if_true] at ht
    simp only [step, htape, if_true, ht, span, Bool.not_true, Bool.false_eq_true, if_false]
    exact ⟨trivial, trivial, trivial, fun s => by cases s <;> rfl, fun s => by cases s <;> rfl⟩

end EnumTape


theorem Tape.Canonical.span {t : Tape} (h : t.Canonical) (side : Bool) : Canon (t.span side) := by
  cases side
  · exact h.l
  · exact h.r

theorem Rs.step_span (t : Tape) (shift : Bool) (c : Color) (skip : Bool) :
    (Rs.step t shift c skip).1.span shift = (Rs.pull (t.span shift) t.scan skip).2.2 ∧
    (Rs.step t shift c skip).1.span (!shift)
      = Rs.push (t.span (!shift)) c (Rs.pull (t.span shift) t.scan skip).2.1 ∧
    (Rs.step t shift c skip).1.scan = (Rs.pull (t.span shift) t.scan skip).1 ∧
    (Rs.step t shift c skip).2 = (Rs.pull (t.span shift) t.scan skip).2.1 := by
  cases shift <;> simp [Rs.step, Tape.span]

theorem ETape.forget_span (e : EnumTape) (side : Bool) :
    e.tape.forget.span side = (e.span side).map EBlock.forget := by
  cases side <;> rfl

theorem Tape.ext_span {t u : Tape} (h1 : t.scan = u.scan) (h2 : ∀ s, t.span s = u.span s) :
    t = u := by
  have := h2 false
  have := h2 true
  cases t; cases u
  simp_all [Tape.span]

/-- Under the tags, a step of the tracking tape is a step of the plain tape. -/
theorem EnumTape.step_forget (e : EnumTape) (h : e.tape.forget.Canonical) (shift : Bool)
    (color : Color) (skip : Bool) :
    (e.step shift color skip).tape.forget = (Rs.step e.tape.forget shift color skip).1 := by
  have hc : ∀ b ∈ e.span shift, 1 ≤ b.count := by
    intro b hb
    exact (h.span shift).posCounts b.forget (by
      rw [ETape.forget_span]; exact List.mem_map_of_mem hb)
  obtain ⟨tag, h1, h2, h3, _⟩ := e.step_spans shift color skip hc
  obtain ⟨k1, k2, k3, _⟩ := Rs.step_span e.tape.forget shift color skip
  have hf := forget_pull (e.span shift) e.tape.scan skip
  rw [← ETape.forget_span] at hf
  have hf' : Rs.pull (e.tape.forget.span shift) e.tape.forget.scan skip = _ := hf
  apply Tape.ext_span
  · rw [k3, hf']; exact h3
  · intro s
    by_cases hs : s = shift
    · subst hs
      rw [ETape.forget_span, h1, k1, hf']
    · have hs : s = !shift := by cases s <;> cases shift <;> simp_all
      subst hs
      rw [ETape.forget_span, h2, k2, hf', forget_epushTag, ETape.forget_span]

/-! ## A sequence of steps -/

/-- A sequence of steps of the tracking tape: `(shift, color, skip)` each. -/
def EnumTape.steps (e : EnumTape) : List (Bool × Color × Bool) → EnumTape
  | [] => e
  | (shift, color, skip) :: ops => (e.step shift color skip).steps ops

/-- The same on a plain tape, with the scanned colour seen and the distance gone at each step. -/
def Rs.trace (t : Tape) : List (Bool × Color × Bool) → List (Color × Nat) × Tape
  | [] => ([], t)
  | (shift, color, skip) :: ops =>
    let r := Rs.step t shift color skip
    let rest := Rs.trace r.1 ops
    ((t.scan, r.2) :: rest.1, rest.2)

theorem EnumTape.step_mono (e : EnumTape) (hc : e.tape.forget.Canonical) (shift : Bool)
    (color : Color) (skip : Bool) (s : Bool) :
    e.offset s ≤ (e.step shift color skip).offset s ∧
    (e.edge s = true → (e.step shift color skip).edge s = true) := by
  have hc : ∀ b ∈ e.span shift, 1 ≤ b.count := by
    intro b hb
    exact (hc.span shift).posCounts b.forget (by
      rw [ETape.forget_span]; exact List.mem_map_of_mem hb)
  obtain ⟨tag, _, _, _, h4, h5⟩ := e.step_spans shift color skip hc
  rw [h4, h5, check_eq]
  obtain ⟨_, a2, a3, _⟩ := e.checkPull_spec shift skip (e.span shift)
  obtain ⟨_, b2, b3, _⟩ := (e.checkPull shift skip (e.span shift)).checkPush_spec color
    (e.span (!shift))
  exact ⟨Nat.le_trans (a2 s) (b2 s), fun h => by rw [b3]; exact a3 s h⟩

theorem EnumTape.steps_mono (ops : List (Bool × Color × Bool)) (e : EnumTape)
    (hc : e.tape.forget.Canonical) (s : Bool) :
    e.offset s ≤ (e.steps ops).offset s ∧ (e.edge s = true → (e.steps ops).edge s = true) := by
  induction ops generalizing e with
  | nil => exact ⟨Nat.le_refl _, id⟩
  | cons op ops ih =>
    obtain ⟨shift, color, skip⟩ := op
    have h1 := e.step_mono hc shift color skip s
    have h2 := ih (e.step shift color skip) (by rw [e.step_forget hc]; exact hc.rsStep _ _ _)
    exact ⟨Nat.le_trans h1.1 h2.1, fun h => h2.2 (h1.2 h)⟩

/-- The blocks that the whole sequence leaves alone: their tags are beyond the final offset. -/
def Beyond (side : Bool) (n : Nat) (d : List EBlock) : Prop :=
  ∀ b rest, d = b :: rest → ∃ k, b.tag = some (side, k) ∧ n < k

theorem EnumTape.steps_frame (ops : List (Bool × Color × Bool)) :
    ∀ (e : EnumTape) (d : Bool → List EBlock) (m : Bool → List Color),
      e.tape.forget.Canonical → (∀ s, Side (e.span s) (d s) (m s)) →
      (∀ s, Beyond s ((e.steps ops).offset s) (d s)) →
      ∃ m' : Bool → List Color,
        (∀ s, Side ((e.steps ops).span s) (d s) (m' s)) ∧
        (e.steps ops).tape.forget = (Rs.trace e.tape.forget ops).2 ∧
        ∀ (u : Tape) (f : Bool → Nat → Color), u.Canonical → u.scan = e.tape.scan →
          (∀ s, half (u.span s) = prepend (m s) (f s)) →
          (∀ s, (e.steps ops).edge s = true → f s = fun _ => 0) →
          (Rs.trace u ops).1 = (Rs.trace e.tape.forget ops).1 ∧
          (Rs.trace u ops).2.scan = (e.steps ops).tape.scan ∧
          ∀ s, half ((Rs.trace u ops).2.span s) = prepend (m' s) (f s) := by
  induction ops with
  | nil =>
    intro e d m hcan hside hbey
    exact ⟨m, hside, rfl, fun u f _ hscan hh _ => ⟨rfl, hscan, hh⟩⟩
  | cons op ops ih =>
    intro e d m hcan hside hbey
    obtain ⟨shift, color, skip⟩ := op
    have hstep : e.steps ((shift, color, skip) :: ops) = (e.step shift color skip).steps ops := rfl
    rw [hstep] at hbey ⊢
    have hforget := e.step_forget hcan shift color skip
    have hcan' : (e.step shift color skip).tape.forget.Canonical := by
      rw [hforget]; exact hcan.rsStep _ _ _
    have hmono := fun s => EnumTape.steps_mono ops (e.step shift color skip) hcan' s
    have hc : ∀ b ∈ e.span shift, 1 ≤ b.count := by
      intro b hb
      exact (hcan.span shift).posCounts b.forget (by
        rw [ETape.forget_span]; exact List.mem_map_of_mem hb)
    obtain ⟨tag, s1, s2, s3, s4, s5⟩ := e.step_spans shift color skip hc
    have hoff : ∀ s, (e.check shift color skip).offset s
        ≤ ((e.step shift color skip).steps ops).offset s := by
      intro s; rw [← s4]; exact (hmono s).1
    rw [EnumTape.check_eq] at hoff s5
    obtain ⟨a1, a2, a3, a4, a5, a6⟩ := e.checkPull_spec shift skip (e.span shift)
    obtain ⟨b1, b2, b3, b4⟩ := (e.checkPull shift skip (e.span shift)).checkPush_spec color
      (e.span (!shift))
    -- nothing beyond is touched
    have notTouched : ∀ (s : Bool) (b : EBlock) (rest : List EBlock) , d s = b :: rest →
        (∀ k, b.tag = some (s, k) →
          k ≤ ((e.checkPull shift skip (e.span shift)).checkPush color
            (e.span (!shift))).offset s) → False := by
      intro s b rest hd hk
      obtain ⟨k, hk1, hk2⟩ := hbey s b rest hd
      have := hk k hk1
      have := hoff s
      omega
    obtain ⟨m1, p1, p2⟩ := (hside shift).pull e.tape.scan skip
      (by rw [← ETape.forget_span]; exact hcan.span shift)
      (by
        intro hne he
        cases hs : e.span shift with
        | nil => exact hne hs
        | cons b rest =>
          exact notTouched shift b rest (by rw [← he, hs]) (fun k hk =>
            Nat.le_trans (a4 b rest shift k hs hk) (b2 _)))
      (by
        intro b rest hs hk hne he
        cases rest with
        | nil => exact hne rfl
        | cons b' rest =>
          exact notTouched shift b' rest he.symm (fun k hk' =>
            Nat.le_trans (a5 b b' rest shift k hs hk hk') (b2 _)))
    have q1 := (hside (!shift)).push color (Rs.epull (e.span shift) e.tape.scan skip).2.1 tag
      (by
        intro b rest hs hcol he
        exact notTouched (!shift) b rest (by rw [← he, hs]) (fun k hk =>
          b4 b rest (!shift) k hs hcol hk))
    have hsel : ∀ s, s = shift ∨ s = !shift := by intro s; cases s <;> cases shift <;> simp
    have hss : (!shift) ≠ shift := by cases shift <;> simp
    obtain ⟨m', r1, r2, r3⟩ := ih (e.step shift color skip) d
      (fun s => if s = shift then m1 else
        List.replicate (Rs.epull (e.span shift) e.tape.scan skip).2.1 color ++ m (!shift))
      hcan' (by
        intro s
        rcases hsel s with rfl | rfl
        · rw [if_pos rfl, s1]; exact p1
        · rw [if_neg hss, s2]; exact q1) hbey
    refine ⟨m', r1, ?_, ?_⟩
    · rw [r2, hforget]; rfl
    · intro u f hu hscan hh hf
      obtain ⟨t1, t2, t3, t4⟩ := Rs.step_span u shift color skip
      have hpull := p2 (u.span shift) (f shift) (hu.span shift) (hh shift) (by
        intro hcase
        apply hf
        apply (hmono shift).2
        rw [s5, b3]
        exact a6 hcase)
      rw [hscan] at t1 t2 t3 t4
      rw [hpull.1] at t3
      rw [hpull.2.1] at t2 t4
      obtain ⟨k1, k2, k3⟩ := r3 (Rs.step u shift color skip).1 f (hu.rsStep _ _ _)
        (by rw [t3, s3]) (by
          intro s
          rcases hsel s with rfl | rfl
          · rw [if_pos rfl, t1]; exact hpull.2.2
          · rw [if_neg hss, t2, Rs.half_push, hh, prepend_append, prepend_replicate]) hf
      refine ⟨?_, k2, k3⟩
      simp only [Rs.trace]
      rw [← hforget, k1]
      obtain ⟨_, _, _, v4⟩ := Rs.step_span e.tape.forget shift color skip
      have hfp := forget_pull (e.span shift) e.tape.scan skip
      rw [← ETape.forget_span] at hfp
      have hfp' : Rs.pull (e.tape.forget.span shift) e.tape.forget.scan skip = _ := hfp
      rw [t4, v4, hfp', hscan]
      rfl

end BB
