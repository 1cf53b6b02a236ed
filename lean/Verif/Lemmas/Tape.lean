import Verif.Model.Tape
import Verif.Lemmas.RTape

/-! # What a run-length tape denotes, and its canonical form -/

namespace BB

/-- Cells of a span, nearest first. -/
def unroll (s : List Block) : List Color :=
  s.flatMap fun b => List.replicate b.count b.color

/-- Half tape denoted by a span: its cells, then zeros. -/
def half (s : List Block) : Nat → Color := fun i => (unroll s).getD i 0

/-- Relative tape denoted by a run-length tape. -/
def Tape.rt (t : Tape) : RT := ⟨half t.lspan, t.scan, half t.rspan⟩

/-- The ℤ-tape denoted by a run-length tape with the head at `pos`. -/
def Tape.cells (t : Tape) (pos : Int) : Int → Color := t.rt.at pos

/-- The configuration denoted by a state and a run-length tape. -/
def Tape.cfg (t : Tape) (q : State) (pos : Int) : Cfg := ⟨q, pos, t.cells pos⟩

@[simp] theorem unroll_nil : unroll [] = [] := rfl
@[simp] theorem unroll_cons (b : Block) (s) :
    unroll (b :: s) = List.replicate b.count b.color ++ unroll s := rfl

@[simp] theorem half_nil : half [] = fun _ => 0 := by
  funext i; simp [half]

theorem half_cons_zero (c : Color) (s) : half (⟨c, 0⟩ :: s) = half s := rfl

theorem half_cons_succ (c : Color) (n : Nat) (s) :
    half (⟨c, n + 1⟩ :: s) = hcons c (half (⟨c, n⟩ :: s)) := by
  funext i
  cases i <;> simp [half, List.replicate_succ]

/-- `n` copies of a cell in front of a half tape. -/
def hrep (c : Color) : Nat → (Nat → Color) → Nat → Color
  | 0, f => f
  | n + 1, f => hcons c (hrep c n f)

theorem hrep_succ' (c : Color) (n : Nat) (f) : hrep c n (hcons c f) = hrep c (n + 1) f := by
  induction n with
  | zero => rfl
  | succ n ih => simp only [hrep, ih]

theorem hrep_add (c : Color) (m n : Nat) (f) : hrep c m (hrep c n f) = hrep c (m + n) f := by
  induction m with
  | zero => simp [hrep]
  | succ m ih => rw [Nat.succ_add]; simp only [hrep, ih]

theorem half_cons (b : Block) (s) : half (b :: s) = hrep b.color b.count (half s) := by
  obtain ⟨c, n⟩ := b
  induction n with
  | zero => exact half_cons_zero c s
  | succ n ih => rw [half_cons_succ, ih]; rfl

theorem hrep_zero (n : Nat) : hrep 0 n (fun _ => 0) = fun _ => 0 := by
  induction n with
  | zero => rfl
  | succ n ih => simp only [hrep, ih]; funext i; cases i <;> rfl

theorem hrep_apply (c : Color) (n : Nat) (f) (i : Nat) :
    hrep c n f i = if i < n then c else f (i - n) := by
  induction n generalizing i with
  | zero => simp [hrep]
  | succ n ih =>
    cases i with
    | zero => simp [hrep]
    | succ i => simp [hrep, ih]

/-- Sweep: `n + 1` moves over a run of `n` further cells equal to the scanned one. -/
theorem sweep {p : Prog} {q : State} {s c : Color} {shift : Bool}
    (h : p (q, s) = some (c, shift, q)) (n : Nat) :
    ∀ (push pull : Nat → Color) (pos : Int),
      runFor p (n + 1) ⟨q, pos,
          (if shift then RT.mk push s (hrep s n pull) else RT.mk (hrep s n pull) s push).at pos⟩
        = some ⟨q, pos + disp shift (n + 1),
          (if shift then RT.mk (hrep c (n + 1) push) (pull 0) (htail pull)
            else RT.mk (htail pull) (pull 0) (hrep c (n + 1) push)).at
            (pos + disp shift (n + 1))⟩ := by
  induction n with
  | zero =>
    intro push pull pos
    rw [Nat.zero_add, runFor_one]
    cases shift
    · exact RT.step (t := ⟨pull, s, push⟩) h
    · exact RT.step (t := ⟨push, s, pull⟩) h
  | succ n ih =>
    intro push pull pos
    rw [runFor, disp_succ shift (n + 1), ← Int.add_assoc]
    cases shift
    · rw [if_neg (by simp)]
      rw [RT.step (t := ⟨hrep s (n+1) pull, s, push⟩) h]
      simp only [RT.move, Bool.false_eq_true, if_false, hrep, hcons_zero, htail_hcons,
        Option.bind_some]
      have := ih (hcons c push) pull (pos + disp false 1)
      simp only [Bool.false_eq_true, if_false] at this
      rw [this, hrep_succ']; rfl
    · rw [if_pos rfl]
      rw [RT.step (t := ⟨push, s, hrep s (n+1) pull⟩) h]
      simp only [RT.move, if_true, hrep, hcons_zero, htail_hcons,
        Option.bind_some]
      have := ih (hcons c push) pull (pos + disp true 1)
      simp only [if_true] at this
      rw [this, hrep_succ']; rfl

/-! ## Rust pull and push -/

/-- Every block has a positive count. -/
def PosCounts (s : List Block) : Prop := ∀ b ∈ s, 1 ≤ b.count

namespace Rs

theorem half_push (s : List Block) (c : Color) (n : Nat) :
    half (push s c n) = hrep c n (half s) := by
  cases s with
  | nil =>
    simp only [push]
    by_cases h : c = 0
    · subst h; simp [hrep_zero]
    · simp only [bne_iff_ne, ne_eq, h, not_false_eq_true, if_true, half_cons]
  | cons b s =>
    simp only [push]
    by_cases h : b.color = c
    · subst h
      simp only [beq_self_eq_true, if_true, half_cons, hrep_add]
      rw [Nat.add_comm]
    · simp only [beq_iff_eq, h, if_false, half_cons]

/-- Taking the next cell off a span (second half of `pull`). -/
def takeNext : List Block → Color × List Block
  | [] => (0, [])
  | b :: rest =>
    if b.count > 1 then (b.color, { b with count := b.count - 1 } :: rest)
    else (b.color, rest)

theorem pull_skip {b : Block} {rest : List Block} {scan : Color} {skip : Bool}
    (h : (skip && b.color == scan) = true) :
    pull (b :: rest) scan skip = ((takeNext rest).1, 1 + b.count, (takeNext rest).2) := by
  simp only [pull, h, if_true]
  cases rest with
  | nil => rfl
  | cons b' r => by_cases h' : b'.count > 1 <;> simp [takeNext, h']

theorem pull_noskip {s : List Block} {scan : Color} {skip : Bool}
    (h : ∀ b rest, s = b :: rest → ¬ (skip && b.color == scan) = true) :
    pull s scan skip = ((takeNext s).1, 1, (takeNext s).2) := by
  cases s with
  | nil => rfl
  | cons b rest =>
    simp only [pull, h b rest rfl]
    by_cases h' : b.count > 1 <;> simp [takeNext, h']

theorem half_takeNext (s : List Block) (hs : PosCounts s) :
    (takeNext s).1 = half s 0 ∧ half (takeNext s).2 = htail (half s) := by
  cases s with
  | nil => exact ⟨rfl, by rw [takeNext, half_nil]; rfl⟩
  | cons b rest =>
    have hb := hs b (by simp)
    obtain ⟨c, n⟩ := b
    obtain ⟨m, rfl⟩ : ∃ m, n = m + 1 := ⟨n - 1, by simp at hb; omega⟩
    cases m with
    | zero => simp [takeNext, half_cons, hrep]
    | succ m => simp [takeNext, half_cons, hrep]

theorem posCounts_takeNext {s : List Block} (hs : PosCounts s) : PosCounts (takeNext s).2 := by
  cases s with
  | nil => exact hs
  | cons b rest =>
    by_cases h : b.count > 1
    · simp only [takeNext, h, if_true]
      intro x hx
      simp only [List.mem_cons] at hx
      rcases hx with rfl | hx
      · simp; omega
      · exact hs x (by simp [hx])
    · simp only [takeNext, h, if_false]
      exact fun x hx => hs x (by simp [hx])

theorem PosCounts.tail {b : Block} {s} (h : PosCounts (b :: s)) : PosCounts s :=
  fun x hx => h x (by simp [hx])

/-- `pull` described on half tapes. -/
theorem pull_spec (s : List Block) (hs : PosCounts s) (scan : Color) (skip : Bool) :
    ∃ (n : Nat) (f : Nat → Color), (pull s scan skip).2.1 = n + 1 ∧
      half s = hrep scan n f ∧ (skip = false → n = 0) ∧
      (pull s scan skip).1 = f 0 ∧ half (pull s scan skip).2.2 = htail f := by
  by_cases h : ∃ b rest, s = b :: rest ∧ (skip && b.color == scan) = true
  · obtain ⟨b, rest, rfl, h⟩ := h
    have hc : b.color = scan := by simp at h; exact h.2
    have := half_takeNext rest (PosCounts.tail hs)
    refine ⟨b.count, half rest, ?_, ?_, ?_, ?_, ?_⟩
    · rw [pull_skip h]; exact Nat.add_comm _ _
    · rw [half_cons, hc]
    · intro hk; simp [hk] at h
    · rw [pull_skip h]; exact this.1
    · rw [pull_skip h]; exact this.2
  · have h' : ∀ b rest, s = b :: rest → ¬ (skip && b.color == scan) = true :=
      fun b rest e hb => h ⟨b, rest, e, hb⟩
    have := half_takeNext s hs
    refine ⟨0, half s, ?_, rfl, fun _ => rfl, ?_, ?_⟩
    · rw [pull_noskip h']
    · rw [pull_noskip h']; exact this.1
    · rw [pull_noskip h']; exact this.2

theorem pull_cases (s : List Block) (scan : Color) (skip : Bool) :
    (∃ b rest, s = b :: rest ∧
      pull s scan skip = ((takeNext rest).1, 1 + b.count, (takeNext rest).2)) ∨
    pull s scan skip = ((takeNext s).1, 1, (takeNext s).2) := by
  by_cases h : ∃ b rest, s = b :: rest ∧ (skip && b.color == scan) = true
  · obtain ⟨b, rest, rfl, h⟩ := h
    exact .inl ⟨b, rest, rfl, pull_skip h⟩
  · exact .inr (pull_noskip fun b rest e hb => h ⟨b, rest, e, hb⟩)

theorem posCounts_pull {s : List Block} (hs : PosCounts s) (scan : Color) (skip : Bool) :
    PosCounts (pull s scan skip).2.2 := by
  rcases pull_cases s scan skip with ⟨b, rest, rfl, h⟩ | h <;> rw [h]
  · exact posCounts_takeNext (PosCounts.tail hs)
  · exact posCounts_takeNext hs

theorem pull_stepped_pos (s : List Block) (scan : Color) (skip : Bool) :
    1 ≤ (pull s scan skip).2.1 := by
  rcases pull_cases s scan skip with ⟨b, rest, rfl, h⟩ | h <;> rw [h]
  · simp
  · simp

theorem posCounts_push {s : List Block} (hs : PosCounts s) (c : Color) {n : Nat} (hn : 1 ≤ n) :
    PosCounts (push s c n) := by
  cases s with
  | nil =>
    simp only [push]
    split
    · intro x hx; simp at hx; subst hx; exact hn
    · exact hs
  | cons b rest =>
    simp only [push]
    have hb := hs b (by simp)
    split <;> intro x hx <;> simp only [List.mem_cons] at hx
    · rcases hx with rfl | hx
      · simp; omega
      · exact hs x (by simp [hx])
    · rcases hx with rfl | rfl | hx
      · exact hn
      · exact hb
      · exact hs x (by simp [hx])

/-- The Rust step is `stepped` moves of the ordinary machine. -/
theorem step_run {p : Prog} {q q' : State} {t : Tape} {shift : Bool} {c : Color} {skip : Bool}
    (hl : PosCounts t.lspan) (hr : PosCounts t.rspan)
    (hp : p (q, t.scan) = some (c, shift, q')) (hsk : skip = true → q' = q) (pos : Int) :
    1 ≤ (step t shift c skip).2 ∧
    runFor p (step t shift c skip).2 (t.cfg q pos)
      = some ((step t shift c skip).1.cfg q' (pos + disp shift (step t shift c skip).2)) := by
  cases shift
  · obtain ⟨n, f, h1, h2, h3, h4, h5⟩ := pull_spec t.lspan hl t.scan skip
    have e : step t false c skip
        = (⟨(pull t.lspan t.scan skip).2.2, (pull t.lspan t.scan skip).1,
            push t.rspan c (n + 1)⟩, n + 1) := by
      simp [step, ← h1]
    rw [e]
    refine ⟨by simp, ?_⟩
    simp only [Tape.cfg, Tape.cells, Tape.rt, half_push, h4, h5, h2]
    cases skip
    · have := h3 rfl
      subst this
      rw [Nat.zero_add, runFor_one]
      exact RT.step (t := ⟨f, t.scan, half t.rspan⟩) hp
    · have := hsk rfl
      subst this
      exact sweep hp n (half t.rspan) f pos
  · obtain ⟨n, f, h1, h2, h3, h4, h5⟩ := pull_spec t.rspan hr t.scan skip
    have e : step t true c skip
        = (⟨push t.lspan c (n + 1), (pull t.rspan t.scan skip).1,
            (pull t.rspan t.scan skip).2.2⟩, n + 1) := by
      simp [step, ← h1]
    rw [e]
    refine ⟨by simp, ?_⟩
    simp only [Tape.cfg, Tape.cells, Tape.rt, half_push, h4, h5, h2]
    cases skip
    · have := h3 rfl
      subst this
      rw [Nat.zero_add, runFor_one]
      exact RT.step (t := ⟨half t.lspan, t.scan, f⟩) hp
    · have := hsk rfl
      subst this
      exact sweep hp n (half t.lspan) f pos

end Rs

/-! ## Python step equals Rust step -/

theorem py_step_eq_rs_step (t : Tape) (hl : PosCounts t.lspan) (hr : PosCounts t.rspan)
    (shift : Bool) (c : Color) (skip : Bool) : Py.step t shift c skip = Rs.step t shift c skip := by
  have key : ∀ (pl ps : List Block), PosCounts pl →
      Py.stepSpans pl ps t.scan c skip =
        ((Rs.pull pl t.scan skip).2.2, Rs.push ps c (Rs.pull pl t.scan skip).2.1,
          (Rs.pull pl t.scan skip).1, (Rs.pull pl t.scan skip).2.1) := by
    intro pl ps hpl
    have aux : ∀ (b : Block), 1 ≤ b.count → (b.count != 1) = decide (b.count > 1) := by
      intro b hb
      by_cases h : b.count = 1
      · simp [h]
      · have : b.count > 1 := by omega
        simp [h, this]
    cases pl with
    | nil => cases ps <;> simp [Py.stepSpans, Rs.pull, Rs.push]
    | cons b rest =>
      have hb := aux b (hpl b (by simp))
      by_cases h : (skip && b.color == t.scan) = true
      · cases rest with
        | nil =>
          cases ps <;> simp [Py.stepSpans, Rs.pull, Rs.push, h, Nat.add_comm]
        | cons b' rest' =>
          have hb' := aux b' (hpl b' (by simp))
          by_cases h1 : b'.count > 1
          · cases ps <;>
              simp [Py.stepSpans, Rs.pull, Rs.push, h, hb', h1, Nat.add_comm]
          · cases ps <;>
              simp [Py.stepSpans, Rs.pull, Rs.push, h, hb', h1, Nat.add_comm]
      · simp only [Bool.not_eq_true] at h
        by_cases h1 : b.count > 1
        · cases ps <;> simp [Py.stepSpans, Rs.pull, Rs.push, h, hb, h1]
        · cases ps <;> simp [Py.stepSpans, Rs.pull, Rs.push, h, hb, h1]
  cases shift
  · simp [Py.step, Rs.step, key _ _ hl]
  · simp [Py.step, Rs.step, key _ _ hr]

/-! ## Canonical spans -/

/-- Positive counts, neighbouring blocks of different colours, outermost block not 0. -/
inductive Canon : List Block → Prop
  | nil : Canon []
  | last (c n) : c ≠ 0 → 1 ≤ n → Canon [⟨c, n⟩]
  | cons (c n d m s) : c ≠ d → 1 ≤ n → Canon (⟨d, m⟩ :: s) → Canon (⟨c, n⟩ :: ⟨d, m⟩ :: s)

theorem Canon.posCounts {s} (h : Canon s) : PosCounts s := by
  induction h with
  | nil => intro b hb; simp at hb
  | last c n _ hn => intro b hb; simp at hb; subst hb; exact hn
  | cons c n d m s _ hn _ ih =>
    intro b hb
    rw [List.mem_cons] at hb
    rcases hb with rfl | hb
    · exact hn
    · exact ih b hb

theorem Canon.tail {b s} (h : Canon (b :: s)) : Canon s := by
  cases h with
  | last => exact .nil
  | cons _ _ _ _ _ _ _ h => exact h

theorem Canon.setCount {c n m s} (h : Canon (⟨c, n⟩ :: s)) (hm : 1 ≤ m) : Canon (⟨c, m⟩ :: s) := by
  cases h with
  | last _ _ h => exact .last _ _ h hm
  | cons _ _ _ _ _ h1 _ h3 => exact .cons _ _ _ _ _ h1 hm h3

/-- A canonical span denoting a blank half tape is empty. -/
theorem Canon.eq_nil_of_half {s} (h : Canon s) (hz : ∀ i, half s i = 0) : s = [] := by
  induction h with
  | nil => rfl
  | last c n hc hn =>
    have := hz 0
    rw [half_cons, hrep_apply, if_pos (by exact hn)] at this
    exact absurd this hc
  | cons c n d m s hcd hn _ ih =>
    have hz' : ∀ i, half (⟨d, m⟩ :: s) i = 0 := by
      intro i
      have := hz (i + n)
      rw [half_cons, hrep_apply] at this
      rw [if_neg (by simp)] at this
      simpa using this
    exact absurd (ih hz') (by simp)

theorem Canon.half_head {c n s} (h : Canon (⟨c, n⟩ :: s)) :
    half (⟨c, n⟩ :: s) n ≠ c := by
  rw [half_cons, hrep_apply, if_neg (by simp)]
  simp only [Nat.sub_self]
  cases h with
  | last _ _ hc => simpa using hc.symm
  | cons _ _ d m s hcd hn h =>
    have hm : 1 ≤ m := h.posCounts ⟨d, m⟩ (by simp)
    rw [half_cons, hrep_apply, if_pos (by exact hm)]
    exact hcd.symm

/-- Canonical spans are determined by the half tape they denote. -/
theorem Canon.half_inj {s : List Block} (hs : Canon s) :
    ∀ {u : List Block}, Canon u → half s = half u → s = u := by
  induction s with
  | nil =>
    intro u hu h
    exact (hu.eq_nil_of_half (fun i => by rw [← h]; simp)).symm
  | cons b s ih =>
    intro u hu h
    cases u with
    | nil => exact hs.eq_nil_of_half (fun i => by rw [h]; simp)
    | cons b' u =>
      obtain ⟨c, n⟩ := b
      obtain ⟨d, m⟩ := b'
      have hn : 1 ≤ n := hs.posCounts ⟨c, n⟩ (by simp)
      have hm : 1 ≤ m := hu.posCounts ⟨d, m⟩ (by simp)
      have hcd : c = d := by
        have := congrFun h 0
        rwa [half_cons, half_cons, hrep_apply, hrep_apply, if_pos (by exact hn),
          if_pos (by exact hm)] at this
      subst hcd
      have hnm : n = m := by
        rcases Nat.lt_trichotomy n m with hlt | heq | hlt
        · have h1 := hs.half_head
          rw [h, half_cons, hrep_apply, if_pos hlt] at h1
          exact absurd rfl h1
        · exact heq
        · have h1 := hu.half_head
          rw [← h, half_cons, hrep_apply, if_pos hlt] at h1
          exact absurd rfl h1
      subst hnm
      have : half s = half u := by
        funext i
        have := congrFun h (i + n)
        rw [half_cons, half_cons, hrep_apply, hrep_apply, if_neg (by simp),
          if_neg (by simp)] at this
        simpa using this
      rw [ih hs.tail hu.tail this]

theorem Canon.push {s} (h : Canon s) (c : Color) {n : Nat} (hn : 1 ≤ n) :
    Canon (Rs.push s c n) := by
  cases s with
  | nil =>
    simp only [Rs.push]
    by_cases hc : c = 0
    · simp [hc, Canon.nil]
    · simp only [bne_iff_ne, ne_eq, hc, not_false_eq_true, if_true]
      exact .last _ _ hc hn
  | cons b rest =>
    obtain ⟨d, m⟩ := b
    simp only [Rs.push]
    by_cases hc : d = c
    · subst hc
      simp only [beq_self_eq_true, if_true]
      exact h.setCount (by omega)
    · simp only [beq_iff_eq, hc, if_false]
      exact .cons _ _ _ _ _ (fun e => hc e.symm) hn h

theorem Canon.takeNext {s} (h : Canon s) : Canon (Rs.takeNext s).2 := by
  cases s with
  | nil => exact h
  | cons b rest =>
    obtain ⟨d, m⟩ := b
    by_cases h' : m > 1
    · simp only [Rs.takeNext, h', if_true]
      exact h.setCount (by omega)
    · simp only [Rs.takeNext, h', if_false]
      exact h.tail

theorem Canon.pull {s} (h : Canon s) (scan : Color) (skip : Bool) :
    Canon (Rs.pull s scan skip).2.2 := by
  rcases Rs.pull_cases s scan skip with ⟨b, rest, rfl, h'⟩ | h' <;> rw [h']
  · exact h.tail.takeNext
  · exact h.takeNext

/-- Both spans canonical. -/
structure Tape.Canonical (t : Tape) : Prop where
  l : Canon t.lspan
  r : Canon t.rspan

theorem Tape.canonical_init : Tape.init.Canonical := ⟨.nil, .nil⟩

theorem Tape.Canonical.rsStep {t : Tape} (h : t.Canonical) (shift : Bool) (c : Color)
    (skip : Bool) : (Rs.step t shift c skip).1.Canonical := by
  have hn := fun s => Rs.pull_stepped_pos s t.scan skip
  cases shift
  · exact ⟨h.l.pull _ _, h.r.push _ (hn _)⟩
  · exact ⟨h.l.push _ (hn _), h.r.pull _ _⟩

end BB
