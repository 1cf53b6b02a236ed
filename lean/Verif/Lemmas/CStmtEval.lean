import Verif.Spec.CStmt
import Verif.Lemmas.Run

/-!
# Running a machine of a table in the kernel

The cells on each side of the head are lists, without blank cells at the end.  The functions are
written so that the kernel evaluates each number once.
-/

namespace BB
namespace CS

/-- State, cells to the left, scanned cell, cells to the right, index of the head, least and greatest
index visited. -/
structure Fast where
  q : Nat
  l : List Nat
  c : Nat
  r : List Nat
  i : Nat
  lo : Nat
  hi : Nat

/-- An element of a list. -/
def pick {α : Type} : List α → Nat → Option α
  | [], _ => none
  | a :: _, 0 => some a
  | _ :: l, n + 1 => pick l n

theorem pick_eq {α : Type} (l : List α) : ∀ n, pick l n = l[n]? := by
  induction l with
  | nil => intro n; rfl
  | cons a l ih =>
    intro n
    cases n with
    | zero => rfl
    | succ n => rw [pick, ih, List.getElem?_cons_succ]

theorem beqNat_iff {a b : Nat} : Nat.beq a b = true ↔ a = b := Nat.beq_eq ▸ Iff.rfl

variable (tab : List (List (Option Instr))) (checks : Bool) (len : Nat)

/-- The instruction of a slot. -/
def look (q c : Nat) : Option Instr :=
  match pick tab q with
  | none => none
  | some row =>
    match pick row c with
    | none => none
    | some e => e

theorem look_eq (q c : Nat) : look tab q c = ofTable tab (q, c) := by
  unfold look ofTable
  rw [pick_eq]
  cases tab[q]? with
  | none => rfl
  | some row =>
    simp only [Option.bind_some]
    rw [pick_eq]
    cases row[c]? <;> rfl

/-- A cell in front. -/
def push (w : Nat) (l : List Nat) : List Nat :=
  match w with
  | 0 =>
    match l with
    | [] => []
    | x :: l => 0 :: x :: l
  | w + 1 => (w + 1) :: l

/-- The machine is about to leave. -/
def Fast.leaving (s : Fast) : Bool :=
  Nat.beq s.c 0 &&
    match look tab s.q 0 with
    | some (_, d, q) => Nat.beq q s.q && (if d then Nat.beq s.i s.hi else Nat.beq s.i s.lo)
    | none => false

/-- One move; `none` outside of the array. -/
def Fast.move (s : Fast) : Option Fast :=
  match s with
  | ⟨q, l, c, r, i, lo, hi⟩ =>
    match look tab q c with
    | none => none
    | some (w, d, q) =>
      match d with
      | true =>
        match Nat.ble (i + 2) len with
        | false => none
        | true =>
          match Nat.succ i, Nat.ble hi i, r with
          | i, true, [] => some ⟨q, push w l, 0, [], i, lo, i⟩
          | i, true, c :: r => some ⟨q, push w l, c, r, i, lo, i⟩
          | i, false, [] => some ⟨q, push w l, 0, [], i, lo, hi⟩
          | i, false, c :: r => some ⟨q, push w l, c, r, i, lo, hi⟩
      | false =>
        match i with
        | 0 => none
        | i + 1 =>
          match Nat.ble lo i, l with
          | true, [] => some ⟨q, [], 0, push w r, i, lo, hi⟩
          | true, c :: l => some ⟨q, l, c, push w r, i, lo, hi⟩
          | false, [] => some ⟨q, [], 0, push w r, i, i, hi⟩
          | false, c :: l => some ⟨q, l, c, push w r, i, i, hi⟩

def Fast.blank (s : Fast) : Bool :=
  match s with
  | ⟨_, [], 0, [], _, _, _⟩ => true
  | _ => false

/-- The program would stop here. -/
def Fast.stops (s : Fast) : Bool :=
  s.blank || Nat.beq s.q 7 || (checks && s.leaving tab)

/-- One move to a place where the program does not stop. -/
def Fast.go (s : Fast) : Option Fast :=
  match s.move tab len with
  | none => none
  | some s' =>
    match s'.stops tab checks with
    | true => none
    | false => some s'

/-! The same with the eliminators only, which the kernel evaluates faster. -/

/-- The rest of a list after a cell, or a blank cell. -/
def Raw.uncons (l : List Nat) (f : Nat → List Nat → Option Fast) : Option Fast :=
  List.rec (motive := fun _ => Option Fast) (f 0 []) (fun c l _ => f c l) l

def Raw.push (w : Nat) (l : List Nat) (f : List Nat → Option Fast) : Option Fast :=
  Nat.rec (motive := fun _ => Option Fast)
    (List.rec (motive := fun _ => Option Fast) (f []) (fun _ _ _ => f (w :: l)) l)
    (fun _ _ => f (w :: l)) w

def Raw.pick {α β : Type} (none : β) (some : α → β) (l : List α) (n : Nat) : β :=
  List.rec (motive := fun _ => Nat → β) (fun _ => none)
    (fun a _ ih n => Nat.rec (motive := fun _ => β) (some a) (fun n _ => ih n) n) l n

def Raw.look (q c : Nat) (f : Nat → Bool → Nat → Option Fast) : Option Fast :=
  Raw.pick none (fun row => Raw.pick none (fun e => Option.rec (motive := fun _ => Option Fast) none
    (fun i => f i.1 i.2.1 i.2.2) e) row c) tab q

noncomputable def Raw.move (s : Fast) (f : Fast → Option Fast) : Option Fast :=
  Fast.rec (motive := fun _ => Option Fast) (fun q l c r i lo hi => Raw.look tab q c fun w d q =>
    Bool.rec (motive := fun _ => Option Fast)
      (Nat.rec (motive := fun _ => Option Fast) none (fun i _ => Raw.push w r fun r =>
        Raw.uncons l fun c l => Bool.rec (motive := fun _ => Option Fast)
          (f ⟨q, l, c, r, i, i, hi⟩) (f ⟨q, l, c, r, i, lo, hi⟩) (Nat.ble lo i)) i)
      (Bool.rec (motive := fun _ => Option Fast) none
        (Nat.rec (motive := fun _ => Option Fast) none (fun i _ => Raw.push w l fun l =>
          Raw.uncons r fun c r => Bool.rec (motive := fun _ => Option Fast)
            (f ⟨q, l, c, r, Nat.succ i, lo, hi⟩) (f ⟨q, l, c, r, Nat.succ i, lo, Nat.succ i⟩)
            (Nat.ble hi i)) (Nat.succ i))
        (Nat.ble (i + 2) len))
      d) s

noncomputable def Raw.go (s : Fast) : Option Fast :=
  Raw.move tab len s fun s' =>
    Fast.rec (motive := fun _ => Option Fast) (fun q l c r _ _ _ =>
      Bool.rec (motive := fun _ => Option Fast)
        (Nat.rec (motive := fun _ => Option Fast)
          (List.rec (motive := fun _ => Option Fast)
            (List.rec (motive := fun _ => Option Fast) none
              (fun _ _ _ => Bool.rec (motive := fun _ => Option Fast) (some s')
                (Bool.rec (motive := fun _ => Option Fast) (some s') none (s'.leaving tab)) checks) r)
            (fun _ _ _ => Bool.rec (motive := fun _ => Option Fast) (some s')
                (Bool.rec (motive := fun _ => Option Fast) (some s') none (s'.leaving tab)) checks) l)
          (fun _ _ => some s') c)
        none (Nat.beq q 7)) s'

theorem Raw.uncons_eq (l : List Nat) (f : Nat → List Nat → Option Fast) :
    Raw.uncons l f = match l with | [] => f 0 [] | c :: l => f c l := by
  cases l <;> rfl

theorem Raw.push_eq (w : Nat) (l : List Nat) (f : List Nat → Option Fast) :
    Raw.push w l f = f (CS.push w l) := by
  cases w <;> cases l <;> rfl

theorem Raw.pick_eq {α β : Type} (a : β) (f : α → β) (l : List α) : ∀ n,
    Raw.pick a f l n = match CS.pick l n with | none => a | some x => f x := by
  induction l with
  | nil => intro n; rfl
  | cons x l ih =>
    intro n
    cases n with
    | zero => rfl
    | succ n => exact ih n

theorem Raw.look_eq (q c : Nat) (f : Nat → Bool → Nat → Option Fast) :
    Raw.look tab q c f = match CS.look tab q c with | none => none | some i => f i.1 i.2.1 i.2.2 := by
  unfold Raw.look CS.look
  rw [Raw.pick_eq]
  cases CS.pick tab q with
  | none => rfl
  | some row =>
    simp only
    rw [Raw.pick_eq]
    cases CS.pick row c with
    | none => rfl
    | some e => cases e <;> rfl

theorem Raw.move_eq (s : Fast) (f : Fast → Option Fast) :
    Raw.move tab len s f = match s.move tab len with | none => none | some s' => f s' := by
  obtain ⟨q, l, c, r, i, lo, hi⟩ := s
  unfold Raw.move Fast.move
  simp only [Raw.look_eq]
  cases CS.look tab q c with
  | none => rfl
  | some e =>
    obtain ⟨w, d, q'⟩ := e
    simp only
    cases d with
    | false =>
      cases i with
      | zero => rfl
      | succ i =>
        simp only [Raw.push_eq, Raw.uncons_eq]
        cases Nat.ble lo i <;> cases l <;> rfl
    | true =>
      cases Nat.ble (i + 2) len with
      | false => rfl
      | true =>
        simp only [Raw.push_eq, Raw.uncons_eq]
        cases Nat.ble hi i <;> cases r <;> rfl

theorem Raw.go_eq : Raw.go tab checks len = Fast.go tab checks len := by
  funext s
  unfold Raw.go Fast.go
  rw [Raw.move_eq]
  cases s.move tab len with
  | none => rfl
  | some s' =>
    obtain ⟨q, l, c, r, i, lo, hi⟩ := s'
    simp only [Fast.stops]
    cases Nat.beq q 7 with
    | true => simp
    | false =>
      cases c with
      | succ c => cases checks <;> cases l <;> cases r <;> rfl
      | zero =>
        cases l with
        | nil =>
          cases r with
          | nil => simp [Fast.blank]
          | cons y r =>
            cases checks with
            | false => rfl
            | true =>
              simp only [Fast.blank, Bool.false_or, Bool.true_and]
              cases Fast.leaving tab ⟨q, [], 0, y :: r, i, lo, hi⟩ <;> rfl
        | cons y l =>
          cases checks with
          | false => cases r <;> rfl
          | true =>
            simp only [Fast.blank, Bool.false_or, Bool.true_and]
            cases Fast.leaving tab ⟨q, y :: l, 0, r, i, lo, hi⟩ <;> rfl

/-- `2 ^ k` moves. -/
def pow2 (f : Fast → Option Fast) : Nat → Fast → Option Fast
  | 0, s => f s
  | k + 1, s =>
    match pow2 f k s with
    | none => none
    | some s' => pow2 f k s'

/-- How many moves the portions are. -/
def total (ks : List Nat) : Nat := (ks.map (2 ^ ·)).sum

/-- Moves in portions. -/
def many (f : Fast → Option Fast) : List Nat → Fast → Option Fast
  | [], s => some s
  | k :: ks, s =>
    match pow2 f k s with
    | none => none
    | some s' => many f ks s'

/-- The beginning. -/
def Fast.start : Fast := ⟨0, [], 0, [], len / 2, len / 2, len / 2⟩

/-- The first stop is after one more move than the portions say. -/
noncomputable def stopsAfter (ks : List Nat) : Bool :=
  decide (0 < len) && !(checks && (Fast.start len).leaving tab) &&
  ((many (Raw.go tab checks len) ks (Fast.start len)).any fun s =>
    (s.move tab len).any fun s' => s'.stops tab checks)

/-! ## Soundness -/

variable {tab checks len}

/-- A cell of a list, blank after its end. -/
def cell (l : List Nat) (k : Nat) : Nat := l[k]?.getD 0

theorem cell_push_zero (w : Nat) (l : List Nat) : cell (push w l) 0 = w := by
  cases w <;> cases l <;> rfl

theorem cell_push_succ (w : Nat) (l : List Nat) (k : Nat) : cell (push w l) (k + 1) = cell l k := by
  cases w <;> cases l <;> simp [push, cell]

theorem push_last {l : List Nat} (w : Nat) (h : l.getLast? ≠ some 0) : (push w l).getLast? ≠ some 0 := by
  cases l with
  | nil => cases w <;> simp [push]
  | cons x l =>
    have : push w (x :: l) = w :: x :: l := by cases w <;> rfl
    rwa [this, List.getLast?_cons_cons]

theorem tail_last {c : Nat} {l : List Nat} (h : (c :: l).getLast? ≠ some 0) : l.getLast? ≠ some 0 := by
  cases l with
  | nil => simp
  | cons x l => rwa [List.getLast?_cons_cons] at h

theorem nil_of_blank {l : List Nat} (h : l.getLast? ≠ some 0) (hl : ∀ k, cell l k = 0) : l = [] := by
  by_contra hne
  apply h
  have h1 := hl (l.length - 1)
  have h2 : l.length - 1 < l.length := by
    have := List.length_pos_iff.2 hne
    omega
  rw [cell, List.getElem?_eq_getElem h2] at h1
  rw [List.getLast?_eq_getElem?, List.getElem?_eq_getElem h2]
  exact congrArg some h1

/-- The numbers and the configuration after `n` moves. -/
structure Codes (len : Nat) (p : Prog) (n : Nat) (s : Fast) (c : Cfg) : Prop where
  run : runFor p n initCfg = some c
  state : c.state = s.q
  here : c.tape c.pos = s.c
  left : ∀ k : Nat, c.tape (c.pos - 1 - k) = cell s.l k
  right : ∀ k : Nat, c.tape (c.pos + 1 + k) = cell s.r k
  lastL : s.l.getLast? ≠ some 0
  lastR : s.r.getLast? ≠ some 0
  pos : (s.i : Int) = (len / 2 : Nat) + c.pos
  stays : StaysIn len p n
  span : ∀ x, (∃ j d, j ≤ n ∧ runFor p j initCfg = some d ∧ d.pos = x) ↔
    (s.lo : Int) ≤ (len / 2 : Nat) + x ∧ (len / 2 : Nat) + x ≤ s.hi

theorem Codes.start (hlen : 0 < len) (p : Prog) : Codes len p 0 (Fast.start len) initCfg where
  run := rfl
  state := rfl
  here := rfl
  left k := rfl
  right k := rfl
  lastL := by simp [Fast.start]
  lastR := by simp [Fast.start]
  pos := by simp [Fast.start, initCfg]
  stays := by
    intro k d hk hd
    obtain rfl : k = 0 := by omega
    cases hd
    simp only [initCfg]
    omega
  span x := by
    simp only [Fast.start]
    constructor
    · rintro ⟨j, d, hj, hd, rfl⟩
      obtain rfl : j = 0 := by omega
      cases hd
      simp only [initCfg]
      omega
    · intro hx
      refine ⟨0, initCfg, Nat.le_refl _, rfl, ?_⟩
      simp only [initCfg]
      omega

theorem Codes.inSpan {p : Prog} {n : Nat} {s : Fast} {c : Cfg} (h : Codes len p n s c) :
    s.lo ≤ s.i ∧ s.i ≤ s.hi := by
  have := (h.span c.pos).1 ⟨n, c, Nat.le_refl _, h.run, rfl⟩
  have := h.pos
  omega

theorem Fast.blank_iff (s : Fast) : s.blank = true ↔ s.l = [] ∧ s.c = 0 ∧ s.r = [] := by
  obtain ⟨q, l, c, r, i, lo, hi⟩ := s
  cases l <;> cases c <;> cases r <;> simp [Fast.blank]

theorem Codes.blank_iff {p : Prog} {n : Nat} {s : Fast} {c : Cfg} (h : Codes len p n s c) :
    s.blank = true ↔ c.Blank := by
  rw [Fast.blank_iff]
  constructor
  · rintro ⟨h1, h2, h3⟩ x
    rcases Int.lt_trichotomy x c.pos with hx | rfl | hx
    · have := h.left (c.pos - 1 - x).toNat
      rw [h1, show c.pos - 1 - ((c.pos - 1 - x).toNat : Int) = x by omega] at this
      exact this
    · rw [h.here, h2]
    · have := h.right (x - c.pos - 1).toNat
      rw [h3, show c.pos + 1 + ((x - c.pos - 1).toNat : Int) = x by omega] at this
      exact this
  · intro hb
    refine ⟨nil_of_blank h.lastL fun k => ?_, ?_, nil_of_blank h.lastR fun k => ?_⟩
    · rw [← h.left k]; exact hb _
    · rw [← h.here]; exact hb _
    · rw [← h.right k]; exact hb _

theorem Codes.leaving_iff {n : Nat} {s : Fast} {c : Cfg} (h : Codes len (ofTable tab) n s c) :
    s.leaving tab = true ↔ LeavesAt (ofTable tab) n := by
  obtain ⟨g1, g2⟩ := h.inSpan
  have hpos := h.pos
  have hvis : ∀ y, (∀ j e, j ≤ n → runFor (ofTable tab) j initCfg = some e → e.pos ≠ y) ↔
      ¬ ((s.lo : Int) ≤ (len / 2 : Nat) + y ∧ (len / 2 : Nat) + y ≤ s.hi) := by
    intro y
    rw [← h.span y]
    constructor
    · rintro hy ⟨j, d, hj, hd, e⟩
      exact hy j d hj hd e
    · intro hy j e hj he e'
      exact hy ⟨j, e, hj, he, e'⟩
  unfold Fast.leaving LeavesAt
  rw [Bool.and_eq_true, beqNat_iff, look_eq]
  constructor
  · rintro ⟨h1, h2⟩
    split at h2
    · rename_i w d q hi
      simp only [Bool.and_eq_true, beqNat_iff] at h2
      obtain ⟨rfl, h2⟩ := h2
      refine ⟨c, w, d, h.run, h.here.trans h1, by rw [h.state]; exact hi, ?_⟩
      rw [hvis]
      cases d
      · simp only [Bool.false_eq_true, if_false, beqNat_iff] at h2 ⊢
        omega
      · simp only [if_true, beqNat_iff] at h2 ⊢
        omega
    · cases h2
  · rintro ⟨d, w, dir, hd, h0, hi, hv⟩
    rw [h.run] at hd
    cases hd
    rw [hvis] at hv
    rw [h.state] at hi
    rw [hi]
    refine ⟨h.here.symm.trans h0, ?_⟩
    simp only [Bool.and_eq_true, beqNat_iff, true_and]
    cases dir
    · simp only [Bool.false_eq_true, if_false, beqNat_iff] at hv ⊢
      omega
    · simp only [if_true, beqNat_iff] at hv ⊢
      omega

/-- The shape of a move. -/
theorem Fast.move_shape {s s' : Fast} (hs : s.move tab len = some s') :
    ∃ w d q, ofTable tab (s.q, s.c) = some (w, d, q) ∧ s'.q = q ∧
      (d = false → 1 ≤ s.i ∧ s'.i = s.i - 1 ∧ s'.l = s.l.tail ∧ s'.c = cell s.l 0 ∧
        s'.r = push w s.r ∧ s'.lo = min s.lo s'.i ∧ s'.hi = s.hi) ∧
      (d = true → s.i + 1 < len ∧ s'.i = s.i + 1 ∧ s'.r = s.r.tail ∧ s'.c = cell s.r 0 ∧
        s'.l = push w s.l ∧ s'.hi = max s.hi s'.i ∧ s'.lo = s.lo) := by
  obtain ⟨q, l, c, r, i, lo, hi⟩ := s
  simp only [Fast.move, look_eq] at hs
  simp only
  cases he : ofTable tab (q, c) with
  | none => simp [he] at hs
  | some e =>
    obtain ⟨w, d, q'⟩ := e
    rw [he] at hs
    refine ⟨w, d, q', rfl, ?_⟩
    cases d with
    | false =>
      simp only at hs
      cases i with
      | zero => cases hs
      | succ i =>
        simp only at hs
        cases hb : Nat.ble lo i with
        | false =>
          have hlt : ¬ lo ≤ i := by rw [← Nat.ble_eq, hb]; simp
          rw [hb] at hs
          cases l <;> cases hs <;> simp [cell] <;> omega
        | true =>
          have hlt : lo ≤ i := Nat.ble_eq.mp hb
          rw [hb] at hs
          cases l <;> cases hs <;> simp [cell] <;> omega
    | true =>
      simp only at hs
      cases hl : Nat.ble (i + 2) len with
      | false => rw [hl] at hs; cases hs
      | true =>
        have hl' : i + 2 ≤ len := Nat.ble_eq.mp hl
        rw [hl] at hs
        simp only at hs
        cases hb : Nat.ble hi i with
        | false =>
          have hlt : ¬ hi ≤ i := by rw [← Nat.ble_eq, hb]; simp
          rw [hb] at hs
          cases r <;> cases hs <;> simp [cell] <;> omega
        | true =>
          have hlt : hi ≤ i := Nat.ble_eq.mp hb
          rw [hb] at hs
          cases r <;> cases hs <;> simp [cell] <;> omega

theorem cell_tail (l : List Nat) (k : Nat) : cell l.tail k = cell l (k + 1) := by
  cases l <;> simp [cell]

theorem last_tail {l : List Nat} (h : l.getLast? ≠ some 0) : l.tail.getLast? ≠ some 0 := by
  cases l with
  | nil => exact h
  | cons c l => exact tail_last h

theorem Codes.move {n : Nat} {s s' : Fast} {c : Cfg} (h : Codes len (ofTable tab) n s c)
    (hs : s.move tab len = some s') : ∃ c', Codes len (ofTable tab) (n + 1) s' c' := by
  obtain ⟨g1, g2⟩ := h.inSpan
  have hpos := h.pos
  obtain ⟨w, d, q, hi, hq, hF, hT⟩ := Fast.move_shape hs
  have hi' : ofTable tab c.slot = some (w, d, q) := by
    rw [Cfg.slot, h.state, h.here]; exact hi
  have hrun' : runFor (ofTable tab) (n + 1) initCfg = some (c.exec (w, d, q)) := by
    rw [runFor_succ', h.run, Option.bind_some, step_some hi']
  have hspan : ∀ x, (∃ j d, j ≤ n + 1 ∧ runFor (ofTable tab) j initCfg = some d ∧ d.pos = x) ↔
      ((s.lo : Int) ≤ (len / 2 : Nat) + x ∧ (len / 2 : Nat) + x ≤ s.hi) ∨
        x = (c.exec (w, d, q)).pos := by
    intro x
    rw [← h.span x]
    constructor
    · rintro ⟨j, d, hj, hd, e⟩
      rcases Nat.lt_or_ge n j with hlt | hle
      · obtain rfl : j = n + 1 := by omega
        rw [hrun'] at hd
        cases hd
        exact .inr e.symm
      · exact .inl ⟨j, d, hle, hd, e⟩
    · rintro (⟨j, d, hj, hd, e⟩ | e)
      · exact ⟨j, d, by omega, hd, e⟩
      · exact ⟨n + 1, _, Nat.le_refl _, hrun', e.symm⟩
  have hstay : ∀ {i' : Nat}, (i' : Int) = (len / 2 : Nat) + (c.exec (w, d, q)).pos → i' < len →
      StaysIn len (ofTable tab) (n + 1) := by
    intro i' he hl k e hk hke
    rcases Nat.lt_or_ge n k with hlt | hle
    · obtain rfl : k = n + 1 := by omega
      rw [hrun'] at hke
      cases hke
      omega
    · exact h.stays k e hle hke
  have hil : s.i < len := by
    have := h.stays n c (Nat.le_refl _) h.run
    omega
  cases d
  · obtain ⟨e1, e2, e3, e4, e5, e6, e7⟩ := hF rfl
    have hp : (c.exec (w, false, q)).pos = c.pos - 1 := rfl
    refine ⟨_, hrun', hq.symm, ?_, fun k => ?_, fun k => ?_, ?_, ?_, ?_,
      hstay (i' := s.i - 1) ?_ ?_, fun x => ?_⟩
    · rw [hp, e4]
      simp only [Cfg.exec]
      rw [if_neg (by omega)]
      have := h.left 0
      simpa using this
    · rw [hp, e3, cell_tail, ← h.left (k + 1)]
      simp only [Cfg.exec]
      rw [if_neg (by omega)]
      congr 1
      push_cast
      omega
    · rw [hp, e5]
      simp only [Cfg.exec]
      cases k with
      | zero =>
        rw [if_pos (by simp), cell_push_zero]
      | succ k =>
        rw [if_neg (by push_cast; omega), cell_push_succ, ← h.right k]
        congr 1
        push_cast
        omega
    · rw [e3]; exact last_tail h.lastL
    · rw [e5]; exact push_last w h.lastR
    · rw [hp, e2]; push_cast; omega
    · rw [hp]; push_cast; omega
    · omega
    · rw [hspan, hp, e6, e7, e2]
      constructor
      · rintro (hx | rfl) <;> omega
      · intro hx
        by_cases e : x = c.pos - 1
        · exact .inr e
        · left; omega
  · obtain ⟨e1, e2, e3, e4, e5, e6, e7⟩ := hT rfl
    have hp : (c.exec (w, true, q)).pos = c.pos + 1 := rfl
    refine ⟨_, hrun', hq.symm, ?_, fun k => ?_, fun k => ?_, ?_, ?_, ?_,
      hstay (i' := s.i + 1) ?_ e1, fun x => ?_⟩
    · rw [hp, e4]
      simp only [Cfg.exec]
      rw [if_neg (by omega)]
      have := h.right 0
      simpa using this
    · rw [hp, e5]
      simp only [Cfg.exec]
      cases k with
      | zero =>
        rw [if_pos (by simp), cell_push_zero]
      | succ k =>
        rw [if_neg (by push_cast; omega), cell_push_succ, ← h.left k]
        congr 1
        push_cast
        omega
    · rw [hp, e3, cell_tail, ← h.right (k + 1)]
      simp only [Cfg.exec]
      rw [if_neg (by omega)]
      congr 1
      push_cast
      omega
    · rw [e5]; exact push_last w h.lastL
    · rw [e3]; exact last_tail h.lastR
    · rw [hp, e2]; push_cast; omega
    · rw [hp]; push_cast; omega
    · rw [hspan, hp, e6, e7, e2]
      constructor
      · rintro (hx | rfl) <;> omega
      · intro hx
        by_cases e : x = c.pos + 1
        · exact .inr e
        · left; omega

theorem Codes.stops_iff (h7 : tab.length ≤ 7) {n : Nat} {s : Fast} {c : Cfg}
    (h : Codes len (ofTable tab) n s c) (hn : 1 ≤ n) :
    s.stops tab checks = true ↔ Stops checks (ofTable tab) n := by
  unfold Fast.stops Stops
  rw [Bool.or_eq_true, Bool.or_eq_true, Bool.and_eq_true, h.blank_iff, h.leaving_iff,
    beqNat_iff,    or_assoc]
  refine or_congr ⟨fun hb => ⟨hn, c, h.run, hb⟩, ?_⟩ (or_congr ⟨fun hq => ?_, ?_⟩ Iff.rfl)
  · rintro ⟨-, d, hd, hb⟩
    rw [h.run] at hd
    cases hd
    exact hb
  · refine ⟨c.tape c.pos, c, h.run, by rw [Cfg.slot, h.state, hq], ?_⟩
    unfold ofTable
    rw [List.getElem?_eq_none h7]
    rfl
  · rintro ⟨x, d, hd, hsl, -⟩
    rw [h.run] at hd
    cases hd
    rw [← h.state]
    exact congrArg Prod.fst hsl

theorem pow2_sound (h7 : tab.length ≤ 7) (k : Nat) : ∀ {m : Nat} {s s' : Fast} {c : Cfg},
    pow2 (Fast.go tab checks len) k s = some s' → Codes len (ofTable tab) m s c →
    (∀ j, j ≤ m → ¬ Stops checks (ofTable tab) j) →
    ∃ c', Codes len (ofTable tab) (m + 2 ^ k) s' c' ∧
      ∀ j, j ≤ m + 2 ^ k → ¬ Stops checks (ofTable tab) j := by
  induction k with
  | zero =>
    intro m s s' c h hc hno
    unfold pow2 Fast.go at h
    split at h
    · cases h
    · rename_i s1 h1
      obtain ⟨c', hc'⟩ := hc.move h1
      split at h
      · cases h
      · rename_i hs
        cases h
        refine ⟨c', hc', fun j hj => ?_⟩
        rcases Nat.lt_or_ge m j with hlt | hle
        · obtain rfl : j = m + 1 := by omega
          rw [← hc'.stops_iff h7 (by omega), hs]
          simp
        · exact hno j hle
  | succ k ih =>
    intro m s s' c h hc hno
    rw [pow2] at h
    split at h
    · cases h
    · rename_i s1 h1
      obtain ⟨c1, hc1, hno1⟩ := ih h1 hc hno
      obtain ⟨c2, hc2, hno2⟩ := ih h hc1 hno1
      rw [show m + 2 ^ k + 2 ^ k = m + 2 ^ (k + 1) by rw [Nat.pow_succ]; omega] at hc2 hno2
      exact ⟨c2, hc2, hno2⟩

theorem many_sound (h7 : tab.length ≤ 7) (ks : List Nat) : ∀ {m : Nat} {s s' : Fast} {c : Cfg},
    many (Fast.go tab checks len) ks s = some s' → Codes len (ofTable tab) m s c →
    (∀ j, j ≤ m → ¬ Stops checks (ofTable tab) j) →
    ∃ c', Codes len (ofTable tab) (m + total ks) s' c' ∧
      ∀ j, j ≤ m + total ks → ¬ Stops checks (ofTable tab) j := by
  induction ks with
  | nil =>
    intro m s s' c h hc hno
    cases h
    exact ⟨c, hc, hno⟩
  | cons k ks ih =>
    intro m s s' c h hc hno
    rw [many] at h
    split at h
    · cases h
    · rename_i s1 h1
      obtain ⟨c1, hc1, hno1⟩ := pow2_sound h7 k h1 hc hno
      obtain ⟨c2, hc2, hno2⟩ := ih h hc1 hno1
      rw [show m + 2 ^ k + total ks = m + total (k :: ks) by simp [total]; omega] at hc2 hno2
      exact ⟨c2, hc2, hno2⟩

theorem stopsAfter_sound (h7 : tab.length ≤ 7) {ks : List Nat}
    (h : stopsAfter tab checks len ks = true) :
    Stops checks (ofTable tab) (total ks + 1) ∧
      (∀ j, j < total ks + 1 → ¬ Stops checks (ofTable tab) j) ∧
      StaysIn len (ofTable tab) (total ks + 1) := by
  unfold stopsAfter at h
  rw [Raw.go_eq] at h
  simp only [Bool.and_eq_true, decide_eq_true_eq, Option.any_eq_true_iff_get, Bool.not_eq_true'] at h
  obtain ⟨⟨h1, h3⟩, h4, h5, h6⟩ := h
  have hstart := Codes.start h1 (ofTable tab)
  have hno : ∀ j, j ≤ 0 → ¬ Stops checks (ofTable tab) j := by
    intro j hj
    obtain rfl : j = 0 := by omega
    rintro (⟨hh, -⟩ | ⟨x, d, hd, hsl, -⟩ | ⟨hh, hl⟩)
    · omega
    · cases hd
      exact absurd (show (0 : Nat) = 7 from congrArg Prod.fst hsl) (by decide)
    · rw [← hstart.leaving_iff] at hl
      rw [hh, hl] at h3
      cases h3
  obtain ⟨c, hc, hnos⟩ := many_sound h7 ks (Option.some_get h4).symm hstart hno
  rw [Nat.zero_add] at hc hnos
  obtain ⟨c', hc'⟩ := hc.move (Option.some_get h5).symm
  exact ⟨(hc'.stops_iff h7 (by omega)).1 h6, fun j hj => hnos j (by omega), hc'.stays⟩

end CS
end BB
