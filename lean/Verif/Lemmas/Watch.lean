import Verif.Lemmas.HalfTapes
import Verif.Props.Settle
import Verif.Spec.Events

/-!
# Watching a machine for blank tapes and spin-outs

Used in `Props/Records` for the programs of a tree; not in the code.  A program is first run for
some moves (`race`).  If it has neither a blank tape nor spins out within these, two automata read
the tape from both ends as in `Lemmas/HalfTapes`, and the quadruples that can be reached are
collected (`sweep`); none of them may look like a blank tape or a spin-out.

The functions are written with recursors and with little nesting, for the kernel to evaluate them
fast on many programs.
-/

namespace BB.Watch

noncomputable section

/-! ### Functions -/

def nthC {α : Type} (x : α) (ih : Nat → α) (n : Nat) : α :=
  @Nat.rec (fun _ => α) x (fun m _ => ih m) n

def nth {α : Type} (d : α) (l : List α) : Nat → α :=
  @List.rec α (fun _ => Nat → α) (fun _ => d) (fun x _ ih => nthC x ih) l

def pick {α : Type} (b : Bool) (x y : α) : α := @Bool.rec (fun _ => α) y x b

/-- An instruction, or none. -/
inductive Cmd where
  | undef
  | left (p q : Nat)
  | right (p q : Nat)

abbrev Rows := List (List Cmd)

def Rows.at (t : Rows) (q c : Nat) : Cmd := nth .undef (nth [] t q) c

def lookC (q c : Nat) (e : Slot × Instr) (ih : Cmd) : Cmd :=
  pick (Nat.beq e.1.1 q) (pick (Nat.beq e.1.2 c)
    (@Bool.rec (fun _ => Cmd) (.left e.2.1 e.2.2.2) (.right e.2.1 e.2.2.2) e.2.2.1) ih) ih

def lookR (t : Table) (q c : Nat) : Cmd :=
  @List.rec (Slot × Instr) (fun _ => Cmd) .undef (fun e _ ih => lookC q c e ih) t

def zeros (l : List Nat) : Bool :=
  @List.rec Nat (fun _ => Bool) true
    (fun x _ ih => @Nat.rec (fun _ => Bool) ih (fun _ _ => false) x) l

def hd (l : List Nat) : Nat := @List.rec Nat (fun _ => Nat) 0 (fun x _ _ => x) l

def tl (l : List Nat) : List Nat := @List.rec Nat (fun _ => List Nat) [] (fun _ l _ => l) l

/-- How a race ends: no instruction, a blank tape or a spin-out after so many moves, or none of
these so far. -/
inductive End where
  | stop
  | blank (n : Nat)
  | spin (n : Nat)
  | on (n q : Nat) (l : List Nat) (c : Nat) (r : List Nat)

abbrev Race := Nat → Nat → List Nat → Nat → List Nat → End

def raceR (ih : Race) (k q : Nat) (l : List Nat) (c : Nat) (r : List Nat) (p q' : Nat) : End :=
  pick (pick (Nat.beq c 0) (pick (Nat.beq q' q) (zeros r) false) false) (.spin k)
    (pick (pick (Nat.beq p 0) (pick (zeros l) (zeros r) false) false) (.blank (Nat.succ k))
      (ih (Nat.succ k) q' (p :: l) (hd r) (tl r)))

def raceL (ih : Race) (k q : Nat) (l : List Nat) (c : Nat) (r : List Nat) (p q' : Nat) : End :=
  pick (pick (Nat.beq c 0) (pick (Nat.beq q' q) (zeros l) false) false) (.spin k)
    (pick (pick (Nat.beq p 0) (pick (zeros l) (zeros r) false) false) (.blank (Nat.succ k))
      (ih (Nat.succ k) q' (tl l) (hd l) (p :: r)))

def raceS (t : Rows) (ih : Race) (k q : Nat) (l : List Nat) (c : Nat) (r : List Nat) : End :=
  @Cmd.rec (fun _ => End) .stop (raceL ih k q l c r) (raceR ih k q l c r) (t.at q c)

def race (t : Rows) (n : Nat) : Race :=
  @Nat.rec (fun _ => Race) .on (fun _ ih => raceS t ih) n

/-- A way to come to a state of an automaton: from where, by which colour, and what to add to the
index. -/
structure Way where
  src : Nat
  col : Nat
  off : Nat

/-- Two automata, for `k` colours: their sizes multiplied, successors and ways back. -/
structure Pair where
  kab : Nat
  ka : Nat
  nb : Nat
  nextL : List (List Nat)
  nextR : List (List Nat)
  prevL : List (List Way)
  prevR : List (List Way)

/-- Left automaton's state, state, scanned colour, right automaton's state. -/
structure Quad where
  a : Nat
  q : Nat
  c : Nat
  b : Nat

abbrev Go := List Quad → Nat → Bool

abbrev Adds := List Quad → Nat → Go → Bool

def quadL (q b a x : Nat) : Quad := ⟨a, q, x, b⟩

def quadR (q a b x : Nat) : Quad := ⟨a, q, x, b⟩

def add2 (f : Nat → Nat → Quad) (ih : Adds) (todo : List Quad) (m : Nat) (go : Go) (a x i : Nat) :
    Bool :=
  @Nat.rec (fun _ => Bool) (ih (f a x :: todo) (Nat.lor m (Nat.shiftLeft 1 i)) go)
    (fun _ _ => ih todo m go) (Nat.land 1 (Nat.shiftRight m i))

def add1 (base : Nat) (f : Nat → Nat → Quad) (y : Way) (ih : Adds) (todo : List Quad) (m : Nat)
    (go : Go) : Bool :=
  add2 f ih todo m go y.1 y.2 (Nat.add base y.3)

def add0 (todo : List Quad) (m : Nat) (go : Go) : Bool := go todo m

def add (base : Nat) (f : Nat → Nat → Quad) (ys : List Way) : Adds :=
  @List.rec Way (fun _ => Adds) add0 (fun y _ ih => add1 base f y ih) ys

def nextOf (d : List (List Nat)) (a x : Nat) : Nat := nth 0 (nth [] d a) x

def goL' (P : Pair) (a : Nat) (todo : List Quad) (m : Nat) (go : Go) (b' q' : Nat) : Bool :=
  add (Nat.add (Nat.mul q' P.kab) b') (quadL q' b') (nth [] P.prevL a) todo m go

def goR' (P : Pair) (b : Nat) (todo : List Quad) (m : Nat) (go : Go) (a' q' : Nat) : Bool :=
  add (Nat.mul (Nat.add (Nat.mul q' P.ka) a') P.nb) (quadR q' a') (nth [] P.prevR b) todo m go

/-- To be avoided: a blank tape or a spin-out (`s`: on the side moved to). -/
def bad (c s o q q' : Nat) : Bool :=
  pick (Nat.beq c 0) (pick (Nat.beq s 0) (pick (Nat.beq o 0) true (Nat.beq q' q)) false) false

def goL (P : Pair) (a q c b : Nat) (todo : List Quad) (m : Nat) (go : Go) (p q' : Nat) : Bool :=
  pick (bad c a b q q') false (goL' P a todo m go (nextOf P.nextR b p) q')

def goR (P : Pair) (a q c b : Nat) (todo : List Quad) (m : Nat) (go : Go) (p q' : Nat) : Bool :=
  pick (bad c b a q q') false (goR' P b todo m go (nextOf P.nextL a p) q')

def one (t : Rows) (P : Pair) (a q c b : Nat) (todo : List Quad) (m : Nat) (go : Go) : Bool :=
  @Cmd.rec (fun _ => Bool) false (goL P a q c b todo m go) (goR P a q c b todo m go) (t.at q c)

def oneQ (t : Rows) (P : Pair) (z : Quad) (todo : List Quad) (m : Nat) (go : Go) : Bool :=
  @Quad.rec (fun _ => Bool) (fun a q c b => one t P a q c b todo m go) z

def sweepS (t : Rows) (P : Pair) (ih : Go) (todo : List Quad) (m : Nat) : Bool :=
  @List.rec Quad (fun _ => Bool) true (fun z todo _ => oneQ t P z todo m ih) todo

/-- Collects what can be reached; false if something bad is among it. -/
def sweep (t : Rows) (P : Pair) (f : Nat) : Go :=
  @Nat.rec (fun _ => Go) (fun _ _ => false) (fun _ ih => sweepS t P ih) f

def readR (d : List (List Nat)) (w : List Nat) : Nat :=
  @List.rec Nat (fun _ => Nat) 0 (fun x _ ih => nextOf d ih x) w

def start' (t : Rows) (k fuel : Nat) (P : Pair) (a q c b : Nat) : Bool :=
  sweep t P fuel [⟨a, q, c, b⟩] (Nat.shiftLeft 1
    (Nat.add (Nat.mul (Nat.add (Nat.mul (Nat.add (Nat.mul q k) c) P.nextL.length) a) P.nb) b))

def start (t : Rows) (k fuel : Nat) (P : Pair) (q : Nat) (l : List Nat) (c : Nat) (r : List Nat) :
    Bool :=
  start' t k fuel P (readR P.nextL l) q c (readR P.nextR r)

/-! ### What they mean -/

theorem nth_eq {α : Type} (d : α) (l : List α) (n : Nat) : nth d l n = l.getD n d := by
  induction l generalizing n with
  | nil => rfl
  | cons x l ih =>
    cases n with
    | zero => rfl
    | succ n => exact ih n

theorem nextOf_eq (d : List (List Nat)) (a x : Nat) : nextOf d a x = Half.Dfa.next d a x := by
  simp only [nextOf, nth_eq, Half.Dfa.next]

theorem pick_true {α : Type} (x y : α) : pick true x y = x := rfl

theorem pick_false {α : Type} (x y : α) : pick false x y = y := rfl

theorem pick_and (a b : Bool) : pick a b false = (a && b) := by cases a <;> rfl

theorem zeros_eq (l : List Nat) : zeros l = l.all fun c => c == 0 := by
  induction l with
  | nil => rfl
  | cons x l ih =>
    cases x with
    | zero => exact ih
    | succ x => rfl

theorem hd_eq (l : List Nat) : hd l = l.headD 0 := by cases l <;> rfl

theorem tl_eq (l : List Nat) : tl l = l.tail := by cases l <;> rfl

/-- The rows tell instructions of the program. -/
structure Tells (t : Rows) (p : Prog) : Prop where
  left : ∀ {q c a b}, t.at q c = .left a b → p (q, c) = some (a, false, b)
  right : ∀ {q c a b}, t.at q c = .right a b → p (q, c) = some (a, true, b)

theorem lookR_eq (t : Table) (q c : Nat) : lookR t q c = match t.get? (q, c) with
    | none => .undef
    | some (a, false, b) => .left a b
    | some (a, true, b) => .right a b := by
  induction t with
  | nil => rfl
  | cons e t ih =>
    obtain ⟨⟨s, x⟩, a, d, b⟩ := e
    rw [Table.get?_cons]
    have hstep : lookR (((s, x), (a, d, b)) :: t) q c = lookC q c ((s, x), (a, d, b)) (lookR t q c) :=
      rfl
    rw [hstep]
    by_cases h : (q, c) = (s, x)
    · rw [if_pos h]
      simp only [Prod.mk.injEq] at h
      obtain ⟨rfl, rfl⟩ := h
      have e1 : Nat.beq q q = true := Nat.beq_refl q
      have e2 : Nat.beq c c = true := Nat.beq_refl c
      simp only [lookC, e1, e2, pick_true]
      cases d <;> rfl
    · rw [if_neg h, ← ih]
      simp only [lookC]
      cases h1 : Nat.beq s q with
      | false => rfl
      | true =>
        cases h2 : Nat.beq x c with
        | false => rfl
        | true =>
          exfalso
          apply h
          rw [Nat.beq_eq] at h1 h2
          rw [h1, h2]

/-- Rows for given states and colours. -/
def rows22 (t : Table) : Rows := [[lookR t 0 0, lookR t 0 1], [lookR t 1 0, lookR t 1 1]]

def rows32 (t : Table) : Rows :=
  [[lookR t 0 0, lookR t 0 1], [lookR t 1 0, lookR t 1 1], [lookR t 2 0, lookR t 2 1]]

def rows23 (t : Table) : Rows :=
  [[lookR t 0 0, lookR t 0 1, lookR t 0 2], [lookR t 1 0, lookR t 1 1, lookR t 1 2]]

theorem tells_of {t : Table} {r : Rows}
    (h : ∀ q c, r.at q c = .undef ∨ r.at q c = lookR t q c) : Tells r t.get? := by
  constructor
  · intro q c a b hr
    rcases h q c with h | h
    · rw [h] at hr; cases hr
    · rw [h, lookR_eq] at hr
      split at hr
      · cases hr
      · cases hr; assumption
      · cases hr
  · intro q c a b hr
    rcases h q c with h | h
    · rw [h] at hr; cases hr
    · rw [h, lookR_eq] at hr
      split at hr
      · cases hr
      · cases hr
      · cases hr; assumption

theorem tells22 (t : Table) : Tells (rows22 t) t.get? := by
  apply tells_of
  intro q c
  match q, c with
  | 0, 0 | 0, 1 | 1, 0 | 1, 1 => exact .inr rfl
  | 0, _ + 2 | 1, _ + 2 | _ + 2, _ => exact .inl rfl

theorem tells32 (t : Table) : Tells (rows32 t) t.get? := by
  apply tells_of
  intro q c
  match q, c with
  | 0, 0 | 0, 1 | 1, 0 | 1, 1 | 2, 0 | 2, 1 => exact .inr rfl
  | 0, _ + 2 | 1, _ + 2 | 2, _ + 2 | _ + 3, _ => exact .inl rfl

theorem tells23 (t : Table) : Tells (rows23 t) t.get? := by
  apply tells_of
  intro q c
  match q, c with
  | 0, 0 | 0, 1 | 0, 2 | 1, 0 | 1, 1 | 1, 2 => exact .inr rfl
  | 0, _ + 3 | 1, _ + 3 | _ + 2, _ => exact .inl rfl

/-! ### The race -/

theorem all_zero_iff {z : List Nat} {w : Nat → Color} (h : ∀ i, z.getD i 0 = w i) :
    zeros z = true ↔ ∀ i, w i = 0 := by
  rw [zeros_eq]
  constructor
  · intro hz i
    rw [← h]
    exact getD_zero_of_all hz i
  · intro hw
    simp only [List.all_eq_true, beq_iff_eq]
    intro x hx
    obtain ⟨i, hi, rfl⟩ := List.getElem_of_mem hx
    have := h i
    rw [hw] at this
    simpa [List.getD, List.getElem?_eq_getElem hi] using this

/-- No blank tape after 1, ..., `k` moves, no spin-out after fewer than `k`. -/
structure Quiet (p : Prog) (k : Nat) : Prop where
  blank : ∀ j r, 0 < j → j ≤ k → ¬ BlankAt p r j
  spin : ∀ j c, j < k → runFor p j initCfg = some c → ¬ SpinsNow p c

def End.Means (p : Prog) : End → Prop
  | .stop => True
  | .blank n => FirstBlank p n ∧ ∀ m, ¬ FirstSpin p m
  | .spin n => FirstSpin p n ∧ NeverHalts p initCfg ∧ ∀ m, ¬ FirstBlank p m
  | .on k q l c r => ∃ d, runFor p k initCfg = some d ∧ Zip.Shows ⟨q, l, c, r⟩ d ∧ Quiet p k ∧ 0 < k

/-- Once a machine spins out with something on the tape, it goes on forever and the tape is never
blank. -/
theorem spin_forever {p : Prog} {d : Cfg} (h : SpinsNow p d) (hb : ¬ d.Blank) (j : Nat) :
    ∃ e, runFor p j d = some e ∧ ¬ e.Blank := by
  obtain ⟨pr, dir, h1, h2, h3⟩ := h
  suffices ∃ e, runFor p j d = some e ∧ e.state = d.state ∧ e.tape e.pos = 0 ∧
      (∀ x, (if dir then e.pos < x else x < e.pos) → e.tape x = 0) ∧
      ∃ x, (if dir then x < e.pos else e.pos < x) ∧ e.tape x ≠ 0 by
    obtain ⟨e, k1, -, -, -, x, -, hx⟩ := this
    exact ⟨e, k1, fun hbl => hx (hbl x)⟩
  induction j with
  | zero =>
    refine ⟨d, rfl, rfl, h2, h3, ?_⟩
    by_contra hcon
    apply hb
    intro x
    by_contra hx
    rcases Int.lt_trichotomy x d.pos with hlt | heq | hgt
    · cases dir
      · exact hx (h3 x (by simpa using hlt))
      · exact hcon ⟨x, by simpa using hlt, hx⟩
    · subst heq; exact hx h2
    · cases dir
      · exact hcon ⟨x, by simpa using hgt, hx⟩
      · exact hx (h3 x (by simpa using hgt))
  | succ j ih =>
    obtain ⟨e, k1, k2, k3, k4, x, k5, k6⟩ := ih
    have hs : p e.slot = some (pr, dir, d.state) := by simp only [Cfg.slot, k3, k2, h1]
    refine ⟨e.exec (pr, dir, d.state), ?_, rfl, ?_, ?_, x, ?_, ?_⟩
    · rw [runFor_succ', k1, Option.bind_some]
      exact step_some (p := p) (c := e) hs
    · cases dir
      · simp only [Cfg.exec, Bool.false_eq_true, if_false]
        rw [if_neg (by omega)]
        exact k4 _ (by simp)
      · simp only [Cfg.exec, if_true]
        rw [if_neg (by omega)]
        exact k4 _ (by simp)
    · intro y hy
      cases dir
      · simp only [Cfg.exec, Bool.false_eq_true, if_false] at hy ⊢
        rw [if_neg (by omega)]
        exact k4 _ (by simp; omega)
      · simp only [Cfg.exec, if_true] at hy ⊢
        rw [if_neg (by omega)]
        exact k4 _ (by simp; omega)
    · cases dir
      · simp only [Cfg.exec, Bool.false_eq_true, if_false] at k5 ⊢
        omega
      · simp only [Cfg.exec, if_true] at k5 ⊢
        omega
    · cases dir
      · simp only [Bool.false_eq_true, if_false] at k5
        simp only [Cfg.exec]
        rw [if_neg (by omega)]
        exact k6
      · simp only [if_true] at k5
        simp only [Cfg.exec]
        rw [if_neg (by omega)]
        exact k6

theorem spin_means {p : Prog} {k : Nat} {d : Cfg} (hd : runFor p k initCfg = some d)
    (hq : Quiet p k) (hk : 0 < k) (hs : SpinsNow p d) : (End.spin k).Means p := by
  have hnb : ¬ d.Blank := fun h => hq.blank k d.state hk (Nat.le_refl _) ⟨d, hd, rfl, h⟩
  refine ⟨⟨⟨d, hd, hs⟩, fun j c hj hc => hq.spin j c hj hc, fun j r h0 h => hq.blank j r h0 h⟩, ?_, ?_⟩
  · intro n
    rcases Nat.le_total n k with h | h
    · exact runFor_isSome_of_le h (by rw [hd]; rfl)
    · obtain ⟨j, rfl⟩ := Nat.exists_eq_add_of_le h
      obtain ⟨e, he, -⟩ := spin_forever hs hnb j
      rw [runFor_add, hd, Option.bind_some, he]; rfl
  · rintro m ⟨h0, ⟨r, hb⟩, -⟩
    rcases Nat.le_total m k with h | h
    · exact hq.blank m r h0 h hb
    · obtain ⟨j, rfl⟩ := Nat.exists_eq_add_of_le h
      obtain ⟨e, he, hne⟩ := spin_forever hs hnb j
      obtain ⟨e', he', -, hb'⟩ := hb
      rw [runFor_add, hd, Option.bind_some, he] at he'
      cases he'
      exact hne hb'

theorem zip_blank_iff {z : Zip} {d : Cfg} (h : z.Shows d) :
    d.Blank ↔ z.scan = 0 ∧ zeros z.left = true ∧ zeros z.right = true := by
  rw [all_zero_iff h.left, all_zero_iff h.right]
  constructor
  · intro hb
    exact ⟨by rw [h.scan]; exact hb _, fun i => hb _, fun i => hb _⟩
  · rintro ⟨h1, h2, h3⟩ x
    rcases Int.lt_trichotomy x d.pos with hx | hx | hx
    · have := h2 (d.pos - 1 - x).toNat
      rw [← this]; congr 1; omega
    · rw [hx, ← h.scan, h1]
    · have := h3 (x - d.pos - 1).toNat
      rw [← this]; congr 1; omega

/-- One move of a race. -/
theorem quiet_step {p : Prog} {k : Nat} {d e : Cfg} (hd : runFor p k initCfg = some d)
    (hq : Quiet p k) (hs : ¬ SpinsNow p d) (he : runFor p (k + 1) initCfg = some e)
    (hb : ¬ e.Blank) : Quiet p (k + 1) := by
  constructor
  · intro j r h0 hj hbl
    rcases Nat.lt_or_ge k j with h | h
    · have : j = k + 1 := by omega
      subst this
      obtain ⟨e', he', -, hb'⟩ := hbl
      rw [he] at he'
      cases he'
      exact hb hb'
    · exact hq.blank j r h0 h hbl
  · intro j c hj hc
    rcases Nat.lt_or_ge j k with h | h
    · exact hq.spin j c h hc
    · have : j = k := by omega
      subst this
      rw [hd] at hc
      cases hc
      exact hs

theorem blank_means {p : Prog} {k : Nat} {d e : Cfg} (hd : runFor p k initCfg = some d)
    (hq : Quiet p k) (hs : ¬ SpinsNow p d) (he : runFor p (k + 1) initCfg = some e)
    (hb : e.Blank) : (End.blank (k + 1)).Means p := by
  refine ⟨⟨by omega, ⟨e.state, e, he, rfl, hb⟩, fun j r h0 hj => hq.blank j r h0 (by omega)⟩, ?_⟩
  rintro m ⟨⟨c, h1, h2⟩, -, h4⟩
  have hm : m ≤ k := by
    by_contra hcon
    exact h4 (k + 1) e.state (by omega) (by omega) ⟨e, he, rfl, hb⟩
  rcases Nat.lt_or_ge m k with h | h
  · exact hq.spin m c h h1 h2
  · have : m = k := by omega
    subst this
    rw [hd] at h1
    cases h1
    exact hs h2

theorem shows_exec_right {q : Nat} {l : List Nat} {c : Nat} {r : List Nat} {d : Cfg}
    (h : Zip.Shows ⟨q, l, c, r⟩ d) (p q' : Nat) :
    Zip.Shows ⟨q', p :: l, hd r, tl r⟩ (d.exec (p, true, q')) := by
  have := h.exec (p, true, q')
  simpa [Zip.exec, hd_eq, tl_eq] using this

theorem shows_exec_left {q : Nat} {l : List Nat} {c : Nat} {r : List Nat} {d : Cfg}
    (h : Zip.Shows ⟨q, l, c, r⟩ d) (p q' : Nat) :
    Zip.Shows ⟨q', tl l, hd l, p :: r⟩ (d.exec (p, false, q')) := by
  have := h.exec (p, false, q')
  simpa [Zip.exec, hd_eq, tl_eq] using this

theorem zeros_cons (x : Nat) (l : List Nat) : zeros (x :: l) = (Nat.beq x 0 && zeros l) := by
  cases x <;> rfl

theorem zeros_hd_tl (l : List Nat) : zeros l = (Nat.beq (hd l) 0 && zeros (tl l)) := by
  cases l with
  | nil => rfl
  | cons x l => exact zeros_cons x l

theorem race_spec {t : Rows} {p : Prog} (ht : Tells t p) (n : Nat) {k q : Nat} {l : List Nat}
    {c : Nat} {r : List Nat} {d : Cfg} (hd : runFor p k initCfg = some d)
    (hz : Zip.Shows ⟨q, l, c, r⟩ d) (hq : Quiet p k) (hk : 0 < k) :
    (race t n k q l c r).Means p := by
  induction n generalizing k q l c r d with
  | zero => exact ⟨d, hd, hz, hq, hk⟩
  | succ n ih =>
    have hslot : d.slot = (q, c) := by
      have h1 := hz.state
      have h2 := hz.scan
      simp only at h1 h2
      simp only [Cfg.slot, ← h1, ← h2]
    have e0 : race t (n + 1) k q l c r = raceS t (race t n) k q l c r := rfl
    rw [e0, raceS]
    have hstate : d.state = q := hz.state.symm
    have hscan : d.tape d.pos = c := hz.scan.symm
    cases hc : t.at q c with
    | undef => trivial
    | left a b =>
      have hp := ht.left hc
      have he : runFor p (k + 1) initCfg = some (d.exec (a, false, b)) := by
        rw [runFor_succ', hd, Option.bind_some]
        exact step_some (p := p) (c := d) (by rw [hslot]; exact hp)
      have hsp : SpinsNow p d ↔ (Nat.beq c 0 && (Nat.beq b q && zeros l)) = true := by
        simp only [Bool.and_eq_true, Nat.beq_eq]
        rw [all_zero_iff hz.left]
        constructor
        · rintro ⟨x, dir, h1, h2, h3⟩
          rw [hscan] at h2
          subst h2
          rw [hstate, hp] at h1
          simp only [Option.some.injEq, Prod.mk.injEq] at h1
          obtain ⟨-, h5, h6⟩ := h1
          subst h5
          exact ⟨rfl, h6, fun i => h3 _ (by simp; omega)⟩
        · rintro ⟨rfl, rfl, h3⟩
          refine ⟨a, false, by rw [hstate]; exact hp, hscan, fun x hx => ?_⟩
          simp only [Bool.false_eq_true, if_false] at hx
          have := h3 (d.pos - 1 - x).toNat
          rw [← this]; congr 1; omega
      have hz' := shows_exec_left hz a b
      have hbl : (d.exec (a, false, b)).Blank ↔
          (Nat.beq a 0 && (zeros l && zeros r)) = true := by
        rw [zip_blank_iff hz', zeros_cons, zeros_hd_tl l]
        simp only [Bool.and_eq_true, Nat.beq_eq]
        constructor
        · rintro ⟨h1, h2, h3, h4⟩; exact ⟨h3, ⟨h1, h2⟩, h4⟩
        · rintro ⟨h3, ⟨h1, h2⟩, h4⟩; exact ⟨h1, h2, h3, h4⟩
      show (raceL (race t n) k q l c r a b).Means p
      simp only [raceL, pick_and]
      cases h1 : (Nat.beq c 0 && (Nat.beq b q && zeros l)) with
      | true => exact spin_means hd hq hk (hsp.2 h1)
      | false =>
        rw [pick_false]
        have hns : ¬ SpinsNow p d := fun h => by rw [hsp, h1] at h; cases h
        cases h2 : (Nat.beq a 0 && (zeros l && zeros r)) with
        | true => exact blank_means hd hq hns he (hbl.2 h2)
        | false =>
          exact ih he hz' (quiet_step hd hq hns he fun h => by rw [hbl, h2] at h; cases h)
            (Nat.succ_pos _)
    | right a b =>
      have hp := ht.right hc
      have he : runFor p (k + 1) initCfg = some (d.exec (a, true, b)) := by
        rw [runFor_succ', hd, Option.bind_some]
        exact step_some (p := p) (c := d) (by rw [hslot]; exact hp)
      have hsp : SpinsNow p d ↔ (Nat.beq c 0 && (Nat.beq b q && zeros r)) = true := by
        simp only [Bool.and_eq_true, Nat.beq_eq]
        rw [all_zero_iff hz.right]
        constructor
        · rintro ⟨x, dir, h1, h2, h3⟩
          rw [hscan] at h2
          subst h2
          rw [hstate, hp] at h1
          simp only [Option.some.injEq, Prod.mk.injEq] at h1
          obtain ⟨-, h5, h6⟩ := h1
          subst h5
          exact ⟨rfl, h6, fun i => h3 _ (by simp; omega)⟩
        · rintro ⟨rfl, rfl, h3⟩
          refine ⟨a, true, by rw [hstate]; exact hp, hscan, fun x hx => ?_⟩
          simp only [if_true] at hx
          have := h3 (x - d.pos - 1).toNat
          rw [← this]; congr 1; omega
      have hz' := shows_exec_right hz a b
      have hbl : (d.exec (a, true, b)).Blank ↔
          (Nat.beq a 0 && (zeros l && zeros r)) = true := by
        rw [zip_blank_iff hz', zeros_cons, zeros_hd_tl r]
        simp only [Bool.and_eq_true, Nat.beq_eq]
        constructor
        · rintro ⟨h1, ⟨h3, h2⟩, h4⟩; exact ⟨h3, h2, h1, h4⟩
        · rintro ⟨h3, h2, h1, h4⟩; exact ⟨h1, ⟨h3, h2⟩, h4⟩
      show (raceR (race t n) k q l c r a b).Means p
      simp only [raceR, pick_and]
      cases h1 : (Nat.beq c 0 && (Nat.beq b q && zeros r)) with
      | true => exact spin_means hd hq hk (hsp.2 h1)
      | false =>
        rw [pick_false]
        have hns : ¬ SpinsNow p d := fun h => by rw [hsp, h1] at h; cases h
        cases h2 : (Nat.beq a 0 && (zeros l && zeros r)) with
        | true => exact blank_means hd hq hns he (hbl.2 h2)
        | false =>
          exact ih he hz' (quiet_step hd hq hns he fun h => by rw [hbl, h2] at h; cases h)
            (Nat.succ_pos _)

/-- A race from after the first move, 1RB. -/
theorem race_start {t : Table} {r : Rows} (ht : Tells r t.get?)
    (h0 : t.get? (0, 0) = some (1, true, 1)) (n : Nat) :
    (race r n 1 1 [1] 0 []).Means t.get? := by
  have hd : runFor t.get? 1 initCfg = some (initCfg.exec (1, true, 1)) := by
    rw [runFor_one]
    exact step_some (p := t.get?) (c := initCfg) h0
  have hz : Zip.Shows ⟨1, [1], 0, []⟩ (initCfg.exec (1, true, 1)) := by
    have : Zip.Shows ⟨0, [], 0, []⟩ initCfg := ⟨rfl, rfl, fun _ => rfl, fun _ => rfl⟩
    exact this.exec (1, true, 1)
  have hq : Quiet t.get? 1 := by
    constructor
    · intro j r hj0 hj hbl
      have : j = 1 := by omega
      subst this
      obtain ⟨d, h1, -, h3⟩ := hbl
      rw [hd] at h1
      cases h1
      have := h3 0
      simp [Cfg.exec, initCfg] at this
    · intro j c hj hc hs
      have : j = 0 := by omega
      subst this
      cases hc
      obtain ⟨a, d, h1, -, -⟩ := hs
      have h1 : t.get? (0, 0) = some (a, d, 0) := h1
      rw [h0] at h1
      cases h1
  exact race_spec ht n hd hz hq Nat.one_pos

/-! ### The sweep -/

/-- The place of a quadruple in the mask. -/
def idx (k la nb : Nat) (z : Quad) : Nat := ((z.q * k + z.c) * la + z.a) * nb + z.b

structure Bounded (k la nb : Nat) (z : Quad) : Prop where
  a : z.a < la
  c : z.c < k
  b : z.b < nb

theorem pos_inj {n x y a b : Nat} (ha : a < n) (hb : b < n) (h : x * n + a = y * n + b) :
    x = y ∧ a = b := by
  have h1 : (x * n + a) / n = x := by
    rw [Nat.add_comm, Nat.add_mul_div_right _ _ (by omega), Nat.div_eq_of_lt ha, Nat.zero_add]
  have h2 : (y * n + b) / n = y := by
    rw [Nat.add_comm, Nat.add_mul_div_right _ _ (by omega), Nat.div_eq_of_lt hb, Nat.zero_add]
  have : x = y := by rw [← h1, ← h2, h]
  subst this
  exact ⟨rfl, by omega⟩

theorem idx_inj {k la nb : Nat} {y z : Quad} (hy : Bounded k la nb y) (hz : Bounded k la nb z)
    (h : idx k la nb y = idx k la nb z) : y = z := by
  obtain ⟨h1, h2⟩ := pos_inj hy.b hz.b h
  obtain ⟨h3, h4⟩ := pos_inj hy.a hz.a h1
  obtain ⟨h5, h6⟩ := pos_inj hy.c hz.c h3
  cases y; cases z
  simp_all

theorem land_zero_iff (m i : Nat) : Nat.land 1 (Nat.shiftRight m i) = 0 ↔ m.testBit i = false := by
  have : m.testBit i = (Nat.land 1 (Nat.shiftRight m i) != 0) := rfl
  rw [this]
  simp

theorem testBit_set (m i j : Nat) :
    (Nat.lor m (Nat.shiftLeft 1 i)).testBit j = true ↔ m.testBit j = true ∨ i = j := by
  have : Nat.lor m (Nat.shiftLeft 1 i) = m ||| (1 <<< i) := rfl
  rw [this, Nat.testBit_or, Nat.one_shiftLeft, Nat.testBit_two_pow]
  simp

/-- What adding does. -/
theorem add_spec {k la nb base : Nat} {f : Nat → Nat → Quad} {ys : List Way}
    (hys : ∀ y ∈ ys, Bounded k la nb (f y.src y.col) ∧ base + y.off = idx k la nb (f y.src y.col))
    (todo : List Quad) (m : Nat) (go : Go) :
    ∃ todo' m', add base f ys todo m go = go todo' m' ∧
      (∀ z ∈ todo, z ∈ todo') ∧ (∀ z ∈ todo', z ∈ todo ∨ Bounded k la nb z) ∧
      (∀ i, m.testBit i = true → m'.testBit i = true) ∧
      (∀ y ∈ ys, m'.testBit (idx k la nb (f y.src y.col)) = true) ∧
      (∀ z, Bounded k la nb z → m'.testBit (idx k la nb z) = true →
        m.testBit (idx k la nb z) = true ∨ z ∈ todo') := by
  induction ys generalizing todo m with
  | nil => exact ⟨todo, m, rfl, fun _ h => h, fun _ h => .inl h, fun _ h => h, by simp, fun _ _ h => .inl h⟩
  | cons y ys ih =>
    obtain ⟨hb, hi⟩ := hys y (List.mem_cons_self ..)
    have hys' := fun y' h => hys y' (List.mem_cons_of_mem _ h)
    have e0 : add base f (y :: ys) todo m go =
        add2 f (add base f ys) todo m go y.src y.col (base + y.off) := rfl
    rw [e0, hi]
    cases hl : Nat.land 1 (Nat.shiftRight m (idx k la nb (f y.src y.col))) with
    | zero =>
      have e1 : add2 f (add base f ys) todo m go y.src y.col (idx k la nb (f y.src y.col)) =
          add base f ys (f y.src y.col :: todo)
            (Nat.lor m (Nat.shiftLeft 1 (idx k la nb (f y.src y.col)))) go := by
        simp only [add2]
        rw [hl]
        rfl
      rw [e1]
      obtain ⟨todo', m', h1, h2, h2', h3, h4, h5⟩ := ih hys' (f y.src y.col :: todo)
        (Nat.lor m (Nat.shiftLeft 1 (idx k la nb (f y.src y.col))))
      refine ⟨todo', m', h1, fun z hz => h2 z (List.mem_cons_of_mem _ hz), ?_,
        fun i hm => h3 i ((testBit_set ..).2 (.inl hm)), ?_, ?_⟩
      · intro z hz
        rcases h2' z hz with hz | hz
        · rcases List.mem_cons.1 hz with rfl | hz
          · exact .inr hb
          · exact .inl hz
        · exact .inr hz
      · intro y' hy'
        rcases List.mem_cons.1 hy' with rfl | hy'
        · exact h3 _ ((testBit_set ..).2 (.inr rfl))
        · exact h4 y' hy'
      · intro z hz hm
        rcases h5 z hz hm with hm | hm
        · rcases (testBit_set ..).1 hm with hm | hm
          · exact .inl hm
          · have := idx_inj hb hz hm
            subst this
            exact .inr (h2 _ (List.mem_cons_self ..))
        · exact .inr hm
    | succ n =>
      have e1 : add2 f (add base f ys) todo m go y.src y.col (idx k la nb (f y.src y.col)) =
          add base f ys todo m go := by
        simp only [add2]
        rw [hl]
      rw [e1]
      obtain ⟨todo', m', h1, h2, h2', h3, h4, h5⟩ := ih hys' todo m
      refine ⟨todo', m', h1, h2, h2', h3, ?_, h5⟩
      intro y' hy'
      rcases List.mem_cons.1 hy' with rfl | hy'
      · apply h3
        cases hb : m.testBit (idx k la nb (f y'.src y'.col)) with
        | true => rfl
        | false =>
          rw [(land_zero_iff _ _).2 hb] at hl
          cases hl
      · exact h4 y' hy'

/-- The pair is what it says. -/
def Pair.ok (P : Pair) (k : Nat) : Bool :=
  Half.Dfa.ok P.nextL && Half.Dfa.ok P.nextR && decide (0 < k) &&
  P.kab == k * (P.nextL.length * P.nextR.length) && P.ka == k * P.nextL.length &&
  P.nb == P.nextR.length &&
  (P.prevL.all fun ys => ys.all fun y => decide (y.src < P.nextL.length) && decide (y.col < k) &&
    y.off == (y.col * P.nextL.length + y.src) * P.nextR.length) &&
  (P.prevR.all fun ys => ys.all fun y => decide (y.src < P.nextR.length) && decide (y.col < k) &&
    y.off == y.col * (P.nextL.length * P.nextR.length) + y.src) &&
  ((List.range P.nextL.length).all fun a => (List.range k).all fun x =>
    (P.prevL.getD (Half.Dfa.next P.nextL a x) []).any fun y => y.src == a && y.col == x) &&
  ((List.range P.nextR.length).all fun b => (List.range k).all fun x =>
    (P.prevR.getD (Half.Dfa.next P.nextR b x) []).any fun y => y.src == b && y.col == x)

/-- In terms of the automata. -/
structure Pair.Ok (P : Pair) (k : Nat) : Prop where
  okL : Half.Dfa.ok P.nextL = true
  okR : Half.Dfa.ok P.nextR = true
  pos : 0 < k
  kab : P.kab = k * (P.nextL.length * P.nextR.length)
  ka : P.ka = k * P.nextL.length
  nb : P.nb = P.nextR.length
  waysL : ∀ a, ∀ y ∈ nth [] P.prevL a, y.src < P.nextL.length ∧ y.col < k ∧
    y.off = (y.col * P.nextL.length + y.src) * P.nextR.length
  waysR : ∀ b, ∀ y ∈ nth [] P.prevR b, y.src < P.nextR.length ∧ y.col < k ∧
    y.off = y.col * (P.nextL.length * P.nextR.length) + y.src
  allL : ∀ a x, a < P.nextL.length → x < k →
    ∃ y ∈ nth [] P.prevL (Half.Dfa.next P.nextL a x), y.src = a ∧ y.col = x
  allR : ∀ b x, b < P.nextR.length → x < k →
    ∃ y ∈ nth [] P.prevR (Half.Dfa.next P.nextR b x), y.src = b ∧ y.col = x

theorem mem_nth {α : Type} {l : List (List α)} {n : Nat} {y : α} (h : y ∈ nth [] l n) :
    ∃ ys ∈ l, y ∈ ys := by
  rw [nth_eq] at h
  simp only [List.getD] at h
  cases hl : l[n]? with
  | none => rw [hl] at h; simp at h
  | some ys => rw [hl] at h; exact ⟨ys, List.mem_of_getElem? hl, h⟩

theorem Pair.ok_spec {P : Pair} {k : Nat} (h : P.ok k = true) : P.Ok k := by
  simp only [Pair.ok, Bool.and_eq_true, decide_eq_true_eq, beq_iff_eq, List.all_eq_true,
    List.mem_range, List.any_eq_true] at h
  obtain ⟨⟨⟨⟨⟨⟨⟨⟨⟨h1, h2⟩, h3⟩, h4⟩, h5⟩, h6⟩, h7⟩, h8⟩, h9⟩, h10⟩ := h
  refine ⟨h1, h2, h3, h4, h5, h6, ?_, ?_, ?_, ?_⟩
  · intro a y hy
    obtain ⟨ys, hys, hy⟩ := mem_nth hy
    have := h7 ys hys y hy
    exact ⟨this.1.1, this.1.2, this.2⟩
  · intro a y hy
    obtain ⟨ys, hys, hy⟩ := mem_nth hy
    have := h8 ys hys y hy
    exact ⟨this.1.1, this.1.2, this.2⟩
  · intro a x ha hx
    rw [nth_eq]
    exact h9 a ha x hx
  · intro a x ha hx
    rw [nth_eq]
    exact h10 a ha x hx

/-- A quadruple that is not bad and whose successors are in the mask. -/
def Fine (t : Rows) (P : Pair) (k m : Nat) (z : Quad) : Prop :=
  (∃ p q', t.at z.q z.c = .left p q' ∧ ¬ (z.c = 0 ∧ z.a = 0 ∧ (z.b = 0 ∨ q' = z.q)) ∧
    ∀ a x, a < P.nextL.length → x < k → Half.Dfa.next P.nextL a x = z.a →
      m.testBit (idx k P.nextL.length P.nextR.length
        ⟨a, q', x, Half.Dfa.next P.nextR z.b p⟩) = true) ∨
  (∃ p q', t.at z.q z.c = .right p q' ∧ ¬ (z.c = 0 ∧ z.b = 0 ∧ (z.a = 0 ∨ q' = z.q)) ∧
    ∀ b x, b < P.nextR.length → x < k → Half.Dfa.next P.nextR b x = z.b →
      m.testBit (idx k P.nextL.length P.nextR.length
        ⟨Half.Dfa.next P.nextL z.a p, q', x, b⟩) = true)

theorem Fine.mono {t : Rows} {P : Pair} {k m m' : Nat} {z : Quad} (h : Fine t P k m z)
    (hm : ∀ i, m.testBit i = true → m'.testBit i = true) : Fine t P k m' z := by
  rcases h with ⟨p, q', h1, h2, h3⟩ | ⟨p, q', h1, h2, h3⟩
  · exact .inl ⟨p, q', h1, h2, fun a x ha hx hn => hm _ (h3 a x ha hx hn)⟩
  · exact .inr ⟨p, q', h1, h2, fun a x ha hx hn => hm _ (h3 a x ha hx hn)⟩

theorem bad_iff (c s o q q' : Nat) :
    bad c s o q q' = true ↔ c = 0 ∧ s = 0 ∧ (o = 0 ∨ q' = q) := by
  simp only [bad, pick_and, Bool.and_eq_true, Nat.beq_eq]
  have : pick (Nat.beq o 0) true (Nat.beq q' q) = (Nat.beq o 0 || Nat.beq q' q) := by
    cases Nat.beq o 0 <;> rfl
  rw [this]
  simp only [Bool.or_eq_true, Nat.beq_eq]

theorem one_spec {t : Rows} {P : Pair} {k : Nat} (hP : P.Ok k) (z : Quad)
    (hz : Bounded k P.nextL.length P.nextR.length z) (todo : List Quad) (m : Nat) (go : Go)
    (h : oneQ t P z todo m go = true) :
    ∃ todo' m', go todo' m' = true ∧ (∀ z ∈ todo, z ∈ todo') ∧
      (∀ z ∈ todo', z ∈ todo ∨ Bounded k P.nextL.length P.nextR.length z) ∧
      (∀ i, m.testBit i = true → m'.testBit i = true) ∧ Fine t P k m' z ∧
      (∀ z, Bounded k P.nextL.length P.nextR.length z →
        m'.testBit (idx k P.nextL.length P.nextR.length z) = true →
        m.testBit (idx k P.nextL.length P.nextR.length z) = true ∨ z ∈ todo') := by
  obtain ⟨a, q, c, b⟩ := z
  have e0 : oneQ t P ⟨a, q, c, b⟩ todo m go = one t P a q c b todo m go := rfl
  rw [e0, one] at h
  cases hc : t.at q c with
  | undef => rw [hc] at h; cases h
  | left p q' =>
    rw [hc] at h
    replace h : goL P a q c b todo m go p q' = true := h
    rw [goL] at h
    cases hb : bad c a b q q' with
    | true => rw [hb] at h; cases h
    | false =>
      rw [hb, pick_false, goL', nextOf_eq] at h
      have hys : ∀ y ∈ nth [] P.prevL a,
          Bounded k P.nextL.length P.nextR.length
            (quadL q' (Half.Dfa.next P.nextR b p) y.src y.col) ∧
          Nat.add (Nat.mul q' P.kab) (Half.Dfa.next P.nextR b p) + y.off =
            idx k P.nextL.length P.nextR.length
              (quadL q' (Half.Dfa.next P.nextR b p) y.src y.col) := by
        intro y hy
        obtain ⟨h1, h2, h3⟩ := hP.waysL a y hy
        refine ⟨⟨h1, h2, Half.Dfa.next_lt hP.okR b p⟩, ?_⟩
        show q' * P.kab + Half.Dfa.next P.nextR b p + y.off = _
        rw [h3, hP.kab]
        simp only [idx, quadL]
        ring
      obtain ⟨todo', m', h1, h2, h2', h3, h4, h5⟩ := add_spec hys todo m go
      rw [h1] at h
      refine ⟨todo', m', h, h2, h2', h3, .inl ⟨p, q', hc, ?_, ?_⟩, h5⟩
      · intro hbad
        have := (bad_iff c a b q q').2 hbad
        rw [hb] at this; cases this
      · intro a' x ha' hx hn
        obtain ⟨y, hy, hy1, hy2⟩ := hP.allL a' x ha' hx
        simp only at hn
        rw [hn] at hy
        have := h4 y hy
        rw [hy1, hy2] at this
        exact this
  | right p q' =>
    rw [hc] at h
    replace h : goR P a q c b todo m go p q' = true := h
    rw [goR] at h
    cases hb : bad c b a q q' with
    | true => rw [hb] at h; cases h
    | false =>
      rw [hb, pick_false, goR', nextOf_eq] at h
      have hys : ∀ y ∈ nth [] P.prevR b,
          Bounded k P.nextL.length P.nextR.length
            (quadR q' (Half.Dfa.next P.nextL a p) y.src y.col) ∧
          Nat.mul (Nat.add (Nat.mul q' P.ka) (Half.Dfa.next P.nextL a p)) P.nb + y.off =
            idx k P.nextL.length P.nextR.length
              (quadR q' (Half.Dfa.next P.nextL a p) y.src y.col) := by
        intro y hy
        obtain ⟨h1, h2, h3⟩ := hP.waysR b y hy
        refine ⟨⟨Half.Dfa.next_lt hP.okL a p, h2, h1⟩, ?_⟩
        show (q' * P.ka + Half.Dfa.next P.nextL a p) * P.nb + y.off = _
        rw [h3, hP.ka, hP.nb]
        simp only [idx, quadR]
        ring
      obtain ⟨todo', m', h1, h2, h2', h3, h4, h5⟩ := add_spec hys todo m go
      rw [h1] at h
      refine ⟨todo', m', h, h2, h2', h3, .inr ⟨p, q', hc, ?_, ?_⟩, h5⟩
      · intro hbad
        have := (bad_iff c b a q q').2 hbad
        rw [hb] at this; cases this
      · intro b' x hb' hx hn
        obtain ⟨y, hy, hy1, hy2⟩ := hP.allR b' x hb' hx
        simp only at hn
        rw [hn] at hy
        have := h4 y hy
        rw [hy1, hy2] at this
        exact this

theorem sweep_spec {t : Rows} {P : Pair} {k : Nat} (hP : P.Ok k) (f : Nat) (todo : List Quad)
    (m : Nat) (h : sweep t P f todo m = true)
    (hbd : ∀ z ∈ todo, Bounded k P.nextL.length P.nextR.length z)
    (hinv : ∀ z, Bounded k P.nextL.length P.nextR.length z →
      m.testBit (idx k P.nextL.length P.nextR.length z) = true → z ∈ todo ∨ Fine t P k m z) :
    ∃ m', (∀ i, m.testBit i = true → m'.testBit i = true) ∧
      ∀ z, Bounded k P.nextL.length P.nextR.length z →
        m'.testBit (idx k P.nextL.length P.nextR.length z) = true → Fine t P k m' z := by
  induction f generalizing todo m with
  | zero => cases h
  | succ f ih =>
    cases todo with
    | nil =>
      refine ⟨m, fun _ h => h, fun z hz hm => ?_⟩
      rcases hinv z hz hm with h | h
      · cases h
      · exact h
    | cons z todo =>
      have e0 : sweep t P (f + 1) (z :: todo) m = oneQ t P z todo m (sweep t P f) := rfl
      rw [e0] at h
      obtain ⟨todo', m', h1, h2, h2', h3, h4, h5⟩ :=
        one_spec hP z (hbd z (List.mem_cons_self ..)) todo m _ h
      obtain ⟨m'', h6, h7⟩ := ih todo' m' h1
        (fun y hy => (h2' y hy).elim (fun h => hbd y (List.mem_cons_of_mem _ h)) id) (by
          intro y hy hm
          rcases h5 y hy hm with hm | hm
          · rcases hinv y hy hm with hy' | hy'
            · rcases List.mem_cons.1 hy' with rfl | hy'
              · exact .inr h4
              · exact .inl (h2 y hy')
            · exact .inr (hy'.mono h3)
          · exact .inl hm)
      exact ⟨m'', fun i hi => h6 i (h3 i hi), h7⟩

/-! ### The sweep and the machine -/

theorem reads_blank {d : Half.Dfa} (h : d.ok = true) {k : Nat} {w : Nat → Color} {a : Nat}
    (hr : Half.Reads d k w a) (hw : ∀ i, w i = 0) : a = 0 := by
  obtain ⟨⟨n, -, h2⟩, -, -⟩ := hr
  have hok := h
  simp only [Half.Dfa.ok, Bool.and_eq_true, beq_iff_eq] at hok
  have key : ∀ n (w : Nat → Color), (∀ i, w i = 0) → d.read n w = 0 := by
    intro n
    induction n with
    | zero => intro w _; rfl
    | succ n ih =>
      intro w hw
      simp only [Half.Dfa.read]
      rw [ih _ fun i => hw _, hw 0]
      exact hok.1.1
  rw [← h2, key n w hw]

theorem reads_list {d : Half.Dfa} (h : d.ok = true) {k : Nat} (hk : 0 < k) (l : List Nat)
    (w : Nat → Color) (hl : ∀ i, l.getD i 0 = w i) (hw : ∀ i, w i < k) :
    Half.Reads d k w (readR d l) := by
  induction l generalizing w with
  | nil =>
    have : w = fun _ => 0 := by funext i; rw [← hl i]; rfl
    rw [this]
    exact Half.Reads.blank h hk
  | cons x l ih =>
    have e : readR d (x :: l) = nextOf d (readR d l) x := rfl
    rw [e, nextOf_eq]
    have h0 : w 0 = x := by rw [← hl 0]; rfl
    have hs : ∀ i, l.getD i 0 = w (i + 1) := fun i => by rw [← hl (i + 1)]; rfl
    exact (ih (fun i => w (i + 1)) hs fun i => hw _).push h (by rw [← h0]; exact hw 0) h0
      fun i => rfl

/-- What holds of every configuration from the start of the sweep on. -/
structure Kept (P : Pair) (k m : Nat) (d : Cfg) (a b : Nat) : Prop where
  left : Half.Reads P.nextL k (fun i => d.tape (d.pos - 1 - i)) a
  right : Half.Reads P.nextR k (fun i => d.tape (d.pos + 1 + i)) b
  scan : d.tape d.pos < k
  mem : m.testBit (idx k P.nextL.length P.nextR.length ⟨a, d.state, d.tape d.pos, b⟩) = true

theorem Kept.bounded {P : Pair} {k m : Nat} {d : Cfg} {a b : Nat} (h : Kept P k m d a b) :
    Bounded k P.nextL.length P.nextR.length ⟨a, d.state, d.tape d.pos, b⟩ :=
  ⟨h.left.2.1, h.scan, h.right.2.1⟩

theorem kept_step {t : Rows} {p : Prog} (ht : Tells t p) {P : Pair} {k m : Nat} (hP : P.Ok k)
    (hbelow : ∀ s i, p s = some i → i.1 < k) {d : Cfg} {a b : Nat} (h : Kept P k m d a b)
    (hf : Fine t P k m ⟨a, d.state, d.tape d.pos, b⟩) :
    (∃ e a' b', runFor p 1 d = some e ∧ Kept P k m e a' b') ∧ ¬ d.Blank ∧ ¬ SpinsNow p d := by
  obtain ⟨ha, hb, hc, -⟩ := h
  rcases hf with ⟨pr, q', h1, h2, h3⟩ | ⟨pr, q', h1, h2, h3⟩
  · have hp := ht.left h1
    simp only at hp h1 h2 h3
    have hprk : pr < k := hbelow _ _ hp
    refine ⟨⟨d.exec (pr, false, q'), ?_⟩, ?_, ?_⟩
    · obtain ⟨a', ha', hn⟩ := ha.pop hP.okL
      have hx : d.tape (d.pos - 1) < k := by simpa using ha.2.2 0
      refine ⟨a', Half.Dfa.next P.nextR b pr, ?_, ?_, ?_, ?_, ?_⟩
      · rw [runFor_one]
        exact step_some (p := p) (c := d) hp
      · have e : (fun i : Nat => (d.exec (pr, false, q')).tape ((d.exec (pr, false, q')).pos - 1 - i))
            = fun i : Nat => d.tape (d.pos - 1 - ((i + 1 : Nat) : Int)) := by
          funext i
          simp only [Cfg.exec, Bool.false_eq_true, if_false]
          rw [if_neg (by omega)]
          congr 1
          omega
        rw [e]
        exact ha'
      · refine hb.push hP.okR hprk ?_ fun i => ?_
        · simp [Cfg.exec]
        · simp only [Cfg.exec, Bool.false_eq_true, if_false]
          rw [if_neg (by omega)]
          congr 1
          omega
      · simp only [Cfg.exec, Bool.false_eq_true, if_false]
        rw [if_neg (by omega)]
        exact hx
      · have e : (d.exec (pr, false, q')).tape (d.exec (pr, false, q')).pos = d.tape (d.pos - 1) := by
          simp only [Cfg.exec, Bool.false_eq_true, if_false]
          rw [if_neg (by omega)]
        rw [e]
        exact h3 a' _ ha'.2.1 hx (by simpa using hn)
    · intro hbl
      have e1 := reads_blank hP.okL ha fun i => hbl _
      have e2 := reads_blank hP.okR hb fun i => hbl _
      exact h2 ⟨hbl _, e1, .inl e2⟩
    · rintro ⟨pr', dir, k1, k2, k3⟩
      rw [k2] at hp
      rw [hp] at k1
      simp only [Option.some.injEq, Prod.mk.injEq] at k1
      obtain ⟨-, hdir, hq⟩ := k1
      subst hdir
      have e1 := reads_blank hP.okL ha fun i => k3 _ (by simp; omega)
      exact h2 ⟨k2, e1, .inr hq⟩
  · have hp := ht.right h1
    simp only at hp h1 h2 h3
    have hprk : pr < k := hbelow _ _ hp
    refine ⟨⟨d.exec (pr, true, q'), ?_⟩, ?_, ?_⟩
    · obtain ⟨b', hb', hn⟩ := hb.pop hP.okR
      have hx : d.tape (d.pos + 1) < k := by simpa using hb.2.2 0
      refine ⟨Half.Dfa.next P.nextL a pr, b', ?_, ?_, ?_, ?_, ?_⟩
      · rw [runFor_one]
        exact step_some (p := p) (c := d) hp
      · refine ha.push hP.okL hprk ?_ fun i => ?_
        · simp [Cfg.exec]
        · simp only [Cfg.exec, if_true]
          rw [if_neg (by omega)]
          congr 1
          omega
      · have e : (fun i : Nat => (d.exec (pr, true, q')).tape ((d.exec (pr, true, q')).pos + 1 + i)) =
            fun i : Nat => d.tape (d.pos + 1 + ((i + 1 : Nat) : Int)) := by
          funext i
          simp only [Cfg.exec, if_true]
          rw [if_neg (by omega)]
          congr 1
          omega
        rw [e]
        exact hb'
      · simp only [Cfg.exec, if_true]
        rw [if_neg (by omega)]
        exact hx
      · have e : (d.exec (pr, true, q')).tape (d.exec (pr, true, q')).pos = d.tape (d.pos + 1) := by
          simp only [Cfg.exec, if_true]
          rw [if_neg (by omega)]
        rw [e]
        exact h3 b' _ hb'.2.1 hx (by simpa using hn)
    · intro hbl
      have e1 := reads_blank hP.okL ha fun i => hbl _
      have e2 := reads_blank hP.okR hb fun i => hbl _
      exact h2 ⟨hbl _, e2, .inl e1⟩
    · rintro ⟨pr', dir, k1, k2, k3⟩
      rw [k2] at hp
      rw [hp] at k1
      simp only [Option.some.injEq, Prod.mk.injEq] at k1
      obtain ⟨-, hdir, hq⟩ := k1
      subst hdir
      have e1 := reads_blank hP.okR hb fun i => k3 _ (by simp; omega)
      exact h2 ⟨k2, e1, .inr hq⟩

/-- A sweep from where a race has come to: the machine runs forever, with no blank tape and no
spin-out. -/
theorem start_spec {t : Rows} {p : Prog} (ht : Tells t p) {P : Pair} {k f : Nat} (hP : P.ok k = true)
    (hbelow : ∀ s i, p s = some i → i.1 < k) {n q : Nat} {l : List Nat} {c : Nat} {r : List Nat}
    (hon : (End.on n q l c r).Means p) (h : start t k f P q l c r = true) :
    NeverHalts p initCfg ∧ (∀ m, ¬ FirstBlank p m) ∧ ∀ m, ¬ FirstSpin p m := by
  replace hP := Pair.ok_spec hP
  obtain ⟨d, hd, hz, hq, hn0⟩ := hon
  have hcol : ∀ x, d.tape x < k := by
    have : ∀ n d, runFor p n initCfg = some d → ∀ x, d.tape x < k := by
      intro n
      induction n with
      | zero => intro d hd x; cases hd; exact hP.pos
      | succ n ih =>
        intro d hd x
        rw [runFor_succ'] at hd
        cases he : runFor p n initCfg with
        | none => rw [he] at hd; cases hd
        | some e =>
          rw [he, Option.bind_some] at hd
          simp only [step] at hd
          cases hi : p e.slot with
          | none => rw [hi] at hd; simp at hd
          | some i =>
            rw [hi] at hd
            cases hd
            simp only [Cfg.exec]
            split
            · exact hbelow _ _ hi
            · exact ih e he x
    exact this n d hd
  have hstate : q = d.state := hz.state
  have hscan : c = d.tape d.pos := hz.scan
  have ha := reads_list hP.okL hP.pos l _ hz.left fun i => hcol _
  have hb := reads_list hP.okR hP.pos r _ hz.right fun i => hcol _
  have e0 : start t k f P q l c r = sweep t P f [⟨readR P.nextL l, q, c, readR P.nextR r⟩]
      (Nat.shiftLeft 1 (((q * k + c) * P.nextL.length + readR P.nextL l) * P.nb +
        readR P.nextR r)) := rfl
  rw [e0, hP.nb] at h
  have hbit : ∀ i j, (Nat.shiftLeft 1 i).testBit j = true ↔ i = j := by
    intro i j
    have : Nat.shiftLeft 1 i = 1 <<< i := rfl
    rw [this, Nat.one_shiftLeft, Nat.testBit_two_pow]
    simp
  have hbd0 : Bounded k P.nextL.length P.nextR.length ⟨readR P.nextL l, q, c, readR P.nextR r⟩ :=
    ⟨ha.2.1, by rw [hscan]; exact hcol _, hb.2.1⟩
  obtain ⟨m, hm1, hm2⟩ := sweep_spec hP f _ _ h
    (by
      intro z hz
      rcases List.mem_cons.1 hz with rfl | hz
      · exact hbd0
      · cases hz)
    (by
      intro z hz hm
      rw [hbit] at hm
      exact .inl (by rw [idx_inj hbd0 hz hm]; exact List.mem_cons_self ..))
  have hk0 : Kept P k m d (readR P.nextL l) (readR P.nextR r) := by
    refine ⟨ha, hb, hcol _, hm1 _ ((hbit _ _).2 ?_)⟩
    rw [hstate, hscan]
    rfl
  have hall : ∀ j, ∃ e a b, runFor p j d = some e ∧ Kept P k m e a b := by
    intro j
    induction j with
    | zero => exact ⟨d, _, _, rfl, hk0⟩
    | succ j ih =>
      obtain ⟨e, a, b, h1, h2⟩ := ih
      obtain ⟨⟨e', a', b', h3, h4⟩, -⟩ := kept_step ht hP hbelow h2 (hm2 _ h2.bounded h2.mem)
      refine ⟨e', a', b', ?_, h4⟩
      rw [runFor_add, h1, Option.bind_some, h3]
  have hgood : ∀ j e, runFor p (n + j) initCfg = some e → ¬ e.Blank ∧ ¬ SpinsNow p e := by
    intro j e he
    obtain ⟨e', a, b, h1, h2⟩ := hall j
    rw [runFor_add, hd, Option.bind_some, h1] at he
    cases he
    exact (kept_step ht hP hbelow h2 (hm2 _ h2.bounded h2.mem)).2
  refine ⟨fun i => ?_, ?_, ?_⟩
  · rcases Nat.le_total i n with h | h
    · exact runFor_isSome_of_le h (by rw [hd]; rfl)
    · obtain ⟨j, rfl⟩ := Nat.exists_eq_add_of_le h
      obtain ⟨e, a, b, h1, -⟩ := hall j
      rw [runFor_add, hd, Option.bind_some, h1]; rfl
  · rintro i ⟨h0, ⟨r', hbl⟩, -⟩
    rcases Nat.le_total i n with h | h
    · exact hq.blank i r' h0 h hbl
    · obtain ⟨j, rfl⟩ := Nat.exists_eq_add_of_le h
      obtain ⟨e, he, -, hb'⟩ := hbl
      exact (hgood j e he).1 hb'
  · rintro i ⟨⟨e, he, hs⟩, -, -⟩
    rcases Nat.lt_or_ge i n with h | h
    · exact hq.spin i e h he hs
    · obtain ⟨j, rfl⟩ := Nat.exists_eq_add_of_le h
      exact (hgood j e he).2 hs

/-! ### All together -/

/-- A pair of automata with a bound for the number of quadruples. -/
structure Try where
  fuel : Nat
  pair : Pair

/-- Automata for one program. -/
structure Hard where
  key : Nat
  pair : Pair

/-- Bounds for blank tapes and spin-outs, and a plan: run, try some pairs, run on, try others, look
the program up. -/
structure Plan where
  k : Nat
  blanks : Nat
  spins : Nat
  moves1 : Nat
  moves2 : Nat
  tries1 : List Try
  tries2 : List Try
  hard : List Hard

def tryAll (t : Rows) (k q : Nat) (l : List Nat) (c : Nat) (r : List Nat) (ps : List Try) : Bool :=
  @List.rec Try (fun _ => Bool) false (fun x _ ih => pick (start t k x.1 x.2 q l c r) true ih) ps

def tryHard (t : Rows) (k key q : Nat) (l : List Nat) (c : Nat) (r : List Nat) (ps : List Hard) :
    Bool :=
  @List.rec Hard (fun _ => Bool) false
    (fun x _ ih => pick (Nat.beq x.1 key) (start t k 1000 x.2 q l c r) ih) ps

def keyC (e : Slot × Instr) (ih : Nat) : Nat :=
  Nat.add (Nat.mul ih 512) (Nat.add (Nat.mul (Nat.add (Nat.mul (Nat.add (Nat.mul (Nat.add
    (Nat.mul e.1.1 4) e.1.2) 4) e.2.1) 2) (pick e.2.2.1 1 0)) 4) e.2.2.2)

def keyOf (t : Table) : Nat := @List.rec (Slot × Instr) (fun _ => Nat) 0 (fun e _ ih => keyC e ih) t

def ends (P : Plan) (f : Nat → Nat → List Nat → Nat → List Nat → Bool) (e : End) : Bool :=
  @End.rec (fun _ => Bool) false (fun n => Nat.ble n P.blanks) (fun n => Nat.ble n P.spins) f e

def last (P : Plan) (t : Table) (r : Rows) (_n q : Nat) (wl : List Nat) (c : Nat) (wr : List Nat) :
    Bool :=
  pick (tryAll r P.k q wl c wr P.tries2) true (tryHard r P.k (keyOf t) q wl c wr P.hard)

def first (P : Plan) (t : Table) (r : Rows) (n q : Nat) (wl : List Nat) (c : Nat) (wr : List Nat) :
    Bool :=
  pick (tryAll r P.k q wl c wr P.tries1) true (ends P (last P t r) (race r P.moves2 n q wl c wr))

def check (P : Plan) (t : Table) (r : Rows) : Bool :=
  ends P (first P t r) (race r P.moves1 1 1 [1] 0 [])

def checkAs (P : Plan) (f : Table → Rows) (t : Table) : Bool := check P t (f t)

def Plan.ok (P : Plan) : Bool :=
  (P.tries1.all fun x => x.pair.ok P.k) && (P.tries2.all fun x => x.pair.ok P.k) &&
  (P.hard.all fun x => x.pair.ok P.k)

/-- What a check shows. -/
structure Watched (p : Prog) (blanks spins : Nat) : Prop where
  goes : NeverHalts p initCfg ∨ ∃ r k, 0 < k ∧ BlankAt p r k
  blank : ∀ n, FirstBlank p n → n ≤ blanks
  spin : ∀ n, FirstSpin p n → n ≤ spins

theorem tryAll_spec {t : Rows} {k q : Nat} {l : List Nat} {c : Nat} {r : List Nat} {ps : List Try}
    (h : tryAll t k q l c r ps = true) : ∃ x ∈ ps, start t k x.fuel x.pair q l c r = true := by
  induction ps with
  | nil => cases h
  | cons x ps ih =>
    have e : tryAll t k q l c r (x :: ps) =
      pick (start t k x.fuel x.pair q l c r) true (tryAll t k q l c r ps) := rfl
    rw [e] at h
    cases hs : start t k x.fuel x.pair q l c r with
    | true => exact ⟨x, List.mem_cons_self .., hs⟩
    | false =>
      rw [hs, pick_false] at h
      obtain ⟨y, hy, h'⟩ := ih h
      exact ⟨y, List.mem_cons_of_mem _ hy, h'⟩

theorem tryHard_spec {t : Rows} {k key q : Nat} {l : List Nat} {c : Nat} {r : List Nat}
    {ps : List Hard} (h : tryHard t k key q l c r ps = true) :
    ∃ x ∈ ps, start t k 1000 x.pair q l c r = true := by
  induction ps with
  | nil => cases h
  | cons x ps ih =>
    have e : tryHard t k key q l c r (x :: ps) =
      pick (Nat.beq x.key key) (start t k 1000 x.pair q l c r) (tryHard t k key q l c r ps) := rfl
    rw [e] at h
    cases hs : Nat.beq x.key key with
    | true =>
      rw [hs, pick_true] at h
      exact ⟨x, List.mem_cons_self .., h⟩
    | false =>
      rw [hs, pick_false] at h
      obtain ⟨y, hy, h'⟩ := ih h
      exact ⟨y, List.mem_cons_of_mem _ hy, h'⟩

theorem FirstBlank.unique {p : Prog} {m n : Nat} (h1 : FirstBlank p m) (h2 : FirstBlank p n) :
    m = n := by
  obtain ⟨a1, ⟨r1, b1⟩, c1⟩ := h1
  obtain ⟨a2, ⟨r2, b2⟩, c2⟩ := h2
  rcases Nat.lt_trichotomy m n with h | h | h
  · exact absurd b1 (c2 m r1 a1 h)
  · exact h
  · exact absurd b2 (c1 n r2 a2 h)

theorem FirstSpin.unique {p : Prog} {m n : Nat} (h1 : FirstSpin p m) (h2 : FirstSpin p n) :
    m = n := by
  obtain ⟨⟨d1, a1, b1⟩, c1, -⟩ := h1
  obtain ⟨⟨d2, a2, b2⟩, c2, -⟩ := h2
  rcases Nat.lt_trichotomy m n with h | h | h
  · exact absurd b1 (c2 m d1 h a1)
  · exact h
  · exact absurd b2 (c1 n d2 h a2)

theorem watched_of_start {P : Plan} {p : Prog}
    (h : NeverHalts p initCfg ∧ (∀ m, ¬ FirstBlank p m) ∧ ∀ m, ¬ FirstSpin p m) :
    Watched p P.blanks P.spins :=
  ⟨.inl h.1, fun n hn => absurd hn (h.2.1 n), fun n hn => absurd hn (h.2.2 n)⟩

theorem ends_spec {P : Plan} {p : Prog} {f : Nat → Nat → List Nat → Nat → List Nat → Bool} {e : End}
    (hm : e.Means p) (h : ends P f e = true)
    (hf : ∀ n q l c r, (End.on n q l c r).Means p → f n q l c r = true →
      Watched p P.blanks P.spins) : Watched p P.blanks P.spins := by
  cases e with
  | stop => cases h
  | blank n =>
    obtain ⟨h1, h2⟩ := hm
    have h : Nat.ble n P.blanks = true := h
    rw [Nat.ble_eq] at h
    obtain ⟨k0, ⟨r, kb⟩, -⟩ := id h1
    exact ⟨.inr ⟨r, n, k0, kb⟩, fun m hm => by rw [FirstBlank.unique hm h1]; exact h,
      fun m hm => absurd hm (h2 m)⟩
  | spin n =>
    obtain ⟨h1, h2, h3⟩ := hm
    have h : Nat.ble n P.spins = true := h
    rw [Nat.ble_eq] at h
    exact ⟨.inl h2, fun m hm => absurd hm (h3 m),
      fun m hm => by rw [FirstSpin.unique hm h1]; exact h⟩
  | on n q l c r => exact hf n q l c r hm h

theorem check_spec {P : Plan} (hP : P.ok = true) {t : Table} {r : Rows} (ht : Tells r t.get?)
    (h0 : t.get? (0, 0) = some (1, true, 1)) (hb : ∀ e ∈ t, e.2.1 < P.k)
    (h : check P t r = true) : Watched t.get? P.blanks P.spins := by
  simp only [Plan.ok, Bool.and_eq_true, List.all_eq_true] at hP
  obtain ⟨⟨hP1, hP2⟩, hP3⟩ := hP
  have hbelow : ∀ s i, t.get? s = some i → i.1 < P.k := fun s i hi => hb _ (Table.get?_mem hi)
  refine ends_spec (race_start ht h0 P.moves1) h ?_
  intro n q l c w hm hf
  rw [first] at hf
  cases h1 : tryAll r P.k q l c w P.tries1 with
  | true =>
    obtain ⟨x, hx, hs⟩ := tryAll_spec h1
    exact watched_of_start (start_spec ht (hP1 x hx) hbelow hm hs)
  | false =>
    rw [h1, pick_false] at hf
    obtain ⟨d, k1, k2, k3, k4⟩ := hm
    refine ends_spec (race_spec ht P.moves2 k1 k2 k3 k4) hf ?_
    intro n q l c w hm hf
    rw [last] at hf
    cases h1 : tryAll r P.k q l c w P.tries2 with
    | true =>
      obtain ⟨x, hx, hs⟩ := tryAll_spec h1
      exact watched_of_start (start_spec ht (hP2 x hx) hbelow hm hs)
    | false =>
      rw [h1, pick_false] at hf
      obtain ⟨x, hx, hs⟩ := tryHard_spec hf
      exact watched_of_start (start_spec ht (hP3 x hx) hbelow hm hs)

end

end BB.Watch
