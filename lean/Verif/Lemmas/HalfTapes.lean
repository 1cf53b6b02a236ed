import Verif.Lemmas.Forever
import Verif.Lemmas.InstrSeq
import Verif.Model.Table

/-!
# Two automata reading the tape from both ends

A way of seeing that a machine never halts that is not in the code.  It is used in
`Props/SettleCases` for programs that the checks of the code leave open.  One automaton reads the
cells left of the head, one those right of it, both from the far end; a list of quadruples (left
automaton's state, machine's state, scanned colour, right automaton's state) is closed under the
moves of the machine and has no undefined slot.
-/

namespace BB.Half

/-- Rows of successors, by colour. -/
abbrev Dfa := List (List Nat)

def Dfa.next (d : Dfa) (a x : Nat) : Nat := (d.getD a []).getD x 0

/-- The state after reading `w (n - 1)`, ..., `w 0`. -/
def Dfa.read (d : Dfa) : Nat → (Nat → Color) → Nat
  | 0, _ => 0
  | n + 1, w => d.next (d.read n fun i => w (i + 1)) (w 0)

/-- Zero stays in zero at blanks; no other states than rows. -/
def Dfa.ok (d : Dfa) : Bool :=
  d.next 0 0 == 0 && decide (0 < d.length) && d.all fun row => row.all fun a => decide (a < d.length)

theorem Dfa.next_lt {d : Dfa} (h : d.ok = true) (a x : Nat) : d.next a x < d.length := by
  simp only [Dfa.ok, Bool.and_eq_true, decide_eq_true_eq, List.all_eq_true] at h
  obtain ⟨⟨-, h1⟩, h2⟩ := h
  simp only [Dfa.next, List.getD]
  cases ha : d[a]? with
  | none => simpa using h1
  | some row =>
    simp only [Option.getD_some]
    cases hx : row[x]? with
    | none => simpa using h1
    | some b => exact h2 row (List.mem_of_getElem? ha) b (List.mem_of_getElem? hx)

/-- The automaton reads this half of a tape of `k` colours, blank far out, to `a`. -/
def Reads (d : Dfa) (k : Nat) (w : Nat → Color) (a : Nat) : Prop :=
  (∃ n, (∀ i, n ≤ i → w i = 0) ∧ d.read n w = a) ∧ a < d.length ∧ ∀ i, w i < k

theorem Reads.blank {d : Dfa} (h : d.ok = true) {k : Nat} (hk : 0 < k) :
    Reads d k (fun _ => 0) 0 := by
  simp only [Dfa.ok, Bool.and_eq_true, decide_eq_true_eq] at h
  exact ⟨⟨0, fun _ _ => rfl, rfl⟩, h.1.2, fun _ => hk⟩

theorem Reads.push {d : Dfa} (h : d.ok = true) {k : Nat} {w w' : Nat → Color} {a : Nat}
    (hr : Reads d k w a) {p : Color} (hp : p < k) (h0 : w' 0 = p) (hs : ∀ i, w' (i + 1) = w i) :
    Reads d k w' (d.next a p) := by
  obtain ⟨⟨n, h1, h2⟩, -, h4⟩ := hr
  refine ⟨⟨n + 1, ?_, ?_⟩, d.next_lt h a p, ?_⟩
  · intro i hi
    cases i with
    | zero => omega
    | succ i => rw [hs]; exact h1 i (by omega)
  · have : (fun i => w' (i + 1)) = w := funext hs
    simp only [Dfa.read, this, h2, h0]
  · intro i
    cases i with
    | zero => rw [h0]; exact hp
    | succ i => rw [hs]; exact h4 i

theorem Reads.pop {d : Dfa} (h : d.ok = true) {k : Nat} {w : Nat → Color} {a : Nat}
    (hr : Reads d k w a) :
    ∃ b, Reads d k (fun i => w (i + 1)) b ∧ d.next b (w 0) = a := by
  obtain ⟨⟨n, h1, h2⟩, -, h4⟩ := hr
  have hok := h
  simp only [Dfa.ok, Bool.and_eq_true, decide_eq_true_eq, beq_iff_eq] at hok
  cases n with
  | zero =>
    refine ⟨0, ⟨⟨0, fun i _ => h1 (i + 1) (by omega), rfl⟩, hok.1.2, fun i => h4 _⟩, ?_⟩
    rw [h1 0 (by omega), hok.1.1, ← h2]
    rfl
  | succ n =>
    refine ⟨d.read n fun i => w (i + 1), ⟨⟨n, fun i hi => h1 (i + 1) (by omega), rfl⟩, ?_,
      fun i => h4 _⟩, h2⟩
    cases n with
    | zero => exact hok.1.2
    | succ n => exact d.next_lt h _ _

/-- Left automaton's state, state, scanned colour, right automaton's state. -/
abbrev Quad := Nat × Nat × Nat × Nat

/-- The ways in which an automaton may have come to `b`. -/
def Dfa.prev (d : Dfa) (k b : Nat) : List (Nat × Nat) :=
  (List.range d.length).flatMap fun b' =>
    ((List.range k).filter fun x => d.next b' x == b).map fun x => (b', x)

theorem Dfa.mem_prev {d : Dfa} {k b b' x : Nat} (h1 : b' < d.length) (h2 : x < k)
    (h3 : d.next b' x = b) : (b', x) ∈ d.prev k b := by
  simp only [Dfa.prev, List.mem_flatMap, List.mem_range, List.mem_map, List.mem_filter, beq_iff_eq,
    Prod.mk.injEq]
  exact ⟨b', h1, x, ⟨h2, h3⟩, rfl, rfl⟩

/-- Where a quadruple can go in one move; `none` if the slot is undefined. -/
def next (t : Table) (k : Nat) (l r : Dfa) (z : Quad) : Option (List Quad) :=
  match t.get? (z.2.1, z.2.2.1) with
  | none => none
  | some (p, true, q) => some ((r.prev k z.2.2.2).map fun y => (l.next z.1 p, q, y.2, y.1))
  | some (p, false, q) => some ((l.prev k z.1).map fun y => (y.1, q, y.2, r.next z.2.2.2 p))

/-- Collects what can be reached. -/
def collect (t : Table) (k : Nat) (l r : Dfa) : Nat → List Quad → List Quad → List Quad
  | 0, _, seen => seen
  | _, [], seen => seen
  | f + 1, z :: todo, seen =>
    let new := ((next t k l r z).getD []).filter fun y => !seen.contains y
    collect t k l r f (new ++ todo) (new ++ seen)

/-- The check. -/
def closed (t : Table) (k : Nat) (l r : Dfa) (seen : List Quad) : Bool :=
  l.ok && r.ok && decide (0 < k) && (t.all fun e => decide (e.2.1 < k)) &&
  seen.contains (0, 0, 0, 0) &&
  seen.all fun z => match next t k l r z with
    | none => false
    | some ys => ys.all fun y => seen.contains y

def check (t : Table) (k : Nat) (l r : Dfa) : Bool :=
  closed t k l r (collect t k l r 200 [(0, 0, 0, 0)] [(0, 0, 0, 0)])

theorem closed_neverHalts {t : Table} {k : Nat} {l r : Dfa} {seen : List Quad}
    (h : closed t k l r seen = true) : NeverHalts t.get? initCfg := by
  simp only [closed, Bool.and_eq_true, decide_eq_true_eq, List.all_eq_true,
    List.contains_iff_mem] at h
  obtain ⟨⟨⟨⟨⟨hl, hr⟩, hk⟩, hp⟩, h0⟩, hc⟩ := h
  apply neverHalts_of_invariant (fun d => ∃ a b,
    Reads l k (fun i => d.tape (d.pos - 1 - i)) a ∧ Reads r k (fun i => d.tape (d.pos + 1 + i)) b ∧
    (a, d.state, d.tape d.pos, b) ∈ seen) _
    ⟨0, 0, Reads.blank hl hk, Reads.blank hr hk, h0⟩
  rintro d ⟨a, b, ha, hb, hm⟩
  have hz := hc _ hm
  simp only [next] at hz
  cases hi : t.get? (d.state, d.tape d.pos) with
  | none => rw [hi] at hz; simp at hz
  | some i =>
    obtain ⟨p, sh, q⟩ := i
    have hpk : p < k := hp _ (Table.get?_mem hi)
    rw [hi] at hz
    refine ⟨1, d.exec (p, sh, q), Nat.one_pos, ?_, ?_⟩
    · rw [runFor_one]
      exact step_some (p := t.get?) (c := d) hi
    cases sh
    · -- left
      simp only [List.all_eq_true, List.mem_map, List.contains_iff_mem] at hz
      obtain ⟨a', ha', hn⟩ := ha.pop hl
      have hx : d.tape (d.pos - 1) < k := by simpa using ha.2.2 0
      have hmem := hz _ ⟨(a', d.tape (d.pos - 1)),
        l.mem_prev ha'.2.1 hx (by simpa using hn), rfl⟩
      refine ⟨a', r.next b p, ?_, ?_, ?_⟩
      · have e : (fun i : Nat => (d.exec (p, false, q)).tape ((d.exec (p, false, q)).pos - 1 - i)) =
            fun i : Nat => d.tape (d.pos - 1 - ((i + 1 : Nat) : Int)) := by
          funext i
          simp only [Cfg.exec, Bool.false_eq_true, if_false]
          rw [if_neg (by omega)]
          congr 1
          omega
        rw [e]
        exact ha'
      · refine hb.push hr hpk ?_ fun i => ?_
        · simp [Cfg.exec]
        · simp only [Cfg.exec, Bool.false_eq_true, if_false]
          rw [if_neg (by omega)]
          congr 1
          omega
      · have e : (d.exec (p, false, q)).tape (d.exec (p, false, q)).pos = d.tape (d.pos - 1) := by
          simp only [Cfg.exec, Bool.false_eq_true, if_false]
          rw [if_neg (by omega)]
        rw [e]
        exact hmem
    · simp only [List.all_eq_true, List.mem_map, List.contains_iff_mem] at hz
      obtain ⟨b', hb', hn⟩ := hb.pop hr
      have hx : d.tape (d.pos + 1) < k := by simpa using hb.2.2 0
      have hmem := hz _ ⟨(b', d.tape (d.pos + 1)),
        r.mem_prev hb'.2.1 hx (by simpa using hn), rfl⟩
      refine ⟨l.next a p, b', ?_, ?_, ?_⟩
      · refine ha.push hl hpk ?_ fun i => ?_
        · simp [Cfg.exec]
        · simp only [Cfg.exec, if_true]
          rw [if_neg (by omega)]
          congr 1
          omega
      · have e : (fun i : Nat => (d.exec (p, true, q)).tape ((d.exec (p, true, q)).pos + 1 + i)) =
            fun i : Nat => d.tape (d.pos + 1 + ((i + 1 : Nat) : Int)) := by
          funext i
          simp only [Cfg.exec, if_true]
          rw [if_neg (by omega)]
          congr 1
          omega
        rw [e]
        exact hb'
      · have e : (d.exec (p, true, q)).tape (d.exec (p, true, q)).pos = d.tape (d.pos + 1) := by
          simp only [Cfg.exec, if_true]
          rw [if_neg (by omega)]
        rw [e]
        exact hmem

theorem check_neverHalts {t : Table} {k : Nat} {l r : Dfa} (h : check t k l r = true) :
    NeverHalts t.get? initCfg := closed_neverHalts h

end BB.Half
