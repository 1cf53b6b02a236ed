import Verif.Lemmas.Reason
import Mathlib.Logic.Relation

/-!
# The backward search misses no run
-/

namespace BB

/-! ## Entry points -/

/-- An instruction is listed under a state. -/
def Entrypoints.Has (es : Entrypoints) (q : State) (x : Slot × Instr) : Prop :=
  ∃ l, (q, l) ∈ es ∧ x ∈ l

def Entrypoints.keys (es : Entrypoints) : List State := es.map Prod.fst

theorem Entrypoints.mem_prune {es : Entrypoints} {q : State} {l : List (Slot × Instr)} :
    (q, l) ∈ es.prune ↔ l ≠ [] ∧ ∃ l', (q, l') ∈ es ∧
      l = l'.filter fun i => es.keys.contains i.1.1 := by
  simp only [Entrypoints.prune, List.mem_filter, List.mem_map, Prod.mk.injEq, Entrypoints.keys]
  constructor
  · rintro ⟨⟨⟨q', l'⟩, h1, rfl, rfl⟩, h2⟩
    exact ⟨by simpa using h2, l', h1, rfl⟩
  · rintro ⟨h1, l', h2, rfl⟩
    exact ⟨⟨_, h2, rfl, rfl⟩, by simpa using h1⟩

theorem Entrypoints.has_prune {es : Entrypoints} {q : State} {x : Slot × Instr} :
    es.prune.Has q x ↔ es.Has q x ∧ x.1.1 ∈ es.keys := by
  constructor
  · rintro ⟨l, h1, h2⟩
    obtain ⟨-, l', h3, rfl⟩ := Entrypoints.mem_prune.1 h1
    rw [List.mem_filter] at h2
    exact ⟨⟨l', h3, h2.1⟩, by simpa using h2.2⟩
  · rintro ⟨⟨l', h1, h2⟩, h3⟩
    have : x ∈ l'.filter fun i => es.keys.contains i.1.1 := List.mem_filter.2 ⟨h2, by simpa using h3⟩
    exact ⟨_, Entrypoints.mem_prune.2 ⟨List.ne_nil_of_mem this, l', h1, rfl⟩, this⟩

theorem Entrypoints.keys_prune_sub (es : Entrypoints) : ∀ q ∈ es.prune.keys, q ∈ es.keys := by
  intro q hq
  obtain ⟨⟨q', l⟩, h1, rfl⟩ := List.mem_map.1 hq
  obtain ⟨-, l', h2, -⟩ := Entrypoints.mem_prune.1 h1
  exact List.mem_map.2 ⟨_, h2, rfl⟩

theorem Entrypoints.keys_prune_sublist (es : Entrypoints) : es.prune.keys.Sublist es.keys := by
  have : (es.map fun e => (e.1, e.2.filter fun i => es.keys.contains i.1.1)).map Prod.fst
      = es.keys := by
    rw [List.map_map]
    rfl
  rw [← this]
  exact List.filter_sublist.map _

theorem Entrypoints.has_key {es : Entrypoints} {q : State} {x : Slot × Instr} (h : es.Has q x) :
    q ∈ es.keys := by
  obtain ⟨l, h1, -⟩ := h
  exact List.mem_map.2 ⟨_, h1, rfl⟩

theorem Entrypoints.pruneLoop_sub (k : Nat) (es : Entrypoints) :
    (∀ q ∈ (es.pruneLoop k).keys, q ∈ es.keys) ∧
    (∀ q x, (es.pruneLoop k).Has q x → es.Has q x) ∧
    (∀ q x, x.1.1 ∈ (es.pruneLoop k).keys → es.Has q x → (es.pruneLoop k).Has q x) ∧
    (es.keys.Nodup → (es.pruneLoop k).keys.Nodup) := by
  induction k generalizing es with
  | zero => exact ⟨fun _ h => h, fun _ _ h => h, fun _ _ _ h => h, fun h => h⟩
  | succ k ih =>
    simp only [Entrypoints.pruneLoop]
    split
    · refine ⟨es.keys_prune_sub, fun q x h => (Entrypoints.has_prune.1 h).1, fun q x h1 h2 => ?_,
        fun h => h.sublist es.keys_prune_sublist⟩
      exact Entrypoints.has_prune.2 ⟨h2, es.keys_prune_sub _ h1⟩
    · obtain ⟨h1, h2, h3, h4⟩ := ih es.prune
      refine ⟨fun q hq => es.keys_prune_sub q (h1 q hq),
        fun q x h => (Entrypoints.has_prune.1 (h2 q x h)).1, fun q x hx h => ?_,
        fun h => h4 (h.sublist es.keys_prune_sublist)⟩
      exact h3 q x hx (Entrypoints.has_prune.2 ⟨h, es.keys_prune_sub _ (h1 _ hx)⟩)

/-- After the loop every source state has entries itself: `entrypoints[&state]` finds its key. -/
theorem Entrypoints.pruneLoop_closed (k : Nat) (es : Entrypoints) (hk : es.length ≤ k) :
    ∀ q x, (es.pruneLoop k).Has q x → x.1.1 ∈ (es.pruneLoop k).keys := by
  induction k generalizing es with
  | zero =>
    have : es = [] := List.length_eq_zero_iff.1 (by omega)
    subst this
    rintro q x ⟨l, hl, -⟩
    simp [Entrypoints.pruneLoop] at hl
  | succ k ih =>
    intro q x
    simp only [Entrypoints.pruneLoop]
    split
    · rename_i hlen
      intro h
      have hkey := (Entrypoints.has_prune.1 h).2
      have : es.prune.keys = es.keys := es.keys_prune_sublist.eq_of_length (by
        simpa [Entrypoints.keys] using hlen)
      rw [this]
      exact hkey
    · rename_i hlen
      refine ih es.prune ?_ q x
      have := es.keys_prune_sublist.length_le
      simp only [Entrypoints.keys, List.length_map] at this
      omega

theorem Table.keys_entries (t : Table) (q : State) :
    q ∈ t.entries.keys ↔ ∃ e ∈ t, e.2.2.2 = q := by
  simp only [Table.entries, Entrypoints.keys, List.map_map]
  have : ∀ l : Table, q ∈ l.foldr (fun e acc => insertUniq e.2.2.2 acc) [] ↔
      ∃ e ∈ l, e.2.2.2 = q := by
    intro l
    induction l with
    | nil => simp
    | cons e l ih =>
      rw [List.foldr_cons, mem_insertUniq, ih]
      simp only [List.mem_cons, exists_eq_or_imp]
      constructor
      · rintro (h | h)
        · exact .inl h.symm
        · exact .inr h
      · rintro (h | h)
        · exact .inl h.symm
        · exact .inr h
  rw [← this t]
  simp only [List.mem_map, Function.comp]
  constructor
  · rintro ⟨a, h, rfl⟩
    exact h
  · intro h
    exact ⟨q, h, rfl⟩

theorem Table.nodup_entries (t : Table) : t.entries.keys.Nodup := by
  have : ∀ l : Table, (l.foldr (fun e acc => insertUniq e.2.2.2 acc) []).Pairwise (· < ·) := by
    intro l
    induction l with
    | nil => simp
    | cons e l ih => exact sorted_insertUniq _ _ ih
  simp only [Table.entries, Entrypoints.keys, List.map_map]
  have h2 : (Prod.fst ∘ fun q => (q, List.filter (fun e : Slot × Instr => e.2.2.2 == q) t))
      = (id : State → State) := rfl
  rw [h2, List.map_id]
  exact (this t).imp fun h => Nat.ne_of_lt h

theorem Table.has_entries (t : Table) (q : State) (x : Slot × Instr) :
    t.entries.Has q x ↔ x ∈ t ∧ x.2.2.2 = q := by
  constructor
  · rintro ⟨l, h1, h2⟩
    simp only [Table.entries, List.mem_map, Prod.mk.injEq] at h1
    obtain ⟨a, -, rfl, rfl⟩ := h1
    simpa using h2
  · rintro ⟨h1, h2⟩
    have := (t.keys_entries q).2 ⟨x, h1, h2⟩
    simp only [Table.entries, Entrypoints.keys, List.map_map, List.mem_map, Function.comp] at this
    obtain ⟨a, h3, h4⟩ := this
    subst h4
    subst h2
    exact ⟨t.filter fun e => e.2.2.2 == x.2.2.2, List.mem_map.2 ⟨_, h3, rfl⟩, by simpa using h1⟩

/-- The entries that are left. -/
theorem Table.entrypoints_spec (t : Table) :
    (∀ q x, t.entrypoints.Has q x → x ∈ t ∧ x.2.2.2 = q) ∧
    (∀ x ∈ t, x.1.1 ∈ t.entrypoints.keys → t.entrypoints.Has x.2.2.2 x) ∧
    t.entrypoints.keys.Nodup := by
  obtain ⟨-, h2, h3, h4⟩ := Entrypoints.pruneLoop_sub t.entries.length t.entries
  exact ⟨fun q x h => (t.has_entries q x).1 (h2 q x h),
    fun x hx hk => h3 _ x hk ((t.has_entries _ x).2 ⟨hx, rfl⟩), h4 t.nodup_entries⟩

theorem Table.entrypoints_closed (t : Table) :
    ∀ q x, t.entrypoints.Has q x → x.1.1 ∈ t.entrypoints.keys :=
  Entrypoints.pruneLoop_closed _ _ (Nat.le_refl _)

theorem mem_lookup_of_nodup {es : Entrypoints} (h : es.keys.Nodup) {q : State}
    {x : Slot × Instr} : x ∈ (es.lookup q).getD [] ↔ es.Has q x := by
  induction es with
  | nil => simp [Entrypoints.Has]
  | cons e es ih =>
    obtain ⟨k, l⟩ := e
    simp only [Entrypoints.keys, List.map_cons, List.nodup_cons] at h
    rw [List.lookup_cons]
    by_cases hk : q = k
    · subst hk
      simp only [beq_self_eq_true, Option.getD_some, Entrypoints.Has, List.mem_cons, Prod.mk.injEq]
      constructor
      · intro hx
        exact ⟨l, by simp, hx⟩
      · rintro ⟨l', (⟨-, rfl⟩ | hl'), hx⟩
        · exact hx
        · exact absurd (List.mem_map.2 ⟨_, hl', rfl⟩) h.1
    · rw [show (q == k) = false by simpa using hk]
      simp only
      rw [ih h.2]
      simp only [Entrypoints.Has, List.mem_cons, Prod.mk.injEq]
      constructor
      · rintro ⟨l', hl', hx⟩
        exact ⟨l', .inr hl', hx⟩
      · rintro ⟨l', (⟨h1, -⟩ | hl'), hx⟩
        · exact absurd h1 hk
        · exact ⟨l', hl', hx⟩

theorem entry_isSome_iff {es : Entrypoints} {q : State} :
    (es.lookup q).isSome ↔ q ∈ es.keys := by
  induction es with
  | nil => simp [Entrypoints.keys]
  | cons e es ih =>
    obtain ⟨k, l⟩ := e
    rw [List.lookup_cons]
    simp only [Entrypoints.keys, List.map_cons, List.mem_cons] at ih ⊢
    by_cases hk : q = k
    · subst hk
      simp
    · rw [show (q == k) = false by simpa using hk]
      simp only [hk, false_or]
      exact ih

/-- One state leads to another. -/
def Table.Edge (t : Table) (a b : State) : Prop := ∃ c i, t.get? (a, c) = some i ∧ i.2.2 = b

/-- What can be reached from a cycle keeps its entries. -/
theorem Table.entrypoints_of_cycle {t : Table} {q s : State} (h : Relation.TransGen t.Edge q q)
    (hs : Relation.ReflTransGen t.Edge q s) : s ∈ t.entrypoints.keys := by
  -- all states that can be reached from `q` stay
  have key : ∀ (k : Nat) (es : Entrypoints),
      (∀ a, Relation.TransGen t.Edge q a → a ∈ es.keys) →
      (∀ x ∈ t, Relation.TransGen t.Edge q x.1.1 → es.Has x.2.2.2 x) →
      ∀ a, Relation.TransGen t.Edge q a → a ∈ (es.pruneLoop k).keys := by
    intro k
    induction k with
    | zero => exact fun es h1 _ => h1
    | succ k ih =>
      intro es h1 h2
      have h2' : ∀ x ∈ t, Relation.TransGen t.Edge q x.1.1 → es.prune.Has x.2.2.2 x :=
        fun x hx hr => Entrypoints.has_prune.2 ⟨h2 x hx hr, h1 _ hr⟩
      have h1' : ∀ a, Relation.TransGen t.Edge q a → a ∈ es.prune.keys := by
        intro a ha
        have : ∃ b, Relation.TransGen t.Edge q b ∧ t.Edge b a := by
          cases ha with
          | single e => exact ⟨q, h, e⟩
          | tail r e => exact ⟨_, r, e⟩
        obtain ⟨b, hb, c, i, hi, rfl⟩ := this
        exact Entrypoints.has_key (h2' ((b, c), i) (Table.get?_mem hi) hb)
      simp only [Entrypoints.pruneLoop]
      split
      · exact h1'
      · exact ih es.prune h1' h2'
  refine key _ _ ?_ ?_ s (h.trans_left hs)
  · intro a ha
    rw [Table.keys_entries]
    have : ∃ b, t.Edge b a := by
      cases ha with
      | single e => exact ⟨_, e⟩
      | tail r e => exact ⟨_, e⟩
    obtain ⟨b, c, i, hi, rfl⟩ := this
    exact ⟨_, Table.get?_mem hi, rfl⟩
  · intro x hx _
    exact (t.has_entries _ x).2 ⟨hx, rfl⟩

/-! ## Paths -/

/-- From `c` the machine uses the instructions of the slots in the list, and comes to `d`. -/
def Follows (p : Prog) : List Slot → Cfg → Cfg → Prop
  | [], c, d => c = d
  | s :: ss, c, d => c.slot = s ∧ ∃ i, p s = some i ∧ Follows p ss (c.exec i) d

theorem Follows.run {p : Prog} {ss : List Slot} {c d : Cfg} (h : Follows p ss c d) :
    runFor p ss.length c = some d := by
  induction ss generalizing c with
  | nil => exact congrArg some h
  | cons s ss ih =>
    obtain ⟨h1, i, h2, h3⟩ := h
    rw [List.length_cons, runFor, step_some (by rw [h1]; exact h2), Option.bind_some]
    exact ih h3

theorem Follows.eq {p : Prog} {ss ss' : List Slot} {c d d' : Cfg} (h : Follows p ss c d)
    (h' : Follows p ss' c d') (hlen : ss.length = ss'.length) : ss = ss' ∧ d = d' := by
  induction ss generalizing c ss' with
  | nil =>
    have : ss' = [] := List.length_eq_zero_iff.1 hlen.symm
    subst this
    exact ⟨rfl, h.symm.trans h'⟩
  | cons s ss ih =>
    cases ss' with
    | nil => simp at hlen
    | cons s' ss' =>
      obtain ⟨h1, i, h2, h3⟩ := h
      obtain ⟨h1', i', h2', h3'⟩ := h'
      have hs : s = s' := h1.symm.trans h1'
      subst hs
      rw [h2] at h2'
      cases h2'
      obtain ⟨e1, e2⟩ := ih h3 h3' (by simpa using hlen)
      exact ⟨by rw [e1], e2⟩

/-- The shorter path is the beginning of the longer one. -/
theorem Follows.prefix {p : Prog} {ss ss' : List Slot} {c d d' : Cfg} (h : Follows p ss c d)
    (h' : Follows p ss' c d') (hlen : ss.length ≤ ss'.length) :
    ∃ r, ss' = ss ++ r ∧ Follows p r d d' := by
  induction ss generalizing c ss' with
  | nil =>
    cases h
    exact ⟨ss', rfl, h'⟩
  | cons s ss ih =>
    cases ss' with
    | nil => simp at hlen
    | cons s' ss' =>
      obtain ⟨h1, i, h2, h3⟩ := h
      obtain ⟨h1', i', h2', h3'⟩ := h'
      have hs : s = s' := h1.symm.trans h1'
      subst hs
      rw [h2] at h2'
      cases h2'
      obtain ⟨r, e1, e2⟩ := ih h3 h3' (by simpa using hlen)
      exact ⟨r, by rw [e1]; rfl, e2⟩

theorem Follows.split {p : Prog} {ss r : List Slot} {c d : Cfg} (h : Follows p (ss ++ r) c d) :
    ∃ m, Follows p ss c m ∧ Follows p r m d := by
  induction ss generalizing c with
  | nil => exact ⟨c, rfl, h⟩
  | cons s ss ih =>
    obtain ⟨h1, i, h2, h3⟩ := h
    obtain ⟨m, h4, h5⟩ := ih h3
    exact ⟨m, ⟨h1, i, h2, h4⟩, h5⟩

/-! ## Nodes -/

/-- A pattern `(q, b)` says exactly: the machine takes the path and then fits the target. -/
def Sem (p : Prog) (q : State) (b : Backstepper) (ss : List Slot) (τ : BConfig) : Prop :=
  b.Wf ∧ b.lEnd = τ.tape.lEnd ∧ b.rEnd = τ.tape.rEnd ∧
  ∀ c : Cfg, c.state = q →
    (b.Match c ↔ ∃ d, Follows p ss c d ∧ d.state = τ.state ∧ τ.tape.Match d)

/-- The configuration is a target. -/
def Hit (targets : List BConfig) (c : Cfg) : Prop :=
  ∃ τ ∈ targets, c.state = τ.state ∧ τ.tape.Match c

/-- Nodes of level `k`. -/
def NodeOk (p : Prog) (targets : List BConfig) (k : Nat) (q : State) (b : Backstepper) : Prop :=
  ∃ ss τ, τ ∈ targets ∧ ss.length = k ∧ Sem p q b ss τ

def blankCfg (q : State) : Cfg := ⟨q, 0, fun _ => 0⟩

/-- What is known about the states in `blanks` at level `k`; `out` are the nodes of that level
that have been made. -/
def BlanksOk (p : Prog) (targets : List BConfig) (k : Nat) (blanks : List State)
    (out : List BConfig) : Prop :=
  ∀ q ∈ blanks, ∃ ss τ d, τ ∈ targets ∧ Follows p ss (blankCfg q) d ∧ d.state = τ.state ∧
    τ.tape.Match d ∧
    (ss.length < k ∨ ss.length = k ∧ ∃ n ∈ out, n.state = q ∧ Sem p q n.tape ss τ)

/-- What makes skipping blank patterns right. -/
structure Targets (p : Prog) (targets : List BConfig) : Prop where
  wf : ∀ τ ∈ targets, τ.tape.Wf
  unique : ∀ τ ∈ targets, ∀ τ' ∈ targets, τ.state = τ'.state → τ.tape.scan = τ'.tape.scan →
    τ.tape = τ'.tape
  skip : ∀ q b ss τ ss' d c, τ ∈ targets → Sem p q b ss τ → b.blank = true →
    Follows p ss' (blankCfg q) d → Hit targets d → ss'.length < ss.length →
    c.state = q → b.Match c → ∃ j, j < ss.length ∧ ∃ e, runFor p j c = some e ∧ Hit targets e

theorem Sem.back {p : Prog} {q : State} {b : Backstepper} {ss : List Slot} {τ : BConfig}
    (h : Sem p q b ss τ) {s : Slot} {i : Instr} (hp : p s = some i) (hq : i.2.2 = q)
    (hc : (b.checkStep i.2.1 i.1).isSome) : Sem p s.1 (b.backstep i.2.1 s.2) (s :: ss) τ := by
  obtain ⟨h1, h2, h3, h4⟩ := h
  obtain ⟨print, shift, q'⟩ := i
  simp only at hq hc
  subst hq
  refine ⟨h1.backstep _ _, ?_, ?_, fun c hcs => ?_⟩
  · cases shift <;> exact h2
  · cases shift <;> exact h3
  · have hscan : (b.backstep shift s.2).scan = s.2 := by cases shift <;> rfl
    constructor
    · intro hm
      have hslot : c.tape c.pos = s.2 := by
        rw [hm.1]
        exact hscan
      have hm' : b.Match (c.exec (print, shift, q')) := by
        rw [match_backstep h1]
        rw [hslot]
        exact ⟨hc, hm⟩
      obtain ⟨d, h5, h6⟩ := (h4 _ rfl).1 hm'
      exact ⟨d, ⟨by simp only [Cfg.slot, hcs, hslot], _, hp, h5⟩, h6⟩
    · rintro ⟨d, ⟨h5, i, h6, h7⟩, h8⟩
      rw [hp] at h6
      cases h6
      have hm' := (h4 (c.exec (print, shift, q')) rfl).2 ⟨d, h7, h8⟩
      rw [match_backstep h1] at hm'
      have : c.tape c.pos = s.2 := by rw [← h5]; rfl
      rw [this] at hm'
      exact hm'.2

theorem Sem.blank_follows {p : Prog} {q : State} {b : Backstepper} {ss : List Slot} {τ : BConfig}
    (h : Sem p q b ss τ) (hb : b.blank = true) :
    ∃ d, Follows p ss (blankCfg q) d ∧ d.state = τ.state ∧ τ.tape.Match d :=
  (h.2.2.2 (blankCfg q) rfl).1 (match_of_blank hb q 0)

/-- A step the reasoner may take back from `(q, b)`. -/
def StepBackOk (p : Prog) (q : State) (b : Backstepper) (i : Instr) : Prop :=
  ∃ j, p (i.2.2, i.1) = some j ∧ j.2.2 = q ∧ j.2.1 = i.2.1 ∧ (b.checkStep j.2.1 j.1).isSome

/-- `c` is a configuration that comes to a target for the first time in exactly `k` steps. -/
def FirstIn (p : Prog) (targets : List BConfig) (k : Nat) (c : Cfg) : Prop :=
  ∀ j < k, ∀ e, runFor p j c = some e → ¬ Hit targets e

theorem stepInner_spec {p : Prog} {targets : List BConfig} (ht : Targets p targets) {k : Nat}
    (n : BConfig) (hn : NodeOk p targets k n.state n.tape) :
    ∀ (instrs : List Instr) (blanks : List State) (E out : List BConfig) (blanks' : List State),
      stepInner n instrs blanks = some (out, blanks') →
      (∀ i ∈ instrs, StepBackOk p n.state n.tape i) →
      BlanksOk p targets (k + 1) blanks E →
      (∀ m ∈ out, NodeOk p targets (k + 1) m.state m.tape) ∧
      BlanksOk p targets (k + 1) blanks' (E ++ out) ∧
      (∀ i ∈ instrs, ¬ (i.2.2 = 0 ∧ (n.tape.backstep i.2.1 i.1).blank = true)) ∧
      ∀ i ∈ instrs, ∀ c : Cfg, c.state = i.2.2 → (n.tape.backstep i.2.1 i.1).Match c →
        FirstIn p targets (k + 1) c → ∃ m ∈ E ++ out, m.state = c.state ∧ m.tape.Match c := by
  obtain ⟨ss, τ, hτ, hlen, hsem⟩ := hn
  intro instrs
  induction instrs with
  | nil =>
    intro blanks E out blanks' h _ hb
    simp only [stepInner, Option.some.injEq, Prod.mk.injEq] at h
    obtain ⟨rfl, rfl⟩ := h
    simp only [List.append_nil]
    exact ⟨by simp, hb, by simp, by simp⟩
  | cons i instrs ih =>
    intro blanks E out blanks' h hback hb
    obtain ⟨color, shift, state⟩ := i
    obtain ⟨j, hj1, hj2, hj3, hj4⟩ := hback (color, shift, state) (by simp)
    simp only at hj1 hj3
    have hnew : Sem p state (n.tape.backstep shift color) ((state, color) :: ss) τ := by
      have := hsem.back hj1 hj2 hj4
      rw [hj3] at this
      exact this
    have hback' : ∀ i ∈ instrs, StepBackOk p n.state n.tape i := fun i hi => hback i (by simp [hi])
    -- the case in which a node is made
    have hgo : ∀ (bl : List State) (recs : Nat) (out' : List BConfig) (b' : List State),
        BlanksOk p targets (k + 1) bl (E ++ [⟨state, n.tape.backstep shift color, recs,
          (n.state, n.tape) :: n.prev⟩]) →
        ¬ (state = 0 ∧ (n.tape.backstep shift color).blank = true) →
        stepInner n instrs bl = some (out', b') →
        (⟨state, n.tape.backstep shift color, recs, (n.state, n.tape) :: n.prev⟩ :: out', b')
          = (out, blanks') →
        (∀ m ∈ out, NodeOk p targets (k + 1) m.state m.tape) ∧
        BlanksOk p targets (k + 1) blanks' (E ++ out) ∧
        (∀ i ∈ (color, shift, state) :: instrs,
          ¬ (i.2.2 = 0 ∧ (n.tape.backstep i.2.1 i.1).blank = true)) ∧
        ∀ i ∈ (color, shift, state) :: instrs, ∀ c : Cfg, c.state = i.2.2 →
          (n.tape.backstep i.2.1 i.1).Match c →
          FirstIn p targets (k + 1) c → ∃ m ∈ E ++ out, m.state = c.state ∧ m.tape.Match c := by
      intro bl recs out' b' hbl hz hin heq
      simp only [Prod.mk.injEq] at heq
      obtain ⟨rfl, rfl⟩ := heq
      obtain ⟨g1, g2, g3, g4⟩ := ih bl _ out' b' hin hback' hbl
      rw [List.append_assoc, List.singleton_append] at g2 g4
      refine ⟨?_, g2, ?_, ?_⟩
      · intro m hm
        rcases List.mem_cons.1 hm with rfl | hm
        · exact ⟨_, τ, hτ, by simp [hlen], hnew⟩
        · exact g1 m hm
      · intro i hi
        rcases List.mem_cons.1 hi with rfl | hi
        · exact hz
        · exact g3 i hi
      · intro i hi c hc hm hf
        rcases List.mem_cons.1 hi with rfl | hi
        · exact ⟨_, List.mem_append_right _ List.mem_cons_self, hc.symm, hm⟩
        · exact g4 i hi c hc hm hf
    simp only [stepInner] at h
    generalize (if (BConfig.linRec ⟨state, n.tape.backstep shift color, n.recs,
      (n.state, n.tape) :: n.prev⟩) = true then n.recs + 1 else n.recs) = recs at h
    split at h
    · -- a blank pattern
      rename_i hblank
      split at h
      · cases h
      · rename_i hne
        have hz : ¬ (state = 0 ∧ (n.tape.backstep shift color).blank = true) := fun hh => hne hh.1
        obtain ⟨d, hd1, hd2, hd3⟩ := hnew.blank_follows hblank
        split at h
        · -- skipped
          rename_i hcont
          obtain ⟨g1, g2, g3, g4⟩ := ih blanks E out blanks' h hback' hb
          refine ⟨g1, g2, ?_, ?_⟩
          · intro i hi
            rcases List.mem_cons.1 hi with rfl | hi
            · exact hz
            · exact g3 i hi
          · intro i hi c hc hm hf
            rcases List.mem_cons.1 hi with rfl | hi
            · simp only at hc hm
              obtain ⟨ss', τ', d', hτ', hf', hs', hm', hcase⟩ := hb state (by simpa using hcont)
              rcases hcase with hlt | ⟨heq, m, hmE, hmq, hmsem⟩
              · obtain ⟨j, hj, e, he, hhit⟩ := ht.skip state _ _ τ ss' d' c hτ hnew hblank hf'
                  ⟨τ', hτ', hs', hm'⟩ (by simpa [hlen] using hlt) hc hm
                exact absurd hhit (hf j (by simpa [hlen] using hj) e he)
              · obtain ⟨e1, e2⟩ := hd1.eq hf' (by simp [hlen, heq])
                subst e1 e2
                have htape := ht.unique τ hτ τ' hτ' (hd2.symm.trans hs')
                  (by rw [← hd3.1, ← hm'.1])
                refine ⟨m, by simp [hmE], hmq.trans hc.symm, ?_⟩
                rw [hmsem.2.2.2 c hc]
                obtain ⟨x, hx1, hx2, hx3⟩ := (hnew.2.2.2 c hc).1 hm
                exact ⟨x, hx1, hx2.trans (hd2.symm.trans hs'), htape ▸ hx3⟩
            · exact g4 i hi c hc hm hf
        · rename_i hcont
          split at h
          · cases h
          · obtain ⟨⟨out', b'⟩, hin, heq⟩ := Option.map_eq_some_iff.1 h
            refine hgo (state :: blanks) _ out' b' ?_ hz hin heq
            intro q hq
            rcases List.mem_cons.1 hq with rfl | hq
            · exact ⟨_, τ, d, hτ, hd1, hd2, hd3, .inr ⟨by simp [hlen], _,
                List.mem_append_right _ List.mem_cons_self, rfl, hnew⟩⟩
            · obtain ⟨a1, a2, a3, a4, a5, a6, a7, a8⟩ := hb q hq
              refine ⟨a1, a2, a3, a4, a5, a6, a7, ?_⟩
              rcases a8 with a8 | ⟨a8, m, a9, a10⟩
              · exact .inl a8
              · exact .inr ⟨a8, m, by simp [a9], a10⟩
    · rename_i hblank
      split at h
      · cases h
      · obtain ⟨⟨out', b'⟩, hin, heq⟩ := Option.map_eq_some_iff.1 h
        refine hgo blanks _ out' b' ?_ (fun hh => hblank hh.2) hin heq
        intro q hq
        obtain ⟨a1, a2, a3, a4, a5, a6, a7, a8⟩ := hb q hq
        refine ⟨a1, a2, a3, a4, a5, a6, a7, ?_⟩
        rcases a8 with a8 | ⟨a8, m, a9, a10⟩
        · exact .inl a8
        · exact .inr ⟨a8, m, by simp [a9], a10⟩

theorem stepConfigs_spec {p : Prog} {targets : List BConfig} (ht : Targets p targets) {k : Nat} :
    ∀ (valid : List (List Instr × BConfig)) (blanks : List State) (E out : List BConfig)
      (blanks' : List State),
      stepConfigs valid blanks = some (out, blanks') →
      (∀ v ∈ valid, NodeOk p targets k v.2.state v.2.tape ∧
        ∀ i ∈ v.1, StepBackOk p v.2.state v.2.tape i) →
      BlanksOk p targets (k + 1) blanks E →
      (∀ m ∈ out, NodeOk p targets (k + 1) m.state m.tape) ∧
      BlanksOk p targets (k + 1) blanks' (E ++ out) ∧
      (∀ v ∈ valid, ∀ i ∈ v.1, ¬ (i.2.2 = 0 ∧ (v.2.tape.backstep i.2.1 i.1).blank = true)) ∧
      ∀ v ∈ valid, ∀ i ∈ v.1, ∀ c : Cfg, c.state = i.2.2 → (v.2.tape.backstep i.2.1 i.1).Match c →
        FirstIn p targets (k + 1) c → ∃ m ∈ E ++ out, m.state = c.state ∧ m.tape.Match c := by
  intro valid
  induction valid with
  | nil =>
    intro blanks E out blanks' h _ hb
    simp only [stepConfigs, Option.some.injEq, Prod.mk.injEq] at h
    obtain ⟨rfl, rfl⟩ := h
    simp only [List.append_nil]
    exact ⟨by simp, hb, by simp, by simp⟩
  | cons v valid ih =>
    intro blanks E out blanks' h hv hb
    obtain ⟨instrs, n⟩ := v
    simp only [stepConfigs] at h
    obtain ⟨⟨o1, b1⟩, h1, h2⟩ := Option.bind_eq_some_iff.1 h
    obtain ⟨⟨o2, b2⟩, h3, h4⟩ := Option.map_eq_some_iff.1 h2
    simp only [Prod.mk.injEq] at h4
    obtain ⟨rfl, rfl⟩ := h4
    obtain ⟨hn, hback⟩ := hv (instrs, n) (by simp)
    obtain ⟨f1, f2, f3, f4⟩ := stepInner_spec ht n hn instrs blanks E o1 b1 h1 hback hb
    obtain ⟨g1, g2, g3, g4⟩ := ih b1 (E ++ o1) o2 b2 h3 (fun v hv' => hv v (by simp [hv'])) f2
    rw [List.append_assoc] at g2 g4
    refine ⟨?_, g2, ?_, ?_⟩
    · intro m hm
      rcases List.mem_append.1 hm with hm | hm
      · exact f1 m hm
      · exact g1 m hm
    · intro v hv' i hi
      rcases List.mem_cons.1 hv' with rfl | hv'
      · exact f3 i hi
      · exact g3 v hv' i hi
    · intro v hv' i hi c hc hm hf
      rcases List.mem_cons.1 hv' with rfl | hv'
      · obtain ⟨m, hm1, hm2⟩ := f4 i hi c hc hm hf
        refine ⟨m, ?_, hm2⟩
        simp only [List.mem_append] at hm1 ⊢
        rcases hm1 with h | h
        · exact .inl h
        · exact .inr (.inl h)
      · exact g4 v hv' i hi c hc hm hf

theorem stepInner_noblank {n : BConfig} : ∀ {instrs : List Instr} {blanks : List State}
    {r : List BConfig × List State}, stepInner n instrs blanks = some r →
    ∀ i ∈ instrs, ¬ (i.2.2 = 0 ∧ (n.tape.backstep i.2.1 i.1).blank = true) := by
  intro instrs
  induction instrs with
  | nil => simp
  | cons i instrs ih =>
    intro blanks r h
    obtain ⟨color, shift, state⟩ := i
    simp only [stepInner] at h
    generalize (if (BConfig.linRec ⟨state, n.tape.backstep shift color, n.recs,
      (n.state, n.tape) :: n.prev⟩) = true then n.recs + 1 else n.recs) = recs at h
    have hrest : ∀ bl r, stepInner n instrs bl = some r →
        ¬ (state = 0 ∧ (n.tape.backstep shift color).blank = true) →
        ∀ i ∈ (color, shift, state) :: instrs,
          ¬ (i.2.2 = 0 ∧ (n.tape.backstep i.2.1 i.1).blank = true) := by
      intro bl r hr hz i hi
      rcases List.mem_cons.1 hi with rfl | hi
      · exact hz
      · exact ih hr i hi
    split at h
    · split at h
      · cases h
      · rename_i hne
        split at h
        · exact hrest _ _ h fun hh => hne hh.1
        · split at h
          · cases h
          · obtain ⟨r', hr, -⟩ := Option.map_eq_some_iff.1 h
            exact hrest _ _ hr fun hh => hne hh.1
    · rename_i hblank
      split at h
      · cases h
      · obtain ⟨r', hr, -⟩ := Option.map_eq_some_iff.1 h
        exact hrest _ _ hr fun hh => hblank hh.2

theorem stepConfigs_noblank : ∀ {valid : List (List Instr × BConfig)} {blanks : List State}
    {r : List BConfig × List State}, stepConfigs valid blanks = some r →
    ∀ v ∈ valid, ∀ i ∈ v.1, ¬ (i.2.2 = 0 ∧ (v.2.tape.backstep i.2.1 i.1).blank = true) := by
  intro valid
  induction valid with
  | nil => simp
  | cons v valid ih =>
    intro blanks r h
    simp only [stepConfigs] at h
    obtain ⟨r1, h1, h2⟩ := Option.bind_eq_some_iff.1 h
    obtain ⟨r2, h3, -⟩ := Option.map_eq_some_iff.1 h2
    intro w hw
    rcases List.mem_cons.1 hw with rfl | hw
    · exact stepInner_noblank h1
    · exact ih h3 w hw

theorem goodSteps_spec {n : BConfig} : ∀ {l : List (Slot × Instr)} {good : List Instr},
    goodSteps n l = some good →
    ∀ i, i ∈ good ↔ ∃ x ∈ l, i = (x.1.2, x.2.2.1, x.1.1) ∧
      (n.tape.checkStep x.2.2.1 x.2.1).isSome := by
  intro l
  induction l with
  | nil =>
    intro good h i
    simp only [goodSteps, Option.some.injEq] at h
    subst h
    simp
  | cons e l ih =>
    intro good h i
    obtain ⟨⟨ns, nc⟩, print, shift, q⟩ := e
    simp only [goodSteps] at h
    split at h
    · rename_i hnone
      rw [ih h i]
      simp only [List.mem_cons, exists_eq_or_imp, hnone, Option.isSome_none, Bool.false_eq_true,
        and_false, false_or]
    · rename_i e hsome
      split at h
      · cases h
      · obtain ⟨g, hg, rfl⟩ := Option.map_eq_some_iff.1 h
        simp only [List.mem_cons, exists_eq_or_imp, hsome, Option.isSome_some, and_true]
        rw [ih hg i]

theorem validSteps_spec {es : Entrypoints} : ∀ {configs : List BConfig}
    {valid : List (List Instr × BConfig)}, validSteps es configs = some valid →
    (∀ v ∈ valid, v.2 ∈ configs ∧ v.1 ≠ [] ∧
      goodSteps v.2 ((es.lookup v.2.state).getD []) = some v.1) ∧
    (∀ n ∈ configs, ∃ good, goodSteps n ((es.lookup n.state).getD []) = some good ∧
      (good ≠ [] → (good, n) ∈ valid)) := by
  intro configs
  induction configs with
  | nil =>
    intro valid h
    simp only [validSteps, Option.some.injEq] at h
    subst h
    simp
  | cons c rest ih =>
    intro valid h
    simp only [validSteps] at h
    obtain ⟨good, h1, h2⟩ := Option.bind_eq_some_iff.1 h
    obtain ⟨r, h3, h4⟩ := Option.map_eq_some_iff.1 h2
    obtain ⟨i1, i2⟩ := ih h3
    have hsub : ∀ v ∈ r, v ∈ valid := by
      intro v hv
      rw [← h4]
      split
      · exact hv
      · exact List.mem_cons_of_mem _ hv
    constructor
    · intro v hv
      rw [← h4] at hv
      split at hv
      · obtain ⟨a, b⟩ := i1 v hv
        exact ⟨by simp [a], b⟩
      · rename_i hne
        rcases List.mem_cons.1 hv with rfl | hv
        · exact ⟨by simp, by simpa using hne, h1⟩
        · obtain ⟨a, b⟩ := i1 v hv
          exact ⟨by simp [a], b⟩
    · intro n hn
      rcases List.mem_cons.1 hn with rfl | hn
      · refine ⟨good, h1, fun hne => ?_⟩
        rw [← h4, if_neg (by simpa using hne)]
        simp
      · obtain ⟨g, hg1, hg2⟩ := i2 n hn
        exact ⟨g, hg1, fun hne => hsub _ (hg2 hne)⟩

/-! ## The loop -/

/-- One round. -/
theorem round_spec {t : Table} (hs : t.Sorted) {targets : List BConfig}
    (ht : Targets t.get? targets) {k : Nat} {configs : List BConfig} {blanks : List State}
    {valid : List (List Instr × BConfig)} {out : List BConfig} {blanks' : List State}
    (hv : validSteps t.entrypoints configs = some valid)
    (hstep : stepConfigs valid blanks = some (out, blanks'))
    (hnodes : ∀ n ∈ configs, NodeOk t.get? targets k n.state n.tape)
    (hb : BlanksOk t.get? targets k blanks configs) :
    (∀ m ∈ out, NodeOk t.get? targets (k + 1) m.state m.tape) ∧
    BlanksOk t.get? targets (k + 1) blanks' out ∧
    ∀ n ∈ configs, ∀ c : Cfg, ∀ i : Instr, t.get? c.slot = some i →
      c.state ∈ t.entrypoints.keys → (c.exec i).state = n.state → n.tape.Match (c.exec i) →
      ¬ (c.state = 0 ∧ ∀ x, c.tape x = 0) ∧
      (FirstIn t.get? targets (k + 1) c → ∃ m ∈ out, m.state = c.state ∧ m.tape.Match c) := by
  obtain ⟨v1, v2⟩ := validSteps_spec hv
  obtain ⟨e1, e2, e3⟩ := t.entrypoints_spec
  have hval : ∀ v ∈ valid, NodeOk t.get? targets k v.2.state v.2.tape ∧
      ∀ i ∈ v.1, StepBackOk t.get? v.2.state v.2.tape i := by
    intro v hv
    obtain ⟨a, -, b⟩ := v1 v hv
    refine ⟨hnodes _ a, fun i hi => ?_⟩
    obtain ⟨x, hx, rfl, hc⟩ := (goodSteps_spec b i).1 hi
    obtain ⟨hx1, hx2⟩ := e1 _ _ ((mem_lookup_of_nodup e3).1 hx)
    exact ⟨x.2, Table.get?_of_mem hs hx1, hx2, rfl, hc⟩
  have hb' : BlanksOk t.get? targets (k + 1) blanks [] := by
    intro q hq
    obtain ⟨a1, a2, a3, a4, a5, a6, a7, a8⟩ := hb q hq
    refine ⟨a1, a2, a3, a4, a5, a6, a7, .inl ?_⟩
    rcases a8 with a8 | ⟨a8, -⟩ <;> omega
  obtain ⟨s1, s2, s3, s4⟩ := stepConfigs_spec ht valid blanks [] out blanks' hstep hval hb'
  rw [List.nil_append] at s2 s4
  refine ⟨s1, s2, fun n hn c i hi hkey hst hm => ?_⟩
  obtain ⟨print, shift, q⟩ := i
  obtain ⟨ss, τ, hτ, hlen, hsem⟩ := hnodes n hn
  obtain ⟨good, hg1, hg2⟩ := v2 n hn
  have hm' := (match_backstep hsem.1 c print shift q).1 hm
  have hst' : q = n.state := hst
  have hx : (c.slot, (print, shift, q)) ∈ (t.entrypoints.lookup n.state).getD [] := by
    rw [mem_lookup_of_nodup e3, ← hst']
    exact e2 (c.slot, (print, shift, q)) (Table.get?_mem hi) hkey
  have hgood : (c.slot.2, shift, c.slot.1) ∈ good :=
    (goodSteps_spec hg1 _).2 ⟨_, hx, rfl, hm'.1⟩
  have hmem := hg2 (List.ne_nil_of_mem hgood)
  have hback : (n.tape.backstep shift c.slot.2).Match c := hm'.2
  have hsem' : Sem t.get? c.slot.1 (n.tape.backstep shift c.slot.2) (c.slot :: ss) τ :=
    hsem.back hi hst' hm'.1
  refine ⟨?_, fun hf => s4 _ hmem _ hgood c rfl hback hf⟩
  rintro ⟨h0, hz⟩
  exact s3 _ hmem _ hgood ⟨h0, blank_of_match hsem'.1 hback hz⟩

/-- The states of the run keep their entries if the first one does. -/
theorem run_keys {t : Table} (h0 : 0 ∈ t.entrypoints.keys) (n : Nat) (d : Cfg)
    (h : runFor t.get? n initCfg = some d) : d.state ∈ t.entrypoints.keys := by
  induction n generalizing d with
  | zero =>
    cases h
    exact h0
  | succ n ih =>
    rw [runFor_succ'] at h
    obtain ⟨c, h1, h2⟩ := Option.bind_eq_some_iff.1 h
    simp only [step] at h2
    obtain ⟨i, h3, rfl⟩ := Option.map_eq_some_iff.1 h2
    have := t.entrypoints_spec.2.1 (c.slot, i) (Table.get?_mem h3) (ih c h1)
    exact Entrypoints.has_key this

theorem reachLoop_sound {t : Table} (hs : t.Sorted) {targets : List BConfig}
    (ht : Targets t.get? targets) (h0 : 0 ∈ t.entrypoints.keys) {n : Nat}
    (hfirst : ∀ m < n, ∀ e, runFor t.get? m initCfg = some e → ¬ Hit targets e) :
    ∀ (fuel k step : Nat) (configs : List BConfig) (blanks : List State) (r : Nat), k < n →
      reachLoop t.entrypoints fuel step configs blanks = some r →
      (∀ m ∈ configs, NodeOk t.get? targets k m.state m.tape) →
      BlanksOk t.get? targets k blanks configs →
      (∃ m ∈ configs, ∃ e, runFor t.get? (n - k) initCfg = some e ∧ m.state = e.state ∧
        m.tape.Match e) → False := by
  intro fuel
  induction fuel with
  | zero =>
    intro k step configs blanks r _ h
    cases h
  | succ fuel ih =>
    intro k step configs blanks r hk h hnodes hb hchain
    simp only [reachLoop] at h
    obtain ⟨valid, hv, h⟩ := Option.bind_eq_some_iff.1 h
    obtain ⟨m, hm, e, he, hme, hmatch⟩ := hchain
    -- the configuration before
    rw [show n - k = (n - (k + 1)) + 1 by omega, runFor_succ'] at he
    obtain ⟨c, hc1, hc2⟩ := Option.bind_eq_some_iff.1 he
    simp only [BB.step] at hc2
    obtain ⟨i, hi, rfl⟩ := Option.map_eq_some_iff.1 hc2
    have hkey := run_keys h0 _ c hc1
    split at h
    · -- nothing to step back to: but there is
      rename_i hzero
      obtain ⟨-, v2⟩ := validSteps_spec hv
      obtain ⟨e1, e2, e3⟩ := t.entrypoints_spec
      obtain ⟨good, hg1, hg2⟩ := v2 m hm
      obtain ⟨print, shift, q⟩ := i
      obtain ⟨ss, τ, hτ, hlen, hsem⟩ := hnodes m hm
      have hm' := (match_backstep hsem.1 c print shift q).1 hmatch
      have hst' : m.state = q := hme
      have hx : (c.slot, (print, shift, q)) ∈ (t.entrypoints.lookup m.state).getD [] := by
        rw [mem_lookup_of_nodup e3, hst']
        exact e2 (c.slot, (print, shift, q)) (Table.get?_mem hi) hkey
      have hgood : (c.slot.2, shift, c.slot.1) ∈ good :=
        (goodSteps_spec hg1 _).2 ⟨_, hx, rfl, hm'.1⟩
      have := hg2 (List.ne_nil_of_mem hgood)
      rw [List.length_eq_zero_iff.1 hzero] at this
      simp at this
    · split at h
      · cases h
      · obtain ⟨⟨out, blanks'⟩, hst, h⟩ := Option.bind_eq_some_iff.1 h
        obtain ⟨r1, r2, r3⟩ := round_spec hs ht hv hst hnodes hb
        obtain ⟨c1, c2⟩ := r3 m hm c i hi hkey hme.symm hmatch
        have hf : FirstIn t.get? targets (k + 1) c := by
          intro j hj e he
          refine hfirst (n - (k + 1) + j) (by omega) e ?_
          rw [runFor_add, hc1, Option.bind_some, he]
        obtain ⟨m', hm'1, hm'2, hm'3⟩ := c2 hf
        by_cases hkn : k + 1 < n
        · exact ih (k + 1) _ out blanks' r hkn h r1 r2 ⟨m', hm'1, c, hc1, hm'2, hm'3⟩
        · have : n - (k + 1) = 0 := by omega
          rw [this] at hc1
          cases hc1
          exact c1 ⟨rfl, fun _ => rfl⟩

/-- The search is sound: when it ends, no target is hit after the start. -/
theorem cantReach_sound {t : Table} (hs : t.Sorted) {targets : List BConfig}
    (ht : Targets t.get? targets)
    (h0 : 0 ∈ t.entrypoints.keys) {depth r : Nat}
    (h : t.cantReach depth targets = some r) (hstart : ¬ Hit targets initCfg) (n : Nat) (d : Cfg)
    (hrun : runFor t.get? n initCfg = some d) : ¬ Hit targets d := by
  intro hhit
  -- the first time
  have hex : ∃ n, ∃ d, runFor t.get? n initCfg = some d ∧ Hit targets d := ⟨n, d, hrun, hhit⟩
  classical
  obtain ⟨n, ⟨d, hrun, hhit⟩, hfirst⟩ : ∃ n, (∃ d, runFor t.get? n initCfg = some d ∧
      Hit targets d) ∧ ∀ m < n, ¬ ∃ d, runFor t.get? m initCfg = some d ∧ Hit targets d :=
    ⟨Nat.find hex, Nat.find_spec hex, fun m hm => Nat.find_min hex hm⟩
  have hn : 0 < n := by
    rcases Nat.eq_zero_or_pos n with rfl | hn
    · cases hrun
      exact absurd hhit hstart
    · exact hn
  obtain ⟨τ, hτ, hτs, hτm⟩ := hhit
  simp only [Table.cantReach] at h
  split at h
  · rename_i hemp
    rw [List.isEmpty_iff.1 hemp] at hτ
    simp at hτ
  · have hτk : τ ∈ targets.filter fun c => (t.entrypoints.lookup c.state).isSome := by
      rw [List.mem_filter]
      refine ⟨hτ, ?_⟩
      rw [entry_isSome_iff, ← hτs]
      exact run_keys h0 n d hrun
    have hsem : ∀ τ ∈ targets, Sem t.get? τ.state τ.tape [] τ := by
      intro τ hτ
      refine ⟨ht.wf τ hτ, rfl, rfl, fun c hc => ⟨fun h => ⟨c, rfl, hc, h⟩, ?_⟩⟩
      rintro ⟨d, rfl, -, h⟩
      exact h
    refine reachLoop_sound hs ht h0
      (fun m hm e he hh => hfirst m hm ⟨e, he, hh⟩) depth 0 0 _ _ r hn h ?_ ?_
      ⟨τ, hτk, d, hrun, hτs.symm, hτm⟩
    · intro m hm
      have := (List.mem_filter.1 hm).1
      exact ⟨[], m, this, rfl, hsem m this⟩
    · intro q hq
      obtain ⟨m, hm, rfl⟩ := List.mem_map.1 hq
      obtain ⟨hm1, hm2⟩ := List.mem_filter.1 hm
      have hm3 := (List.mem_filter.1 hm1).1
      obtain ⟨d, hd⟩ := (hsem m hm3).blank_follows (by simpa using hm2)
      exact ⟨[], m, d, hm3, hd.1, hd.2.1, hd.2.2, .inr ⟨rfl, m, hm1, rfl, hsem m hm3⟩⟩

/-- Nor right after the start. -/
theorem cantReach_start {t : Table} {targets : List BConfig}
    (ht : Targets t.get? targets)
    (h0 : 0 ∈ t.entrypoints.keys) {depth r : Nat}
    (h : t.cantReach depth targets = some r) {i : Instr} (hi : t.get? (0, 0) = some i) :
    ¬ Hit targets (initCfg.exec i) := by
  rintro ⟨τ, hτ, hτs, hτm⟩
  simp only [Table.cantReach] at h
  split at h
  · rename_i hemp
    rw [List.isEmpty_iff.1 hemp] at hτ
    simp at hτ
  · have hrun : runFor t.get? 1 initCfg = some (initCfg.exec i) := by
      rw [runFor_one, step_some (show t.get? initCfg.slot = some i from hi)]
    have hτk : τ ∈ targets.filter fun c => (t.entrypoints.lookup c.state).isSome := by
      rw [List.mem_filter]
      refine ⟨hτ, ?_⟩
      rw [entry_isSome_iff, ← hτs]
      exact run_keys h0 1 _ hrun
    have hsem : ∀ τ ∈ targets, Sem t.get? τ.state τ.tape [] τ := by
      intro τ hτ
      refine ⟨ht.wf τ hτ, rfl, rfl, fun c hc => ⟨fun h => ⟨c, rfl, hc, h⟩, ?_⟩⟩
      rintro ⟨d, rfl, -, h⟩
      exact h
    have hnodes : ∀ m ∈ targets.filter fun c => (t.entrypoints.lookup c.state).isSome,
        NodeOk t.get? targets 0 m.state m.tape := by
      intro m hm
      have := (List.mem_filter.1 hm).1
      exact ⟨[], m, this, rfl, hsem m this⟩
    generalize (targets.filter fun c => (t.entrypoints.lookup c.state).isSome) = configs at *
    cases depth with
    | zero => cases h
    | succ depth =>
      simp only [reachLoop] at h
      obtain ⟨valid, hv, h⟩ := Option.bind_eq_some_iff.1 h
      obtain ⟨v1, v2⟩ := validSteps_spec hv
      obtain ⟨e1, e2, e3⟩ := t.entrypoints_spec
      obtain ⟨good, hg1, hg2⟩ := v2 τ hτk
      obtain ⟨print, shift, q⟩ := i
      have hm' := (match_backstep (ht.wf τ hτ) initCfg print shift q).1 hτm
      have hst' : τ.state = q := hτs.symm
      have hx : (((0, 0) : Slot), (print, shift, q)) ∈ (t.entrypoints.lookup τ.state).getD [] := by
        rw [mem_lookup_of_nodup e3, hst']
        exact e2 ((0, 0), (print, shift, q)) (Table.get?_mem hi) h0
      have hgood : ((0 : Color), shift, (0 : State)) ∈ good :=
        (goodSteps_spec hg1 _).2 ⟨_, hx, rfl, hm'.1⟩
      have hmem := hg2 (List.ne_nil_of_mem hgood)
      split at h
      · rename_i hzero
        rw [List.length_eq_zero_iff.1 hzero] at hmem
        simp at hmem
      · split at h
        · cases h
        · obtain ⟨⟨out, blanks'⟩, hst, h⟩ := Option.bind_eq_some_iff.1 h
          have hsem' := (hsem τ hτ).back (s := (0, 0)) hi hst'.symm hm'.1
          refine stepConfigs_noblank hst _ hmem _ hgood ⟨rfl, ?_⟩
          exact blank_of_match hsem'.1 hm'.2 fun _ => rfl

end BB
