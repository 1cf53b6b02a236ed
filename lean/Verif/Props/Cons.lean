import Verif.Model.Cons

/-!
# C75: equal symbolic numbers are the same object
-/

namespace BB
namespace Cons

open Sym (Num)

/-- The expression that an object stands for: its class and what its fields stand for. -/
inductive Denotes (s : Store) : Ref → Num → Prop
  | int (n : Int) : Denotes s (.int n) (.int n)
  | add {i l r a b d} : s.heap[i]? = some (.add l r, d) → Denotes s l a → Denotes s (.obj r) b →
      Denotes s (.obj i) (.add a b)
  | mul {i l r a b d} : s.heap[i]? = some (.mul l r, d) → Denotes s l a → Denotes s (.obj r) b →
      Denotes s (.obj i) (.mul a b)
  | div {i n den a d} : s.heap[i]? = some (.div n den, d) → Denotes s (.obj n) a →
      Denotes s (.obj i) (.div a den)
  | exp {i base e a d} : s.heap[i]? = some (.exp base e, d) → Denotes s e a →
      Denotes s (.obj i) (.exp base a)

/-- A reference to something that exists. -/
def Store.Has (s : Store) : Ref → Prop
  | .int _ => True
  | .obj i => i < s.heap.length

/-- The operands exist. -/
def Event.Ok (s : Store) : Event → Prop
  | .add l r => s.Has l ∧ s.Has (.obj r)
  | .mul l r => s.Has l ∧ s.Has (.obj r)
  | .div n _ => s.Has (.obj n)
  | .exp _ e => s.Has e
  | _ => True

/-- The stores that can occur. -/
inductive Reach : Store → Prop
  | empty : Reach empty
  | step {s s' : Store} {e : Event} {r : Option Ref} : Reach s → e.Ok s → s.step e = some (s', r) →
      Reach s'

/-! ## The invariant -/

def keyOf : Obj → Option Key
  | .add l r => some (.adds l r)
  | .mul l r => some (.muls l r)
  | .div n d => some (.divs n d)
  | .exp b e => some (.exps b e)
  | .tet _ _ => none

theorem keyOf_inj {o o' : Obj} {k : Key} (h : keyOf o = some k) (h' : keyOf o' = some k) : o = o' := by
  cases o <;> cases o' <;> simp_all [keyOf] <;> (subst h; simp_all)

/-- The fields of an object come before place `n`. -/
def Ref.Below (n : Nat) : Ref → Prop
  | .int _ => True
  | .obj i => i < n

def Obj.Below (n : Nat) : Obj → Prop
  | .add l r => l.Below n ∧ r < n
  | .mul l r => l.Below n ∧ r < n
  | .div m _ => m < n
  | .exp _ e => e.Below n
  | .tet _ _ => True

/-- The depth that an object should have. -/
def Store.depthOf (s : Store) : Obj → Nat
  | .add _ r => 1 + s.depth (.obj r)
  | .mul _ r => 1 + s.depth (.obj r)
  | .div n _ => 1 + s.depth (.obj n)
  | .exp _ e => 1 + s.depth e
  | .tet _ _ => 1

structure Inv (s : Store) : Prop where
  below : ∀ (i : Nat) (o : Obj) (d : Nat), s.heap[i]? = some (o, d) → o.Below i
  depth : ∀ (i : Nat) (o : Obj) (d : Nat), s.heap[i]? = some (o, d) → d = s.depthOf o
  entry : ∀ (i : Nat) (o : Obj) (d : Nat) (k : Key), s.heap[i]? = some (o, d) → keyOf o = some k → s.dicts.lookup k = some i
  known : ∀ k i, s.dicts.lookup k = some i → ∃ o d, s.heap[i]? = some (o, d) ∧ keyOf o = some k
  free : ∀ l r, (l, r) ∈ s.pending → s.dicts.lookup (.muls l r) = none
  has : ∀ l r, (l, r) ∈ s.pending → s.Has l ∧ s.Has (.obj r)
  nodup : s.pending.Nodup

theorem has_iff (s : Store) (r : Ref) : s.Has r ↔ r.Below s.heap.length := by
  cases r <;> exact Iff.rfl

theorem Ref.Below.mono {n m : Nat} {r : Ref} (h : r.Below n) (hm : n ≤ m) : r.Below m := by
  cases r with
  | int _ => trivial
  | obj i => exact Nat.lt_of_lt_of_le h hm

theorem depth_old {s s' : Store} {x : Obj × Nat} (h : s'.heap = s.heap ++ [x]) {r : Ref}
    (hr : s.Has r) : s'.depth r = s.depth r := by
  cases r with
  | int _ => rfl
  | obj i =>
    have hi : i < s.heap.length := hr
    simp only [Store.depth, h, List.getElem?_append_left hi]

theorem depthOf_old {s s' : Store} {x : Obj × Nat} (h : s'.heap = s.heap ++ [x]) {o : Obj}
    (ho : o.Below s.heap.length) : s'.depthOf o = s.depthOf o := by
  cases o with
  | add l r => exact congrArg (1 + ·) (depth_old (r := .obj r) h ho.2)
  | mul l r => exact congrArg (1 + ·) (depth_old (r := .obj r) h ho.2)
  | div n d => exact congrArg (1 + ·) (depth_old (r := .obj n) h ho)
  | exp b e => exact congrArg (1 + ·) (depth_old h ((has_iff _ _).2 ho))
  | tet _ _ => rfl

theorem get_snoc {α : Type} {l : List α} {x y : α} {i : Nat} (h : (l ++ [x])[i]? = some y) :
    l[i]? = some y ∨ (i = l.length ∧ y = x) := by
  rcases Nat.lt_trichotomy i l.length with hi | hi | hi
  · rw [List.getElem?_append_left hi] at h
    exact .inl h
  · subst hi
    simp at h
    exact .inr ⟨rfl, h.symm⟩
  · rw [List.getElem?_eq_none (by simp; omega)] at h
    cases h

theorem lt_of_get {α : Type} {l : List α} {y : α} {i : Nat} (h : l[i]? = some y) : i < l.length := by
  rcases Nat.lt_or_ge i l.length with hi | hi
  · exact hi
  · rw [List.getElem?_eq_none hi] at h
    cases h

theorem Obj.Below.mono {n m : Nat} {o : Obj} (h : o.Below n) (hm : n ≤ m) : o.Below m := by
  cases o with
  | add l r => exact ⟨Ref.Below.mono h.1 hm, Nat.lt_of_lt_of_le h.2 hm⟩
  | mul l r => exact ⟨Ref.Below.mono h.1 hm, Nat.lt_of_lt_of_le h.2 hm⟩
  | div k d => exact Nat.lt_of_lt_of_le h hm
  | exp b e => exact Ref.Below.mono h hm
  | tet _ _ => trivial

theorem has_old {s s' : Store} {x : Obj × Nat} (h : s'.heap = s.heap ++ [x]) {r : Ref} (hr : s.Has r) :
    s'.Has r := by
  rw [has_iff] at hr ⊢
  exact hr.mono (by simp [h])

/-- A new object with a new key. -/
theorem Inv.make {s : Store} (hs : Inv s) {k : Key} {o : Obj} {d : Nat} (hk : keyOf o = some k)
    (hn : s.dicts.lookup k = none) (hb : o.Below s.heap.length) (hd : d = s.depthOf o)
    (hp : ∀ l r, (l, r) ∈ s.pending → k ≠ .muls l r) : Inv (s.make k o d).1 := by
  have hh : (s.make k o d).1.heap = s.heap ++ [(o, d)] := rfl
  have hl : ∀ k', (s.make k o d).1.dicts.lookup k'
      = if k' = k then some s.heap.length else s.dicts.lookup k' := by
    intro k'
    simp only [Store.make, List.lookup_cons]
    by_cases h : k' = k
    · simp [h]
    · simp [h, beq_eq_false_iff_ne.2 h]
  refine ⟨?_, ?_, ?_, ?_, ?_, ?_, hs.nodup⟩
  · intro i o' d' h
    rw [hh] at h
    rcases get_snoc h with h | ⟨rfl, h0⟩
    · exact hs.below i o' d' h
    · cases h0
      exact hb
  · intro i o' d' h
    rw [hh] at h
    rcases get_snoc h with h | ⟨rfl, h0⟩
    · rw [depthOf_old hh ((hs.below i o' d' h).mono (Nat.le_of_lt (lt_of_get h)))]
      exact hs.depth i o' d' h
    · cases h0
      rw [depthOf_old hh hb]
      exact hd
  · intro i o' d' k' h hk'
    rw [hh] at h
    rw [hl]
    rcases get_snoc h with h | ⟨rfl, h0⟩
    · have h1 := hs.entry i o' d' k' h hk'
      rw [if_neg]
      · exact h1
      · rintro rfl
        rw [hn] at h1
        cases h1
    · cases h0
      rw [hk] at hk'
      cases hk'
      rw [if_pos rfl]
  · intro k' i h
    rw [hl] at h
    split at h
    · rename_i he
      cases h
      refine ⟨o, d, ?_, he ▸ hk⟩
      rw [hh]
      simp
    · obtain ⟨o', d', h1, h2⟩ := hs.known k' i h
      refine ⟨o', d', ?_, h2⟩
      rw [hh, List.getElem?_append_left (lt_of_get h1)]
      exact h1
  · intro l r h
    rw [hl, if_neg (fun he => hp l r h he.symm)]
    exact hs.free l r h
  · intro l r h
    exact ⟨has_old hh (hs.has l r h).1, has_old hh (hs.has l r h).2⟩

theorem order_has {s : Store} {l : Ref} {r : Nat} (hl : s.Has l) (hr : s.Has (.obj r)) :
    s.Has (s.order l r).1 ∧ s.Has (.obj (s.order l r).2) := by
  unfold Store.order
  cases l with
  | int _ => exact ⟨hl, hr⟩
  | obj i =>
    simp only
    split
    · exact ⟨hr, hl⟩
    · exact ⟨hl, hr⟩

theorem Inv.add {s : Store} (hs : Inv s) {l : Ref} {r : Nat} (hl : s.Has l) (hr : s.Has (.obj r)) :
    Inv (s.add l r).1 := by
  obtain ⟨h1, h2⟩ := order_has hl hr
  unfold Store.add
  simp only
  split
  · exact hs
  · rename_i hn
    exact hs.make rfl hn ⟨(has_iff _ _).1 h1, h2⟩ rfl (fun _ _ _ h => by cases h)

theorem Inv.div {s : Store} (hs : Inv s) {n : Nat} {d : Int} (h : s.Has (.obj n)) :
    Inv (s.div n d).1 := by
  unfold Store.div
  split
  · exact hs
  · rename_i hn
    split
    · exact hs.make rfl hn h rfl (fun _ _ _ h => by cases h)
    · exact hs

theorem Inv.exp {s : Store} (hs : Inv s) {b : Int} {e : Ref} (h : s.Has e) : Inv (s.exp b e).1 := by
  unfold Store.exp
  split
  · exact hs
  · rename_i hn
    cases e with
    | int k =>
      simp only
      split
      · exact hs
      · exact hs.make rfl hn trivial rfl (fun _ _ _ h => by cases h)
    | obj i => exact hs.make rfl hn h rfl (fun _ _ _ h => by cases h)

theorem Inv.tet {s : Store} (hs : Inv s) (b h : Int) : Inv (s.tet b h).1 := by
  have hh : (s.tet b h).1.heap = s.heap ++ [(.tet b h, 1)] := rfl
  refine ⟨?_, ?_, ?_, ?_, hs.free, ?_, hs.nodup⟩
  · intro i o' d' h
    rw [hh] at h
    rcases get_snoc h with h | ⟨rfl, h0⟩
    · exact hs.below i o' d' h
    · cases h0
      trivial
  · intro i o' d' h
    rw [hh] at h
    rcases get_snoc h with h | ⟨rfl, h0⟩
    · rw [depthOf_old hh ((hs.below i o' d' h).mono (Nat.le_of_lt (lt_of_get h)))]
      exact hs.depth i o' d' h
    · cases h0
      rfl
  · intro i o' d' k' h hk'
    rw [hh] at h
    rcases get_snoc h with h | ⟨rfl, h0⟩
    · exact hs.entry i o' d' k' h hk'
    · cases h0
      cases hk'
  · intro k' i h
    obtain ⟨o', d', h1, h2⟩ := hs.known k' i h
    refine ⟨o', d', ?_, h2⟩
    rw [hh, List.getElem?_append_left (lt_of_get h1)]
    exact h1
  · intro l r h
    exact ⟨has_old hh (hs.has l r h).1, has_old hh (hs.has l r h).2⟩

theorem Inv.step {s s' : Store} {e : Event} {r : Option Ref} (hs : Inv s) (he : e.Ok s)
    (h : s.step e = some (s', r)) : Inv s' := by
  cases e with
  | add l r' => have h1 : _ = s' := congrArg Prod.fst (Option.some.inj h); exact h1 ▸ hs.add he.1 he.2
  | div n d => have h1 : _ = s' := congrArg Prod.fst (Option.some.inj h); exact h1 ▸ hs.div he
  | exp b e => have h1 : _ = s' := congrArg Prod.fst (Option.some.inj h); exact h1 ▸ hs.exp he
  | tet b k => cases h; exact hs.tet b k
  | mul l r' =>
    obtain ⟨h1, h2⟩ := order_has he.1 he.2
    simp only [Store.step, Store.mul] at h
    split at h
    · cases h; exact hs
    · rename_i hn
      split at h
      · cases h
      · rename_i hp
        cases h
        refine ⟨hs.below, hs.depth, hs.entry, hs.known, ?_, ?_, List.nodup_cons.2 ⟨hp, hs.nodup⟩⟩
        · intro l r hm
          rcases List.mem_cons.1 hm with hm | hm
          · cases hm; exact hn
          · exact hs.free l r hm
        · intro l r hm
          rcases List.mem_cons.1 hm with hm | hm
          · cases hm; exact ⟨h1, h2⟩
          · exact hs.has l r hm
  | mulDone =>
    simp only [Store.step, Store.mulDone] at h
    split at h
    · rename_i l r' rest hp
      cases h
      have hmem : ∀ x, x ∈ rest → x ∈ s.pending := fun x hx => hp ▸ List.mem_cons_of_mem _ hx
      have hnd := hs.nodup
      rw [hp, List.nodup_cons] at hnd
      have hs' : Inv { s with pending := rest } :=
        ⟨hs.below, hs.depth, hs.entry, hs.known, fun l r h => hs.free l r (hmem _ h),
          fun l r h => hs.has l r (hmem _ h), hnd.2⟩
      have h0 : (l, r') ∈ s.pending := hp ▸ List.mem_cons_self ..
      have h1 := hs.has l r' h0
      refine hs'.make rfl (hs.free l r' h0) ⟨(has_iff _ _).1 h1.1, h1.2⟩ rfl ?_
      intro l2 r2 h2 h3
      cases h3
      exact hnd.1 h2
    · cases h
  | mulFail =>
    simp only [Store.step, Store.mulFail] at h
    split at h
    · rename_i x rest hp
      cases h
      have hmem : ∀ x, x ∈ rest → x ∈ s.pending := fun x hx => hp ▸ List.mem_cons_of_mem _ hx
      have hnd := hs.nodup
      rw [hp, List.nodup_cons] at hnd
      exact ⟨hs.below, hs.depth, hs.entry, hs.known, fun l r h => hs.free l r (hmem _ h),
          fun l r h => hs.has l r (hmem _ h), hnd.2⟩
    · cases h

theorem Reach.inv {s : Store} (h : Reach s) : Inv s := by
  induction h with
  | empty => exact ⟨by simp [Cons.empty], by simp [Cons.empty], by simp [Cons.empty], by simp [Cons.empty],
      by simp [Cons.empty], by simp [Cons.empty], List.nodup_nil⟩
  | step _ ho hst ih => exact ih.step ho hst

/-- Two objects with the same fields are the same. -/
theorem Inv.inj {s : Store} (hs : Inv s) {i j : Nat} {o : Obj} {d d' : Nat} {k : Key}
    (hk : keyOf o = some k) (hi : s.heap[i]? = some (o, d)) (hj : s.heap[j]? = some (o, d')) :
    i = j := by
  have h1 := hs.entry i o d k hi hk
  rw [hs.entry j o d' k hj hk] at h1
  exact (Option.some.inj h1).symm

theorem depth_denotes {s : Store} (hs : Inv s) {r : Ref} {a : Num} (h : Denotes s r a) :
    s.depth r = a.depth := by
  have key : ∀ {i : Nat} {o : Obj} {d : Nat}, s.heap[i]? = some (o, d) → s.depth (.obj i) = s.depthOf o := by
    intro i o d h
    simp only [Store.depth, h, Option.map_some, Option.getD_some]
    exact hs.depth i o d h
  induction h with
  | int n => rfl
  | add h _ _ _ ih => rw [key h]; simp only [Store.depthOf, ih, Num.depth]
  | mul h _ _ _ ih => rw [key h]; simp only [Store.depthOf, ih, Num.depth]
  | div h _ ih => rw [key h]; simp only [Store.depthOf, ih, Num.depth]
  | @exp _ _ _ a _ h _ ih =>
    rw [key h]
    simp only [Store.depthOf, ih]
    cases a <;> simp [Num.depth]

/-! ## The property -/

/-- **C75, one object.**  Two references that stand for the same expression are the same. -/
theorem C75_same_partial {s : Store} (hs : Reach s) {r r' : Ref} {a : Num} (h : Denotes s r a)
    (h' : Denotes s r' a) : r = r' := by
  have hi := hs.inv
  induction h generalizing r' with
  | int n => cases h'; rfl
  | add h _ _ ihl ihr =>
    cases h' with
    | add g gl gr =>
      cases ihl gl
      cases ihr gr
      rw [hi.inj rfl h g]
  | mul h _ _ ihl ihr =>
    cases h' with
    | mul g gl gr =>
      cases ihl gl
      cases ihr gr
      rw [hi.inj rfl h g]
  | div h _ ih =>
    cases h' with
    | div g gn =>
      cases ih gn
      rw [hi.inj rfl h g]
  | exp h _ ih =>
    cases h' with
    | exp g ge =>
      cases ih ge
      rw [hi.inj rfl h g]

/-- An object stands for one expression. -/
theorem denotes_unique {s : Store} {r : Ref} {a b : Num} (h : Denotes s r a) (h' : Denotes s r b) :
    a = b := by
  induction h generalizing b with
  | int n => cases h'; rfl
  | add h _ _ ihl ihr =>
    cases h' with
    | add g gl gr => rw [h] at g; cases g; rw [ihl gl, ihr gr]
    | mul g _ _ => rw [h] at g; cases g
    | div g _ => rw [h] at g; cases g
    | exp g _ => rw [h] at g; cases g
  | mul h _ _ ihl ihr =>
    cases h' with
    | mul g gl gr => rw [h] at g; cases g; rw [ihl gl, ihr gr]
    | add g _ _ => rw [h] at g; cases g
    | div g _ => rw [h] at g; cases g
    | exp g _ => rw [h] at g; cases g
  | div h _ ih =>
    cases h' with
    | div g gn => rw [h] at g; cases g; rw [ih gn]
    | add g _ _ => rw [h] at g; cases g
    | mul g _ _ => rw [h] at g; cases g
    | exp g _ => rw [h] at g; cases g
  | exp h _ ih =>
    cases h' with
    | exp g ge => rw [h] at g; cases g; rw [ih ge]
    | add g _ _ => rw [h] at g; cases g
    | mul g _ _ => rw [h] at g; cases g
    | div g _ => rw [h] at g; cases g

/-- No `Tet` has been made. -/
def Store.NoTet (s : Store) : Prop := ∀ (i : Nat) (b h : Int) (d : Nat), s.heap[i]? ≠ some (.tet b h, d)

/-- **C75, an expression.**  Every object stands for an expression, if no `Tet` has been made. -/
theorem C75_stands_partial {s : Store} (hs : Reach s) (ht : s.NoTet) {r : Ref} (hr : s.Has r) :
    ∃ a, Denotes s r a := by
  have hi := hs.inv
  cases r with
  | int n => exact ⟨_, .int n⟩
  | obj i =>
    induction i using Nat.strongRecOn with
    | _ i ih =>
      have hlt : i < s.heap.length := hr
      obtain ⟨⟨o, d⟩, ho⟩ : ∃ x, s.heap[i]? = some x := ⟨_, List.getElem?_eq_getElem hlt⟩
      have hb := hi.below i o d ho
      have href : ∀ r : Ref, r.Below i → ∃ a, Denotes s r a := by
        intro r hr
        cases r with
        | int n => exact ⟨_, .int n⟩
        | obj j => exact ih j hr (Nat.lt_trans hr hlt)
      cases o with
      | add l r =>
        obtain ⟨a, ha⟩ := href l hb.1
        obtain ⟨b, hb⟩ := href (.obj r) hb.2
        exact ⟨_, .add ho ha hb⟩
      | mul l r =>
        obtain ⟨a, ha⟩ := href l hb.1
        obtain ⟨b, hb⟩ := href (.obj r) hb.2
        exact ⟨_, .mul ho ha hb⟩
      | div n den =>
        obtain ⟨a, ha⟩ := href (.obj n) hb
        exact ⟨_, .div ho ha⟩
      | exp b e =>
        obtain ⟨a, ha⟩ := href e hb
        exact ⟨_, .exp ho ha⟩
      | tet b h => exact absurd ho (ht i b h d)

/-- **C75, `==`.**  `x == y` exactly if `x` and `y` stand for the same expression. -/
theorem C75_eq_partial {s : Store} (hs : Reach s) {r r' : Ref} {a b : Num} (h : Denotes s r a)
    (h' : Denotes s r' b) : s.eq r r' = true ↔ a = b := by
  have hne : ∀ {i : Nat} {a : Num}, Denotes s (.obj i) a → ∀ b h d, s.heap[i]? ≠ some (.tet b h, d) := by
    intro i a h b k d hg
    cases h with
    | add g _ _ => rw [g] at hg; cases hg
    | mul g _ _ => rw [g] at hg; cases hg
    | div g _ => rw [g] at hg; cases hg
    | exp g _ => rw [g] at hg; cases hg
  have heq : s.eq r r' = true ↔ r = r' := by
    cases r with
    | int n => cases r' <;> simp [Store.eq]
    | obj i =>
      cases r' with
      | int n => simp [Store.eq]
      | obj j =>
        simp only [Store.eq]
        split
        · rename_i hg _
          exact absurd hg (hne h _ _ _)
        · rename_i hg _
          exact absurd hg (hne h _ _ _)
        · simp
  rw [heq]
  constructor
  · rintro rfl
    exact denotes_unique h h'
  · rintro rfl
    exact C75_same_partial hs h h'

theorem denotes_mono {s s' : Store} (hg : ∀ (i : Nat) x, s.heap[i]? = some x → s'.heap[i]? = some x)
    {r : Ref} {a : Num} (h : Denotes s r a) : Denotes s' r a := by
  induction h with
  | int n => exact .int n
  | add h _ _ ihl ihr => exact .add (hg _ _ h) ihl ihr
  | mul h _ _ ihl ihr => exact .mul (hg _ _ h) ihl ihr
  | div h _ ih => exact .div (hg _ _ h) ih
  | exp h _ ih => exact .exp (hg _ _ h) ih

theorem make_keeps (s : Store) (k : Key) (o : Obj) (d : Nat) (i : Nat) (x : Obj × Nat)
    (h : s.heap[i]? = some x) : (s.make k o d).1.heap[i]? = some x := by
  show (s.heap ++ [(o, d)])[i]? = some x
  rw [List.getElem?_append_left (lt_of_get h)]
  exact h

theorem step_keeps {s s' : Store} {e : Event} {r : Option Ref} (h : s.step e = some (s', r))
    (i : Nat) (x : Obj × Nat) (hx : s.heap[i]? = some x) : s'.heap[i]? = some x := by
  have key : ∀ y : Store × Option Ref, (y = (s', r)) → (y.1.heap[i]? = some x) → s'.heap[i]? = some x := by
    rintro _ rfl h
    exact h
  cases e with
  | add l r' =>
    refine key _ (Option.some.inj h) ?_
    unfold Store.add
    simp only
    split
    · exact hx
    · exact make_keeps _ _ _ _ _ _ hx
  | div n d =>
    refine key _ (Option.some.inj h) ?_
    unfold Store.div
    split
    · exact hx
    · split
      · exact make_keeps _ _ _ _ _ _ hx
      · exact hx
  | exp b e =>
    refine key _ (Option.some.inj h) ?_
    unfold Store.exp
    split
    · exact hx
    · cases e with
      | int k =>
        simp only
        split
        · exact hx
        · exact make_keeps _ _ _ _ _ _ hx
      | obj j => exact make_keeps _ _ _ _ _ _ hx
  | tet b k =>
    refine key _ (Option.some.inj h) ?_
    show (s.heap ++ [_])[i]? = some x
    rw [List.getElem?_append_left (lt_of_get hx)]
    exact hx
  | mul l r' =>
    simp only [Store.step, Store.mul] at h
    split at h
    · cases h; exact hx
    · split at h
      · cases h
      · cases h; exact hx
  | mulDone =>
    simp only [Store.step, Store.mulDone] at h
    split at h
    · exact key _ (Option.some.inj h) (make_keeps _ _ _ _ _ _ hx)
    · cases h
  | mulFail =>
    simp only [Store.step, Store.mulFail] at h
    split at h
    · cases h; exact hx
    · cases h

/-- **C75, for good.**  What an object stands for does not change later. -/
theorem C75_keeps {s s' : Store} {e : Event} {r : Option Ref} (h : s.step e = some (s', r))
    {x : Ref} {a : Num} (hx : Denotes s x a) : Denotes s' x a :=
  denotes_mono (step_keeps h) hx

/-! ## What is returned -/

theorem make_at (s : Store) (k : Key) (o : Obj) (d : Nat) :
    (s.make k o d).1.heap[s.heap.length]? = some (o, d) := by
  show (s.heap ++ [(o, d)])[s.heap.length]? = _
  simp

theorem int_iff {s : Store} {r : Ref} {a : Num} (h : Denotes s r a) :
    a.isInt = true ↔ ∃ n, r = .int n := by
  cases h <;> simp [Num.isInt]

theorem order_denotes {s : Store} (hs : Inv s) {l : Ref} {r : Nat} {a b : Num} (hl : Denotes s l a)
    (hr : Denotes s (.obj r) b) :
    Denotes s (s.order l r).1 (if !a.isInt && decide (b.depth < a.depth) then b else a) ∧
    Denotes s (.obj (s.order l r).2) (if !a.isInt && decide (b.depth < a.depth) then a else b) := by
  cases l with
  | int n =>
    have : a.isInt = true := (int_iff hl).2 ⟨n, rfl⟩
    simp only [this, Bool.not_true, Bool.false_and, Bool.false_eq_true, if_false]
    exact ⟨hl, hr⟩
  | obj i =>
    have : a.isInt = false := by
      rw [← Bool.not_eq_true, int_iff hl]
      rintro ⟨n, h⟩
      cases h
    simp only [Store.order, this, Bool.not_false, Bool.true_and, depth_denotes hs hl,
      depth_denotes hs hr, decide_eq_true_eq]
    split
    · exact ⟨hr, hl⟩
    · exact ⟨hl, hr⟩

/-- **C75, sums.**  `make_add` returns the object of the sum, as `Model/Num` has it. -/
theorem C75_add {s : Store} (hs : Reach s) {l : Ref} {r : Nat} {a b : Num} (hl : Denotes s l a)
    (hr : Denotes s (.obj r) b) :
    ∃ x, (s.add l r).2 = some x ∧ Denotes (s.add l r).1 x (Sym.makeAdd a b) := by
  have hi := hs.inv
  obtain ⟨h1, h2⟩ := order_denotes hi hl hr
  have hm : Sym.makeAdd a b = .add (if !a.isInt && decide (b.depth < a.depth) then b else a)
      (if !a.isInt && decide (b.depth < a.depth) then a else b) := by
    unfold Sym.makeAdd
    split <;> rfl
  rw [hm]
  unfold Store.add
  simp only
  split
  · rename_i i hg
    obtain ⟨o, d, ho, hk⟩ := hi.known _ _ hg
    cases keyOf_inj hk (o' := .add _ _) rfl
    exact ⟨_, rfl, .add ho h1 h2⟩
  · exact ⟨_, rfl, .add (make_at ..) (denotes_mono (make_keeps _ _ _ _) h1) (denotes_mono (make_keeps _ _ _ _) h2)⟩

/-- **C75, quotients.** -/
theorem C75_div {s : Store} (hs : Reach s) {n : Nat} {d : Int} {a t : Num} (hn : Denotes s (.obj n) a)
    (ht : Sym.makeDiv a d = .ok t) :
    ∃ x, (s.div n d).2 = some x ∧ Denotes (s.div n d).1 x t := by
  have hi := hs.inv
  unfold Sym.makeDiv at ht
  split at ht
  · rename_i hd
    cases ht
    unfold Store.div
    split
    · rename_i i hg
      obtain ⟨o, d, ho, hk⟩ := hi.known _ _ hg
      cases keyOf_inj hk (o' := .div _ _) rfl
      exact ⟨_, rfl, .div ho hn⟩
    · rw [if_pos hd]
      exact ⟨_, rfl, .div (make_at ..) (denotes_mono (make_keeps _ _ _ _) hn)⟩
  · cases ht

/-- **C75, powers.** -/
theorem C75_exp {s : Store} (hs : Reach s) {base : Int} {e : Ref} {a t : Num} (he : Denotes s e a)
    (ht : Sym.expInit base a = .ok t) :
    ∃ x, (s.exp base e).2 = some x ∧ Denotes (s.exp base e).1 x t := by
  have hi := hs.inv
  have htt : t = .exp base a := by
    unfold Sym.expInit at ht
    split at ht
    · split at ht
      · cases ht
      · cases ht; rfl
    · cases ht; rfl
  subst htt
  unfold Store.exp
  split
  · rename_i i hg
    obtain ⟨o, d, ho, hk⟩ := hi.known _ _ hg
    cases keyOf_inj hk (o' := .exp _ _) rfl
    exact ⟨_, rfl, .exp ho he⟩
  · cases e with
    | int k =>
      cases he
      simp only [Sym.expInit] at ht
      split at ht
      · cases ht
      · rename_i hk
        simp only [if_neg hk]
        exact ⟨_, rfl, .exp (make_at ..) (.int k)⟩
    | obj j => exact ⟨_, rfl, .exp (make_at ..) (denotes_mono (make_keeps _ _ _ _) he)⟩

/-- **C75, products.**  A product that is found is the product of the operands, in the order of
`Model/Num`; otherwise it is under way. -/
theorem C75_mul {s s' : Store} (hs : Reach s) {l : Ref} {r : Nat} {a b : Num} (hl : Denotes s l a)
    (hr : Denotes s (.obj r) b) {x : Option Ref} (h : s.mul l r = some (s', x)) :
    let swap := !a.isInt && decide (b.depth < a.depth)
    (∀ y, x = some y → Denotes s' y (.mul (if swap then b else a) (if swap then a else b))) ∧
    (x = none → ∃ l' r', s'.pending = (l', r') :: s.pending ∧
      Denotes s' l' (if swap then b else a) ∧ Denotes s' (.obj r') (if swap then a else b)) := by
  have hi := hs.inv
  obtain ⟨h1, h2⟩ := order_denotes hi hl hr
  simp only [Store.mul] at h
  split at h
  · rename_i i hg
    cases h
    refine ⟨?_, fun h => ?_⟩
    swap
    · cases h
    intro y hy
    cases hy
    obtain ⟨o, d, ho, hk⟩ := hi.known _ _ hg
    cases keyOf_inj hk (o' := .mul _ _) rfl
    exact .mul ho h1 h2
  · split at h
    · cases h
    · cases h
      refine ⟨fun y h => ?_, fun _ => ⟨_, _, rfl, ?_, ?_⟩⟩
      · cases h
      · refine denotes_mono (s := s) ?_ h1
        exact fun _ _ h => h
      · refine denotes_mono (s := s) ?_ h2
        exact fun _ _ h => h

/-- **C75, products that are made.** -/
theorem C75_mul_done {s s' : Store} {l : Ref} {r : Nat} {rest : List (Ref × Nat)} {a b : Num}
    (hp : s.pending = (l, r) :: rest) (hl : Denotes s l a) (hr : Denotes s (.obj r) b)
    {x : Option Ref} (h : s.mulDone = some (s', x)) :
    ∃ y, x = some y ∧ Denotes s' y (.mul a b) := by
  simp only [Store.mulDone, hp, Option.some.injEq] at h
  have h1 := congrArg Prod.fst h
  have h2 := congrArg Prod.snd h
  simp only at h1 h2
  subst h1 h2
  exact ⟨_, rfl, .mul (make_at ..) (denotes_mono (s := s) (make_keeps { s with pending := rest } _ _ _) hl)
    (denotes_mono (s := s) (make_keeps { s with pending := rest } _ _ _) hr)⟩

/-- A run of events, with the last answer. -/
def runAll : Store → List Event → Option (Store × Option Ref)
  | s, [] => some (s, none)
  | s, [e] => s.step e
  | s, e :: es => (s.step e).bind fun x => runAll x.1 es

theorem found {s : Store} (hs : Inv s) {k : Key} {i : Nat} (h : s.dicts.lookup k = some i) {o : Obj}
    (ho : keyOf o = some k) : ∃ d, s.heap[i]? = some (o, d) := by
  obtain ⟨o', d, hg, hk⟩ := hs.known _ _ h
  cases keyOf_inj hk ho
  exact ⟨d, hg⟩

/-- **C75, what was asked for.**  The object returned has the class and the fields of the call (a sum
or a product up to order); a `Tet` is new. -/
theorem C75_fields {s s' : Store} (hs : Reach s) {e : Event} {i : Nat}
    (h : s.step e = some (s', some (.obj i))) :
    match e with
    | .add l r => ∃ d, s'.heap[i]? = some (.add l r, d) ∨
        ∃ k, l = .obj k ∧ s'.heap[i]? = some (.add (.obj r) k, d)
    | .div n c => ∃ d, s'.heap[i]? = some (.div n c, d)
    | .exp b x => ∃ d, s'.heap[i]? = some (.exp b x, d)
    | .tet b k => i = s.heap.length ∧ s'.heap[i]? = some (.tet b k, 1)
    | _ => True := by
  have hi := hs.inv
  cases e with
  | add l r =>
    simp only [Store.step, Option.some.injEq, Store.add] at h
    have key : ∃ d, s'.heap[i]? = some (.add (s.order l r).1 (s.order l r).2, d) := by
      split at h
      · rename_i j hg
        simp only [Prod.mk.injEq, Option.some.injEq, Ref.obj.injEq] at h
        obtain ⟨rfl, rfl⟩ := h
        exact found hi hg rfl
      · have h1 := congrArg Prod.fst h
        have h2 := congrArg Prod.snd h
        simp only [Store.make, Option.some.injEq, Ref.obj.injEq] at h1 h2
        subst h1 h2
        exact ⟨_, make_at ..⟩
    obtain ⟨d, hd⟩ := key
    refine ⟨d, ?_⟩
    cases l with
    | int n => exact .inl hd
    | obj k =>
      simp only [Store.order] at hd
      split at hd
      · exact .inr ⟨k, rfl, hd⟩
      · exact .inl hd
  | div n c =>
    simp only [Store.step, Option.some.injEq, Store.div] at h
    split at h
    · rename_i j hg
      simp only [Prod.mk.injEq, Option.some.injEq, Ref.obj.injEq] at h
      obtain ⟨rfl, rfl⟩ := h
      exact found hi hg rfl
    · split at h
      · have h1 := congrArg Prod.fst h
        have h2 := congrArg Prod.snd h
        simp only [Store.make, Option.some.injEq, Ref.obj.injEq] at h1 h2
        subst h1 h2
        exact ⟨_, make_at ..⟩
      · cases h
  | exp b x =>
    simp only [Store.step, Option.some.injEq, Store.exp] at h
    split at h
    · rename_i j hg
      simp only [Prod.mk.injEq, Option.some.injEq, Ref.obj.injEq] at h
      obtain ⟨rfl, rfl⟩ := h
      exact found hi hg rfl
    · split at h
      · split at h
        · cases h
        · have h1 := congrArg Prod.fst h
          have h2 := congrArg Prod.snd h
          simp only [Store.make, Option.some.injEq, Ref.obj.injEq] at h1 h2
          subst h1 h2
          exact ⟨_, make_at ..⟩
      · have h1 := congrArg Prod.fst h
        have h2 := congrArg Prod.snd h
        simp only [Store.make, Option.some.injEq, Ref.obj.injEq] at h1 h2
        subst h1 h2
        exact ⟨_, make_at ..⟩
  | tet b k =>
    simp only [Store.step, Option.some.injEq, Store.tet] at h
    have h1 := congrArg Prod.fst h
    have h2 := congrArg Prod.snd h
    simp only [Option.some.injEq, Ref.obj.injEq] at h1 h2
    subst h1 h2
    exact ⟨rfl, by simp⟩
  | mul _ _ => trivial
  | mulDone => trivial
  | mulFail => trivial

/-- **C75, equality of `Tet`s.**  Two are equal if their fields are; one is not equal to anything else. -/
theorem C75_tet_eq {s : Store} {i : Nat} {b h : Int} {d : Nat} (hi : s.heap[i]? = some (.tet b h, d)) :
    (∀ j b' h' d', s.heap[j]? = some (.tet b' h', d') →
      (s.eq (.obj i) (.obj j) = true ↔ b = b' ∧ h = h')) ∧
    ∀ r : Ref, (∀ j, r = .obj j → ∀ b' h' d', s.heap[j]? ≠ some (.tet b' h', d')) →
      s.eq (.obj i) r = false := by
  constructor
  · intro j b' h' d' hj
    simp only [Store.eq, hi, hj, Bool.and_eq_true, beq_iff_eq]
  · intro r hr
    cases r with
    | int n => rfl
    | obj j =>
      simp only [Store.eq, hi]
      split
      · rename_i h2
        exact absurd h2 (hr j rfl _ _ _)
      · rfl
      · rename_i h1 _
        exact absurd rfl (h1 _ _ _)

/-- `2 ** 5`, `-1 + 2 ** 5`, a product of the two, whose constructor makes `2 ** 5` again and a sum, and
the product again: four objects, and the answer is the product. -/
theorem C75_example :
    ((runAll empty [.exp 2 (.int 5), .add (.int (-1)) 0, .mul (.obj 1) 0, .exp 2 (.int 5),
      .add (.int 7) 0, .mulDone, .mul (.obj 1) 0]).map fun x => (x.1.heap.map (·.1), x.2))
      = some ([.exp 2 (.int 5), .add (.int (-1)) 0, .add (.int 7) 0, .mul (.obj 0) 1],
        some (.obj 3)) := by
  decide +kernel

/-- **C75, not for `Tet`.**  Two equal `Tet`s have different hashes: `2 **` the one is not equal to
`2 **` the other. -/
theorem C75_tet_violation :
    ∃ s, runAll empty [.tet 10 3, .tet 10 3, .exp 2 (.obj 0), .exp 2 (.obj 1)] = some (s, some (.obj 3)) ∧
      s.heap.map (·.1) = [.tet 10 3, .tet 10 3, .exp 2 (.obj 0), .exp 2 (.obj 1)] ∧
      s.eq (.obj 0) (.obj 1) = true ∧ s.eq (.obj 2) (.obj 3) = false := by
  refine ⟨_, rfl, ?_⟩
  decide +kernel

end Cons
end BB
