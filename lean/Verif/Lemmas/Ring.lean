import Mathlib.Data.Fintype.Card
import Mathlib.Data.Fintype.Pi
import Mathlib.Data.Fintype.Prod
import Mathlib.Data.Fintype.BigOperators
import Mathlib.Data.Fintype.Pigeonhole
import Mathlib.Tactic.Ring

/-! # How long a head can stay among `n` cells without repeating itself

A machine with `S` states and `C ≥ 2` colours that keeps its head among `n` cells for
`2 * S * C ^ n` moves repeats a configuration.  There are `n * S * C ^ n` configurations, so this is
not just counting.  Closing the `n` cells to a ring leaves `S * C ^ n` configurations up to rotation;
when one comes back rotated, the machine drifts, and the further it can drift the fewer cells its
period can use. -/

namespace BB

/-- A record of `T` moves of a head among the cells `0, …, n - 1`. -/
structure Trace (n S C T : Nat) where
  q : Nat → Nat
  pos : Nat → Int
  tape : Nat → Int → Nat
  q_lt : ∀ t, t ≤ T → q t < S
  pos_in : ∀ t, t ≤ T → 0 ≤ pos t ∧ pos t < n
  cell_lt : ∀ t, t ≤ T → ∀ x : Int, 0 ≤ x → x < n → tape t x < C
  det : ∀ s t, s < T → t < T → q s = q t → tape s (pos s) = tape t (pos t) →
    q (s + 1) = q (t + 1) ∧ pos (s + 1) - pos s = pos (t + 1) - pos t ∧
      tape (s + 1) (pos s) = tape (t + 1) (pos t)
  frame : ∀ t, t < T → ∀ x, x ≠ pos t → tape (t + 1) x = tape t x

namespace Trace

variable {n S C T : Nat} (r : Trace n S C T)

/-- The same up to rotation of the ring. -/
def Rel (a b : Nat) : Prop :=
  r.q a = r.q b ∧ ∀ i : Int, r.tape a ((r.pos a + i) % n) = r.tape b ((r.pos b + i) % n)

theorem Rel.refl (a : Nat) : r.Rel a a := ⟨rfl, fun _ => rfl⟩

variable {r}

theorem Rel.symm {a b : Nat} (h : r.Rel a b) : r.Rel b a := ⟨h.1.symm, fun i => (h.2 i).symm⟩

theorem Rel.trans {a b c : Nat} (h : r.Rel a b) (h' : r.Rel b c) : r.Rel a c :=
  ⟨h.1.trans h'.1, fun i => (h.2 i).trans (h'.2 i)⟩

theorem emod_pos {n : Nat} {p : Int} (h : 0 ≤ p ∧ p < n) : p % n = p := Int.emod_eq_of_lt h.1 h.2

theorem emod_eq_iff {n : Nat} {p : Int} (h : 0 ≤ p ∧ p < n) (j : Int) :
    (p + j) % n = p ↔ j % n = 0 := by
  constructor
  · intro h1
    have h2 : (p + j) % n = p % n := by rw [h1, emod_pos h]
    have h3 := Int.emod_emod_of_dvd (p + j - p) (dvd_refl (n : Int))
    have h4 : (p + j - p) % n = 0 := by
      rw [Int.sub_emod, h2, sub_self, Int.zero_emod]
    simpa using h4
  · intro h1
    rw [Int.add_emod, h1, add_zero, Int.emod_emod_of_dvd _ (dvd_refl _), emod_pos h]

/-- The value of a cell after a move, seen from the old place of the head. -/
theorem tape_succ (t : Nat) (ht : t < T) (j : Int) :
    r.tape (t + 1) ((r.pos t + j) % n) =
      if j % n = 0 then r.tape (t + 1) (r.pos t) else r.tape t ((r.pos t + j) % n) := by
  have hp := r.pos_in t ht.le
  split
  · rename_i h
    rw [(emod_eq_iff hp j).mpr h]
  · rename_i h
    exact r.frame t ht _ fun e => h ((emod_eq_iff hp j).mp e)

theorem Rel.succ {a b : Nat} (h : r.Rel a b) (ha : a < T) (hb : b < T) :
    r.Rel (a + 1) (b + 1) ∧ r.pos (b + 1) - r.pos (a + 1) = r.pos b - r.pos a := by
  have h0 := h.2 0
  rw [add_zero, add_zero, emod_pos (r.pos_in a ha.le), emod_pos (r.pos_in b hb.le)] at h0
  obtain ⟨d1, d2, d3⟩ := r.det a b ha hb h.1 h0
  refine ⟨⟨d1, fun i => ?_⟩, by omega⟩
  have ea : r.pos (a + 1) + i = r.pos a + ((r.pos (a + 1) - r.pos a) + i) := by omega
  have eb : r.pos (b + 1) + i = r.pos b + ((r.pos (a + 1) - r.pos a) + i) := by omega
  rw [ea, eb, tape_succ a ha, tape_succ b hb, d3, h.2]

theorem Rel.add {a b : Nat} (h : r.Rel a b) : ∀ i, a + i ≤ T → b + i ≤ T →
    r.Rel (a + i) (b + i) ∧ r.pos (b + i) - r.pos (a + i) = r.pos b - r.pos a := by
  intro i
  induction i with
  | zero => intro _ _; exact ⟨h, rfl⟩
  | succ i ih =>
    intro ha hb
    obtain ⟨h1, h2⟩ := ih (by omega) (by omega)
    obtain ⟨h3, h4⟩ := h1.succ (by omega) (by omega)
    exact ⟨h3, h4.trans h2⟩

/-- Going on by a period again and again. -/
theorem Rel.mul {a m : Nat} (h : r.Rel a (a + m)) : ∀ k, a + k * m ≤ T →
    r.Rel a (a + k * m) ∧ r.pos (a + k * m) - r.pos a = k * (r.pos (a + m) - r.pos a) := by
  intro k
  induction k with
  | zero => intro _; simp [Rel.refl]
  | succ k ih =>
    intro hk
    have e : a + (k + 1) * m = a + m + k * m := by ring
    rw [e] at hk ⊢
    obtain ⟨h1, h2⟩ := ih (by omega)
    obtain ⟨h3, h4⟩ := h.add (k * m) (by omega) hk
    refine ⟨h1.trans h3, ?_⟩
    push_cast
    rw [add_mul]
    omega

/-! ## Counting -/

/-- A moment as one of `S * C ^ n` things. -/
def code (r : Trace n S C T) (hn : 0 < n) (t : Fin (T + 1)) : Fin S × (Fin n → Fin C) :=
  (⟨r.q t, r.q_lt t (by omega)⟩, fun i => ⟨r.tape t ((r.pos t + (i.val : Int)) % n),
    r.cell_lt t (by omega) _ (Int.emod_nonneg _ (by omega)) (Int.emod_lt_of_pos _ (by omega))⟩)

theorem rel_of_code (hn : 0 < n) {s t : Fin (T + 1)} (h : r.code hn s = r.code hn t) :
    r.Rel s t := by
  simp only [code, Prod.mk.injEq, Fin.mk.injEq] at h
  refine ⟨h.1, fun i => ?_⟩
  have hi0 : 0 ≤ i % n := Int.emod_nonneg _ (by omega)
  have hi1 : i % n < n := Int.emod_lt_of_pos _ (by omega)
  have := congrFun h.2 ⟨(i % n).toNat, by omega⟩
  simp only [Fin.mk.injEq, Int.toNat_of_nonneg hi0] at this
  simpa using this

theorem card_code (n S C : Nat) : Fintype.card (Fin S × (Fin n → Fin C)) = S * C ^ n := by
  simp

theorem exists_rel (r : Trace n S C T) (hn : 0 < n) {Q : Nat} (hQ : S * C ^ n = Q) (hT : Q ≤ T) :
    ∃ a b, a < b ∧ b ≤ Q ∧ r.Rel a b := by
  have hc : Fintype.card (Fin S × (Fin n → Fin C)) < Fintype.card (Fin (Q + 1)) := by
    rw [card_code, Fintype.card_fin, hQ]; omega
  obtain ⟨x, y, hxy, he⟩ := Fintype.exists_ne_map_eq_of_card_lt
    (fun i : Fin (Q + 1) => r.code hn ⟨i.val, by omega⟩) hc
  have h := rel_of_code hn he
  simp only at h
  rcases Nat.lt_or_gt_of_ne (fun e => hxy (Fin.ext e)) with h1 | h1
  · exact ⟨x, y, h1, by omega, h⟩
  · exact ⟨y, x, h1, by omega, h.symm⟩

/-- A period that drifts by `δ` has at most `δ * S * C ^ n` moves. -/
theorem period_le (r : Trace n S C T) (hn : 0 < n) (hT : 0 < T) (h : r.Rel 0 T) {δ : Nat}
    (hδ : 0 < δ) (hd : r.pos T - r.pos 0 = δ) : T ≤ δ * (S * C ^ n) := by
  classical
  have hex : ∃ m, 0 < m ∧ m ≤ T ∧ r.Rel 0 m := ⟨T, hT, le_refl _, h⟩
  obtain ⟨hm0, hmT, hm⟩ := Nat.find_spec hex
  have hmin : ∀ a, 0 < a → a < Nat.find hex → ¬ r.Rel 0 a := by
    intro a ha hlt hr
    exact Nat.find_min hex hlt ⟨ha, by omega, hr⟩
  generalize Nat.find hex = m at hm0 hmT hm hmin
  -- the least period divides `T`
  have hmul := (Rel.mul (a := 0) (m := m) (by simpa using hm))
  have hdiv : T % m = 0 := by
    by_contra hne
    have hk : 0 + T / m * m ≤ T := by rw [Nat.zero_add]; exact Nat.div_mul_le_self T m
    obtain ⟨h1, _⟩ := hmul (T / m) hk
    have hsum : T / m * m + T % m = T := by rw [Nat.mul_comm]; exact Nat.div_add_mod T m
    have h2 := (h1.add (T % m) (by omega) (by omega)).1
    have e : 0 + T / m * m + T % m = T := by omega
    rw [e, Nat.zero_add] at h2
    exact hmin _ (by omega) (Nat.mod_lt _ hm0) (h.trans h2.symm)
  have hT' : T / m * m = T := Nat.div_mul_cancel (Nat.dvd_of_mod_eq_zero hdiv)
  -- and is at most the number of codes
  have hle : m ≤ S * C ^ n := by
    by_contra hlt
    obtain ⟨a, b, hab, hb, hr⟩ := r.exists_rel hn rfl (by omega)
    have h1 := (hr.add (m - b) (by omega) (by omega)).1
    rw [Nat.add_sub_cancel' (by omega)] at h1
    exact hmin (a + (m - b)) (by omega) (by omega) (hm.trans h1.symm)
  -- it is run through at most `δ` times
  obtain ⟨_, h2⟩ := hmul (T / m) (by rw [hT']; omega)
  simp only [Nat.zero_add] at h2
  rw [hT', hd] at h2
  have hk : T / m ≤ δ := by
    have : (T / m : Nat) ∣ δ := by
      have h3 : ((T / m : Nat) : Int) ∣ (δ : Int) := ⟨_, h2⟩
      exact Int.natCast_dvd_natCast.mp h3
    exact Nat.le_of_dvd hδ this
  calc T = T / m * m := hT'.symm
    _ ≤ δ * (S * C ^ n) := Nat.mul_le_mul hk hle

/-! ## Drifting -/

/-- The moves from `a` on, when they stay among the first `n'` cells. -/
def seg (r : Trace n S C T) (a m n' : Nat) (ha : a + m ≤ T) (hn : n' ≤ n)
    (hp : ∀ t, t ≤ m → r.pos (a + t) < n') : Trace n' S C m where
  q t := r.q (a + t)
  pos t := r.pos (a + t)
  tape t := r.tape (a + t)
  q_lt t ht := r.q_lt _ (by omega)
  pos_in t ht := ⟨(r.pos_in (a + t) (by omega)).1, hp t ht⟩
  cell_lt t ht x h0 h1 := r.cell_lt _ (by omega) x h0 (by omega)
  det s t hs ht := r.det (a + s) (a + t) (by omega) (by omega)
  frame t ht := r.frame (a + t) (by omega)

/-- Cells the head does not come to stay as they are. -/
theorem tape_same (r : Trace n S C T) (a : Nat) (x : Int) : ∀ m, a + m ≤ T →
    (∀ t, t < m → r.pos (a + t) ≠ x) → r.tape (a + m) x = r.tape a x := by
  intro m
  induction m with
  | zero => intro _ _; rfl
  | succ m ih =>
    intro h hp
    rw [← ih (by omega) fun t ht => hp t (by omega)]
    exact r.frame (a + m) (by omega) x (fun e => hp m (by omega) e.symm)

/-- A moment that comes back rotated by `δ` on the ring of `n` cells comes back rotated by `δ` on a
ring of `n' = n - g * δ` cells, if the head did not leave these. -/
theorem rel_seg (r : Trace n S C T) {a m n' g δ : Nat} (ha : a + m ≤ T) (hn : n' + g * δ = n)
    (hp : ∀ t, t ≤ m → r.pos (a + t) < n') (h : r.Rel a (a + m))
    (hd : r.pos (a + m) - r.pos a = δ) :
    (r.seg a m n' ha (by omega) hp).Rel 0 m := by
  refine ⟨h.1, fun i => ?_⟩
  have hpa := r.pos_in a (by omega)
  have hpb := r.pos_in (a + m) ha
  have hp0 : r.pos a < n' := hp 0 (by omega)
  have hpm := hp m (le_refl m)
  -- cell `y` after the period is cell `y - δ` before it
  have hrot : ∀ y : Int, 0 ≤ y → y < n → r.tape (a + m) y = r.tape a ((y - δ) % n) := by
    intro y h0 h1
    have := h.2 (y - r.pos (a + m))
    rw [show r.pos (a + m) + (y - r.pos (a + m)) = y by omega,
      show r.pos a + (y - r.pos (a + m)) = y - δ by omega, emod_pos ⟨h0, h1⟩] at this
    exact this.symm
  -- beyond `n'` the tape repeats itself
  have hhop : ∀ y : Int, (n' : Int) ≤ y → y < n → r.tape a y = r.tape a (y - δ) := by
    intro y h0 h1
    have h2 := hrot y (by omega) h1
    rw [r.tape_same a y m ha fun t ht e => by have := hp t ht.le; omega,
      emod_pos ⟨by omega, by omega⟩] at h2
    exact h2
  have hhops : ∀ (k : Nat) (y : Int), (n' : Int) ≤ y + δ → y + k * δ < n →
      r.tape a (y + k * δ) = r.tape a y := by
    intro k
    induction k with
    | zero => intro y _ _; simp
    | succ k ih =>
      intro y h0 h1
      have e : y + ((k + 1 : Nat) : Int) * δ = y + k * δ + δ := by push_cast; ring
      have hkd : (0 : Int) ≤ (k : Int) * δ :=
        Int.mul_nonneg (Int.natCast_nonneg _) (Int.natCast_nonneg _)
      rw [e] at h1 ⊢
      rw [hhop _ (by omega) h1, show y + (k : Int) * δ + δ - δ = y + k * δ by omega]
      exact ih y h0 (by omega)
  -- so on the small ring too cell `y` after the period is cell `y - δ` before it
  have hn'0 : (0 : Int) < n' := by omega
  have hsmall : ∀ y : Int, 0 ≤ y → y < n' → r.tape (a + m) y = r.tape a ((y - δ) % n') := by
    intro y h0 h1
    rw [hrot y h0 (by omega)]
    by_cases hy : (δ : Int) ≤ y
    · rw [emod_pos ⟨by omega, by omega⟩, emod_pos ⟨by omega, by omega⟩]
    · have e1 : (y - δ) % n = y - δ + n := by
        rw [← Int.add_emod_right]
        exact emod_pos ⟨by omega, by omega⟩
      have e2 : (y - δ) % n' = y - δ + n' := by
        rw [← Int.add_emod_right]
        exact emod_pos ⟨by omega, by omega⟩
      have hnI : (n : Int) = n' + g * δ := by rw [← hn]; push_cast; rfl
      rw [e1, e2, hnI, ← hhops g (y - δ + n') (by omega) (by omega)]
      congr 1; ring
  -- seen from the head
  have hb := hsmall ((r.pos (a + m) + i) % n') (Int.emod_nonneg _ (by omega))
    (Int.emod_lt_of_pos _ hn'0)
  have e3 : ((r.pos (a + m) + i) % n' - δ) % n' = (r.pos a + i) % n' := by
    rw [Int.emod_sub_emod]
    congr 1; omega
  rw [e3] at hb
  exact hb.symm

/-- Drifting for ever so long is impossible. -/
theorem no_drift (hC : 2 ≤ C) {Q : Nat} (hQ : Q = S * C ^ n) (r : Trace n S C (2 * Q)) {a b : Nat}
    (hab : a < b) (hb : b ≤ Q) (h : r.Rel a b) : ¬ r.pos a < r.pos b := by
  intro hlt
  obtain ⟨m, rfl⟩ : ∃ m, b = a + m := ⟨b - a, by omega⟩
  obtain ⟨δ, hδ⟩ : ∃ δ : Nat, r.pos (a + m) - r.pos a = δ :=
    ⟨(r.pos (a + m) - r.pos a).toNat, by omega⟩
  have hδ0 : 0 < δ := by omega
  have hm0 : 0 < m := by omega
  -- the number of whole periods
  obtain ⟨J, hJ1, hJ2⟩ : ∃ J, J * m ≤ 2 * Q - a ∧ 2 * Q - a < (J + 1) * m := by
    refine ⟨(2 * Q - a) / m, Nat.div_mul_le_self _ _, ?_⟩
    have := Nat.lt_mul_div_succ (2 * Q - a) hm0
    rwa [Nat.mul_comm m] at this
  have hQJ : Q < J * m := by rw [Nat.add_mul] at hJ2; omega
  have hJ0 : 2 ≤ J := by
    by_contra hc
    have : J * m ≤ 1 * m := Nat.mul_le_mul_right _ (by omega)
    omega
  obtain ⟨g, hg⟩ : ∃ g, J = g + 1 := ⟨J - 1, by omega⟩
  have hsplit : (g + 1) * m = g * m + m := by ring
  rw [hg, hsplit] at hJ1 hQJ
  -- the head stays below `n - g * δ` in the first one
  have hmul := Rel.mul h
  have hpos : ∀ t, t ≤ m → r.pos (a + t) + ((g * δ : Nat) : Int) < n := by
    intro t ht
    obtain ⟨h1, h2⟩ := hmul g (by omega)
    obtain ⟨_, h4⟩ := h1.add t (by omega) (by omega)
    have h5 := (r.pos_in (a + g * m + t) (by omega)).2
    push_cast
    rw [hδ] at h2
    omega
  have h0 := hpos 0 (by omega)
  have hp0 := (r.pos_in a (by omega)).1
  rw [Nat.add_zero] at h0
  have hgn : g * δ ≤ n := by omega
  have hp : ∀ t, t ≤ m → r.pos (a + t) < ((n - g * δ : Nat) : Int) := by
    intro t ht
    have := hpos t ht
    omega
  have hrel := r.rel_seg (n' := n - g * δ) (g := g) (by omega) (by omega) hp h hδ
  have hle := Trace.period_le (r.seg a m (n - g * δ) (by omega) (by omega) hp) (by omega) hm0 hrel hδ0
    hδ
  -- so `C ^ (g * δ) < (g + 1) * δ`
  have hS : 0 < S * C ^ (n - g * δ) := by
    rcases Nat.eq_zero_or_pos (S * C ^ (n - g * δ)) with h1 | h1
    · rw [h1, Nat.mul_zero] at hle; omega
    · exact h1
  have h1 : Q = S * C ^ (n - g * δ) * C ^ (g * δ) := by
    rw [hQ, Nat.mul_assoc, ← Nat.pow_add, Nat.sub_add_cancel hgn]
  have h2 : S * C ^ (n - g * δ) * C ^ (g * δ) < S * C ^ (n - g * δ) * ((g + 1) * δ) := by
    rw [← h1]
    calc Q < (g + 1) * m := by rw [hsplit]; exact hQJ
      _ ≤ (g + 1) * (δ * (S * C ^ (n - g * δ))) := Nat.mul_le_mul_left _ hle
      _ = S * C ^ (n - g * δ) * ((g + 1) * δ) := by ring
  have h3 : C ^ (g * δ) < (g + 1) * δ := Nat.lt_of_mul_lt_mul_left h2
  have hg1 : 1 ≤ g := by omega
  have h4 : (g + 1) * δ ≤ 2 * (g * δ) := by
    have : δ ≤ g * δ := Nat.le_mul_of_pos_left _ hg1
    rw [Nat.add_mul]; omega
  have h5 : ∀ k, 1 ≤ k → 2 * k ≤ 2 ^ k := by
    intro k hk
    induction k with
    | zero => omega
    | succ k ih =>
      rcases Nat.eq_zero_or_pos k with rfl | hk
      · decide
      · have := ih hk
        rw [Nat.pow_succ]; omega
  have h6 : 2 ^ (g * δ) ≤ C ^ (g * δ) := Nat.pow_le_pow_left hC _
  have h7 := h5 (g * δ) (Nat.mul_pos hg1 hδ0)
  omega

/-- The record in a mirror. -/
def mirror (r : Trace n S C T) : Trace n S C T where
  q := r.q
  pos t := n - 1 - r.pos t
  tape t x := r.tape t (n - 1 - x)
  q_lt := r.q_lt
  pos_in t ht := by have := r.pos_in t ht; omega
  cell_lt t ht x h0 h1 := r.cell_lt t ht _ (by omega) (by omega)
  det s t hs ht hq hc := by
    have es : (n : Int) - 1 - (n - 1 - r.pos s) = r.pos s := by omega
    have et : (n : Int) - 1 - (n - 1 - r.pos t) = r.pos t := by omega
    rw [es, et] at hc ⊢
    obtain ⟨h1, h2, h3⟩ := r.det s t hs ht hq hc
    exact ⟨h1, by omega, h3⟩
  frame t ht x hx := r.frame t ht _ (fun e => hx (by omega))

theorem mirror_rel (hn : 0 < n) {a b : Nat} (h : r.Rel a b) : r.mirror.Rel a b := by
  refine ⟨h.1, fun i => ?_⟩
  have e : ∀ y : Int, (n : Int) - 1 - (n - 1 - y + i) % n = (y - i) % n := by
    intro y
    have h0 := Int.emod_nonneg (n - 1 - y + i) (b := (n : Int)) (by omega)
    have h1 := Int.emod_lt_of_pos (n - 1 - y + i) (b := (n : Int)) (by omega)
    have h2 := Int.emod_add_mul_ediv (n - 1 - y + i) n
    rw [← emod_pos (n := n) (p := n - 1 - (n - 1 - y + i) % n) ⟨by omega, by omega⟩]
    rw [show (n : Int) - 1 - (n - 1 - y + i) % n =
      y - i + n * ((n - 1 - y + i) / n) by omega, Int.add_mul_emod_self_left]
  have := h.2 (-i)
  rw [← sub_eq_add_neg, ← sub_eq_add_neg] at this
  simp only [mirror, e]
  exact this

/-- **A head that stays among `n` cells for `2 * S * C ^ n` moves repeats a configuration.** -/
theorem repeats (hC : 2 ≤ C) (hn : 0 < n) (r : Trace n S C (2 * (S * C ^ n))) :
    ∃ a b, a < b ∧ b ≤ 2 * (S * C ^ n) ∧ r.q a = r.q b ∧ r.pos a = r.pos b ∧
      ∀ x : Int, 0 ≤ x → x < n → r.tape a x = r.tape b x := by
  obtain ⟨a, b, hab, hb, h⟩ := r.exists_rel hn rfl (by omega)
  have h1 := no_drift hC rfl r hab hb h
  have h2 := no_drift hC rfl r.mirror hab hb (mirror_rel hn h)
  simp only [mirror] at h2
  have hpos : r.pos a = r.pos b := by omega
  refine ⟨a, b, hab, by omega, h.1, hpos, fun x h0 hx => ?_⟩
  have := h.2 (x - r.pos a)
  rw [show r.pos a + (x - r.pos a) = x by omega,
    show r.pos b + (x - r.pos a) = x by omega, emod_pos ⟨h0, hx⟩] at this
  exact this

end Trace

end BB
