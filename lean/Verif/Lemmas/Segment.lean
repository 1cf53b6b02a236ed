import Verif.Model.Segment
import Verif.Lemmas.Forever
import Verif.Lemmas.Graph

/-!
# The window and the run

A window of `W` cells, `o + 1 … o + W`; what the segment analysis sees of a configuration.
-/

namespace BB

/-! ## Runs inside a window -/

abbrev WCfg := State × SegTape

/-- One move of the head inside the window. -/
def wstep (p : Prog) (x : WCfg) : Option WCfg :=
  match x.2.scan with
  | none => none
  | some s =>
    match p (x.1, s) with
    | none => none
    | some i => some (i.2.2, x.2.step i.2.1 i.1)

def wrun (p : Prog) : Nat → WCfg → Option WCfg
  | 0, x => some x
  | n + 1, x => (wrun p n x).bind (wstep p)

theorem wrun_succ {p : Prog} {n : Nat} {x y : WCfg} (h : wrun p n x = some y) :
    wrun p (n + 1) x = wstep p y := by
  rw [wrun, h, Option.bind_some]

theorem wrun_add (p : Prog) (m n : Nat) (x : WCfg) :
    wrun p (m + n) x = (wrun p m x).bind (wrun p n) := by
  induction n with
  | zero =>
    rw [Nat.add_zero]
    cases wrun p m x <;> rfl
  | succ n ih =>
    rw [← Nat.add_assoc, wrun, ih]
    cases wrun p m x <;> rfl

theorem wrun_isSome_of_le {p : Prog} {m n : Nat} {x : WCfg} (h : m ≤ n)
    (hs : (wrun p n x).isSome) : (wrun p m x).isSome := by
  obtain ⟨k, rfl⟩ := Nat.exists_eq_add_of_le h
  rw [wrun_add] at hs
  cases hm : wrun p m x with
  | none => simp [hm] at hs
  | some y => rfl

theorem wrun_stuck {p : Prog} {n m : Nat} {x y z : WCfg} (h1 : wrun p n x = some y)
    (h2 : wstep p y = none) (h3 : wrun p m x = some z) : m ≤ n := by
  by_contra hlt
  have := wrun_isSome_of_le (show n + 1 ≤ m by omega) (p := p) (x := x) (by rw [h3]; rfl)
  rw [wrun_succ h1, h2] at this
  cases this

theorem wrun_stuck_unique {p : Prog} {n m : Nat} {x y z : WCfg} (h1 : wrun p n x = some y)
    (h2 : wstep p y = none) (h3 : wrun p m x = some z) (h4 : wstep p z = none) : y = z := by
  have : n = m := Nat.le_antisymm (wrun_stuck h3 h4 h1) (wrun_stuck h1 h2 h3)
  subst this
  rw [h1] at h3
  cases h3
  rfl

theorem wrun_loop {p : Prog} {a b : Nat} {x y : WCfg} (ha : wrun p a x = some y)
    (hb : wrun p b x = some y) (hab : a < b) (n : Nat) : (wrun p n x).isSome := by
  obtain ⟨k, rfl⟩ := Nat.exists_eq_add_of_le (Nat.le_of_lt hab)
  have hk : wrun p k y = some y := by
    rw [wrun_add, ha, Option.bind_some] at hb
    exact hb
  have hmul : ∀ j, wrun p (j * k) y = some y := by
    intro j
    induction j with
    | zero => simp [wrun]
    | succ j ih => rw [Nat.succ_mul, wrun_add, ih, Option.bind_some, hk]
  refine wrun_isSome_of_le (n := a + n * k) ?_ ?_
  · have : n * 1 ≤ n * k := Nat.mul_le_mul_left n (by omega)
    omega
  · rw [wrun_add, ha, Option.bind_some, hmul]
    rfl

/-! ## Pieces of a tape -/

def segR (f : Int → Color) (a : Int) (n : Nat) : List Color :=
  (List.range n).map fun i : Nat => f (a + i)

def segL (f : Int → Color) (a : Int) (n : Nat) : List Color :=
  (List.range n).map fun i : Nat => f (a - i)

theorem segR_zero (f : Int → Color) (a : Int) : segR f a 0 = [] := rfl
theorem segL_zero (f : Int → Color) (a : Int) : segL f a 0 = [] := rfl

theorem segR_succ (f : Int → Color) (a : Int) (n : Nat) :
    segR f a (n + 1) = f a :: segR f (a + 1) n := by
  simp only [segR, List.range_succ_eq_map, List.map_cons, List.map_map]
  congr 1
  · simp
  · refine List.map_congr_left fun i _ => ?_
    simp only [Function.comp]
    congr 1
    push_cast
    omega

theorem segL_succ (f : Int → Color) (a : Int) (n : Nat) :
    segL f a (n + 1) = f a :: segL f (a - 1) n := by
  simp only [segL, List.range_succ_eq_map, List.map_cons, List.map_map]
  congr 1
  · simp
  · refine List.map_congr_left fun i _ => ?_
    simp only [Function.comp]
    congr 1
    push_cast
    omega

theorem segR_congr {f g : Int → Color} {a : Int} {n : Nat}
    (h : ∀ x, a ≤ x → x < a + n → f x = g x) : segR f a n = segR g a n :=
  List.map_congr_left fun i hi => h _ (by omega) (by have := List.mem_range.1 hi; omega)

theorem segL_congr {f g : Int → Color} {a : Int} {n : Nat}
    (h : ∀ x, x ≤ a → a - n < x → f x = g x) : segL f a n = segL g a n :=
  List.map_congr_left fun i hi => h _ (by omega) (by have := List.mem_range.1 hi; omega)

@[simp] theorem length_segR (f : Int → Color) (a : Int) (n : Nat) : (segR f a n).length = n := by
  simp [segR]

@[simp] theorem length_segL (f : Int → Color) (a : Int) (n : Nat) : (segL f a n).length = n := by
  simp [segL]

theorem spanBlank_segR {f : Int → Color} {a : Int} {n : Nat} :
    SegTape.spanBlank (segR f a n) = true ↔ ∀ x, a ≤ x → x < a + n → f x = 0 := by
  simp only [SegTape.spanBlank, segR, List.all_eq_true, List.mem_map, List.mem_range, beq_iff_eq]
  constructor
  · intro h x h1 h2
    have := h (f x) ⟨(x - a).toNat, by omega, by congr 1; omega⟩
    exact this
  · rintro h _ ⟨i, hi, rfl⟩
    exact h _ (by omega) (by omega)

theorem spanBlank_segL {f : Int → Color} {a : Int} {n : Nat} :
    SegTape.spanBlank (segL f a n) = true ↔ ∀ x, x ≤ a → a - n < x → f x = 0 := by
  simp only [SegTape.spanBlank, segL, List.all_eq_true, List.mem_map, List.mem_range, beq_iff_eq]
  constructor
  · intro h x h1 h2
    have := h (f x) ⟨(a - x).toNat, by omega, by congr 1; omega⟩
    exact this
  · rintro h _ ⟨i, hi, rfl⟩
    exact h _ (by omega) (by omega)

/-! ## What the window shows -/

def proj (W : Nat) (o : Int) (c : Cfg) : SegTape :=
  if c.pos ≤ o then ⟨none, [], segR c.tape (o + 1) W⟩
  else if o + W < c.pos then ⟨none, segL c.tape (o + W) W, []⟩
  else ⟨some (c.tape c.pos), segL c.tape (c.pos - 1) (c.pos - o - 1).toNat,
    segR c.tape (c.pos + 1) (o + W - c.pos).toNat⟩

theorem proj_left {W : Nat} {o : Int} {c : Cfg} (h : c.pos ≤ o) :
    proj W o c = ⟨none, [], segR c.tape (o + 1) W⟩ := if_pos h

theorem proj_right {W : Nat} {o : Int} {c : Cfg} (h : o + W < c.pos) :
    proj W o c = ⟨none, segL c.tape (o + W) W, []⟩ := by
  rw [proj, if_neg (by omega), if_pos h]

theorem proj_in {W : Nat} {o : Int} {c : Cfg} {k m : Nat} (hW : W = k + 1 + m)
    (hp : c.pos = o + 1 + k) :
    proj W o c = ⟨some (c.tape c.pos), segL c.tape (c.pos - 1) k, segR c.tape (c.pos + 1) m⟩ := by
  rw [proj, if_neg (by omega), if_neg (by omega)]
  have e1 : (c.pos - o - 1).toNat = k := by omega
  have e2 : (o + W - c.pos).toNat = m := by omega
  rw [e1, e2]

theorem exists_in {W : Nat} {o : Int} {c : Cfg} (h1 : o < c.pos) (h2 : c.pos ≤ o + W) :
    ∃ k m, W = k + 1 + m ∧ c.pos = o + 1 + k :=
  ⟨(c.pos - o - 1).toNat, (o + W - c.pos).toNat, by omega, by omega⟩

theorem proj_scan {W : Nat} {o : Int} {c : Cfg} (h1 : o < c.pos) (h2 : c.pos ≤ o + W) :
    (proj W o c).scan = some (c.tape c.pos) := by
  rw [proj, if_neg (by omega), if_neg (by omega)]

/-- The window follows the machine while the head is in it. -/
theorem proj_step {W : Nat} {o : Int} {c : Cfg} (h1 : o < c.pos) (h2 : c.pos ≤ o + W)
    (i : Instr) : proj W o (c.exec i) = (proj W o c).step i.2.1 i.1 := by
  obtain ⟨k, m, hW, hp⟩ := exists_in h1 h2
  obtain ⟨print, shift, q⟩ := i
  rw [proj_in hW hp]
  have hself : (c.exec (print, shift, q)).tape c.pos = print := by simp [Cfg.exec]
  have hother : ∀ x, x ≠ c.pos → (c.exec (print, shift, q)).tape x = c.tape x := by
    intro x hx
    simp [Cfg.exec, hx]
  cases shift with
  | true =>
    have hpos : (c.exec (print, true, q)).pos = c.pos + 1 := by simp [Cfg.exec]
    simp only [SegTape.step, if_true]
    cases m with
    | zero =>
      rw [proj_right (by rw [hpos]; omega), segR_zero]
      have e1 : o + (W : Int) = c.pos := by omega
      rw [e1, show W = k + 1 by omega, segL_succ, hself,
        segL_congr (g := c.tape) (fun x hx _ => hother x (by omega))]
      rfl
    | succ m =>
      rw [proj_in (k := k + 1) (m := m) (by omega) (by rw [hpos]; push_cast; omega), hpos,
        segR_succ, hother _ (by omega)]
      simp only [List.head?_cons, List.tail_cons]
      rw [show c.pos + 1 - 1 = c.pos by omega, segL_succ, hself,
        segL_congr (g := c.tape) (fun x hx _ => hother x (by omega)),
        segR_congr (g := c.tape) (fun x hx _ => hother x (by omega))]
  | false =>
    have hpos : (c.exec (print, false, q)).pos = c.pos - 1 := by simp [Cfg.exec]
    simp only [SegTape.step, Bool.false_eq_true, if_false]
    cases k with
    | zero =>
      rw [proj_left (by rw [hpos]; omega), segL_zero]
      have e1 : o + 1 = c.pos := by omega
      rw [e1, show W = m + 1 by omega, segR_succ, hself,
        segR_congr (g := c.tape) (fun x hx _ => hother x (by omega))]
      rfl
    | succ k =>
      rw [proj_in (k := k) (m := m + 1) (by omega) (by rw [hpos]; push_cast at hp; omega), hpos,
        segL_succ, hother _ (by omega)]
      simp only [List.head?_cons, List.tail_cons]
      rw [show c.pos - 1 + 1 = c.pos by omega, segR_succ, hself,
        segR_congr (g := c.tape) (fun x hx _ => hother x (by omega)),
        segL_congr (g := c.tape) (fun x hx _ => hother x (by omega))]

theorem wstep_proj {p : Prog} {W : Nat} {o : Int} {c : Cfg} (h1 : o < c.pos)
    (h2 : c.pos ≤ o + W) :
    wstep p (c.state, proj W o c) = (step p c).map fun d => (d.state, proj W o d) := by
  simp only [wstep, proj_scan h1 h2, step, Cfg.slot]
  cases h : p (c.state, c.tape c.pos) with
  | none => rfl
  | some i =>
    simp only [Option.map_some]
    rw [proj_step h1 h2]
    rfl

theorem wstep_out {p : Prog} {W : Nat} {o : Int} {c : Cfg} (h : c.pos ≤ o ∨ o + W < c.pos) :
    wstep p (c.state, proj W o c) = none := by
  rcases h with h | h
  · simp only [wstep, proj_left h]
  · simp only [wstep, proj_right h]

/-- A move outside the window, or into it. -/
theorem proj_outside {W : Nat} {o : Int} {c : Cfg} (h : c.pos ≤ o ∨ o + W < c.pos) (hW : 1 ≤ W)
    (i : Instr) :
    proj W o (c.exec i) = proj W o c ∨
    (i.2.1 = !(proj W o c).side ∧ proj W o (c.exec i) = (proj W o c).stepIn i.2.1) := by
  obtain ⟨print, shift, q⟩ := i
  have hother : ∀ x, x ≠ c.pos → (c.exec (print, shift, q)).tape x = c.tape x := by
    intro x hx
    simp [Cfg.exec, hx]
  obtain ⟨w, rfl⟩ : ∃ w, W = w + 1 := ⟨W - 1, by omega⟩
  rcases h with h | h
  · rw [proj_left h]
    by_cases hin : c.pos = o ∧ shift = true
    · obtain ⟨rfl, rfl⟩ := hin
      right
      have hpos : (c.exec (print, true, q)).pos = c.pos + 1 := by simp [Cfg.exec]
      constructor
      · simp [SegTape.side, segR_succ]
      · rw [proj_in (k := 0) (m := w) (by omega) (by rw [hpos]; simp), hpos,
          hother _ (by omega), segL_zero]
        simp only [SegTape.stepIn, if_true, segR_succ, List.head?_cons, List.tail_cons]
        rw [segR_congr (g := c.tape) (fun x hx _ => hother x (by omega))]
    · left
      have hpos : (c.exec (print, shift, q)).pos ≤ o := by
        cases shift
        · simp [Cfg.exec]; omega
        · simp only [and_true] at hin
          simp [Cfg.exec]; omega
      rw [proj_left hpos, segR_congr (g := c.tape) (fun x hx _ => hother x (by omega))]
  · rw [proj_right h]
    by_cases hin : c.pos = o + (w + 1 : Nat) + 1 ∧ shift = false
    · obtain ⟨hp, rfl⟩ := hin
      right
      have hpos : (c.exec (print, false, q)).pos = c.pos - 1 := by simp [Cfg.exec]
      constructor
      · simp [SegTape.side]
      · rw [proj_in (k := w) (m := 0) (by omega) (by rw [hpos]; push_cast at hp; omega), hpos,
          hother _ (by omega), segR_zero]
        simp only [SegTape.stepIn, Bool.false_eq_true, if_false, segL_succ, List.head?_cons,
          List.tail_cons]
        rw [segL_congr (g := c.tape) (fun x hx _ => hother x (by omega)),
          show c.pos - 1 = o + (w + 1 : Nat) by omega]
    · left
      have hpos : o + (w + 1 : Nat) < (c.exec (print, shift, q)).pos := by
        cases shift
        · simp only [and_true] at hin
          simp [Cfg.exec]; push_cast at hin h; omega
        · simp [Cfg.exec]; push_cast at h; omega
      rw [proj_right hpos, segL_congr (g := c.tape) (fun x hx _ => hother x (by omega))]

/-! ## Widths and blank tapes -/

def Wid (W : Nat) (t : SegTape) : Prop :=
  t.lspan.length + t.scan.toList.length + t.rspan.length = W ∧
  (t.scan = none → t.lspan = [] ∨ t.rspan = [])

theorem wid_proj (W : Nat) (o : Int) (c : Cfg) : Wid W (proj W o c) := by
  by_cases h1 : c.pos ≤ o
  · rw [proj_left h1]
    simp [Wid]
  · by_cases h2 : o + W < c.pos
    · rw [proj_right h2]
      simp [Wid]
    · obtain ⟨k, m, hW, hp⟩ := exists_in (W := W) (o := o) (c := c) (by omega) (by omega)
      rw [proj_in hW hp]
      simp [Wid]
      omega

theorem Wid.step {W : Nat} {t : SegTape} (h : Wid W t) (hs : t.scan.isSome) (shift : Bool)
    (print : Color) : Wid W (t.step shift print) := by
  obtain ⟨scan, l, r⟩ := t
  cases scan with
  | none => cases hs
  | some s =>
    simp only [Wid, Option.toList_some, List.length_cons, List.length_nil] at h
    cases shift
    · cases l with
      | nil => simp [SegTape.step, Wid] at h ⊢; omega
      | cons a l => simp [SegTape.step, Wid] at h ⊢; omega
    · cases r with
      | nil => simp [SegTape.step, Wid] at h ⊢; omega
      | cons a r => simp [SegTape.step, Wid] at h ⊢; omega

theorem Wid.stepIn {W : Nat} {t : SegTape} (h : Wid W t) (hW : 1 ≤ W) (hs : t.scan = none) :
    Wid W (t.stepIn (!t.side)) ∧ (t.stepIn (!t.side)).scan.isSome := by
  obtain ⟨scan, l, r⟩ := t
  simp only at hs
  subst hs
  simp only [Wid, Option.toList_none, List.length_nil, forall_true_left] at h
  cases r with
  | nil =>
    cases l with
    | nil => simp at h; omega
    | cons a l => simp [SegTape.stepIn, SegTape.side, Wid] at h ⊢; omega
  | cons a r =>
    have hl : l = [] := by simpa using h.2
    subst hl
    simp [SegTape.stepIn, SegTape.side, Wid] at h ⊢
    omega

theorem Wid.wrun {p : Prog} {W n : Nat} {x y : WCfg} (h : Wid W x.2) (hr : wrun p n x = some y) :
    Wid W y.2 := by
  induction n generalizing y with
  | zero =>
    cases hr
    exact h
  | succ n ih =>
    rw [BB.wrun] at hr
    obtain ⟨z, hz, hy⟩ := Option.bind_eq_some_iff.1 hr
    simp only [wstep] at hy
    cases hs : z.2.scan with
    | none => simp [hs] at hy
    | some s =>
      simp only [hs] at hy
      split at hy
      · cases hy
      · cases hy
        exact (ih hz).step (by rw [hs]; rfl) _ _

theorem spanBlank_eq {l : List Color} (h : SegTape.spanBlank l = true) :
    l = List.replicate l.length 0 := by
  rw [List.eq_replicate_iff]
  refine ⟨rfl, fun a ha => ?_⟩
  simp only [SegTape.spanBlank, List.all_eq_true, beq_iff_eq] at h
  exact h a ha

/-- A blank tape is determined by the position of the head. -/
theorem blank_init {W : Nat} (hW : 1 ≤ W) {t : SegTape} (h : Wid W t) (hb : t.blank = true) :
    t = .init (W + 2) t.pos ∧ t.pos < W + 2 := by
  obtain ⟨scan, l, r⟩ := t
  simp only [SegTape.blank, Bool.and_eq_true, Bool.or_eq_true, beq_iff_eq] at hb
  obtain ⟨⟨h0, h1⟩, h2⟩ := hb
  have e1 := spanBlank_eq h1
  have e2 := spanBlank_eq h2
  obtain ⟨h3, h4⟩ := h
  simp only at h3 h4 h0 e1 e2
  rcases h0 with rfl | rfl
  · simp only [Option.toList_some, List.length_cons, List.length_nil] at h3
    have hp : SegTape.pos ⟨some 0, l, r⟩ = l.length + 1 := by simp [SegTape.pos]
    rw [hp]
    refine ⟨?_, by omega⟩
    rw [SegTape.init, if_neg (by omega), if_neg (by omega)]
    rw [show l.length + 1 - 1 = l.length by omega,
      show W + 2 - 2 - (l.length + 1) = r.length by omega, ← e1, ← e2]
  · simp only [Option.toList_none, List.length_nil, forall_true_left] at h3 h4
    rcases h4 with rfl | rfl
    · have hp : SegTape.pos ⟨none, [], r⟩ = 0 := by simp [SegTape.pos]
      rw [hp]
      refine ⟨?_, by omega⟩
      simp only [List.length_nil] at h3
      rw [SegTape.init, if_pos rfl, show W + 2 - 2 = r.length by omega, ← e2]
    · simp only [List.length_nil] at h3
      have hl : 0 < l.length := by omega
      have hp : SegTape.pos ⟨none, l, []⟩ = W + 1 := by simp [SegTape.pos, hl]; omega
      rw [hp]
      refine ⟨?_, by omega⟩
      rw [SegTape.init, if_neg (by omega), if_pos (by omega), show W + 2 - 2 = l.length by omega,
        ← e1]

theorem blank_unique {W : Nat} (hW : 1 ≤ W) {t u : SegTape} (ht : Wid W t) (hu : Wid W u)
    (hbt : t.blank = true) (hbu : u.blank = true) (hp : t.pos = u.pos) : t = u := by
  rw [(blank_init hW ht hbt).1, (blank_init hW hu hbu).1, hp]

/-- Where the head is. -/
theorem pos_proj {W : Nat} (hW : 1 ≤ W) (o : Int) (c : Cfg) :
    ((proj W o c).pos : Int) = max 0 (min (c.pos - o) (W + 1)) := by
  by_cases h1 : c.pos ≤ o
  · rw [proj_left h1]
    simp [SegTape.pos]
    omega
  · by_cases h2 : o + W < c.pos
    · rw [proj_right h2]
      simp [SegTape.pos, show 0 < W by omega]
      omega
    · obtain ⟨k, m, hW', hp⟩ := exists_in (W := W) (o := o) (c := c) (by omega) (by omega)
      rw [proj_in hW' hp]
      simp [SegTape.pos]
      omega

theorem blank_proj {W : Nat} {o : Int} {c : Cfg} (h : c.Blank) : (proj W o c).blank = true := by
  by_cases h1 : c.pos ≤ o
  · rw [proj_left h1]
    have := spanBlank_segR.2 fun x (_ : o + 1 ≤ x) (_ : x < o + 1 + W) => h x
    simp only [SegTape.blank, this]
    rfl
  · by_cases h2 : o + W < c.pos
    · rw [proj_right h2]
      have := spanBlank_segL.2 fun x (_ : x ≤ o + W) (_ : o + W - W < x) => h x
      simp only [SegTape.blank, this]
      rfl
    · obtain ⟨k, m, hW', hp⟩ := exists_in (W := W) (o := o) (c := c) (by omega) (by omega)
      rw [proj_in hW' hp]
      simp [SegTape.blank, spanBlank_segR.2 fun x _ _ => h x, spanBlank_segL.2 fun x _ _ => h x,
        h c.pos]

/-- The cells of the window are blank if it looks so. -/
theorem blank_of_proj {W : Nat} {o : Int} {c : Cfg} (h : (proj W o c).blank = true) :
    ∀ x, o < x → x ≤ o + W → c.tape x = 0 := by
  intro x hx1 hx2
  simp only [SegTape.blank, Bool.and_eq_true, Bool.or_eq_true, beq_iff_eq] at h
  by_cases h1 : c.pos ≤ o
  · rw [proj_left h1] at h
    exact spanBlank_segR.1 h.2 x (by omega) (by omega)
  · by_cases h2 : o + W < c.pos
    · rw [proj_right h2] at h
      exact spanBlank_segL.1 h.1.2 x (by omega) (by omega)
    · obtain ⟨k, m, hW', hp⟩ := exists_in (W := W) (o := o) (c := c) (by omega) (by omega)
      rw [proj_in hW' hp] at h
      obtain ⟨⟨h0, hl⟩, hr⟩ := h
      rcases Int.lt_trichotomy x c.pos with hlt | rfl | hgt
      · exact spanBlank_segL.1 hl x (by omega) (by omega)
      · simpa using h0
      · exact spanBlank_segR.1 hr x (by omega) (by omega)

/-! ## The beginning of the run, while it stays in the window -/

/-- What the window run from a blank window says about the run from the blank tape. -/
theorem run_of_wrun {p : Prog} {W : Nat} (hW : 1 ≤ W) {t : SegTape} (ht : Wid W t)
    (hb : t.blank = true) : ∃ o : Int, ∀ n x, wrun p n (0, t) = some x →
      ∃ c, runFor p n initCfg = some c ∧ x = (c.state, proj W o c) ∧
        ∀ z, z ≤ o ∨ o + W < z → c.tape z = 0 := by
  obtain ⟨-, hlt⟩ := blank_init hW ht hb
  refine ⟨-(t.pos : Int), fun n => ?_⟩
  induction n with
  | zero =>
    intro x hx
    cases hx
    refine ⟨initCfg, rfl, ?_, fun _ _ => rfl⟩
    have hbl : initCfg.Blank := fun _ => rfl
    have e : t = proj W (-(t.pos : Int)) initCfg := by
      refine blank_unique hW ht (wid_proj _ _ _) hb (blank_proj hbl) ?_
      have := pos_proj hW (-(t.pos : Int)) initCfg
      have h0 : initCfg.pos = 0 := rfl
      rw [h0] at this
      omega
    exact Prod.ext rfl e
  | succ n ih =>
    intro x hx
    rw [wrun] at hx
    obtain ⟨y, hy, hx⟩ := Option.bind_eq_some_iff.1 hx
    obtain ⟨c, hc, rfl, hz⟩ := ih y hy
    by_cases hin : -(t.pos : Int) < c.pos ∧ c.pos ≤ -(t.pos : Int) + W
    · rw [wstep_proj hin.1 hin.2] at hx
      obtain ⟨d, hd, rfl⟩ := Option.map_eq_some_iff.1 hx
      refine ⟨d, by rw [runFor_succ', hc, Option.bind_some, hd], rfl, fun z hz' => ?_⟩
      simp only [step] at hd
      obtain ⟨i, -, rfl⟩ := Option.map_eq_some_iff.1 hd
      simp only [Cfg.exec]
      rw [if_neg (by omega)]
      exact hz z hz'
    · rw [wstep_out (by omega)] at hx
      cases hx

theorem neverHalts_of_wrun {p : Prog} {W : Nat} (hW : 1 ≤ W) {t : SegTape} (ht : Wid W t)
    (hb : t.blank = true) (h : ∀ n, (wrun p n (0, t)).isSome) : NeverHalts p initCfg := by
  obtain ⟨o, ho⟩ := run_of_wrun (p := p) hW ht hb
  intro n
  obtain ⟨x, hx⟩ := Option.isSome_iff_exists.1 (h n)
  obtain ⟨c, hc, -, -⟩ := ho n x hx
  rw [hc]
  rfl

theorem neverHalts_of_wblank {p : Prog} {W : Nat} (hW : 1 ≤ W) {t u : SegTape} (ht : Wid W t)
    (hb : t.blank = true) {n : Nat} (hn : 0 < n) (h : wrun p n (0, t) = some (0, u))
    (hu : u.blank = true) : NeverHalts p initCfg := by
  obtain ⟨o, ho⟩ := run_of_wrun (p := p) hW ht hb
  obtain ⟨c, hc, hx, hz⟩ := ho n _ h
  simp only [Prod.mk.injEq] at hx
  obtain ⟨hx1, rfl⟩ := hx
  have hin := blank_of_proj hu
  refine neverHalts_blank_twice hn hc (fun _ => rfl) (fun x => ?_) hx1
  by_cases hx : x ≤ o ∨ o + W < x
  · exact hz x hx
  · exact hin x (by omega) (by omega)

theorem neverHalts_of_wspinout {p : Prog} {W : Nat} (hW : 1 ≤ W) {t u : SegTape} (ht : Wid W t)
    (hb : t.blank = true) {n : Nat} {q : State} {print : Color} {shift : Bool}
    (h : wrun p n (0, t) = some (q, u)) (hp : p (q, 0) = some (print, shift, q))
    (hu : u.atEdge shift = true) : NeverHalts p initCfg := by
  obtain ⟨o, ho⟩ := run_of_wrun (p := p) hW ht hb
  obtain ⟨c, hc, hx, hz⟩ := ho n _ h
  simp only [Prod.mk.injEq] at hx
  obtain ⟨rfl, rfl⟩ := hx
  refine NeverHalts.of_later hc (neverHalts_spinout hp ?_)
  simp only [SegTape.atEdge, Bool.and_eq_true, beq_iff_eq] at hu
  have hin : o < c.pos ∧ c.pos ≤ o + W := by
    by_contra hout
    have : c.pos ≤ o ∨ o + W < c.pos := by omega
    rcases this with h | h
    · rw [proj_left h] at hu
      simp at hu
    · rw [proj_right h] at hu
      simp at hu
  obtain ⟨k, m, hW', hpos⟩ := exists_in hin.1 hin.2
  rw [proj_in hW' hpos] at hu
  obtain ⟨h0, hs⟩ := hu
  simp only [Option.some.injEq] at h0
  intro j
  by_cases hj : j = 0
  · subst hj
    cases shift <;> simpa [disp] using h0
  · cases shift with
    | true =>
      simp only [if_true] at hs
      by_cases hlt : c.pos + disp true j ≤ o + W
      · exact spanBlank_segR.1 hs _ (by simp [disp]; omega) (by simp [disp] at hlt ⊢; omega)
      · exact hz _ (by omega)
    | false =>
      simp only [Bool.false_eq_true, if_false] at hs
      by_cases hlt : o < c.pos + disp false j
      · exact spanBlank_segL.1 hs _ (by simp [disp]; omega) (by simp [disp] at hlt ⊢; omega)
      · exact hz _ (by omega)

end BB
