import Verif.Lemmas.Macro

/-! # Macro configurations stand for base configurations -/

namespace BB

/-- Run `n` instructions of `g`, keeping the exception that stops it. -/
def runE (g : GetInstr) : Nat → Cfg → Except MErr Cfg
  | 0, c => .ok c
  | n + 1, c =>
    match g c.slot with
    | .error e => .error e
    | .ok i => runE g n (c.exec i)

/-- The base configuration a block-macro configuration stands for: macro cell `P` holds the base
cells `k*P … k*P+k-1`, and the head is at the left end (even states) or right end (odd states) of
its block. -/
def unblock (C k : Nat) (c : Cfg) : Cfg where
  state := c.state / 2
  pos := k * c.pos + if c.state % 2 = 1 then (k : Int) - 1 else 0
  tape x := c.tape (x / k) / C ^ (k - 1 - (x % k).toNat) % C

/-- The base configuration a backsymbol-macro configuration stands for.  The macro tape is the
mirror image of the base tape, with the `k` cells kept in the state cut out; with
`o = -pos - k`, the window is `o … o+k`, and the head is at its left end (odd states) or right end
(even states). -/
def unback (C k : Nat) (c : Cfg) : Cfg where
  state := c.state / 2 / C ^ k
  pos := if c.state % 2 = 1 then -c.pos - k else -c.pos
  tape x :=
    if c.state % 2 = 1 then
      if x ≤ -c.pos - k then c.tape (-k - x)
      else if x ≤ -c.pos then
        c.state / 2 % C ^ k / C ^ (k - 1 - (x + c.pos + k - 1).toNat) % C
      else c.tape (-x)
    else
      if x < -c.pos - k then c.tape (-k - x)
      else if x < -c.pos then c.state / 2 % C ^ k / C ^ (k - 1 - (x + c.pos + k).toNat) % C
      else c.tape (-x)

theorem double_lt {q S : Nat} (h : q < S) (b : Bool) : 2 * q + b.toNat < 2 * S := by
  cases b <;> simp <;> omega

theorem half_lt {q S : Nat} (h : q < 2 * S) : q / 2 < S := by omega

/-! ## Block macros -/

theorem ediv_block {k : Nat} (hk : 0 < k) {P x : Int} :
    (k * P ≤ x ∧ x < k * P + k) ↔ x / k = P := by
  have hk' : (k : Int) ≠ 0 := by tm_omega
  constructor
  · rintro ⟨h1, h2⟩
    have e : x = (x - k * P) + k * P := by tm_omega
    rw [e, Int.add_mul_ediv_left _ _ hk', Int.ediv_eq_zero_of_lt (by tm_omega) (by tm_omega)]
    tm_omega
  · rintro rfl
    have h1 := Int.emod_nonneg x hk'
    have h2 := Int.emod_lt_of_pos x (by tm_omega : (0 : Int) < k)
    have h3 := Int.mul_ediv_add_emod x k
    tm_omega

theorem emod_block {k : Nat} {P x : Int} (h : k * P ≤ x ∧ x < k * P + k) : x % k = x - k * P := by
  have e : x = (x - k * P) + k * P := by tm_omega
  have h2 : ((x - k * P) + k * P) % k = (x - k * P) % k := Int.add_mul_emod_self_left _ _ _
  rw [← e] at h2
  rw [h2, Int.emod_eq_of_lt (by tm_omega) (by tm_omega)]

theorem unblock_window {C k : Nat} (hk : 0 < k) (c : Cfg) (w : List Color) (hl : w.length = k)
    (hw : ∀ i, i < k → w.getD i 0 = c.tape c.pos / C ^ (k - 1 - i) % C)
    (out : Int → Color)
    (hout : ∀ x, x / k ≠ c.pos → out x = c.tape (x / k) / C ^ (k - 1 - (x % k).toNat) % C) :
    winTape (k * c.pos) w out = (unblock C k c).tape := by
  funext x
  simp only [winTape, unblock, hl]
  by_cases h : k * c.pos ≤ x ∧ x < k * c.pos + k
  · rw [if_pos h, (ediv_block hk).mp h, emod_block h]
    exact hw _ (by tm_omega)
  · rw [if_neg h]
    exact hout x (fun he => h ((ediv_block hk).mpr he))

theorem unblock_start {C k : Nat} (hk : 0 < k) (c : Cfg) :
    wcfg (k * c.pos) (c.state / 2)
      (if (c.state % 2 == 1) = true then (digits C k (c.tape c.pos)).length - 1 else 0 : Nat)
      (digits C k (c.tape c.pos)) (unblock C k c).tape = unblock C k c := by
  have ht : winTape (k * c.pos) (digits C k (c.tape c.pos)) (unblock C k c).tape
      = (unblock C k c).tape :=
    unblock_window hk c _ (by simp) (fun i hi => digits_getD _ _ _ _ hi) _ (fun _ _ => rfl)
  have hp : (k * c.pos + (if (c.state % 2 == 1) = true then
      (digits C k (c.tape c.pos)).length - 1 else 0 : Nat) : Int) = (unblock C k c).pos := by
    simp only [unblock, digits_length, beq_iff_eq]
    split <;> tm_omega
  simp only [wcfg, ht, hp]
  rfl

theorem unblock_exit {C k : Nat} (hk : 0 < k) (hC : 0 < C) (c : Cfg) (q : State) (side : Bool)
    (w : List Color) (hl : w.length = k) (hw : ∀ d ∈ w, d < C) :
    wcfg (k * c.pos) q (exitPos side k) w (unblock C k c).tape =
      unblock C k (c.exec (tapeColor C w, side, 2 * q + (!side).toNat)) := by
  have ht : winTape (k * c.pos) w (unblock C k c).tape =
      (unblock C k (c.exec (tapeColor C w, side, 2 * q + (!side).toNat))).tape := by
    have := unblock_window (C := C) hk
      ⟨c.state, c.pos, (c.exec (tapeColor C w, side, 2 * q + (!side).toNat)).tape⟩ w hl
      (fun i hi => by
        simp only [Cfg.exec, if_true]
        conv_lhs => rw [← digits_tapeColor hC hw, hl]
        exact digits_getD _ _ _ _ hi) (unblock C k c).tape
      (fun x hx => by
        simp only at hx
        simp only [unblock, Cfg.exec, if_neg hx])
    exact this
  have h1 : (unblock C k (c.exec (tapeColor C w, side, 2 * q + (!side).toNat))).state = q := by
    cases side <;> simp [unblock, Cfg.exec]; tm_omega
  have h2 : (unblock C k (c.exec (tapeColor C w, side, 2 * q + (!side).toNat))).pos =
      k * c.pos + exitPos side k := by
    cases side
    · simp [unblock, Cfg.exec, exitPos, Nat.add_mod, Int.mul_sub]
      tm_omega
    · simp [unblock, Cfg.exec, exitPos, Int.mul_add]
  simp only [wcfg, ht, ← h2]
  generalize unblock C k (c.exec (tapeColor C w, side, 2 * q + (!side).toNat)) = u at h1 ⊢
  subst h1
  rfl

theorem blockInstr_ok {g : GetInstr} {S C k : Nat} (hw : g.Within S C) (hk : 0 < k) (hC : 0 < C)
    {c : Cfg} {i : Instr} (h : blockInstr g k S C c.slot = .ok i) :
    ∃ n, 0 < n ∧
      RunIn g.prog (InWin (k * c.pos) k) n (unblock C k c) (unblock C k (c.exec i)) := by
  simp only [blockInstr] at h
  cases hs : simulate g (S * k * C ^ k)
      (c.slot.1 / 2, c.slot.1 % 2 == 1, digits C k c.slot.2) with
  | error e => rw [hs] at h; cases h
  | ok r =>
    rw [hs] at h
    simp only [Except.ok.injEq] at h
    subst h
    have hcells := (winLoop_cells hw _ _ _ hs (digits_lt hC k c.slot.2)).2
    obtain ⟨hlen, n, hn, hr⟩ := winLoop_ok (k * c.pos) (unblock C k c).tape _ _ _ hs
      (winStart_pos _ (by simpa using hk))
    simp only [winStart] at hlen hr
    have e1 := unblock_start (C := C) hk c
    have e2 := unblock_exit hk hC c r.1 r.2.1 r.2.2 (by rw [hlen]; simp) hcells
    refine ⟨n, hn, ?_⟩
    rw [← e1, ← e2]
    simpa only [digits_length, Cfg.slot] using hr

theorem blockInstr_error {g : GetInstr} {S C k : Nat} (hk : 0 < k)
    {c : Cfg} {e : MErr} (he : e ≠ .infLoop) (h : blockInstr g k S C c.slot = .error e) :
    StopsIn g (InWin (k * c.pos) k) (unblock C k c) e := by
  simp only [blockInstr] at h
  cases hs : simulate g (S * k * C ^ k)
      (c.slot.1 / 2, c.slot.1 % 2 == 1, digits C k c.slot.2) with
  | ok r => rw [hs] at h; cases h
  | error e' =>
    rw [hs] at h
    cases h
    have := winLoop_keyError (k * c.pos) (unblock C k c).tape he _ _ hs
      (winStart_pos _ (by simpa using hk))
    simp only [winStart, digits_length, Cfg.slot] at this
    have e1 := unblock_start (C := C) hk c
    simp only [digits_length] at e1
    rw [e1] at this
    exact this

theorem blockInstr_infLoop {g : GetInstr} {S C k : Nat} (hw : g.Within S C) (hk : 0 < k)
    (hC : 0 < C) {c : Cfg} (hq : c.state < 2 * S)
    (h : blockInstr g k S C c.slot = .error .infLoop) :
    StaysIn g.prog (InWin (k * c.pos) k) (unblock C k c) ∨
      StopsIn g (InWin (k * c.pos) k) (unblock C k c) .infLoop := by
  simp only [blockInstr] at h
  cases hs : simulate g (S * k * C ^ k)
      (c.slot.1 / 2, c.slot.1 % 2 == 1, digits C k c.slot.2) with
  | ok r => rw [hs] at h; cases h
  | error e' =>
    rw [hs] at h
    cases h
    have := simulate_infLoop hw (by simpa using hk) (by simp)
      (half_lt hq) (digits_lt hC k c.slot.2) hs (k * c.pos) (unblock C k c).tape
    simp only [digits_length, Cfg.slot] at this
    have e1 := unblock_start (C := C) hk c
    simp only [digits_length] at e1
    rw [e1] at this
    exact this

theorem blockInstr_within {g : GetInstr} {S C k : Nat} (hw : g.Within S C) (hk : 0 < k)
    (hC : 0 < C) : (blockInstr g k S C).Within (2 * S) (C ^ k) := by
  intro s col sh q h
  simp only [blockInstr] at h
  cases hs : simulate g (S * k * C ^ k) (s.1 / 2, s.1 % 2 == 1, digits C k s.2) with
  | error e => rw [hs] at h; cases h
  | ok r =>
    rw [hs] at h
    simp only [Except.ok.injEq, Prod.mk.injEq] at h
    obtain ⟨rfl, rfl, rfl⟩ := h
    have hcells := winLoop_cells hw _ _ _ hs (digits_lt hC k s.2)
    obtain ⟨hlen, _⟩ := winLoop_ok 0 (fun _ => 0) _ _ _ hs (winStart_pos _ (by simpa using hk))
    simp only [winStart, digits_length] at hlen
    refine ⟨?_, ?_⟩
    · have := tapeColor_lt hcells.2
      rwa [hlen] at this
    · exact double_lt hcells.1 _

/-! ## Backsymbol macros -/

theorem backWindow_odd {k C : Nat} {slot : Slot} (h : slot.1 % 2 = 1) : backWindow k C slot =
    (slot.1 / 2 / C ^ k, false, slot.2 :: digits C k (slot.1 / 2 % C ^ k)) := by
  have h' : slot.1 % 2 ≠ 0 := by rw [h]; decide
  simp only [backWindow, if_pos h']

theorem backWindow_even {k C : Nat} {slot : Slot} (h : ¬ slot.1 % 2 = 1) : backWindow k C slot =
    (slot.1 / 2 / C ^ k, true, digits C k (slot.1 / 2 % C ^ k) ++ [slot.2]) := by
  have h' : ¬ slot.1 % 2 ≠ 0 := by tm_omega
  simp only [backWindow, if_neg h']

theorem unback_start (C k : Nat) (c : Cfg) :
    wcfg (-c.pos - k) (backWindow k C c.slot).1
      (if (backWindow k C c.slot).2.1 then (backWindow k C c.slot).2.2.length - 1 else 0 : Nat)
      (backWindow k C c.slot).2.2 (unback C k c).tape = unback C k c := by
  have hlen := backWindow_length k C c.slot
  by_cases h : c.state % 2 = 1
  · rw [backWindow_odd (slot := c.slot) h]
    have ht : winTape (-c.pos - k) (c.slot.2 :: digits C k (c.slot.1 / 2 % C ^ k))
        (unback C k c).tape = (unback C k c).tape := by
      funext x
      simp only [winTape, List.length_cons, digits_length]
      by_cases hx : -c.pos - k ≤ x ∧ x < -c.pos - k + ((k + 1 : Nat) : Int)
      · rw [if_pos hx]
        simp only [unback]
        rw [if_pos h]
        by_cases h0 : x = -c.pos - k
        · subst h0
          rw [if_pos (by omega)]
          have e1 : (-c.pos - (k : Int) - (-c.pos - k)).toNat = 0 := by omega
          have e2 : -(k : Int) - (-c.pos - k) = c.pos := by omega
          rw [e1, e2]; rfl
        · rw [if_neg (by omega), if_pos (by omega)]
          obtain ⟨j, hj⟩ : ∃ j, (x - (-c.pos - k)).toNat = j + 1 :=
            ⟨(x - (-c.pos - k)).toNat - 1, by omega⟩
          rw [hj, List.getD_cons_succ, digits_getD _ _ _ _ (by omega)]
          have e : (x + c.pos + k - 1).toNat = j := by omega
          rw [e]; rfl
      · rw [if_neg hx]
    simp only [wcfg, ht]
    simp only [unback, Cfg.mk.injEq, and_true]
    exact ⟨rfl, by rw [if_pos h]; simp⟩
  · rw [backWindow_even (slot := c.slot) h]
    have ht : winTape (-c.pos - k) (digits C k (c.slot.1 / 2 % C ^ k) ++ [c.slot.2])
        (unback C k c).tape = (unback C k c).tape := by
      funext x
      simp only [winTape, List.length_append, List.length_singleton, digits_length]
      by_cases hx : -c.pos - k ≤ x ∧ x < -c.pos - k + ((k + 1 : Nat) : Int)
      · rw [if_pos hx]
        simp only [unback]
        rw [if_neg h, if_neg (by omega)]
        by_cases h0 : x = -c.pos
        · subst h0
          rw [if_neg (by omega)]
          have e1 : (-c.pos - (-c.pos - (k : Int))).toNat = k := by omega
          rw [e1, Int.neg_neg]
          simp [List.getD, Cfg.slot]
        · rw [if_pos (by omega)]
          have e : (x - (-c.pos - (k : Int))).toNat = (x + c.pos + k).toNat := by omega
          rw [e]
          have hlt : (x + c.pos + k).toNat < k := by omega
          rw [← digits_getD C k _ _ hlt]
          simp only [Cfg.slot, List.getD]
          rw [List.getElem?_append_left (by simpa using hlt)]
      · rw [if_neg hx]
    simp only [wcfg, ht]
    simp only [unback, Cfg.mk.injEq, and_true]
    exact ⟨rfl, by rw [if_neg h]; simp⟩

theorem getD_getLastD (w : List Color) (k : Nat) (h : w.length = k + 1) :
    w.getD k 0 = w.getLastD 0 := by
  rw [List.getLastD_eq_getLast?, List.getLast?_eq_getElem?, h]
  simp [List.getD]

theorem unback_odd (C k : Nat) (c : Cfg) (h : c.state % 2 = 1) (x : Int) :
    (unback C k c).tape x = if x ≤ -c.pos - k then c.tape (-k - x)
      else if x ≤ -c.pos then
        c.state / 2 % C ^ k / C ^ (k - 1 - (x + c.pos + k - 1).toNat) % C
      else c.tape (-x) := by
  simp only [unback, if_pos h]

theorem unback_even (C k : Nat) (c : Cfg) (h : ¬ c.state % 2 = 1) (x : Int) :
    (unback C k c).tape x = if x < -c.pos - k then c.tape (-k - x)
      else if x < -c.pos then c.state / 2 % C ^ k / C ^ (k - 1 - (x + c.pos + k).toNat) % C
      else c.tape (-x) := by
  simp only [unback, if_neg h]

theorem unback_left (C k : Nat) (c : Cfg) {x : Int} (h : x < -c.pos - k) :
    (unback C k c).tape x = c.tape (-k - x) := by
  by_cases hp : c.state % 2 = 1
  · rw [unback_odd _ _ _ hp, if_pos (by omega)]
  · rw [unback_even _ _ _ hp, if_pos h]

theorem unback_right (C k : Nat) (c : Cfg) {x : Int} (h : -c.pos < x) :
    (unback C k c).tape x = c.tape (-x) := by
  by_cases hp : c.state % 2 = 1
  · rw [unback_odd _ _ _ hp, if_neg (by omega), if_neg (by omega)]
  · rw [unback_even _ _ _ hp, if_neg (by omega), if_neg (by omega)]

theorem unback_exit {C k : Nat} (hC : 0 < C) (c : Cfg) (q : State) (side : Bool)
    (w : List Color) (hl : w.length = k + 1) (hw : ∀ d ∈ w, d < C) :
    wcfg (-c.pos - k) q (exitPos side (k + 1)) w (unback C k c).tape =
      unback C k (c.exec (if (!side) = true then w.getLastD 0 else w.headD 0, !side,
        (!side).toNat + 2 * (tapeColor C (if (!side) = true then w.dropLast else w.tail)
          + q * C ^ k))) := by
  set back := (if (!side) = true then w.dropLast else w.tail) with hback
  have hbl : back.length = k := by rw [hback]; split <;> simp [hl]
  have hbc : ∀ d ∈ back, d < C := by
    rw [hback]; split
    · exact fun d hd => hw d (List.mem_of_mem_dropLast hd)
    · exact fun d hd => hw d (List.mem_of_mem_tail hd)
  have hlt := tapeColor_lt hbc
  rw [hbl] at hlt
  set st := (!side).toNat + 2 * (tapeColor C back + q * C ^ k) with hst
  have hst2 : st / 2 = tapeColor C back + q * C ^ k := by
    rw [hst]; cases side <;> simp; tm_omega
  have hdig : ∀ i, i < k → st / 2 % C ^ k / C ^ (k - 1 - i) % C = back.getD i 0 := by
    intro i hi
    rw [hst2, Nat.add_mul_mod_self_right, Nat.mod_eq_of_lt hlt, ← digits_getD _ _ _ _ hi]
    conv_rhs => rw [← digits_tapeColor hC hbc, hbl]
  have hq : st / 2 / C ^ k = q := by
    rw [hst2, Nat.add_mul_div_right _ _ (Nat.pow_pos hC), Nat.div_eq_of_lt hlt, Nat.zero_add]
  set u := unback C k (c.exec (if (!side) = true then w.getLastD 0 else w.headD 0, !side, st))
    with hu
  have hus : u.state = q := hq
  suffices h : u.pos = -c.pos - k + exitPos side (k + 1) ∧
      winTape (-c.pos - k) w (unback C k c).tape = u.tape by
    obtain ⟨h1, h2⟩ := h
    simp only [wcfg, h2, ← h1, ← hus]
  cases side
  · -- left to the left
    have hodd : st % 2 = 1 := by rw [hst]; simp
    simp only [Bool.not_false, if_true] at hback hu
    refine ⟨?_, ?_⟩
    · rw [hu]
      simp only [unback, Cfg.exec, hodd, if_true, exitPos, Bool.false_eq_true, if_false]
      omega
    funext x
    rw [hu, unback_odd _ _ _ hodd]
    simp only [Cfg.exec, if_true]
    simp only [winTape, hl]
    by_cases hx : -c.pos - k ≤ x ∧ x < -c.pos - k + ((k + 1 : Nat) : Int)
    · rw [if_pos hx, if_neg (by omega)]
      by_cases h0 : x = -c.pos
      · subst h0
        rw [if_neg (by omega), if_pos (by omega)]
        have e1 : (-c.pos - (-c.pos - (k : Int))).toNat = k := by omega
        rw [e1, getD_getLastD w k hl]
      · rw [if_pos (by omega), hdig _ (by omega), hback]
        have e1 : (x - (-c.pos - (k : Int))).toNat = (x + (c.pos + 1) + k - 1).toNat := by omega
        rw [e1]
        have : (x + (c.pos + 1) + k - 1).toNat < k := by omega
        rw [List.getD, List.getD, List.getElem?_dropLast, if_pos (by omega)]
    · rw [if_neg hx]
      by_cases hlo : x < -c.pos - k
      · rw [unback_left _ _ _ hlo, if_pos (by omega), if_neg (by omega)]
      · rw [unback_right _ _ _ (by omega), if_neg (by omega), if_neg (by omega),
          if_neg (by omega)]
  · -- left to the right
    have hev : ¬ st % 2 = 1 := by rw [hst]; simp
    simp only [Bool.not_true, Bool.false_eq_true, if_false] at hback hu
    refine ⟨?_, ?_⟩
    · rw [hu]
      simp only [unback, Cfg.exec, hev, if_true, exitPos, Bool.false_eq_true, if_false]
      omega
    funext x
    rw [hu, unback_even _ _ _ hev]
    simp only [Cfg.exec, Bool.false_eq_true, if_false]
    simp only [winTape, hl]
    by_cases hx : -c.pos - k ≤ x ∧ x < -c.pos - k + ((k + 1 : Nat) : Int)
    · rw [if_pos hx]
      by_cases h0 : x = -c.pos - k
      · subst h0
        rw [if_pos (by omega), if_pos (by omega)]
        have e1 : (-c.pos - (k : Int) - (-c.pos - k)).toNat = 0 := by omega
        rw [e1]
        cases w with
        | nil => simp at hl
        | cons a t => rfl
      · rw [if_neg (by omega), if_pos (by omega), hdig _ (by omega), hback]
        obtain ⟨j, hj⟩ : ∃ j, (x - (-c.pos - k)).toNat = j + 1 := ⟨(x - (-c.pos - k)).toNat - 1,
          by omega⟩
        have e2 : (x + (c.pos - 1) + k).toNat = j := by omega
        rw [hj, e2]
        cases w with
        | nil => simp at hl
        | cons a t => rfl
    · rw [if_neg hx]
      by_cases hlo : x < -c.pos - k
      · rw [unback_left _ _ _ hlo, if_pos (by omega), if_neg (by omega)]
      · rw [unback_right _ _ _ (by omega), if_neg (by omega), if_neg (by omega),
          if_neg (by omega)]

theorem backInstr_ok {g : GetInstr} {S C k : Nat} (hw : g.Within S C) (hC : 0 < C)
    {c : Cfg} {i : Instr} (hcol : c.tape c.pos < C) (h : backInstr g k S C c.slot = .ok i) :
    ∃ n, 0 < n ∧
      RunIn g.prog (InWin (-c.pos - k) (k + 1)) n (unback C k c) (unback C k (c.exec i)) := by
  simp only [backInstr] at h
  have hlw := backWindow_length k C c.slot
  cases hs : simulate g (2 * S * C ^ k * C) (backWindow k C c.slot) with
  | error e => rw [hs] at h; cases h
  | ok r =>
    rw [hs] at h
    simp only [Except.ok.injEq] at h
    have hcells := (winLoop_cells hw _ _ _ hs (backWindow_cells hC c.slot hcol)).2
    obtain ⟨hlen, n, hn, hr⟩ := winLoop_ok (-c.pos - k) (unback C k c).tape _ _ _ hs
      (winStart_pos _ (by tm_omega))
    simp only [winStart] at hlen hr
    rw [unback_start C k c, hlw] at hr
    rw [hlw] at hlen
    rw [unback_exit hC c r.1 r.2.1 r.2.2 hlen hcells, h] at hr
    exact ⟨n, hn, hr⟩

theorem backInstr_error {g : GetInstr} {S C k : Nat} {c : Cfg} {e : MErr} (he : e ≠ .infLoop)
    (h : backInstr g k S C c.slot = .error e) :
    StopsIn g (InWin (-c.pos - k) (k + 1)) (unback C k c) e := by
  simp only [backInstr] at h
  have hlw := backWindow_length k C c.slot
  cases hs : simulate g (2 * S * C ^ k * C) (backWindow k C c.slot) with
  | ok r => rw [hs] at h; cases h
  | error e' =>
    rw [hs] at h
    cases h
    have := winLoop_keyError (-c.pos - k) (unback C k c).tape he _ _ hs
      (winStart_pos _ (by tm_omega))
    simp only [winStart] at this
    rw [unback_start C k c, hlw] at this
    exact this

theorem backInstr_infLoop {g : GetInstr} {S C : Nat} (hw : g.Within S C) (hC : 0 < C)
    {c : Cfg} (hcol : c.tape c.pos < C) (hq : c.state < 2 * S * C)
    (h : backInstr g 1 S C c.slot = .error .infLoop) :
    StaysIn g.prog (InWin (-c.pos - 1) 2) (unback C 1 c) ∨
      StopsIn g (InWin (-c.pos - 1) 2) (unback C 1 c) .infLoop := by
  simp only [backInstr] at h
  have hlw := backWindow_length 1 C c.slot
  cases hs : simulate g (2 * S * C ^ 1 * C) (backWindow 1 C c.slot) with
  | ok r => rw [hs] at h; cases h
  | error e' =>
    rw [hs] at h
    cases h
    have hst : (backWindow 1 C c.slot).1 < S := by
      simp only [backWindow, Cfg.slot, Nat.pow_one]
      rw [Nat.div_lt_iff_lt_mul hC]
      have : 2 * S * C = 2 * (S * C) := Nat.mul_assoc _ _ _
      tm_omega
    have := simulate_infLoop hw (by tm_omega)
      (by rw [hlw]; simp only [Nat.pow_succ, Nat.pow_zero, Nat.one_mul]
          simp only [Nat.mul_assoc, Nat.mul_comm, Nat.mul_left_comm]) hst
      (backWindow_cells hC c.slot hcol) hs (-c.pos - (1 : Nat)) (unback C 1 c).tape
    rw [unback_start C 1 c, hlw] at this
    exact this

theorem backInstr_within {g : GetInstr} {S C k : Nat} (hw : g.Within S C)
    (hC : 0 < C) {s : Slot} (hs2 : s.2 < C) {col : Color} {sh : Bool} {q : State}
    (h : backInstr g k S C s = .ok (col, sh, q)) : col < C ∧ q < 2 * S * C ^ k := by
  simp only [backInstr] at h
  have hlw := backWindow_length k C s
  cases hs : simulate g (2 * S * C ^ k * C) (backWindow k C s) with
  | error e => rw [hs] at h; cases h
  | ok r =>
    rw [hs] at h
    simp only [Except.ok.injEq, Prod.mk.injEq] at h
    obtain ⟨h1, _, h3⟩ := h
    have hcells := winLoop_cells hw _ _ _ hs (backWindow_cells hC s hs2)
    obtain ⟨hlen, _⟩ := winLoop_ok 0 (fun _ => 0) _ _ _ hs (winStart_pos _ (by tm_omega))
    simp only [winStart] at hlen
    rw [hlw] at hlen
    set back := (if (!r.2.1) = true then r.2.2.dropLast else r.2.2.tail) with hback
    have hbl : back.length = k := by rw [hback]; split <;> simp [hlen]
    have hbc : ∀ d ∈ back, d < C := by
      rw [hback]; split
      · exact fun d hd => hcells.2 d (List.mem_of_mem_dropLast hd)
      · exact fun d hd => hcells.2 d (List.mem_of_mem_tail hd)
    have hlt := tapeColor_lt hbc
    rw [hbl] at hlt
    refine ⟨?_, ?_⟩
    · rw [← h1]
      split
      · rw [← getD_getLastD _ k hlen]
        have hk : k < r.2.2.length := by tm_omega
        rw [List.getD, List.getElem?_eq_getElem hk]
        exact hcells.2 _ (List.getElem_mem _)
      · cases hw2 : r.2.2 with
        | nil => rw [hw2] at hlen; simp at hlen
        | cons a t => exact hcells.2 _ (by rw [hw2]; exact List.mem_cons_self)
    · rw [← h3]
      have h5 : (r.1 + 1) * C ^ k ≤ S * C ^ k := Nat.mul_le_mul_right _ hcells.1
      rw [Nat.succ_mul] at h5
      have h6 : 2 * S * C ^ k = 2 * (S * C ^ k) := Nat.mul_assoc _ _ _
      cases r.2.1 <;> simp <;> tm_omega

end BB
