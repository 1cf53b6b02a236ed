import Verif.Lemmas.MacroWin

/-! # Colour coding, macro instructions and the shared converter -/

namespace BB

/-! ## Colour coding -/

/-- The `k` base-`b` digits of `c`, most significant first. -/
def digits (b k c : Nat) : List Color := (List.range k).map fun i => c / b ^ (k - 1 - i) % b

theorem tapeColor_nil (b : Nat) : tapeColor b [] = 0 := rfl

theorem tapeColor_cons (b a : Nat) (t : List Color) :
    tapeColor b (a :: t) = a * b ^ t.length + tapeColor b t := by
  simp only [tapeColor, List.reverse_cons, List.zipIdx_append, List.map_append, List.sum_append,
    List.length_reverse]
  simp [List.zipIdx, Nat.add_comm]

@[simp] theorem digits_length (b k c : Nat) : (digits b k c).length = k := by simp [digits]

theorem digits_lt {b : Nat} (hb : 0 < b) (k c : Nat) : ∀ d ∈ digits b k c, d < b := by
  intro d hd
  simp only [digits, List.mem_map] at hd
  obtain ⟨i, _, rfl⟩ := hd
  exact Nat.mod_lt _ hb

theorem digits_getD (b k c i : Nat) (hi : i < k) :
    (digits b k c).getD i 0 = c / b ^ (k - 1 - i) % b := by
  simp [digits, List.getD, hi]

theorem tapeColor_lt {b : Nat} {t : List Color} (h : ∀ d ∈ t, d < b) :
    tapeColor b t < b ^ t.length := by
  induction t with
  | nil => simp [tapeColor_nil]
  | cons a t ih =>
    rw [tapeColor_cons, List.length_cons, Nat.pow_succ]
    have h1 := ih (fun d hd => h d (List.mem_cons_of_mem _ hd))
    have h2 : a < b := h a List.mem_cons_self
    calc a * b ^ t.length + tapeColor b t < a * b ^ t.length + b ^ t.length := Nat.add_lt_add_left h1 _
      _ = (a + 1) * b ^ t.length := by rw [Nat.succ_mul]
      _ ≤ b * b ^ t.length := Nat.mul_le_mul_right _ h2
      _ = b ^ t.length * b := Nat.mul_comm _ _

theorem digits_succ (b k c : Nat) : digits b (k + 1) c = (c / b ^ k % b) :: digits b k c := by
  simp only [digits, List.range_succ_eq_map, List.map_cons, List.map_map]
  congr 1
  apply List.map_congr_left
  intro i _
  simp only [Function.comp]
  congr 3
  omega

theorem digits_add_mul {b : Nat} (hb : 0 < b) (k a r : Nat) :
    digits b k (a * b ^ k + r) = digits b k r := by
  apply List.map_congr_left
  intro i hi
  have hi : i < k := by simpa using hi
  have e : b ^ k = b ^ (k - 1 - i) * (b * b ^ i) := by
    rw [← Nat.pow_succ', ← Nat.pow_add]
    congr 1; omega
  have e2 : a * b ^ k + r = r + b ^ (k - 1 - i) * (b * (a * b ^ i)) := by
    rw [e]
    have : a * (b ^ (k - 1 - i) * (b * b ^ i)) = b ^ (k - 1 - i) * (b * (a * b ^ i)) := by
      rw [Nat.mul_left_comm, Nat.mul_left_comm a b]
    rw [this, Nat.add_comm]
  rw [e2, Nat.add_mul_div_left _ _ (Nat.pow_pos hb), Nat.add_mul_mod_self_left]

theorem digits_tapeColor {b : Nat} (hb : 0 < b) {t : List Color} (h : ∀ d ∈ t, d < b) :
    digits b t.length (tapeColor b t) = t := by
  induction t with
  | nil => rfl
  | cons a t ih =>
    have h1 : ∀ d ∈ t, d < b := fun d hd => h d (List.mem_cons_of_mem _ hd)
    have h2 : a < b := h a List.mem_cons_self
    rw [List.length_cons, digits_succ, tapeColor_cons, digits_add_mul hb, ih h1]
    congr 1
    rw [Nat.mul_comm, Nat.mul_add_div (Nat.pow_pos hb), Nat.div_eq_of_lt (tapeColor_lt h1),
      Nat.add_zero, Nat.mod_eq_of_lt h2]

theorem tapeColor_digits {b : Nat} (hb : 0 < b) (k c : Nat) (h : c < b ^ k) :
    tapeColor b (digits b k c) = c := by
  induction k generalizing c with
  | zero =>
    have : c = 0 := by simpa using h
    subst this; rfl
  | succ k ih =>
    rw [digits_succ, tapeColor_cons, digits_length]
    have hd : c / b ^ k < b := by
      rw [Nat.div_lt_iff_lt_mul (Nat.pow_pos hb), ← Nat.pow_succ']
      exact h
    rw [Nat.mod_eq_of_lt hd]
    have hm : c % b ^ k < b ^ k := Nat.mod_lt _ (Nat.pow_pos hb)
    have hc : c = c / b ^ k * b ^ k + c % b ^ k := by
      rw [Nat.mul_comm]; exact (Nat.div_add_mod c (b ^ k)).symm
    have : digits b k c = digits b k (c % b ^ k) := by
      conv_lhs => rw [hc]
      exact digits_add_mul hb _ _ _
    rw [this, ih _ hm]
    exact hc.symm

theorem tapeColor_inj {b : Nat} {t u : List Color} (ht : ∀ d ∈ t, d < b) (hu : ∀ d ∈ u, d < b)
    (hl : t.length = u.length) (h : tapeColor b t = tapeColor b u) : t = u := by
  cases b with
  | zero =>
    cases t with
    | nil => simpa using hl.symm
    | cons a t => exact absurd (ht a List.mem_cons_self) (Nat.not_lt_zero _)
  | succ b =>
    rw [← digits_tapeColor (Nat.succ_pos b) ht, ← digits_tapeColor (Nat.succ_pos b) hu, h, hl]

/-! ## Macro instructions without caches -/

/-- `BlockLogic` with ideal coding. -/
def blockInstr (g : GetInstr) (k S C : Nat) : GetInstr := fun slot =>
  match simulate g (S * k * C ^ k) (slot.1 / 2, slot.1 % 2 == 1, digits C k slot.2) with
  | .error e => .error e
  | .ok c => .ok (tapeColor C c.2.2, c.2.1, 2 * c.1 + (!c.2.1).toNat)

/-- The window a backsymbol slot stands for. -/
def backWindow (k C : Nat) (slot : Slot) : MConfig :=
  (slot.1 / 2 / C ^ k,
    if slot.1 % 2 ≠ 0 then (false, slot.2 :: digits C k (slot.1 / 2 % C ^ k))
    else (true, digits C k (slot.1 / 2 % C ^ k) ++ [slot.2]))

/-- `BacksymbolLogic` with ideal coding. -/
def backInstr (g : GetInstr) (k S C : Nat) : GetInstr := fun slot =>
  match simulate g (2 * S * C ^ k * C) (backWindow k C slot) with
  | .error e => .error e
  | .ok c =>
    let shift := !c.2.1
    .ok (if shift then c.2.2.getLastD 0 else c.2.2.headD 0, shift,
      shift.toNat + 2 * (tapeColor C (if shift then c.2.2.dropLast else c.2.2.tail)
        + c.1 * C ^ k))

/-! ## Consequences of the window lemmas for `simulate` -/

theorem winStart_pos (c : MConfig) (h : 0 < c.2.2.length) :
    (winStart c).pos < (winStart c).tape.length := by
  simp only [winStart]; split <;> omega

theorem winLoop_cells {g : GetInstr} {S C : Nat} (hw : g.Within S C) :
    ∀ (lim : Nat) (w : Win) (r : MConfig), winLoop g lim w = .ok r → (∀ c ∈ w.tape, c < C) →
      r.1 < S ∧ ∀ c ∈ r.2.2, c < C := by
  intro lim
  induction lim with
  | zero => intro w r h; simp [winLoop] at h
  | succ lim ih =>
    intro w r h hc
    simp only [winLoop] at h
    cases hb : winBody g w with
    | error e => rw [hb] at h; cases h
    | ok b =>
      rw [hb] at h
      have hcc := winBody_cells hw hb hc
      cases b with
      | next w' => exact ih w' r h hcc.2
      | exit side w' =>
        simp only [Except.ok.injEq] at h
        subst h
        exact hcc

theorem simulate_infLoop {g : GetInstr} {S C : Nat} (hw : g.Within S C) {lim : Nat} {c : MConfig}
    (hl : 0 < c.2.2.length) (hlim : lim = S * c.2.2.length * C ^ c.2.2.length)
    (hs : c.1 < S) (hc : ∀ x ∈ c.2.2, x < C) (h : simulate g lim c = .error .infLoop)
    (o : Int) (out : Int → Color) :
    StaysIn g.prog (InWin o c.2.2.length)
      (wcfg o c.1 (if c.2.1 then c.2.2.length - 1 else 0 : Nat) c.2.2 out) ∨
    StopsIn g (InWin o c.2.2.length)
      (wcfg o c.1 (if c.2.1 then c.2.2.length - 1 else 0 : Nat) c.2.2 out) .infLoop := by
  have hp := winStart_pos c hl
  rcases winLoop_infLoop o out lim (winStart c) h hp with h1 | h1
  · left
    subst hlim
    obtain ⟨i, j, v, hij, hi, hj⟩ := winIter_repeat (n := c.2.2.length) hw
      ⟨hs, hp, rfl, hc⟩ h1
    exact staysIn_of_iter hp (winIter_forever hij hi hj) o out
  · exact .inr h1

/-! ## The converter -/

theorem mem_of_lookup {α β : Type} [BEq α] [LawfulBEq α] {l : List (α × β)} {a : α} {b : β}
    (h : l.lookup a = some b) : (a, b) ∈ l := by
  induction l with
  | nil => simp at h
  | cons x l ih =>
    obtain ⟨x1, x2⟩ := x
    rw [List.lookup_cons] at h
    cases hx : a == x1 with
    | true =>
      rw [hx] at h
      simp only [Option.some.injEq] at h
      rw [beq_iff_eq] at hx
      subst hx h
      exact List.mem_cons_self
    | false =>
      rw [hx] at h
      exact List.mem_cons_of_mem _ (ih h)

namespace Converter

/-- The converter has only ever been given blocks of `k` cells with colours below `C`. -/
structure Ok (c : Converter) (C k : Nat) : Prop where
  base : c.base = C
  toTape : ∀ col t, (col, t) ∈ c.colorToTape → t.length = k ∧ (∀ d ∈ t, d < C) ∧ tapeColor C t = col
  toColor : ∀ t col, (t, col) ∈ c.tapeToColor →
    tapeColor C t = col ∧ (c.colorToTape.lookup col).isSome
  zero : (c.colorToTape.lookup 0).isSome

/-- The colour was given out before (or is 0). -/
def Known (c : Converter) (col : Color) : Prop := (c.colorToTape.lookup col).isSome

theorem Ok.new {C : Nat} (hC : 0 < C) (k : Nat) : (Converter.new C k).Ok C k where
  base := rfl
  toTape := by
    intro col t h
    simp only [Converter.new, List.mem_singleton, Prod.mk.injEq] at h
    obtain ⟨rfl, rfl⟩ := h
    refine ⟨by simp, fun d hd => ?_, ?_⟩
    · rw [List.eq_of_mem_replicate hd]; exact hC
    · induction k with
      | zero => rfl
      | succ k ih => rw [List.replicate_succ, tapeColor_cons, ih]; simp
  toColor := by simp [Converter.new]
  zero := by simp [Converter.new]

theorem Ok.toTape_eq {c : Converter} {C k : Nat} (hC : 0 < C) (h : c.Ok C k) {col : Color}
    (hk : c.Known col) : c.toTape col = .ok (digits C k col) := by
  obtain ⟨t, ht⟩ := Option.isSome_iff_exists.mp hk
  obtain ⟨h1, h2, h3⟩ := h.toTape _ _ (mem_of_lookup ht)
  simp only [Converter.toTape, ht]
  congr 1
  rw [← h3, ← h1]
  exact (digits_tapeColor hC h2).symm

theorem Ok.toColor_spec {c : Converter} {C k : Nat} (h : c.Ok C k) {t : List Color}
    (hl : t.length = k) (ht : ∀ d ∈ t, d < C) :
    (c.toColor t).1 = tapeColor C t ∧ (c.toColor t).2.Ok C k ∧
      (c.toColor t).2.Known (tapeColor C t) ∧
      ∀ col, c.Known col → (c.toColor t).2.Known col := by
  simp only [Converter.toColor]
  cases hlk : c.tapeToColor.lookup t with
  | some col =>
    obtain ⟨h1, h2⟩ := h.toColor _ _ (mem_of_lookup hlk)
    exact ⟨h1.symm, h, by rw [h1]; exact h2, fun _ hk => hk⟩
  | none =>
    have hmono : ∀ col, (c.colorToTape.lookup col).isSome →
        (((tapeColor c.base t, t) :: c.colorToTape).lookup col).isSome := by
      intro col hk
      rw [List.lookup_cons]
      split
      · rfl
      · exact hk
    refine ⟨by simp only [h.base], ⟨h.base, ?_, ?_, ?_⟩, ?_, hmono⟩
    · intro col u hm
      rw [List.mem_cons] at hm
      rcases hm with hm | hm
      · simp only [Prod.mk.injEq] at hm
        obtain ⟨rfl, rfl⟩ := hm
        exact ⟨hl, ht, by rw [h.base]⟩
      · exact h.toTape _ _ hm
    · intro u col hm
      rw [List.mem_cons] at hm
      rcases hm with hm | hm
      · simp only [Prod.mk.injEq] at hm
        obtain ⟨rfl, rfl⟩ := hm
        exact ⟨by rw [h.base], by simp⟩
      · obtain ⟨h1, h2⟩ := h.toColor _ _ hm
        exact ⟨h1, hmono _ h2⟩
    · exact hmono _ h.zero
    · simp [Known, h.base]

end Converter

/-! ## The caches do not change the answers -/

/-- `l` computes `pure`; `need` is what has to be in the converter to look a slot up, `give` what
the instruction leaves in it. -/
structure Logic.Faithful (l : Logic) (g : GetInstr) (pure : GetInstr) (C k : Nat)
    (okSlot : Slot → Prop) (need : Slot → Color) (give : Instr → Color) : Prop where
  ok : ∀ conv slot i, conv.Ok C k → okSlot slot → conv.Known (need slot) → pure slot = .ok i →
    ∃ conv', calculateInstr g l conv slot = .ok (i, conv') ∧ conv'.Ok C k ∧
      conv'.Known (give i) ∧ ∀ col, conv.Known col → conv'.Known col
  error : ∀ conv slot e, conv.Ok C k → okSlot slot → conv.Known (need slot) →
    pure slot = .error e → calculateInstr g l conv slot = .error e

theorem blockLogic_faithful {g : GetInstr} {S C : Nat} (hw : g.Within S C) (k : Nat)
    (hk : 0 < k) (hC : 0 < C) :
    (blockLogic k S C).Faithful g (blockInstr g k S C) C k (fun _ => True) Prod.snd Prod.fst where
  ok := by
    intro conv slot i hcv _ hkn hp
    simp only [blockInstr] at hp
    simp only [calculateInstr, blockLogic, hcv.toTape_eq hC hkn]
    cases hs : simulate g (S * k * C ^ k) (slot.1 / 2, slot.1 % 2 == 1, digits C k slot.2) with
    | error e => rw [hs] at hp; cases hp
    | ok c =>
      rw [hs] at hp
      simp only [Except.ok.injEq] at hp
      have hcells := (winLoop_cells hw _ _ _ hs (digits_lt hC k slot.2)).2
      have hlen := (winLoop_ok 0 (fun _ => 0) _ _ _ hs
        (winStart_pos _ (by simpa using hk))).1
      have hlen : c.2.2.length = k := by rw [hlen]; simp [winStart]
      obtain ⟨h1, h2, h3, h4⟩ := hcv.toColor_spec hlen hcells
      refine ⟨(conv.toColor c.2.2).2, ?_, h2, ?_, h4⟩
      · simp only [h1, hp]
      · rw [← hp]; exact h3
  error := by
    intro conv slot e hcv _ hkn hp
    simp only [blockInstr] at hp
    simp only [calculateInstr, blockLogic, hcv.toTape_eq hC hkn]
    cases hs : simulate g (S * k * C ^ k) (slot.1 / 2, slot.1 % 2 == 1, digits C k slot.2) with
    | error e' => rw [hs] at hp; cases hp; rfl
    | ok c => rw [hs] at hp; cases hp

theorem backWindow_length (k C : Nat) (slot : Slot) : (backWindow k C slot).2.2.length = k + 1 := by
  simp only [backWindow]; split <;> simp

theorem backWindow_cells {k C : Nat} (hC : 0 < C) (slot : Slot) (h : slot.2 < C) :
    ∀ c ∈ (backWindow k C slot).2.2, c < C := by
  have hd := digits_lt hC k (slot.1 / 2 % C ^ k)
  simp only [backWindow]
  split
  · intro c hc
    rcases List.mem_cons.mp hc with rfl | hc
    · exact h
    · exact hd c hc
  · intro c hc
    rcases List.mem_append.mp hc with hc | hc
    · exact hd c hc
    · rw [List.mem_singleton.mp hc]; exact h

theorem backsymLogic_faithful {g : GetInstr} {S C : Nat} (hw : g.Within S C) (k : Nat)
    (hC : 0 < C) :
    (backsymLogic k S C).Faithful g (backInstr g k S C) C k (fun s => s.2 < C)
      (fun s => s.1 / 2 % C ^ k) (fun i => i.2.2 / 2 % C ^ k) := by
  have hdec : ∀ conv slot, conv.Ok C k → conv.Known (slot.1 / 2 % C ^ k) →
      (backsymLogic k S C).deconstruct conv slot = .ok (backWindow k C slot) := by
    intro conv slot hcv hkn
    simp only [backsymLogic, hcv.toTape_eq hC hkn, backWindow]
  constructor
  · intro conv slot i hcv hcol hkn hp
    simp only [backInstr] at hp
    simp only [calculateInstr, hdec conv slot hcv hkn]
    cases hs : simulate g (2 * S * C ^ k * C) (backWindow k C slot) with
    | error e => rw [hs] at hp; cases hp
    | ok c =>
      rw [hs] at hp
      simp only [Except.ok.injEq] at hp
      have hlw := backWindow_length k C slot
      have hcells := (winLoop_cells hw _ _ _ hs (backWindow_cells hC slot hcol)).2
      have hlen := (winLoop_ok 0 (fun _ => 0) _ _ _ hs (winStart_pos _ (by omega))).1
      have hlen : c.2.2.length = k + 1 := by rw [hlen]; simpa [winStart] using hlw
      have hl2 : (if (!c.2.1) = true then c.2.2.dropLast else c.2.2.tail).length = k := by
        split <;> simp [hlen]
      have hc2 : ∀ d ∈ (if (!c.2.1) = true then c.2.2.dropLast else c.2.2.tail), d < C := by
        split
        · exact fun d hd => hcells d (List.mem_of_mem_dropLast hd)
        · exact fun d hd => hcells d (List.mem_of_mem_tail hd)
      obtain ⟨h1, h2, h3, h4⟩ := hcv.toColor_spec hl2 hc2
      have hlt := tapeColor_lt hc2
      rw [hl2] at hlt
      simp only [backsymLogic, hs]
      refine ⟨_, ?_, h2, ?_, h4⟩
      · simp only [h1, hp]
      · rw [← hp]
        simp only
        have e : ∀ (b : Bool) (x : Nat), (b.toNat + 2 * x) / 2 = x := by
          intro b x; cases b <;> simp; omega
        rw [e, Nat.add_mul_mod_self_right, Nat.mod_eq_of_lt hlt]
        exact h3
  · intro conv slot e hcv hcol hkn hp
    simp only [backInstr] at hp
    simp only [calculateInstr, hdec conv slot hcv hkn]
    simp only [backsymLogic]
    cases hs : simulate g (2 * S * C ^ k * C) (backWindow k C slot) with
    | error e' => rw [hs] at hp; cases hp; rfl
    | ok c => rw [hs] at hp; cases hp

/-- The instruction cache holds right answers whose colours the converter knows. -/
structure MacroState.Ok (m : MacroState) (pure : GetInstr) (C k : Nat) (give : Instr → Color) :
    Prop where
  conv : m.conv.Ok C k
  instrs : ∀ slot i, (slot, i) ∈ m.instrs → pure slot = .ok i ∧ m.conv.Known (give i)

theorem MacroState.getitem_ok {l : Logic} {g pure : GetInstr} {C k : Nat} {okSlot : Slot → Prop}
    {need : Slot → Color} {give : Instr → Color} (hl : l.Faithful g pure C k okSlot need give)
    {m : MacroState} (hm : m.Ok pure C k give) {slot : Slot} {i : Instr} (hs : okSlot slot)
    (hn : m.conv.Known (need slot)) (hp : pure slot = .ok i) :
    ∃ m', m.getitem g l slot = .ok (i, m') ∧ m'.Ok pure C k give ∧ m'.conv.Known (give i) ∧
      ∀ col, m.conv.Known col → m'.conv.Known col := by
  simp only [MacroState.getitem]
  cases hlk : m.instrs.lookup slot with
  | some i' =>
    obtain ⟨h1, h2⟩ := hm.instrs _ _ (mem_of_lookup hlk)
    rw [hp] at h1
    cases h1
    exact ⟨m, rfl, hm, h2, fun _ h => h⟩
  | none =>
    obtain ⟨conv', h1, h2, h3, h4⟩ := hl.ok _ _ _ hm.conv hs hn hp
    rw [h1]
    refine ⟨_, rfl, ⟨h2, ?_⟩, h3, h4⟩
    intro slot' i' hmem
    rcases List.mem_cons.mp hmem with hmem | hmem
    · cases hmem; exact ⟨hp, h3⟩
    · obtain ⟨a, b⟩ := hm.instrs _ _ hmem
      exact ⟨a, h4 _ b⟩

theorem MacroState.getitem_error {l : Logic} {g pure : GetInstr} {C k : Nat}
    {okSlot : Slot → Prop} {need : Slot → Color} {give : Instr → Color}
    (hl : l.Faithful g pure C k okSlot need give) {m : MacroState} (hm : m.Ok pure C k give)
    {slot : Slot} {e : MErr} (hs : okSlot slot) (hn : m.conv.Known (need slot))
    (hp : pure slot = .error e) : m.getitem g l slot = .error e := by
  simp only [MacroState.getitem]
  cases hlk : m.instrs.lookup slot with
  | some i' =>
    obtain ⟨h1, _⟩ := hm.instrs _ _ (mem_of_lookup hlk)
    rw [hp] at h1
    cases h1
  | none => rw [hl.error _ _ _ hm.conv hs hn hp]

end BB
