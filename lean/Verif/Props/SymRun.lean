import Verif.Lemmas.SymApply
import Verif.Props.Asked

/-!
# C55: runs with symbolic counts

`STape.Den t T`: the tape `T` has the blocks of `t`, with the numbers that the counts denote.
-/

namespace BB
open BB.Sym

theorem Tape.Canonical.positive {T : Tape} (h : T.Canonical) : T.Positive := by
  intro b hb
  rcases List.mem_append.mp hb with h' | h'
  · exact h.l.posCounts b h'
  · exact h.r.posCounts b h'

/-! ### Steps -/

/-- **C55, a step.**  On a tape on which every count that denotes 1 is the integer 1, `step` leaves the
tape of the machine after as many moves as the returned number denotes, when the strict evaluation does
not stop.  Missing: where it stops. -/
theorem C55_step_partial (flog : Int → Int → Nat) (n : Nat) (p : Prog) {q q' : State} {t t' : STape}
    {k : Num} {T : Tape} (h : t.Den T) (hT : T.Canonical) (hone : t.Honest) {shift : Bool}
    {color : Color} {skip : Bool} (hp : p (q, t.scan) = some (color, shift, q'))
    (hskip : skip = true → q' = q) (hs : t.step (ops flog true n) shift color skip = .ok (t', k)) :
    t.step (ops flog false n) shift color skip = .ok (t', k) ∧
    ∃ (T' : Tape) (m : Nat), t'.Den T' ∧ T'.Canonical ∧ 1 ≤ m ∧ k.val = m ∧
      ∀ pos, ∃ pos', runFor p m (T.cfg q pos) = some (T'.cfg q' pos') := by
  obtain ⟨h1, h2⟩ := ret_step (countRel_ops flog n) h hT.positive
    (fun b hb hc => hone b hb (by simpa using hc.2)) shift color skip _ hs
  refine ⟨?_, (Py.step T shift color skip).1, (Py.step T shift color skip).2, h1, ?_, ?_, h2.2, ?_⟩
  · rcases ref_step (refOps_strict flog n) t shift color skip with e | e
    · rw [hs] at e; cases e
    · rw [← e]; exact hs
  · rw [py_step_eq_rs_step T hT.l.posCounts hT.r.posCounts]
    exact hT.rsStep shift color skip
  · exact (C01_py_step p q q' T shift color skip hT.positive (h.scan ▸ hp) hskip 0).1
  · exact fun pos => ⟨_, (C01_py_step p q q' T shift color skip hT.positive (h.scan ▸ hp) hskip pos).2⟩

theorem ret_spanMarks (flog : Int → Int → Nat) (n : Nat) {s : List SBlock} {S : List Block}
    (h : List.Forall₂ (SBlock.Rel CountIs) s S) {acc : Num} {m : Nat} (ha : CountIs acc m) :
    Ret (STape.spanMarks (ops flog true n) acc s) (fun c => CountIs c (m + Tape.spanMarks S)) := by
  induction h generalizing acc m with
  | nil => exact Ret.ok (by simpa [Tape.spanMarks] using ha)
  | @cons b B s S hb hs ih =>
    unfold STape.spanMarks
    rw [hb.1]
    by_cases hc : B.color = 0
    · have e : Tape.spanMarks (B :: S) = Tape.spanMarks S := by simp [Tape.spanMarks, hc]
      rw [if_neg (by simp [hc]), e]
      exact ih ha
    · have e : Tape.spanMarks (B :: S) = B.count + Tape.spanMarks S := by simp [Tape.spanMarks, hc]
      rw [if_pos (by simp [hc]), e, ← Nat.add_assoc]
      exact Ret.bind ((countRel_ops flog n).add _ _ _ _ ha hb.2) fun c hc => ih hc

theorem ref_spanMarks {o o' : Ops} (H : RefOps .strict o o') (acc : Num) (s : List SBlock) :
    Ref .strict (STape.spanMarks o acc s) (STape.spanMarks o' acc s) := by
  induction s generalizing acc with
  | nil => exact Ref.rfl
  | cons b s ih =>
    unfold STape.spanMarks
    split
    · exact Ref.bind (H.add _ _) fun _ => ih _
    · exact ih _

/-- **C55, marks.**  The number returned by `marks` denotes the number of cells that are not blank, when
the strict evaluation does not stop.  Missing: where it stops. -/
theorem C55_marks_partial (flog : Int → Int → Nat) (n : Nat) {t : STape} {k : Num} {T : Tape}
    (h : t.Den T) (hm : t.marks (ops flog true n) = .ok k) :
    t.marks (ops flog false n) = .ok k ∧
    ∀ pos, ∃ S : Finset Int, (∀ x, x ∈ S ↔ T.cells pos x ≠ 0) ∧ k.val = S.card := by
  constructor
  · have : Ref .strict (t.marks (ops flog true n)) (t.marks (ops flog false n)) := by
      have H := refOps_strict flog n
      unfold STape.marks
      exact Ref.bind (ref_spanMarks H _ _) fun _ => Ref.bind (ref_spanMarks H _ _) fun _ =>
        Ref.bind (H.add _ _) fun _ => H.add _ _
    rcases this with e | e
    · rw [hm] at e; cases e
    · rw [← e]; exact hm
  · intro pos
    obtain ⟨S, h1, h2⟩ := T.marks_cells pos
    refine ⟨S, h1, ?_⟩
    rw [h2]
    have R := countRel_ops flog n
    have key : Ret (t.marks (ops flog true n)) (fun c => CountIs c T.marks) := by
      unfold STape.marks Tape.marks
      refine Ret.bind (ret_spanMarks flog n h.l (R.ofNat 0)) fun a ha => ?_
      refine Ret.bind (ret_spanMarks flog n h.r (R.ofNat 0)) fun b hb => ?_
      rw [Nat.zero_add] at ha hb
      have hsc : CountIs (.int (if t.scan != 0 then 1 else 0)) (if T.scan != 0 then 1 else 0) := by
        rw [h.scan]
        split
        · exact R.ofNat 1
        · exact R.ofNat 0
      exact Ret.bind (R.add _ _ _ _ hsc ha) fun c hc => R.add _ _ _ _ hc hb
    exact (key _ hm).2

/-- Case for `C55_step_partial`: from a 1 to the right over `2 ** 9` more, writing 2s. -/
example (flog : Int → Int → Nat) :
    STape.step (ops flog true 20) ⟨[⟨2, .int 5, none⟩], 1, [⟨1, .exp 2 (.int 9), none⟩]⟩ true 2 true =
      .ok (⟨[⟨2, .add (.int 6) (.exp 2 (.int 9)), none⟩], 0, []⟩, .add (.int 1) (.exp 2 (.int 9))) := by
  with_unfolding_all rfl

/-- Case for `C55_marks_partial`. -/
example (flog : Int → Int → Nat) :
    STape.marks (ops flog true 20)
      ⟨[⟨2, .int 5, none⟩, ⟨0, .int 9, none⟩], 1, [⟨1, .exp 2 (.int 9), none⟩]⟩ =
      .ok (.add (.int 6) (.exp 2 (.int 9))) := by
  with_unfolding_all rfl

/-! ### Applying a rule -/

/-- **C55, applying a rule.**  If the machine does one round of the rule on every tape of these colours,
`apply_rule` leaves a tape that the machine reaches, when the strict evaluation does not stop, the counts
that are taken from are positive integers and stay so.  Missing: the other counts. -/
theorem C55_apply_partial (flog : Int → Int → Nat) (n : Nat) (p : Prog) {q : State} {rule : SRule}
    {t t' : STape} {times : Num} {T : Tape} (h : t.Den T) (hT : T.Canonical)
    (hk : (rule.map Prod.fst).Nodup)
    (hop : ∀ i op, (i, op) ∈ rule → (∃ d, op = .plus d) ∨ ∃ m a, op = .mult m a ∧ 1 < m ∧ 1 ≤ m + a)
    (hz : ∀ i d, (i, SOp.plus d) ∈ rule → d < 0 → ∃ z, Sized (t.count i) z)
    (hfin : ∀ i d, (i, SOp.plus d) ∈ rule → d < 0 → 1 ≤ (t'.count i).val)
    (hround : ∀ U U' : Tape, U.SameColors T → U'.SameColors T → U.Positive → U'.Positive →
      (∀ i B B', U.block? i = some B → U'.block? i = some B' →
        (B'.count : ℝ) = SRule.act rule (fun _ => (B.count : ℝ)) i) →
      ∃ m pos', runFor p m (U.cfg q 0) = some (U'.cfg q pos'))
    (ha : applyRuleOn true (ops flog true n) (STape.simTape (ops flog true n)) rule t =
      .ok (some times, t')) :
    applyRuleOn false (ops flog false n) (STape.simTape (ops flog false n)) rule t =
      .ok (some times, t') ∧
    ∃ T', t'.Den T' ∧ T'.Canonical ∧ T'.SameColors T ∧
      ∃ m pos', runFor p m (T.cfg q 0) = some (T'.cfg q pos') := by
  refine ⟨(rref_applyRuleOn (refOps_strict flog n) rule t).ok ha, ?_⟩
  obtain ⟨hc, hsh, hsome, hpos⟩ := applyRuleOn_counts ha
  have hcount : ∀ i b, t.block? i = some b → t.count i = b.count := by
    intro i b hb
    simp [STape.count, hb]
  have hden : ∀ i B, T.block? i = some B → CountIs (t.count i) B.count := by
    intro i B hB
    have := h.block i
    rw [hB] at this
    cases hb : t.block? i with
    | none => rw [hb] at this; exact this.elim
    | some b => rw [hb] at this; rw [hcount i b hb]; exact this.2
  have hone : ∀ i, T.block? i = none → t.count i = .int 1 := by
    intro i hB
    have := h.block i
    rw [hB] at this
    cases hb : t.block? i with
    | none => simp [STape.count, hb]
    | some b => rw [hb] at this; exact this.elim
  have hw : ∀ i, (t.count i).WF := by
    intro i
    cases hB : T.block? i with
    | none => rw [hone i hB]; trivial
    | some B => exact (hden i B hB).1
  obtain ⟨-, N, hN, hval, -⟩ := C53_apply_partial flog n hk hw
    (fun i m a hm => by
      rcases hop i _ hm with ⟨d, hd⟩ | ⟨m', a', he, h1, _⟩
      · cases hd
      · cases he; exact h1) hz hc
  set v : Index → ℝ := fun j => (t.count j).val with hv
  have hvT : ∀ i B, T.block? i = some B → v i = B.count := fun i B hB => (hden i B hB).2
  have hposT := hT.positive
  have hBpos : ∀ i B, T.block? i = some B → 1 ≤ B.count := by
    intro i B hB
    apply hposT
    obtain ⟨side, j⟩ := i
    unfold Tape.block? at hB
    have := List.mem_of_getElem? hB
    cases side
    · exact List.mem_append_left _ this
    · exact List.mem_append_right _ this
  -- the tapes on the way
  have hnat : ∀ k, k ≤ N → ∀ i B, T.block? i = some B →
      ∃ x : Nat, 1 ≤ x ∧ (SRule.act rule)^[k] v i = x := by
    intro k hkN i B hB
    refine act_nat (hvT i B hB) (hBpos i B hB) (fun op hl => hop i op (mem_of_lookup hl))
      (fun d hl hd => ?_) k hkN
    rw [← (hval i).2]
    exact hfin i d (mem_of_lookup hl) hd
  let U : Nat → Tape := fun k => withCounts T (fun i => ⌊(SRule.act rule)^[k] v i⌋₊)
  have hfl : ∀ k, k ≤ N → ∀ i B, T.block? i = some B →
      ((⌊(SRule.act rule)^[k] v i⌋₊ : Nat) : ℝ) = (SRule.act rule)^[k] v i ∧
        1 ≤ ⌊(SRule.act rule)^[k] v i⌋₊ := by
    intro k hkN i B hB
    obtain ⟨x, hx, e⟩ := hnat k hkN i B hB
    rw [e, Nat.floor_natCast]
    exact ⟨rfl, hx⟩
  have hUpos : ∀ k, k ≤ N → (U k).Positive := fun k hkN =>
    withCounts_positive fun i B hB => (hfl k hkN i B hB).2
  have hU0 : U 0 = T := by
    apply withCounts_self
    intro i B hB
    show ⌊v i⌋₊ = B.count
    rw [hvT i B hB, Nat.floor_natCast]
  have hreach : ∃ m pos', runFor p m ((U 0).cfg q 0) = some ((U N).cfg q pos') := by
    refine rounds_reach fun k hkN => ?_
    refine hround (U k) (U (k + 1)) (withCounts_colors _ _) (withCounts_colors _ _)
      (hUpos k hkN.le) (hUpos (k + 1) hkN) fun i B B' hB hB' => ?_
    rw [withCounts_block] at hB hB'
    cases hTi : T.block? i with
    | none => rw [hTi] at hB; cases hB
    | some B0 =>
      rw [hTi] at hB hB'
      cases hB
      cases hB'
      simp only
      rw [(hfl (k + 1) hkN i B0 hTi).1, Function.iterate_succ_apply', (hfl k hkN.le i B0 hTi).1]
      unfold SRule.act
      cases rule.lookup i <;> rfl
  rw [hU0] at hreach
  refine ⟨U N, ?_, canonical_of_colors hT (withCounts_colors _ _) (hUpos N le_rfl),
    withCounts_colors _ _, hreach⟩
  apply rel_of_block
  · have : t'.scan = t.scan := congrArg (fun x => x.2.1) hsh
    rw [this, h.scan]
    rfl
  · intro i
    have hrel := h.block i
    rw [withCounts_block]
    cases hTi : T.block? i with
    | none =>
      rw [hTi] at hrel
      cases hb : t.block? i with
      | some b => rw [hb] at hrel; exact hrel.elim
      | none =>
        have := hsome i
        rw [hb] at this
        cases hb' : t'.block? i with
        | none => trivial
        | some b' => rw [hb'] at this; cases this
    | some B =>
      rw [hTi] at hrel
      cases hb : t.block? i with
      | none => rw [hb] at hrel; exact hrel.elim
      | some b =>
        rw [hb] at hrel
        have := hsome i
        rw [hb] at this
        cases hb' : t'.block? i with
        | none => rw [hb'] at this; cases this
        | some b' =>
          have e : t'.count i = b'.count := by simp [STape.count, hb']
          refine ⟨?_, ?_, ?_⟩
          · show b'.color = B.color
            rw [← hrel.1]
            have key : ∀ (s s' : List SBlock) (j : Nat), s'.map SBlock.color = s.map SBlock.color →
                s[j]? = some b → s'[j]? = some b' → b'.color = b.color := by
              intro s s' j hm h1 h2
              have := congrArg (fun l : List Color => l[j]?) hm
              simpa [h1, h2] using this
            obtain ⟨side, j⟩ := i
            cases side
            · exact key t.lspan t'.lspan j (congrArg (fun x => x.1) hsh) hb hb'
            · exact key t.rspan t'.rspan j (congrArg (fun x => x.2.2) hsh) hb hb'
          · rw [← e]; exact (hval i).1
          · rw [← e, (hval i).2]
            exact (hfl N le_rfl i B hTi).1.symm

/-- Two states around a cell that is moved to the left over a block of 1s, leaving 3s behind. -/
def mover : Prog := fun s =>
  if s = (0, 2) then some (3, false, 1)
  else if s = (1, 1) then some (2, true, 2)
  else if s = (2, 3) then some (3, false, 0)
  else none

theorem mover_round {x y : Nat} (hx : 1 ≤ x) (hy : 1 ≤ y) :
    ∃ m pos', runFor mover m ((⟨[⟨1, x + 1⟩], 2, [⟨3, y⟩]⟩ : Tape).cfg 0 0) =
      some ((⟨[⟨1, x⟩], 2, [⟨3, y + 1⟩]⟩ : Tape).cfg 0 pos') := by
  have e1 : Py.step ⟨[⟨1, x + 1⟩], 2, [⟨3, y⟩]⟩ false 3 false = (⟨[⟨1, x⟩], 1, [⟨3, y + 1⟩]⟩, 1) := by
    have : x ≠ 0 := by omega
    simp [Py.step, Py.stepSpans, this]
  have e2 : Py.step ⟨[⟨1, x⟩], 1, [⟨3, y + 1⟩]⟩ true 2 false =
      (⟨[⟨2, 1⟩, ⟨1, x⟩], 3, [⟨3, y⟩]⟩, 1) := by
    have : y ≠ 0 := by omega
    simp [Py.step, Py.stepSpans, this]
  have e3 : Py.step ⟨[⟨2, 1⟩, ⟨1, x⟩], 3, [⟨3, y⟩]⟩ false 3 false =
      (⟨[⟨1, x⟩], 2, [⟨3, y + 1⟩]⟩, 1) := by
    simp [Py.step, Py.stepSpans]
  have h1 := C01_py_step mover 0 1 ⟨[⟨1, x + 1⟩], 2, [⟨3, y⟩]⟩ false 3 false
    (by simp; omega) rfl (by simp) 0
  have h2 := fun pos => C01_py_step mover 1 2 ⟨[⟨1, x⟩], 1, [⟨3, y + 1⟩]⟩ true 2 false
    (by simp; omega) rfl (by simp) pos
  have h3 := fun pos => C01_py_step mover 2 0 ⟨[⟨2, 1⟩, ⟨1, x⟩], 3, [⟨3, y⟩]⟩ false 3 false
    (by simp; omega) rfl (by simp) pos
  rw [e1] at h1
  simp only [e2] at h2
  simp only [e3] at h3
  exact ⟨_, _, runFor_trans (runFor_trans h1.2 (h2 _).2) (h3 _).2⟩

/-- Case for `C55_apply_partial`: `2 ** 9` cells to the left, `2 ** 9 - 1` rounds. -/
example (flog : Int → Int → Nat) : ∃ t' T',
    applyRuleOn false (ops flog false 20) (STape.simTape (ops flog false 20))
      [((false, 0), .plus (-1)), ((true, 0), .plus 1)]
      ⟨[⟨1, .exp 2 (.int 9), none⟩], 2, [⟨3, .int 7, none⟩]⟩ =
      .ok (some (.add (.int (-1)) (.exp 2 (.int 9))), t') ∧
    t' = ⟨[⟨1, .int 1, none⟩], 2, [⟨3, .add (.int 6) (.exp 2 (.int 9)), none⟩]⟩ ∧ t'.Den T' ∧
    ∃ m pos', runFor mover m ((⟨[⟨1, 512⟩], 2, [⟨3, 7⟩]⟩ : Tape).cfg 0 0) = some (T'.cfg 0 pos') := by
  have ha : applyRuleOn true (ops flog true 20) (STape.simTape (ops flog true 20))
      [((false, 0), .plus (-1)), ((true, 0), .plus 1)]
      ⟨[⟨1, .exp 2 (.int 9), none⟩], 2, [⟨3, .int 7, none⟩]⟩ =
      .ok (some (.add (.int (-1)) (.exp 2 (.int 9))),
        ⟨[⟨1, .int 1, none⟩], 2, [⟨3, .add (.int 6) (.exp 2 (.int 9)), none⟩]⟩) := by
    with_unfolding_all rfl
  have hv : (Num.exp 2 (.int 9)).val = ((512 : Nat) : ℝ) := by
    have : (Num.exp 2 (.int 9)).val = ((512 : Int) : ℝ) :=
      Num.val_toInt (by simp [Num.WF]) (by simp [Num.Exact]) (by decide)
    rw [this]
    norm_num
  obtain ⟨h1, T', h2, -, -, h3⟩ := C55_apply_partial flog 20 mover (q := 0)
    (T := ⟨[⟨1, 512⟩], 2, [⟨3, 7⟩]⟩)
    ⟨rfl, .cons ⟨rfl, by simp [Num.WF], hv⟩ .nil,
      .cons ⟨rfl, trivial, by simp [Num.val]⟩ .nil⟩
    ⟨.last _ _ (by decide) (by decide), .last _ _ (by decide) (by decide)⟩ (by decide)
    (by
      intro i op hm
      simp only [List.mem_cons, Prod.mk.injEq, List.not_mem_nil, or_false] at hm
      rcases hm with ⟨-, rfl⟩ | ⟨-, rfl⟩ <;> exact .inl ⟨_, rfl⟩)
    (by
      intro i d hm hd
      simp only [List.mem_cons, Prod.mk.injEq, List.not_mem_nil, or_false, SOp.plus.injEq] at hm
      rcases hm with ⟨rfl, rfl⟩ | ⟨rfl, rfl⟩
      · exact ⟨512, by simp [Num.WF, STape.count, STape.block?],
          by simp [Num.Exact, STape.count, STape.block?],
          by simp [Num.BigExp, Num.toInt, STape.count, STape.block?], by decide, by decide⟩
      · exact absurd hd (by decide))
    (by
      intro i d hm hd
      simp only [List.mem_cons, Prod.mk.injEq, List.not_mem_nil, or_false, SOp.plus.injEq] at hm
      rcases hm with ⟨rfl, rfl⟩ | ⟨rfl, rfl⟩
      · simp [STape.count, STape.block?]
      · exact absurd hd (by decide))
    (by
      rintro ⟨l, c, r⟩ ⟨l', c', r'⟩ ⟨e1, e2, e3⟩ ⟨e1', e2', e3'⟩ hU hU' hr
      simp only [List.map_cons, List.map_nil, List.map_eq_singleton_iff] at e1 e2 e3 e1' e2' e3'
      obtain ⟨⟨cl, x⟩, rfl, rfl⟩ := e2
      obtain ⟨⟨cr, y⟩, rfl, rfl⟩ := e3
      obtain ⟨⟨cl', x'⟩, rfl, hcl⟩ := e2'
      obtain ⟨⟨cr', y'⟩, rfl, hcr⟩ := e3'
      simp only at hcl hcr
      subst e1 e1' hcl hcr
      have hx := hr (false, 0) _ _ rfl rfl
      have hy := hr (true, 0) _ _ rfl rfl
      have hx1 : 1 ≤ x' := hU' ⟨1, x'⟩ (by simp)
      have hy1 : 1 ≤ y := hU ⟨3, y⟩ (by simp)
      have hx2 : x = x' + 1 := by
        have : (x' : ℝ) = x + ((-1 : Int) : ℝ) := hx
        have : ((x' : Int) : ℝ) = ((x + -1 : Int) : ℝ) := by push_cast; push_cast at this; exact this
        have := Int.cast_injective this
        omega
      have hy2 : y' = y + 1 := by
        have : (y' : ℝ) = y + ((1 : Int) : ℝ) := hy
        have : ((y' : Int) : ℝ) = ((y + 1 : Int) : ℝ) := by push_cast; push_cast at this; exact this
        have := Int.cast_injective this
        omega
      subst hx2 hy2
      exact mover_round hx1 hy1) ha
  exact ⟨_, T', h1, rfl, h2, h3⟩

/-! ### Runs -/

/-- What is asked of one point of a run: counts that denote 1 are the integer 1, the strict evaluation of
the step does not stop, an infinite rule means that the machine never halts, and applying a rule leads to
a tape that the machine reaches. -/
structure SymRight (flog : Int → Int → Nat) (n : Nat) (p : Prog) (cycle : Nat) (s : SRState SProver) :
    Prop where
  honest : s.tape.Honest
  strict : ∀ c sh q', p (s.state, s.tape.scan) = some (c, sh, q') →
    s.tape.step (ops flog true n) sh c (s.state == q') ≠ .error .strict
  infinite : (SProver.tryRule false (ops flog false n) p s.prover cycle s.state s.tape).2 =
    .error (some .infiniteRule) → NeverHalts p initCfg
  applied : ∀ T rule times t', s.tape.Den T → T.Canonical →
    (SProver.tryRule false (ops flog false n) p s.prover cycle s.state s.tape).2 = .ok (some rule) →
    applyRuleOn false (ops flog false n) (STape.simTape (ops flog false n)) rule s.tape =
      .ok (some times, t') →
    ∃ T', t'.Den T' ∧ T'.Canonical ∧ ∃ m pos',
      runFor p m (T.cfg s.state 0) = some (T'.cfg s.state pos')

/-- **C55, runs.**  If every point of the run is right, so are the reports, the number of steps is exact
unless it is -1, and the tape that is left denotes the machine's.  Missing: the points of a run are not
right in general (`C55_violation`). -/
theorem C55_run_partial (flog : Int → Int → Nat) (n : Nat) (p : Prog) (lim : Nat)
    (hr : ∀ x ∈ sasked false (ops flog false n) (SProver.tryRule false (ops flog false n) p) p lim 0
      ⟨.init, STape.init, [], 0, 0, .int 0⟩, SymRight flog n p x.1 x.2) :
    let r := SMachine.run false (ops flog false n) p lim
    (∀ slot, r.result = .undfnd slot → ∃ m, HaltsAt p initCfg m slot ∧ (r.steps = -1 ∨ r.steps = m)) ∧
    (r.result = .spnout ∨ r.result = .infrul → NeverHalts p initCfg) ∧
    ((∀ e, r.result ≠ .crash e) → ∃ m q pos T, runFor p m initCfg = some (T.cfg q pos) ∧
      T.Canonical ∧ r.tape.Den T ∧ (r.steps = -1 ∨ r.steps = m) ∧
      ∀ slot, r.result = .undfnd slot → q = slot.1) := by
  have := srunLoop_spec (D := CountIs) (inf := True) (giveUp := False) (strict := false)
    (o := ops flog false n) (p := p) (try_ := SProver.tryRule false (ops flog false n) p)
    (countRel_ops flog n).int lim 0 ⟨.init, STape.init, [], 0, 0, .int 0⟩ 0 Tape.init
    ⟨⟨rfl, .nil, .nil⟩, rinv_init p ()⟩ (fun x hx => by
      have h := hr x hx
      refine ⟨fun T hT hpos c sh q' hp => ?_, fun _ => h.infinite,
        fun T rule times t' h1 h2 h3 h4 => .inr (h.applied T rule times t' h1 h2 h3 h4)⟩
      have hst := ret_step (countRel_ops flog n) hT hpos
        (fun b hb hc => h.honest b hb (by simpa using hc.2)) sh c (x.2.state == q')
      rcases ref_step (refOps_strict flog n) x.2.tape sh c (x.2.state == q') with e | e
      · exact absurd e (h.strict c sh q' hp)
      · rw [← e]; exact hst)
  rcases this with ⟨h, -⟩ | h
  · exact h.elim
  · exact ⟨h.undfnd, fun hh => hh.elim h.spnout (h.infrul trivial), h.tape⟩

/-- **C55, runs without rules.**  If the reported number of steps is not -1, it is the number of moves,
the reports `undfnd` and `spnout` are right, and the tape that is left is the machine's, with integer
counts. -/
theorem C55_no_rule (flog : Int → Int → Nat) (n : Nat) (p : Prog) (lim : Nat) :
    let r := SMachine.run false (ops flog false (n + 1)) p lim
    r.steps ≠ -1 →
    (∀ slot, r.result = .undfnd slot → ∃ m : Nat, HaltsAt p initCfg m slot ∧ r.steps = m) ∧
    (r.result = .spnout → NeverHalts p initCfg) ∧
    ((∀ e, r.result ≠ .crash e) → ∃ (m : Nat) (q : State) (pos : Int) (T : Tape),
      runFor p m initCfg = some (T.cfg q pos) ∧ T.Canonical ∧
      r.tape.Rel (fun a k => a = .int k) T ∧ r.steps = m) := by
  intro r hne
  have R := countRel_int flog false n
  have := srunLoop_spec (D := fun a k => a = .int k) (inf := False) (giveUp := True) (strict := false)
    (o := ops flog false (n + 1)) (p := p)
    (try_ := SProver.tryRule false (ops flog false (n + 1)) p)
    R.int lim 0 ⟨.init, STape.init, [], 0, 0, .int 0⟩ 0 Tape.init
    ⟨⟨rfl, .nil, .nil⟩, rinv_init p ()⟩ (fun x hx => by
      refine ⟨fun T hT hpos c sh q' hp => ?_, fun h => h.elim,
        fun T rule times t' h1 h2 h3 h4 => .inl trivial⟩
      exact ret_step R hT hpos (fun b hb hc => hc) sh c (x.2.state == q'))
  rcases this with ⟨-, h⟩ | h
  · exact absurd h hne
  · refine ⟨fun slot hs => ?_, h.spnout, fun hc => ?_⟩
    · obtain ⟨m, h1, h2⟩ := h.undfnd slot hs
      exact ⟨m, h1, h2.resolve_left hne⟩
    · obtain ⟨m, q, pos, T, h1, h2, h3, h4, -⟩ := h.tape hc
      exact ⟨m, q, pos, T, h1, h2, h3, h4.resolve_left hne⟩

/-! ### Checking a run -/

/-- The number a term denotes, if bases and denominators are positive and everything is an integer. -/
def exactInt : Num → Option Int
  | .int k => some k
  | .add l r => match exactInt l, exactInt r with
    | some x, some y => some (x + y)
    | _, _ => none
  | .mul l r => match exactInt l, exactInt r with
    | some x, some y => some (x * y)
    | _, _ => none
  | .div a d => match exactInt a with
    | some x => if 0 < d ∧ d * (x / d) = x then some (x / d) else none
    | none => none
  | .exp b e => match exactInt e with
    | some k => if 0 < b ∧ 0 ≤ k then some (b ^ k.toNat) else none
    | none => none

theorem exactInt_spec {a : Num} {z : Int} (h : exactInt a = some z) : a.WF ∧ a.val = z := by
  induction a generalizing z with
  | int k => cases h; exact ⟨trivial, rfl⟩
  | add l r ihl ihr =>
    unfold exactInt at h
    cases hl : exactInt l <;> cases hr : exactInt r <;> rw [hl, hr] at h <;> cases h
    obtain ⟨w1, v1⟩ := ihl hl
    obtain ⟨w2, v2⟩ := ihr hr
    exact ⟨⟨w1, w2⟩, by rw [Num.val, v1, v2]; push_cast; rfl⟩
  | mul l r ihl ihr =>
    unfold exactInt at h
    cases hl : exactInt l <;> cases hr : exactInt r <;> rw [hl, hr] at h <;> cases h
    obtain ⟨w1, v1⟩ := ihl hl
    obtain ⟨w2, v2⟩ := ihr hr
    exact ⟨⟨w1, w2⟩, by rw [Num.val, v1, v2]; push_cast; rfl⟩
  | div a d ih =>
    unfold exactInt at h
    cases ha : exactInt a with
    | none => rw [ha] at h; cases h
    | some x =>
      rw [ha] at h
      simp only at h
      split at h
      · rename_i hd
        cases h
        obtain ⟨w, v⟩ := ih ha
        refine ⟨⟨w, hd.1⟩, ?_⟩
        have h0 : (d : ℝ) ≠ 0 := by exact_mod_cast hd.1.ne'
        have e : (d : ℝ) * ((x / d : Int) : ℝ) = x := by exact_mod_cast hd.2
        rw [Num.val, v, ← e]
        field_simp
      · cases h
  | exp b e ih =>
    unfold exactInt at h
    cases he : exactInt e with
    | none => rw [he] at h; cases h
    | some k =>
      rw [he] at h
      simp only at h
      split at h
      · rename_i hb
        cases h
        obtain ⟨w, v⟩ := ih he
        refine ⟨⟨hb.1, w⟩, ?_⟩
        have : ((k : ℤ) : ℝ) = ((k.toNat : ℕ) : ℝ) := by
          have : (k.toNat : ℤ) = k := Int.toNat_of_nonneg hb.2
          exact_mod_cast this.symm
        rw [Num.val, v, this, Real.rpow_natCast]
        push_cast
        rfl
      · cases h

/-- The blocks that are denoted. -/
def denoteSpan : List SBlock → Option (List Block)
  | [] => some []
  | b :: s => match exactInt b.count, denoteSpan s with
    | some (.ofNat k), some S => some (⟨b.color, k⟩ :: S)
    | _, _ => none

theorem denoteSpan_spec {s : List SBlock} {S : List Block} (h : denoteSpan s = some S) :
    List.Forall₂ (SBlock.Rel CountIs) s S := by
  induction s generalizing S with
  | nil => cases h; exact .nil
  | cons b s ih =>
    unfold denoteSpan at h
    cases he : exactInt b.count with
    | none => rw [he] at h; cases h
    | some z =>
      rw [he] at h
      cases z with
      | negSucc k => cases h
      | ofNat k =>
        cases hs : denoteSpan s with
        | none => rw [hs] at h; cases h
        | some S' =>
          rw [hs] at h
          cases h
          obtain ⟨w, v⟩ := exactInt_spec he
          exact .cons ⟨rfl, w, by rw [v]; simp⟩ (ih hs)

/-- The tape that is denoted. -/
def denote (t : STape) : Option Tape :=
  match denoteSpan t.lspan, denoteSpan t.rspan with
  | some l, some r => some ⟨l, t.scan, r⟩
  | _, _ => none

theorem denote_spec {t : STape} {T : Tape} (h : denote t = some T) : t.Den T := by
  unfold denote at h
  cases hl : denoteSpan t.lspan <;> cases hr : denoteSpan t.rspan <;> rw [hl, hr] at h <;> cases h
  exact ⟨rfl, denoteSpan_spec hl, denoteSpan_spec hr⟩

theorem span_unique {s : List SBlock} {S S' : List Block} (h : List.Forall₂ (SBlock.Rel CountIs) s S)
    (h' : List.Forall₂ (SBlock.Rel CountIs) s S') : S = S' := by
  induction h generalizing S' with
  | nil => cases h'; rfl
  | @cons b B s S hb hs ih =>
    cases h' with
    | @cons _ B' _ S' hb' hs' =>
      rw [ih hs']
      have h1 : B.color = B'.color := hb.1.symm.trans hb'.1
      have h2 : B.count = B'.count := by
        have := hb.2.2.symm.trans hb'.2.2
        exact_mod_cast this
      cases B; cases B'
      simp only at h1 h2
      rw [h1, h2]

theorem den_unique {t : STape} {T T' : Tape} (h : t.Den T) (h' : t.Den T') : T = T' := by
  obtain ⟨l, c, r⟩ := T
  obtain ⟨l', c', r'⟩ := T'
  have h1 : c = c' := h.scan.symm.trans h'.scan
  have h2 : l = l' := span_unique h.l h'.l
  have h3 : r = r' := span_unique h.r h'.r
  rw [h1, h2, h3]

/-- Counts that denote 1 are the integer 1. -/
def honestB (s : List SBlock) : Bool :=
  s.all fun b => match exactInt b.count with
    | some z => z != 1 || decide (b.count = .int 1)
    | none => false

/-- Whether the strict evaluation of the step stops. -/
def strictStops (o : Ops) (p : Prog) (q : State) (t : STape) : Bool :=
  match p (q, t.scan) with
  | none => false
  | some (c, sh, q') => match t.step o sh c (q == q') with
    | .error .strict => true
    | _ => false

/-- Whether replaying confirms the application of the rule. -/
def applyReplays (o : Ops) (p : Prog) (fuel : Nat) (q : State) (t : STape) (rule : SRule) : Bool :=
  match applyRuleOn false o (STape.simTape o) rule t with
  | .ok (some _, t') => match denote t, denote t' with
    | some T, some T' => canonB T'.lspan && canonB T'.rspan && replays p q T' fuel q T
    | _, _ => false
  | _ => true

/-- Whether everything asked of a point of a run can be confirmed. -/
def symChecks (flog : Int → Int → Nat) (n : Nat) (p : Prog) (fuel : Nat)
    (x : Nat × SRState SProver) : Bool :=
  honestB x.2.tape.lspan && honestB x.2.tape.rspan &&
    !strictStops (ops flog true n) p x.2.state x.2.tape &&
    match (SProver.tryRule false (ops flog false n) p x.2.prover x.1 x.2.state x.2.tape).2 with
    | .error (some .infiniteRule) => false
    | .ok (some rule) => applyReplays (ops flog false n) p fuel x.2.state x.2.tape rule
    | _ => true

theorem symChecks_right {flog : Int → Int → Nat} {n : Nat} {p : Prog} {fuel cycle : Nat}
    {s : SRState SProver} (h : symChecks flog n p fuel (cycle, s) = true) :
    SymRight flog n p cycle s := by
  simp only [symChecks, Bool.and_eq_true, Bool.not_eq_true'] at h
  obtain ⟨⟨⟨hl, hr⟩, hs⟩, ht⟩ := h
  refine ⟨?_, ?_, ?_, ?_⟩
  · have key : ∀ l : List SBlock, honestB l = true → ∀ b ∈ l, b.count.val = 1 → b.count = .int 1 := by
      intro l hl b hb hv
      have := List.all_eq_true.mp hl b hb
      cases he : exactInt b.count with
      | none => rw [he] at this; cases this
      | some z =>
        rw [he] at this
        simp only [Bool.or_eq_true, bne_iff_ne, ne_eq, decide_eq_true_eq] at this
        refine this.resolve_left fun hz => hz ?_
        have h1 := (exactInt_spec he).2
        rw [hv] at h1
        exact_mod_cast h1.symm
    intro b hb
    rcases List.mem_append.mp hb with hb | hb
    · exact key _ hl b hb
    · exact key _ hr b hb
  · intro c sh q' hp he
    simp only [strictStops, hp, he] at hs
    cases hs
  · intro hi
    rw [hi] at ht
    cases ht
  · intro T rule times t' hT hc hi ha
    rw [hi] at ht
    simp only [applyReplays, ha] at ht
    cases hd : denote s.tape with
    | none => rw [hd] at ht; cases ht
    | some T0 =>
      cases hd' : denote t' with
      | none => rw [hd, hd'] at ht; cases ht
      | some T' =>
        rw [hd, hd'] at ht
        simp only [Bool.and_eq_true] at ht
        rw [den_unique hT (denote_spec hd)]
        obtain ⟨m, pos', -, hm⟩ := replays_spec fuel _ _ 0 ht.2
        exact ⟨T', denote_spec hd', ⟨canon_of_canonB ht.1.1, canon_of_canonB ht.1.2⟩, m, pos', hm⟩

/-- **C55, what holds (a check that a run can be put to).**  If replaying confirms every application of a
rule in the run, and no count that denotes 1 is anything but the integer 1, the reports are right. -/
theorem C55_checked_partial (flog : Int → Int → Nat) (n : Nat) (p : Prog) (lim fuel : Nat)
    (hr : (sasked false (ops flog false n) (SProver.tryRule false (ops flog false n) p) p lim 0
      ⟨.init, STape.init, [], 0, 0, .int 0⟩).all (symChecks flog n p fuel) = true) :
    let r := SMachine.run false (ops flog false n) p lim
    (∀ slot, r.result = .undfnd slot → ∃ m, HaltsAt p initCfg m slot ∧ (r.steps = -1 ∨ r.steps = m)) ∧
    (r.result = .spnout ∨ r.result = .infrul → NeverHalts p initCfg) ∧
    ((∀ e, r.result ≠ .crash e) → ∃ m q pos T, runFor p m initCfg = some (T.cfg q pos) ∧
      T.Canonical ∧ r.tape.Den T ∧ (r.steps = -1 ∨ r.steps = m) ∧
      ∀ slot, r.result = .undfnd slot → q = slot.1) :=
  C55_run_partial flog n p lim fun x hx => symChecks_right (List.all_eq_true.mp hr x hx)

/-- The logarithm of the program. -/
def natLog : Int → Int → Nat := fun l b => Nat.log b.toNat l.toNat

end BB
