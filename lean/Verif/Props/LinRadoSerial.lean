import Verif.Props.LinRado

/-!
# C73: the serial numbers of Lin and Rado

The serial number of a machine with three states and two colours has 24 bits: for each of the slots
A0, A1, B0, B1, C0, C1 one bit for the mark, one for the direction and two for the next card, 0 for the
stop.
-/

namespace BB
namespace LinRado

/-- The four bits of slot `k`, as a number. -/
def field (n k : Nat) : Nat := n / 16 ^ (5 - k) % 16

/-- The entry that four bits stand for. -/
def fieldText (f : Nat) : List Char :=
  [if f / 8 % 2 = 1 then '1' else '0', if f / 4 % 2 = 1 then 'R' else 'L',
    if f % 4 = 0 then '_' else if f % 4 = 1 then 'A' else if f % 4 = 2 then 'B' else 'C']

/-- The bits of a number below 16. -/
def bits (f : Nat) : List Char :=
  [if f / 8 % 2 = 1 then '1' else '0', if f / 4 % 2 = 1 then '1' else '0',
    if f / 2 % 2 = 1 then '1' else '0', if f % 2 = 1 then '1' else '0']

theorem toDigits_two_step (m d : Nat) (hm : 0 < m) (hd : d < 2) :
    Nat.toDigits 2 (2 * m + d) = Nat.toDigits 2 m ++ Nat.toDigits 2 d :=
  (Nat.toDigits_append_toDigits (by decide) hm hd).symm

theorem toDigits_field (m f : Nat) (hm : 0 < m) (hf : f < 16) :
    Nat.toDigits 2 (16 * m + f) = Nat.toDigits 2 m ++ bits f := by
  have h1 : 16 * m + f = 2 * (2 * (2 * (2 * m + f / 8) + f / 4 % 2) + f / 2 % 2) + f % 2 := by omega
  rw [h1, toDigits_two_step _ _ (by omega) (by omega), toDigits_two_step _ _ (by omega) (by omega),
    toDigits_two_step _ _ (by omega) (by omega), toDigits_two_step _ _ hm (by omega)]
  have h2 : ∀ f < 16, Nat.toDigits 2 (f / 8) ++ Nat.toDigits 2 (f / 4 % 2) ++ Nat.toDigits 2 (f / 2 % 2)
      ++ Nat.toDigits 2 (f % 2) = bits f := by decide
  rw [← h2 f hf]
  simp

theorem toDigits_first : ∀ f < 16, 8 ≤ f → Nat.toDigits 2 f = bits f := by decide

/-- The binary digits of a number of 24 bits. -/
theorem toDigits_serial (n : Nat) (h1 : 2 ^ 23 ≤ n) (h2 : n < 2 ^ 24) :
    Nat.toDigits 2 n = bits (field n 0) ++ bits (field n 1) ++ bits (field n 2) ++ bits (field n 3)
      ++ bits (field n 4) ++ bits (field n 5) := by
  have e5 : n = 16 * (n / 16) + field n 5 := by simp only [field]; omega
  have e4 : n / 16 = 16 * (n / 16 ^ 2) + field n 4 := by simp only [field]; omega
  have e3 : n / 16 ^ 2 = 16 * (n / 16 ^ 3) + field n 3 := by simp only [field]; omega
  have e2 : n / 16 ^ 3 = 16 * (n / 16 ^ 4) + field n 2 := by simp only [field]; omega
  have e1 : n / 16 ^ 4 = 16 * (n / 16 ^ 5) + field n 1 := by simp only [field]; omega
  have e0 : n / 16 ^ 5 = field n 0 := by simp only [field]; omega
  have hb : ∀ k, field n k < 16 := fun k => Nat.mod_lt _ (by decide)
  have d0 : Nat.toDigits 2 (n / 16 ^ 5) = bits (field n 0) := by
    rw [e0]; exact toDigits_first _ (hb 0) (by simp only [field]; omega)
  have d1 : Nat.toDigits 2 (n / 16 ^ 4) = _ := (congrArg _ e1).trans (toDigits_field _ _ (by omega) (hb 1))
  have d2 : Nat.toDigits 2 (n / 16 ^ 3) = _ := (congrArg _ e2).trans (toDigits_field _ _ (by omega) (hb 2))
  have d3 : Nat.toDigits 2 (n / 16 ^ 2) = _ := (congrArg _ e3).trans (toDigits_field _ _ (by omega) (hb 3))
  have d4 : Nat.toDigits 2 (n / 16) = _ := (congrArg _ e4).trans (toDigits_field _ _ (by omega) (hb 4))
  have d5 : Nat.toDigits 2 n = _ := (congrArg _ e5).trans (toDigits_field _ _ (by omega) (hb 5))
  rw [d5, d4, d3, d2, d1, d0]

theorem convert_bits : ∀ f < 16, convertInstr (bits f) = some (fieldText f) := by decide

theorem chunks_bits (f : Nat) (r : List Char) : chunks4 (bits f ++ r) = bits f :: chunks4 r := rfl

/-- The entry, with the stop of the project's notation. -/
def fieldEntry (f : Nat) : List Char := if f = 12 then ['.', '.', '.'] else fieldText f

theorem replace_field : ∀ f < 16, ∀ r : List Char,
    replaceHalt (fieldText f ++ r) = fieldEntry f ++ replaceHalt r := by
  intro f hf r
  have hcases : f = 0 ∨ f = 1 ∨ f = 2 ∨ f = 3 ∨ f = 4 ∨ f = 5 ∨ f = 6 ∨ f = 7 ∨ f = 8 ∨ f = 9 ∨ f = 10 ∨
      f = 11 ∨ f = 12 ∨ f = 13 ∨ f = 14 ∨ f = 15 := by omega
  rcases hcases with rfl | rfl | rfl | rfl | rfl | rfl | rfl | rfl | rfl | rfl | rfl | rfl | rfl | rfl |
    rfl | rfl <;> simp [fieldText, fieldEntry, replaceHalt]

/-- **C73.**  A serial number of 24 bits is converted to the text with the entries its bits stand
for. -/
theorem C73_text_partial (n : Nat) (h1 : 2 ^ 23 ≤ n) (h2 : n < 2 ^ 24) :
    lrConvert n = some (layout [[fieldEntry (field n 0), fieldEntry (field n 1)],
      [fieldEntry (field n 2), fieldEntry (field n 3)],
      [fieldEntry (field n 4), fieldEntry (field n 5)]]) := by
  have hb : ∀ k, field n k < 16 := fun k => Nat.mod_lt _ (by decide)
  have hc : chunks4 (Nat.toDigits 2 n) = [bits (field n 0), bits (field n 1), bits (field n 2),
      bits (field n 3), bits (field n 4), bits (field n 5)] := by
    rw [toDigits_serial n h1 h2]
    simp only [List.append_assoc, chunks_bits]
    rfl
  unfold lrConvert
  rw [hc]
  simp only [List.mapM_cons, List.mapM_nil, convert_bits _ (hb _), Option.bind_eq_bind, Option.bind_some,
    Option.pure_def]
  simp only [List.append_assoc, List.cons_append, List.nil_append, replace_field _ (hb _), replace_space]
  have hl : replaceHalt (fieldText (field n 5)) = fieldEntry (field n 5) := by
    have := replace_field _ (hb 5) []
    simpa [replaceHalt] using this
  rw [hl]
  simp [layout, joinWith]

/-- The instruction that four bits stand for. -/
def fieldInstr (f : Nat) : Option Instr :=
  if f = 12 then none else some (f / 8 % 2, f / 4 % 2 == 1, f % 4 - 1)

theorem fieldEntry_show : ∀ f < 16, (f % 4 = 0 → f = 12) →
    fieldEntry f = showInstr (fieldInstr f) ∧
    ∀ i, fieldInstr f = some i → i.1 < 10 ∧ i.2.2 < 68 := by
  have h : ∀ f < 16, (f % 4 = 0 → f = 12) → fieldEntry f = showInstr (fieldInstr f) ∧
      (fieldInstr f).all (fun i => decide (i.1 < 10) && decide (i.2.2 < 68)) = true := by decide
  intro f hf hs
  refine ⟨(h f hf hs).1, ?_⟩
  intro i hi
  have := (h f hf hs).2
  rw [hi] at this
  simpa using this

theorem lt_three {c : Nat} (h : c < 3) : c = 0 ∨ c = 1 ∨ c = 2 := by omega

/-- **C73, the machine.**  If the machine stops only with `1R`, the text is read as the machine of the
serial number. -/
theorem C73_machine_partial (n : Nat) (h1 : 2 ^ 23 ≤ n) (h2 : n < 2 ^ 24)
    (hstop : ∀ k < 6, field n k % 4 = 0 → field n k = 12) :
    ∃ text t, lrConvert n = some text ∧ fromStr text = some t ∧
      ∀ st < 3, ∀ co < 2, t.get? (st, co) = fieldInstr (field n (2 * st + co)) := by
  have hb : ∀ k, field n k < 16 := fun k => Nat.mod_lt _ (by decide)
  have hk : ∀ k < 6, fieldEntry (field n k) = showInstr (fieldInstr (field n k)) :=
    fun k hk => (fieldEntry_show _ (hb k) (hstop k hk)).1
  have hi : ∀ k < 6, ∀ i, fieldInstr (field n k) = some i → InstrOk i := by
    intro k hk i he
    have := (fieldEntry_show _ (hb k) (hstop k hk)).2 i he
    exact instrOk_of_lt this.1 this.2
  refine ⟨_, gridEntries 0 [[fieldInstr (field n 0), fieldInstr (field n 1)],
    [fieldInstr (field n 2), fieldInstr (field n 3)],
    [fieldInstr (field n 4), fieldInstr (field n 5)]], C73_text_partial n h1 h2, ?_, ?_⟩
  · have hok : GridOk [[fieldInstr (field n 0), fieldInstr (field n 1)],
        [fieldInstr (field n 2), fieldInstr (field n 3)],
        [fieldInstr (field n 4), fieldInstr (field n 5)]] 3 2 := by
      refine ⟨rfl, by simp, by decide, by decide, ?_⟩
      intro row hr i hi'
      simp only [List.mem_cons, List.not_mem_nil, or_false] at hr
      rcases hr with rfl | rfl | rfl <;> simp only [List.mem_cons, List.not_mem_nil, or_false] at hi' <;>
        rcases hi' with hi' | hi'
      · exact hi 0 (by decide) i hi'.symm
      · exact hi 1 (by decide) i hi'.symm
      · exact hi 2 (by decide) i hi'.symm
      · exact hi 3 (by decide) i hi'.symm
      · exact hi 4 (by decide) i hi'.symm
      · exact hi 5 (by decide) i hi'.symm
    have hlay : layout [[fieldEntry (field n 0), fieldEntry (field n 1)],
        [fieldEntry (field n 2), fieldEntry (field n 3)],
        [fieldEntry (field n 4), fieldEntry (field n 5)]]
        = renderGrid [[fieldInstr (field n 0), fieldInstr (field n 1)],
          [fieldInstr (field n 2), fieldInstr (field n 3)],
          [fieldInstr (field n 4), fieldInstr (field n 5)]] := by
      rw [hk 0 (by decide), hk 1 (by decide), hk 2 (by decide), hk 3 (by decide), hk 4 (by decide),
        hk 5 (by decide)]
      rfl
    rw [hlay]
    simp only [fromStr]
    rw [trimWs_render _ 3 2 hok, parseRows_render _ 3 2 hok, Option.map_some,
      Table.collect_sorted _ (gridEntries_sorted _ _)]
  · intro st hst co hco
    rw [get?_gridEntries]
    have hs : st = 0 ∨ st = 1 ∨ st = 2 := lt_three hst
    have hc : co = 0 ∨ co = 1 := lt_two hco
    rcases hs with rfl | rfl | rfl <;> rcases hc with rfl | rfl <;> rfl

/-- **C73, different numbers, different texts.** -/
theorem C73_injective_partial (n m : Nat) (hn : 2 ^ 23 ≤ n ∧ n < 2 ^ 24) (hm : 2 ^ 23 ≤ m ∧ m < 2 ^ 24)
    (h : lrConvert n = lrConvert m) : n = m := by
  rw [C73_text_partial n hn.1 hn.2, C73_text_partial m hm.1 hm.2] at h
  have hb : ∀ n k, field n k < 16 := fun n k => Nat.mod_lt _ (by decide)
  have hsh : ∀ f < 16, fieldEntry f = [(fieldEntry f)[0]!, (fieldEntry f)[1]!, (fieldEntry f)[2]!] := by
    decide
  have hinj : ∀ f < 16, ∀ g < 16, (fieldEntry f)[0]! = (fieldEntry g)[0]! →
      (fieldEntry f)[1]! = (fieldEntry g)[1]! → (fieldEntry f)[2]! = (fieldEntry g)[2]! → f = g := by
    decide
  have hk : ∀ k, fieldEntry (field n k) = _ := fun k => hsh _ (hb n k)
  have hk' : ∀ k, fieldEntry (field m k) = _ := fun k => hsh _ (hb m k)
  rw [hk 0, hk 1, hk 2, hk 3, hk 4, hk 5, hk' 0, hk' 1, hk' 2, hk' 3, hk' 4, hk' 5] at h
  simp only [layout, joinWith, List.map_cons, List.map_nil, List.cons_append, List.nil_append,
    Option.some.injEq, List.cons.injEq, true_and, and_true] at h
  obtain ⟨a0, b0, c0, a1, b1, c1, a2, b2, c2, a3, b3, c3, a4, b4, c4, a5, b5, c5⟩ := h
  have f0 := hinj _ (hb n 0) _ (hb m 0) a0 b0 c0
  have f1 := hinj _ (hb n 1) _ (hb m 1) a1 b1 c1
  have f2 := hinj _ (hb n 2) _ (hb m 2) a2 b2 c2
  have f3 := hinj _ (hb n 3) _ (hb m 3) a3 b3 c3
  have f4 := hinj _ (hb n 4) _ (hb m 4) a4 b4 c4
  have f5 := hinj _ (hb n 5) _ (hb m 5) a5 b5 c5
  simp only [field] at f0 f1 f2 f3 f4 f5
  omega

theorem convert_some (a b c : Char) (r : List Char) : ∃ x, convertInstr (a :: b :: c :: r) = some x := by
  simp [convertInstr]

/-- Fours of digits can be converted if the last has three at least. -/
theorem convert_chunks : ∀ ds : List Char, ((chunks4 ds).mapM convertInstr).map List.length
    = if ds.length % 4 = 0 ∨ ds.length % 4 = 3 then some ((ds.length + 3) / 4) else none
  | [] => rfl
  | [a] => rfl
  | [a, b] => rfl
  | [a, b, c] => by
    obtain ⟨x, hx⟩ := convert_some a b c []
    rw [show chunks4 [a, b, c] = [[a, b, c]] from rfl, List.mapM_cons, hx, if_pos (.inr rfl),
      List.mapM_nil]
    simp
  | a :: b :: c :: d :: r => by
    have ih := convert_chunks r
    rw [chunks4, List.mapM_cons]
    obtain ⟨x, hx⟩ := convert_some a b c [d]
    rw [hx]
    cases hm : (chunks4 r).mapM convertInstr with
    | none =>
      rw [hm] at ih
      rw [show (List.length (a :: b :: c :: d :: r)) % 4 = r.length % 4 by simp only [List.length_cons]; omega]
      split at ih
      · cases ih
      · rename_i h
        rw [if_neg h]
        rfl
    | some l =>
      rw [hm] at ih
      rw [show (List.length (a :: b :: c :: d :: r)) % 4 = r.length % 4 by simp only [List.length_cons]; omega]
      split at ih
      · rename_i h
        rw [if_pos h]
        simp only [Option.map_some, Option.some.injEq] at ih
        show some (x :: l).length = _
        simp only [List.length_cons, ih, Option.some.injEq]
        omega
      · cases ih

/-- **C73, what is converted.**  The numbers of 23 and 24 bits, and no others. -/
theorem C73_domain (n : Nat) : (lrConvert n).isSome = true ↔ 2 ^ 22 ≤ n ∧ n < 2 ^ 24 := by
  have hc := convert_chunks (Nat.toDigits 2 n)
  have hle : ∀ k, 0 < k → ((Nat.toDigits 2 n).length ≤ k ↔ n < 2 ^ k) := fun k hk =>
    Nat.length_toDigits_le_iff (by decide) hk
  have h22 := hle 22 (by decide)
  have h24 := hle 24 (by decide)
  unfold lrConvert
  cases hm : (chunks4 (Nat.toDigits 2 n)).mapM convertInstr with
  | none =>
    rw [hm] at hc
    split at hc
    · cases hc
    · simp only [Option.bind_none, Option.isSome_none, Bool.false_eq_true, false_iff]
      rename_i h
      omega
  | some l =>
    rw [hm] at hc
    split at hc
    · rename_i h
      simp only [Option.map_some, Option.some.injEq] at hc
      rw [Option.bind_some]
      split
      · simp only [List.length_cons, List.length_nil] at hc
        simp only [Option.isSome_some, true_iff]
        omega
      · rename_i hne
        simp only [Option.isSome_none, Bool.false_eq_true, false_iff]
        intro hn
        have h6 : l.length = 6 := by omega
        match l, h6 with
        | [a0, a1, b0, b1, c0, c1], _ => exact hne _ _ _ _ _ _ rfl
    · cases hc

/-- One of the numbers of the list, `0o73037233`. -/
theorem C73_example :
    lrConvert 0o73037233 = some "1RB ...  0LC 1RB  1LA 1LC".toList ∧
    field 0o73037233 1 = 12 := by decide +kernel

/-- **C73, the list.**  The forty numbers of the list are different, have 24 bits, and stand for
machines with one stop, which is `1R`: they are converted to the machines they stand for. -/
theorem C73_list :
    LR_HOLDOUTS.length = 40 ∧ LR_HOLDOUTS.Nodup ∧
    ∀ n ∈ LR_HOLDOUTS, 2 ^ 23 ≤ n ∧ n < 2 ^ 24 ∧ field n 0 = 14 ∧
      ((List.range 6).filter fun k => field n k % 4 = 0).length = 1 ∧
      ∀ k < 6, field n k % 4 = 0 → field n k = 12 := by
  decide +kernel

/-- **C73, not below `2 ^ 23`.**  If the first bit is 0 the digits are taken one place too early: the
machine that marks with 0 in A0 is converted to one that marks with 1. -/
theorem C73_zero_violation :
    field 0o33037233 0 = 6 ∧ fieldEntry 6 = "0RB".toList ∧
    ∃ text, lrConvert 0o33037233 = some text ∧ text.take 3 ≠ "0RB".toList := by
  refine ⟨by decide, by decide, ?_⟩
  have h : (lrConvert 0o33037233).map (·.take 3) = some "1RA".toList := by decide +kernel
  cases ht : lrConvert 0o33037233 with
  | none => rw [ht] at h; cases h
  | some text =>
    rw [ht] at h
    simp only [Option.map_some, Option.some.injEq] at h
    exact ⟨text, rfl, by rw [h]; decide⟩

/-- **C73, a stop that is not `1R`.**  It is not replaced, and `tcompile` reads it as a move to a
31st state. -/
theorem C73_stop_violation :
    field 0o70037233 1 = 0 ∧
    ((lrConvert 0o70037233).bind fromStr).map (·.get? (0, 1)) = some (some (0, false, 30)) := by
  decide +kernel

end LinRado
end BB
