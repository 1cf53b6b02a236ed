import Verif.Spec.TapeText
import Verif.Model.TapeShow
import Verif.Lemmas.Parse

/-!
# The text of a tape, read back
-/

namespace BB
namespace TapeText

open TapeShow

theorem digits_isDigit {n : Nat} {c : Char} (h : c ∈ Nat.toDigits 10 n) : c.isDigit = true :=
  Nat.isDigit_of_mem_toDigits (by decide) (by decide) h

theorem number_digits (n : Nat) : number (Nat.toDigits 10 n) = some n := by
  unfold number
  rw [if_pos ⟨Nat.toDigits_ne_nil, fun c hc => digits_isDigit hc⟩, Nat.ofDigitChars_ten_toDigits]

theorem not_mem_digits {n : Nat} {c : Char} (h : c.isDigit = false) : c ∉ Nat.toDigits 10 n := by
  intro hc
  rw [digits_isDigit hc] at h
  cases h

theorem drop_until {p : Char → Bool} {a r : List Char} (h : ∀ c ∈ a, p c = true) :
    (a ++ r).dropWhile p = r.dropWhile p ∧ (a ++ r).takeWhile p = a ++ r.takeWhile p := by
  induction a with
  | nil => exact ⟨rfl, rfl⟩
  | cons c a ih =>
    have hc := h c (List.mem_cons_self ..)
    have := ih (fun x hx => h x (List.mem_cons_of_mem _ hx))
    simp [hc, this.1, this.2]

theorem block_show (b : Block) : block (rsBlock b) = some b := by
  have hp : ∀ c ∈ Nat.toDigits 10 b.color, (c != '^') = true := by
    intro c hc
    have : c ≠ '^' := by rintro rfl; exact not_mem_digits (by decide) hc
    simpa using this
  obtain ⟨co, k⟩ := b
  unfold rsBlock block
  by_cases h : k = 1
  · subst h
    have := (drop_until (r := []) hp).1
    simp only [List.append_nil, List.dropWhile_nil] at this
    simp only [if_true]
    rw [this]
    simp [number_digits]
  · simp only [if_neg h]
    have := drop_until (r := '^' :: Nat.toDigits 10 k) hp
    simp only at this
    rw [this.1, this.2]
    simp [number_digits]

theorem words_ne_nil (s : List Char) : words s ≠ [] := by
  cases s with
  | nil => simp [words]
  | cons c s =>
    rw [words]
    cases words s with
    | nil => simp
    | cons w ws => simp only; split <;> simp

theorem words_single (e : List Char) (he : ' ' ∉ e) : words e = [e] := by
  induction e with
  | nil => rfl
  | cons c e ih =>
    rw [List.mem_cons, not_or] at he
    rw [words, ih he.2]
    simp only
    rw [if_neg (Ne.symm he.1)]

theorem words_append (e rest : List Char) (he : ' ' ∉ e) :
    words (e ++ ' ' :: rest) = e :: words rest := by
  induction e with
  | nil =>
    rw [List.nil_append, words]
    cases h : words rest with
    | nil => exact absurd h (words_ne_nil rest)
    | cons w ws => simp
  | cons c e ih =>
    rw [List.mem_cons, not_or] at he
    rw [List.cons_append, words, ih he.2]
    simp only
    rw [if_neg (Ne.symm he.1)]

theorem words_join (es : List (List Char)) (hne : es ≠ []) (h : ∀ e ∈ es, ' ' ∉ e) :
    words (joinWith [' '] es) = es := by
  induction es with
  | nil => exact absurd rfl hne
  | cons e es ih =>
    cases es with
    | nil => exact words_single e (h e (List.mem_cons_self ..))
    | cons e' es =>
      have : joinWith [' '] (e :: e' :: es) = e ++ ' ' :: joinWith [' '] (e' :: es) := by
        simp [joinWith]
      rw [this, words_append _ _ (h e (List.mem_cons_self ..)),
        ih (by simp) (fun x hx => h x (List.mem_cons_of_mem _ hx))]

theorem block_chars {b : Block} {c : Char} (h : c ∈ rsBlock b) : c.isDigit = true ∨ c = '^' := by
  unfold rsBlock at h
  split at h
  · exact .inl (digits_isDigit h)
  · rw [List.mem_append, List.mem_cons] at h
    rcases h with h | h | h
    · exact .inl (digits_isDigit h)
    · exact .inr h
    · exact .inl (digits_isDigit h)

theorem block_noSpace (b : Block) : ' ' ∉ rsBlock b := by
  intro h
  rcases block_chars h with h | h <;> revert h <;> decide

theorem block_head (b : Block) : ((rsBlock b).head? != some '[') = true := by
  rw [bne_iff_ne]
  intro h
  rcases block_chars (List.mem_of_mem_head? (Option.mem_def.2 h)) with h | h <;> revert h <;> decide

theorem scanned_show (c : Color) : scanned (['['] ++ Nat.toDigits 10 c ++ [']']) = some c := by
  unfold scanned
  have h1 : (['['] ++ Nat.toDigits 10 c ++ [']']).head? = some '[' := by simp
  have h2 : (['['] ++ Nat.toDigits 10 c ++ [']']).getLast? = some ']' := List.getLast?_concat ..
  have h3 : (['['] ++ Nat.toDigits 10 c ++ [']']).tail.dropLast = Nat.toDigits 10 c := by simp
  rw [if_pos ⟨h1, h2⟩, h3, number_digits]

theorem mapM_block (l : List Block) : (l.map rsBlock).mapM block = some l := by
  have := mapM_option_map rsBlock block id l (fun b _ => block_show b)
  simpa using this

theorem tape_show (t : Tape) : tape (rsTape t) = some t := by
  obtain ⟨l, c, r⟩ := t
  unfold tape rsTape
  have hs : ' ' ∉ ['['] ++ Nat.toDigits 10 c ++ [']'] := by
    simp only [List.mem_append, List.mem_singleton, not_or]
    exact ⟨⟨by decide, not_mem_digits (by decide)⟩, by decide⟩
  have hw : words (joinWith [' '] ((l.map rsBlock).reverse ++ [['['] ++ Nat.toDigits 10 c ++ [']']]
      ++ r.map rsBlock)) = (l.map rsBlock).reverse ++ ([['['] ++ Nat.toDigits 10 c ++ [']']]
      ++ r.map rsBlock) := by
    rw [words_join]
    · simp
    · simp
    · intro e he
      rw [List.mem_append, List.mem_append, List.mem_reverse, List.mem_singleton] at he
      rcases he with (he | rfl) | he
      · obtain ⟨b, -, rfl⟩ := List.mem_map.1 he
        exact block_noSpace b
      · exact hs
      · obtain ⟨b, -, rfl⟩ := List.mem_map.1 he
        exact block_noSpace b
  simp only
  rw [hw]
  have hd : ∀ (a : List (List Char)) (x : List Char) (r : List (List Char)),
      (∀ w ∈ a, (w.head? != some '[') = true) → x.head? = some '[' →
      (a ++ ([x] ++ r)).dropWhile (fun w => w.head? != some '[') = x :: r ∧
      (a ++ ([x] ++ r)).takeWhile (fun w => w.head? != some '[') = a := by
    intro a x r ha hx
    induction a with
    | nil => simp [hx]
    | cons w a ih =>
      have h1 := ha w (List.mem_cons_self ..)
      have h2 := ih (fun y hy => ha y (List.mem_cons_of_mem _ hy))
      simp only [List.cons_append, List.dropWhile_cons, List.takeWhile_cons, h1, if_true]
      exact ⟨h2.1, congrArg (w :: ·) h2.2⟩
  have h1 := hd (l.map rsBlock).reverse (['['] ++ Nat.toDigits 10 c ++ [']']) (r.map rsBlock)
    (by
      intro w hw
      obtain ⟨b, -, rfl⟩ := List.mem_map.1 (List.mem_reverse.1 hw)
      exact block_head b) (by simp)
  rw [h1.1, h1.2]
  simp only [List.reverse_reverse, mapM_block, Option.bind_some, scanned_show, Option.map_some]

theorem int_show (h : Int) : int (showInt h) = some h := by
  cases h with
  | ofNat n =>
    have hd : ∀ c ∈ Nat.toDigits 10 n, c.isDigit = true := fun c hc => digits_isDigit hc
    have hnum := number_digits n
    have e : showInt (Int.ofNat n) = Nat.toDigits 10 n := rfl
    rw [e]
    unfold int
    split
    · rename_i r heq
      rw [heq] at hd
      exact absurd (hd '-' (List.mem_cons_self ..)) (by decide)
    · rw [hnum]; rfl
  | negSucc n =>
    unfold showInt int
    simp only [number_digits, Option.map_some]
    congr 1

theorem int_chars {h : Int} {c : Char} (hc : c ∈ showInt h) : c.isDigit = true ∨ c = '-' := by
  cases h with
  | ofNat n => exact .inl (digits_isDigit hc)
  | negSucc n =>
    simp only [showInt, List.mem_cons] at hc
    rcases hc with rfl | hc
    · exact .inr rfl
    · exact .inl (digits_isDigit hc)

theorem headTape_show (h : Int) (t : Tape) : headTape (rsHeadTape h t) = some (h, t) := by
  have hp : ∀ c ∈ showInt h, (c != ')') = true := by
    intro c hc
    rw [bne_iff_ne]
    rintro rfl
    rcases int_chars hc with h | h <;> revert h <;> decide
  have := drop_until (r := ')' :: ' ' :: rsTape t) hp
  have e : rsHeadTape h t = '(' :: (showInt h ++ ')' :: ' ' :: rsTape t) := by
    simp [rsHeadTape]
  rw [e]
  simp only [headTape]
  rw [this.1, this.2]
  simp [int_show, tape_show]

end TapeText
end BB
