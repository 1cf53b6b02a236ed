import Verif.Model.Expand
import Verif.Lemmas.Parse

/-!
# The compact notation
-/

namespace BB
namespace Expand

theorem splitBar_append (e rest : List Char) (he : '_' ∉ e) :
    splitBar (e ++ '_' :: rest) = e :: splitBar rest := by
  induction e with
  | nil => simp [splitBar]
  | cons c e ih =>
    rw [List.mem_cons, not_or] at he
    have hc : (c == '_') = false := by simpa using Ne.symm he.1
    rw [List.cons_append, splitBar, hc, ih he.2]
    rfl

theorem splitBar_single (e : List Char) (he : '_' ∉ e) : splitBar e = [e] := by
  induction e with
  | nil => rfl
  | cons c e ih =>
    rw [List.mem_cons, not_or] at he
    have hc : (c == '_') = false := by simpa using Ne.symm he.1
    rw [splitBar, hc, ih he.2]
    rfl

theorem splitBar_join (es : List (List Char)) (hne : es ≠ []) (h : ∀ e ∈ es, '_' ∉ e) :
    splitBar (joinWith ['_'] es) = es := by
  induction es with
  | nil => exact absurd rfl hne
  | cons e es ih =>
    cases es with
    | nil => exact splitBar_single e (h e (List.mem_cons_self ..))
    | cons e' es =>
      have : joinWith ['_'] (e :: e' :: es) = e ++ '_' :: joinWith ['_'] (e' :: es) := by
        simp [joinWith]
      rw [this, splitBar_append _ _ (h e (List.mem_cons_self ..)),
        ih (by simp) (fun x hx => h x (List.mem_cons_of_mem _ hx))]

theorem chunks_flatten (es : List (List Char)) (h : ∀ e ∈ es, e.length = 3) :
    chunks es.flatten = es := by
  induction es with
  | nil => rfl
  | cons e es ih =>
    have he := h e (List.mem_cons_self ..)
    match e, he with
    | [a, b, c], _ =>
      simp only [List.flatten_cons, List.cons_append, List.nil_append, chunks]
      rw [ih (fun x hx => h x (List.mem_cons_of_mem _ hx))]

theorem dropWhile_none {s : List Char} (h : ∀ c ∈ s, pySpace c = false) :
    s.dropWhile pySpace = s := by
  cases s with
  | nil => rfl
  | cons c s => rw [List.dropWhile_cons, if_neg]; simp [h c (List.mem_cons_self ..)]

theorem dropWhile_all {s r : List Char} (h : ∀ c ∈ s, pySpace c = true) :
    (s ++ r).dropWhile pySpace = r.dropWhile pySpace := by
  induction s with
  | nil => rfl
  | cons c s ih =>
    rw [List.cons_append, List.dropWhile_cons, if_pos (h c (List.mem_cons_self ..))]
    exact ih (fun x hx => h x (List.mem_cons_of_mem _ hx))

theorem strip_clean {s w : List Char} (h : ∀ c ∈ s, pySpace c = false)
    (hw : ∀ c ∈ w, pySpace c = true) : strip (s ++ w) = s := by
  unfold strip
  cases s with
  | nil =>
    have : (([] : List Char) ++ w).dropWhile pySpace = [] := by
      have := dropWhile_all (r := []) hw
      simpa using this
    rw [this]; rfl
  | cons c s =>
    have h1 : ((c :: s) ++ w).dropWhile pySpace = (c :: s) ++ w := by
      rw [List.cons_append, List.dropWhile_cons, if_neg]
      simp [h c (List.mem_cons_self ..)]
    rw [h1, List.reverse_append, dropWhile_all (fun x hx => hw x (List.mem_reverse.1 hx)),
      dropWhile_none (fun x hx => h x (List.mem_reverse.1 hx)),
      List.reverse_reverse]

theorem mem_join {sep : List Char} {l : List (List Char)} {c : Char} (h : c ∈ joinWith sep l) :
    c ∈ sep ∨ ∃ r ∈ l, c ∈ r := by
  induction l with
  | nil => cases h
  | cons r l ih =>
    cases l with
    | nil => exact .inr ⟨r, List.mem_cons_self .., h⟩
    | cons r' l =>
      simp only [joinWith, List.mem_append] at h
      rcases h with (h | h) | h
      · exact .inr ⟨r, List.mem_cons_self .., h⟩
      · exact .inl h
      · rcases ih h with h | ⟨x, hx, h⟩
        · exact .inl h
        · exact .inr ⟨x, List.mem_cons_of_mem _ hx, h⟩

/-- An entry of the compact notation. -/
structure CompactEntry (e : List Char) : Prop where
  len : e.length = 3
  clean : ∀ c ∈ e, pySpace c = false ∧ c ≠ '_'

theorem expand_rows (rows : List (List (List Char))) (w : List Char) (hne : rows ≠ [])
    (h : ∀ row ∈ rows, ∀ e ∈ row, CompactEntry e) (hw : ∀ c ∈ w, pySpace c = true ∧ c ≠ ' ') :
    expand (joinWith ['_'] (rows.map List.flatten) ++ w)
      = some (joinWith [' ', ' '] (rows.map fun row => joinWith [' '] (row.map entry))) := by
  have hmem : ∀ c ∈ joinWith ['_'] (rows.map List.flatten), pySpace c = false := by
    intro c hc
    rcases mem_join hc with hc | ⟨r, hr, hc⟩
    · simp only [List.mem_singleton] at hc
      rw [hc]; decide
    · obtain ⟨row, hrow, rfl⟩ := List.mem_map.1 hr
      obtain ⟨e, he, hce⟩ := List.mem_flatten.1 hc
      exact ((h row hrow e he).clean c hce).1
  have hsp : (joinWith ['_'] (rows.map List.flatten) ++ w).contains ' ' = false := by
    rw [Bool.eq_false_iff]
    intro hc
    rw [List.contains_iff_mem, List.mem_append] at hc
    rcases hc with hc | hc
    · have := hmem _ hc
      revert this; decide
    · exact (hw _ hc).2 rfl
  unfold expand
  rw [hsp, if_neg (by simp), strip_clean hmem (fun c hc => (hw c hc).1), splitBar_join]
  · rw [List.map_map]
    congr 2
    refine List.map_congr_left fun row hrow => ?_
    simp only [Function.comp]
    rw [chunks_flatten row (fun e he => (h row hrow e he).len)]
  · simpa using hne
  · intro r hr
    obtain ⟨row, hrow, rfl⟩ := List.mem_map.1 hr
    intro hc
    obtain ⟨e, he, hce⟩ := List.mem_flatten.1 hc
    exact ((h row hrow e he).clean _ hce).2 rfl

end Expand
end BB
