import Verif.Spec.PyExpr
import Verif.Model.NumShow
import Verif.Lemmas.TapeShow

/-!
# Printed numbers are read back
-/

namespace BB
namespace NumShow

open Sym (Num)
open PyExpr

/-- A number that `show_number` does not shorten. -/
def Brief : Num → Prop
  | .int n => n.natAbs < 10 ^ 12
  | x => leaves x ≤ 120

theorem shorten_brief {lg : Nat → Nat} {x : Num} (h : Brief x) (t : List Char) : shorten lg x t = t := by
  cases x with
  | int n => exact if_neg (Nat.not_le.2 h)
  | add l r => exact if_neg (Nat.not_lt.2 h)
  | mul l r => exact if_neg (Nat.not_lt.2 h)
  | div n d => exact if_neg (Nat.not_lt.2 h)
  | exp b e => exact if_neg (Nat.not_lt.2 h)

/-- Nothing is shortened, bases are not negative, and nothing is divided by 0. -/
def Plain : Num → Prop
  | .int _ => True
  | .add l r => Brief l ∧ Plain l ∧ Plain r
  | .mul l r => Brief l ∧ Plain l ∧ Plain r
  | .div n d => d ≠ 0 ∧ Plain n
  | .exp b e => 0 ≤ b ∧ Brief e ∧ Plain e

/-! ## Tokens -/

def intToks : Int → List Tok
  | .ofNat n => [.num n]
  | .negSucc n => [.minus, .num (n + 1)]

def toks : Num → List Tok
  | .int n => intToks n
  | .add l r => [.lp] ++ toks l ++ [.plus] ++ toks r ++ [.rp]
  | .mul l r => if l = .int (-1) then [.minus] ++ toks r
    else [.lp] ++ toks l ++ [.star] ++ toks r ++ [.rp]
  | .div n d => [.lp] ++ toks n ++ [.slash] ++ intToks d ++ [.rp]
  | .exp b e => [.lp] ++ intToks b ++ [.pow] ++ toks e ++ [.rp]

theorem lex_digit (acc : Option Nat) (c : Char) (cs : List Char) (h : c.isDigit = true) :
    lex acc (c :: cs) = lex (some (acc.getD 0 * 10 + (c.toNat - '0'.toNat))) cs := by
  rw [lex.eq_def]
  split
  all_goals first
    | (rename_i he; cases he; exact absurd h (by decide))
    | (rename_i he; cases he; rw [if_pos h])
    | (rename_i he; cases he)

theorem lex_digits (ds : List Char) (h : ∀ c ∈ ds, c.isDigit = true) (hne : ds ≠ [])
    (acc : Option Nat) (rest : List Char) :
    lex acc (ds ++ rest) = lex (some (Nat.ofDigitChars 10 ds (acc.getD 0))) rest := by
  induction ds generalizing acc with
  | nil => exact absurd rfl hne
  | cons d ds ih =>
    rw [List.cons_append, lex_digit acc d _ (h d (List.mem_cons_self ..))]
    cases ds with
    | nil =>
      simp only [List.nil_append, Nat.ofDigitChars, List.foldl_cons, List.foldl_nil]
      rw [Nat.mul_comm]
    | cons e es =>
      rw [ih (fun c hc => h c (List.mem_cons_of_mem _ hc)) (by simp)]
      simp only [Nat.ofDigitChars, List.foldl_cons, Option.getD_some]
      rw [Nat.mul_comm (acc.getD 0)]

/-- What may follow a number. -/
def Stop (rest : List Char) : Prop := rest = [] ∨ ∃ cs, rest = ' ' :: cs ∨ rest = ')' :: cs

theorem lex_flush {rest : List Char} (h : Stop rest) (n : Nat) :
    lex (some n) rest = (lex none rest).map (.num n :: ·) := by
  rcases h with rfl | ⟨cs, rfl | rfl⟩
  · rfl
  · rw [lex, lex]
    cases lex none cs <;> rfl
  · rw [lex, lex]
    cases lex none cs <;> rfl

theorem lex_nat (n : Nat) {rest : List Char} (h : Stop rest) :
    lex none (Nat.toDigits 10 n ++ rest) = (lex none rest).map (.num n :: ·) := by
  rw [lex_digits _ (fun c hc => Nat.isDigit_of_mem_toDigits (by omega) (by omega) hc) Nat.toDigits_ne_nil]
  rw [show (none : Option Nat).getD 0 = 0 from rfl, Nat.ofDigitChars_ten_toDigits]
  exact lex_flush h n

theorem lex_int (n : Int) {rest : List Char} (h : Stop rest) :
    lex none (TapeShow.showInt n ++ rest) = (lex none rest).map (intToks n ++ ·) := by
  cases n with
  | ofNat n => exact lex_nat n h
  | negSucc n =>
    show lex none ('-' :: (Nat.toDigits 10 (n + 1) ++ rest)) = _
    rw [lex, lex_nat _ h]
    cases lex none rest <;> rfl

theorem stop_space (cs : List Char) : Stop (' ' :: cs) := .inr ⟨cs, .inl rfl⟩
theorem stop_rp (cs : List Char) : Stop (')' :: cs) := .inr ⟨cs, .inr rfl⟩

theorem lex_star (cs : List Char) :
    lex none ('*' :: ' ' :: cs) = (lex none (' ' :: cs)).map (flush none ++ .star :: ·) := rfl

theorem lex_repr (lg : Nat → Nat) (x : Num) (hx : Plain x) {rest : List Char} (h : Stop rest) :
    lex none (repr lg x ++ rest) = (lex none rest).map (toks x ++ ·) := by
  induction x generalizing rest with
  | int n => exact lex_int n h
  | add l r ihl ihr =>
    simp only [repr, shorten_brief hx.1, List.append_assoc]
    show lex none ('(' :: (repr lg l ++ (' ' :: '+' :: ' ' :: (repr lg r ++ (')' :: rest))))) = _
    rw [lex, ihl hx.2.1 (stop_space _), lex, lex, lex, ihr hx.2.2 (stop_rp _), lex]
    cases lex none rest <;> simp [toks, flush]
  | mul l r ihl ihr =>
    by_cases hl : l = .int (-1)
    · simp only [repr, if_pos hl]
      show lex none ('-' :: (repr lg r ++ rest)) = _
      rw [lex, ihr hx.2.2 h]
      cases lex none rest <;> simp [toks, flush, hl]
    · simp only [repr, if_neg hl, shorten_brief hx.1, List.append_assoc]
      show lex none ('(' :: (repr lg l ++ (' ' :: '*' :: ' ' :: (repr lg r ++ (')' :: rest))))) = _
      rw [lex, ihl hx.2.1 (stop_space _), lex, lex_star, lex, ihr hx.2.2 (stop_rp _), lex]
      cases lex none rest <;> simp [toks, flush, hl]
  | div n d ih =>
    simp only [repr, List.append_assoc]
    show lex none ('(' :: (repr lg n ++ (' ' :: '/' :: '/' :: ' ' ::
      (TapeShow.showInt d ++ (')' :: rest))))) = _
    rw [lex, ih hx.2 (stop_space _), lex, lex, lex, lex_int d (stop_rp _), lex]
    cases lex none rest <;> simp [toks, flush]
  | exp b e ih =>
    simp only [repr, shorten_brief hx.2.1, List.append_assoc]
    show lex none ('(' :: (TapeShow.showInt b ++ (' ' :: '*' :: '*' :: ' ' ::
      (repr lg e ++ (')' :: rest))))) = _
    rw [lex, lex_int b (stop_space _), lex, lex, lex, ih hx.2.2 (stop_rp _), lex]
    cases lex none rest <;> simp [toks, flush]

/-! ## Parsing -/

def intE : Int → E
  | .ofNat n => .num n
  | .negSucc n => .neg (.num (n + 1))

def ast : Num → E
  | .int n => intE n
  | .add l r => .add (ast l) (ast r)
  | .mul l r => if l = .int (-1) then .neg (ast r) else .mul (ast l) (ast r)
  | .div n d => .fdiv (ast n) (intE d)
  | .exp b e => .pow (intE b) (ast e)

/-- What follows does not begin with `**`. -/
def NoPow (ts : List Tok) : Prop := ts.head? ≠ some .pow

theorem p_sum (n : Nat) (ts : List Tok) :
    parse (n + 1) .sum ts = (parse n .prod ts).bind fun x => parse n (.sumRest x.1) x.2 := rfl

theorem p_prod (n : Nat) (ts : List Tok) :
    parse (n + 1) .prod ts = (parse n .unary ts).bind fun x => parse n (.prodRest x.1) x.2 := rfl

theorem p_plus (n : Nat) (a : E) (ts : List Tok) : parse (n + 1) (.sumRest a) (.plus :: ts)
    = (parse n .prod ts).bind fun x => parse n (.sumRest (.add a x.1)) x.2 := rfl

theorem p_star (n : Nat) (a : E) (ts : List Tok) : parse (n + 1) (.prodRest a) (.star :: ts)
    = (parse n .unary ts).bind fun x => parse n (.prodRest (.mul a x.1)) x.2 := rfl

theorem p_slash (n : Nat) (a : E) (ts : List Tok) : parse (n + 1) (.prodRest a) (.slash :: ts)
    = (parse n .unary ts).bind fun x => parse n (.prodRest (.fdiv a x.1)) x.2 := rfl

theorem p_sum_rp (n : Nat) (a : E) (ts : List Tok) :
    parse (n + 1) (.sumRest a) (.rp :: ts) = some (a, .rp :: ts) := rfl

theorem p_sum_nil (n : Nat) (a : E) : parse (n + 1) (.sumRest a) [] = some (a, []) := rfl

theorem p_prod_rp (n : Nat) (a : E) (ts : List Tok) :
    parse (n + 1) (.prodRest a) (.rp :: ts) = some (a, .rp :: ts) := rfl

theorem p_prod_plus (n : Nat) (a : E) (ts : List Tok) :
    parse (n + 1) (.prodRest a) (.plus :: ts) = some (a, .plus :: ts) := rfl

theorem p_prod_nil (n : Nat) (a : E) : parse (n + 1) (.prodRest a) [] = some (a, []) := rfl

theorem p_minus (n : Nat) (ts : List Tok) : parse (n + 1) .unary (.minus :: ts)
    = (parse n .unary ts).map fun x => (.neg x.1, x.2) := rfl

theorem p_unary_num (n k : Nat) (ts : List Tok) :
    parse (n + 1) .unary (.num k :: ts) = parse n .power (.num k :: ts) := rfl

theorem p_unary_lp (n : Nat) (ts : List Tok) :
    parse (n + 1) .unary (.lp :: ts) = parse n .power (.lp :: ts) := rfl

theorem p_atom_num (n k : Nat) (ts : List Tok) :
    parse (n + 1) .atom (.num k :: ts) = some (.num k, ts) := rfl

theorem p_atom_lp (n : Nat) (ts : List Tok) : parse (n + 1) .atom (.lp :: ts)
    = (parse n .sum ts).bind fun x =>
        match x.2 with
        | .rp :: ts => some (x.1, ts)
        | _ => none := rfl

theorem p_power (n : Nat) (ts : List Tok) : parse (n + 1) .power ts
    = (parse n .atom ts).bind fun x =>
      match x.2 with
      | .pow :: ts => (parse n .unary ts).map fun y => (.pow x.1 y.1, y.2)
      | ts => some (x.1, ts) := rfl

theorem power_of_atom {n : Nat} {ts r : List Tok} {a : E} (h : parse n .atom ts = some (a, r))
    (hr : NoPow r) : parse (n + 1) .power ts = some (a, r) := by
  rw [p_power, h, Option.bind_some]
  simp only
  split
  · exact absurd rfl hr
  · rfl

theorem unary_num {n k : Nat} {r : List Tok} (hn : 3 ≤ n) (hr : NoPow r) :
    parse n .unary (.num k :: r) = some (.num k, r) := by
  obtain ⟨m, rfl⟩ : ∃ m, n = m + 3 := ⟨n - 3, by omega⟩
  rw [p_unary_num]
  exact power_of_atom (p_atom_num ..) hr

theorem unary_int {n : Nat} (k : Int) {r : List Tok} (hn : 4 ≤ n) (hr : NoPow r) :
    parse n .unary (intToks k ++ r) = some (intE k, r) := by
  obtain ⟨m, rfl⟩ : ∃ m, n = m + 4 := ⟨n - 4, by omega⟩
  cases k with
  | ofNat k => exact unary_num (by omega) hr
  | negSucc k =>
    show parse (m + 4) .unary (.minus :: .num (k + 1) :: r) = _
    rw [p_minus, unary_num (by omega) hr]
    rfl

theorem unary_paren {n : Nat} {ts r : List Tok} {a : E}
    (h : parse n .sum (ts ++ .rp :: r) = some (a, .rp :: r)) (hr : NoPow r) :
    parse (n + 3) .unary (.lp :: (ts ++ .rp :: r)) = some (a, r) := by
  rw [p_unary_lp]
  refine power_of_atom ?_ hr
  rw [p_atom_lp, h, Option.bind_some]

/-- A sum, product or quotient of two operands, up to the parenthesis. -/
theorem sum_two {n : Nat} {tl tr r : List Tok} {a b : E}
    (hl : ∀ m, n ≤ m → ∀ r, NoPow r → parse m .unary (tl ++ r) = some (a, r))
    (hr : ∀ m, n ≤ m → ∀ r, NoPow r → parse m .unary (tr ++ r) = some (b, r)) :
    parse (n + 5) .sum (tl ++ [.plus] ++ tr ++ .rp :: r) = some (.add a b, .rp :: r) ∧
    parse (n + 5) .sum (tl ++ [.star] ++ tr ++ .rp :: r) = some (.mul a b, .rp :: r) ∧
    parse (n + 5) .sum (tl ++ [.slash] ++ tr ++ .rp :: r) = some (.fdiv a b, .rp :: r) := by
  have hp : NoPow (.rp :: r) := by simp [NoPow]
  simp only [List.append_assoc, List.cons_append, List.nil_append]
  refine ⟨?_, ?_, ?_⟩
  · rw [p_sum, p_prod, hl (n + 3) (by omega) _ (by simp [NoPow]), Option.bind_some, p_prod_plus,
      Option.bind_some, p_plus, p_prod, hr (n + 2) (by omega) _ hp, Option.bind_some, p_prod_rp,
      Option.bind_some, p_sum_rp]
  · rw [p_sum, p_prod, hl (n + 3) (by omega) _ (by simp [NoPow]), Option.bind_some, p_star,
      hr (n + 2) (by omega) _ hp, Option.bind_some, p_prod_rp, Option.bind_some, p_sum_rp]
  · rw [p_sum, p_prod, hl (n + 3) (by omega) _ (by simp [NoPow]), Option.bind_some, p_slash,
      hr (n + 2) (by omega) _ hp, Option.bind_some, p_prod_rp, Option.bind_some, p_sum_rp]

theorem sum_pow {n k : Nat} {te r : List Tok} {b : E}
    (he : ∀ m, n ≤ m → ∀ r, NoPow r → parse m .unary (te ++ r) = some (b, r)) :
    parse (n + 6) .sum ([.num k] ++ [.pow] ++ te ++ .rp :: r) = some (.pow (.num k) b, .rp :: r) := by
  have hp : NoPow (.rp :: r) := by simp [NoPow]
  simp only [List.cons_append, List.nil_append]
  have h1 : parse (n + 3) .power (.num k :: .pow :: (te ++ .rp :: r))
      = some (.pow (.num k) b, .rp :: r) := by
    rw [p_power, p_atom_num, Option.bind_some]
    simp only
    rw [he (n + 2) (by omega) _ hp]
    rfl
  rw [p_sum, p_prod, p_unary_num, h1, Option.bind_some, p_prod_rp, Option.bind_some, p_sum_rp]

theorem intToks_length (k : Int) : 1 ≤ (intToks k).length := by
  cases k <;> simp [intToks]

theorem parse_toks (x : Num) (hx : Plain x) : ∀ n, 8 * (toks x).length ≤ n → ∀ r, NoPow r →
    parse n .unary (toks x ++ r) = some (ast x, r) := by
  induction x with
  | int k =>
    intro n hn r hr
    have := intToks_length k
    simp only [toks] at hn
    exact unary_int k (by omega) hr
  | add l r ihl ihr =>
    intro n hn rest hrest
    simp only [toks, List.length_append, List.length_cons, List.length_nil] at hn
    obtain ⟨m, rfl⟩ : ∃ m, n = m + 8 := ⟨n - 8, by omega⟩
    have := unary_paren (sum_two (n := m) (tl := toks l) (tr := toks r) (r := rest)
      (fun k hk => ihl hx.2.1 k (by omega)) (fun k hk => ihr hx.2.2 k (by omega))).1 hrest
    simpa [toks, ast] using this
  | mul l r ihl ihr =>
    intro n hn rest hrest
    by_cases hl : l = .int (-1)
    · simp only [toks, if_pos hl, List.length_append, List.length_cons, List.length_nil] at hn
      obtain ⟨m, rfl⟩ : ∃ m, n = m + 1 := ⟨n - 1, by omega⟩
      simp only [toks, ast, if_pos hl, List.cons_append, List.nil_append]
      rw [p_minus, ihr hx.2.2 m (by omega) rest hrest]
      rfl
    · simp only [toks, if_neg hl, List.length_append, List.length_cons, List.length_nil] at hn
      obtain ⟨m, rfl⟩ : ∃ m, n = m + 8 := ⟨n - 8, by omega⟩
      have := unary_paren (sum_two (n := m) (tl := toks l) (tr := toks r) (r := rest)
        (fun k hk => ihl hx.2.1 k (by omega)) (fun k hk => ihr hx.2.2 k (by omega))).2.1 hrest
      simpa [toks, ast, hl] using this
  | div k d ih =>
    intro n hn rest hrest
    simp only [toks, List.length_append, List.length_cons, List.length_nil] at hn
    obtain ⟨m, rfl⟩ : ∃ m, n = m + 8 := ⟨n - 8, by omega⟩
    have := unary_paren (sum_two (n := m) (tl := toks k) (tr := intToks d) (r := rest)
      (fun k hk => ih hx.2 k (by omega)) (fun k hk r hr => unary_int d (by omega) hr)).2.2 hrest
    simpa [toks, ast] using this
  | exp b e ih =>
    intro n hn rest hrest
    obtain ⟨k, rfl⟩ := Int.eq_ofNat_of_zero_le hx.1
    have hb : intToks (k : Int) = [.num k] := rfl
    have hb' : intE (k : Int) = .num k := rfl
    simp only [toks, hb, List.length_append, List.length_cons, List.length_nil] at hn
    obtain ⟨m, rfl⟩ : ∃ m, n = m + 9 := ⟨n - 9, by omega⟩
    have := unary_paren (sum_pow (n := m) (k := k) (te := toks e) (r := rest)
      (fun k hk => ih hx.2.2 k (by omega))) hrest
    simpa [toks, ast, hb, hb'] using this

/-- The text is read as the expression. -/
theorem read_repr (lg : Nat → Nat) (x : Num) (hx : Plain x) : PyExpr.read (repr lg x) = some (ast x) := by
  have h1 := lex_repr lg x hx (rest := []) (.inl rfl)
  rw [List.append_nil, lex] at h1
  simp only [flush, Option.map_some, List.append_nil] at h1
  have h2 := parse_toks x hx (8 * (toks x).length + 6) (by omega) [] (by simp [NoPow])
  rw [List.append_nil] at h2
  unfold PyExpr.read
  rw [h1, Option.bind_some, p_sum, p_prod, h2, Option.bind_some, p_prod_nil, Option.bind_some,
    p_sum_nil, Option.bind_some, if_pos rfl]

theorem eval_int (k : Int) : (intE k).eval = some k := by
  cases k with
  | ofNat k => rfl
  | negSucc k => simp [intE, E.eval, Int.negSucc_eq]

theorem eval_ast (x : Num) (hx : Plain x) : (ast x).eval = x.toInt := by
  induction x with
  | int k => exact eval_int k
  | add l r ihl ihr =>
    simp only [ast, E.eval, ihl hx.2.1, ihr hx.2.2, Num.toInt]
    cases l.toInt <;> cases r.toInt <;> rfl
  | mul l r ihl ihr =>
    by_cases hl : l = .int (-1)
    · simp only [ast, if_pos hl, E.eval, ihr hx.2.2, Num.toInt]
      rw [hl]
      cases r.toInt <;> simp [Num.toInt]
    · simp only [ast, if_neg hl, E.eval, ihl hx.2.1, ihr hx.2.2, Num.toInt]
      cases l.toInt <;> cases r.toInt <;> rfl
  | div k d ih =>
    simp only [ast, E.eval, ih hx.2, eval_int, Num.toInt]
    cases k.toInt with
    | none => rfl
    | some z => simp [hx.1]
  | exp b e ih =>
    simp only [ast, E.eval, ih hx.2.2, eval_int, Num.toInt]
    cases e.toInt <;> rfl

end NumShow
end BB
