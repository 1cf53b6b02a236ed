/-!
# Reading an arithmetic expression as Python does

Integers, `+`, `-`, `*`, `//`, `**` and parentheses, with the grammar of the Python reference (6.5-6.7):

    sum   := prod { ("+" | "-") prod }
    prod  := unary { ("*" | "//") unary }
    unary := "-" unary | power
    power := atom [ "**" unary ]
    atom  := number | "(" sum ")"
-/

namespace BB
namespace PyExpr

inductive Tok
  | num (n : Nat)
  | plus
  | minus
  | star
  | slash
  | pow
  | lp
  | rp
deriving DecidableEq, Repr

/-- The number read so far, if any. -/
def flush : Option Nat → List Tok
  | none => []
  | some n => [.num n]

/-- The tokens of a text; `acc` is the number that is being read. -/
def lex : Option Nat → List Char → Option (List Tok)
  | acc, [] => some (flush acc)
  | acc, ' ' :: cs => (lex none cs).map (flush acc ++ ·)
  | acc, '+' :: cs => (lex none cs).map (flush acc ++ .plus :: ·)
  | acc, '-' :: cs => (lex none cs).map (flush acc ++ .minus :: ·)
  | acc, '*' :: '*' :: cs => (lex none cs).map (flush acc ++ .pow :: ·)
  | acc, '*' :: cs => (lex none cs).map (flush acc ++ .star :: ·)
  | acc, '/' :: '/' :: cs => (lex none cs).map (flush acc ++ .slash :: ·)
  | acc, '(' :: cs => (lex none cs).map (flush acc ++ .lp :: ·)
  | acc, ')' :: cs => (lex none cs).map (flush acc ++ .rp :: ·)
  | acc, c :: cs => if c.isDigit then lex (some (acc.getD 0 * 10 + (c.toNat - '0'.toNat))) cs else none

/-- The expressions. -/
inductive E
  | num (n : Nat)
  | neg (a : E)
  | add (a b : E)
  | sub (a b : E)
  | mul (a b : E)
  | fdiv (a b : E)
  | pow (a b : E)
deriving DecidableEq, Repr

/-- What is being read; the loops have what has been read so far. -/
inductive Lvl
  | sum
  | sumRest (a : E)
  | prod
  | prodRest (a : E)
  | unary
  | power
  | atom

/-- The parser, with a bound on its calls. -/
def parse : Nat → Lvl → List Tok → Option (E × List Tok)
  | 0, _, _ => none
  | n + 1, .sum, ts => (parse n .prod ts).bind fun x => parse n (.sumRest x.1) x.2
  | n + 1, .sumRest a, ts =>
    match ts with
    | .plus :: ts => (parse n .prod ts).bind fun x => parse n (.sumRest (.add a x.1)) x.2
    | .minus :: ts => (parse n .prod ts).bind fun x => parse n (.sumRest (.sub a x.1)) x.2
    | ts => some (a, ts)
  | n + 1, .prod, ts => (parse n .unary ts).bind fun x => parse n (.prodRest x.1) x.2
  | n + 1, .prodRest a, ts =>
    match ts with
    | .star :: ts => (parse n .unary ts).bind fun x => parse n (.prodRest (.mul a x.1)) x.2
    | .slash :: ts => (parse n .unary ts).bind fun x => parse n (.prodRest (.fdiv a x.1)) x.2
    | ts => some (a, ts)
  | n + 1, .unary, ts =>
    match ts with
    | .minus :: ts => (parse n .unary ts).map fun x => (.neg x.1, x.2)
    | ts => parse n .power ts
  | n + 1, .power, ts =>
    (parse n .atom ts).bind fun x =>
      match x.2 with
      | .pow :: ts => (parse n .unary ts).map fun y => (.pow x.1 y.1, y.2)
      | ts => some (x.1, ts)
  | n + 1, .atom, ts =>
    match ts with
    | .num k :: ts => some (.num k, ts)
    | .lp :: ts =>
      (parse n .sum ts).bind fun x =>
        match x.2 with
        | .rp :: ts => some (x.1, ts)
        | _ => none
    | _ => none

/-- The value; `none` for a division by zero and for a negative exponent (a float in Python). -/
def E.eval : E → Option Int
  | .num n => some n
  | .neg a => a.eval.map fun x => -x
  | .add a b => a.eval.bind fun x => b.eval.map fun y => x + y
  | .sub a b => a.eval.bind fun x => b.eval.map fun y => x - y
  | .mul a b => a.eval.bind fun x => b.eval.map fun y => x * y
  | .fdiv a b => a.eval.bind fun x => b.eval.bind fun y => if y = 0 then none else some (x.fdiv y)
  | .pow a b => a.eval.bind fun x => b.eval.bind fun y => if y < 0 then none else some (x ^ y.toNat)

/-- The expression in a text. -/
def read (text : List Char) : Option E :=
  (lex none text).bind fun ts =>
    (parse (8 * ts.length + 8) .sum ts).bind fun x => if x.2 = [] then some x.1 else none

end PyExpr
end BB
