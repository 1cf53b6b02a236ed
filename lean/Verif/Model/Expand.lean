import Verif.Model.Parse

/-!
# Model of reading the compact notation

`/repo/tools/normalize.py` L16-27 `expand`, and what `/repo/normalize.py` does with a line that has no
space.
-/

namespace BB
namespace Expand

/-- `str.isspace` for one character: the characters of `char::is_whitespace` and four separators. -/
def pySpace (c : Char) : Bool := isWs c || (0x1c ≤ c.toNat && c.toNat ≤ 0x1f)

/-- `str.strip`. -/
def strip (s : List Char) : List Char :=
  ((s.dropWhile pySpace).reverse.dropWhile pySpace).reverse

/-- `str.split('_')`. -/
def splitBar : List Char → List (List Char)
  | [] => [[]]
  | c :: cs => if c == '_' then [] :: splitBar cs else consHead c (splitBar cs)

/-- `state[i:i+3] for i in range(0, len(state), 3)`. -/
def chunks : List Char → List (List Char)
  | a :: b :: c :: r => [a, b, c] :: chunks r
  | [] => []
  | r => [r]

/-- L21-23. -/
def entry (instr : List Char) : List Char :=
  if instr.contains 'Z' || instr.contains '-' then ['.', '.', '.'] else instr

/-- L16-27 `expand`; `none` is the failed assertion. -/
def expand (prog : List Char) : Option (List Char) :=
  if prog.contains ' ' then none
  else some (joinWith [' ', ' '] ((splitBar (strip prog)).map fun state =>
    joinWith [' '] ((chunks state).map entry)))

end Expand
end BB
