/-!
# Specification: reading the DOT language

The part of the DOT language (graphviz.org/doc/info/lang.html) that a graph with attributes and
edges needs, independent of the generator: identifiers of letters, digits and underscores,
double-quoted strings without backslashes, `digraph ID { ... }`, attributes `ID = "..."`, edges
`ID -> ID [ ID = "..." ]`, and semicolons, which may be left out.
-/

namespace BB
namespace Dot

inductive Tok
  | id (s : List Char)
  | str (s : List Char)
  | arrow
  | lbrace | rbrace | lbrack | rbrack | eq | semi
deriving DecidableEq, Repr

/-- Where the lexer is: between tokens, in an identifier or a string (read so far, last character
first), or after `-`. -/
inductive Mode
  | idle
  | inId (acc : List Char)
  | inStr (acc : List Char)
  | dash
deriving DecidableEq, Repr

def isIdChar (c : Char) : Bool := c.isAlpha || c.isDigit || c == '_'

/-- A character between tokens. -/
def start (c : Char) : Option (List Tok × Mode) :=
  if isIdChar c then some ([], .inId [c])
  else if c = ' ' ∨ c = '\n' ∨ c = '\t' ∨ c = '\r' then some ([], .idle)
  else if c = '"' then some ([], .inStr [])
  else if c = '-' then some ([], .dash)
  else if c = '{' then some ([.lbrace], .idle)
  else if c = '}' then some ([.rbrace], .idle)
  else if c = '[' then some ([.lbrack], .idle)
  else if c = ']' then some ([.rbrack], .idle)
  else if c = '=' then some ([.eq], .idle)
  else if c = ';' then some ([.semi], .idle)
  else none

/-- One character. -/
def next : Mode → Char → Option (List Tok × Mode)
  | .idle, c => start c
  | .inId a, c =>
    if isIdChar c then some ([], .inId (c :: a))
    else (start c).map fun r => (.id a.reverse :: r.1, r.2)
  | .inStr a, c =>
    if c = '"' then some ([.str a.reverse], .idle)
    else if c = '\\' then none
    else some ([], .inStr (c :: a))
  | .dash, c => if c = '>' then some ([.arrow], .idle) else none

/-- The tokens of a text. -/
def lex : Mode → List Char → Option (List Tok)
  | .idle, [] => some []
  | .inId a, [] => some [.id a.reverse]
  | .inStr _, [] => none
  | .dash, [] => none
  | m, c :: cs => (next m c).bind fun r => (lex r.2 cs).map (r.1 ++ ·)

inductive Stmt
  | attr (name value : List Char)
  | edge (src dst attrName attrValue : List Char)
deriving DecidableEq, Repr

/-- The statements up to the closing brace. -/
def stmts : List Tok → Option (List Stmt)
  | [.rbrace] => some []
  | .semi :: r => stmts r
  | .id a :: .arrow :: .id b :: .lbrack :: .id k :: .eq :: .str v :: .rbrack :: r =>
    (stmts r).map (.edge a b k v :: ·)
  | .id a :: .eq :: .str v :: r => (stmts r).map (.attr a v :: ·)
  | _ => none

/-- The statements of a directed graph. -/
def read (s : List Char) : Option (List Stmt) :=
  match lex .idle s with
  | some (.id d :: .id _ :: .lbrace :: r) =>
    if d = ['d', 'i', 'g', 'r', 'a', 'p', 'h'] then stmts r else none
  | _ => none

end Dot
end BB
