import Verif.Spec.Sim
import Verif.Spec.CLang

/-!
# Specification: C with loops, and the machines written in it

The part of C used by the programs of `/repo/machines/structured`, with the macros of the `machine.h`
there (L1–L58): reading a text, and running what was read.  Independent of every model file.

* Lines that begin with `#` are taken out; `#define TAPELEN n` gives the length of the array.
  Comments `//` are taken out.
* `LEFT`, `RIGHT` and `CHECK_STEPS` expand to whole statements, so the `;` after them is an empty
  statement; `PRINT`, `ERASE` and `WRITE(n)` expand to `do … while (0)` and need it.
* Labels, `case` and `CHECK_RECUR` are read in statement lists only, `case` at the top of its `switch`
  and labels at the top of `main`.
* An access to `TAPE` outside of the array is undefined behaviour.  `POS` is an integer: it could only
  wrap outside of the array.  `STEPS` and `MARKS` (`long`) do not overflow.
-/

namespace BB
namespace CS

/-- Conditions on the scanned cell. -/
inductive Cond
  | one
  | eq (n : Nat)
  | not (c : Cond)
  | or (a b : Cond)
deriving DecidableEq, Repr

/-- Statements. -/
inductive Stmt
  | skip
  | write (c : Nat)
  | shift (right : Bool)
  /-- `CHECK_RECUR(SH)` -/
  | recur (right : Bool)
  /-- `CHECK_STEPS` -/
  | check
  | seq (a b : Stmt)
  | ite (c : Cond) (a b : Stmt)
  | loop (c : Cond) (s : Stmt)
  | doLoop (s : Stmt) (c : Cond)
  /-- `switch (SCAN)` -/
  | switch (s : Stmt)
  | case (n : Nat)
  | label (l : List Char)
  | goto (l : List Char)
  | brk
  | cont
  /-- `return 0` -/
  | ret
deriving DecidableEq, Repr

/-! ### Reading -/

inductive Tok
  | sym (c : Char)
  | num (n : Nat)
  | id (w : List Char)
  | int | main | void | if | else | while | do | switch | case | break | continue | goto | return
  | print | erase | write | left | right | recur | steps | blank | scan
deriving DecidableEq, Repr

def isWord (c : Char) : Bool := c.isAlpha || c.isDigit || c == '_'

/-- The words and the other characters of a text, without white space. -/
def words : List Char → List (List Char)
  | [] => []
  | c :: cs =>
    if c = ' ' ∨ c = '\n' then words cs
    else if isWord c then
      match cs with
      | [] => [[c]]
      | d :: _ =>
        if isWord d then
          match words cs with
          | w :: ws => (c :: w) :: ws
          | [] => [[c]]
        else [c] :: words cs
    else [c] :: words cs

def keywords : List (List Char × Tok) :=
  [(['i', 'n', 't'], .int), (['m', 'a', 'i', 'n'], .main), (['v', 'o', 'i', 'd'], .void),
   (['i', 'f'], .if), (['e', 'l', 's', 'e'], .else), (['w', 'h', 'i', 'l', 'e'], .while),
   (['d', 'o'], .do), (['s', 'w', 'i', 't', 'c', 'h'], .switch), (['c', 'a', 's', 'e'], .case),
   (['b', 'r', 'e', 'a', 'k'], .break), (['c', 'o', 'n', 't', 'i', 'n', 'u', 'e'], .continue),
   (['g', 'o', 't', 'o'], .goto), (['r', 'e', 't', 'u', 'r', 'n'], .return),
   (['P', 'R', 'I', 'N', 'T'], .print), (['E', 'R', 'A', 'S', 'E'], .erase),
   (['W', 'R', 'I', 'T', 'E'], .write), (['L', 'E', 'F', 'T'], .left),
   (['R', 'I', 'G', 'H', 'T'], .right),
   (['C', 'H', 'E', 'C', 'K', '_', 'R', 'E', 'C', 'U', 'R'], .recur),
   (['C', 'H', 'E', 'C', 'K', '_', 'S', 'T', 'E', 'P', 'S'], .steps),
   (['B', 'L', 'A', 'N', 'K'], .blank), (['S', 'C', 'A', 'N'], .scan)]

/-- A number in decimal digits. -/
def number (w : List Char) : Option Nat :=
  if w ≠ [] ∧ w.all Char.isDigit then some (w.foldl (fun n c => 10 * n + (c.toNat - 48)) 0) else none

def tokOf (w : List Char) : Tok :=
  match keywords.lookup w with
  | some t => t
  | none =>
    match number w with
    | some n => .num n
    | none =>
      match w with
      | [c] => if isWord c then .id w else .sym c
      | w => .id w

/-- A line up to a comment. -/
def uncomment : List Char → List Char
  | '/' :: '/' :: _ => []
  | c :: cs => c :: uncomment cs
  | [] => []

/-- The tokens of a text. -/
def toks (text : List Char) : List Tok :=
  (((C.lines text).filter fun l => l.head? != some '#').flatMap fun l => words (uncomment l)).map tokOf

def atom : List Tok → Option (Cond × List Tok)
  | .num 1 :: ts => some (.one, ts)
  | .blank :: ts => some (.eq 0, ts)
  | .sym '!' :: .blank :: ts => some (.not (.eq 0), ts)
  | .scan :: .sym '=' :: .sym '=' :: .num n :: ts => some (.eq n, ts)
  | .scan :: .sym '!' :: .sym '=' :: .num n :: ts => some (.not (.eq n), ts)
  | _ => none

/-- A condition in parentheses, without the opening one. -/
def cond : Nat → List Tok → Option (Cond × List Tok)
  | 0, _ => none
  | n + 1, ts =>
    match atom ts with
    | some (c, .sym ')' :: ts) => some (c, ts)
    | some (c, .sym '|' :: .sym '|' :: ts) => (cond n ts).map fun r => (.or c r.1, r.2)
    | _ => none

mutual

/-- One statement. -/
def stmt : Nat → List Tok → Option (Stmt × List Tok)
  | 0, _ => none
  | _ + 1, .sym ';' :: ts => some (.skip, ts)
  | n + 1, .sym '{' :: ts => stmts n ts
  | n + 1, .if :: .sym '(' :: ts =>
    (cond n ts).bind fun c =>
      (stmt n c.2).bind fun a =>
        match a.2 with
        | .else :: ts => (stmt n ts).map fun b => (.ite c.1 a.1 b.1, b.2)
        | ts => some (.ite c.1 a.1 .skip, ts)
  | n + 1, .while :: .sym '(' :: ts =>
    (cond n ts).bind fun c => (stmt n c.2).map fun a => (.loop c.1 a.1, a.2)
  | n + 1, .do :: ts =>
    (stmt n ts).bind fun a =>
      match a.2 with
      | .while :: .sym '(' :: ts =>
        (cond n ts).bind fun c =>
          match c.2 with
          | .sym ';' :: ts => some (.doLoop a.1 c.1, ts)
          | _ => none
      | _ => none
  | n + 1, .switch :: .sym '(' :: .scan :: .sym ')' :: .sym '{' :: ts =>
    (stmts n ts).map fun a => (.switch a.1, a.2)
  | _ + 1, .break :: .sym ';' :: ts => some (.brk, ts)
  | _ + 1, .continue :: .sym ';' :: ts => some (.cont, ts)
  | _ + 1, .goto :: .id l :: .sym ';' :: ts => some (.goto l, ts)
  | _ + 1, .return :: .num 0 :: .sym ';' :: ts => some (.ret, ts)
  | _ + 1, .print :: .sym ';' :: ts => some (.write 1, ts)
  | _ + 1, .erase :: .sym ';' :: ts => some (.write 0, ts)
  | _ + 1, .write :: .sym '(' :: .num c :: .sym ')' :: .sym ';' :: ts => some (.write c, ts)
  | _ + 1, .left :: ts => some (.shift false, ts)
  | _ + 1, .right :: ts => some (.shift true, ts)
  | _ + 1, .steps :: ts => some (.check, ts)
  | _ + 1, _ => none

/-- The statements up to a closing brace. -/
def stmts : Nat → List Tok → Option (Stmt × List Tok)
  | 0, _ => none
  | _ + 1, .sym '}' :: ts => some (.skip, ts)
  | n + 1, .case :: .num c :: .sym ':' :: ts => (stmts n ts).map fun r => (.seq (.case c) r.1, r.2)
  | n + 1, .id l :: .sym ':' :: ts => (stmts n ts).map fun r => (.seq (.label l) r.1, r.2)
  | n + 1, .recur :: .sym '(' :: .id ['L'] :: .sym ')' :: ts =>
    (stmts n ts).map fun r => (.seq (.recur false) r.1, r.2)
  | n + 1, .recur :: .sym '(' :: .id ['R'] :: .sym ')' :: ts =>
    (stmts n ts).map fun r => (.seq (.recur true) r.1, r.2)
  | n + 1, ts => (stmt n ts).bind fun a => (stmts n a.2).map fun r => (.seq a.1 r.1, r.2)

end

/-- `#define TAPELEN ` -/
def defineTapelen : List Char :=
  ['#', 'd', 'e', 'f', 'i', 'n', 'e', ' ', 'T', 'A', 'P', 'E', 'L', 'E', 'N', ' ']

/-- `#include "machine.h"` -/
def includeMachine : List Char :=
  ['#', 'i', 'n', 'c', 'l', 'u', 'd', 'e', ' ', '"',
   'm', 'a', 'c', 'h', 'i', 'n', 'e', '.', 'h', '"']

/-- The length of the array. -/
def tapeLen (text : List Char) : Option Nat :=
  (C.lines text).findSome? fun l =>
    if defineTapelen.isPrefixOf l then number (l.drop 16) else none

/-- The length of the array and the body of `main`. -/
def parse (text : List Char) : Option (Nat × Stmt) :=
  if includeMachine ∈ C.lines text then
    (tapeLen text).bind fun len =>
      match toks text with
      | .int :: .main :: .sym '(' :: .void :: .sym ')' :: .sym '{' :: ts =>
        match stmts (ts.length + 1) ts with
        | some (s, []) => some (len, s)
        | _ => none
      | _ => none
  else none

/-! ### Running -/

/-- What is to be done when a statement is done. -/
inductive Frame
  | next (s : Stmt)
  | loop (c : Cond) (s : Stmt)
  | doLoop (s : Stmt) (c : Cond)
  | switch
deriving DecidableEq, Repr

abbrev Kont := List Frame

def Cond.eval (x : Nat) : Cond → Bool
  | .one => true
  | .eq n => x == n
  | .not c => !c.eval x
  | .or a b => a.eval x || b.eval x

/-- What a statement does to the variables. -/
inductive Act
  | pass
  /-- read `TAPE[POS]` -/
  | test
  | write (c : Nat)
  | shift (right : Bool)
  | recur (right : Bool)
  | check
  | exit
deriving DecidableEq, Repr

def Cond.act : Cond → Act
  | .one => .pass
  | _ => .test

/-- The statements from a `case` on. -/
def findCase (x : Nat) : Stmt → Option Stmt
  | .seq (.case n) b => if n = x then some b else findCase x b
  | .seq _ b => findCase x b
  | _ => none

/-- The statements from a label on. -/
def findLabel (l : List Char) : Stmt → Option Stmt
  | .seq (.label l') b => if l' = l then some b else findLabel l b
  | .seq _ b => findLabel l b
  | _ => none

/-- After the loop or switch. -/
def leave : Kont → Option Kont
  | [] => none
  | .next _ :: k => leave k
  | _ :: k => some k

/-- At the end of the body of the loop. -/
def again : Kont → Option Kont
  | [] => none
  | .loop c s :: k => some (.loop c s :: k)
  | .doLoop s c :: k => some (.doLoop s c :: k)
  | _ :: k => again k

/-- One statement of `main`, with `x` the scanned cell: what it does, and where to go on. -/
def control (main : Stmt) (x : Nat) : Stmt → Kont → Option (Act × Stmt × Kont)
  | .skip, [] => some (.exit, .skip, [])
  | .skip, .next s :: k => some (.pass, s, k)
  | .skip, .loop c s :: k => some (.pass, .loop c s, k)
  | .skip, .doLoop s c :: k => some (c.act, if c.eval x then .doLoop s c else .skip, k)
  | .skip, .switch :: k => some (.pass, .skip, k)
  | .write c, k => some (.write c, .skip, k)
  | .shift d, k => some (.shift d, .skip, k)
  | .recur d, k => some (.recur d, .skip, k)
  | .check, k => some (.check, .skip, k)
  | .seq a b, k => some (.pass, a, .next b :: k)
  | .ite c a b, k => some (c.act, if c.eval x then a else b, k)
  | .loop c s, k => some (if c.eval x then (c.act, s, .loop c s :: k) else (c.act, .skip, k))
  | .doLoop s c, k => some (.pass, s, .doLoop s c :: k)
  | .switch s, k => some (.test, (findCase x s).getD .skip, .switch :: k)
  | .case _, k => some (.pass, .skip, k)
  | .label _, k => some (.pass, .skip, k)
  | .goto l, _ => (findLabel l main).map fun s => (.pass, s, [])
  | .brk, k => (leave k).map fun k => (.pass, .skip, k)
  | .cont, k => (again k).map fun k => (.pass, .skip, k)
  | .ret, _ => some (.exit, .skip, [])

/-- The variables. -/
structure Mem where
  pos : Int
  pmin : Int
  pmax : Int
  tape : Int → Nat
  marks : Int
  steps : Nat

/-- `WRITE(c)` -/
def Mem.put (m : Mem) (c : Nat) : Mem :=
  { m with
    marks := m.marks + (if c ≠ 0 ∧ m.tape m.pos = 0 then 1 else 0)
      - (if c = 0 ∧ m.tape m.pos ≠ 0 then 1 else 0)
    tape := fun x => if x = m.pos then c else m.tape x }

/-- `LEFT` and `RIGHT`, without `HALT_IF_BLANK`. -/
def Mem.move (m : Mem) (right : Bool) : Mem :=
  let p := if right then m.pos + 1 else m.pos - 1
  { m with
    pos := p
    pmin := if p < m.pmin then m.pmin - 1 else m.pmin
    pmax := if p < m.pmin then m.pmax else if m.pmax ≤ p then m.pmax + 1 else m.pmax
    steps := m.steps + 1 }

/-- `SHIFT_INTO_EDGE(SH)` -/
def Mem.atEdge (m : Mem) (right : Bool) : Bool :=
  if right then m.pos + 1 == m.pmax else m.pos == m.pmin

structure St where
  code : Stmt
  kont : Kont
  mem : Mem

inductive Res
  | next (s : St)
  /-- the end of `main` -/
  | exit (steps : Nat)
  /-- the assertion of `CHECK_STEPS` fails -/
  | abort (steps : Nat)
  /-- undefined behaviour -/
  | ub
  /-- not a C program -/
  | stuck

/-- `goto H` -/
def toH (main : Stmt) (m : Mem) : Res :=
  match findLabel ['H'] main with
  | some s => .next ⟨s, [], m⟩
  | none => .stuck

/-- One statement, for an array of `len` cells and `XLIMIT = limit`. -/
def step (main : Stmt) (len limit : Nat) (s : St) : Res :=
  let m := s.mem
  match control main (m.tape m.pos) s.code s.kont with
  | none => .stuck
  | some (a, c, k) =>
    match a with
    | .pass => .next ⟨c, k, m⟩
    | .test => if 0 ≤ m.pos ∧ m.pos < len then .next ⟨c, k, m⟩ else .ub
    | .write x => if 0 ≤ m.pos ∧ m.pos < len then .next ⟨c, k, m.put x⟩ else .ub
    | .shift d => if m.marks = 0 then toH main (m.move d) else .next ⟨c, k, m.move d⟩
    | .recur d => if m.atEdge d then toH main m else .next ⟨c, k, m⟩
    | .check => if m.steps = limit then .next ⟨c, k, m⟩ else .abort m.steps
    | .exit => .exit m.steps

/-- `j` statements. -/
def run (main : Stmt) (len limit : Nat) : Nat → St → Res
  | 0, s => .next s
  | j + 1, s =>
    match step main len limit s with
    | .next s' => run main len limit j s'
    | r => r

/-- `main` begins. -/
def start (main : Stmt) (len : Nat) : St :=
  ⟨main, [], ⟨(len / 2 : Nat), (len / 2 : Nat), (len / 2 : Nat) + 1, fun _ => 0, 0, 0⟩⟩

/-! ### The machines -/

/-- The machine of a table; 7 is the halting state. -/
def ofTable (tab : List (List (Option Instr))) : Prog := fun s =>
  ((tab[s.1]?.bind fun row => row[s.2]?)).bind id

/-- The text of an entry of a table, halting written `h`. -/
def entryText (h : Char) : Option Instr → List Char
  | none => ['.', '.', '.']
  | some (c, d, q) => [Char.ofNat (48 + c), if d then 'R' else 'L', if q = 7 then h else Char.ofNat (65 + q)]

/-- The text of a table. -/
def tableText (h : Char) (tab : List (List (Option Instr))) : List Char :=
  progText (tab.map fun row => row.map (entryText h))

/-- What a program that follows the machine stops for: a blank tape, the halting state, and, if it
checks that, leaving the visited cells in a state that keeps itself on blank cells. -/
def Stops (checks : Bool) (p : Prog) (n : Nat) : Prop :=
  ErasesAt p n ∨ (∃ c, HaltsAt p initCfg n (7, c)) ∨ (checks = true ∧ LeavesAt p n)

/-- In the first `n` moves the head stays on the cells of an array of `len` cells. -/
def StaysIn (len : Nat) (p : Prog) (n : Nat) : Prop :=
  ∀ k d, k ≤ n → runFor p k initCfg = some d →
    0 ≤ ((len / 2 : Nat) : Int) + d.pos ∧ ((len / 2 : Nat) : Int) + d.pos < len

end CS
end BB
