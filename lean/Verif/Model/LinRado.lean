import Verif.Model.Parse

/-!
# Model of the enumeration of Lin and Rado's programs

`/repo/test/test_lin_rado.py`: `yield_actions`, `yield_programs` (L207-257), the patterns (L189-195),
the replacement in `run_lin_rado` (L48), and `lr_convert` (L154-185).  The generators are lists.  `none` is an
exception.
-/

namespace BB
namespace LinRado

/-- `itertools.product(xs, repeat = n)`. -/
def seqs {α : Type} (xs : List α) : Nat → List (List α)
  | 0 => [[]]
  | n + 1 => xs.flatMap fun x => (seqs xs n).map (x :: ·)

/-- `yield_actions`.  The condition of the filter is one `lambda` with a conditional expression as its
body; without `halt` its value is a function, which is true. -/
def actions (states colors : Nat) (halt : Bool) : List (List Char) :=
  ((List.range colors).flatMap fun c =>
    ['L', 'R'].flatMap fun sh =>
      (((List.range states).map fun s => Char.ofNat (65 + s)) ++ (if halt then ['_'] else [])).map
        fun st => Nat.toDigits 10 c ++ [sh, st]).filter fun a =>
    if halt then a[2]? != some '_' || a == ['1', 'R', '_'] else true

/-- The rows: `' '.join(state) for state in product(yield_actions(...), repeat = colors)`. -/
def rows (states colors : Nat) (halt : Bool) : List (List Char) :=
  (seqs (actions states colors halt) colors).map (joinWith [' '])

/-- A pattern: `^` at the start, `.` for any character but a line end, `[..]` for one of some
characters, and characters. -/
def pattern : List Char → List (Char → Bool)
  | '^' :: r => pattern r
  | '.' :: r => (fun c => c != '\n') :: pattern r
  | '[' :: a :: b :: ']' :: r => (fun c => c == a || c == b) :: pattern r
  | x :: r => (fun c => c == x) :: pattern r
  | [] => []

/-- `re.compile(regex).match(prog)`: the pattern matches at the start. -/
def matchStart : List (Char → Bool) → List Char → Bool
  | [], _ => true
  | _ :: _, [] => false
  | p :: ps, c :: cs => p c && matchStart ps cs

def reMatch (regex prog : List Char) : Bool := matchStart (pattern regex) prog

/-- `yield_programs`. -/
def programs (states colors : Nat) (halt : Bool) (rejects : List (List Char)) : List (List Char) :=
  (((seqs (rows states colors halt) states).map (joinWith [' ', ' '])).filter fun prog =>
      prog.take 3 == ['1', 'R', 'B'] && (!halt || prog.count '_' == 1)).filter fun prog =>
    !(rejects.any fun regex => reMatch regex prog)

/-- `prog.replace('1R_', '...')`. -/
def replaceHalt : List Char → List Char
  | '1' :: 'R' :: '_' :: r => '.' :: '.' :: '.' :: replaceHalt r
  | c :: r => c :: replaceHalt r
  | [] => []

/-- The patterns. -/
def AB_LOOP : List Char := "^1RB ..[AB]  ..[AB] ..[AB]  ... ...".toList
def BC_LOOP : List Char := "^1RB ...  ..[BC] ..[BC]  ..[BC] ..[BC]".toList
def NOT_CONNECTED_32 : List (List Char) := [AB_LOOP, BC_LOOP]

/-! ## `lr_convert` -/

/-- `bin_string[i : i + 4] for i in range(0, len(bin_string), 4)`. -/
def chunks4 : List Char → List (List Char)
  | a :: b :: c :: d :: r => [a, b, c, d] :: chunks4 r
  | [] => []
  | r => [r]

/-- `convert_bin_instr`; `int('', 2)` and too few characters raise `ValueError`. -/
def convertInstr : List Char → Option (List Char)
  | pr :: sh :: tr =>
    if tr = [] then none
    else
      let join := Nat.ofDigitChars 2 tr 0
      some [pr, if sh = '0' then 'L' else 'R', if join = 0 then '_' else showState (join - 1)]
  | _ => none

/-- `lr_convert`. -/
def lrConvert (n : Nat) : Option (List Char) :=
  ((chunks4 (Nat.toDigits 2 n)).mapM convertInstr).bind fun l =>
    match l with
    | [a0, a1, b0, b1, c0, c1] =>
      some (replaceHalt (a0 ++ [' '] ++ a1 ++ [' ', ' '] ++ b0 ++ [' '] ++ b1 ++ [' ', ' '] ++ c0 ++ [' ']
        ++ c1))
    | _ => none

/-- `/repo/test/test_lin_rado.py` L107-152 `LR_HOLDOUTS`. -/
def LR_HOLDOUTS : List Nat :=
  [0o73037233, 0o73137233, 0o73137123, 0o73136523, 0o73133271, 0o73133251, 0o73132742,
   0o73132542, 0o73032532, 0o73032632, 0o73033132, 0o73033271, 0o73073271, 0o73075221,
   0o73676261, 0o73736122, 0o71536037, 0o73336333, 0o71676261, 0o73336133, 0o73236333,
   0o73236133, 0o70537311, 0o70636711, 0o70726711, 0o72737311, 0o71717312, 0o72211715,
   0o72237311, 0o72311715, 0o72317716, 0o72331715, 0o72337311, 0o72337315, 0o70513754,
   0o70612634, 0o70712634, 0o72377034, 0o72377234, 0o72613234]

end LinRado
end BB
