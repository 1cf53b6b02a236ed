import Verif.Model.Table

/-!
# Model of reading and showing programs

`/repo/src/instrs.rs` L34-150 and `/repo/tools/__init__.py` L14-24.  Strings are lists of
characters.  A Rust panic (`unwrap` of `None`) is `none`; `u8` arithmetic wraps, as in the release
build that `/repo/Makefile` L29 makes.
-/

namespace BB

/-- `char::is_whitespace` (Unicode `White_Space`). -/
def isWs (c : Char) : Bool :=
  let n := c.toNat
  (9 ≤ n && n ≤ 13) || n == 32 || n == 0x85 || n == 0xA0 || n == 0x1680 ||
  (0x2000 ≤ n && n ≤ 0x200A) || n == 0x2028 || n == 0x2029 || n == 0x202F || n == 0x205F ||
  n == 0x3000

/-- `str::trim`. -/
def trimWs (s : List Char) : List Char :=
  ((s.dropWhile isWs).reverse.dropWhile isWs).reverse

/-- Put a character in front of the first piece. -/
def consHead (c : Char) : List (List Char) → List (List Char)
  | [] => [[c]]
  | r :: rs => (c :: r) :: rs

/-- `str::split("  ")`: leftmost, non-overlapping. -/
def splitDouble : List Char → List (List Char)
  | [] => [[]]
  | [c] => [[c]]
  | c :: d :: cs =>
    if c == ' ' && d == ' ' then [] :: splitDouble cs
    else consHead c (splitDouble (d :: cs))

/-- `str::split(' ')`. -/
def splitSpace : List Char → List (List Char)
  | [] => [[]]
  | c :: cs => if c == ' ' then [] :: splitSpace cs else consHead c (splitSpace cs)

/-- `/repo/src/instrs.rs` L88-90 `read_color`: `char::to_digit(10)`, `unwrap`. -/
def readColor (c : Char) : Option Color :=
  if 48 ≤ c.toNat ∧ c.toNat ≤ 57 then some (c.toNat - 48) else none

/-- `/repo/src/instrs.rs` L92-94 `read_shift`. -/
def readShift (c : Char) : Bool := c == 'R'

/-- `/repo/src/instrs.rs` L105-107 `read_state`: `char as u8 - 65`, wrapping. -/
def readState (c : Char) : State := (c.toNat % 256 + 191) % 256

/-- `/repo/src/instrs.rs` L96-103 `show_state` (`Some`): `(s as u8 + 65) as char`, wrapping. -/
def showState (s : State) : Char := Char.ofNat ((s % 256 + 65) % 256)

/-- `/repo/src/instrs.rs` L127-139 `show_instr`. -/
def showInstr : Option Instr → List Char
  | none => ['.', '.', '.']
  | some (color, shift, trans) =>
    Nat.toDigits 10 color ++ [if shift then 'R' else 'L', showState trans]

/-- `/repo/src/instrs.rs` L141-153 `read_instr`; the outer `none` is a panic. -/
def readInstr (s : List Char) : Option (Option Instr) :=
  if s.contains '.' then some none
  else
    match s with
    | c :: sh :: st :: _ => (readColor c).map fun co => some (co, readShift sh, readState st)
    | _ => none

/-- The two splits and `read_instr` on each piece: `/repo/src/instrs.rs` L47-49;
`/repo/tools/__init__.py` L17-24 `parse`. -/
def parseRows (s : List Char) : Option (List (List (Option Instr))) :=
  (splitDouble s).mapM fun r => (splitSpace r).mapM readInstr

/-- The inner enumeration, `/repo/src/instrs.rs` L52-57. -/
def rowEntries (st : State) : Color → List (Option Instr) → List (Slot × Instr)
  | _, [] => []
  | co, none :: rest => rowEntries st (co + 1) rest
  | co, some i :: rest => ((st, co), i) :: rowEntries st (co + 1) rest

/-- The outer enumeration, `/repo/src/instrs.rs` L50-58. -/
def gridEntries : State → List (List (Option Instr)) → List (Slot × Instr)
  | _, [] => []
  | st, row :: rest => rowEntries st 0 row ++ gridEntries (st + 1) rest

/-- `/repo/src/instrs.rs` L45-60 `CompProg::from_str` (`tcompile`). -/
def fromStr (s : List Char) : Option Table :=
  (parseRows (trimWs s)).map fun rows => Table.collect (gridEntries 0 rows)

/-- `[T]::join`. -/
def joinWith (sep : List Char) : List (List Char) → List Char
  | [] => []
  | [r] => r
  | r :: s :: rs => r ++ sep ++ joinWith sep (s :: rs)

/-- `/repo/src/instrs.rs` L62-71: the default parameters. -/
def defaultParams (t : Table) : Nat × Nat :=
  let m := t.foldl (fun (m : Nat × Nat) e =>
    (max (max m.1 e.1.1) e.2.2.2, max (max m.2 e.1.2) e.2.1)) (1, 1)
  (1 + m.1, 1 + m.2)

/-- `/repo/src/instrs.rs` L62-84 `CompProg::show` (`py_show_comp`). -/
def Table.show (t : Table) (params : Option (Nat × Nat)) : List Char :=
  let p := params.getD (defaultParams t)
  joinWith [' ', ' '] ((List.range p.1).map fun st =>
    joinWith [' '] ((List.range p.2).map fun co => showInstr (t.get? (st, co))))

/-- `/repo/src/instrs.rs` L109-113 `show_slot`. -/
def showSlot (s : Slot) : List Char := showState s.1 :: Nat.toDigits 10 s.2

/-- `/repo/src/instrs.rs` L115-122 `read_slot`. -/
def readSlot : List Char → Option Slot
  | st :: co :: _ => (readColor co).map fun c => (readState st, c)
  | _ => none

end BB
