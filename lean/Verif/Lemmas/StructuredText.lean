import Lean.Elab.Tactic.Basic
import Verif.Model.Structured

/-!
# The texts of `/repo/machines/structured`, letter by letter

The kernel does not evaluate the letters of a long text quickly; here they are given.  That they are those of the
text is an instance of `String.toList_ofList`, which the elaborator is too slow to see; `letters` hands
it to the kernel.
-/

set_option maxRecDepth 20000

namespace BB
namespace CS

elab "letters" : tactic => do
  let g ← Lean.Elab.Tactic.getMainGoal
  match (← g.getType).eq? with
  | some (_, _, l) => g.assign (Lean.mkApp (Lean.mkConst ``String.toList_ofList) l)
  | none => Lean.throwError "not an equation"

def letters1434 : List Char :=
  ['#', 'd', 'e', 'f', 'i', 'n', 'e', ' ', 'P', 'R', 'O', 'G', 'R', 'A', 'M', ' ', '"', '1', 'R', 'B',
   ' ', '.', '.', '.', ' ', '.', '.', '.', ' ', '.', '.', '.', ' ', ' ', '0', 'L', 'C', ' ', '2', 'L',
   'C', ' ', '.', '.', '.', ' ', '.', '.', '.', ' ', ' ', '0', 'L', 'C', ' ', '3', 'R', 'D', ' ', '0',
   'R', 'D', ' ', '2', 'R', 'E', ' ', ' ', '1', 'L', 'F', ' ', '1', 'L', 'C', ' ', '1', 'R', 'B', ' ',
   '.', '.', '.', ' ', ' ', '.', '.', '.', ' ', '3', 'R', 'D', ' ', '.', '.', '.', ' ', '.', '.', '.',
   ' ', ' ', '1', 'L', 'G', ' ', '.', '.', '.', ' ', '2', 'R', 'B', ' ', '1', 'L', 'F', ' ', ' ', '2',
   'R', 'E', ' ', '.', '.', '.', ' ', '2', 'L', 'C', ' ', '.', '.', '.', '"', '\n', '\n', '#', 'd',
   'e', 'f', 'i', 'n', 'e', ' ', 'T', 'A', 'P', 'E', 'L', 'E', 'N', ' ', '1', '0', '0', '0', '\n',
   '\n', '#', 'i', 'n', 'c', 'l', 'u', 'd', 'e', ' ', '"', 'm', 'a', 'c', 'h', 'i', 'n', 'e', '.', 'h',
   '"', '\n', '\n', 'i', 'n', 't', ' ', 'm', 'a', 'i', 'n', '(', 'v', 'o', 'i', 'd', ')', '\n', '{',
   '\n', ' ', ' ', '/', '/', ' ', 'A', '0', '\n', ' ', ' ', 'W', 'R', 'I', 'T', 'E', '(', '1', ')',
   ';', '\n', ' ', ' ', 'R', 'I', 'G', 'H', 'T', ';', '\n', '\n', ' ', ' ', '/', '/', ' ', 'B', '0',
   ' ', '/', ' ', 'B', '1', '\n', ' ', ' ', 'L', 'E', 'F', 'T', ';', '\n', '\n', ' ', ' ', '/', '/',
   ' ', 'C', '1', '\n', ' ', ' ', 'W', 'R', 'I', 'T', 'E', '(', '3', ')', ';', '\n', ' ', ' ', 'R',
   'I', 'G', 'H', 'T', ';', '\n', '\n', ' ', ' ', 'w', 'h', 'i', 'l', 'e', ' ', '(', '1', ')', ' ',
   '{', '\n', ' ', ' ', ' ', ' ', 's', 'w', 'i', 't', 'c', 'h', ' ', '(', 'S', 'C', 'A', 'N', ')', ' ',
   '{', '\n', ' ', ' ', ' ', ' ', ' ', ' ', 'c', 'a', 's', 'e', ' ', '2', ':', '\n', ' ', ' ', ' ',
   ' ', ' ', ' ', ' ', ' ', '/', '/', ' ', 'D', '2', '\n', ' ', ' ', ' ', ' ', ' ', ' ', ' ', ' ', 'W',
   'R', 'I', 'T', 'E', '(', '1', ')', ';', '\n', ' ', ' ', ' ', ' ', ' ', ' ', ' ', ' ', 'R', 'I', 'G',
   'H', 'T', ';', '\n', '\n', ' ', ' ', ' ', ' ', ' ', ' ', ' ', ' ', '/', '/', ' ', 'B', '1', '\n',
   ' ', ' ', ' ', ' ', ' ', ' ', ' ', ' ', 'i', 'f', ' ', '(', 'S', 'C', 'A', 'N', ' ', '=', '=', ' ',
   '1', ')', ' ', '{', '\n', ' ', ' ', ' ', ' ', ' ', ' ', ' ', ' ', ' ', ' ', 'W', 'R', 'I', 'T', 'E',
   '(', '2', ')', ';', '\n', ' ', ' ', ' ', ' ', ' ', ' ', ' ', ' ', '}', '\n', '\n', ' ', ' ', ' ',
   ' ', ' ', ' ', ' ', ' ', 'b', 'r', 'e', 'a', 'k', ';', '\n', '\n', ' ', ' ', ' ', ' ', ' ', ' ',
   'c', 'a', 's', 'e', ' ', '0', ':', '\n', ' ', ' ', ' ', ' ', ' ', ' ', ' ', ' ', '/', '/', ' ', 'D',
   '0', '\n', ' ', ' ', ' ', ' ', ' ', ' ', ' ', ' ', 'W', 'R', 'I', 'T', 'E', '(', '1', ')', ';',
   '\n', ' ', ' ', ' ', ' ', ' ', ' ', ' ', ' ', 'L', 'E', 'F', 'T', ';', '\n', '\n', ' ', ' ', ' ',
   ' ', ' ', ' ', ' ', ' ', 'w', 'h', 'i', 'l', 'e', ' ', '(', 'S', 'C', 'A', 'N', ' ', '=', '=', ' ',
   '3', ')', ' ', '{', '\n', ' ', ' ', ' ', ' ', ' ', ' ', ' ', ' ', ' ', ' ', '/', '/', ' ', 'F', '3',
   '\n', ' ', ' ', ' ', ' ', ' ', ' ', ' ', ' ', ' ', ' ', 'W', 'R', 'I', 'T', 'E', '(', '1', ')', ';',
   '\n', ' ', ' ', ' ', ' ', ' ', ' ', ' ', ' ', ' ', ' ', 'L', 'E', 'F', 'T', ';', '\n', ' ', ' ',
   ' ', ' ', ' ', ' ', ' ', ' ', '}', '\n', '\n', ' ', ' ', ' ', ' ', ' ', ' ', ' ', ' ', 'i', 'f',
   ' ', '(', '!', 'B', 'L', 'A', 'N', 'K', ')', ' ', '{', '\n', ' ', ' ', ' ', ' ', ' ', ' ', ' ', ' ',
   ' ', ' ', '/', '/', ' ', 'F', '2', '\n', ' ', ' ', ' ', ' ', ' ', ' ', ' ', ' ', ' ', ' ', 'R', 'I',
   'G', 'H', 'T', ';', '\n', '\n', ' ', ' ', ' ', ' ', ' ', ' ', ' ', ' ', ' ', ' ', '/', '/', ' ',
   'B', '1', '\n', ' ', ' ', ' ', ' ', ' ', ' ', ' ', ' ', ' ', ' ', 'i', 'f', ' ', '(', 'S', 'C', 'A',
   'N', ' ', '=', '=', ' ', '1', ')', ' ', '{', '\n', ' ', ' ', ' ', ' ', ' ', ' ', ' ', ' ', ' ', ' ',
   ' ', ' ', 'W', 'R', 'I', 'T', 'E', '(', '2', ')', ';', '\n', ' ', ' ', ' ', ' ', ' ', ' ', ' ', ' ',
   ' ', ' ', '}', '\n', ' ', ' ', ' ', ' ', ' ', ' ', ' ', ' ', '}', '\n', '\n', ' ', ' ', ' ', ' ',
   ' ', ' ', ' ', ' ', 'e', 'l', 's', 'e', ' ', '{', '\n', ' ', ' ', ' ', ' ', ' ', ' ', ' ', ' ', ' ',
   ' ', '/', '/', ' ', 'F', '0', '\n', ' ', ' ', ' ', ' ', ' ', ' ', ' ', ' ', ' ', ' ', 'W', 'R', 'I',
   'T', 'E', '(', '1', ')', ';', '\n', ' ', ' ', ' ', ' ', ' ', ' ', ' ', ' ', ' ', ' ', 'L', 'E', 'F',
   'T', ';', '\n', '\n', ' ', ' ', ' ', ' ', ' ', ' ', ' ', ' ', ' ', ' ', 'i', 'f', ' ', '(', 'B',
   'L', 'A', 'N', 'K', ')', ' ', '{', '\n', ' ', ' ', ' ', ' ', ' ', ' ', ' ', ' ', ' ', ' ', ' ', ' ',
   '/', '/', ' ', 'G', '0', '\n', ' ', ' ', ' ', ' ', ' ', ' ', ' ', ' ', ' ', ' ', ' ', ' ', 'W', 'R',
   'I', 'T', 'E', '(', '2', ')', ';', '\n', ' ', ' ', ' ', ' ', ' ', ' ', ' ', ' ', ' ', ' ', ' ', ' ',
   'R', 'I', 'G', 'H', 'T', ';', '\n', '\n', ' ', ' ', ' ', ' ', ' ', ' ', ' ', ' ', ' ', ' ', ' ',
   ' ', '/', '/', ' ', 'E', '1', '\n', ' ', ' ', ' ', ' ', ' ', ' ', ' ', ' ', ' ', ' ', ' ', ' ', 'W',
   'R', 'I', 'T', 'E', '(', '3', ')', ';', '\n', ' ', ' ', ' ', ' ', ' ', ' ', ' ', ' ', ' ', ' ', ' ',
   ' ', 'R', 'I', 'G', 'H', 'T', ';', '\n', ' ', ' ', ' ', ' ', ' ', ' ', ' ', ' ', ' ', ' ', ' ', ' ',
   'c', 'o', 'n', 't', 'i', 'n', 'u', 'e', ';', '\n', ' ', ' ', ' ', ' ', ' ', ' ', ' ', ' ', ' ', ' ',
   '}', '\n', ' ', ' ', ' ', ' ', ' ', ' ', ' ', ' ', '}', '\n', ' ', ' ', ' ', ' ', '}', '\n', '\n',
   ' ', ' ', ' ', ' ', '/', '/', ' ', 'B', '0', ' ', '/', ' ', 'B', '1', ' ', '/', ' ', 'D', '1', ' ',
   '/', ' ', 'G', '2', '\n', ' ', ' ', ' ', ' ', 'L', 'E', 'F', 'T', ';', '\n', '\n', ' ', ' ', ' ',
   ' ', 'w', 'h', 'i', 'l', 'e', ' ', '(', 'B', 'L', 'A', 'N', 'K', ')', ' ', '{', '\n', ' ', ' ', ' ',
   ' ', ' ', ' ', '/', '/', ' ', 'C', '0', '\n', ' ', ' ', ' ', ' ', ' ', ' ', 'C', 'H', 'E', 'C', 'K',
   '_', 'R', 'E', 'C', 'U', 'R', '(', 'L', ')', ';', '\n', ' ', ' ', ' ', ' ', ' ', ' ', 'L', 'E', 'F',
   'T', ';', '\n', ' ', ' ', ' ', ' ', '}', '\n', '\n', ' ', ' ', ' ', ' ', 's', 'w', 'i', 't', 'c',
   'h', ' ', '(', 'S', 'C', 'A', 'N', ')', ' ', '{', '\n', ' ', ' ', ' ', ' ', ' ', ' ', 'c', 'a', 's',
   'e', ' ', '1', ':', '\n', ' ', ' ', ' ', ' ', ' ', ' ', ' ', ' ', '/', '/', ' ', 'C', '1', '\n',
   ' ', ' ', ' ', ' ', ' ', ' ', ' ', ' ', 'W', 'R', 'I', 'T', 'E', '(', '3', ')', ';', '\n', ' ', ' ',
   ' ', ' ', ' ', ' ', ' ', ' ', 'b', 'r', 'e', 'a', 'k', ';', '\n', '\n', ' ', ' ', ' ', ' ', ' ',
   ' ', 'c', 'a', 's', 'e', ' ', '2', ':', '\n', ' ', ' ', ' ', ' ', ' ', ' ', ' ', ' ', '/', '/', ' ',
   'C', '2', '\n', ' ', ' ', ' ', ' ', ' ', ' ', ' ', ' ', 'W', 'R', 'I', 'T', 'E', '(', '0', ')', ';',
   '\n', ' ', ' ', ' ', ' ', ' ', ' ', ' ', ' ', 'b', 'r', 'e', 'a', 'k', ';', '\n', '\n', ' ', ' ',
   ' ', ' ', ' ', ' ', 'c', 'a', 's', 'e', ' ', '3', ':', '\n', ' ', ' ', ' ', ' ', ' ', ' ', ' ', ' ',
   '/', '/', ' ', 'C', '3', '\n', ' ', ' ', ' ', ' ', ' ', ' ', ' ', ' ', 'W', 'R', 'I', 'T', 'E', '(',
   '2', ')', ';', '\n', ' ', ' ', ' ', ' ', ' ', ' ', ' ', ' ', 'R', 'I', 'G', 'H', 'T', ';', '\n',
   '\n', ' ', ' ', ' ', ' ', ' ', ' ', ' ', ' ', '/', '/', ' ', 'E', '1', '\n', ' ', ' ', ' ', ' ',
   ' ', ' ', ' ', ' ', 'W', 'R', 'I', 'T', 'E', '(', '3', ')', ';', '\n', ' ', ' ', ' ', ' ', ' ', ' ',
   ' ', ' ', 'b', 'r', 'e', 'a', 'k', ';', '\n', ' ', ' ', ' ', ' ', '}', '\n', '\n', ' ', ' ', ' ',
   ' ', 'R', 'I', 'G', 'H', 'T', ';', '\n', ' ', ' ', '}', '\n', '\n', ' ', 'H', ':', '\n', ' ', ' ',
   'C', 'H', 'E', 'C', 'K', '_', 'S', 'T', 'E', 'P', 'S', ';', '\n', '}', '\n']

theorem f1434_text : f1434.text = letters1434 := by letters

def letters15721562 : List Char :=
  ['#', 'd', 'e', 'f', 'i', 'n', 'e', ' ', 'P', 'R', 'O', 'G', 'R', 'A', 'M', ' ', '"', '1', 'R', 'B',
   ' ', '.', '.', '.', ' ', '.', '.', '.', ' ', '.', '.', '.', ' ', '.', '.', '.', ' ', ' ', '2', 'L',
   'C', ' ', '.', '.', '.', ' ', '.', '.', '.', ' ', '.', '.', '.', ' ', '.', '.', '.', ' ', ' ', '3',
   'R', 'D', ' ', '3', 'L', 'C', ' ', '.', '.', '.', ' ', '1', 'L', 'C', ' ', '1', 'R', '_', ' ', ' ',
   '.', '.', '.', ' ', '1', 'R', 'D', ' ', '1', 'R', 'B', ' ', '1', 'L', 'E', ' ', '.', '.', '.', ' ',
   ' ', '4', 'R', 'D', ' ', '1', 'L', 'E', ' ', '.', '.', '.', ' ', '1', 'R', 'D', ' ', '1', 'L', 'C',
   '"', '\n', '\n', '#', 'd', 'e', 'f', 'i', 'n', 'e', ' ', 'T', 'A', 'P', 'E', 'L', 'E', 'N', ' ',
   '1', '0', '0', '0', '0', '\n', '\n', '#', 'i', 'n', 'c', 'l', 'u', 'd', 'e', ' ', '"', 'm', 'a',
   'c', 'h', 'i', 'n', 'e', '.', 'h', '"', '\n', '\n', 'i', 'n', 't', ' ', 'm', 'a', 'i', 'n', '(',
   'v', 'o', 'i', 'd', ')', '\n', '{', '\n', ' ', ' ', '/', '/', ' ', 'A', '0', '\n', ' ', ' ', 'W',
   'R', 'I', 'T', 'E', '(', '1', ')', ';', '\n', ' ', ' ', 'R', 'I', 'G', 'H', 'T', ';', '\n', '\n',
   ' ', ' ', '/', '/', ' ', 'B', '0', '\n', ' ', ' ', 'W', 'R', 'I', 'T', 'E', '(', '2', ')', ';',
   '\n', ' ', ' ', 'L', 'E', 'F', 'T', ';', '\n', '\n', ' ', ' ', '/', '/', ' ', 'C', '1', '\n', ' ',
   ' ', 'W', 'R', 'I', 'T', 'E', '(', '3', ')', ';', '\n', ' ', ' ', 'L', 'E', 'F', 'T', ';', '\n',
   '\n', ' ', ' ', '/', '/', ' ', 'C', '0', '\n', ' ', ' ', 'W', 'R', 'I', 'T', 'E', '(', '3', ')',
   ';', '\n', ' ', ' ', 'R', 'I', 'G', 'H', 'T', ';', '\n', '\n', ' ', ' ', 'w', 'h', 'i', 'l', 'e',
   ' ', '(', '1', ')', ' ', '{', '\n', ' ', ' ', ' ', ' ', 'w', 'h', 'i', 'l', 'e', ' ', '(', 'S', 'C',
   'A', 'N', ' ', '=', '=', ' ', '1', ')', ' ', '{', '\n', ' ', ' ', ' ', ' ', ' ', ' ', '/', '/', ' ',
   'D', '1', '\n', ' ', ' ', ' ', ' ', ' ', ' ', 'W', 'R', 'I', 'T', 'E', '(', '1', ')', ';', '\n',
   ' ', ' ', ' ', ' ', ' ', ' ', 'R', 'I', 'G', 'H', 'T', ';', '\n', ' ', ' ', ' ', ' ', '}', '\n',
   '\n', ' ', ' ', ' ', ' ', 'i', 'f', ' ', '(', 'S', 'C', 'A', 'N', ' ', '=', '=', ' ', '2', ')', ' ',
   '{', '\n', ' ', ' ', ' ', ' ', ' ', ' ', '/', '/', ' ', 'D', '2', '\n', ' ', ' ', ' ', ' ', ' ',
   ' ', 'W', 'R', 'I', 'T', 'E', '(', '1', ')', ';', '\n', ' ', ' ', ' ', ' ', ' ', ' ', 'R', 'I', 'G',
   'H', 'T', ';', '\n', '\n', ' ', ' ', ' ', ' ', ' ', ' ', '/', '/', ' ', 'B', '0', '\n', ' ', ' ',
   ' ', ' ', ' ', ' ', 'W', 'R', 'I', 'T', 'E', '(', '2', ')', ';', '\n', ' ', ' ', ' ', ' ', ' ', ' ',
   'L', 'E', 'F', 'T', ';', '\n', '\n', ' ', ' ', ' ', ' ', ' ', ' ', 'w', 'h', 'i', 'l', 'e', ' ',
   '(', '1', ')', ' ', '{', '\n', ' ', ' ', ' ', ' ', ' ', ' ', ' ', ' ', 'i', 'f', ' ', '(', 'S', 'C',
   'A', 'N', ' ', '=', '=', ' ', '0', ')', '\n', ' ', ' ', ' ', ' ', ' ', ' ', ' ', ' ', ' ', ' ', 'b',
   'r', 'e', 'a', 'k', ';', '\n', '\n', ' ', ' ', ' ', ' ', ' ', ' ', ' ', ' ', 'i', 'f', ' ', '(',
   'S', 'C', 'A', 'N', ' ', '=', '=', ' ', '4', ')', ' ', '{', '\n', ' ', ' ', ' ', ' ', ' ', ' ', ' ',
   ' ', ' ', ' ', '/', '/', ' ', 'C', '4', '\n', ' ', ' ', ' ', ' ', ' ', ' ', ' ', ' ', ' ', ' ', 'W',
   'R', 'I', 'T', 'E', '(', '1', ')', ';', '\n', ' ', ' ', ' ', ' ', ' ', ' ', ' ', ' ', ' ', ' ', 'R',
   'I', 'G', 'H', 'T', ';', '\n', ' ', ' ', ' ', ' ', ' ', ' ', ' ', ' ', ' ', ' ', 'g', 'o', 't', 'o',
   ' ', 'H', ';', '\n', ' ', ' ', ' ', ' ', ' ', ' ', ' ', ' ', '}', '\n', '\n', ' ', ' ', ' ', ' ',
   ' ', ' ', ' ', ' ', 'i', 'f', ' ', '(', 'S', 'C', 'A', 'N', ' ', '=', '=', ' ', '1', ')', '\n', ' ',
   ' ', ' ', ' ', ' ', ' ', ' ', ' ', ' ', ' ', '/', '/', ' ', 'C', '1', '\n', ' ', ' ', ' ', ' ', ' ',
   ' ', ' ', ' ', ' ', ' ', 'W', 'R', 'I', 'T', 'E', '(', '3', ')', ';', '\n', ' ', ' ', ' ', ' ', ' ',
   ' ', ' ', ' ', 'e', 'l', 's', 'e', ' ', 'i', 'f', ' ', '(', 'S', 'C', 'A', 'N', ' ', '=', '=', ' ',
   '3', ')', '\n', ' ', ' ', ' ', ' ', ' ', ' ', ' ', ' ', ' ', ' ', '/', '/', ' ', 'C', '3', '\n',
   ' ', ' ', ' ', ' ', ' ', ' ', ' ', ' ', ' ', ' ', 'W', 'R', 'I', 'T', 'E', '(', '1', ')', ';', '\n',
   '\n', ' ', ' ', ' ', ' ', ' ', ' ', ' ', ' ', 'L', 'E', 'F', 'T', ';', '\n', ' ', ' ', ' ', ' ',
   ' ', ' ', '}', '\n', '\n', ' ', ' ', ' ', ' ', ' ', ' ', '/', '/', ' ', 'C', '0', '\n', ' ', ' ',
   ' ', ' ', ' ', ' ', 'W', 'R', 'I', 'T', 'E', '(', '3', ')', ';', '\n', ' ', ' ', ' ', ' ', ' ', ' ',
   'R', 'I', 'G', 'H', 'T', ';', '\n', '\n', ' ', ' ', ' ', ' ', ' ', ' ', 'c', 'o', 'n', 't', 'i',
   'n', 'u', 'e', ';', '\n', ' ', ' ', ' ', ' ', '}', '\n', '\n', ' ', ' ', ' ', ' ', '/', '/', ' ',
   'D', '3', '\n', ' ', ' ', ' ', ' ', 'W', 'R', 'I', 'T', 'E', '(', '1', ')', ';', '\n', ' ', ' ',
   ' ', ' ', 'L', 'E', 'F', 'T', ';', '\n', '\n', ' ', ' ', ' ', ' ', 'w', 'h', 'i', 'l', 'e', ' ',
   '(', 'S', 'C', 'A', 'N', ' ', '=', '=', ' ', '1', ')', ' ', '{', '\n', ' ', ' ', ' ', ' ', ' ', ' ',
   '/', '/', ' ', 'E', '1', '\n', ' ', ' ', ' ', ' ', ' ', ' ', 'W', 'R', 'I', 'T', 'E', '(', '1', ')',
   ';', '\n', ' ', ' ', ' ', ' ', ' ', ' ', 'L', 'E', 'F', 'T', ';', '\n', ' ', ' ', ' ', ' ', '}',
   '\n', '\n', ' ', ' ', ' ', ' ', 'i', 'f', ' ', '(', 'S', 'C', 'A', 'N', ' ', '=', '=', ' ', '4',
   ')', ' ', '{', '\n', ' ', ' ', ' ', ' ', ' ', ' ', '/', '/', ' ', 'E', '4', '\n', ' ', ' ', ' ',
   ' ', ' ', ' ', 'W', 'R', 'I', 'T', 'E', '(', '1', ')', ';', '\n', ' ', ' ', ' ', ' ', ' ', ' ', 'L',
   'E', 'F', 'T', ';', '\n', '\n', ' ', ' ', ' ', ' ', ' ', ' ', 'w', 'h', 'i', 'l', 'e', ' ', '(',
   '1', ')', ' ', '{', '\n', ' ', ' ', ' ', ' ', ' ', ' ', ' ', ' ', 'i', 'f', ' ', '(', 'S', 'C', 'A',
   'N', ' ', '=', '=', ' ', '0', ')', '\n', ' ', ' ', ' ', ' ', ' ', ' ', ' ', ' ', ' ', ' ', 'b', 'r',
   'e', 'a', 'k', ';', '\n', '\n', ' ', ' ', ' ', ' ', ' ', ' ', ' ', ' ', 'i', 'f', ' ', '(', 'S',
   'C', 'A', 'N', ' ', '=', '=', ' ', '4', ')', ' ', '{', '\n', ' ', ' ', ' ', ' ', ' ', ' ', ' ', ' ',
   ' ', ' ', '/', '/', ' ', 'C', '4', '\n', ' ', ' ', ' ', ' ', ' ', ' ', ' ', ' ', ' ', ' ', 'W', 'R',
   'I', 'T', 'E', '(', '1', ')', ';', '\n', ' ', ' ', ' ', ' ', ' ', ' ', ' ', ' ', ' ', ' ', 'R', 'I',
   'G', 'H', 'T', ';', '\n', ' ', ' ', ' ', ' ', ' ', ' ', ' ', ' ', ' ', ' ', 'g', 'o', 't', 'o', ' ',
   'H', ';', '\n', ' ', ' ', ' ', ' ', ' ', ' ', ' ', ' ', '}', '\n', '\n', ' ', ' ', ' ', ' ', ' ',
   ' ', ' ', ' ', 'i', 'f', ' ', '(', 'S', 'C', 'A', 'N', ' ', '=', '=', ' ', '1', ')', '\n', ' ', ' ',
   ' ', ' ', ' ', ' ', ' ', ' ', ' ', ' ', '/', '/', ' ', 'C', '1', '\n', ' ', ' ', ' ', ' ', ' ', ' ',
   ' ', ' ', ' ', ' ', 'W', 'R', 'I', 'T', 'E', '(', '3', ')', ';', '\n', ' ', ' ', ' ', ' ', ' ', ' ',
   ' ', ' ', 'e', 'l', 's', 'e', ' ', 'i', 'f', ' ', '(', 'S', 'C', 'A', 'N', ' ', '=', '=', ' ', '3',
   ')', '\n', ' ', ' ', ' ', ' ', ' ', ' ', ' ', ' ', ' ', ' ', '/', '/', ' ', 'C', '3', '\n', ' ',
   ' ', ' ', ' ', ' ', ' ', ' ', ' ', ' ', ' ', 'W', 'R', 'I', 'T', 'E', '(', '1', ')', ';', '\n',
   '\n', ' ', ' ', ' ', ' ', ' ', ' ', ' ', ' ', 'L', 'E', 'F', 'T', ';', '\n', ' ', ' ', ' ', ' ',
   ' ', ' ', '}', '\n', '\n', ' ', ' ', ' ', ' ', ' ', ' ', '/', '/', ' ', 'C', '0', '\n', ' ', ' ',
   ' ', ' ', ' ', ' ', 'W', 'R', 'I', 'T', 'E', '(', '3', ')', ';', '\n', ' ', ' ', ' ', ' ', ' ', ' ',
   'R', 'I', 'G', 'H', 'T', ';', '\n', '\n', ' ', ' ', ' ', ' ', ' ', ' ', 'c', 'o', 'n', 't', 'i',
   'n', 'u', 'e', ';', '\n', ' ', ' ', ' ', ' ', '}', '\n', '\n', ' ', ' ', ' ', ' ', 'i', 'f', ' ',
   '(', 'S', 'C', 'A', 'N', ' ', '=', '=', ' ', '0', ')', '\n', ' ', ' ', ' ', ' ', ' ', ' ', '/', '/',
   ' ', 'E', '0', '\n', ' ', ' ', ' ', ' ', ' ', ' ', 'W', 'R', 'I', 'T', 'E', '(', '4', ')', ';',
   '\n', ' ', ' ', ' ', ' ', 'e', 'l', 's', 'e', '\n', ' ', ' ', ' ', ' ', ' ', ' ', '/', '/', ' ',
   'E', '3', '\n', ' ', ' ', ' ', ' ', ' ', ' ', 'W', 'R', 'I', 'T', 'E', '(', '1', ')', ';', '\n',
   '\n', ' ', ' ', ' ', ' ', 'R', 'I', 'G', 'H', 'T', ';', '\n', ' ', ' ', '}', '\n', '\n', ' ', 'H',
   ':', '\n', ' ', ' ', 'C', 'H', 'E', 'C', 'K', '_', 'S', 'T', 'E', 'P', 'S', ';', '\n', '}', '\n']

theorem f15721562_text : f15721562.text = letters15721562 := by letters

def letters21 : List Char :=
  ['#', 'd', 'e', 'f', 'i', 'n', 'e', ' ', 'T', 'A', 'P', 'E', 'L', 'E', 'N', ' ', '2', '0', '\n',
   '\n', '#', 'i', 'n', 'c', 'l', 'u', 'd', 'e', ' ', '"', 'm', 'a', 'c', 'h', 'i', 'n', 'e', '.', 'h',
   '"', '\n', '\n', 'i', 'n', 't', ' ', 'm', 'a', 'i', 'n', '(', 'v', 'o', 'i', 'd', ')', '\n', '{',
   '\n', ' ', ' ', 'w', 'h', 'i', 'l', 'e', ' ', '(', 'B', 'L', 'A', 'N', 'K', ')', ' ', '{', '\n',
   ' ', ' ', ' ', ' ', '/', '/', ' ', 'A', '0', '\n', ' ', ' ', ' ', ' ', 'P', 'R', 'I', 'N', 'T', ';',
   '\n', ' ', ' ', ' ', ' ', 'R', 'I', 'G', 'H', 'T', ';', '\n', '\n', ' ', ' ', ' ', ' ', '/', '/',
   ' ', 'B', '0', '\n', ' ', ' ', ' ', ' ', 'w', 'h', 'i', 'l', 'e', ' ', '(', 'B', 'L', 'A', 'N', 'K',
   ')', ' ', '{', '\n', ' ', ' ', ' ', ' ', ' ', ' ', 'P', 'R', 'I', 'N', 'T', ';', '\n', ' ', ' ',
   ' ', ' ', ' ', ' ', 'L', 'E', 'F', 'T', ';', '\n', ' ', ' ', ' ', ' ', '}', '\n', '\n', ' ', ' ',
   ' ', ' ', '/', '/', ' ', 'B', '1', '\n', ' ', ' ', ' ', ' ', 'E', 'R', 'A', 'S', 'E', ';', '\n',
   ' ', ' ', ' ', ' ', 'R', 'I', 'G', 'H', 'T', ';', '\n', '\n', ' ', ' ', ' ', ' ', '/', '/', ' ',
   'C', '0', '\n', ' ', ' ', ' ', ' ', 'w', 'h', 'i', 'l', 'e', ' ', '(', 'B', 'L', 'A', 'N', 'K', ')',
   ' ', '{', '\n', ' ', ' ', ' ', ' ', ' ', ' ', 'P', 'R', 'I', 'N', 'T', ';', '\n', ' ', ' ', ' ',
   ' ', ' ', ' ', 'L', 'E', 'F', 'T', ';', '\n', ' ', ' ', ' ', ' ', '}', '\n', '\n', ' ', ' ', ' ',
   ' ', '/', '/', ' ', 'C', '1', '\n', ' ', ' ', ' ', ' ', 'L', 'E', 'F', 'T', ';', '\n', ' ', ' ',
   '}', '\n', '\n', ' ', ' ', '/', '/', ' ', 'A', '1', '\n', ' ', ' ', 'L', 'E', 'F', 'T', ';', '\n',
   '\n', ' ', 'H', ':', '\n', ' ', ' ', 'C', 'H', 'E', 'C', 'K', '_', 'S', 'T', 'E', 'P', 'S', ';',
   '\n', '}', '\n']

theorem f21_text : f21.text = letters21 := by letters

def letters2315619 : List Char :=
  ['#', 'd', 'e', 'f', 'i', 'n', 'e', ' ', 'P', 'R', 'O', 'G', 'R', 'A', 'M', ' ', '"', '1', 'R', 'B',
   ' ', '2', 'L', 'B', ' ', '1', 'L', 'C', ' ', ' ', '1', 'L', 'A', ' ', '2', 'R', 'B', ' ', '1', 'R',
   'B', ' ', ' ', '1', 'R', '_', ' ', '2', 'L', 'A', ' ', '0', 'L', 'C', '"', '\n', '\n', '#', 'd',
   'e', 'f', 'i', 'n', 'e', ' ', 'T', 'A', 'P', 'E', 'L', 'E', 'N', ' ', '4', '8', '\n', '\n', '#',
   'i', 'n', 'c', 'l', 'u', 'd', 'e', ' ', '"', 'm', 'a', 'c', 'h', 'i', 'n', 'e', '.', 'h', '"', '\n',
   '\n', 'i', 'n', 't', ' ', 'm', 'a', 'i', 'n', '(', 'v', 'o', 'i', 'd', ')', '\n', '{', '\n', ' ',
   ' ', 'w', 'h', 'i', 'l', 'e', ' ', '(', '1', ')', ' ', '{', '\n', ' ', ' ', ' ', ' ', 'i', 'f', ' ',
   '(', 'S', 'C', 'A', 'N', ' ', '=', '=', ' ', '2', ')', ' ', '{', '\n', ' ', ' ', ' ', ' ', ' ', ' ',
   '/', '/', ' ', 'A', '2', '\n', ' ', ' ', ' ', ' ', ' ', ' ', 'W', 'R', 'I', 'T', 'E', '(', '1', ')',
   ';', '\n', ' ', ' ', ' ', ' ', ' ', ' ', 'L', 'E', 'F', 'T', ';', '\n', '\n', ' ', ' ', ' ', ' ',
   ' ', ' ', 'w', 'h', 'i', 'l', 'e', ' ', '(', '1', ')', ' ', '{', '\n', ' ', ' ', ' ', ' ', ' ', ' ',
   ' ', ' ', 'i', 'f', ' ', '(', 'S', 'C', 'A', 'N', ' ', '=', '=', ' ', '0', ')', ' ', '{', '\n', ' ',
   ' ', ' ', ' ', ' ', ' ', ' ', ' ', ' ', ' ', '/', '/', ' ', 'C', '0', '\n', ' ', ' ', ' ', ' ', ' ',
   ' ', ' ', ' ', ' ', ' ', 'W', 'R', 'I', 'T', 'E', '(', '1', ')', ';', '\n', ' ', ' ', ' ', ' ', ' ',
   ' ', ' ', ' ', ' ', ' ', 'R', 'I', 'G', 'H', 'T', ';', '\n', ' ', ' ', ' ', ' ', ' ', ' ', ' ', ' ',
   ' ', ' ', 'g', 'o', 't', 'o', ' ', 'H', ';', '\n', ' ', ' ', ' ', ' ', ' ', ' ', ' ', ' ', '}',
   '\n', '\n', ' ', ' ', ' ', ' ', ' ', ' ', ' ', ' ', 'i', 'f', ' ', '(', 'S', 'C', 'A', 'N', ' ',
   '=', '=', ' ', '1', ')', ' ', '{', '\n', ' ', ' ', ' ', ' ', ' ', ' ', ' ', ' ', ' ', ' ', '/', '/',
   ' ', 'C', '1', '\n', ' ', ' ', ' ', ' ', ' ', ' ', ' ', ' ', ' ', ' ', 'W', 'R', 'I', 'T', 'E', '(',
   '2', ')', ';', '\n', ' ', ' ', ' ', ' ', ' ', ' ', ' ', ' ', ' ', ' ', 'L', 'E', 'F', 'T', ';',
   '\n', ' ', ' ', ' ', ' ', ' ', ' ', ' ', ' ', ' ', ' ', 'b', 'r', 'e', 'a', 'k', ';', '\n', ' ',
   ' ', ' ', ' ', ' ', ' ', ' ', ' ', '}', '\n', '\n', ' ', ' ', ' ', ' ', ' ', ' ', ' ', ' ', '/',
   '/', ' ', 'C', '2', '\n', ' ', ' ', ' ', ' ', ' ', ' ', ' ', ' ', 'W', 'R', 'I', 'T', 'E', '(', '0',
   ')', ';', '\n', ' ', ' ', ' ', ' ', ' ', ' ', ' ', ' ', 'L', 'E', 'F', 'T', ';', '\n', ' ', ' ',
   ' ', ' ', ' ', ' ', '}', '\n', ' ', ' ', ' ', ' ', '}', '\n', '\n', ' ', ' ', ' ', ' ', 'e', 'l',
   's', 'e', ' ', '{', '\n', ' ', ' ', ' ', ' ', ' ', ' ', 'i', 'f', ' ', '(', 'B', 'L', 'A', 'N', 'K',
   ')', ' ', '{', '\n', ' ', ' ', ' ', ' ', ' ', ' ', ' ', ' ', '/', '/', ' ', 'A', '0', '\n', ' ',
   ' ', ' ', ' ', ' ', ' ', ' ', ' ', 'W', 'R', 'I', 'T', 'E', '(', '1', ')', ';', '\n', ' ', ' ', ' ',
   ' ', ' ', ' ', ' ', ' ', 'R', 'I', 'G', 'H', 'T', ';', '\n', ' ', ' ', ' ', ' ', ' ', ' ', '}', ' ',
   'e', 'l', 's', 'e', ' ', '{', '\n', ' ', ' ', ' ', ' ', ' ', ' ', ' ', ' ', '/', '/', ' ', 'A', '1',
   '\n', ' ', ' ', ' ', ' ', ' ', ' ', ' ', ' ', 'W', 'R', 'I', 'T', 'E', '(', '2', ')', ';', '\n',
   ' ', ' ', ' ', ' ', ' ', ' ', ' ', ' ', 'L', 'E', 'F', 'T', ';', '\n', ' ', ' ', ' ', ' ', ' ', ' ',
   '}', '\n', '\n', ' ', ' ', ' ', ' ', ' ', ' ', 'w', 'h', 'i', 'l', 'e', ' ', '(', '!', 'B', 'L',
   'A', 'N', 'K', ')', ' ', '{', '\n', ' ', ' ', ' ', ' ', ' ', ' ', ' ', ' ', 'i', 'f', ' ', '(', 'S',
   'C', 'A', 'N', ' ', '=', '=', ' ', '1', ')', '\n', ' ', ' ', ' ', ' ', ' ', ' ', ' ', ' ', ' ', ' ',
   '/', '/', ' ', 'B', '1', '\n', ' ', ' ', ' ', ' ', ' ', ' ', ' ', ' ', ' ', ' ', 'W', 'R', 'I', 'T',
   'E', '(', '2', ')', ';', '\n', ' ', ' ', ' ', ' ', ' ', ' ', ' ', ' ', 'e', 'l', 's', 'e', '\n',
   ' ', ' ', ' ', ' ', ' ', ' ', ' ', ' ', ' ', ' ', '/', '/', ' ', 'B', '2', '\n', ' ', ' ', ' ', ' ',
   ' ', ' ', ' ', ' ', ' ', ' ', 'W', 'R', 'I', 'T', 'E', '(', '1', ')', ';', '\n', '\n', ' ', ' ',
   ' ', ' ', ' ', ' ', ' ', ' ', 'R', 'I', 'G', 'H', 'T', ';', '\n', ' ', ' ', ' ', ' ', ' ', ' ', '}',
   '\n', '\n', ' ', ' ', ' ', ' ', ' ', ' ', '/', '/', ' ', 'B', '0', '\n', ' ', ' ', ' ', ' ', ' ',
   ' ', 'W', 'R', 'I', 'T', 'E', '(', '1', ')', ';', '\n', ' ', ' ', ' ', ' ', ' ', ' ', 'L', 'E', 'F',
   'T', ';', '\n', ' ', ' ', ' ', ' ', '}', '\n', ' ', ' ', '}', '\n', '\n', ' ', 'H', ':', '\n', ' ',
   ' ', 'C', 'H', 'E', 'C', 'K', '_', 'S', 'T', 'E', 'P', 'S', ';', '\n', '}', '\n']

theorem f2315619_text : f2315619.text = letters2315619 := by letters

def letters2333909 : List Char :=
  ['#', 'd', 'e', 'f', 'i', 'n', 'e', ' ', 'P', 'R', 'O', 'G', 'R', 'A', 'M', ' ', '"', '1', 'R', 'B',
   ' ', '2', 'R', 'B', ' ', '1', 'L', 'B', ' ', '1', 'L', 'A', ' ', ' ', '1', 'L', 'B', ' ', '3', 'R',
   'A', ' ', '3', 'L', 'A', ' ', '2', 'R', 'B', '"', '\n', '\n', '#', 'd', 'e', 'f', 'i', 'n', 'e',
   ' ', 'T', 'A', 'P', 'E', 'L', 'E', 'N', ' ', '4', '0', '6', '5', '\n', '\n', '#', 'i', 'n', 'c',
   'l', 'u', 'd', 'e', ' ', '"', 'm', 'a', 'c', 'h', 'i', 'n', 'e', '.', 'h', '"', '\n', '\n', 'i',
   'n', 't', ' ', 'm', 'a', 'i', 'n', '(', 'v', 'o', 'i', 'd', ')', '\n', '{', '\n', ' ', ' ', '/',
   '/', ' ', 'A', '0', '\n', ' ', ' ', 'W', 'R', 'I', 'T', 'E', '(', '1', ')', ';', '\n', ' ', ' ',
   'R', 'I', 'G', 'H', 'T', ';', '\n', '\n', ' ', ' ', 'w', 'h', 'i', 'l', 'e', ' ', '(', '1', ')',
   ' ', '{', '\n', ' ', ' ', ' ', ' ', 's', 'w', 'i', 't', 'c', 'h', ' ', '(', 'S', 'C', 'A', 'N', ')',
   ' ', '{', '\n', ' ', ' ', ' ', ' ', ' ', ' ', 'c', 'a', 's', 'e', ' ', '0', ':', '\n', ' ', ' ',
   ' ', ' ', ' ', ' ', ' ', ' ', '/', '/', ' ', 'B', '0', '\n', ' ', ' ', ' ', ' ', ' ', ' ', ' ', ' ',
   'C', 'H', 'E', 'C', 'K', '_', 'R', 'E', 'C', 'U', 'R', '(', 'L', ')', ';', '\n', ' ', ' ', ' ', ' ',
   ' ', ' ', ' ', ' ', 'W', 'R', 'I', 'T', 'E', '(', '1', ')', ';', '\n', ' ', ' ', ' ', ' ', ' ', ' ',
   ' ', ' ', 'L', 'E', 'F', 'T', ';', '\n', ' ', ' ', ' ', ' ', ' ', ' ', ' ', ' ', 'c', 'o', 'n', 't',
   'i', 'n', 'u', 'e', ';', '\n', '\n', ' ', ' ', ' ', ' ', ' ', ' ', 'c', 'a', 's', 'e', ' ', '3',
   ':', '\n', ' ', ' ', ' ', ' ', ' ', ' ', ' ', ' ', '/', '/', ' ', 'B', '3', '\n', ' ', ' ', ' ',
   ' ', ' ', ' ', ' ', ' ', 'W', 'R', 'I', 'T', 'E', '(', '2', ')', ';', '\n', ' ', ' ', ' ', ' ', ' ',
   ' ', ' ', ' ', 'R', 'I', 'G', 'H', 'T', ';', '\n', ' ', ' ', ' ', ' ', ' ', ' ', ' ', ' ', 'c', 'o',
   'n', 't', 'i', 'n', 'u', 'e', ';', '\n', '\n', ' ', ' ', ' ', ' ', ' ', ' ', 'c', 'a', 's', 'e',
   ' ', '1', ':', '\n', ' ', ' ', ' ', ' ', ' ', ' ', ' ', ' ', '/', '/', ' ', 'B', '1', '\n', ' ',
   ' ', ' ', ' ', ' ', ' ', ' ', ' ', 'W', 'R', 'I', 'T', 'E', '(', '3', ')', ';', '\n', ' ', ' ', ' ',
   ' ', ' ', ' ', ' ', ' ', 'R', 'I', 'G', 'H', 'T', ';', '\n', ' ', ' ', ' ', ' ', ' ', ' ', ' ', ' ',
   'b', 'r', 'e', 'a', 'k', ';', '\n', '\n', ' ', ' ', ' ', ' ', ' ', ' ', 'c', 'a', 's', 'e', ' ',
   '2', ':', '\n', ' ', ' ', ' ', ' ', ' ', ' ', ' ', ' ', '/', '/', ' ', 'B', '2', '\n', ' ', ' ',
   ' ', ' ', ' ', ' ', ' ', ' ', 'W', 'R', 'I', 'T', 'E', '(', '3', ')', ';', '\n', ' ', ' ', ' ', ' ',
   ' ', ' ', ' ', ' ', 'L', 'E', 'F', 'T', ';', '\n', ' ', ' ', ' ', ' ', ' ', ' ', ' ', ' ', 'b', 'r',
   'e', 'a', 'k', ';', '\n', ' ', ' ', ' ', ' ', '}', '\n', '\n', ' ', ' ', ' ', ' ', 'w', 'h', 'i',
   'l', 'e', ' ', '(', 'S', 'C', 'A', 'N', ' ', '=', '=', ' ', '3', ')', ' ', '{', '\n', ' ', ' ', ' ',
   ' ', ' ', ' ', '/', '/', ' ', 'A', '3', '\n', ' ', ' ', ' ', ' ', ' ', ' ', 'W', 'R', 'I', 'T', 'E',
   '(', '1', ')', ';', '\n', ' ', ' ', ' ', ' ', ' ', ' ', 'L', 'E', 'F', 'T', ';', '\n', ' ', ' ',
   ' ', ' ', '}', '\n', '\n', ' ', ' ', ' ', ' ', 's', 'w', 'i', 't', 'c', 'h', ' ', '(', 'S', 'C',
   'A', 'N', ')', ' ', '{', '\n', ' ', ' ', ' ', ' ', ' ', ' ', 'c', 'a', 's', 'e', ' ', '0', ':',
   '\n', ' ', ' ', ' ', ' ', ' ', ' ', ' ', ' ', '/', '/', ' ', 'A', '0', '\n', ' ', ' ', ' ', ' ',
   ' ', ' ', ' ', ' ', 'W', 'R', 'I', 'T', 'E', '(', '1', ')', ';', '\n', ' ', ' ', ' ', ' ', ' ', ' ',
   ' ', ' ', 'R', 'I', 'G', 'H', 'T', ';', '\n', ' ', ' ', ' ', ' ', ' ', ' ', ' ', ' ', 'b', 'r', 'e',
   'a', 'k', ';', '\n', ' ', ' ', ' ', ' ', ' ', ' ', 'c', 'a', 's', 'e', ' ', '1', ':', '\n', ' ',
   ' ', ' ', ' ', ' ', ' ', ' ', ' ', '/', '/', ' ', 'A', '1', '\n', ' ', ' ', ' ', ' ', ' ', ' ', ' ',
   ' ', 'W', 'R', 'I', 'T', 'E', '(', '2', ')', ';', '\n', ' ', ' ', ' ', ' ', ' ', ' ', ' ', ' ', 'R',
   'I', 'G', 'H', 'T', ';', '\n', ' ', ' ', ' ', ' ', ' ', ' ', ' ', ' ', 'b', 'r', 'e', 'a', 'k', ';',
   '\n', ' ', ' ', ' ', ' ', ' ', ' ', 'c', 'a', 's', 'e', ' ', '2', ':', '\n', ' ', ' ', ' ', ' ',
   ' ', ' ', ' ', ' ', '/', '/', ' ', 'A', '2', '\n', ' ', ' ', ' ', ' ', ' ', ' ', ' ', ' ', 'W', 'R',
   'I', 'T', 'E', '(', '1', ')', ';', '\n', ' ', ' ', ' ', ' ', ' ', ' ', ' ', ' ', 'L', 'E', 'F', 'T',
   ';', '\n', ' ', ' ', ' ', ' ', ' ', ' ', ' ', ' ', 'b', 'r', 'e', 'a', 'k', ';', '\n', ' ', ' ',
   ' ', ' ', '}', '\n', ' ', ' ', '}', '\n', '\n', ' ', 'H', ':', '\n', ' ', ' ', 'C', 'H', 'E', 'C',
   'K', '_', 'S', 'T', 'E', 'P', 'S', ';', '\n', '}', '\n']

theorem f2333909_text : f2333909.text = letters2333909 := by letters

def letters2819 : List Char :=
  ['#', 'd', 'e', 'f', 'i', 'n', 'e', ' ', 'P', 'R', 'O', 'G', 'R', 'A', 'M', ' ', '"', '1', 'R', 'B',
   ' ', '1', 'R', 'C', ' ', ' ', '1', 'L', 'C', ' ', '1', 'R', 'D', ' ', ' ', '1', 'R', 'A', ' ', '1',
   'L', 'D', ' ', ' ', '0', 'R', 'D', ' ', '0', 'L', 'B', '"', '\n', '\n', '#', 'd', 'e', 'f', 'i',
   'n', 'e', ' ', 'T', 'A', 'P', 'E', 'L', 'E', 'N', ' ', '3', '0', '0', '\n', '\n', '#', 'i', 'n',
   'c', 'l', 'u', 'd', 'e', ' ', '"', 'm', 'a', 'c', 'h', 'i', 'n', 'e', '.', 'h', '"', '\n', '\n',
   'i', 'n', 't', ' ', 'm', 'a', 'i', 'n', '(', 'v', 'o', 'i', 'd', ')', '\n', '{', '\n', ' ', ' ',
   '/', '/', ' ', 'A', '0', '\n', ' ', ' ', 'P', 'R', 'I', 'N', 'T', ';', '\n', ' ', ' ', 'R', 'I',
   'G', 'H', 'T', ';', '\n', '\n', ' ', ' ', '/', '/', ' ', 'B', '0', '\n', ' ', ' ', 'P', 'R', 'I',
   'N', 'T', ';', '\n', ' ', ' ', 'L', 'E', 'F', 'T', ';', '\n', '\n', ' ', ' ', 'w', 'h', 'i', 'l',
   'e', ' ', '(', '1', ')', ' ', '{', '\n', ' ', ' ', ' ', ' ', 'i', 'f', ' ', '(', 'B', 'L', 'A', 'N',
   'K', ')', '\n', ' ', ' ', ' ', ' ', ' ', ' ', '{', '\n', ' ', ' ', ' ', ' ', ' ', ' ', ' ', ' ',
   '/', '/', ' ', 'C', '0', '\n', ' ', ' ', ' ', ' ', ' ', ' ', ' ', ' ', 'P', 'R', 'I', 'N', 'T', ';',
   '\n', ' ', ' ', ' ', ' ', ' ', ' ', ' ', ' ', 'R', 'I', 'G', 'H', 'T', ';', '\n', '\n', ' ', ' ',
   ' ', ' ', ' ', ' ', ' ', ' ', 'i', 'f', ' ', '(', '!', 'B', 'L', 'A', 'N', 'K', ')', ' ', '{', '\n',
   ' ', ' ', ' ', ' ', ' ', ' ', ' ', ' ', ' ', ' ', '/', '/', ' ', 'A', '1', '\n', ' ', ' ', ' ', ' ',
   ' ', ' ', ' ', ' ', ' ', ' ', 'R', 'I', 'G', 'H', 'T', ';', '\n', ' ', ' ', ' ', ' ', ' ', ' ', ' ',
   ' ', ' ', ' ', 'c', 'o', 'n', 't', 'i', 'n', 'u', 'e', ';', '\n', ' ', ' ', ' ', ' ', ' ', ' ', ' ',
   ' ', '}', '\n', '\n', ' ', ' ', ' ', ' ', ' ', ' ', ' ', ' ', '/', '/', ' ', 'A', '0', '\n', ' ',
   ' ', ' ', ' ', ' ', ' ', ' ', ' ', 'P', 'R', 'I', 'N', 'T', ';', '\n', ' ', ' ', ' ', ' ', ' ', ' ',
   ' ', ' ', 'R', 'I', 'G', 'H', 'T', ';', '\n', ' ', ' ', ' ', ' ', ' ', ' ', '}', '\n', ' ', ' ',
   ' ', ' ', 'e', 'l', 's', 'e', '\n', ' ', ' ', ' ', ' ', ' ', ' ', '{', '\n', ' ', ' ', ' ', ' ',
   ' ', ' ', ' ', ' ', '/', '/', ' ', 'C', '1', '\n', ' ', ' ', ' ', ' ', ' ', ' ', ' ', ' ', 'L', 'E',
   'F', 'T', ';', '\n', '\n', ' ', ' ', ' ', ' ', ' ', ' ', ' ', ' ', 'w', 'h', 'i', 'l', 'e', ' ',
   '(', 'B', 'L', 'A', 'N', 'K', ')', ' ', '{', '\n', ' ', ' ', ' ', ' ', ' ', ' ', ' ', ' ', ' ', ' ',
   '/', '/', ' ', 'D', '0', '\n', ' ', ' ', ' ', ' ', ' ', ' ', ' ', ' ', ' ', ' ', 'R', 'I', 'G', 'H',
   'T', ';', '\n', ' ', ' ', ' ', ' ', ' ', ' ', ' ', ' ', '}', '\n', '\n', ' ', ' ', ' ', ' ', ' ',
   ' ', ' ', ' ', '/', '/', ' ', 'D', '1', '\n', ' ', ' ', ' ', ' ', ' ', ' ', ' ', ' ', 'E', 'R', 'A',
   'S', 'E', ';', '\n', ' ', ' ', ' ', ' ', ' ', ' ', ' ', ' ', 'L', 'E', 'F', 'T', ';', '\n', ' ',
   ' ', ' ', ' ', ' ', ' ', '}', '\n', '\n', ' ', ' ', ' ', ' ', 'w', 'h', 'i', 'l', 'e', ' ', '(',
   '!', 'B', 'L', 'A', 'N', 'K', ')', ' ', '{', '\n', ' ', ' ', ' ', ' ', ' ', ' ', '/', '/', ' ', 'B',
   '1', '\n', ' ', ' ', ' ', ' ', ' ', ' ', 'R', 'I', 'G', 'H', 'T', ';', '\n', '\n', ' ', ' ', ' ',
   ' ', ' ', ' ', 'w', 'h', 'i', 'l', 'e', ' ', '(', 'B', 'L', 'A', 'N', 'K', ')', ' ', '{', '\n', ' ',
   ' ', ' ', ' ', ' ', ' ', ' ', ' ', '/', '/', ' ', 'D', '0', '\n', ' ', ' ', ' ', ' ', ' ', ' ', ' ',
   ' ', 'C', 'H', 'E', 'C', 'K', '_', 'R', 'E', 'C', 'U', 'R', '(', 'R', ')', ';', '\n', ' ', ' ', ' ',
   ' ', ' ', ' ', ' ', ' ', 'R', 'I', 'G', 'H', 'T', ';', '\n', ' ', ' ', ' ', ' ', ' ', ' ', '}',
   '\n', '\n', ' ', ' ', ' ', ' ', ' ', ' ', '/', '/', ' ', 'D', '1', '\n', ' ', ' ', ' ', ' ', ' ',
   ' ', 'E', 'R', 'A', 'S', 'E', ';', '\n', ' ', ' ', ' ', ' ', ' ', ' ', 'L', 'E', 'F', 'T', ';',
   '\n', ' ', ' ', ' ', ' ', '}', '\n', '\n', ' ', ' ', ' ', ' ', '/', '/', ' ', 'B', '0', '\n', ' ',
   ' ', ' ', ' ', 'P', 'R', 'I', 'N', 'T', ';', '\n', ' ', ' ', ' ', ' ', 'L', 'E', 'F', 'T', ';',
   '\n', ' ', ' ', '}', '\n', '\n', ' ', 'H', ':', '\n', ' ', ' ', 'C', 'H', 'E', 'C', 'K', '_', 'S',
   'T', 'E', 'P', 'S', ';', '\n', '}', '\n']

theorem f2819_text : f2819.text = letters2819 := by letters

def letters31315 : List Char :=
  ['#', 'd', 'e', 'f', 'i', 'n', 'e', ' ', 'T', 'A', 'P', 'E', 'L', 'E', 'N', ' ', '1', '0', '0', '0',
   '\n', '\n', '#', 'i', 'n', 'c', 'l', 'u', 'd', 'e', ' ', '"', 'm', 'a', 'c', 'h', 'i', 'n', 'e',
   '.', 'h', '"', '\n', '\n', 'i', 'n', 't', ' ', 'm', 'a', 'i', 'n', '(', 'v', 'o', 'i', 'd', ')',
   '\n', '{', '\n', ' ', 'A', ':', '\n', ' ', ' ', 'i', 'f', ' ', '(', 'B', 'L', 'A', 'N', 'K', ')',
   '\n', ' ', ' ', ' ', ' ', '{', '\n', ' ', ' ', ' ', ' ', ' ', ' ', 'P', 'R', 'I', 'N', 'T', ';',
   '\n', ' ', ' ', ' ', ' ', ' ', ' ', 'R', 'I', 'G', 'H', 'T', ';', '\n', ' ', ' ', ' ', ' ', ' ',
   ' ', 'g', 'o', 't', 'o', ' ', 'B', ';', '\n', ' ', ' ', ' ', ' ', '}', '\n', ' ', ' ', 'e', 'l',
   's', 'e', '\n', ' ', ' ', ' ', ' ', '{', '\n', ' ', ' ', ' ', ' ', ' ', ' ', 'L', 'E', 'F', 'T',
   ';', '\n', ' ', ' ', ' ', ' ', ' ', ' ', 'g', 'o', 't', 'o', ' ', 'C', ';', '\n', ' ', ' ', ' ',
   ' ', '}', '\n', '\n', ' ', 'B', ':', '\n', ' ', ' ', 'i', 'f', ' ', '(', 'B', 'L', 'A', 'N', 'K',
   ')', '\n', ' ', ' ', ' ', ' ', '{', '\n', ' ', ' ', ' ', ' ', ' ', ' ', 'L', 'E', 'F', 'T', ';',
   '\n', ' ', ' ', ' ', ' ', ' ', ' ', 'g', 'o', 't', 'o', ' ', 'C', ';', '\n', ' ', ' ', ' ', ' ',
   '}', '\n', ' ', ' ', 'e', 'l', 's', 'e', '\n', ' ', ' ', ' ', ' ', '{', '\n', ' ', ' ', ' ', ' ',
   ' ', ' ', 'E', 'R', 'A', 'S', 'E', ';', '\n', ' ', ' ', ' ', ' ', ' ', ' ', 'R', 'I', 'G', 'H', 'T',
   ';', '\n', ' ', ' ', ' ', ' ', ' ', ' ', 'g', 'o', 't', 'o', ' ', 'D', ';', '\n', ' ', ' ', ' ',
   ' ', '}', '\n', '\n', ' ', 'C', ':', '\n', ' ', ' ', 'i', 'f', ' ', '(', '!', 'B', 'L', 'A', 'N',
   'K', ')', '\n', ' ', ' ', ' ', ' ', '{', '\n', ' ', ' ', ' ', ' ', ' ', ' ', 'L', 'E', 'F', 'T',
   ';', '\n', ' ', ' ', ' ', ' ', ' ', ' ', 'g', 'o', 't', 'o', ' ', 'E', ';', '\n', ' ', ' ', ' ',
   ' ', '}', '\n', ' ', ' ', 'e', 'l', 's', 'e', '\n', ' ', ' ', ' ', ' ', '{', '\n', ' ', ' ', ' ',
   ' ', ' ', ' ', 'P', 'R', 'I', 'N', 'T', ';', '\n', ' ', ' ', ' ', ' ', ' ', ' ', 'R', 'I', 'G', 'H',
   'T', ';', '\n', ' ', ' ', ' ', ' ', ' ', ' ', 'g', 'o', 't', 'o', ' ', 'D', ';', '\n', ' ', ' ',
   ' ', ' ', '}', '\n', '\n', ' ', 'D', ':', '\n', ' ', ' ', 'i', 'f', ' ', '(', '!', 'B', 'L', 'A',
   'N', 'K', ')', '\n', ' ', ' ', ' ', ' ', '{', '\n', ' ', ' ', ' ', ' ', ' ', ' ', 'L', 'E', 'F',
   'T', ';', '\n', ' ', ' ', ' ', ' ', ' ', ' ', 'g', 'o', 't', 'o', ' ', 'A', ';', '\n', ' ', ' ',
   ' ', ' ', '}', '\n', ' ', ' ', 'e', 'l', 's', 'e', '\n', ' ', ' ', ' ', ' ', '{', '\n', ' ', ' ',
   ' ', ' ', ' ', ' ', 'P', 'R', 'I', 'N', 'T', ';', '\n', ' ', ' ', ' ', ' ', ' ', ' ', 'R', 'I', 'G',
   'H', 'T', ';', '\n', ' ', ' ', ' ', ' ', ' ', ' ', 'g', 'o', 't', 'o', ' ', 'E', ';', '\n', ' ',
   ' ', ' ', ' ', '}', '\n', '\n', ' ', 'E', ':', '\n', ' ', ' ', 'i', 'f', ' ', '(', 'B', 'L', 'A',
   'N', 'K', ')', '\n', ' ', ' ', ' ', ' ', '{', '\n', ' ', ' ', ' ', ' ', ' ', ' ', 'P', 'R', 'I',
   'N', 'T', ';', '\n', ' ', ' ', ' ', ' ', ' ', ' ', 'L', 'E', 'F', 'T', ';', '\n', ' ', ' ', ' ',
   ' ', ' ', ' ', 'g', 'o', 't', 'o', ' ', 'A', ';', '\n', ' ', ' ', ' ', ' ', '}', '\n', ' ', ' ',
   'e', 'l', 's', 'e', '\n', ' ', ' ', ' ', ' ', '{', '\n', ' ', ' ', ' ', ' ', ' ', ' ', 'E', 'R',
   'A', 'S', 'E', ';', '\n', ' ', ' ', ' ', ' ', ' ', ' ', 'L', 'E', 'F', 'T', ';', '\n', ' ', ' ',
   ' ', ' ', ' ', ' ', 'g', 'o', 't', 'o', ' ', 'B', ';', '\n', ' ', ' ', ' ', ' ', '}', '\n', '\n',
   ' ', 'H', ':', '\n', ' ', ' ', 'C', 'H', 'E', 'C', 'K', '_', 'S', 'T', 'E', 'P', 'S', ';', '\n',
   '}', '\n']

theorem f31315_text : f31315.text = letters31315 := by letters

def letters32779477 : List Char :=
  ['#', 'd', 'e', 'f', 'i', 'n', 'e', ' ', 'T', 'A', 'P', 'E', 'L', 'E', 'N', ' ', '2', '0', '0', '0',
   '0', '\n', '\n', '#', 'i', 'n', 'c', 'l', 'u', 'd', 'e', ' ', '"', 'm', 'a', 'c', 'h', 'i', 'n',
   'e', '.', 'h', '"', '\n', '\n', 'i', 'n', 't', ' ', 'm', 'a', 'i', 'n', '(', 'v', 'o', 'i', 'd',
   ')', '\n', '{', '\n', ' ', ' ', '/', '/', ' ', '(', 'A', '0', ')', '\n', ' ', ' ', 'P', 'R', 'I',
   'N', 'T', ';', '\n', ' ', ' ', 'R', 'I', 'G', 'H', 'T', ';', '\n', '\n', ' ', ' ', '/', '/', ' ',
   '(', 'B', '0', ')', '\n', ' ', ' ', 'P', 'R', 'I', 'N', 'T', ';', '\n', ' ', ' ', 'R', 'I', 'G',
   'H', 'T', ';', '\n', '\n', ' ', ' ', 'w', 'h', 'i', 'l', 'e', ' ', '(', '1', ')', ' ', '{', '\n',
   ' ', ' ', ' ', ' ', 'w', 'h', 'i', 'l', 'e', ' ', '(', 'B', 'L', 'A', 'N', 'K', ')', ' ', '{', '\n',
   ' ', ' ', ' ', ' ', ' ', ' ', '/', '/', ' ', 'D', '0', '\n', ' ', ' ', ' ', ' ', ' ', ' ', 'P', 'R',
   'I', 'N', 'T', ';', '\n', ' ', ' ', ' ', ' ', ' ', ' ', 'L', 'E', 'F', 'T', ';', '\n', ' ', ' ',
   ' ', ' ', '}', '\n', '\n', ' ', ' ', ' ', ' ', '/', '/', ' ', 'D', '1', '\n', ' ', ' ', ' ', ' ',
   'L', 'E', 'F', 'T', ';', '\n', '\n', ' ', ' ', ' ', ' ', 'i', 'f', ' ', '(', '!', 'B', 'L', 'A',
   'N', 'K', ')', '\n', ' ', ' ', ' ', ' ', ' ', ' ', '{', '\n', ' ', ' ', ' ', ' ', ' ', ' ', ' ',
   ' ', '/', '/', ' ', 'A', '1', '\n', ' ', ' ', ' ', ' ', ' ', ' ', ' ', ' ', 'L', 'E', 'F', 'T', ';',
   '\n', '\n', ' ', ' ', ' ', ' ', ' ', ' ', ' ', ' ', 'w', 'h', 'i', 'l', 'e', ' ', '(', '!', 'B',
   'L', 'A', 'N', 'K', ')', ' ', '{', '\n', ' ', ' ', ' ', ' ', ' ', ' ', ' ', ' ', ' ', ' ', '/', '/',
   ' ', 'C', '1', '\n', ' ', ' ', ' ', ' ', ' ', ' ', ' ', ' ', ' ', ' ', 'E', 'R', 'A', 'S', 'E', ';',
   '\n', ' ', ' ', ' ', ' ', ' ', ' ', ' ', ' ', ' ', ' ', 'R', 'I', 'G', 'H', 'T', ';', '\n', ' ',
   ' ', ' ', ' ', ' ', ' ', ' ', ' ', '}', '\n', ' ', ' ', ' ', ' ', ' ', ' ', '}', '\n', ' ', ' ',
   ' ', ' ', 'e', 'l', 's', 'e', '\n', ' ', ' ', ' ', ' ', ' ', ' ', '{', '\n', ' ', ' ', ' ', ' ',
   ' ', ' ', ' ', ' ', '/', '/', ' ', 'A', '0', '\n', ' ', ' ', ' ', ' ', ' ', ' ', ' ', ' ', 'P', 'R',
   'I', 'N', 'T', ';', '\n', '\n', ' ', ' ', ' ', ' ', ' ', ' ', ' ', ' ', 'd', 'o', ' ', '{', '\n',
   ' ', ' ', ' ', ' ', ' ', ' ', ' ', ' ', ' ', ' ', '/', '/', ' ', 'B', '1', '\n', ' ', ' ', ' ', ' ',
   ' ', ' ', ' ', ' ', ' ', ' ', 'R', 'I', 'G', 'H', 'T', ';', '\n', ' ', ' ', ' ', ' ', ' ', ' ', ' ',
   ' ', '}', ' ', 'w', 'h', 'i', 'l', 'e', ' ', '(', '!', 'B', 'L', 'A', 'N', 'K', ')', ';', '\n',
   '\n', ' ', ' ', ' ', ' ', ' ', ' ', ' ', ' ', '/', '/', ' ', 'B', '0', '\n', ' ', ' ', ' ', ' ',
   ' ', ' ', ' ', ' ', 'P', 'R', 'I', 'N', 'T', ';', '\n', ' ', ' ', ' ', ' ', ' ', ' ', '}', '\n',
   '\n', ' ', ' ', ' ', ' ', '/', '/', ' ', 'B', '0', ',', ' ', 'C', '0', '\n', ' ', ' ', ' ', ' ',
   'R', 'I', 'G', 'H', 'T', ';', '\n', ' ', ' ', '}', '\n', '\n', ' ', 'H', ':', '\n', ' ', ' ', 'C',
   'H', 'E', 'C', 'K', '_', 'S', 'T', 'E', 'P', 'S', ';', '\n', '}', '\n']

theorem f32779477_text : f32779477.text = letters32779477 := by letters

def letters34 : List Char :=
  ['#', 'd', 'e', 'f', 'i', 'n', 'e', ' ', 'T', 'A', 'P', 'E', 'L', 'E', 'N', ' ', '2', '0', '\n',
   '\n', '#', 'i', 'n', 'c', 'l', 'u', 'd', 'e', ' ', '"', 'm', 'a', 'c', 'h', 'i', 'n', 'e', '.', 'h',
   '"', '\n', '\n', 'i', 'n', 't', ' ', 'm', 'a', 'i', 'n', '(', 'v', 'o', 'i', 'd', ')', '\n', '{',
   '\n', ' ', ' ', 'w', 'h', 'i', 'l', 'e', ' ', '(', '1', ')', ' ', '{', '\n', ' ', ' ', ' ', ' ',
   'i', 'f', ' ', '(', 'B', 'L', 'A', 'N', 'K', ')', '\n', ' ', ' ', ' ', ' ', ' ', ' ', '{', '\n',
   ' ', ' ', ' ', ' ', ' ', ' ', ' ', ' ', '/', '/', ' ', 'A', '0', '\n', ' ', ' ', ' ', ' ', ' ', ' ',
   ' ', ' ', 'P', 'R', 'I', 'N', 'T', ';', '\n', ' ', ' ', ' ', ' ', ' ', ' ', ' ', ' ', 'R', 'I', 'G',
   'H', 'T', ';', '\n', ' ', ' ', ' ', ' ', ' ', ' ', '}', '\n', ' ', ' ', ' ', ' ', 'e', 'l', 's',
   'e', '\n', ' ', ' ', ' ', ' ', ' ', ' ', '{', '\n', ' ', ' ', ' ', ' ', ' ', ' ', ' ', ' ', '/',
   '/', ' ', 'A', '1', '\n', ' ', ' ', ' ', ' ', ' ', ' ', ' ', ' ', 'L', 'E', 'F', 'T', ';', '\n',
   ' ', ' ', ' ', ' ', ' ', ' ', '}', '\n', '\n', ' ', ' ', ' ', ' ', 'i', 'f', ' ', '(', 'B', 'L',
   'A', 'N', 'K', ')', '\n', ' ', ' ', ' ', ' ', ' ', ' ', '{', '\n', ' ', ' ', ' ', ' ', ' ', ' ',
   ' ', ' ', '/', '/', ' ', 'B', '0', '\n', ' ', ' ', ' ', ' ', ' ', ' ', ' ', ' ', 'P', 'R', 'I', 'N',
   'T', ';', '\n', ' ', ' ', ' ', ' ', ' ', ' ', ' ', ' ', 'L', 'E', 'F', 'T', ';', '\n', ' ', ' ',
   ' ', ' ', ' ', ' ', '}', '\n', ' ', ' ', ' ', ' ', 'e', 'l', 's', 'e', '\n', ' ', ' ', ' ', ' ',
   ' ', ' ', '{', '\n', ' ', ' ', ' ', ' ', ' ', ' ', ' ', ' ', '/', '/', ' ', 'B', '1', '\n', ' ',
   ' ', ' ', ' ', ' ', ' ', ' ', ' ', 'L', 'E', 'F', 'T', ';', '\n', ' ', ' ', ' ', ' ', ' ', ' ', ' ',
   ' ', 'b', 'r', 'e', 'a', 'k', ';', '\n', ' ', ' ', ' ', ' ', ' ', ' ', '}', '\n', ' ', ' ', '}',
   '\n', '\n', ' ', ' ', 'w', 'h', 'i', 'l', 'e', ' ', '(', '1', ')', ' ', '{', '\n', ' ', ' ', ' ',
   ' ', 'i', 'f', ' ', '(', 'B', 'L', 'A', 'N', 'K', ')', '\n', ' ', ' ', ' ', ' ', ' ', ' ', '{',
   '\n', ' ', ' ', ' ', ' ', ' ', ' ', ' ', ' ', '/', '/', ' ', 'C', '0', '\n', ' ', ' ', ' ', ' ',
   ' ', ' ', ' ', ' ', 'P', 'R', 'I', 'N', 'T', ';', '\n', ' ', ' ', ' ', ' ', ' ', ' ', ' ', ' ', 'R',
   'I', 'G', 'H', 'T', ';', '\n', ' ', ' ', ' ', ' ', ' ', ' ', '}', '\n', ' ', ' ', ' ', ' ', 'e',
   'l', 's', 'e', '\n', ' ', ' ', ' ', ' ', ' ', ' ', '{', '\n', ' ', ' ', ' ', ' ', ' ', ' ', ' ',
   ' ', '/', '/', ' ', 'C', '1', '\n', ' ', ' ', ' ', ' ', ' ', ' ', ' ', ' ', 'E', 'R', 'A', 'S', 'E',
   ';', '\n', ' ', ' ', ' ', ' ', ' ', ' ', ' ', ' ', 'L', 'E', 'F', 'T', ';', '\n', ' ', ' ', ' ',
   ' ', ' ', ' ', '}', '\n', ' ', ' ', '}', '\n', '\n', ' ', 'H', ':', '\n', ' ', ' ', 'C', 'H', 'E',
   'C', 'K', '_', 'S', 'T', 'E', 'P', 'S', ';', '\n', '}', '\n']

theorem f34_text : f34.text = letters34 := by letters

def letters3932964 : List Char :=
  ['#', 'd', 'e', 'f', 'i', 'n', 'e', ' ', 'P', 'R', 'O', 'G', 'R', 'A', 'M', ' ', '"', '1', 'R', 'B',
   ' ', '2', 'L', 'A', ' ', '1', 'R', 'A', ' ', '1', 'R', 'A', ' ', ' ', '1', 'L', 'B', ' ', '1', 'L',
   'A', ' ', '3', 'R', 'B', ' ', '1', 'R', 'H', '"', '\n', '\n', '#', 'd', 'e', 'f', 'i', 'n', 'e',
   ' ', 'T', 'A', 'P', 'E', 'L', 'E', 'N', ' ', '2', '0', '8', '0', '\n', '\n', '#', 'i', 'n', 'c',
   'l', 'u', 'd', 'e', ' ', '"', 'm', 'a', 'c', 'h', 'i', 'n', 'e', '.', 'h', '"', '\n', '\n', 'i',
   'n', 't', ' ', 'm', 'a', 'i', 'n', '(', 'v', 'o', 'i', 'd', ')', '\n', '{', '\n', ' ', ' ', '/',
   '/', ' ', 'A', '0', '\n', ' ', ' ', 'W', 'R', 'I', 'T', 'E', '(', '1', ')', ';', '\n', ' ', ' ',
   'R', 'I', 'G', 'H', 'T', ';', '\n', '\n', ' ', ' ', 'w', 'h', 'i', 'l', 'e', ' ', '(', 'S', 'C',
   'A', 'N', ' ', '!', '=', ' ', '3', ')', ' ', '{', '\n', ' ', ' ', ' ', ' ', 's', 'w', 'i', 't', 'c',
   'h', ' ', '(', 'S', 'C', 'A', 'N', ')', ' ', '{', '\n', ' ', ' ', ' ', ' ', ' ', ' ', 'c', 'a', 's',
   'e', ' ', '0', ':', '\n', ' ', ' ', ' ', ' ', ' ', ' ', ' ', ' ', '/', '/', ' ', 'B', '0', '\n',
   ' ', ' ', ' ', ' ', ' ', ' ', ' ', ' ', 'W', 'R', 'I', 'T', 'E', '(', '1', ')', ';', '\n', ' ', ' ',
   ' ', ' ', ' ', ' ', ' ', ' ', 'L', 'E', 'F', 'T', ';', '\n', ' ', ' ', ' ', ' ', ' ', ' ', ' ', ' ',
   'b', 'r', 'e', 'a', 'k', ';', '\n', '\n', ' ', ' ', ' ', ' ', ' ', ' ', 'c', 'a', 's', 'e', ' ',
   '2', ':', '\n', ' ', ' ', ' ', ' ', ' ', ' ', ' ', ' ', '/', '/', ' ', 'B', '2', '\n', ' ', ' ',
   ' ', ' ', ' ', ' ', ' ', ' ', 'W', 'R', 'I', 'T', 'E', '(', '3', ')', ';', '\n', ' ', ' ', ' ', ' ',
   ' ', ' ', ' ', ' ', 'R', 'I', 'G', 'H', 'T', ';', '\n', ' ', ' ', ' ', ' ', ' ', ' ', ' ', ' ', 'b',
   'r', 'e', 'a', 'k', ';', '\n', '\n', ' ', ' ', ' ', ' ', ' ', ' ', 'c', 'a', 's', 'e', ' ', '1',
   ':', '\n', ' ', ' ', ' ', ' ', ' ', ' ', ' ', ' ', '/', '/', ' ', 'B', '1', '\n', ' ', ' ', ' ',
   ' ', ' ', ' ', ' ', ' ', 'L', 'E', 'F', 'T', ';', '\n', '\n', ' ', ' ', ' ', ' ', ' ', ' ', ' ',
   ' ', 'w', 'h', 'i', 'l', 'e', ' ', '(', '!', 'B', 'L', 'A', 'N', 'K', ')', ' ', '{', '\n', ' ', ' ',
   ' ', ' ', ' ', ' ', ' ', ' ', ' ', ' ', 's', 'w', 'i', 't', 'c', 'h', ' ', '(', 'S', 'C', 'A', 'N',
   ')', ' ', '{', '\n', ' ', ' ', ' ', ' ', ' ', ' ', ' ', ' ', ' ', ' ', ' ', ' ', 'c', 'a', 's', 'e',
   ' ', '1', ':', '\n', ' ', ' ', ' ', ' ', ' ', ' ', ' ', ' ', ' ', ' ', ' ', ' ', ' ', ' ', '/', '/',
   ' ', 'A', '1', '\n', ' ', ' ', ' ', ' ', ' ', ' ', ' ', ' ', ' ', ' ', ' ', ' ', ' ', ' ', 'W', 'R',
   'I', 'T', 'E', '(', '2', ')', ';', '\n', ' ', ' ', ' ', ' ', ' ', ' ', ' ', ' ', ' ', ' ', ' ', ' ',
   ' ', ' ', 'L', 'E', 'F', 'T', ';', '\n', ' ', ' ', ' ', ' ', ' ', ' ', ' ', ' ', ' ', ' ', ' ', ' ',
   ' ', ' ', 'b', 'r', 'e', 'a', 'k', ';', '\n', ' ', ' ', ' ', ' ', ' ', ' ', ' ', ' ', ' ', ' ', ' ',
   ' ', 'c', 'a', 's', 'e', ' ', '2', ':', '\n', ' ', ' ', ' ', ' ', ' ', ' ', ' ', ' ', ' ', ' ', ' ',
   ' ', ' ', ' ', '/', '/', ' ', 'A', '2', '\n', ' ', ' ', ' ', ' ', ' ', ' ', ' ', ' ', ' ', ' ', ' ',
   ' ', ' ', ' ', 'W', 'R', 'I', 'T', 'E', '(', '1', ')', ';', '\n', ' ', ' ', ' ', ' ', ' ', ' ', ' ',
   ' ', ' ', ' ', ' ', ' ', ' ', ' ', 'R', 'I', 'G', 'H', 'T', ';', '\n', ' ', ' ', ' ', ' ', ' ', ' ',
   ' ', ' ', ' ', ' ', ' ', ' ', ' ', ' ', 'b', 'r', 'e', 'a', 'k', ';', '\n', ' ', ' ', ' ', ' ', ' ',
   ' ', ' ', ' ', ' ', ' ', ' ', ' ', 'c', 'a', 's', 'e', ' ', '3', ':', '\n', ' ', ' ', ' ', ' ', ' ',
   ' ', ' ', ' ', ' ', ' ', ' ', ' ', ' ', ' ', '/', '/', ' ', 'A', '3', '\n', ' ', ' ', ' ', ' ', ' ',
   ' ', ' ', ' ', ' ', ' ', ' ', ' ', ' ', ' ', 'W', 'R', 'I', 'T', 'E', '(', '1', ')', ';', '\n', ' ',
   ' ', ' ', ' ', ' ', ' ', ' ', ' ', ' ', ' ', ' ', ' ', ' ', ' ', 'R', 'I', 'G', 'H', 'T', ';', '\n',
   ' ', ' ', ' ', ' ', ' ', ' ', ' ', ' ', ' ', ' ', ' ', ' ', ' ', ' ', 'b', 'r', 'e', 'a', 'k', ';',
   '\n', ' ', ' ', ' ', ' ', ' ', ' ', ' ', ' ', ' ', ' ', '}', '\n', ' ', ' ', ' ', ' ', ' ', ' ',
   ' ', ' ', '}', '\n', '\n', ' ', ' ', ' ', ' ', ' ', ' ', ' ', ' ', '/', '/', ' ', 'A', '0', '\n',
   ' ', ' ', ' ', ' ', ' ', ' ', ' ', ' ', 'W', 'R', 'I', 'T', 'E', '(', '1', ')', ';', '\n', ' ', ' ',
   ' ', ' ', ' ', ' ', ' ', ' ', 'R', 'I', 'G', 'H', 'T', ';', '\n', ' ', ' ', ' ', ' ', ' ', ' ', ' ',
   ' ', 'b', 'r', 'e', 'a', 'k', ';', '\n', ' ', ' ', ' ', ' ', '}', '\n', ' ', ' ', '}', '\n', '\n',
   ' ', ' ', '/', '/', ' ', 'B', '3', '\n', ' ', ' ', 'R', 'I', 'G', 'H', 'T', ';', '\n', '\n', ' ',
   'H', ':', '\n', ' ', ' ', 'C', 'H', 'E', 'C', 'K', '_', 'S', 'T', 'E', 'P', 'S', ';', '\n', '}',
   '\n']

theorem f3932964_text : f3932964.text = letters3932964 := by letters

def letters455790469742 : List Char :=
  ['#', 'd', 'e', 'f', 'i', 'n', 'e', ' ', 'P', 'R', 'O', 'G', 'R', 'A', 'M', ' ', '"', '1', 'R', 'B',
   ' ', '.', '.', '.', ' ', ' ', '0', 'R', 'C', ' ', '1', 'R', 'B', ' ', ' ', '1', 'L', 'C', ' ', '1',
   'L', 'D', ' ', ' ', '1', 'R', 'E', ' ', '0', 'R', 'D', ' ', ' ', '0', 'L', 'E', ' ', '0', 'R', 'B',
   '"', '\n', '\n', '#', 'd', 'e', 'f', 'i', 'n', 'e', ' ', 'T', 'A', 'P', 'E', 'L', 'E', 'N', ' ',
   '3', '0', '0', '0', '0', '0', '0', '\n', '\n', '#', 'i', 'n', 'c', 'l', 'u', 'd', 'e', ' ', '"',
   'm', 'a', 'c', 'h', 'i', 'n', 'e', '.', 'h', '"', '\n', '\n', 'i', 'n', 't', ' ', 'm', 'a', 'i',
   'n', '(', 'v', 'o', 'i', 'd', ')', '\n', '{', '\n', ' ', ' ', 'r', 'e', 't', 'u', 'r', 'n', ' ',
   '0', ';', ' ', ' ', '/', '/', ' ', 't', 'a', 'k', 'e', 's', ' ', 't', 'o', 'o', ' ', 'l', 'o', 'n',
   'g', '\n', ' ', ' ', '/', '/', ' ', 'A', '0', '\n', ' ', ' ', 'P', 'R', 'I', 'N', 'T', ';', '\n',
   ' ', ' ', 'R', 'I', 'G', 'H', 'T', ';', '\n', '\n', ' ', ' ', 'w', 'h', 'i', 'l', 'e', ' ', '(',
   '1', ')', ' ', '{', '\n', ' ', ' ', ' ', ' ', 'w', 'h', 'i', 'l', 'e', ' ', '(', '!', 'B', 'L', 'A',
   'N', 'K', ')', ' ', '{', '\n', ' ', ' ', ' ', ' ', ' ', ' ', '/', '/', ' ', 'B', '1', '\n', ' ',
   ' ', ' ', ' ', ' ', ' ', 'R', 'I', 'G', 'H', 'T', ';', '\n', ' ', ' ', ' ', ' ', '}', '\n', '\n',
   ' ', ' ', ' ', ' ', '/', '/', ' ', 'B', '0', '\n', ' ', ' ', ' ', ' ', 'R', 'I', 'G', 'H', 'T', ';',
   '\n', '\n', ' ', ' ', ' ', ' ', 'w', 'h', 'i', 'l', 'e', ' ', '(', 'B', 'L', 'A', 'N', 'K', ')',
   ' ', '{', '\n', ' ', ' ', ' ', ' ', ' ', ' ', '/', '/', ' ', 'C', '0', '\n', ' ', ' ', ' ', ' ',
   ' ', ' ', 'P', 'R', 'I', 'N', 'T', ';', '\n', ' ', ' ', ' ', ' ', ' ', ' ', 'L', 'E', 'F', 'T', ';',
   '\n', ' ', ' ', ' ', ' ', '}', '\n', '\n', ' ', ' ', ' ', ' ', '/', '/', ' ', 'C', '1', '\n', ' ',
   ' ', ' ', ' ', 'L', 'E', 'F', 'T', ';', '\n', '\n', ' ', ' ', ' ', ' ', 'w', 'h', 'i', 'l', 'e',
   ' ', '(', '!', 'B', 'L', 'A', 'N', 'K', ')', ' ', ' ', '{', '\n', ' ', ' ', ' ', ' ', ' ', ' ', '/',
   '/', ' ', 'D', '1', '\n', ' ', ' ', ' ', ' ', ' ', ' ', 'E', 'R', 'A', 'S', 'E', ';', '\n', ' ',
   ' ', ' ', ' ', ' ', ' ', 'R', 'I', 'G', 'H', 'T', ';', '\n', ' ', ' ', ' ', ' ', '}', '\n', '\n',
   ' ', ' ', ' ', ' ', '/', '/', ' ', 'D', '0', '\n', ' ', ' ', ' ', ' ', 'P', 'R', 'I', 'N', 'T', ';',
   '\n', ' ', ' ', ' ', ' ', 'R', 'I', 'G', 'H', 'T', ';', '\n', '\n', ' ', ' ', ' ', ' ', 'w', 'h',
   'i', 'l', 'e', ' ', '(', 'B', 'L', 'A', 'N', 'K', ')', ' ', '{', '\n', ' ', ' ', ' ', ' ', ' ', ' ',
   '/', '/', ' ', 'E', '0', '\n', ' ', ' ', ' ', ' ', ' ', ' ', 'L', 'E', 'F', 'T', ';', '\n', ' ',
   ' ', ' ', ' ', '}', '\n', '\n', ' ', ' ', ' ', ' ', '/', '/', ' ', 'E', '1', '\n', ' ', ' ', ' ',
   ' ', 'E', 'R', 'A', 'S', 'E', ';', '\n', ' ', ' ', ' ', ' ', 'R', 'I', 'G', 'H', 'T', ';', '\n',
   ' ', ' ', '}', '\n', '\n', ' ', 'H', ':', '\n', ' ', ' ', 'C', 'H', 'E', 'C', 'K', '_', 'S', 'T',
   'E', 'P', 'S', ';', '\n', '}', '\n']

theorem f455790469742_text : f455790469742.text = letters455790469742 := by letters

def letters455790469746 : List Char :=
  ['#', 'd', 'e', 'f', 'i', 'n', 'e', ' ', 'P', 'R', 'O', 'G', 'R', 'A', 'M', ' ', '"', '1', 'R', 'B',
   ' ', '.', '.', '.', ' ', ' ', '0', 'L', 'C', ' ', '0', 'L', 'B', ' ', ' ', '0', 'L', 'D', ' ', '1',
   'L', 'C', ' ', ' ', '1', 'R', 'D', ' ', '0', 'R', 'E', ' ', ' ', '1', 'L', 'B', ' ', '1', 'L', 'A',
   '"', '\n', '\n', '#', 'd', 'e', 'f', 'i', 'n', 'e', ' ', 'T', 'A', 'P', 'E', 'L', 'E', 'N', ' ',
   '3', '0', '0', '0', '0', '0', '0', '\n', '\n', '#', 'i', 'n', 'c', 'l', 'u', 'd', 'e', ' ', '"',
   'm', 'a', 'c', 'h', 'i', 'n', 'e', '.', 'h', '"', '\n', '\n', 'i', 'n', 't', ' ', 'm', 'a', 'i',
   'n', '(', 'v', 'o', 'i', 'd', ')', '\n', '{', '\n', ' ', ' ', 'r', 'e', 't', 'u', 'r', 'n', ' ',
   '0', ';', ' ', ' ', '/', '/', ' ', 't', 'a', 'k', 'e', 's', ' ', 't', 'o', 'o', ' ', 'l', 'o', 'n',
   'g', '\n', ' ', ' ', '/', '/', ' ', 'A', '0', '\n', ' ', ' ', 'P', 'R', 'I', 'N', 'T', ';', '\n',
   ' ', ' ', 'R', 'I', 'G', 'H', 'T', ';', '\n', '\n', ' ', ' ', 'w', 'h', 'i', 'l', 'e', ' ', '(',
   '1', ')', ' ', '{', '\n', ' ', ' ', ' ', ' ', 'w', 'h', 'i', 'l', 'e', ' ', '(', '!', 'B', 'L', 'A',
   'N', 'K', ')', ' ', '{', '\n', ' ', ' ', ' ', ' ', ' ', ' ', '/', '/', ' ', 'B', '1', '\n', ' ',
   ' ', ' ', ' ', ' ', ' ', 'E', 'R', 'A', 'S', 'E', ';', '\n', ' ', ' ', ' ', ' ', ' ', ' ', 'L', 'E',
   'F', 'T', ';', '\n', ' ', ' ', ' ', ' ', '}', '\n', '\n', ' ', ' ', ' ', ' ', '/', '/', ' ', 'B',
   '0', '\n', ' ', ' ', ' ', ' ', 'L', 'E', 'F', 'T', ';', '\n', '\n', ' ', ' ', ' ', ' ', 'w', 'h',
   'i', 'l', 'e', ' ', '(', '!', 'B', 'L', 'A', 'N', 'K', ')', ' ', '{', '\n', ' ', ' ', ' ', ' ', ' ',
   ' ', '/', '/', ' ', 'C', '1', '\n', ' ', ' ', ' ', ' ', ' ', ' ', 'L', 'E', 'F', 'T', ';', '\n',
   ' ', ' ', ' ', ' ', '}', '\n', '\n', ' ', ' ', ' ', ' ', '/', '/', ' ', 'C', '0', '\n', ' ', ' ',
   ' ', ' ', 'L', 'E', 'F', 'T', ';', '\n', '\n', ' ', ' ', ' ', ' ', 'w', 'h', 'i', 'l', 'e', ' ',
   '(', 'B', 'L', 'A', 'N', 'K', ')', ' ', '{', '\n', ' ', ' ', ' ', ' ', ' ', ' ', '/', '/', ' ', 'D',
   '0', '\n', ' ', ' ', ' ', ' ', ' ', ' ', 'P', 'R', 'I', 'N', 'T', ';', '\n', ' ', ' ', ' ', ' ',
   ' ', ' ', 'R', 'I', 'G', 'H', 'T', ';', '\n', ' ', ' ', ' ', ' ', '}', '\n', '\n', ' ', ' ', ' ',
   ' ', '/', '/', ' ', 'D', '1', '\n', ' ', ' ', ' ', ' ', 'E', 'R', 'A', 'S', 'E', ';', '\n', ' ',
   ' ', ' ', ' ', 'R', 'I', 'G', 'H', 'T', ';', '\n', '\n', ' ', ' ', ' ', ' ', 'i', 'f', ' ', '(',
   'B', 'L', 'A', 'N', 'K', ')', '\n', ' ', ' ', ' ', ' ', ' ', ' ', '{', '\n', ' ', ' ', ' ', ' ',
   ' ', ' ', ' ', ' ', '/', '/', ' ', 'E', '0', '\n', ' ', ' ', ' ', ' ', ' ', ' ', ' ', ' ', 'P', 'R',
   'I', 'N', 'T', ';', '\n', ' ', ' ', ' ', ' ', ' ', ' ', ' ', ' ', 'L', 'E', 'F', 'T', ';', '\n',
   ' ', ' ', ' ', ' ', ' ', ' ', '}', '\n', ' ', ' ', ' ', ' ', 'e', 'l', 's', 'e', '\n', ' ', ' ',
   ' ', ' ', ' ', ' ', '{', '\n', ' ', ' ', ' ', ' ', ' ', ' ', ' ', ' ', '/', '/', ' ', 'E', '1',
   '\n', ' ', ' ', ' ', ' ', ' ', ' ', ' ', ' ', 'L', 'E', 'F', 'T', ';', '\n', '\n', ' ', ' ', ' ',
   ' ', ' ', ' ', ' ', ' ', '/', '/', ' ', 'A', '0', '\n', ' ', ' ', ' ', ' ', ' ', ' ', ' ', ' ', 'P',
   'R', 'I', 'N', 'T', ';', '\n', ' ', ' ', ' ', ' ', ' ', ' ', ' ', ' ', 'R', 'I', 'G', 'H', 'T', ';',
   '\n', ' ', ' ', ' ', ' ', ' ', ' ', '}', '\n', ' ', ' ', '}', '\n', '\n', ' ', 'H', ':', '\n', ' ',
   ' ', 'C', 'H', 'E', 'C', 'K', '_', 'S', 'T', 'E', 'P', 'S', ';', '\n', '}', '\n']

theorem f455790469746_text : f455790469746.text = letters455790469746 := by letters

def letters47176870 : List Char :=
  ['#', 'd', 'e', 'f', 'i', 'n', 'e', ' ', 'T', 'A', 'P', 'E', 'L', 'E', 'N', ' ', '2', '4', '5', '0',
   '0', '\n', '\n', '#', 'i', 'n', 'c', 'l', 'u', 'd', 'e', ' ', '"', 'm', 'a', 'c', 'h', 'i', 'n',
   'e', '.', 'h', '"', '\n', '\n', 'i', 'n', 't', ' ', 'm', 'a', 'i', 'n', '(', 'v', 'o', 'i', 'd',
   ')', '\n', '{', '\n', ' ', ' ', 'w', 'h', 'i', 'l', 'e', ' ', '(', '1', ')', ' ', '{', '\n', ' ',
   ' ', ' ', ' ', 'i', 'f', ' ', '(', '!', 'B', 'L', 'A', 'N', 'K', ')', '\n', ' ', ' ', ' ', ' ', ' ',
   ' ', '{', '\n', ' ', ' ', ' ', ' ', ' ', ' ', ' ', ' ', '/', '/', ' ', 'A', '1', '\n', ' ', ' ',
   ' ', ' ', ' ', ' ', ' ', ' ', 'L', 'E', 'F', 'T', ';', '\n', ' ', ' ', ' ', ' ', ' ', ' ', '}',
   '\n', ' ', ' ', ' ', ' ', 'e', 'l', 's', 'e', '\n', ' ', ' ', ' ', ' ', ' ', ' ', '{', '\n', ' ',
   ' ', ' ', ' ', ' ', ' ', ' ', ' ', '/', '/', ' ', 'A', '0', '\n', ' ', ' ', ' ', ' ', ' ', ' ', ' ',
   ' ', 'P', 'R', 'I', 'N', 'T', ';', '\n', '\n', ' ', ' ', ' ', ' ', ' ', ' ', ' ', ' ', 'd', 'o',
   ' ', '{', '\n', ' ', ' ', ' ', ' ', ' ', ' ', ' ', ' ', ' ', ' ', '/', '/', ' ', 'B', '1', '\n',
   ' ', ' ', ' ', ' ', ' ', ' ', ' ', ' ', ' ', ' ', 'R', 'I', 'G', 'H', 'T', ';', '\n', ' ', ' ', ' ',
   ' ', ' ', ' ', ' ', ' ', '}', ' ', 'w', 'h', 'i', 'l', 'e', ' ', '(', '!', 'B', 'L', 'A', 'N', 'K',
   ')', ';', '\n', '\n', ' ', ' ', ' ', ' ', ' ', ' ', ' ', ' ', '/', '/', ' ', 'B', '0', '\n', ' ',
   ' ', ' ', ' ', ' ', ' ', ' ', ' ', 'P', 'R', 'I', 'N', 'T', ';', '\n', ' ', ' ', ' ', ' ', ' ', ' ',
   ' ', ' ', 'R', 'I', 'G', 'H', 'T', ';', '\n', ' ', ' ', ' ', ' ', ' ', ' ', '}', '\n', '\n', ' ',
   ' ', ' ', ' ', 'i', 'f', ' ', '(', 'B', 'L', 'A', 'N', 'K', ')', '\n', ' ', ' ', ' ', ' ', ' ', ' ',
   '{', '\n', ' ', ' ', ' ', ' ', ' ', ' ', ' ', ' ', '/', '/', ' ', 'C', '0', '\n', ' ', ' ', ' ',
   ' ', ' ', ' ', ' ', ' ', 'P', 'R', 'I', 'N', 'T', ';', '\n', ' ', ' ', ' ', ' ', ' ', ' ', ' ', ' ',
   'R', 'I', 'G', 'H', 'T', ';', '\n', '\n', ' ', ' ', ' ', ' ', ' ', ' ', ' ', ' ', 'w', 'h', 'i',
   'l', 'e', ' ', '(', '!', 'B', 'L', 'A', 'N', 'K', ')', ' ', '{', '\n', ' ', ' ', ' ', ' ', ' ', ' ',
   ' ', ' ', ' ', ' ', '/', '/', ' ', 'D', '1', '\n', ' ', ' ', ' ', ' ', ' ', ' ', ' ', ' ', ' ', ' ',
   'L', 'E', 'F', 'T', ';', '\n', ' ', ' ', ' ', ' ', ' ', ' ', ' ', ' ', '}', '\n', '\n', ' ', ' ',
   ' ', ' ', ' ', ' ', ' ', ' ', '/', '/', ' ', 'D', '0', '\n', ' ', ' ', ' ', ' ', ' ', ' ', ' ', ' ',
   'P', 'R', 'I', 'N', 'T', ';', '\n', ' ', ' ', ' ', ' ', ' ', ' ', ' ', ' ', 'L', 'E', 'F', 'T', ';',
   '\n', ' ', ' ', ' ', ' ', ' ', ' ', '}', '\n', ' ', ' ', ' ', ' ', 'e', 'l', 's', 'e', '\n', ' ',
   ' ', ' ', ' ', ' ', ' ', '{', '\n', ' ', ' ', ' ', ' ', ' ', ' ', ' ', ' ', '/', '/', ' ', 'C', '1',
   '\n', ' ', ' ', ' ', ' ', ' ', ' ', ' ', ' ', 'E', 'R', 'A', 'S', 'E', ';', '\n', ' ', ' ', ' ',
   ' ', ' ', ' ', ' ', ' ', 'L', 'E', 'F', 'T', ';', '\n', '\n', ' ', ' ', ' ', ' ', ' ', ' ', ' ',
   ' ', 'i', 'f', ' ', '(', 'B', 'L', 'A', 'N', 'K', ')', ' ', '{', '\n', ' ', ' ', ' ', ' ', ' ', ' ',
   ' ', ' ', ' ', ' ', ' ', ' ', '/', '/', ' ', 'E', '0', '\n', ' ', ' ', ' ', ' ', ' ', ' ', ' ', ' ',
   ' ', ' ', ' ', ' ', 'P', 'R', 'I', 'N', 'T', ';', '\n', ' ', ' ', ' ', ' ', ' ', ' ', ' ', ' ', ' ',
   ' ', ' ', ' ', 'R', 'I', 'G', 'H', 'T', ';', '\n', ' ', ' ', ' ', ' ', ' ', ' ', ' ', ' ', ' ', ' ',
   ' ', ' ', 'b', 'r', 'e', 'a', 'k', ';', '\n', ' ', ' ', ' ', ' ', ' ', ' ', ' ', ' ', '}', '\n',
   '\n', ' ', ' ', ' ', ' ', ' ', ' ', ' ', ' ', '/', '/', ' ', 'E', '1', '\n', ' ', ' ', ' ', ' ',
   ' ', ' ', ' ', ' ', 'E', 'R', 'A', 'S', 'E', ';', '\n', ' ', ' ', ' ', ' ', ' ', ' ', ' ', ' ', 'L',
   'E', 'F', 'T', ';', '\n', ' ', ' ', ' ', ' ', ' ', ' ', '}', '\n', ' ', ' ', '}', '\n', '\n', ' ',
   'H', ':', '\n', ' ', ' ', 'C', 'H', 'E', 'C', 'K', '_', 'S', 'T', 'E', 'P', 'S', ';', '\n', '}',
   '\n']

theorem f47176870_text : f47176870.text = letters47176870 := by letters

def letters66345 : List Char :=
  ['#', 'd', 'e', 'f', 'i', 'n', 'e', ' ', 'T', 'A', 'P', 'E', 'L', 'E', 'N', ' ', '1', '0', '3', '0',
   '\n', '\n', '#', 'i', 'n', 'c', 'l', 'u', 'd', 'e', ' ', '"', 'm', 'a', 'c', 'h', 'i', 'n', 'e',
   '.', 'h', '"', '\n', '\n', 'i', 'n', 't', ' ', 'm', 'a', 'i', 'n', '(', 'v', 'o', 'i', 'd', ')',
   '\n', '{', '\n', ' ', ' ', 'w', 'h', 'i', 'l', 'e', ' ', '(', '1', ')', ' ', '{', '\n', ' ', ' ',
   ' ', ' ', 'i', 'f', ' ', '(', 'B', 'L', 'A', 'N', 'K', ')', '\n', ' ', ' ', ' ', ' ', ' ', ' ', '{',
   '\n', ' ', ' ', ' ', ' ', ' ', ' ', ' ', ' ', '/', '/', ' ', 'A', '0', '\n', ' ', ' ', ' ', ' ',
   ' ', ' ', ' ', ' ', 'P', 'R', 'I', 'N', 'T', ';', '\n', ' ', ' ', ' ', ' ', ' ', ' ', ' ', ' ', 'R',
   'I', 'G', 'H', 'T', ';', '\n', '\n', ' ', ' ', ' ', ' ', ' ', ' ', ' ', ' ', 'i', 'f', ' ', '(',
   '!', 'B', 'L', 'A', 'N', 'K', ')', ' ', '{', '\n', ' ', ' ', ' ', ' ', ' ', ' ', ' ', ' ', ' ', ' ',
   '/', '/', ' ', 'B', '1', '\n', ' ', ' ', ' ', ' ', ' ', ' ', ' ', ' ', ' ', ' ', 'E', 'R', 'A', 'S',
   'E', ';', '\n', ' ', ' ', ' ', ' ', ' ', ' ', ' ', ' ', ' ', ' ', 'L', 'E', 'F', 'T', ';', '\n',
   ' ', ' ', ' ', ' ', ' ', ' ', ' ', ' ', ' ', ' ', 'c', 'o', 'n', 't', 'i', 'n', 'u', 'e', ';', '\n',
   ' ', ' ', ' ', ' ', ' ', ' ', ' ', ' ', '}', '\n', '\n', ' ', ' ', ' ', ' ', ' ', ' ', ' ', ' ',
   '/', '/', ' ', 'B', '0', '\n', ' ', ' ', ' ', ' ', ' ', ' ', ' ', ' ', 'P', 'R', 'I', 'N', 'T', ';',
   '\n', ' ', ' ', ' ', ' ', ' ', ' ', ' ', ' ', 'L', 'E', 'F', 'T', ';', '\n', ' ', ' ', ' ', ' ',
   ' ', ' ', '}', '\n', ' ', ' ', ' ', ' ', 'e', 'l', 's', 'e', '\n', ' ', ' ', ' ', ' ', ' ', ' ',
   '{', '\n', ' ', ' ', ' ', ' ', ' ', ' ', ' ', ' ', '/', '/', ' ', 'A', '1', '\n', ' ', ' ', ' ',
   ' ', ' ', ' ', ' ', ' ', 'E', 'R', 'A', 'S', 'E', ';', '\n', ' ', ' ', ' ', ' ', ' ', ' ', ' ', ' ',
   'L', 'E', 'F', 'T', ';', '\n', '\n', ' ', ' ', ' ', ' ', ' ', ' ', ' ', ' ', '/', '/', ' ', 'C',
   '0', '\n', ' ', ' ', ' ', ' ', ' ', ' ', ' ', ' ', 'w', 'h', 'i', 'l', 'e', ' ', '(', 'B', 'L', 'A',
   'N', 'K', ')', ' ', '{', '\n', ' ', ' ', ' ', ' ', ' ', ' ', ' ', ' ', ' ', ' ', 'P', 'R', 'I', 'N',
   'T', ';', '\n', ' ', ' ', ' ', ' ', ' ', ' ', ' ', ' ', ' ', ' ', 'R', 'I', 'G', 'H', 'T', ';',
   '\n', ' ', ' ', ' ', ' ', ' ', ' ', ' ', ' ', '}', '\n', '\n', ' ', ' ', ' ', ' ', ' ', ' ', ' ',
   ' ', '/', '/', ' ', 'C', '1', '\n', ' ', ' ', ' ', ' ', ' ', ' ', ' ', ' ', 'R', 'I', 'G', 'H', 'T',
   ';', '\n', ' ', ' ', ' ', ' ', ' ', ' ', '}', '\n', '\n', ' ', ' ', ' ', ' ', '/', '/', ' ', 'D',
   '1', '\n', ' ', ' ', ' ', ' ', 'w', 'h', 'i', 'l', 'e', ' ', '(', '!', 'B', 'L', 'A', 'N', 'K', ')',
   ' ', '{', '\n', ' ', ' ', ' ', ' ', ' ', ' ', 'E', 'R', 'A', 'S', 'E', ';', '\n', ' ', ' ', ' ',
   ' ', ' ', ' ', 'L', 'E', 'F', 'T', ';', '\n', ' ', ' ', ' ', ' ', '}', '\n', '\n', ' ', ' ', ' ',
   ' ', '/', '/', ' ', 'D', '0', '\n', ' ', ' ', ' ', ' ', 'P', 'R', 'I', 'N', 'T', ';', '\n', ' ',
   ' ', ' ', ' ', 'L', 'E', 'F', 'T', ';', '\n', ' ', ' ', '}', '\n', '\n', ' ', 'H', ':', '\n', ' ',
   ' ', 'C', 'H', 'E', 'C', 'K', '_', 'S', 'T', 'E', 'P', 'S', ';', '\n', '}', '\n']

theorem f66345_text : f66345.text = letters66345 := by letters

def letters7021292621 : List Char :=
  ['#', 'd', 'e', 'f', 'i', 'n', 'e', ' ', 'P', 'R', 'O', 'G', 'R', 'A', 'M', ' ', '"', '1', 'R', 'B',
   ' ', '4', 'L', 'A', ' ', '1', 'L', 'A', ' ', '1', 'R', '_', ' ', '2', 'R', 'B', ' ', ' ', '2', 'L',
   'B', ' ', '3', 'L', 'A', ' ', '1', 'L', 'B', ' ', '2', 'R', 'A', ' ', '0', 'R', 'B', '"', '\n',
   '\n', '#', 'd', 'e', 'f', 'i', 'n', 'e', ' ', 'T', 'A', 'P', 'E', 'L', 'E', 'N', ' ', '1', '1', '0',
   '\n', '\n', '#', 'i', 'n', 'c', 'l', 'u', 'd', 'e', ' ', '"', 'm', 'a', 'c', 'h', 'i', 'n', 'e',
   '.', 'h', '"', '\n', '\n', 'i', 'n', 't', ' ', 'm', 'a', 'i', 'n', '(', 'v', 'o', 'i', 'd', ')',
   '\n', '{', '\n', ' ', ' ', 'r', 'e', 't', 'u', 'r', 'n', ' ', '0', ';', ' ', ' ', '/', '/', ' ',
   't', 'a', 'k', 'e', 's', ' ', 't', 'o', 'o', ' ', 'l', 'o', 'n', 'g', '\n', ' ', 'A', ':', '\n',
   ' ', ' ', 's', 'w', 'i', 't', 'c', 'h', ' ', '(', 'S', 'C', 'A', 'N', ')', ' ', '{', '\n', ' ', ' ',
   ' ', ' ', 'c', 'a', 's', 'e', ' ', '0', ':', '\n', ' ', ' ', ' ', ' ', ' ', ' ', '/', '/', ' ', 'A',
   '0', '\n', ' ', ' ', ' ', ' ', ' ', ' ', 'W', 'R', 'I', 'T', 'E', '(', '1', ')', ';', '\n', ' ',
   ' ', ' ', ' ', ' ', ' ', 'R', 'I', 'G', 'H', 'T', ';', '\n', ' ', ' ', ' ', ' ', ' ', ' ', 'g', 'o',
   't', 'o', ' ', 'B', ';', '\n', ' ', ' ', ' ', ' ', 'c', 'a', 's', 'e', ' ', '1', ':', '\n', ' ',
   ' ', ' ', ' ', ' ', ' ', '/', '/', ' ', 'A', '1', '\n', ' ', ' ', ' ', ' ', ' ', ' ', 'W', 'R', 'I',
   'T', 'E', '(', '4', ')', ';', '\n', ' ', ' ', ' ', ' ', ' ', ' ', 'L', 'E', 'F', 'T', ';', '\n',
   ' ', ' ', ' ', ' ', ' ', ' ', 'g', 'o', 't', 'o', ' ', 'A', ';', '\n', ' ', ' ', ' ', ' ', 'c', 'a',
   's', 'e', ' ', '2', ':', '\n', ' ', ' ', ' ', ' ', ' ', ' ', '/', '/', ' ', 'A', '2', '\n', ' ',
   ' ', ' ', ' ', ' ', ' ', 'W', 'R', 'I', 'T', 'E', '(', '1', ')', ';', '\n', ' ', ' ', ' ', ' ', ' ',
   ' ', 'L', 'E', 'F', 'T', ';', '\n', ' ', ' ', ' ', ' ', ' ', ' ', 'g', 'o', 't', 'o', ' ', 'A', ';',
   '\n', ' ', ' ', ' ', ' ', 'c', 'a', 's', 'e', ' ', '3', ':', '\n', ' ', ' ', ' ', ' ', ' ', ' ',
   '/', '/', ' ', 'A', '3', '\n', ' ', ' ', ' ', ' ', ' ', ' ', 'W', 'R', 'I', 'T', 'E', '(', '1', ')',
   ';', '\n', ' ', ' ', ' ', ' ', ' ', ' ', 'R', 'I', 'G', 'H', 'T', ';', '\n', ' ', ' ', ' ', ' ',
   ' ', ' ', 'g', 'o', 't', 'o', ' ', 'H', ';', '\n', ' ', ' ', ' ', ' ', 'c', 'a', 's', 'e', ' ', '4',
   ':', '\n', ' ', ' ', ' ', ' ', ' ', ' ', '/', '/', ' ', 'A', '4', '\n', ' ', ' ', ' ', ' ', ' ',
   ' ', 'W', 'R', 'I', 'T', 'E', '(', '2', ')', ';', '\n', ' ', ' ', ' ', ' ', ' ', ' ', 'R', 'I', 'G',
   'H', 'T', ';', '\n', ' ', ' ', ' ', ' ', ' ', ' ', 'g', 'o', 't', 'o', ' ', 'B', ';', '\n', ' ',
   ' ', '}', '\n', '\n', ' ', 'B', ':', '\n', ' ', ' ', 's', 'w', 'i', 't', 'c', 'h', ' ', '(', 'S',
   'C', 'A', 'N', ')', ' ', '{', '\n', ' ', ' ', ' ', ' ', 'c', 'a', 's', 'e', ' ', '0', ':', '\n',
   ' ', ' ', ' ', ' ', ' ', ' ', '/', '/', ' ', 'B', '0', '\n', ' ', ' ', ' ', ' ', ' ', ' ', 'W', 'R',
   'I', 'T', 'E', '(', '2', ')', ';', '\n', ' ', ' ', ' ', ' ', ' ', ' ', 'L', 'E', 'F', 'T', ';',
   '\n', ' ', ' ', ' ', ' ', ' ', ' ', 'g', 'o', 't', 'o', ' ', 'B', ';', '\n', ' ', ' ', ' ', ' ',
   'c', 'a', 's', 'e', ' ', '1', ':', '\n', ' ', ' ', ' ', ' ', ' ', ' ', '/', '/', ' ', 'B', '1',
   '\n', ' ', ' ', ' ', ' ', ' ', ' ', 'W', 'R', 'I', 'T', 'E', '(', '3', ')', ';', '\n', ' ', ' ',
   ' ', ' ', ' ', ' ', 'L', 'E', 'F', 'T', ';', '\n', ' ', ' ', ' ', ' ', ' ', ' ', 'g', 'o', 't', 'o',
   ' ', 'A', ';', '\n', ' ', ' ', ' ', ' ', 'c', 'a', 's', 'e', ' ', '2', ':', '\n', ' ', ' ', ' ',
   ' ', ' ', ' ', '/', '/', ' ', 'B', '2', '\n', ' ', ' ', ' ', ' ', ' ', ' ', 'W', 'R', 'I', 'T', 'E',
   '(', '1', ')', ';', '\n', ' ', ' ', ' ', ' ', ' ', ' ', 'L', 'E', 'F', 'T', ';', '\n', ' ', ' ',
   ' ', ' ', ' ', ' ', 'g', 'o', 't', 'o', ' ', 'B', ';', '\n', ' ', ' ', ' ', ' ', 'c', 'a', 's', 'e',
   ' ', '3', ':', '\n', ' ', ' ', ' ', ' ', ' ', ' ', '/', '/', ' ', 'B', '3', '\n', ' ', ' ', ' ',
   ' ', ' ', ' ', 'W', 'R', 'I', 'T', 'E', '(', '2', ')', ';', '\n', ' ', ' ', ' ', ' ', ' ', ' ', 'R',
   'I', 'G', 'H', 'T', ';', '\n', ' ', ' ', ' ', ' ', ' ', ' ', 'g', 'o', 't', 'o', ' ', 'A', ';',
   '\n', ' ', ' ', ' ', ' ', 'c', 'a', 's', 'e', ' ', '4', ':', '\n', ' ', ' ', ' ', ' ', ' ', ' ',
   '/', '/', ' ', 'B', '4', '\n', ' ', ' ', ' ', ' ', ' ', ' ', 'W', 'R', 'I', 'T', 'E', '(', '0', ')',
   ';', '\n', ' ', ' ', ' ', ' ', ' ', ' ', 'R', 'I', 'G', 'H', 'T', ';', '\n', ' ', ' ', ' ', ' ',
   ' ', ' ', 'g', 'o', 't', 'o', ' ', 'B', ';', '\n', ' ', ' ', '}', '\n', '\n', ' ', 'H', ':', '\n',
   ' ', ' ', 'C', 'H', 'E', 'C', 'K', '_', 'S', 'T', 'E', 'P', 'S', ';', '\n', '}', '\n']

theorem f7021292621_text : f7021292621.text = letters7021292621 := by letters

def letters9340 : List Char :=
  ['#', 'd', 'e', 'f', 'i', 'n', 'e', ' ', 'P', 'R', 'O', 'G', 'R', 'A', 'M', ' ', '"', '2', 'L', 'A',
   ' ', '3', 'L', 'B', ' ', '0', 'R', 'A', ' ', '0', 'R', 'B', ' ', ' ', '1', 'R', 'A', ' ', '2', 'R',
   'B', ' ', '1', 'R', 'B', ' ', '2', 'R', 'A', '"', '\n', '\n', '#', 'd', 'e', 'f', 'i', 'n', 'e',
   ' ', 'T', 'A', 'P', 'E', 'L', 'E', 'N', ' ', '3', '0', '0', '\n', '\n', '#', 'i', 'n', 'c', 'l',
   'u', 'd', 'e', ' ', '"', 'm', 'a', 'c', 'h', 'i', 'n', 'e', '.', 'h', '"', '\n', '\n', 'i', 'n',
   't', ' ', 'm', 'a', 'i', 'n', '(', 'v', 'o', 'i', 'd', ')', '\n', '{', '\n', ' ', ' ', 'W', 'R',
   'I', 'T', 'E', '(', '1', ')', ';', '\n', ' ', ' ', 'R', 'I', 'G', 'H', 'T', ';', '\n', '\n', ' ',
   ' ', 'R', 'I', 'G', 'H', 'T', ';', '\n', '\n', ' ', ' ', 'W', 'R', 'I', 'T', 'E', '(', '1', ')',
   ';', '\n', ' ', ' ', 'R', 'I', 'G', 'H', 'T', ';', '\n', '\n', ' ', ' ', 'W', 'R', 'I', 'T', 'E',
   '(', '1', ')', ';', '\n', ' ', ' ', 'R', 'I', 'G', 'H', 'T', ';', '\n', '\n', ' ', ' ', 'W', 'R',
   'I', 'T', 'E', '(', '1', ')', ';', '\n', ' ', ' ', 'R', 'I', 'G', 'H', 'T', ';', '\n', '\n', ' ',
   ' ', 'w', 'h', 'i', 'l', 'e', ' ', '(', '1', ')', ' ', '{', '\n', ' ', ' ', ' ', ' ', 'w', 'h', 'i',
   'l', 'e', ' ', '(', 'S', 'C', 'A', 'N', ' ', '=', '=', ' ', '0', ' ', '|', '|', ' ', 'S', 'C', 'A',
   'N', ' ', '=', '=', ' ', '2', ')', ' ', '{', '\n', ' ', ' ', ' ', ' ', ' ', ' ', 'i', 'f', ' ', '(',
   'S', 'C', 'A', 'N', ' ', '=', '=', ' ', '0', ')', ' ', '{', '\n', ' ', ' ', ' ', ' ', ' ', ' ', ' ',
   ' ', '/', '/', ' ', 'A', '0', '\n', ' ', ' ', ' ', ' ', ' ', ' ', ' ', ' ', 'W', 'R', 'I', 'T', 'E',
   '(', '2', ')', ';', '\n', ' ', ' ', ' ', ' ', ' ', ' ', ' ', ' ', 'L', 'E', 'F', 'T', ';', '\n',
   ' ', ' ', ' ', ' ', ' ', ' ', '}', ' ', 'e', 'l', 's', 'e', ' ', 'i', 'f', ' ', '(', 'S', 'C', 'A',
   'N', ' ', '=', '=', ' ', '2', ')', ' ', '{', '\n', ' ', ' ', ' ', ' ', ' ', ' ', ' ', ' ', '/', '/',
   ' ', 'A', '2', '\n', ' ', ' ', ' ', ' ', ' ', ' ', ' ', ' ', 'W', 'R', 'I', 'T', 'E', '(', '0', ')',
   ';', '\n', ' ', ' ', ' ', ' ', ' ', ' ', ' ', ' ', 'R', 'I', 'G', 'H', 'T', ';', '\n', ' ', ' ',
   ' ', ' ', ' ', ' ', '}', '\n', ' ', ' ', ' ', ' ', '}', '\n', '\n', ' ', ' ', ' ', ' ', 'i', 'f',
   ' ', '(', 'S', 'C', 'A', 'N', ' ', '=', '=', ' ', '1', ')', ' ', '{', '\n', ' ', ' ', ' ', ' ', ' ',
   ' ', '/', '/', ' ', 'A', '1', '\n', ' ', ' ', ' ', ' ', ' ', ' ', 'W', 'R', 'I', 'T', 'E', '(', '3',
   ')', ';', '\n', ' ', ' ', ' ', ' ', ' ', ' ', 'L', 'E', 'F', 'T', ';', '\n', ' ', ' ', ' ', ' ',
   '}', ' ', 'e', 'l', 's', 'e', ' ', 'i', 'f', ' ', '(', 'S', 'C', 'A', 'N', ' ', '=', '=', ' ', '3',
   ')', ' ', '{', '\n', ' ', ' ', ' ', ' ', ' ', ' ', '/', '/', ' ', 'A', '3', '\n', ' ', ' ', ' ',
   ' ', ' ', ' ', 'W', 'R', 'I', 'T', 'E', '(', '0', ')', ';', '\n', ' ', ' ', ' ', ' ', ' ', ' ', 'R',
   'I', 'G', 'H', 'T', ';', '\n', ' ', ' ', ' ', ' ', '}', '\n', '\n', ' ', ' ', ' ', ' ', 'w', 'h',
   'i', 'l', 'e', ' ', '(', 'S', 'C', 'A', 'N', ' ', '=', '=', ' ', '1', ' ', '|', '|', ' ', 'S', 'C',
   'A', 'N', ' ', '=', '=', ' ', '2', ')', ' ', '{', '\n', ' ', ' ', ' ', ' ', ' ', ' ', 'i', 'f', ' ',
   '(', 'S', 'C', 'A', 'N', ' ', '=', '=', ' ', '1', ')', '\n', ' ', ' ', ' ', ' ', ' ', ' ', ' ', ' ',
   '/', '/', ' ', 'B', '1', '\n', ' ', ' ', ' ', ' ', ' ', ' ', ' ', ' ', 'W', 'R', 'I', 'T', 'E', '(',
   '2', ')', ';', '\n', ' ', ' ', ' ', ' ', ' ', ' ', 'e', 'l', 's', 'e', ' ', 'i', 'f', ' ', '(', 'S',
   'C', 'A', 'N', ' ', '=', '=', ' ', '2', ')', '\n', ' ', ' ', ' ', ' ', ' ', ' ', ' ', ' ', '/', '/',
   ' ', 'B', '2', '\n', ' ', ' ', ' ', ' ', ' ', ' ', ' ', ' ', 'W', 'R', 'I', 'T', 'E', '(', '1', ')',
   ';', '\n', '\n', ' ', ' ', ' ', ' ', ' ', ' ', 'R', 'I', 'G', 'H', 'T', ';', '\n', ' ', ' ', ' ',
   ' ', '}', '\n', '\n', ' ', ' ', ' ', ' ', 'i', 'f', ' ', '(', 'S', 'C', 'A', 'N', ' ', '=', '=',
   ' ', '0', ')', '\n', ' ', ' ', ' ', ' ', ' ', ' ', '/', '/', ' ', 'B', '0', '\n', ' ', ' ', ' ',
   ' ', ' ', ' ', 'W', 'R', 'I', 'T', 'E', '(', '1', ')', ';', '\n', ' ', ' ', ' ', ' ', 'e', 'l', 's',
   'e', ' ', 'i', 'f', ' ', '(', 'S', 'C', 'A', 'N', ' ', '=', '=', ' ', '3', ')', '\n', ' ', ' ', ' ',
   ' ', ' ', ' ', '/', '/', ' ', 'B', '3', '\n', ' ', ' ', ' ', ' ', ' ', ' ', 'W', 'R', 'I', 'T', 'E',
   '(', '2', ')', ';', '\n', '\n', ' ', ' ', ' ', ' ', 'R', 'I', 'G', 'H', 'T', ';', '\n', ' ', ' ',
   '}', '\n', '\n', ' ', 'H', ':', '\n', ' ', ' ', 'C', 'H', 'E', 'C', 'K', '_', 'S', 'T', 'E', 'P',
   'S', ';', '\n', '}', '\n']

theorem f9340_text : f9340.text = letters9340 := by letters

end CS
end BB
