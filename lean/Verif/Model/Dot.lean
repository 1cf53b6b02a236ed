import Verif.Model.Parse
import Verif.Model.Graph

/-!
# Model of the graph drawings

`/repo/tools/dot.py`.  `none` is an exception: an entry that cannot be read, or `IndexError` for a
colour that `COLORS` does not have.
-/

namespace BB
namespace Dot

/-- `/repo/tools/dot.py` L3-12 `COLORS`. -/
def COLORS : List (List Char) :=
  ["blue".toList, "red".toList, "forestgreen".toList, "purple".toList, "goldenrod".toList,
   "black".toList, "brown".toList, "deeppink".toList]

/-- L24: one edge. -/
def edgeLine (node target : State) (color : List Char) : List Char :=
  "  ".toList ++ [showState node] ++ " -> ".toList ++ [showState target] ++ " [ color=\" ".toList
    ++ color ++ "\" ];".toList

/-- L26-27: `for i, target in enumerate(targets) if target is not None`. -/
def rowLines (node : State) : Nat → List (Option State) → Option (List (List Char))
  | _, [] => some []
  | i, none :: rest => rowLines node (i + 1) rest
  | i, some target :: rest =>
    (COLORS[i]?).bind fun color =>
      (rowLines node (i + 1) rest).map (edgeLine node target color :: ·)

/-- L25: `for node, targets in sorted(Graph(prog).arrows.items())`; the keys are the row numbers. -/
def edgeLines : State → Arrows → Option (List (List Char))
  | _, [] => some []
  | node, targets :: rest =>
    (rowLines node 0 targets).bind fun a => (edgeLines (node + 1) rest).map (a ++ ·)

/-- L17-21: the header. -/
def header (prog : List Char) : List Char :=
  if prog.length < 50 then
    joinWith ['\n'] ["  labelloc=\"t\";".toList, "  label=\"".toList ++ prog ++ "\";".toList,
      "  fontname=\"courier\"".toList]
  else []

/-- L16-30 `make_dot`. -/
def makeDot (prog : List Char) : Option (List Char) :=
  (parseRows prog).bind fun rows =>
    (edgeLines 0 (arrowsOf rows)).map fun edges =>
      "digraph NAME {\n".toList ++ header prog ++ "\n\n".toList ++ joinWith ['\n'] edges
        ++ "\n}".toList

end Dot
end BB
