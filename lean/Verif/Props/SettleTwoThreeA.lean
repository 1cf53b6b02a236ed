import Verif.Props.SettleThree

/-!
# C77 for two states and three colours, first half

The checks of the code leave 135 programs of the tree; these are dealt with by pairs of automata
(`Lemmas/HalfTapes`), which are not in the code.
-/

namespace BB

/-- Programs with automata for the left and the right half of the tape. -/
def hard23 : List (Table × Half.Dfa × Half.Dfa) := [
  ([((0, 0), (1, true, 1)), ((0, 1), (1, false, 0)), ((0, 2), (0, false, 0)), ((1, 0), (0, false, 0)), ((1, 1), (2, true, 0))],
    [[0, 0, 0]], [[0, 0, 1], [1, 1, 1]]),
  ([((0, 0), (1, true, 1)), ((0, 1), (1, false, 0)), ((0, 2), (0, true, 1)), ((1, 0), (0, false, 0)), ((1, 1), (2, true, 1))],
    [[0, 0, 0]], [[0, 0, 1], [0, 1, 1]]),
  ([((0, 0), (1, true, 1)), ((0, 1), (1, false, 0)), ((0, 2), (1, false, 0)), ((1, 0), (0, false, 0)), ((1, 1), (2, true, 1))],
    [[0, 0, 0]], [[0, 0, 1], [0, 1, 1]]),
  ([((0, 0), (1, true, 1)), ((0, 1), (1, false, 0)), ((0, 2), (1, true, 0)), ((1, 0), (0, false, 0)), ((1, 1), (2, true, 1))],
    [[0, 0, 0]], [[0, 0, 1], [1, 1, 1]]),
  ([((0, 0), (1, true, 1)), ((0, 1), (1, false, 0)), ((0, 2), (1, true, 1)), ((1, 0), (0, false, 0)), ((1, 1), (2, true, 1))],
    [[0, 0, 0]], [[0, 0, 1], [0, 1, 1]]),
  ([((0, 0), (1, true, 1)), ((0, 1), (2, false, 0)), ((1, 0), (0, false, 0)), ((1, 1), (1, true, 0)), ((1, 2), (0, false, 1))],
    [[0, 0, 1], [1, 1, 1]], [[0, 0, 1], [0, 2, 1], [1, 2, 2]]),
  ([((0, 0), (1, true, 1)), ((0, 1), (2, false, 0)), ((1, 0), (0, false, 0)), ((1, 2), (0, true, 1))],
    [[0, 0, 1], [1, 1, 1]], [[0, 1, 0], [0, 1, 1]]),
  ([((0, 0), (1, true, 1)), ((0, 1), (2, false, 0)), ((1, 0), (0, false, 0)), ((1, 1), (1, true, 1)), ((1, 2), (1, false, 1))],
    [[0, 0, 1], [1, 1, 1]], [[0, 0, 0]]),
  ([((0, 0), (1, true, 1)), ((0, 1), (2, false, 0)), ((0, 2), (0, true, 1)), ((1, 0), (0, false, 0)), ((1, 2), (1, true, 0))],
    [[0, 0, 0]], [[0, 1, 0], [1, 1, 1]]),
  ([((0, 0), (1, true, 1)), ((0, 1), (2, false, 0)), ((0, 2), (1, true, 0)), ((1, 0), (0, false, 0)), ((1, 2), (1, true, 0))],
    [[0, 0, 0]], [[0, 1, 0], [1, 1, 1]]),
  ([((0, 0), (1, true, 1)), ((0, 1), (2, false, 0)), ((0, 2), (1, true, 1)), ((1, 0), (0, false, 0)), ((1, 2), (1, true, 0))],
    [[0, 0, 0]], [[0, 1, 0], [1, 1, 1]]),
  ([((0, 0), (1, true, 1)), ((0, 1), (2, false, 0)), ((1, 0), (0, false, 0)), ((1, 2), (1, true, 1))],
    [[0, 0, 1], [1, 1, 1]], [[0, 1, 0], [0, 1, 1]]),
  ([((0, 0), (1, true, 1)), ((0, 1), (2, false, 0)), ((0, 2), (0, false, 0)), ((1, 0), (0, false, 0)), ((1, 2), (2, true, 0))],
    [[0, 0, 0]], [[0, 1, 0], [1, 1, 1]]),
  ([((0, 0), (1, true, 1)), ((0, 1), (2, false, 0)), ((0, 2), (1, true, 0)), ((1, 0), (0, false, 0)), ((1, 2), (2, true, 0))],
    [[0, 0, 0]], [[0, 1, 0], [1, 1, 1]]),
  ([((0, 0), (1, true, 1)), ((0, 1), (2, false, 0)), ((0, 2), (0, true, 1)), ((1, 0), (0, false, 0)), ((1, 2), (2, true, 1))],
    [[0, 0, 0]], [[0, 1, 0], [0, 1, 1]]),
  ([((0, 0), (1, true, 1)), ((0, 1), (2, false, 0)), ((0, 2), (1, true, 0)), ((1, 0), (0, false, 0)), ((1, 2), (2, true, 1))],
    [[0, 0, 0]], [[0, 1, 0], [1, 1, 1]]),
  ([((0, 0), (1, true, 1)), ((0, 1), (2, false, 0)), ((0, 2), (1, true, 1)), ((1, 0), (0, false, 0)), ((1, 2), (2, true, 1))],
    [[0, 0, 0]], [[0, 1, 0], [0, 1, 1]]),
  ([((0, 0), (1, true, 1)), ((0, 1), (2, false, 0)), ((0, 2), (2, false, 0)), ((1, 0), (0, false, 0)), ((1, 2), (2, true, 1))],
    [[0, 0, 0]], [[0, 1, 0], [0, 1, 1]]),
  ([((0, 0), (1, true, 1)), ((0, 1), (2, true, 1)), ((0, 2), (1, false, 0)), ((1, 0), (0, false, 0)), ((1, 1), (0, true, 1))],
    [[0, 0, 0]], [[0, 0, 1], [0, 1, 1]]),
  ([((0, 0), (1, true, 1)), ((0, 1), (2, true, 1)), ((0, 2), (1, false, 0)), ((1, 0), (0, false, 0)), ((1, 1), (1, true, 1))],
    [[0, 0, 0]], [[0, 0, 1], [0, 1, 1]]),
  ([((0, 0), (1, true, 1)), ((0, 1), (2, true, 1)), ((0, 2), (1, false, 0)), ((1, 0), (0, false, 0)), ((1, 1), (2, true, 0))],
    [[0, 0, 0]], [[0, 0, 1], [1, 1, 1]]),
  ([((0, 0), (1, true, 1)), ((0, 1), (2, true, 1)), ((0, 2), (1, false, 0)), ((1, 0), (0, false, 0)), ((1, 1), (2, true, 1))],
    [[0, 0, 0]], [[0, 0, 1], [0, 1, 1]]),
  ([((0, 0), (1, true, 1)), ((0, 1), (2, true, 1)), ((0, 2), (2, false, 0)), ((1, 0), (0, false, 0)), ((1, 2), (0, true, 1))],
    [[0, 0, 0]], [[0, 1, 0], [0, 1, 1]]),
  ([((0, 0), (1, true, 1)), ((0, 1), (2, true, 1)), ((0, 2), (2, false, 0)), ((1, 0), (0, false, 0)), ((1, 2), (1, true, 1))],
    [[0, 0, 0]], [[0, 1, 0], [0, 1, 1]]),
  ([((0, 0), (1, true, 1)), ((0, 1), (2, true, 1)), ((0, 2), (2, false, 0)), ((1, 0), (0, false, 0)), ((1, 2), (2, true, 1))],
    [[0, 0, 0]], [[0, 1, 0], [0, 1, 1]]),
  ([((0, 0), (1, true, 1)), ((0, 1), (2, false, 0)), ((1, 0), (0, false, 1)), ((1, 1), (1, false, 0)), ((1, 2), (0, true, 1))],
    [[0, 0, 1], [1, 1, 1]], [[0, 0, 0]]),
  ([((0, 0), (1, true, 1)), ((0, 1), (2, false, 0)), ((1, 0), (0, false, 1)), ((1, 1), (1, false, 0)), ((1, 2), (1, true, 1))],
    [[0, 0, 1], [1, 1, 1]], [[0, 0, 0]]),
  ([((0, 0), (1, true, 1)), ((0, 1), (2, true, 0)), ((0, 2), (1, false, 0)), ((1, 0), (0, false, 1)), ((1, 1), (1, false, 0))],
    [[0, 0, 1], [1, 0, 1]], [[0, 0, 1], [1, 1, 1]]),
  ([((0, 0), (1, true, 1)), ((0, 1), (0, false, 1)), ((1, 0), (0, false, 1)), ((1, 1), (2, false, 0)), ((1, 2), (1, true, 0))],
    [[0, 0, 1], [1, 1, 1]], [[0, 0, 1], [0, 2, 2], [2, 2, 2]]),
  ([((0, 0), (1, true, 1)), ((0, 1), (2, false, 0)), ((1, 0), (0, false, 1)), ((1, 1), (2, false, 0)), ((1, 2), (1, true, 1))],
    [[0, 0, 1], [1, 1, 1]], [[0, 0, 0]]),
  ([((0, 0), (1, true, 1)), ((0, 2), (0, false, 1)), ((1, 0), (0, false, 1)), ((1, 1), (2, false, 0)), ((1, 2), (2, true, 0))],
    [[0, 1, 0], [1, 2, 0], [2, 2, 2]], [[0, 1, 0], [1, 1, 1]]),
  ([((0, 0), (1, true, 1)), ((0, 1), (0, true, 1)), ((0, 2), (0, false, 0)), ((1, 0), (1, false, 0)), ((1, 1), (2, true, 1))],
    [[0, 0, 0]], [[0, 0, 1], [1, 1, 1]]),
  ([((0, 0), (1, true, 1)), ((0, 1), (0, true, 1)), ((0, 2), (1, false, 0)), ((1, 0), (1, false, 0)), ((1, 1), (2, true, 1))],
    [[0, 0, 0]], [[0, 0, 1], [1, 1, 1]]),
  ([((0, 0), (1, true, 1)), ((0, 1), (1, false, 0)), ((0, 2), (0, false, 0)), ((1, 0), (1, false, 0)), ((1, 1), (2, true, 0))],
    [[0, 0, 0]], [[0, 0, 1], [1, 1, 1]]),
  ([((0, 0), (1, true, 1)), ((0, 1), (1, false, 0)), ((0, 2), (1, false, 0)), ((1, 0), (1, false, 0)), ((1, 1), (2, true, 1))],
    [[0, 0, 0]], [[0, 0, 1], [1, 1, 1]]),
  ([((0, 0), (1, true, 1)), ((0, 1), (1, false, 0)), ((0, 2), (1, true, 0)), ((1, 0), (1, false, 0)), ((1, 1), (2, true, 1))],
    [[0, 0, 0]], [[0, 0, 1], [1, 1, 1]]),
  ([((0, 0), (1, true, 1)), ((0, 1), (1, false, 1)), ((0, 2), (1, false, 0)), ((1, 0), (1, false, 0)), ((1, 1), (2, true, 1))],
    [[0, 0, 1], [2, 2, 1], [2, 2, 2]], [[0, 0, 1], [1, 1, 1]]),
  ([((0, 0), (1, true, 1)), ((0, 1), (1, true, 1)), ((0, 2), (0, false, 0)), ((1, 0), (1, false, 0)), ((1, 1), (2, true, 1))],
    [[0, 0, 0]], [[0, 0, 1], [1, 1, 1]]),
  ([((0, 0), (1, true, 1)), ((0, 1), (1, true, 1)), ((0, 2), (1, false, 0)), ((1, 0), (1, false, 0)), ((1, 1), (2, true, 1))],
    [[0, 0, 0]], [[0, 0, 1], [1, 1, 1]]),
  ([((0, 0), (1, true, 1)), ((0, 1), (2, false, 0)), ((1, 0), (1, false, 0)), ((1, 1), (0, false, 0)), ((1, 2), (0, true, 1))],
    [[0, 0, 1], [1, 1, 1]], [[0, 0, 0]]),
  ([((0, 0), (1, true, 1)), ((0, 1), (2, false, 0)), ((1, 0), (1, false, 0)), ((1, 1), (1, false, 0)), ((1, 2), (0, true, 1))],
    [[0, 0, 1], [1, 1, 1]], [[0, 0, 0]]),
  ([((0, 0), (1, true, 1)), ((0, 1), (2, false, 0)), ((1, 0), (1, false, 0)), ((1, 1), (1, true, 1)), ((1, 2), (1, false, 1))],
    [[0, 0, 1], [1, 1, 1]], [[0, 0, 0]]),
  ([((0, 0), (1, true, 1)), ((0, 1), (2, false, 0)), ((0, 2), (1, true, 0)), ((1, 0), (1, false, 0)), ((1, 2), (1, true, 0))],
    [[0, 1, 0], [0, 1, 0]], [[0, 1, 0], [2, 1, 0], [2, 2, 2]]),
  ([((0, 0), (1, true, 1)), ((0, 1), (2, false, 0)), ((1, 0), (1, false, 0)), ((1, 1), (0, false, 0)), ((1, 2), (1, true, 1))],
    [[0, 0, 1], [1, 1, 1]], [[0, 0, 0]]),
  ([((0, 0), (1, true, 1)), ((0, 1), (2, false, 0)), ((1, 0), (1, false, 0)), ((1, 1), (1, false, 0)), ((1, 2), (1, true, 1))],
    [[0, 0, 1], [1, 1, 1]], [[0, 0, 0]]),
  ([((0, 0), (1, true, 1)), ((0, 1), (2, false, 0)), ((1, 0), (1, false, 0)), ((1, 1), (1, true, 0)), ((1, 2), (1, true, 1))],
    [[0, 0, 1], [1, 1, 1]], [[0, 0, 1], [2, 2, 1], [2, 2, 2]]),
  ([((0, 0), (1, true, 1)), ((0, 1), (2, false, 0)), ((1, 0), (1, false, 0)), ((1, 1), (1, true, 1)), ((1, 2), (1, true, 1))],
    [[0, 0, 1], [1, 1, 1]], [[0, 0, 0]]),
  ([((0, 0), (1, true, 1)), ((0, 1), (2, false, 0)), ((1, 0), (1, false, 0)), ((1, 1), (2, false, 0)), ((1, 2), (1, true, 1))],
    [[0, 0, 1], [1, 1, 1]], [[0, 0, 0]]),
  ([((0, 0), (1, true, 1)), ((0, 1), (2, false, 0)), ((0, 2), (1, true, 0)), ((1, 0), (1, false, 0)), ((1, 2), (2, true, 0))],
    [[0, 1, 0], [0, 1, 0]], [[0, 1, 0], [2, 1, 0], [2, 2, 2]]),
  ([((0, 0), (1, true, 1)), ((0, 1), (2, false, 1)), ((1, 0), (1, false, 0)), ((1, 1), (1, true, 1)), ((1, 2), (0, true, 1))],
    [[0, 0, 1], [1, 1, 1]], [[0, 0, 0]]),
  ([((0, 0), (1, true, 1)), ((0, 1), (2, true, 1)), ((0, 2), (1, false, 0)), ((1, 0), (1, false, 0)), ((1, 1), (2, true, 1))],
    [[0, 0, 0]], [[0, 0, 1], [1, 1, 1]]),
  ([((0, 0), (1, true, 1)), ((0, 1), (2, false, 0)), ((1, 0), (1, false, 1)), ((1, 1), (1, false, 0)), ((1, 2), (0, true, 1))],
    [[0, 0, 1], [1, 1, 1]], [[0, 0, 0]]),
  ([((0, 0), (1, true, 1)), ((0, 1), (2, false, 0)), ((1, 0), (1, false, 1)), ((1, 1), (1, false, 0)), ((1, 2), (1, true, 1))],
    [[0, 0, 1], [1, 1, 1]], [[0, 0, 0]]),
  ([((0, 0), (1, true, 1)), ((0, 1), (2, true, 0)), ((0, 2), (1, false, 0)), ((1, 0), (1, false, 1)), ((1, 1), (1, false, 0))],
    [[0, 0, 1], [1, 0, 1]], [[0, 0, 1], [1, 1, 1]]),
  ([((0, 0), (1, true, 1)), ((0, 1), (2, false, 0)), ((1, 0), (1, false, 1)), ((1, 1), (1, true, 0)), ((1, 2), (1, true, 1))],
    [[0, 0, 1], [1, 1, 1]], [[0, 0, 1], [2, 2, 1], [2, 2, 2]]),
  ([((0, 0), (1, true, 1)), ((0, 1), (0, false, 0)), ((1, 0), (1, false, 1)), ((1, 1), (2, false, 0)), ((1, 2), (0, true, 1))],
    [[0, 0, 1], [1, 1, 1]], [[0, 0, 0]]),
  ([((0, 0), (1, true, 1)), ((0, 1), (2, false, 0)), ((1, 0), (1, false, 1)), ((1, 1), (2, false, 0)), ((1, 2), (1, true, 1))],
    [[0, 0, 1], [1, 1, 1]], [[0, 0, 0]]),
  ([((0, 0), (1, true, 1)), ((0, 1), (0, false, 0)), ((0, 2), (1, false, 0)), ((1, 0), (1, false, 1)), ((1, 1), (2, true, 0))],
    [[0, 0, 1], [1, 0, 1]], [[0, 0, 1], [1, 1, 1]]),
  ([((0, 0), (1, true, 1)), ((0, 2), (2, true, 1)), ((1, 0), (1, false, 1)), ((1, 1), (2, true, 1)), ((1, 2), (0, false, 0))],
    [[0, 1, 0], [1, 2, 2], [2, 2, 2]], [[0, 1, 1], [0, 1, 1]]),
  ([((0, 0), (1, true, 1)), ((0, 1), (0, false, 1)), ((1, 0), (2, false, 0)), ((1, 1), (2, false, 1)), ((1, 2), (1, true, 1))],
    [[0, 0, 1], [1, 1, 1]], [[0, 0, 0]]),
  ([((0, 0), (1, true, 1)), ((0, 1), (0, true, 0)), ((0, 2), (2, false, 0)), ((1, 0), (2, false, 0)), ((1, 2), (2, true, 1))],
    [[0, 0, 0]], [[0, 1, 0], [1, 1, 1]]),
  ([((0, 0), (1, true, 1)), ((0, 1), (0, true, 0)), ((0, 2), (2, false, 1)), ((1, 0), (2, false, 0)), ((1, 2), (1, true, 1))],
    [[0, 1, 0], [0, 1, 2], [2, 2, 2]], [[0, 1, 0], [1, 1, 1]]),
  ([((0, 0), (1, true, 1)), ((0, 1), (0, true, 1)), ((1, 0), (2, false, 0)), ((1, 1), (1, true, 1)), ((1, 2), (1, false, 1))],
    [[0, 0, 1], [1, 1, 1]], [[0, 0, 0]]),
  ([((0, 0), (1, true, 1)), ((0, 1), (0, true, 1)), ((0, 2), (0, false, 0)), ((1, 0), (2, false, 0)), ((1, 2), (2, true, 1))],
    [[0, 0, 0]], [[0, 1, 0], [1, 1, 1]]),
  ([((0, 0), (1, true, 1)), ((0, 1), (0, true, 1)), ((0, 2), (2, false, 0)), ((1, 0), (2, false, 0)), ((1, 2), (2, true, 1))],
    [[0, 0, 0]], [[0, 1, 0], [1, 1, 1]]),
  ([((0, 0), (1, true, 1)), ((0, 1), (1, false, 0)), ((0, 2), (0, false, 0)), ((1, 0), (2, false, 0)), ((1, 1), (0, true, 0))],
    [[0, 1, 0], [0, 1, 0]], [[0, 0, 1], [2, 0, 2], [2, 2, 2]]),
  ([((0, 0), (1, true, 1)), ((0, 1), (1, false, 0)), ((1, 0), (2, false, 0)), ((1, 1), (0, true, 1)), ((1, 2), (0, false, 0))],
    [[0, 0, 1], [1, 1, 1]], [[0, 0, 0]]),
  ([((0, 0), (1, true, 1)), ((0, 1), (1, false, 0)), ((1, 0), (2, false, 0)), ((1, 1), (0, true, 1)), ((1, 2), (2, false, 0))],
    [[0, 0, 1], [1, 1, 1]], [[0, 0, 0]]),
  ([((0, 0), (1, true, 1)), ((0, 1), (1, false, 0)), ((1, 0), (2, false, 0)), ((1, 1), (1, true, 1)), ((1, 2), (0, false, 0))],
    [[0, 0, 1], [1, 1, 1]], [[0, 0, 0]]),
  ([((0, 0), (1, true, 1)), ((0, 1), (1, false, 0)), ((1, 0), (2, false, 0)), ((1, 1), (1, true, 1)), ((1, 2), (0, false, 1))],
    [[0, 0, 1], [1, 1, 1]], [[0, 0, 0]]),
  ([((0, 0), (1, true, 1)), ((0, 1), (1, false, 0)), ((1, 0), (2, false, 0)), ((1, 1), (1, true, 1)), ((1, 2), (1, false, 0))],
    [[0, 0, 1], [1, 1, 1]], [[0, 0, 0]]),
  ([((0, 0), (1, true, 1)), ((0, 1), (1, false, 0)), ((1, 0), (2, false, 0)), ((1, 1), (1, true, 1)), ((1, 2), (1, false, 1))],
    [[0, 0, 1], [1, 1, 1]], [[0, 0, 0]]),
  ([((0, 0), (1, true, 1)), ((0, 1), (1, false, 0)), ((1, 0), (2, false, 0)), ((1, 1), (1, true, 1)), ((1, 2), (1, true, 0))],
    [[0, 0, 1], [1, 1, 1]], [[0, 0, 1], [2, 0, 2], [2, 2, 2]]),
  ([((0, 0), (1, true, 1)), ((0, 1), (1, false, 0)), ((1, 0), (2, false, 0)), ((1, 1), (1, true, 1)), ((1, 2), (1, true, 1))],
    [[0, 0, 1], [1, 1, 1]], [[0, 0, 0]]),
  ([((0, 0), (1, true, 1)), ((0, 1), (1, false, 0)), ((1, 0), (2, false, 0)), ((1, 1), (1, true, 1)), ((1, 2), (2, false, 0))],
    [[0, 0, 1], [1, 1, 1]], [[0, 0, 0]]),
  ([((0, 0), (1, true, 1)), ((0, 1), (1, false, 0)), ((1, 0), (2, false, 0)), ((1, 1), (2, false, 1)), ((1, 2), (1, true, 1))],
    [[0, 0, 1], [1, 1, 1]], [[0, 0, 0]]),
  ([((0, 0), (1, true, 1)), ((0, 1), (1, false, 0)), ((0, 2), (0, false, 0)), ((1, 0), (2, false, 0)), ((1, 1), (2, true, 0))],
    [[0, 1, 0], [0, 1, 0]], [[0, 0, 1], [2, 0, 2], [2, 2, 2]]),
  ([((0, 0), (1, true, 1)), ((0, 1), (1, false, 1)), ((1, 0), (2, false, 0)), ((1, 1), (0, true, 1)), ((1, 2), (1, true, 1))],
    [[0, 0, 1], [1, 1, 1]], [[0, 0, 0]]),
  ([((0, 0), (1, true, 1)), ((0, 1), (1, false, 1)), ((1, 0), (2, false, 0)), ((1, 1), (2, false, 1)), ((1, 2), (1, true, 1))],
    [[0, 0, 1], [1, 1, 1]], [[0, 0, 0]]),
  ([((0, 0), (1, true, 1)), ((0, 1), (1, true, 1)), ((0, 2), (0, false, 0)), ((1, 0), (2, false, 0)), ((1, 2), (2, true, 1))],
    [[0, 0, 0]], [[0, 1, 0], [1, 1, 1]]),
  ([((0, 0), (1, true, 1)), ((0, 1), (1, true, 1)), ((0, 2), (2, false, 0)), ((1, 0), (2, false, 0)), ((1, 2), (2, true, 1))],
    [[0, 0, 0]], [[0, 1, 0], [1, 1, 1]]),
  ([((0, 0), (1, true, 1)), ((0, 1), (2, false, 0)), ((1, 0), (2, false, 0)), ((1, 1), (1, true, 0)), ((1, 2), (0, false, 1))],
    [[0, 0, 1], [1, 1, 1]], [[0, 0, 1], [0, 2, 1], [2, 2, 2]]),
  ([((0, 0), (1, true, 1)), ((0, 1), (2, false, 0)), ((0, 2), (1, true, 0)), ((1, 0), (2, false, 0)), ((1, 2), (0, true, 0))],
    [[0, 0, 0]], [[0, 1, 0], [1, 1, 1]]),
  ([((0, 0), (1, true, 1)), ((0, 1), (2, false, 0)), ((1, 0), (2, false, 0)), ((1, 1), (1, true, 1)), ((1, 2), (1, false, 1))],
    [[0, 0, 1], [1, 1, 1]], [[0, 0, 0]]),
  ([((0, 0), (1, true, 1)), ((0, 1), (2, false, 0)), ((0, 2), (1, true, 0)), ((1, 0), (2, false, 0)), ((1, 2), (1, true, 0))],
    [[0, 0, 0]], [[0, 1, 0], [1, 1, 1]]),
  ([((0, 0), (1, true, 1)), ((0, 1), (2, false, 0)), ((0, 2), (1, true, 1)), ((1, 0), (2, false, 0)), ((1, 2), (1, true, 0))],
    [[0, 0, 0]], [[0, 1, 0], [1, 1, 1]]),
  ([((0, 0), (1, true, 1)), ((0, 1), (2, false, 0)), ((1, 0), (2, false, 0)), ((1, 2), (1, true, 1))],
    [[0, 0, 1], [1, 1, 1]], [[0, 1, 0], [1, 1, 1]]),
  ([((0, 0), (1, true, 1)), ((0, 1), (2, false, 0)), ((0, 2), (0, false, 0)), ((1, 0), (2, false, 0)), ((1, 2), (2, true, 0))],
    [[0, 0, 0]], [[0, 1, 0], [1, 1, 1]]),
  ([((0, 0), (1, true, 1)), ((0, 1), (2, false, 0)), ((0, 2), (1, true, 0)), ((1, 0), (2, false, 0)), ((1, 2), (2, true, 0))],
    [[0, 0, 0]], [[0, 1, 0], [1, 1, 1]]),
  ([((0, 0), (1, true, 1)), ((0, 1), (2, false, 0)), ((0, 2), (1, true, 0)), ((1, 0), (2, false, 0)), ((1, 2), (2, true, 1))],
    [[0, 0, 0]], [[0, 1, 0], [1, 1, 1]]),
  ([((0, 0), (1, true, 1)), ((0, 1), (2, false, 0)), ((0, 2), (2, false, 0)), ((1, 0), (2, false, 0)), ((1, 2), (2, true, 1))],
    [[0, 0, 0]], [[0, 1, 0], [1, 1, 1]]),
  ([((0, 0), (1, true, 1)), ((0, 1), (2, false, 1)), ((1, 0), (2, false, 0)), ((1, 1), (2, false, 0)), ((1, 2), (1, true, 1))],
    [[0, 0, 1], [1, 1, 1]], [[0, 0, 0]]),
  ([((0, 0), (1, true, 1)), ((0, 1), (2, false, 1)), ((1, 0), (2, false, 0)), ((1, 1), (2, false, 1)), ((1, 2), (1, true, 1))],
    [[0, 0, 1], [1, 1, 1]], [[0, 0, 0]]),
  ([((0, 0), (1, true, 1)), ((0, 1), (2, false, 1)), ((0, 2), (2, false, 0)), ((1, 0), (2, false, 0)), ((1, 2), (2, true, 1))],
    [[0, 1, 0], [2, 2, 0], [2, 2, 2]], [[0, 1, 0], [1, 1, 1]]),
  ([((0, 0), (1, true, 1)), ((0, 1), (2, true, 0)), ((0, 2), (1, false, 0)), ((1, 0), (2, false, 0)), ((1, 1), (0, false, 0))],
    [[0, 1, 0], [0, 1, 0]], [[0, 0, 1], [2, 1, 2], [2, 2, 2]]),
  ([((0, 0), (1, true, 1)), ((0, 1), (2, true, 0)), ((0, 2), (1, false, 0)), ((1, 0), (2, false, 0)), ((1, 1), (0, true, 0))],
    [[0, 1, 0], [0, 1, 0]], [[0, 0, 1], [2, 0, 1], [2, 2, 2]]),
  ([((0, 0), (1, true, 1)), ((0, 1), (2, true, 0)), ((0, 2), (1, false, 0)), ((1, 0), (2, false, 0)), ((1, 1), (1, false, 0))],
    [[0, 1, 0], [0, 1, 0]], [[0, 0, 1], [2, 0, 1], [2, 2, 2]]),
  ([((0, 0), (1, true, 1)), ((0, 1), (2, true, 0)), ((0, 2), (1, false, 0)), ((1, 0), (2, false, 0)), ((1, 1), (1, true, 0))],
    [[0, 1, 0], [0, 1, 0]], [[0, 0, 1], [2, 0, 1], [2, 2, 2]]),
  ([((0, 0), (1, true, 1)), ((0, 1), (2, true, 0)), ((0, 2), (1, false, 0)), ((1, 0), (2, false, 0)), ((1, 1), (1, true, 1))],
    [[0, 1, 0], [0, 1, 0]], [[0, 0, 1], [2, 1, 2], [2, 2, 2]]),
  ([((0, 0), (1, true, 1)), ((0, 1), (2, true, 0)), ((0, 2), (1, false, 0)), ((1, 0), (2, false, 0)), ((1, 1), (2, true, 0))],
    [[0, 1, 0], [0, 1, 0]], [[0, 0, 1], [2, 0, 1], [2, 2, 2]]),
  ([((0, 0), (1, true, 1)), ((0, 1), (2, true, 0)), ((0, 2), (1, false, 0)), ((1, 0), (2, false, 0)), ((1, 1), (2, true, 1))],
    [[0, 1, 0], [0, 1, 1]], [[0, 0, 1], [2, 1, 2], [2, 2, 2]]),
  ([((0, 0), (1, true, 1)), ((0, 1), (2, true, 0)), ((0, 2), (2, false, 0)), ((1, 0), (2, false, 0)), ((1, 2), (0, false, 0))],
    [[0, 0, 0]], [[0, 1, 0], [1, 1, 1]]),
  ([((0, 0), (1, true, 1)), ((0, 1), (2, true, 0)), ((0, 2), (2, false, 0)), ((1, 0), (2, false, 0)), ((1, 2), (1, true, 1))],
    [[0, 0, 0]], [[0, 1, 0], [1, 1, 1]]),
  ([((0, 0), (1, true, 1)), ((0, 1), (2, true, 0)), ((0, 2), (2, false, 0)), ((1, 0), (2, false, 0)), ((1, 2), (2, true, 1))],
    [[0, 0, 0]], [[0, 1, 0], [1, 1, 1]]),
  ([((0, 0), (1, true, 1)), ((0, 1), (2, true, 1)), ((0, 2), (2, false, 0)), ((1, 0), (2, false, 0)), ((1, 2), (2, true, 1))],
    [[0, 0, 0]], [[0, 1, 0], [1, 1, 1]]),
  ([((0, 0), (1, true, 1)), ((0, 2), (2, false, 0)), ((1, 0), (2, false, 1)), ((1, 1), (0, true, 0)), ((1, 2), (0, true, 1))],
    [[0, 1, 0], [0, 1, 1]], [[0, 1, 0], [1, 1, 1]]),
  ([((0, 0), (1, true, 1)), ((0, 1), (1, false, 0)), ((1, 0), (2, false, 1)), ((1, 1), (0, true, 1)), ((1, 2), (2, false, 0))],
    [[0, 0, 1], [1, 1, 1]], [[0, 0, 0]]),
  ([((0, 0), (1, true, 1)), ((0, 1), (2, false, 0)), ((1, 0), (2, false, 1)), ((1, 1), (1, false, 0)), ((1, 2), (0, true, 1))],
    [[0, 0, 1], [1, 1, 1]], [[0, 0, 0]]),
  ([((0, 0), (1, true, 1)), ((0, 1), (2, false, 0)), ((1, 0), (2, false, 1)), ((1, 1), (1, false, 0)), ((1, 2), (1, true, 1))],
    [[0, 0, 1], [1, 1, 1]], [[0, 0, 0]]),
  ([((0, 0), (1, true, 1)), ((0, 1), (2, true, 0)), ((0, 2), (1, false, 0)), ((1, 0), (2, false, 1)), ((1, 1), (1, false, 0))],
    [[0, 0, 1], [1, 0, 1]], [[0, 0, 1], [2, 0, 1], [2, 2, 2]]),
  ([((0, 0), (1, true, 1)), ((0, 2), (0, true, 1)), ((1, 0), (2, false, 1)), ((1, 1), (1, true, 0)), ((1, 2), (0, true, 1))],
    [[0, 0, 0]], [[0, 1, 0], [1, 1, 1]]),
  ([((0, 0), (1, true, 1)), ((0, 2), (2, true, 1)), ((1, 0), (2, false, 1)), ((1, 1), (1, true, 0)), ((1, 2), (0, true, 1))],
    [[0, 0, 0]], [[0, 1, 0], [1, 1, 1]]),
  ([((0, 0), (1, true, 1)), ((0, 1), (1, false, 0)), ((1, 0), (2, false, 1)), ((1, 1), (1, true, 1)), ((1, 2), (0, false, 0))],
    [[0, 0, 1], [1, 1, 1]], [[0, 0, 0]]),
  ([((0, 0), (1, true, 1)), ((1, 0), (2, false, 1)), ((1, 1), (1, true, 1)), ((1, 2), (0, true, 1))],
    [[0, 0, 0]], [[0, 0, 0]]),
  ([((0, 0), (1, true, 1)), ((0, 1), (1, false, 0)), ((1, 0), (2, false, 1)), ((1, 1), (1, true, 1)), ((1, 2), (1, false, 0))],
    [[0, 0, 1], [1, 1, 1]], [[0, 0, 0]]),
  ([((0, 0), (1, true, 1)), ((0, 1), (1, false, 0)), ((1, 0), (2, false, 1)), ((1, 1), (1, true, 1)), ((1, 2), (2, false, 0))],
    [[0, 0, 1], [1, 1, 1]], [[0, 0, 0]]),
  ([((0, 0), (1, true, 1)), ((1, 0), (2, false, 1)), ((1, 1), (2, false, 0)), ((1, 2), (0, true, 1))],
    [[0, 1, 1], [1, 2, 1], [2, 2, 2]], [[0, 1, 0], [1, 1, 1]]),
  ([((0, 0), (1, true, 1)), ((0, 1), (2, false, 0)), ((1, 0), (2, false, 1)), ((1, 1), (2, false, 0)), ((1, 2), (1, true, 1))],
    [[0, 0, 1], [1, 1, 1]], [[0, 0, 0]]),
  ([((0, 0), (1, true, 1)), ((0, 1), (2, false, 1)), ((1, 0), (2, false, 1)), ((1, 1), (2, false, 0)), ((1, 2), (1, true, 1))],
    [[0, 0, 1], [1, 1, 1]], [[0, 0, 0]]),
  ([((0, 0), (1, true, 1)), ((0, 2), (0, false, 1)), ((1, 0), (2, false, 1)), ((1, 1), (2, false, 0)), ((1, 2), (2, true, 0))],
    [[0, 1, 0], [1, 2, 0], [2, 2, 2]], [[0, 1, 0], [1, 1, 1]]),
  ([((0, 0), (1, true, 1)), ((0, 2), (0, true, 1)), ((1, 0), (2, false, 1)), ((1, 1), (2, true, 0)), ((1, 2), (0, false, 0))],
    [[0, 1, 0], [1, 2, 2], [2, 2, 2]], [[0, 1, 2], [1, 1, 1], [0, 1, 2]]),
  ([((0, 0), (1, true, 1)), ((0, 1), (2, true, 0)), ((0, 2), (1, false, 0)), ((1, 0), (2, false, 1)), ((1, 1), (2, true, 0))],
    [[0, 0, 1], [1, 0, 1]], [[0, 0, 1], [2, 0, 1], [2, 2, 2]]),
  ([((0, 0), (1, true, 1)), ((0, 2), (2, false, 0)), ((1, 0), (2, false, 1)), ((1, 1), (2, true, 0)), ((1, 2), (0, false, 1))],
    [[0, 1, 0], [1, 2, 1], [2, 2, 2]], [[0, 1, 0], [1, 1, 1]]),
  ([((0, 0), (1, true, 1)), ((0, 2), (2, false, 0)), ((1, 0), (2, false, 1)), ((1, 1), (2, true, 0)), ((1, 2), (0, true, 1))],
    [[0, 1, 0], [1, 2, 1], [2, 2, 2]], [[0, 1, 0], [1, 1, 1]]),
  ([((0, 0), (1, true, 1)), ((0, 1), (0, false, 1)), ((1, 0), (1, false, 0)), ((1, 1), (2, true, 0)), ((1, 2), (1, false, 0))],
    [[0, 0, 1], [2, 2, 3], [1, 1, 1], [3, 3, 3]], [[0, 0, 1], [1, 1, 1]]),
  ([((0, 0), (1, true, 1)), ((0, 1), (1, false, 1)), ((0, 2), (0, true, 0)), ((1, 0), (1, false, 0)), ((1, 1), (2, true, 1))],
    [[0, 0, 1], [2, 2, 1], [1, 1, 3], [3, 3, 3]], [[0, 0, 1], [1, 1, 1]]),
  ([((0, 0), (1, true, 1)), ((0, 1), (2, false, 0)), ((1, 0), (1, false, 0)), ((1, 1), (1, true, 0)), ((1, 2), (0, false, 1))],
    [[0, 0, 1], [1, 1, 1]], [[0, 0, 1], [2, 2, 1], [1, 1, 3], [3, 3, 3]]),
  ([((0, 0), (1, true, 1)), ((0, 1), (2, false, 0)), ((0, 2), (0, false, 0)), ((1, 0), (1, false, 0)), ((1, 2), (2, true, 0))],
    [[0, 1, 1], [0, 1, 0]], [[0, 1, 0], [2, 1, 0], [1, 3, 3], [3, 3, 3]]),
  ([((0, 0), (1, true, 1)), ((0, 1), (2, false, 1)), ((0, 2), (1, true, 1)), ((1, 0), (1, false, 0)), ((1, 1), (0, true, 0))],
    [[0, 0, 1], [1, 1, 1]], [[0, 0, 1], [2, 2, 3], [1, 1, 1], [3, 3, 3]]),
  ([((0, 0), (1, true, 1)), ((0, 1), (0, false, 1)), ((1, 0), (2, false, 0)), ((1, 1), (2, false, 0)), ((1, 2), (1, true, 0))],
    [[0, 0, 1], [1, 1, 1]], [[0, 0, 1], [2, 2, 3], [1, 1, 1], [3, 3, 3]]),
  ([((0, 0), (1, true, 1)), ((0, 1), (2, false, 1)), ((0, 2), (1, true, 1)), ((1, 0), (2, false, 0)), ((1, 2), (0, true, 0))],
    [[0, 1, 0], [2, 3, 2], [1, 1, 1], [3, 3, 3]], [[0, 1, 0], [1, 1, 1]]),
  ([((0, 0), (1, true, 1)), ((0, 1), (2, false, 0)), ((0, 2), (1, true, 1)), ((1, 0), (1, false, 0)), ((1, 2), (1, true, 0))],
    [[0, 1, 0], [2, 0, 2], [2, 2, 2]], [[0, 1, 0], [2, 1, 2], [1, 3, 1], [3, 3, 3]]),
  ([((0, 0), (1, true, 1)), ((0, 1), (2, false, 0)), ((1, 0), (1, false, 1)), ((1, 1), (1, true, 0)), ((1, 2), (0, false, 1))],
    [[0, 1, 2], [0, 1, 2], [2, 2, 2]], [[0, 0, 1], [0, 2, 1], [3, 1, 3], [3, 3, 3]]),
  ([((0, 0), (1, true, 1)), ((0, 1), (0, false, 1)), ((1, 0), (2, false, 0)), ((1, 2), (0, true, 0))],
    [[0, 1, 2], [3, 2, 2], [2, 2, 2], [2, 1, 2]], [[0, 1, 2], [1, 1, 1], [3, 1, 1], [1, 1, 2]]),
  ([((0, 0), (1, true, 1)), ((0, 2), (0, true, 1)), ((1, 0), (2, false, 1)), ((1, 1), (2, false, 0)), ((1, 2), (0, true, 0))],
    [[0, 1, 0], [2, 3, 1], [1, 3, 3], [3, 3, 3]], [[0, 1, 2], [1, 1, 1], [1, 1, 0]])]

theorem part23_0 :
    (part 2 3 38 (0, false, 0)).all (dealtOr hard23 2 3 37 60) = true := by
  decide +kernel

theorem part23_1 :
    (part 2 3 38 (0, false, 1)).all (dealtOr hard23 2 3 37 60) = true := by
  decide +kernel

theorem part23_2 :
    (part 2 3 38 (0, true, 0)).all (dealtOr hard23 2 3 37 60) = true := by
  decide +kernel

theorem part23_3 :
    (part 2 3 38 (0, true, 1)).all (dealtOr hard23 2 3 37 60) = true := by
  decide +kernel

theorem part23_4 :
    (part 2 3 38 (1, false, 0)).all (dealtOr hard23 2 3 37 60) = true := by
  decide +kernel

theorem part23_5 :
    (part 2 3 38 (1, false, 1)).all (dealtOr hard23 2 3 37 60) = true := by
  decide +kernel

end BB
