import Verif.Props.RecordsTwoThreeF

/-!
# C79 for two states and three colours: programs with some instructions at B0
-/

namespace BB.Records

open Watch

def list23_2l0_1l1_0 : List Listed := [
  ⟨6801873151742477, [((0, 0), (1, true, 1)), ((0, 1), (1, false, 1)), ((0, 2), (0, false, 1)),
  ((1, 0), (2, false, 0)), ((1, 1), (0, true, 0)), ((1, 2), (0, false, 1))]⟩,
  ⟨6801873152528909, [((0, 0), (1, true, 1)), ((0, 1), (1, false, 1)), ((0, 2), (0, true, 0)),
  ((1, 0), (2, false, 0)), ((1, 1), (0, true, 0)), ((1, 2), (0, false, 1))]⟩,
  ⟨6801873155674637, [((0, 0), (1, true, 1)), ((0, 1), (1, false, 1)), ((0, 2), (2, false, 0)),
  ((1, 0), (2, false, 0)), ((1, 1), (0, true, 0)), ((1, 2), (0, false, 1))]⟩,
  ⟨6801873155936781, [((0, 0), (1, true, 1)), ((0, 1), (1, false, 1)), ((0, 2), (2, false, 1)),
  ((1, 0), (2, false, 0)), ((1, 1), (0, true, 0)), ((1, 2), (0, false, 1))]⟩,
  ⟨6801873156985357, [((0, 0), (1, true, 1)), ((0, 1), (1, false, 1)), ((0, 2), (2, true, 1)),
  ((1, 0), (2, false, 0)), ((1, 1), (0, true, 0)), ((1, 2), (0, false, 1))]⟩,
  ⟨6803041385730573, [((0, 0), (1, true, 1)), ((0, 1), (1, false, 1)), ((0, 2), (1, true, 0)),
  ((1, 0), (2, false, 0)), ((1, 1), (2, true, 1)), ((1, 2), (0, false, 1))]⟩,
  ⟨6803041387827725, [((0, 0), (1, true, 1)), ((0, 1), (1, false, 1)), ((0, 2), (2, true, 0)),
  ((1, 0), (2, false, 0)), ((1, 1), (2, true, 1)), ((1, 2), (0, false, 1))]⟩,
  ⟨6942610640884237, [((0, 0), (1, true, 1)), ((0, 1), (1, false, 1)), ((0, 2), (0, true, 0)),
  ((1, 0), (2, false, 0)), ((1, 1), (0, true, 0)), ((1, 2), (0, true, 1))]⟩,
  ⟨14040420078093, [((0, 0), (1, true, 1)), ((0, 1), (1, false, 1)), ((1, 0), (2, false, 0)),
  ((1, 1), (0, false, 1)), ((1, 2), (1, true, 0))]⟩,
  ⟨7189794598703629, [((0, 0), (1, true, 1)), ((0, 1), (1, false, 1)), ((0, 2), (0, true, 0)),
  ((1, 0), (2, false, 0)), ((1, 1), (2, false, 1)), ((1, 2), (1, true, 0))]⟩,
  ⟨14109676425741, [((0, 0), (1, true, 1)), ((0, 1), (1, false, 1)), ((1, 0), (2, false, 0)),
  ((1, 1), (0, true, 1)), ((1, 2), (1, true, 1))]⟩,
  ⟨14111287038477, [((0, 0), (1, true, 1)), ((0, 1), (1, false, 1)), ((1, 0), (2, false, 0)),
  ((1, 1), (2, false, 1)), ((1, 2), (1, true, 1))]⟩,
  ⟨7505354435875341, [((0, 0), (1, true, 1)), ((0, 1), (1, false, 1)), ((0, 2), (0, true, 0)),
  ((1, 0), (2, false, 0)), ((1, 1), (0, false, 1)), ((1, 2), (2, true, 1))]⟩,
  ⟨7505354437972493, [((0, 0), (1, true, 1)), ((0, 1), (1, false, 1)), ((0, 2), (1, true, 0)),
  ((1, 0), (2, false, 0)), ((1, 1), (0, false, 1)), ((1, 2), (2, true, 1))]⟩,
  ⟨7505629312733709, [((0, 0), (1, true, 1)), ((0, 1), (1, false, 1)), ((0, 2), (0, false, 0)),
  ((1, 0), (2, false, 0)), ((1, 1), (0, true, 1)), ((1, 2), (2, true, 1))]⟩,
  ⟨7505629313782285, [((0, 0), (1, true, 1)), ((0, 1), (1, false, 1)), ((0, 2), (0, true, 0)),
  ((1, 0), (2, false, 0)), ((1, 1), (0, true, 1)), ((1, 2), (2, true, 1))]⟩,
  ⟨7506385228026381, [((0, 0), (1, true, 1)), ((0, 1), (1, false, 1)), ((0, 2), (0, true, 0)),
  ((1, 0), (2, false, 0)), ((1, 1), (2, false, 0)), ((1, 2), (2, true, 1))]⟩,
  ⟨7506453947503117, [((0, 0), (1, true, 1)), ((0, 1), (1, false, 1)), ((0, 2), (0, true, 0)),
  ((1, 0), (2, false, 0)), ((1, 1), (2, false, 1)), ((1, 2), (2, true, 1))]⟩,
  ⟨7506660104884749, [((0, 0), (1, true, 1)), ((0, 1), (1, false, 1)), ((0, 2), (0, false, 0)),
  ((1, 0), (2, false, 0)), ((1, 1), (2, true, 0)), ((1, 2), (2, true, 1))]⟩]

theorem done23_2l0_1l1_0 : ∃ h, Done list23_2l0_1l1_0 h :=
  ⟨[
    ⟨6801873151742477, ⟨18, 9, 2, [[0, 1, 0], [2, 2, 0], [2, 2, 2]], [[0, 1, 0], [1, 1, 1]],
    [[⟨0, 0, 0⟩, ⟨0, 2, 12⟩, ⟨1, 2, 14⟩], [⟨0, 1, 6⟩], [⟨1, 0, 2⟩, ⟨1, 1, 8⟩, ⟨2, 0, 4⟩, ⟨2, 1,
    10⟩, ⟨2, 2, 16⟩]], [[⟨0, 0, 0⟩, ⟨0, 2, 12⟩], [⟨0, 1, 6⟩, ⟨1, 0, 1⟩, ⟨1, 1, 7⟩, ⟨1, 2, 13⟩]]⟩⟩,
    ⟨6801873152528909, ⟨27, 9, 3, [[0, 1, 1], [1, 2, 0], [1, 0, 0]], [[0, 1, 0], [2, 2, 2], [2,
    2, 2]], [[⟨0, 0, 0⟩, ⟨1, 2, 21⟩, ⟨2, 1, 15⟩, ⟨2, 2, 24⟩], [⟨0, 1, 9⟩, ⟨0, 2, 18⟩, ⟨1, 0, 3⟩,
    ⟨2, 0, 6⟩], [⟨1, 1, 12⟩]], [[⟨0, 0, 0⟩, ⟨0, 2, 18⟩], [⟨0, 1, 9⟩], [⟨1, 0, 1⟩, ⟨1, 1, 10⟩, ⟨1,
    2, 19⟩, ⟨2, 0, 2⟩, ⟨2, 1, 11⟩, ⟨2, 2, 20⟩]]⟩⟩,
    ⟨6801873155674637, ⟨54, 18, 3, [[0, 1, 2], [3, 3, 1], [4, 5, 2], [3, 3, 3], [4, 4, 4], [0, 2,
    5]], [[0, 1, 0], [1, 0, 2], [0, 1, 0]], [[⟨0, 0, 0⟩, ⟨5, 0, 15⟩], [⟨0, 1, 18⟩, ⟨1, 2, 39⟩],
    [⟨0, 2, 36⟩, ⟨2, 2, 42⟩, ⟨5, 1, 33⟩], [⟨1, 0, 3⟩, ⟨1, 1, 21⟩, ⟨3, 0, 9⟩, ⟨3, 1, 27⟩, ⟨3, 2,
    45⟩], [⟨2, 0, 6⟩, ⟨4, 0, 12⟩, ⟨4, 1, 30⟩, ⟨4, 2, 48⟩], [⟨2, 1, 24⟩, ⟨5, 2, 51⟩]], [[⟨0, 0,
    0⟩, ⟨0, 2, 36⟩, ⟨1, 1, 19⟩, ⟨2, 0, 2⟩, ⟨2, 2, 38⟩], [⟨0, 1, 18⟩, ⟨1, 0, 1⟩, ⟨2, 1, 20⟩], [⟨1,
    2, 37⟩]]⟩⟩,
    ⟨6801873155936781, ⟨18, 9, 2, [[0, 1, 0], [2, 2, 0], [2, 2, 2]], [[0, 1, 0], [1, 1, 1]],
    [[⟨0, 0, 0⟩, ⟨0, 2, 12⟩, ⟨1, 2, 14⟩], [⟨0, 1, 6⟩], [⟨1, 0, 2⟩, ⟨1, 1, 8⟩, ⟨2, 0, 4⟩, ⟨2, 1,
    10⟩, ⟨2, 2, 16⟩]], [[⟨0, 0, 0⟩, ⟨0, 2, 12⟩], [⟨0, 1, 6⟩, ⟨1, 0, 1⟩, ⟨1, 1, 7⟩, ⟨1, 2, 13⟩]]⟩⟩,
    ⟨6801873156985357, ⟨27, 9, 3, [[0, 1, 0], [2, 2, 0], [2, 2, 2]], [[0, 1, 0], [1, 0, 2], [0,
    1, 0]], [[⟨0, 0, 0⟩, ⟨0, 2, 18⟩, ⟨1, 2, 21⟩], [⟨0, 1, 9⟩], [⟨1, 0, 3⟩, ⟨1, 1, 12⟩, ⟨2, 0, 6⟩,
    ⟨2, 1, 15⟩, ⟨2, 2, 24⟩]], [[⟨0, 0, 0⟩, ⟨0, 2, 18⟩, ⟨1, 1, 10⟩, ⟨2, 0, 2⟩, ⟨2, 2, 20⟩], [⟨0,
    1, 9⟩, ⟨1, 0, 1⟩, ⟨2, 1, 11⟩], [⟨1, 2, 19⟩]]⟩⟩,
    ⟨6803041385730573, ⟨54, 18, 3, [[0, 1, 2], [3, 4, 3], [3, 5, 2], [3, 3, 3], [2, 3, 3], [2, 4,
    3]], [[0, 0, 1], [0, 2, 1], [0, 2, 1]], [[⟨0, 0, 0⟩], [⟨0, 1, 18⟩], [⟨0, 2, 36⟩, ⟨2, 2, 42⟩,
    ⟨4, 0, 12⟩, ⟨5, 0, 15⟩], [⟨1, 0, 3⟩, ⟨1, 2, 39⟩, ⟨2, 0, 6⟩, ⟨3, 0, 9⟩, ⟨3, 1, 27⟩, ⟨3, 2,
    45⟩, ⟨4, 1, 30⟩, ⟨4, 2, 48⟩, ⟨5, 2, 51⟩], [⟨1, 1, 21⟩, ⟨5, 1, 33⟩], [⟨2, 1, 24⟩]], [[⟨0, 0,
    0⟩, ⟨0, 1, 18⟩, ⟨1, 0, 1⟩, ⟨2, 0, 2⟩], [⟨0, 2, 36⟩, ⟨1, 2, 37⟩, ⟨2, 2, 38⟩], [⟨1, 1, 19⟩, ⟨2,
    1, 20⟩]]⟩⟩,
    ⟨6803041387827725, ⟨90, 30, 3, [[0, 1, 2], [3, 4, 5], [5, 6, 2], [1, 7, 7], [8, 5, 5], [5, 5,
    5], [9, 4, 5], [7, 7, 7], [4, 7, 7], [6, 5, 5]], [[0, 1, 1], [2, 1, 0], [2, 1, 1]], [[⟨0, 0,
    0⟩], [⟨0, 1, 30⟩, ⟨3, 0, 9⟩], [⟨0, 2, 60⟩, ⟨2, 2, 66⟩], [⟨1, 0, 3⟩], [⟨1, 1, 33⟩, ⟨6, 1, 48⟩,
    ⟨8, 0, 24⟩], [⟨1, 2, 63⟩, ⟨2, 0, 6⟩, ⟨4, 1, 42⟩, ⟨4, 2, 72⟩, ⟨5, 0, 15⟩, ⟨5, 1, 45⟩, ⟨5, 2,
    75⟩, ⟨6, 2, 78⟩, ⟨9, 1, 57⟩, ⟨9, 2, 87⟩], [⟨2, 1, 36⟩, ⟨9, 0, 27⟩], [⟨3, 1, 39⟩, ⟨3, 2, 69⟩,
    ⟨7, 0, 21⟩, ⟨7, 1, 51⟩, ⟨7, 2, 81⟩, ⟨8, 1, 54⟩, ⟨8, 2, 84⟩], [⟨4, 0, 12⟩], [⟨6, 0, 18⟩]],
    [[⟨0, 0, 0⟩, ⟨1, 2, 61⟩], [⟨0, 1, 30⟩, ⟨0, 2, 60⟩, ⟨1, 1, 31⟩, ⟨2, 1, 32⟩, ⟨2, 2, 62⟩], [⟨1,
    0, 1⟩, ⟨2, 0, 2⟩]]⟩⟩,
    ⟨6942610640884237, ⟨45, 9, 5, [[0, 1, 1], [2, 1, 0], [2, 2, 0]], [[0, 1, 2], [3, 3, 1], [4,
    1, 2], [3, 3, 3], [2, 3, 3]], [[⟨0, 0, 0⟩, ⟨1, 2, 35⟩, ⟨2, 2, 40⟩], [⟨0, 1, 15⟩, ⟨0, 2, 30⟩,
    ⟨1, 1, 20⟩], [⟨1, 0, 5⟩, ⟨2, 0, 10⟩, ⟨2, 1, 25⟩]], [[⟨0, 0, 0⟩], [⟨0, 1, 15⟩, ⟨1, 2, 31⟩, ⟨2,
    1, 17⟩], [⟨0, 2, 30⟩, ⟨2, 2, 32⟩, ⟨4, 0, 4⟩], [⟨1, 0, 1⟩, ⟨1, 1, 16⟩, ⟨3, 0, 3⟩, ⟨3, 1, 18⟩,
    ⟨3, 2, 33⟩, ⟨4, 1, 19⟩, ⟨4, 2, 34⟩], [⟨2, 0, 2⟩]]⟩⟩,
    ⟨14040420078093, ⟨72, 24, 3, [[0, 1, 2], [3, 4, 4], [2, 2, 2], [5, 6, 4], [5, 1, 2], [4, 2,
    2], [7, 6, 4], [0, 6, 4]], [[0, 1, 0], [2, 0, 2], [1, 1, 0]], [[⟨0, 0, 0⟩, ⟨7, 0, 21⟩], [⟨0,
    1, 24⟩, ⟨4, 1, 36⟩], [⟨0, 2, 48⟩, ⟨2, 0, 6⟩, ⟨2, 1, 30⟩, ⟨2, 2, 54⟩, ⟨4, 2, 60⟩, ⟨5, 1, 39⟩,
    ⟨5, 2, 63⟩], [⟨1, 0, 3⟩], [⟨1, 1, 27⟩, ⟨1, 2, 51⟩, ⟨3, 2, 57⟩, ⟨5, 0, 15⟩, ⟨6, 2, 66⟩, ⟨7, 2,
    69⟩], [⟨3, 0, 9⟩, ⟨4, 0, 12⟩], [⟨3, 1, 33⟩, ⟨6, 1, 42⟩, ⟨7, 1, 45⟩], [⟨6, 0, 18⟩]], [[⟨0, 0,
    0⟩, ⟨0, 2, 48⟩, ⟨1, 1, 25⟩, ⟨2, 2, 50⟩], [⟨0, 1, 24⟩, ⟨2, 0, 2⟩, ⟨2, 1, 26⟩], [⟨1, 0, 1⟩, ⟨1,
    2, 49⟩]]⟩⟩,
    ⟨7189794598703629, ⟨12, 3, 4, [[0, 0, 0]], [[0, 1, 0], [2, 3, 3], [1, 1, 0], [3, 3, 3]],
    [[⟨0, 0, 0⟩, ⟨0, 1, 4⟩, ⟨0, 2, 8⟩]], [[⟨0, 0, 0⟩, ⟨0, 2, 8⟩, ⟨2, 2, 10⟩], [⟨0, 1, 4⟩, ⟨2, 0,
    2⟩, ⟨2, 1, 6⟩], [⟨1, 0, 1⟩], [⟨1, 1, 5⟩, ⟨1, 2, 9⟩, ⟨3, 0, 3⟩, ⟨3, 1, 7⟩, ⟨3, 2, 11⟩]]⟩⟩,
    ⟨14109676425741, ⟨18, 9, 2, [[0, 1, 2], [1, 1, 2], [2, 2, 2]], [[0, 0, 1], [0, 1, 1]], [[⟨0,
    0, 0⟩], [⟨0, 1, 6⟩, ⟨1, 0, 2⟩, ⟨1, 1, 8⟩], [⟨0, 2, 12⟩, ⟨1, 2, 14⟩, ⟨2, 0, 4⟩, ⟨2, 1, 10⟩,
    ⟨2, 2, 16⟩]], [[⟨0, 0, 0⟩, ⟨0, 1, 6⟩, ⟨1, 0, 1⟩], [⟨0, 2, 12⟩, ⟨1, 1, 7⟩, ⟨1, 2, 13⟩]]⟩⟩,
    ⟨14111287038477, ⟨36, 18, 2, [[0, 1, 2], [3, 4, 1], [3, 1, 2], [1, 5, 5], [4, 4, 1], [5, 5,
    5]], [[0, 0, 1], [0, 0, 1]], [[⟨0, 0, 0⟩], [⟨0, 1, 12⟩, ⟨1, 2, 26⟩, ⟨2, 1, 16⟩, ⟨3, 0, 6⟩,
    ⟨4, 2, 32⟩], [⟨0, 2, 24⟩, ⟨2, 2, 28⟩], [⟨1, 0, 2⟩, ⟨2, 0, 4⟩], [⟨1, 1, 14⟩, ⟨4, 0, 8⟩, ⟨4, 1,
    20⟩], [⟨3, 1, 18⟩, ⟨3, 2, 30⟩, ⟨5, 0, 10⟩, ⟨5, 1, 22⟩, ⟨5, 2, 34⟩]], [[⟨0, 0, 0⟩, ⟨0, 1, 12⟩,
    ⟨1, 0, 1⟩, ⟨1, 1, 13⟩], [⟨0, 2, 24⟩, ⟨1, 2, 25⟩]]⟩⟩,
    ⟨7505354435875341, ⟨36, 12, 3, [[0, 1, 2], [3, 1, 3], [2, 2, 2], [3, 3, 3]], [[0, 1, 0], [1,
    2, 2], [0, 1, 0]], [[⟨0, 0, 0⟩], [⟨0, 1, 12⟩, ⟨1, 1, 15⟩], [⟨0, 2, 24⟩, ⟨2, 0, 6⟩, ⟨2, 1,
    18⟩, ⟨2, 2, 30⟩], [⟨1, 0, 3⟩, ⟨1, 2, 27⟩, ⟨3, 0, 9⟩, ⟨3, 1, 21⟩, ⟨3, 2, 33⟩]], [[⟨0, 0, 0⟩,
    ⟨0, 2, 24⟩, ⟨2, 0, 2⟩, ⟨2, 2, 26⟩], [⟨0, 1, 12⟩, ⟨1, 0, 1⟩, ⟨2, 1, 14⟩], [⟨1, 1, 13⟩, ⟨1, 2,
    25⟩]]⟩⟩,
    ⟨7505354437972493, ⟨36, 9, 4, [[0, 1, 2], [0, 2, 0], [0, 2, 2]], [[0, 1, 2], [1, 1, 1], [3,
    3, 3], [3, 3, 3]], [[⟨0, 0, 0⟩, ⟨1, 0, 4⟩, ⟨1, 2, 28⟩, ⟨2, 0, 8⟩], [⟨0, 1, 12⟩], [⟨0, 2, 24⟩,
    ⟨1, 1, 16⟩, ⟨2, 1, 20⟩, ⟨2, 2, 32⟩]], [[⟨0, 0, 0⟩], [⟨0, 1, 12⟩, ⟨1, 0, 1⟩, ⟨1, 1, 13⟩, ⟨1,
    2, 25⟩], [⟨0, 2, 24⟩], [⟨2, 0, 2⟩, ⟨2, 1, 14⟩, ⟨2, 2, 26⟩, ⟨3, 0, 3⟩, ⟨3, 1, 15⟩, ⟨3, 2,
    27⟩]]⟩⟩,
    ⟨7505629312733709, ⟨18, 6, 3, [[0, 0, 1], [0, 0, 1]], [[0, 1, 2], [1, 1, 1], [2, 2, 2]],
    [[⟨0, 0, 0⟩, ⟨0, 1, 6⟩, ⟨1, 0, 3⟩, ⟨1, 1, 9⟩], [⟨0, 2, 12⟩, ⟨1, 2, 15⟩]], [[⟨0, 0, 0⟩], [⟨0,
    1, 6⟩, ⟨1, 0, 1⟩, ⟨1, 1, 7⟩, ⟨1, 2, 13⟩], [⟨0, 2, 12⟩, ⟨2, 0, 2⟩, ⟨2, 1, 8⟩, ⟨2, 2, 14⟩]]⟩⟩,
    ⟨7505629313782285, ⟨63, 9, 7, [[0, 1, 1], [2, 1, 2], [2, 2, 2]], [[0, 1, 2], [3, 1, 3], [4,
    1, 5], [3, 3, 3], [6, 3, 1], [4, 3, 5], [6, 3, 2]], [[⟨0, 0, 0⟩], [⟨0, 1, 21⟩, ⟨0, 2, 42⟩,
    ⟨1, 1, 28⟩], [⟨1, 0, 7⟩, ⟨1, 2, 49⟩, ⟨2, 0, 14⟩, ⟨2, 1, 35⟩, ⟨2, 2, 56⟩]], [[⟨0, 0, 0⟩], [⟨0,
    1, 21⟩, ⟨1, 1, 22⟩, ⟨2, 1, 23⟩, ⟨4, 2, 46⟩], [⟨0, 2, 42⟩, ⟨6, 2, 48⟩], [⟨1, 0, 1⟩, ⟨1, 2,
    43⟩, ⟨3, 0, 3⟩, ⟨3, 1, 24⟩, ⟨3, 2, 45⟩, ⟨4, 1, 25⟩, ⟨5, 1, 26⟩, ⟨6, 1, 27⟩], [⟨2, 0, 2⟩, ⟨5,
    0, 5⟩], [⟨2, 2, 44⟩, ⟨5, 2, 47⟩], [⟨4, 0, 4⟩, ⟨6, 0, 6⟩]]⟩⟩,
    ⟨7506385228026381, ⟨36, 9, 4, [[0, 1, 1], [2, 1, 2], [2, 2, 2]], [[0, 1, 2], [2, 3, 3], [1,
    1, 2], [3, 3, 3]], [[⟨0, 0, 0⟩], [⟨0, 1, 12⟩, ⟨0, 2, 24⟩, ⟨1, 1, 16⟩], [⟨1, 0, 4⟩, ⟨1, 2,
    28⟩, ⟨2, 0, 8⟩, ⟨2, 1, 20⟩, ⟨2, 2, 32⟩]], [[⟨0, 0, 0⟩], [⟨0, 1, 12⟩, ⟨2, 0, 2⟩, ⟨2, 1, 14⟩],
    [⟨0, 2, 24⟩, ⟨1, 0, 1⟩, ⟨2, 2, 26⟩], [⟨1, 1, 13⟩, ⟨1, 2, 25⟩, ⟨3, 0, 3⟩, ⟨3, 1, 15⟩, ⟨3, 2,
    27⟩]]⟩⟩,
    ⟨7506453947503117, ⟨18, 9, 2, [[0, 1, 2], [1, 1, 1], [2, 2, 2]], [[0, 1, 1], [1, 1, 1]],
    [[⟨0, 0, 0⟩], [⟨0, 1, 6⟩, ⟨1, 0, 2⟩, ⟨1, 1, 8⟩, ⟨1, 2, 14⟩], [⟨0, 2, 12⟩, ⟨2, 0, 4⟩, ⟨2, 1,
    10⟩, ⟨2, 2, 16⟩]], [[⟨0, 0, 0⟩], [⟨0, 1, 6⟩, ⟨0, 2, 12⟩, ⟨1, 0, 1⟩, ⟨1, 1, 7⟩, ⟨1, 2, 13⟩]]⟩⟩,
    ⟨7506660104884749, ⟨54, 27, 2, [[0, 1, 2], [3, 4, 5], [2, 2, 2], [2, 6, 2], [7, 7, 2], [5, 5,
    5], [8, 2, 2], [4, 4, 5], [6, 1, 2]], [[0, 1, 0], [0, 0, 1]], [[⟨0, 0, 0⟩], [⟨0, 1, 18⟩, ⟨8,
    1, 34⟩], [⟨0, 2, 36⟩, ⟨2, 0, 4⟩, ⟨2, 1, 22⟩, ⟨2, 2, 40⟩, ⟨3, 0, 6⟩, ⟨3, 2, 42⟩, ⟨4, 2, 44⟩,
    ⟨6, 1, 30⟩, ⟨6, 2, 48⟩, ⟨8, 2, 52⟩], [⟨1, 0, 2⟩], [⟨1, 1, 20⟩, ⟨7, 0, 14⟩, ⟨7, 1, 32⟩], [⟨1,
    2, 38⟩, ⟨5, 0, 10⟩, ⟨5, 1, 28⟩, ⟨5, 2, 46⟩, ⟨7, 2, 50⟩], [⟨3, 1, 24⟩, ⟨8, 0, 16⟩], [⟨4, 0,
    8⟩, ⟨4, 1, 26⟩], [⟨6, 0, 12⟩]], [[⟨0, 0, 0⟩, ⟨0, 2, 36⟩, ⟨1, 0, 1⟩, ⟨1, 1, 19⟩], [⟨0, 1, 18⟩,
    ⟨1, 2, 37⟩]]⟩⟩],
    by decide +kernel, by decide +kernel⟩

theorem child23_2l0_1l1 : AllDone (child (2, false, 0) (1, false, 1)) := by
  refine allDone_of [list23_2l0_1l1_0] ?_ (by decide +kernel)
  simp only [List.forall_mem_cons, List.not_mem_nil, false_imp_iff, implies_true, and_true]
  exact done23_2l0_1l1_0

def list23_2l0_1r0_0 : List Listed := [
  ⟨6907220111677453, [((0, 0), (1, true, 1)), ((0, 1), (1, true, 0)), ((0, 2), (1, false, 1)),
  ((1, 0), (2, false, 0)), ((1, 1), (0, false, 1)), ((1, 2), (0, true, 0))]⟩,
  ⟨6907220113774605, [((0, 0), (1, true, 1)), ((0, 1), (1, true, 0)), ((0, 2), (2, false, 1)),
  ((1, 0), (2, false, 0)), ((1, 1), (0, false, 1)), ((1, 2), (0, true, 0))]⟩,
  ⟨7047957602129933, [((0, 0), (1, true, 1)), ((0, 1), (1, true, 0)), ((0, 2), (2, false, 1)),
  ((1, 0), (2, false, 0)), ((1, 1), (0, false, 1)), ((1, 2), (1, false, 0))]⟩,
  ⟨7188695090485261, [((0, 0), (1, true, 1)), ((0, 1), (1, true, 0)), ((0, 2), (2, false, 1)),
  ((1, 0), (2, false, 0)), ((1, 1), (0, false, 1)), ((1, 2), (1, true, 0))]⟩]

theorem done23_2l0_1r0_0 : ∃ h, Done list23_2l0_1r0_0 h :=
  ⟨[
    ⟨6907220111677453, ⟨54, 18, 3, [[0, 1, 2], [3, 1, 3], [4, 5, 4], [3, 3, 3], [2, 3, 2], [5, 5,
    5]], [[0, 1, 0], [1, 1, 2], [0, 1, 0]], [[⟨0, 0, 0⟩], [⟨0, 1, 18⟩, ⟨1, 1, 21⟩], [⟨0, 2, 36⟩,
    ⟨4, 0, 12⟩, ⟨4, 2, 48⟩], [⟨1, 0, 3⟩, ⟨1, 2, 39⟩, ⟨3, 0, 9⟩, ⟨3, 1, 27⟩, ⟨3, 2, 45⟩, ⟨4, 1,
    30⟩], [⟨2, 0, 6⟩, ⟨2, 2, 42⟩], [⟨2, 1, 24⟩, ⟨5, 0, 15⟩, ⟨5, 1, 33⟩, ⟨5, 2, 51⟩]], [[⟨0, 0,
    0⟩, ⟨0, 2, 36⟩, ⟨2, 0, 2⟩, ⟨2, 2, 38⟩], [⟨0, 1, 18⟩, ⟨1, 0, 1⟩, ⟨1, 1, 19⟩, ⟨2, 1, 20⟩], [⟨1,
    2, 37⟩]]⟩⟩,
    ⟨6907220113774605, ⟨144, 9, 16, [[0, 1, 0], [1, 2, 0], [1, 0, 0]], [[0, 1, 2], [3, 4, 5], [6,
    7, 7], [3, 3, 3], [3, 8, 3], [4, 3, 3], [7, 9, 7], [7, 7, 7], [10, 1, 2], [11, 12, 5], [12,
    3, 3], [13, 11, 7], [10, 14, 2], [11, 3, 3], [13, 15, 7], [3, 12, 5]], [[⟨0, 0, 0⟩, ⟨0, 2,
    96⟩, ⟨1, 2, 112⟩, ⟨2, 1, 80⟩, ⟨2, 2, 128⟩], [⟨0, 1, 48⟩, ⟨1, 0, 16⟩, ⟨2, 0, 32⟩], [⟨1, 1,
    64⟩]], [[⟨0, 0, 0⟩], [⟨0, 1, 48⟩, ⟨8, 1, 56⟩], [⟨0, 2, 96⟩, ⟨8, 2, 104⟩, ⟨12, 2, 108⟩], [⟨1,
    0, 1⟩, ⟨3, 0, 3⟩, ⟨3, 1, 51⟩, ⟨3, 2, 99⟩, ⟨4, 0, 4⟩, ⟨4, 2, 100⟩, ⟨5, 1, 53⟩, ⟨5, 2, 101⟩,
    ⟨10, 1, 58⟩, ⟨10, 2, 106⟩, ⟨13, 1, 61⟩, ⟨13, 2, 109⟩, ⟨15, 0, 15⟩], [⟨1, 1, 49⟩, ⟨5, 0, 5⟩],
    [⟨1, 2, 97⟩, ⟨9, 2, 105⟩, ⟨15, 2, 111⟩], [⟨2, 0, 2⟩], [⟨2, 1, 50⟩, ⟨2, 2, 98⟩, ⟨6, 0, 6⟩, ⟨6,
    2, 102⟩, ⟨7, 0, 7⟩, ⟨7, 1, 55⟩, ⟨7, 2, 103⟩, ⟨11, 2, 107⟩, ⟨14, 2, 110⟩], [⟨4, 1, 52⟩], [⟨6,
    1, 54⟩], [⟨8, 0, 8⟩, ⟨12, 0, 12⟩], [⟨9, 0, 9⟩, ⟨11, 1, 59⟩, ⟨13, 0, 13⟩], [⟨9, 1, 57⟩, ⟨10,
    0, 10⟩, ⟨15, 1, 63⟩], [⟨11, 0, 11⟩, ⟨14, 0, 14⟩], [⟨12, 1, 60⟩], [⟨14, 1, 62⟩]]⟩⟩,
    ⟨7047957602129933, ⟨72, 18, 4, [[0, 1, 2], [3, 1, 1], [4, 5, 4], [3, 1, 1], [2, 1, 2], [5, 5,
    5]], [[0, 1, 2], [3, 1, 2], [2, 0, 2], [3, 3, 3]], [[⟨0, 0, 0⟩], [⟨0, 1, 24⟩, ⟨1, 1, 28⟩, ⟨1,
    2, 52⟩, ⟨3, 1, 36⟩, ⟨3, 2, 60⟩, ⟨4, 1, 40⟩], [⟨0, 2, 48⟩, ⟨4, 0, 16⟩, ⟨4, 2, 64⟩], [⟨1, 0,
    4⟩, ⟨3, 0, 12⟩], [⟨2, 0, 8⟩, ⟨2, 2, 56⟩], [⟨2, 1, 32⟩, ⟨5, 0, 20⟩, ⟨5, 1, 44⟩, ⟨5, 2, 68⟩]],
    [[⟨0, 0, 0⟩, ⟨2, 1, 26⟩], [⟨0, 1, 24⟩, ⟨1, 1, 25⟩], [⟨0, 2, 48⟩, ⟨1, 2, 49⟩, ⟨2, 0, 2⟩, ⟨2,
    2, 50⟩], [⟨1, 0, 1⟩, ⟨3, 0, 3⟩, ⟨3, 1, 27⟩, ⟨3, 2, 51⟩]]⟩⟩,
    ⟨7188695090485261, ⟨18, 6, 3, [[0, 1, 1], [1, 1, 1]], [[0, 1, 2], [1, 1, 1], [2, 0, 2]],
    [[⟨0, 0, 0⟩], [⟨0, 1, 6⟩, ⟨0, 2, 12⟩, ⟨1, 0, 3⟩, ⟨1, 1, 9⟩, ⟨1, 2, 15⟩]], [[⟨0, 0, 0⟩, ⟨2, 1,
    8⟩], [⟨0, 1, 6⟩, ⟨1, 0, 1⟩, ⟨1, 1, 7⟩, ⟨1, 2, 13⟩], [⟨0, 2, 12⟩, ⟨2, 0, 2⟩, ⟨2, 2, 14⟩]]⟩⟩],
    by decide +kernel, by decide +kernel⟩

theorem child23_2l0_1r0 : AllDone (child (2, false, 0) (1, true, 0)) := by
  refine allDone_of [list23_2l0_1r0_0] ?_ (by decide +kernel)
  simp only [List.forall_mem_cons, List.not_mem_nil, false_imp_iff, implies_true, and_true]
  exact done23_2l0_1r0_0

def list23_2l0_1r1_0 : List Listed := [
  ⟨14656592697869, [((0, 0), (1, true, 1)), ((0, 1), (1, true, 1)), ((0, 2), (0, false, 0)), ((1,
  0), (2, false, 0)), ((1, 2), (2, true, 1))]⟩,
  ⟨14656596892173, [((0, 0), (1, true, 1)), ((0, 1), (1, true, 1)), ((0, 2), (2, false, 0)), ((1,
  0), (2, false, 0)), ((1, 2), (2, true, 1))]⟩]

theorem done23_2l0_1r1_0 : ∃ h, Done list23_2l0_1r1_0 h :=
  ⟨[
    ⟨14656592697869, ⟨18, 6, 3, [[0, 0, 1], [0, 0, 1]], [[0, 1, 2], [1, 1, 1], [2, 1, 2]], [[⟨0,
    0, 0⟩, ⟨0, 1, 6⟩, ⟨1, 0, 3⟩, ⟨1, 1, 9⟩], [⟨0, 2, 12⟩, ⟨1, 2, 15⟩]], [[⟨0, 0, 0⟩], [⟨0, 1, 6⟩,
    ⟨1, 0, 1⟩, ⟨1, 1, 7⟩, ⟨1, 2, 13⟩, ⟨2, 1, 8⟩], [⟨0, 2, 12⟩, ⟨2, 0, 2⟩, ⟨2, 2, 14⟩]]⟩⟩,
    ⟨14656596892173, ⟨18, 6, 3, [[0, 0, 1], [0, 0, 1]], [[0, 1, 2], [1, 1, 1], [2, 1, 2]], [[⟨0,
    0, 0⟩, ⟨0, 1, 6⟩, ⟨1, 0, 3⟩, ⟨1, 1, 9⟩], [⟨0, 2, 12⟩, ⟨1, 2, 15⟩]], [[⟨0, 0, 0⟩], [⟨0, 1, 6⟩,
    ⟨1, 0, 1⟩, ⟨1, 1, 7⟩, ⟨1, 2, 13⟩, ⟨2, 1, 8⟩], [⟨0, 2, 12⟩, ⟨2, 0, 2⟩, ⟨2, 2, 14⟩]]⟩⟩],
    by decide +kernel, by decide +kernel⟩

theorem child23_2l0_1r1 : AllDone (child (2, false, 0) (1, true, 1)) := by
  refine allDone_of [list23_2l0_1r1_0] ?_ (by decide +kernel)
  simp only [List.forall_mem_cons, List.not_mem_nil, false_imp_iff, implies_true, and_true]
  exact done23_2l0_1r1_0

def list23_2l0_2l0_0 : List Listed := [
  ⟨13285982232589, [((0, 0), (1, true, 1)), ((0, 1), (2, false, 0)), ((1, 0), (2, false, 0)),
  ((1, 1), (1, true, 0)), ((1, 2), (0, false, 1))]⟩,
  ⟨6803041385734157, [((0, 0), (1, true, 1)), ((0, 1), (2, false, 0)), ((0, 2), (1, true, 0)),
  ((1, 0), (2, false, 0)), ((1, 1), (2, true, 1)), ((1, 2), (0, false, 1))]⟩,
  ⟨13488364740621, [((0, 0), (1, true, 1)), ((0, 1), (2, false, 0)), ((0, 2), (1, true, 0)), ((1,
  0), (2, false, 0)), ((1, 2), (0, true, 0))]⟩,
  ⟨13835872264205, [((0, 0), (1, true, 1)), ((0, 1), (2, false, 0)), ((1, 0), (2, false, 0)),
  ((1, 1), (1, true, 1)), ((1, 2), (1, false, 1))]⟩,
  ⟨7084516360347661, [((0, 0), (1, true, 1)), ((0, 1), (2, false, 0)), ((0, 2), (0, true, 0)),
  ((1, 0), (2, false, 0)), ((1, 1), (2, true, 1)), ((1, 2), (1, false, 1))]⟩,
  ⟨14038118719501, [((0, 0), (1, true, 1)), ((0, 1), (2, false, 0)), ((0, 2), (0, true, 1)), ((1,
  0), (2, false, 0)), ((1, 2), (1, true, 0))]⟩,
  ⟨7188695088390157, [((0, 0), (1, true, 1)), ((0, 1), (2, false, 0)), ((0, 2), (1, false, 1)),
  ((1, 0), (2, false, 0)), ((1, 1), (0, false, 1)), ((1, 2), (1, true, 0))]⟩,
  ⟨7188969966297101, [((0, 0), (1, true, 1)), ((0, 1), (2, false, 0)), ((0, 2), (1, false, 1)),
  ((1, 0), (2, false, 0)), ((1, 1), (0, true, 1)), ((1, 2), (1, true, 0))]⟩,
  ⟨14038120554509, [((0, 0), (1, true, 1)), ((0, 1), (2, false, 0)), ((0, 2), (1, true, 0)), ((1,
  0), (2, false, 0)), ((1, 2), (1, true, 0))]⟩,
  ⟨14038120816653, [((0, 0), (1, true, 1)), ((0, 1), (2, false, 0)), ((0, 2), (1, true, 1)), ((1,
  0), (2, false, 0)), ((1, 2), (1, true, 0))]⟩,
  ⟨7188695090487309, [((0, 0), (1, true, 1)), ((0, 1), (2, false, 0)), ((0, 2), (2, false, 1)),
  ((1, 0), (2, false, 0)), ((1, 1), (0, false, 1)), ((1, 2), (1, true, 0))]⟩,
  ⟨14038122913805, [((0, 0), (1, true, 1)), ((0, 1), (2, false, 0)), ((0, 2), (2, true, 1)), ((1,
  0), (2, false, 0)), ((1, 2), (1, true, 0))]⟩,
  ⟨27552407565, [((0, 0), (1, true, 1)), ((0, 1), (2, false, 0)), ((1, 0), (2, false, 0)), ((1,
  2), (1, true, 1))]⟩,
  ⟨14587873222669, [((0, 0), (1, true, 1)), ((0, 1), (2, false, 0)), ((0, 2), (0, false, 0)),
  ((1, 0), (2, false, 0)), ((1, 2), (2, true, 0))]⟩,
  ⟨14587876368397, [((0, 0), (1, true, 1)), ((0, 1), (2, false, 0)), ((0, 2), (1, true, 0)), ((1,
  0), (2, false, 0)), ((1, 2), (2, true, 0))]⟩,
  ⟨14656595845133, [((0, 0), (1, true, 1)), ((0, 1), (2, false, 0)), ((0, 2), (1, true, 0)), ((1,
  0), (2, false, 0)), ((1, 2), (2, true, 1))]⟩,
  ⟨14656596893709, [((0, 0), (1, true, 1)), ((0, 1), (2, false, 0)), ((0, 2), (2, false, 0)),
  ((1, 0), (2, false, 0)), ((1, 2), (2, true, 1))]⟩]

theorem done23_2l0_2l0_0 : ∃ h, Done list23_2l0_2l0_0 h :=
  ⟨[
    ⟨13285982232589, ⟨36, 9, 4, [[0, 1, 2], [0, 1, 2], [2, 2, 2]], [[0, 0, 1], [0, 2, 1], [3, 1,
    3], [3, 3, 3]], [[⟨0, 0, 0⟩, ⟨1, 0, 4⟩], [⟨0, 1, 12⟩, ⟨1, 1, 16⟩], [⟨0, 2, 24⟩, ⟨1, 2, 28⟩,
    ⟨2, 0, 8⟩, ⟨2, 1, 20⟩, ⟨2, 2, 32⟩]], [[⟨0, 0, 0⟩, ⟨0, 1, 12⟩, ⟨1, 0, 1⟩], [⟨0, 2, 24⟩, ⟨1, 2,
    25⟩, ⟨2, 1, 14⟩], [⟨1, 1, 13⟩], [⟨2, 0, 2⟩, ⟨2, 2, 26⟩, ⟨3, 0, 3⟩, ⟨3, 1, 15⟩, ⟨3, 2, 27⟩]]⟩⟩,
    ⟨6803041385734157, ⟨18, 9, 2, [[0, 1, 2], [1, 1, 1], [1, 1, 2]], [[0, 0, 1], [0, 1, 1]],
    [[⟨0, 0, 0⟩], [⟨0, 1, 6⟩, ⟨1, 0, 2⟩, ⟨1, 1, 8⟩, ⟨1, 2, 14⟩, ⟨2, 0, 4⟩, ⟨2, 1, 10⟩], [⟨0, 2,
    12⟩, ⟨2, 2, 16⟩]], [[⟨0, 0, 0⟩, ⟨0, 1, 6⟩, ⟨1, 0, 1⟩], [⟨0, 2, 12⟩, ⟨1, 1, 7⟩, ⟨1, 2, 13⟩]]⟩⟩,
    ⟨13488364740621, ⟨36, 6, 6, [[0, 1, 0], [0, 1, 0]], [[0, 1, 2], [3, 1, 2], [3, 2, 4], [2, 5,
    5], [4, 2, 4], [5, 5, 5]], [[⟨0, 0, 0⟩, ⟨0, 2, 24⟩, ⟨1, 0, 6⟩, ⟨1, 2, 30⟩], [⟨0, 1, 12⟩, ⟨1,
    1, 18⟩]], [[⟨0, 0, 0⟩], [⟨0, 1, 12⟩, ⟨1, 1, 13⟩], [⟨0, 2, 24⟩, ⟨1, 2, 25⟩, ⟨2, 1, 14⟩, ⟨3, 0,
    3⟩, ⟨4, 1, 16⟩], [⟨1, 0, 1⟩, ⟨2, 0, 2⟩], [⟨2, 2, 26⟩, ⟨4, 0, 4⟩, ⟨4, 2, 28⟩], [⟨3, 1, 15⟩,
    ⟨3, 2, 27⟩, ⟨5, 0, 5⟩, ⟨5, 1, 17⟩, ⟨5, 2, 29⟩]]⟩⟩,
    ⟨13835872264205, ⟨18, 9, 2, [[0, 1, 2], [1, 1, 2], [2, 2, 2]], [[0, 0, 1], [0, 0, 1]], [[⟨0,
    0, 0⟩], [⟨0, 1, 6⟩, ⟨1, 0, 2⟩, ⟨1, 1, 8⟩], [⟨0, 2, 12⟩, ⟨1, 2, 14⟩, ⟨2, 0, 4⟩, ⟨2, 1, 10⟩,
    ⟨2, 2, 16⟩]], [[⟨0, 0, 0⟩, ⟨0, 1, 6⟩, ⟨1, 0, 1⟩, ⟨1, 1, 7⟩], [⟨0, 2, 12⟩, ⟨1, 2, 13⟩]]⟩⟩,
    ⟨7084516360347661, ⟨45, 9, 5, [[0, 0, 1], [2, 1, 2], [2, 2, 2]], [[0, 1, 2], [2, 3, 3], [4,
    3, 2], [3, 3, 3], [3, 1, 3]], [[⟨0, 0, 0⟩, ⟨0, 1, 15⟩], [⟨0, 2, 30⟩, ⟨1, 1, 20⟩], [⟨1, 0, 5⟩,
    ⟨1, 2, 35⟩, ⟨2, 0, 10⟩, ⟨2, 1, 25⟩, ⟨2, 2, 40⟩]], [[⟨0, 0, 0⟩], [⟨0, 1, 15⟩, ⟨4, 1, 19⟩],
    [⟨0, 2, 30⟩, ⟨1, 0, 1⟩, ⟨2, 2, 32⟩], [⟨1, 1, 16⟩, ⟨1, 2, 31⟩, ⟨2, 1, 17⟩, ⟨3, 0, 3⟩, ⟨3, 1,
    18⟩, ⟨3, 2, 33⟩, ⟨4, 0, 4⟩, ⟨4, 2, 34⟩], [⟨2, 0, 2⟩]]⟩⟩,
    ⟨14038118719501, ⟨18, 6, 3, [[0, 1, 0], [1, 1, 0]], [[0, 1, 2], [1, 1, 1], [2, 1, 2]], [[⟨0,
    0, 0⟩, ⟨0, 2, 12⟩, ⟨1, 2, 15⟩], [⟨0, 1, 6⟩, ⟨1, 0, 3⟩, ⟨1, 1, 9⟩]], [[⟨0, 0, 0⟩], [⟨0, 1, 6⟩,
    ⟨1, 0, 1⟩, ⟨1, 1, 7⟩, ⟨1, 2, 13⟩, ⟨2, 1, 8⟩], [⟨0, 2, 12⟩, ⟨2, 0, 2⟩, ⟨2, 2, 14⟩]]⟩⟩,
    ⟨7188695088390157, ⟨132, 33, 4, [[0, 1, 2], [2, 3, 2], [2, 2, 2], [4, 1, 2], [5, 6, 7], [8,
    1, 2], [3, 9, 9], [4, 7, 3], [0, 10, 3], [9, 9, 9], [0, 7, 3]], [[0, 1, 1], [2, 1, 3], [1, 0,
    0], [0, 1, 3]], [[⟨0, 0, 0⟩, ⟨8, 0, 32⟩, ⟨10, 0, 40⟩], [⟨0, 1, 44⟩, ⟨3, 1, 56⟩, ⟨5, 1, 64⟩],
    [⟨0, 2, 88⟩, ⟨1, 0, 4⟩, ⟨1, 2, 92⟩, ⟨2, 0, 8⟩, ⟨2, 1, 52⟩, ⟨2, 2, 96⟩, ⟨3, 2, 100⟩, ⟨5, 2,
    108⟩], [⟨1, 1, 48⟩, ⟨6, 0, 24⟩, ⟨7, 2, 116⟩, ⟨8, 2, 120⟩, ⟨10, 2, 128⟩], [⟨3, 0, 12⟩, ⟨7, 0,
    28⟩], [⟨4, 0, 16⟩], [⟨4, 1, 60⟩], [⟨4, 2, 104⟩, ⟨7, 1, 72⟩, ⟨10, 1, 84⟩], [⟨5, 0, 20⟩], [⟨6,
    1, 68⟩, ⟨6, 2, 112⟩, ⟨9, 0, 36⟩, ⟨9, 1, 80⟩, ⟨9, 2, 124⟩], [⟨8, 1, 76⟩]], [[⟨0, 0, 0⟩, ⟨2, 1,
    46⟩, ⟨2, 2, 90⟩, ⟨3, 0, 3⟩], [⟨0, 1, 44⟩, ⟨0, 2, 88⟩, ⟨1, 1, 45⟩, ⟨2, 0, 2⟩, ⟨3, 1, 47⟩],
    [⟨1, 0, 1⟩], [⟨1, 2, 89⟩, ⟨3, 2, 91⟩]]⟩⟩,
    ⟨7188969966297101, ⟨48, 12, 4, [[0, 1, 0], [1, 2, 3], [1, 2, 0], [3, 3, 3]], [[0, 1, 2], [3,
    1, 2], [3, 3, 1], [3, 3, 3]], [[⟨0, 0, 0⟩, ⟨0, 2, 32⟩, ⟨2, 2, 40⟩], [⟨0, 1, 16⟩, ⟨1, 0, 4⟩,
    ⟨2, 0, 8⟩], [⟨1, 1, 20⟩, ⟨2, 1, 24⟩], [⟨1, 2, 36⟩, ⟨3, 0, 12⟩, ⟨3, 1, 28⟩, ⟨3, 2, 44⟩]],
    [[⟨0, 0, 0⟩], [⟨0, 1, 16⟩, ⟨1, 1, 17⟩, ⟨2, 2, 34⟩], [⟨0, 2, 32⟩, ⟨1, 2, 33⟩], [⟨1, 0, 1⟩, ⟨2,
    0, 2⟩, ⟨2, 1, 18⟩, ⟨3, 0, 3⟩, ⟨3, 1, 19⟩, ⟨3, 2, 35⟩]]⟩⟩,
    ⟨14038120554509, ⟨30, 6, 5, [[0, 1, 0], [0, 1, 0]], [[0, 1, 2], [3, 1, 2], [2, 1, 2], [1, 4,
    4], [4, 4, 4]], [[⟨0, 0, 0⟩, ⟨0, 2, 20⟩, ⟨1, 0, 5⟩, ⟨1, 2, 25⟩], [⟨0, 1, 10⟩, ⟨1, 1, 15⟩]],
    [[⟨0, 0, 0⟩], [⟨0, 1, 10⟩, ⟨1, 1, 11⟩, ⟨2, 1, 12⟩, ⟨3, 0, 3⟩], [⟨0, 2, 20⟩, ⟨1, 2, 21⟩, ⟨2,
    0, 2⟩, ⟨2, 2, 22⟩], [⟨1, 0, 1⟩], [⟨3, 1, 13⟩, ⟨3, 2, 23⟩, ⟨4, 0, 4⟩, ⟨4, 1, 14⟩, ⟨4, 2,
    24⟩]]⟩⟩,
    ⟨14038120816653, ⟨18, 6, 3, [[0, 1, 0], [0, 1, 0]], [[0, 1, 2], [1, 1, 1], [2, 1, 2]], [[⟨0,
    0, 0⟩, ⟨0, 2, 12⟩, ⟨1, 0, 3⟩, ⟨1, 2, 15⟩], [⟨0, 1, 6⟩, ⟨1, 1, 9⟩]], [[⟨0, 0, 0⟩], [⟨0, 1, 6⟩,
    ⟨1, 0, 1⟩, ⟨1, 1, 7⟩, ⟨1, 2, 13⟩, ⟨2, 1, 8⟩], [⟨0, 2, 12⟩, ⟨2, 0, 2⟩, ⟨2, 2, 14⟩]]⟩⟩,
    ⟨7188695090487309, ⟨18, 6, 3, [[0, 1, 1], [1, 1, 1]], [[0, 1, 2], [1, 1, 1], [2, 0, 2]],
    [[⟨0, 0, 0⟩], [⟨0, 1, 6⟩, ⟨0, 2, 12⟩, ⟨1, 0, 3⟩, ⟨1, 1, 9⟩, ⟨1, 2, 15⟩]], [[⟨0, 0, 0⟩, ⟨2, 1,
    8⟩], [⟨0, 1, 6⟩, ⟨1, 0, 1⟩, ⟨1, 1, 7⟩, ⟨1, 2, 13⟩], [⟨0, 2, 12⟩, ⟨2, 0, 2⟩, ⟨2, 2, 14⟩]]⟩⟩,
    ⟨14038122913805, ⟨12, 6, 2, [[0, 0, 1], [0, 1, 1]], [[0, 1, 0], [1, 1, 1]], [[⟨0, 0, 0⟩, ⟨0,
    1, 4⟩, ⟨1, 0, 2⟩], [⟨0, 2, 8⟩, ⟨1, 1, 6⟩, ⟨1, 2, 10⟩]], [[⟨0, 0, 0⟩, ⟨0, 2, 8⟩], [⟨0, 1, 4⟩,
    ⟨1, 0, 1⟩, ⟨1, 1, 5⟩, ⟨1, 2, 9⟩]]⟩⟩,
    ⟨27552407565, ⟨27, 9, 3, [[0, 1, 2], [0, 1, 2], [2, 2, 2]], [[0, 1, 2], [1, 1, 1], [0, 1,
    2]], [[⟨0, 0, 0⟩, ⟨1, 0, 3⟩], [⟨0, 1, 9⟩, ⟨1, 1, 12⟩], [⟨0, 2, 18⟩, ⟨1, 2, 21⟩, ⟨2, 0, 6⟩,
    ⟨2, 1, 15⟩, ⟨2, 2, 24⟩]], [[⟨0, 0, 0⟩, ⟨2, 0, 2⟩], [⟨0, 1, 9⟩, ⟨1, 0, 1⟩, ⟨1, 1, 10⟩, ⟨1, 2,
    19⟩, ⟨2, 1, 11⟩], [⟨0, 2, 18⟩, ⟨2, 2, 20⟩]]⟩⟩,
    ⟨14587873222669, ⟨18, 6, 3, [[0, 1, 0], [0, 1, 1]], [[0, 1, 2], [1, 1, 1], [2, 1, 2]], [[⟨0,
    0, 0⟩, ⟨0, 2, 12⟩, ⟨1, 0, 3⟩], [⟨0, 1, 6⟩, ⟨1, 1, 9⟩, ⟨1, 2, 15⟩]], [[⟨0, 0, 0⟩], [⟨0, 1, 6⟩,
    ⟨1, 0, 1⟩, ⟨1, 1, 7⟩, ⟨1, 2, 13⟩, ⟨2, 1, 8⟩], [⟨0, 2, 12⟩, ⟨2, 0, 2⟩, ⟨2, 2, 14⟩]]⟩⟩,
    ⟨14587876368397, ⟨36, 6, 6, [[0, 1, 0], [0, 1, 0]], [[0, 1, 2], [3, 1, 2], [3, 2, 4], [2, 5,
    5], [4, 2, 4], [5, 5, 5]], [[⟨0, 0, 0⟩, ⟨0, 2, 24⟩, ⟨1, 0, 6⟩, ⟨1, 2, 30⟩], [⟨0, 1, 12⟩, ⟨1,
    1, 18⟩]], [[⟨0, 0, 0⟩], [⟨0, 1, 12⟩, ⟨1, 1, 13⟩], [⟨0, 2, 24⟩, ⟨1, 2, 25⟩, ⟨2, 1, 14⟩, ⟨3, 0,
    3⟩, ⟨4, 1, 16⟩], [⟨1, 0, 1⟩, ⟨2, 0, 2⟩], [⟨2, 2, 26⟩, ⟨4, 0, 4⟩, ⟨4, 2, 28⟩], [⟨3, 1, 15⟩,
    ⟨3, 2, 27⟩, ⟨5, 0, 5⟩, ⟨5, 1, 17⟩, ⟨5, 2, 29⟩]]⟩⟩,
    ⟨14656595845133, ⟨18, 6, 3, [[0, 1, 0], [0, 1, 1]], [[0, 1, 2], [1, 1, 1], [1, 1, 2]], [[⟨0,
    0, 0⟩, ⟨0, 2, 12⟩, ⟨1, 0, 3⟩], [⟨0, 1, 6⟩, ⟨1, 1, 9⟩, ⟨1, 2, 15⟩]], [[⟨0, 0, 0⟩], [⟨0, 1, 6⟩,
    ⟨1, 0, 1⟩, ⟨1, 1, 7⟩, ⟨1, 2, 13⟩, ⟨2, 0, 2⟩, ⟨2, 1, 8⟩], [⟨0, 2, 12⟩, ⟨2, 2, 14⟩]]⟩⟩,
    ⟨14656596893709, ⟨18, 6, 3, [[0, 0, 1], [0, 0, 1]], [[0, 1, 2], [1, 1, 1], [2, 1, 2]], [[⟨0,
    0, 0⟩, ⟨0, 1, 6⟩, ⟨1, 0, 3⟩, ⟨1, 1, 9⟩], [⟨0, 2, 12⟩, ⟨1, 2, 15⟩]], [[⟨0, 0, 0⟩], [⟨0, 1, 6⟩,
    ⟨1, 0, 1⟩, ⟨1, 1, 7⟩, ⟨1, 2, 13⟩, ⟨2, 1, 8⟩], [⟨0, 2, 12⟩, ⟨2, 0, 2⟩, ⟨2, 2, 14⟩]]⟩⟩],
    by decide +kernel, by decide +kernel⟩

theorem child23_2l0_2l0 : AllDone (child (2, false, 0) (2, false, 0)) := by
  refine allDone_of [list23_2l0_2l0_0] ?_ (by decide +kernel)
  simp only [List.forall_mem_cons, List.not_mem_nil, false_imp_iff, implies_true, and_true]
  exact done23_2l0_2l0_0

end BB.Records
