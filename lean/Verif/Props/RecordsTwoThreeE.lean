import Verif.Props.RecordsTwoThreeD

/-!
# C79 for two states and three colours: programs with some instructions at B0
-/

namespace BB.Records

open Watch

def list23_1l1_2l0_0 : List Listed := [
  ⟨6767512478046221, [((0, 0), (1, true, 1)), ((0, 1), (1, true, 0)), ((0, 2), (2, false, 1)),
  ((1, 0), (1, false, 1)), ((1, 1), (2, false, 0)), ((1, 2), (0, false, 0))]⟩,
  ⟨13492675693069, [((0, 0), (1, true, 1)), ((0, 1), (0, true, 1)), ((1, 0), (1, false, 1)), ((1,
  1), (2, false, 0)), ((1, 2), (0, true, 0))]⟩,
  ⟨6908249962207245, [((0, 0), (1, true, 1)), ((0, 1), (1, true, 0)), ((0, 2), (0, false, 1)),
  ((1, 0), (1, false, 1)), ((1, 1), (2, false, 0)), ((1, 2), (0, true, 0))]⟩,
  ⟨6908249964304397, [((0, 0), (1, true, 1)), ((0, 1), (1, true, 0)), ((0, 2), (1, false, 1)),
  ((1, 0), (1, false, 1)), ((1, 1), (2, false, 0)), ((1, 2), (0, true, 0))]⟩,
  ⟨6908249966401549, [((0, 0), (1, true, 1)), ((0, 1), (1, true, 0)), ((0, 2), (2, false, 1)),
  ((1, 0), (1, false, 1)), ((1, 1), (2, false, 0)), ((1, 2), (0, true, 0))]⟩,
  ⟨6908249961949197, [((0, 0), (1, true, 1)), ((0, 1), (2, true, 0)), ((0, 2), (0, false, 0)),
  ((1, 0), (1, false, 1)), ((1, 1), (2, false, 0)), ((1, 2), (0, true, 0))]⟩,
  ⟨6908249962211341, [((0, 0), (1, true, 1)), ((0, 1), (2, true, 0)), ((0, 2), (0, false, 1)),
  ((1, 0), (1, false, 1)), ((1, 1), (2, false, 0)), ((1, 2), (0, true, 0))]⟩,
  ⟨6908249964308493, [((0, 0), (1, true, 1)), ((0, 1), (2, true, 0)), ((0, 2), (1, false, 1)),
  ((1, 0), (1, false, 1)), ((1, 1), (2, false, 0)), ((1, 2), (0, true, 0))]⟩,
  ⟨6908249966405645, [((0, 0), (1, true, 1)), ((0, 1), (2, true, 0)), ((0, 2), (2, false, 1)),
  ((1, 0), (1, false, 1)), ((1, 1), (2, false, 0)), ((1, 2), (0, true, 0))]⟩,
  ⟨13561395167245, [((0, 0), (1, true, 1)), ((0, 1), (0, false, 0)), ((1, 0), (1, false, 1)),
  ((1, 1), (2, false, 0)), ((1, 2), (0, true, 1))]⟩,
  ⟨13561395169805, [((0, 0), (1, true, 1)), ((0, 1), (0, true, 1)), ((1, 0), (1, false, 1)), ((1,
  1), (2, false, 0)), ((1, 2), (0, true, 1))]⟩,
  ⟨6943434334296077, [((0, 0), (1, true, 1)), ((0, 1), (1, true, 0)), ((0, 2), (0, false, 1)),
  ((1, 0), (1, false, 1)), ((1, 1), (2, false, 0)), ((1, 2), (0, true, 1))]⟩,
  ⟨6943434336393229, [((0, 0), (1, true, 1)), ((0, 1), (1, true, 0)), ((0, 2), (1, false, 1)),
  ((1, 0), (1, false, 1)), ((1, 1), (2, false, 0)), ((1, 2), (0, true, 1))]⟩,
  ⟨6943434338490381, [((0, 0), (1, true, 1)), ((0, 1), (1, true, 0)), ((0, 2), (2, false, 1)),
  ((1, 0), (1, false, 1)), ((1, 1), (2, false, 0)), ((1, 2), (0, true, 1))]⟩,
  ⟨13561395173901, [((0, 0), (1, true, 1)), ((0, 1), (1, true, 1)), ((1, 0), (1, false, 1)), ((1,
  1), (2, false, 0)), ((1, 2), (0, true, 1))]⟩,
  ⟨13561395175437, [((0, 0), (1, true, 1)), ((0, 1), (2, false, 0)), ((1, 0), (1, false, 1)),
  ((1, 1), (2, false, 0)), ((1, 2), (0, true, 1))]⟩,
  ⟨6943434336397325, [((0, 0), (1, true, 1)), ((0, 1), (2, true, 0)), ((0, 2), (1, false, 1)),
  ((1, 0), (1, false, 1)), ((1, 1), (2, false, 0)), ((1, 2), (0, true, 1))]⟩,
  ⟨6943434338494477, [((0, 0), (1, true, 1)), ((0, 1), (2, true, 0)), ((0, 2), (2, false, 1)),
  ((1, 0), (1, false, 1)), ((1, 1), (2, false, 0)), ((1, 2), (0, true, 1))]⟩,
  ⟨13561395177997, [((0, 0), (1, true, 1)), ((0, 1), (2, true, 1)), ((1, 0), (1, false, 1)), ((1,
  1), (2, false, 0)), ((1, 2), (0, true, 1))]⟩,
  ⟨7048987450562573, [((0, 0), (1, true, 1)), ((0, 1), (1, true, 0)), ((0, 2), (0, false, 1)),
  ((1, 0), (1, false, 1)), ((1, 1), (2, false, 0)), ((1, 2), (1, false, 0))]⟩]

theorem done23_1l1_2l0_0 : ∃ h, Done list23_1l1_2l0_0 h :=
  ⟨[
    ⟨6767512478046221, ⟨18, 9, 2, [[0, 1, 2], [1, 1, 1], [2, 2, 2]], [[0, 0, 1], [0, 0, 1]],
    [[⟨0, 0, 0⟩], [⟨0, 1, 6⟩, ⟨1, 0, 2⟩, ⟨1, 1, 8⟩, ⟨1, 2, 14⟩], [⟨0, 2, 12⟩, ⟨2, 0, 4⟩, ⟨2, 1,
    10⟩, ⟨2, 2, 16⟩]], [[⟨0, 0, 0⟩, ⟨0, 1, 6⟩, ⟨1, 0, 1⟩, ⟨1, 1, 7⟩], [⟨0, 2, 12⟩, ⟨1, 2, 13⟩]]⟩⟩,
    ⟨13492675693069, ⟨168, 12, 14, [[0, 1, 2], [3, 1, 2], [1, 0, 2], [3, 3, 2]], [[0, 1, 2], [3,
    4, 2], [5, 6, 7], [8, 1, 2], [3, 9, 10], [7, 10, 10], [7, 11, 2], [7, 7, 7], [0, 12, 10],
    [13, 9, 10], [5, 5, 7], [6, 5, 7], [13, 4, 2], [8, 12, 10]], [[⟨0, 0, 0⟩, ⟨2, 1, 84⟩], [⟨0,
    1, 56⟩, ⟨1, 1, 70⟩, ⟨2, 0, 28⟩], [⟨0, 2, 112⟩, ⟨1, 2, 126⟩, ⟨2, 2, 140⟩, ⟨3, 2, 154⟩], [⟨1,
    0, 14⟩, ⟨3, 0, 42⟩, ⟨3, 1, 98⟩]], [[⟨0, 0, 0⟩, ⟨8, 0, 8⟩], [⟨0, 1, 56⟩, ⟨3, 1, 59⟩], [⟨0, 2,
    112⟩, ⟨1, 2, 113⟩, ⟨3, 2, 115⟩, ⟨6, 2, 118⟩, ⟨12, 2, 124⟩], [⟨1, 0, 1⟩, ⟨4, 0, 4⟩], [⟨1, 1,
    57⟩, ⟨12, 1, 68⟩], [⟨2, 0, 2⟩, ⟨10, 0, 10⟩, ⟨10, 1, 66⟩, ⟨11, 1, 67⟩], [⟨2, 1, 58⟩, ⟨11, 0,
    11⟩], [⟨2, 2, 114⟩, ⟨5, 0, 5⟩, ⟨6, 0, 6⟩, ⟨7, 0, 7⟩, ⟨7, 1, 63⟩, ⟨7, 2, 119⟩, ⟨10, 2, 122⟩,
    ⟨11, 2, 123⟩], [⟨3, 0, 3⟩, ⟨13, 0, 13⟩], [⟨4, 1, 60⟩, ⟨9, 1, 65⟩], [⟨4, 2, 116⟩, ⟨5, 1, 61⟩,
    ⟨5, 2, 117⟩, ⟨8, 2, 120⟩, ⟨9, 2, 121⟩, ⟨13, 2, 125⟩], [⟨6, 1, 62⟩], [⟨8, 1, 64⟩, ⟨13, 1,
    69⟩], [⟨9, 0, 9⟩, ⟨12, 0, 12⟩]]⟩⟩,
    ⟨6908249962207245, ⟨18, 9, 2, [[0, 1, 2], [1, 1, 1], [2, 2, 2]], [[0, 0, 1], [0, 0, 0]],
    [[⟨0, 0, 0⟩], [⟨0, 1, 6⟩, ⟨1, 0, 2⟩, ⟨1, 1, 8⟩, ⟨1, 2, 14⟩], [⟨0, 2, 12⟩, ⟨2, 0, 4⟩, ⟨2, 1,
    10⟩, ⟨2, 2, 16⟩]], [[⟨0, 0, 0⟩, ⟨0, 1, 6⟩, ⟨1, 0, 1⟩, ⟨1, 1, 7⟩, ⟨1, 2, 13⟩], [⟨0, 2, 12⟩]]⟩⟩,
    ⟨6908249964304397, ⟨18, 9, 2, [[0, 1, 2], [1, 1, 1], [2, 2, 2]], [[0, 0, 1], [0, 0, 0]],
    [[⟨0, 0, 0⟩], [⟨0, 1, 6⟩, ⟨1, 0, 2⟩, ⟨1, 1, 8⟩, ⟨1, 2, 14⟩], [⟨0, 2, 12⟩, ⟨2, 0, 4⟩, ⟨2, 1,
    10⟩, ⟨2, 2, 16⟩]], [[⟨0, 0, 0⟩, ⟨0, 1, 6⟩, ⟨1, 0, 1⟩, ⟨1, 1, 7⟩, ⟨1, 2, 13⟩], [⟨0, 2, 12⟩]]⟩⟩,
    ⟨6908249966401549, ⟨18, 9, 2, [[0, 1, 2], [1, 1, 1], [2, 2, 2]], [[0, 0, 1], [0, 1, 1]],
    [[⟨0, 0, 0⟩], [⟨0, 1, 6⟩, ⟨1, 0, 2⟩, ⟨1, 1, 8⟩, ⟨1, 2, 14⟩], [⟨0, 2, 12⟩, ⟨2, 0, 4⟩, ⟨2, 1,
    10⟩, ⟨2, 2, 16⟩]], [[⟨0, 0, 0⟩, ⟨0, 1, 6⟩, ⟨1, 0, 1⟩], [⟨0, 2, 12⟩, ⟨1, 1, 7⟩, ⟨1, 2, 13⟩]]⟩⟩,
    ⟨6908249961949197, ⟨108, 27, 4, [[0, 1, 2], [3, 4, 4], [5, 5, 2], [5, 6, 6], [4, 7, 7], [3,
    4, 4], [6, 8, 8], [7, 7, 7], [8, 8, 8]], [[0, 1, 1], [2, 1, 3], [2, 1, 1], [0, 1, 1]], [[⟨0,
    0, 0⟩], [⟨0, 1, 36⟩], [⟨0, 2, 72⟩, ⟨2, 2, 80⟩], [⟨1, 0, 4⟩, ⟨5, 0, 20⟩], [⟨1, 1, 40⟩, ⟨1, 2,
    76⟩, ⟨4, 0, 16⟩, ⟨5, 1, 56⟩, ⟨5, 2, 92⟩], [⟨2, 0, 8⟩, ⟨2, 1, 44⟩, ⟨3, 0, 12⟩], [⟨3, 1, 48⟩,
    ⟨3, 2, 84⟩, ⟨6, 0, 24⟩], [⟨4, 1, 52⟩, ⟨4, 2, 88⟩, ⟨7, 0, 28⟩, ⟨7, 1, 64⟩, ⟨7, 2, 100⟩], [⟨6,
    1, 60⟩, ⟨6, 2, 96⟩, ⟨8, 0, 32⟩, ⟨8, 1, 68⟩, ⟨8, 2, 104⟩]], [[⟨0, 0, 0⟩, ⟨3, 0, 3⟩], [⟨0, 1,
    36⟩, ⟨0, 2, 72⟩, ⟨1, 1, 37⟩, ⟨2, 1, 38⟩, ⟨2, 2, 74⟩, ⟨3, 1, 39⟩, ⟨3, 2, 75⟩], [⟨1, 0, 1⟩, ⟨2,
    0, 2⟩], [⟨1, 2, 73⟩]]⟩⟩,
    ⟨6908249962211341, ⟨96, 24, 4, [[0, 1, 2], [3, 4, 5], [6, 7, 0], [5, 5, 5], [4, 5, 3], [5, 5,
    5], [2, 7, 6], [7, 7, 7]], [[0, 0, 1], [2, 0, 0], [2, 3, 3], [2, 2, 3]], [[⟨0, 0, 0⟩, ⟨2, 2,
    72⟩], [⟨0, 1, 32⟩], [⟨0, 2, 64⟩, ⟨6, 0, 24⟩], [⟨1, 0, 4⟩, ⟨4, 2, 80⟩], [⟨1, 1, 36⟩, ⟨4, 0,
    16⟩], [⟨1, 2, 68⟩, ⟨3, 0, 12⟩, ⟨3, 1, 44⟩, ⟨3, 2, 76⟩, ⟨4, 1, 48⟩, ⟨5, 0, 20⟩, ⟨5, 1, 52⟩,
    ⟨5, 2, 84⟩], [⟨2, 0, 8⟩, ⟨6, 2, 88⟩], [⟨2, 1, 40⟩, ⟨6, 1, 56⟩, ⟨7, 0, 28⟩, ⟨7, 1, 60⟩, ⟨7, 2,
    92⟩]], [[⟨0, 0, 0⟩, ⟨0, 1, 32⟩, ⟨1, 1, 33⟩, ⟨1, 2, 65⟩], [⟨0, 2, 64⟩], [⟨1, 0, 1⟩, ⟨2, 0, 2⟩,
    ⟨3, 0, 3⟩, ⟨3, 1, 35⟩], [⟨2, 1, 34⟩, ⟨2, 2, 66⟩, ⟨3, 2, 67⟩]]⟩⟩,
    ⟨6908249964308493, ⟨81, 9, 9, [[0, 0, 1], [1, 0, 2], [1, 2, 2]], [[0, 1, 2], [3, 4, 5], [3,
    1, 2], [2, 6, 6], [0, 7, 8], [0, 4, 5], [6, 6, 6], [4, 7, 8], [4, 4, 5]], [[⟨0, 0, 0⟩, ⟨0, 1,
    27⟩, ⟨1, 1, 36⟩], [⟨0, 2, 54⟩, ⟨1, 0, 9⟩, ⟨2, 0, 18⟩], [⟨1, 2, 63⟩, ⟨2, 1, 45⟩, ⟨2, 2, 72⟩]],
    [[⟨0, 0, 0⟩, ⟨4, 0, 4⟩, ⟨5, 0, 5⟩], [⟨0, 1, 27⟩, ⟨2, 1, 29⟩], [⟨0, 2, 54⟩, ⟨2, 2, 56⟩, ⟨3, 0,
    3⟩], [⟨1, 0, 1⟩, ⟨2, 0, 2⟩], [⟨1, 1, 28⟩, ⟨5, 1, 32⟩, ⟨7, 0, 7⟩, ⟨8, 0, 8⟩, ⟨8, 1, 35⟩], [⟨1,
    2, 55⟩, ⟨5, 2, 59⟩, ⟨8, 2, 62⟩], [⟨3, 1, 30⟩, ⟨3, 2, 57⟩, ⟨6, 0, 6⟩, ⟨6, 1, 33⟩, ⟨6, 2, 60⟩],
    [⟨4, 1, 31⟩, ⟨7, 1, 34⟩], [⟨4, 2, 58⟩, ⟨7, 2, 61⟩]]⟩⟩,
    ⟨6908249966405645, ⟨63, 9, 7, [[0, 1, 2], [1, 0, 1], [2, 2, 2]], [[0, 0, 1], [2, 3, 4], [5,
    0, 1], [4, 3, 4], [6, 3, 4], [0, 0, 3], [5, 0, 3]], [[⟨0, 0, 0⟩, ⟨1, 1, 28⟩], [⟨0, 1, 21⟩,
    ⟨1, 0, 7⟩, ⟨1, 2, 49⟩], [⟨0, 2, 42⟩, ⟨2, 0, 14⟩, ⟨2, 1, 35⟩, ⟨2, 2, 56⟩]], [[⟨0, 0, 0⟩, ⟨0,
    1, 21⟩, ⟨2, 1, 23⟩, ⟨5, 0, 5⟩, ⟨5, 1, 26⟩, ⟨6, 1, 27⟩], [⟨0, 2, 42⟩, ⟨2, 2, 44⟩], [⟨1, 0,
    1⟩], [⟨1, 1, 22⟩, ⟨3, 1, 24⟩, ⟨4, 1, 25⟩, ⟨5, 2, 47⟩, ⟨6, 2, 48⟩], [⟨1, 2, 43⟩, ⟨3, 0, 3⟩,
    ⟨3, 2, 45⟩, ⟨4, 2, 46⟩], [⟨2, 0, 2⟩, ⟨6, 0, 6⟩], [⟨4, 0, 4⟩]]⟩⟩,
    ⟨13561395167245, ⟨18, 9, 2, [[0, 1, 2], [1, 1, 2], [2, 2, 2]], [[0, 0, 1], [1, 0, 1]], [[⟨0,
    0, 0⟩], [⟨0, 1, 6⟩, ⟨1, 0, 2⟩, ⟨1, 1, 8⟩], [⟨0, 2, 12⟩, ⟨1, 2, 14⟩, ⟨2, 0, 4⟩, ⟨2, 1, 10⟩,
    ⟨2, 2, 16⟩]], [[⟨0, 0, 0⟩, ⟨0, 1, 6⟩, ⟨1, 1, 7⟩], [⟨0, 2, 12⟩, ⟨1, 0, 1⟩, ⟨1, 2, 13⟩]]⟩⟩,
    ⟨13561395169805, ⟨60, 12, 5, [[0, 1, 2], [3, 1, 2], [1, 0, 2], [0, 1, 2]], [[0, 1, 2], [0, 3,
    3], [4, 4, 4], [0, 3, 3], [4, 4, 4]], [[⟨0, 0, 0⟩, ⟨2, 1, 30⟩, ⟨3, 0, 15⟩], [⟨0, 1, 20⟩, ⟨1,
    1, 25⟩, ⟨2, 0, 10⟩, ⟨3, 1, 35⟩], [⟨0, 2, 40⟩, ⟨1, 2, 45⟩, ⟨2, 2, 50⟩, ⟨3, 2, 55⟩], [⟨1, 0,
    5⟩]], [[⟨0, 0, 0⟩, ⟨1, 0, 1⟩, ⟨3, 0, 3⟩], [⟨0, 1, 20⟩], [⟨0, 2, 40⟩], [⟨1, 1, 21⟩, ⟨1, 2,
    41⟩, ⟨3, 1, 23⟩, ⟨3, 2, 43⟩], [⟨2, 0, 2⟩, ⟨2, 1, 22⟩, ⟨2, 2, 42⟩, ⟨4, 0, 4⟩, ⟨4, 1, 24⟩, ⟨4,
    2, 44⟩]]⟩⟩,
    ⟨6943434334296077, ⟨18, 9, 2, [[0, 1, 2], [1, 1, 1], [2, 2, 2]], [[0, 0, 1], [0, 0, 0]],
    [[⟨0, 0, 0⟩], [⟨0, 1, 6⟩, ⟨1, 0, 2⟩, ⟨1, 1, 8⟩, ⟨1, 2, 14⟩], [⟨0, 2, 12⟩, ⟨2, 0, 4⟩, ⟨2, 1,
    10⟩, ⟨2, 2, 16⟩]], [[⟨0, 0, 0⟩, ⟨0, 1, 6⟩, ⟨1, 0, 1⟩, ⟨1, 1, 7⟩, ⟨1, 2, 13⟩], [⟨0, 2, 12⟩]]⟩⟩,
    ⟨6943434336393229, ⟨18, 9, 2, [[0, 1, 2], [1, 1, 1], [2, 2, 2]], [[0, 0, 1], [0, 0, 0]],
    [[⟨0, 0, 0⟩], [⟨0, 1, 6⟩, ⟨1, 0, 2⟩, ⟨1, 1, 8⟩, ⟨1, 2, 14⟩], [⟨0, 2, 12⟩, ⟨2, 0, 4⟩, ⟨2, 1,
    10⟩, ⟨2, 2, 16⟩]], [[⟨0, 0, 0⟩, ⟨0, 1, 6⟩, ⟨1, 0, 1⟩, ⟨1, 1, 7⟩, ⟨1, 2, 13⟩], [⟨0, 2, 12⟩]]⟩⟩,
    ⟨6943434338490381, ⟨18, 9, 2, [[0, 1, 2], [1, 1, 1], [2, 2, 2]], [[0, 0, 1], [0, 0, 1]],
    [[⟨0, 0, 0⟩], [⟨0, 1, 6⟩, ⟨1, 0, 2⟩, ⟨1, 1, 8⟩, ⟨1, 2, 14⟩], [⟨0, 2, 12⟩, ⟨2, 0, 4⟩, ⟨2, 1,
    10⟩, ⟨2, 2, 16⟩]], [[⟨0, 0, 0⟩, ⟨0, 1, 6⟩, ⟨1, 0, 1⟩, ⟨1, 1, 7⟩], [⟨0, 2, 12⟩, ⟨1, 2, 13⟩]]⟩⟩,
    ⟨13561395173901, ⟨18, 9, 2, [[0, 1, 2], [1, 1, 2], [2, 2, 2]], [[0, 0, 1], [0, 0, 0]], [[⟨0,
    0, 0⟩], [⟨0, 1, 6⟩, ⟨1, 0, 2⟩, ⟨1, 1, 8⟩], [⟨0, 2, 12⟩, ⟨1, 2, 14⟩, ⟨2, 0, 4⟩, ⟨2, 1, 10⟩,
    ⟨2, 2, 16⟩]], [[⟨0, 0, 0⟩, ⟨0, 1, 6⟩, ⟨1, 0, 1⟩, ⟨1, 1, 7⟩, ⟨1, 2, 13⟩], [⟨0, 2, 12⟩]]⟩⟩,
    ⟨13561395175437, ⟨18, 9, 2, [[0, 1, 2], [1, 1, 2], [2, 2, 2]], [[0, 0, 1], [0, 0, 1]], [[⟨0,
    0, 0⟩], [⟨0, 1, 6⟩, ⟨1, 0, 2⟩, ⟨1, 1, 8⟩], [⟨0, 2, 12⟩, ⟨1, 2, 14⟩, ⟨2, 0, 4⟩, ⟨2, 1, 10⟩,
    ⟨2, 2, 16⟩]], [[⟨0, 0, 0⟩, ⟨0, 1, 6⟩, ⟨1, 0, 1⟩, ⟨1, 1, 7⟩], [⟨0, 2, 12⟩, ⟨1, 2, 13⟩]]⟩⟩,
    ⟨6943434336397325, ⟨54, 18, 3, [[0, 1, 2], [3, 3, 3], [4, 5, 5], [3, 3, 3], [4, 5, 0], [5, 5,
    5]], [[0, 1, 2], [0, 1, 2], [0, 0, 0]], [[⟨0, 0, 0⟩, ⟨4, 2, 48⟩], [⟨0, 1, 18⟩], [⟨0, 2, 36⟩],
    [⟨1, 0, 3⟩, ⟨1, 1, 21⟩, ⟨1, 2, 39⟩, ⟨3, 0, 9⟩, ⟨3, 1, 27⟩, ⟨3, 2, 45⟩], [⟨2, 0, 6⟩, ⟨4, 0,
    12⟩], [⟨2, 1, 24⟩, ⟨2, 2, 42⟩, ⟨4, 1, 30⟩, ⟨5, 0, 15⟩, ⟨5, 1, 33⟩, ⟨5, 2, 51⟩]], [[⟨0, 0, 0⟩,
    ⟨1, 0, 1⟩, ⟨2, 0, 2⟩, ⟨2, 1, 20⟩, ⟨2, 2, 38⟩], [⟨0, 1, 18⟩, ⟨1, 1, 19⟩], [⟨0, 2, 36⟩, ⟨1, 2,
    37⟩]]⟩⟩,
    ⟨6943434338494477, ⟨48, 12, 4, [[0, 1, 2], [3, 3, 1], [1, 0, 1], [3, 1, 1]], [[0, 1, 2], [0,
    3, 3], [0, 1, 2], [0, 3, 3]], [[⟨0, 0, 0⟩, ⟨2, 1, 24⟩], [⟨0, 1, 16⟩, ⟨1, 2, 36⟩, ⟨2, 0, 8⟩,
    ⟨2, 2, 40⟩, ⟨3, 1, 28⟩, ⟨3, 2, 44⟩], [⟨0, 2, 32⟩], [⟨1, 0, 4⟩, ⟨1, 1, 20⟩, ⟨3, 0, 12⟩]],
    [[⟨0, 0, 0⟩, ⟨1, 0, 1⟩, ⟨2, 0, 2⟩, ⟨3, 0, 3⟩], [⟨0, 1, 16⟩, ⟨2, 1, 18⟩], [⟨0, 2, 32⟩, ⟨2, 2,
    34⟩], [⟨1, 1, 17⟩, ⟨1, 2, 33⟩, ⟨3, 1, 19⟩, ⟨3, 2, 35⟩]]⟩⟩,
    ⟨13561395177997, ⟨126, 18, 7, [[0, 1, 2], [3, 4, 2], [0, 1, 2], [0, 1, 2], [5, 4, 2], [0, 1,
    2]], [[0, 1, 2], [2, 3, 4], [5, 5, 5], [5, 2, 6], [5, 5, 5], [5, 5, 5], [5, 5, 5]], [[⟨0, 0,
    0⟩, ⟨2, 0, 14⟩, ⟨3, 0, 21⟩, ⟨5, 0, 35⟩], [⟨0, 1, 42⟩, ⟨2, 1, 56⟩, ⟨3, 1, 63⟩, ⟨5, 1, 77⟩],
    [⟨0, 2, 84⟩, ⟨1, 2, 91⟩, ⟨2, 2, 98⟩, ⟨3, 2, 105⟩, ⟨4, 2, 112⟩, ⟨5, 2, 119⟩], [⟨1, 0, 7⟩],
    [⟨1, 1, 49⟩, ⟨4, 1, 70⟩], [⟨4, 0, 28⟩]], [[⟨0, 0, 0⟩], [⟨0, 1, 42⟩], [⟨0, 2, 84⟩, ⟨1, 0, 1⟩,
    ⟨3, 1, 45⟩], [⟨1, 1, 43⟩], [⟨1, 2, 85⟩], [⟨2, 0, 2⟩, ⟨2, 1, 44⟩, ⟨2, 2, 86⟩, ⟨3, 0, 3⟩, ⟨4,
    0, 4⟩, ⟨4, 1, 46⟩, ⟨4, 2, 88⟩, ⟨5, 0, 5⟩, ⟨5, 1, 47⟩, ⟨5, 2, 89⟩, ⟨6, 0, 6⟩, ⟨6, 1, 48⟩, ⟨6,
    2, 90⟩], [⟨3, 2, 87⟩]]⟩⟩,
    ⟨7048987450562573, ⟨18, 9, 2, [[0, 1, 2], [1, 1, 1], [2, 2, 2]], [[0, 0, 1], [0, 0, 0]],
    [[⟨0, 0, 0⟩], [⟨0, 1, 6⟩, ⟨1, 0, 2⟩, ⟨1, 1, 8⟩, ⟨1, 2, 14⟩], [⟨0, 2, 12⟩, ⟨2, 0, 4⟩, ⟨2, 1,
    10⟩, ⟨2, 2, 16⟩]], [[⟨0, 0, 0⟩, ⟨0, 1, 6⟩, ⟨1, 0, 1⟩, ⟨1, 1, 7⟩, ⟨1, 2, 13⟩], [⟨0, 2, 12⟩]]⟩⟩],
    by decide +kernel, by decide +kernel⟩

def list23_1l1_2l0_1 : List Listed := [
  ⟨7048987452659725, [((0, 0), (1, true, 1)), ((0, 1), (1, true, 0)), ((0, 2), (1, false, 1)),
  ((1, 0), (1, false, 1)), ((1, 1), (2, false, 0)), ((1, 2), (1, false, 0))]⟩,
  ⟨7048987450304525, [((0, 0), (1, true, 1)), ((0, 1), (2, true, 0)), ((0, 2), (0, false, 0)),
  ((1, 0), (1, false, 1)), ((1, 1), (2, false, 0)), ((1, 2), (1, false, 0))]⟩,
  ⟨14042431506957, [((0, 0), (1, true, 1)), ((0, 1), (0, true, 1)), ((1, 0), (1, false, 1)), ((1,
  1), (2, false, 0)), ((1, 2), (1, true, 0))]⟩,
  ⟨7189724938917901, [((0, 0), (1, true, 1)), ((0, 1), (1, true, 0)), ((0, 2), (0, false, 1)),
  ((1, 0), (1, false, 1)), ((1, 1), (2, false, 0)), ((1, 2), (1, true, 0))]⟩,
  ⟨7189724941015053, [((0, 0), (1, true, 1)), ((0, 1), (1, true, 0)), ((0, 2), (1, false, 1)),
  ((1, 0), (1, false, 1)), ((1, 1), (2, false, 0)), ((1, 2), (1, true, 0))]⟩,
  ⟨7189724939706381, [((0, 0), (1, true, 1)), ((0, 1), (2, false, 0)), ((0, 2), (0, true, 0)),
  ((1, 0), (1, false, 1)), ((1, 1), (2, false, 0)), ((1, 2), (1, true, 0))]⟩,
  ⟨7189724938659853, [((0, 0), (1, true, 1)), ((0, 1), (2, true, 0)), ((0, 2), (0, false, 0)),
  ((1, 0), (1, false, 1)), ((1, 1), (2, false, 0)), ((1, 2), (1, true, 0))]⟩,
  ⟨7189724938921997, [((0, 0), (1, true, 1)), ((0, 1), (2, true, 0)), ((0, 2), (0, false, 1)),
  ((1, 0), (1, false, 1)), ((1, 1), (2, false, 0)), ((1, 2), (1, true, 0))]⟩,
  ⟨7189724941019149, [((0, 0), (1, true, 1)), ((0, 1), (2, true, 0)), ((0, 2), (1, false, 1)),
  ((1, 0), (1, false, 1)), ((1, 1), (2, false, 0)), ((1, 2), (1, true, 0))]⟩,
  ⟨7224909312051213, [((0, 0), (1, true, 1)), ((0, 1), (0, true, 0)), ((0, 2), (0, true, 1)),
  ((1, 0), (1, false, 1)), ((1, 1), (2, false, 0)), ((1, 2), (1, true, 1))]⟩,
  ⟨7224909315201037, [((0, 0), (1, true, 1)), ((0, 1), (1, true, 0)), ((0, 2), (2, false, 1)),
  ((1, 0), (1, false, 1)), ((1, 1), (2, false, 0)), ((1, 2), (1, true, 1))]⟩,
  ⟨14111150989325, [((0, 0), (1, true, 1)), ((0, 1), (2, false, 0)), ((1, 0), (1, false, 1)),
  ((1, 1), (2, false, 0)), ((1, 2), (1, true, 1))]⟩,
  ⟨7224909311011341, [((0, 0), (1, true, 1)), ((0, 1), (2, true, 1)), ((0, 2), (0, false, 1)),
  ((1, 0), (1, false, 1)), ((1, 1), (2, false, 0)), ((1, 2), (1, true, 1))]⟩,
  ⟨7224909313108493, [((0, 0), (1, true, 1)), ((0, 1), (2, true, 1)), ((0, 2), (1, false, 1)),
  ((1, 0), (1, false, 1)), ((1, 1), (2, false, 0)), ((1, 2), (1, true, 1))]⟩,
  ⟨7224909315205645, [((0, 0), (1, true, 1)), ((0, 1), (2, true, 1)), ((0, 2), (2, false, 1)),
  ((1, 0), (1, false, 1)), ((1, 1), (2, false, 0)), ((1, 2), (1, true, 1))]⟩,
  ⟨7471199915622413, [((0, 0), (1, true, 1)), ((0, 1), (0, false, 0)), ((0, 2), (0, false, 1)),
  ((1, 0), (1, false, 1)), ((1, 1), (2, false, 0)), ((1, 2), (2, true, 0))]⟩,
  ⟨7471199918505997, [((0, 0), (1, true, 1)), ((0, 1), (0, false, 0)), ((0, 2), (1, true, 0)),
  ((1, 0), (1, false, 1)), ((1, 1), (2, false, 0)), ((1, 2), (2, true, 0))]⟩,
  ⟨7471199915622925, [((0, 0), (1, true, 1)), ((0, 1), (0, false, 1)), ((0, 2), (0, false, 1)),
  ((1, 0), (1, false, 1)), ((1, 1), (2, false, 0)), ((1, 2), (2, true, 0))]⟩,
  ⟨7471199916409357, [((0, 0), (1, true, 1)), ((0, 1), (0, false, 1)), ((0, 2), (0, true, 0)),
  ((1, 0), (1, false, 1)), ((1, 1), (2, false, 0)), ((1, 2), (2, true, 0))]⟩,
  ⟨7471199917720077, [((0, 0), (1, true, 1)), ((0, 1), (0, false, 1)), ((0, 2), (1, false, 1)),
  ((1, 0), (1, false, 1)), ((1, 1), (2, false, 0)), ((1, 2), (2, true, 0))]⟩]

theorem done23_1l1_2l0_1 : ∃ h, Done list23_1l1_2l0_1 h :=
  ⟨[
    ⟨7048987452659725, ⟨18, 9, 2, [[0, 1, 2], [1, 1, 1], [2, 2, 2]], [[0, 0, 1], [0, 0, 0]],
    [[⟨0, 0, 0⟩], [⟨0, 1, 6⟩, ⟨1, 0, 2⟩, ⟨1, 1, 8⟩, ⟨1, 2, 14⟩], [⟨0, 2, 12⟩, ⟨2, 0, 4⟩, ⟨2, 1,
    10⟩, ⟨2, 2, 16⟩]], [[⟨0, 0, 0⟩, ⟨0, 1, 6⟩, ⟨1, 0, 1⟩, ⟨1, 1, 7⟩, ⟨1, 2, 13⟩], [⟨0, 2, 12⟩]]⟩⟩,
    ⟨7048987450304525, ⟨480, 96, 5, [[0, 1, 2], [3, 4, 5], [3, 6, 7], [8, 8, 9], [8, 8, 8], [8,
    8, 8], [3, 4, 9], [10, 11, 12], [8, 8, 8], [13, 5, 14], [10, 1, 15], [16, 17, 18], [18, 19,
    12], [8, 14, 20], [3, 4, 5], [6, 17, 18], [3, 4, 9], [20, 21, 22], [23, 24, 25], [26, 17,
    18], [8, 16, 7], [27, 14, 20], [28, 27, 29], [18, 29, 19], [24, 30, 30], [25, 30, 30], [31,
    4, 9], [27, 8, 8], [27, 16, 7], [31, 4, 5], [30, 30, 30], [27, 8, 9]], [[0, 1, 2], [2, 1, 2],
    [3, 2, 1], [4, 0, 1], [4, 0, 1]], [[⟨0, 0, 0⟩], [⟨0, 1, 160⟩, ⟨10, 1, 210⟩], [⟨0, 2, 320⟩],
    [⟨1, 0, 5⟩, ⟨2, 0, 10⟩, ⟨6, 0, 30⟩, ⟨14, 0, 70⟩, ⟨16, 0, 80⟩], [⟨1, 1, 165⟩, ⟨6, 1, 190⟩,
    ⟨14, 1, 230⟩, ⟨16, 1, 240⟩, ⟨26, 1, 290⟩, ⟨29, 1, 305⟩], [⟨1, 2, 325⟩, ⟨9, 1, 205⟩, ⟨14, 2,
    390⟩, ⟨29, 2, 465⟩], [⟨2, 1, 170⟩, ⟨15, 0, 75⟩], [⟨2, 2, 330⟩, ⟨20, 2, 420⟩, ⟨28, 2, 460⟩],
    [⟨3, 0, 15⟩, ⟨3, 1, 175⟩, ⟨4, 0, 20⟩, ⟨4, 1, 180⟩, ⟨4, 2, 340⟩, ⟨5, 0, 25⟩, ⟨5, 1, 185⟩, ⟨5,
    2, 345⟩, ⟨8, 0, 40⟩, ⟨8, 1, 200⟩, ⟨8, 2, 360⟩, ⟨13, 0, 65⟩, ⟨20, 0, 100⟩, ⟨27, 1, 295⟩, ⟨27,
    2, 455⟩, ⟨31, 1, 315⟩], [⟨3, 2, 335⟩, ⟨6, 2, 350⟩, ⟨16, 2, 400⟩, ⟨26, 2, 450⟩, ⟨31, 2, 475⟩],
    [⟨7, 0, 35⟩, ⟨10, 0, 50⟩], [⟨7, 1, 195⟩], [⟨7, 2, 355⟩, ⟨12, 2, 380⟩], [⟨9, 0, 45⟩], [⟨9, 2,
    365⟩, ⟨13, 1, 225⟩, ⟨21, 1, 265⟩], [⟨10, 2, 370⟩], [⟨11, 0, 55⟩, ⟨20, 1, 260⟩, ⟨28, 1, 300⟩],
    [⟨11, 1, 215⟩, ⟨15, 1, 235⟩, ⟨19, 1, 255⟩], [⟨11, 2, 375⟩, ⟨12, 0, 60⟩, ⟨15, 2, 395⟩, ⟨19, 2,
    415⟩, ⟨23, 0, 115⟩], [⟨12, 1, 220⟩, ⟨23, 2, 435⟩], [⟨13, 2, 385⟩, ⟨17, 0, 85⟩, ⟨21, 2, 425⟩],
    [⟨17, 1, 245⟩], [⟨17, 2, 405⟩], [⟨18, 0, 90⟩], [⟨18, 1, 250⟩, ⟨24, 0, 120⟩], [⟨18, 2, 410⟩,
    ⟨25, 0, 125⟩], [⟨19, 0, 95⟩], [⟨21, 0, 105⟩, ⟨22, 1, 270⟩, ⟨27, 0, 135⟩, ⟨28, 0, 140⟩, ⟨31,
    0, 155⟩], [⟨22, 0, 110⟩], [⟨22, 2, 430⟩, ⟨23, 1, 275⟩], [⟨24, 1, 280⟩, ⟨24, 2, 440⟩, ⟨25, 1,
    285⟩, ⟨25, 2, 445⟩, ⟨30, 0, 150⟩, ⟨30, 1, 310⟩, ⟨30, 2, 470⟩], [⟨26, 0, 130⟩, ⟨29, 0, 145⟩]],
    [[⟨0, 0, 0⟩, ⟨3, 1, 163⟩, ⟨4, 1, 164⟩], [⟨0, 1, 160⟩, ⟨1, 1, 161⟩, ⟨2, 2, 322⟩, ⟨3, 2, 323⟩,
    ⟨4, 2, 324⟩], [⟨0, 2, 320⟩, ⟨1, 0, 1⟩, ⟨1, 2, 321⟩, ⟨2, 1, 162⟩], [⟨2, 0, 2⟩], [⟨3, 0, 3⟩,
    ⟨4, 0, 4⟩]]⟩⟩,
    ⟨14042431506957, ⟨36, 9, 4, [[0, 1, 2], [1, 1, 2], [0, 0, 2]], [[0, 0, 1], [2, 2, 3], [3, 1,
    1], [3, 3, 3]], [[⟨0, 0, 0⟩, ⟨2, 0, 8⟩, ⟨2, 1, 20⟩], [⟨0, 1, 12⟩, ⟨1, 0, 4⟩, ⟨1, 1, 16⟩],
    [⟨0, 2, 24⟩, ⟨1, 2, 28⟩, ⟨2, 2, 32⟩]], [[⟨0, 0, 0⟩, ⟨0, 1, 12⟩], [⟨0, 2, 24⟩, ⟨2, 1, 14⟩, ⟨2,
    2, 26⟩], [⟨1, 0, 1⟩, ⟨1, 1, 13⟩], [⟨1, 2, 25⟩, ⟨2, 0, 2⟩, ⟨3, 0, 3⟩, ⟨3, 1, 15⟩, ⟨3, 2,
    27⟩]]⟩⟩,
    ⟨7189724938917901, ⟨24, 12, 2, [[0, 1, 2], [1, 1, 1], [2, 3, 0], [3, 3, 3]], [[0, 0, 1], [0,
    0, 0]], [[⟨0, 0, 0⟩, ⟨2, 2, 20⟩], [⟨0, 1, 8⟩, ⟨1, 0, 2⟩, ⟨1, 1, 10⟩, ⟨1, 2, 18⟩], [⟨0, 2,
    16⟩, ⟨2, 0, 4⟩], [⟨2, 1, 12⟩, ⟨3, 0, 6⟩, ⟨3, 1, 14⟩, ⟨3, 2, 22⟩]], [[⟨0, 0, 0⟩, ⟨0, 1, 8⟩,
    ⟨1, 0, 1⟩, ⟨1, 1, 9⟩, ⟨1, 2, 17⟩], [⟨0, 2, 16⟩]]⟩⟩,
    ⟨7189724941015053, ⟨24, 12, 2, [[0, 1, 2], [1, 1, 1], [2, 3, 0], [3, 3, 3]], [[0, 0, 1], [0,
    0, 0]], [[⟨0, 0, 0⟩, ⟨2, 2, 20⟩], [⟨0, 1, 8⟩, ⟨1, 0, 2⟩, ⟨1, 1, 10⟩, ⟨1, 2, 18⟩], [⟨0, 2,
    16⟩, ⟨2, 0, 4⟩], [⟨2, 1, 12⟩, ⟨3, 0, 6⟩, ⟨3, 1, 14⟩, ⟨3, 2, 22⟩]], [[⟨0, 0, 0⟩, ⟨0, 1, 8⟩,
    ⟨1, 0, 1⟩, ⟨1, 1, 9⟩, ⟨1, 2, 17⟩], [⟨0, 2, 16⟩]]⟩⟩,
    ⟨7189724939706381, ⟨18, 9, 2, [[0, 1, 2], [1, 1, 0], [2, 2, 2]], [[0, 1, 1], [0, 1, 1]],
    [[⟨0, 0, 0⟩, ⟨1, 2, 14⟩], [⟨0, 1, 6⟩, ⟨1, 0, 2⟩, ⟨1, 1, 8⟩], [⟨0, 2, 12⟩, ⟨2, 0, 4⟩, ⟨2, 1,
    10⟩, ⟨2, 2, 16⟩]], [[⟨0, 0, 0⟩, ⟨1, 0, 1⟩], [⟨0, 1, 6⟩, ⟨0, 2, 12⟩, ⟨1, 1, 7⟩, ⟨1, 2, 13⟩]]⟩⟩,
    ⟨7189724938659853, ⟨84, 12, 7, [[0, 1, 0], [0, 1, 2], [0, 3, 0], [0, 1, 0]], [[0, 1, 2], [2,
    2, 3], [2, 2, 2], [4, 2, 1], [5, 4, 3], [6, 2, 2], [5, 1, 2]], [[⟨0, 0, 0⟩, ⟨0, 2, 56⟩, ⟨1,
    0, 7⟩, ⟨2, 0, 14⟩, ⟨2, 2, 70⟩, ⟨3, 0, 21⟩, ⟨3, 2, 77⟩], [⟨0, 1, 28⟩, ⟨1, 1, 35⟩, ⟨3, 1, 49⟩],
    [⟨1, 2, 63⟩], [⟨2, 1, 42⟩]], [[⟨0, 0, 0⟩], [⟨0, 1, 28⟩, ⟨3, 2, 59⟩, ⟨6, 1, 34⟩], [⟨0, 2, 56⟩,
    ⟨1, 0, 1⟩, ⟨1, 1, 29⟩, ⟨2, 0, 2⟩, ⟨2, 1, 30⟩, ⟨2, 2, 58⟩, ⟨3, 1, 31⟩, ⟨5, 1, 33⟩, ⟨5, 2, 61⟩,
    ⟨6, 2, 62⟩], [⟨1, 2, 57⟩, ⟨4, 2, 60⟩], [⟨3, 0, 3⟩, ⟨4, 1, 32⟩], [⟨4, 0, 4⟩, ⟨6, 0, 6⟩], [⟨5,
    0, 5⟩]]⟩⟩,
    ⟨7189724938921997, ⟨30, 15, 2, [[0, 1, 2], [3, 3, 3], [2, 4, 0], [3, 3, 3], [4, 4, 4]], [[0,
    0, 1], [0, 0, 0]], [[⟨0, 0, 0⟩, ⟨2, 2, 24⟩], [⟨0, 1, 10⟩], [⟨0, 2, 20⟩, ⟨2, 0, 4⟩], [⟨1, 0,
    2⟩, ⟨1, 1, 12⟩, ⟨1, 2, 22⟩, ⟨3, 0, 6⟩, ⟨3, 1, 16⟩, ⟨3, 2, 26⟩], [⟨2, 1, 14⟩, ⟨4, 0, 8⟩, ⟨4,
    1, 18⟩, ⟨4, 2, 28⟩]], [[⟨0, 0, 0⟩, ⟨0, 1, 10⟩, ⟨1, 0, 1⟩, ⟨1, 1, 11⟩, ⟨1, 2, 21⟩], [⟨0, 2,
    20⟩]]⟩⟩,
    ⟨7189724941019149, ⟨30, 15, 2, [[0, 1, 2], [3, 3, 3], [2, 4, 0], [3, 3, 3], [4, 4, 4]], [[0,
    0, 1], [0, 0, 0]], [[⟨0, 0, 0⟩, ⟨2, 2, 24⟩], [⟨0, 1, 10⟩], [⟨0, 2, 20⟩, ⟨2, 0, 4⟩], [⟨1, 0,
    2⟩, ⟨1, 1, 12⟩, ⟨1, 2, 22⟩, ⟨3, 0, 6⟩, ⟨3, 1, 16⟩, ⟨3, 2, 26⟩], [⟨2, 1, 14⟩, ⟨4, 0, 8⟩, ⟨4,
    1, 18⟩, ⟨4, 2, 28⟩]], [[⟨0, 0, 0⟩, ⟨0, 1, 10⟩, ⟨1, 0, 1⟩, ⟨1, 1, 11⟩, ⟨1, 2, 21⟩], [⟨0, 2,
    20⟩]]⟩⟩,
    ⟨7224909312051213, ⟨120, 12, 10, [[0, 1, 2], [2, 3, 2], [3, 1, 0], [3, 3, 0]], [[0, 1, 2],
    [3, 4, 5], [6, 1, 4], [6, 1, 4], [5, 4, 7], [6, 8, 4], [0, 8, 2], [5, 7, 7], [3, 9, 5], [5,
    7, 7]], [[⟨0, 0, 0⟩, ⟨2, 2, 100⟩, ⟨3, 2, 110⟩], [⟨0, 1, 40⟩, ⟨2, 1, 60⟩], [⟨0, 2, 80⟩, ⟨1, 0,
    10⟩, ⟨1, 2, 90⟩], [⟨1, 1, 50⟩, ⟨2, 0, 20⟩, ⟨3, 0, 30⟩, ⟨3, 1, 70⟩]], [[⟨0, 0, 0⟩, ⟨6, 0, 6⟩],
    [⟨0, 1, 40⟩, ⟨2, 1, 42⟩, ⟨3, 1, 43⟩], [⟨0, 2, 80⟩, ⟨6, 2, 86⟩], [⟨1, 0, 1⟩, ⟨8, 0, 8⟩], [⟨1,
    1, 41⟩, ⟨2, 2, 82⟩, ⟨3, 2, 83⟩, ⟨4, 1, 44⟩, ⟨5, 2, 85⟩], [⟨1, 2, 81⟩, ⟨4, 0, 4⟩, ⟨7, 0, 7⟩,
    ⟨8, 2, 88⟩, ⟨9, 0, 9⟩], [⟨2, 0, 2⟩, ⟨3, 0, 3⟩, ⟨5, 0, 5⟩], [⟨4, 2, 84⟩, ⟨7, 1, 47⟩, ⟨7, 2,
    87⟩, ⟨9, 1, 49⟩, ⟨9, 2, 89⟩], [⟨5, 1, 45⟩, ⟨6, 1, 46⟩], [⟨8, 1, 48⟩]]⟩⟩,
    ⟨7224909315201037, ⟨24, 12, 2, [[0, 1, 2], [1, 1, 1], [2, 3, 0], [3, 3, 3]], [[0, 0, 1], [0,
    0, 1]], [[⟨0, 0, 0⟩, ⟨2, 2, 20⟩], [⟨0, 1, 8⟩, ⟨1, 0, 2⟩, ⟨1, 1, 10⟩, ⟨1, 2, 18⟩], [⟨0, 2,
    16⟩, ⟨2, 0, 4⟩], [⟨2, 1, 12⟩, ⟨3, 0, 6⟩, ⟨3, 1, 14⟩, ⟨3, 2, 22⟩]], [[⟨0, 0, 0⟩, ⟨0, 1, 8⟩,
    ⟨1, 0, 1⟩, ⟨1, 1, 9⟩], [⟨0, 2, 16⟩, ⟨1, 2, 17⟩]]⟩⟩,
    ⟨14111150989325, ⟨18, 9, 2, [[0, 1, 2], [1, 1, 2], [2, 2, 2]], [[0, 0, 1], [0, 0, 1]], [[⟨0,
    0, 0⟩], [⟨0, 1, 6⟩, ⟨1, 0, 2⟩, ⟨1, 1, 8⟩], [⟨0, 2, 12⟩, ⟨1, 2, 14⟩, ⟨2, 0, 4⟩, ⟨2, 1, 10⟩,
    ⟨2, 2, 16⟩]], [[⟨0, 0, 0⟩, ⟨0, 1, 6⟩, ⟨1, 0, 1⟩, ⟨1, 1, 7⟩], [⟨0, 2, 12⟩, ⟨1, 2, 13⟩]]⟩⟩,
    ⟨7224909311011341, ⟨330, 66, 5, [[0, 1, 2], [3, 4, 5], [6, 7, 4], [8, 9, 4], [10, 8, 2], [11,
    12, 13], [2, 14, 14], [15, 2, 14], [3, 4, 12], [16, 9, 4], [4, 12, 11], [11, 11, 11], [11,
    11, 13], [11, 12, 11], [14, 14, 14], [17, 16, 18], [19, 16, 18], [15, 18, 14], [6, 7, 20],
    [16, 21, 4], [10, 1, 2], [16, 9, 20]], [[0, 1, 0], [2, 3, 2], [3, 1, 4], [3, 1, 3], [2, 3,
    2]], [[⟨0, 0, 0⟩], [⟨0, 1, 110⟩, ⟨20, 1, 210⟩], [⟨0, 2, 220⟩, ⟨4, 2, 240⟩, ⟨6, 0, 30⟩, ⟨7, 1,
    145⟩, ⟨20, 2, 320⟩], [⟨1, 0, 5⟩, ⟨8, 0, 40⟩], [⟨1, 1, 115⟩, ⟨2, 2, 230⟩, ⟨3, 2, 235⟩, ⟨8, 1,
    150⟩, ⟨9, 2, 265⟩, ⟨10, 0, 50⟩, ⟨19, 2, 315⟩], [⟨1, 2, 225⟩], [⟨2, 0, 10⟩, ⟨18, 0, 90⟩], [⟨2,
    1, 120⟩, ⟨18, 1, 200⟩], [⟨3, 0, 15⟩, ⟨4, 1, 130⟩], [⟨3, 1, 125⟩, ⟨9, 1, 155⟩, ⟨21, 1, 215⟩],
    [⟨4, 0, 20⟩, ⟨20, 0, 100⟩], [⟨5, 0, 25⟩, ⟨10, 2, 270⟩, ⟨11, 0, 55⟩, ⟨11, 1, 165⟩, ⟨11, 2,
    275⟩, ⟨12, 0, 60⟩, ⟨12, 1, 170⟩, ⟨13, 0, 65⟩, ⟨13, 2, 285⟩], [⟨5, 1, 135⟩, ⟨8, 2, 260⟩, ⟨10,
    1, 160⟩, ⟨13, 1, 175⟩], [⟨5, 2, 245⟩, ⟨12, 2, 280⟩], [⟨6, 1, 140⟩, ⟨6, 2, 250⟩, ⟨7, 2, 255⟩,
    ⟨14, 0, 70⟩, ⟨14, 1, 180⟩, ⟨14, 2, 290⟩, ⟨17, 2, 305⟩], [⟨7, 0, 35⟩, ⟨17, 0, 85⟩], [⟨9, 0,
    45⟩, ⟨15, 1, 185⟩, ⟨16, 1, 190⟩, ⟨19, 0, 95⟩, ⟨21, 0, 105⟩], [⟨15, 0, 75⟩], [⟨15, 2, 295⟩,
    ⟨16, 2, 300⟩, ⟨17, 1, 195⟩], [⟨16, 0, 80⟩], [⟨18, 2, 310⟩, ⟨21, 2, 325⟩], [⟨19, 1, 205⟩]],
    [[⟨0, 0, 0⟩, ⟨0, 2, 220⟩], [⟨0, 1, 110⟩, ⟨2, 1, 112⟩, ⟨3, 1, 113⟩], [⟨1, 0, 1⟩, ⟨1, 2, 221⟩,
    ⟨4, 0, 4⟩, ⟨4, 2, 224⟩], [⟨1, 1, 111⟩, ⟨2, 0, 2⟩, ⟨3, 0, 3⟩, ⟨3, 2, 223⟩, ⟨4, 1, 114⟩], [⟨2,
    2, 222⟩]]⟩⟩,
    ⟨7224909313108493, ⟨45, 15, 3, [[0, 1, 2], [1, 3, 4], [2, 2, 2], [0, 1, 2], [4, 4, 4]], [[0,
    1, 0], [0, 1, 2], [0, 1, 0]], [[⟨0, 0, 0⟩, ⟨3, 0, 9⟩], [⟨0, 1, 15⟩, ⟨1, 0, 3⟩, ⟨3, 1, 24⟩],
    [⟨0, 2, 30⟩, ⟨2, 0, 6⟩, ⟨2, 1, 21⟩, ⟨2, 2, 36⟩, ⟨3, 2, 39⟩], [⟨1, 1, 18⟩], [⟨1, 2, 33⟩, ⟨4,
    0, 12⟩, ⟨4, 1, 27⟩, ⟨4, 2, 42⟩]], [[⟨0, 0, 0⟩, ⟨0, 2, 30⟩, ⟨1, 0, 1⟩, ⟨2, 0, 2⟩, ⟨2, 2, 32⟩],
    [⟨0, 1, 15⟩, ⟨1, 1, 16⟩, ⟨2, 1, 17⟩], [⟨1, 2, 31⟩]]⟩⟩,
    ⟨7224909315205645, ⟨60, 12, 5, [[0, 1, 2], [0, 3, 1], [2, 0, 1], [0, 3, 1]], [[0, 1, 2], [0,
    2, 3], [0, 2, 4], [0, 1, 2], [0, 2, 4]], [[⟨0, 0, 0⟩, ⟨1, 0, 5⟩, ⟨2, 1, 30⟩, ⟨3, 0, 15⟩],
    [⟨0, 1, 20⟩, ⟨1, 2, 45⟩, ⟨2, 2, 50⟩, ⟨3, 2, 55⟩], [⟨0, 2, 40⟩, ⟨2, 0, 10⟩], [⟨1, 1, 25⟩, ⟨3,
    1, 35⟩]], [[⟨0, 0, 0⟩, ⟨1, 0, 1⟩, ⟨2, 0, 2⟩, ⟨3, 0, 3⟩, ⟨4, 0, 4⟩], [⟨0, 1, 20⟩, ⟨3, 1, 23⟩],
    [⟨0, 2, 40⟩, ⟨1, 1, 21⟩, ⟨2, 1, 22⟩, ⟨3, 2, 43⟩, ⟨4, 1, 24⟩], [⟨1, 2, 41⟩], [⟨2, 2, 42⟩, ⟨4,
    2, 44⟩]]⟩⟩,
    ⟨7471199915622413, ⟨24, 12, 2, [[0, 1, 2], [1, 2, 3], [2, 2, 2], [3, 3, 3]], [[0, 0, 1], [0,
    0, 0]], [[⟨0, 0, 0⟩], [⟨0, 1, 8⟩, ⟨1, 0, 2⟩], [⟨0, 2, 16⟩, ⟨1, 1, 10⟩, ⟨2, 0, 4⟩, ⟨2, 1, 12⟩,
    ⟨2, 2, 20⟩], [⟨1, 2, 18⟩, ⟨3, 0, 6⟩, ⟨3, 1, 14⟩, ⟨3, 2, 22⟩]], [[⟨0, 0, 0⟩, ⟨0, 1, 8⟩, ⟨1, 0,
    1⟩, ⟨1, 1, 9⟩, ⟨1, 2, 17⟩], [⟨0, 2, 16⟩]]⟩⟩,
    ⟨7471199918505997, ⟨144, 18, 8, [[0, 1, 2], [2, 3, 4], [2, 2, 2], [2, 5, 2], [2, 2, 2], [2,
    2, 2]], [[0, 1, 2], [3, 4, 5], [6, 4, 2], [0, 1, 2], [3, 4, 2], [6, 4, 2], [7, 1, 2], [0, 1,
    2]], [[⟨0, 0, 0⟩], [⟨0, 1, 48⟩], [⟨0, 2, 96⟩, ⟨1, 0, 8⟩, ⟨2, 0, 16⟩, ⟨2, 1, 64⟩, ⟨2, 2, 112⟩,
    ⟨3, 0, 24⟩, ⟨3, 2, 120⟩, ⟨4, 0, 32⟩, ⟨4, 1, 80⟩, ⟨4, 2, 128⟩, ⟨5, 0, 40⟩, ⟨5, 1, 88⟩, ⟨5, 2,
    136⟩], [⟨1, 1, 56⟩], [⟨1, 2, 104⟩], [⟨3, 1, 72⟩]], [[⟨0, 0, 0⟩, ⟨3, 0, 3⟩, ⟨7, 0, 7⟩], [⟨0,
    1, 48⟩, ⟨3, 1, 51⟩, ⟨6, 1, 54⟩, ⟨7, 1, 55⟩], [⟨0, 2, 96⟩, ⟨2, 2, 98⟩, ⟨3, 2, 99⟩, ⟨4, 2,
    100⟩, ⟨5, 2, 101⟩, ⟨6, 2, 102⟩, ⟨7, 2, 103⟩], [⟨1, 0, 1⟩, ⟨4, 0, 4⟩], [⟨1, 1, 49⟩, ⟨2, 1,
    50⟩, ⟨4, 1, 52⟩, ⟨5, 1, 53⟩], [⟨1, 2, 97⟩], [⟨2, 0, 2⟩, ⟨5, 0, 5⟩], [⟨6, 0, 6⟩]]⟩⟩,
    ⟨7471199915622925, ⟨24, 12, 2, [[0, 1, 2], [1, 0, 3], [2, 2, 2], [3, 3, 3]], [[0, 0, 1], [0,
    0, 0]], [[⟨0, 0, 0⟩, ⟨1, 1, 10⟩], [⟨0, 1, 8⟩, ⟨1, 0, 2⟩], [⟨0, 2, 16⟩, ⟨2, 0, 4⟩, ⟨2, 1, 12⟩,
    ⟨2, 2, 20⟩], [⟨1, 2, 18⟩, ⟨3, 0, 6⟩, ⟨3, 1, 14⟩, ⟨3, 2, 22⟩]], [[⟨0, 0, 0⟩, ⟨0, 1, 8⟩, ⟨1, 0,
    1⟩, ⟨1, 1, 9⟩, ⟨1, 2, 17⟩], [⟨0, 2, 16⟩]]⟩⟩,
    ⟨7471199916409357, ⟨72, 24, 3, [[0, 1, 2], [3, 2, 4], [2, 2, 2], [3, 5, 4], [6, 7, 6], [5, 3,
    2], [6, 6, 6], [6, 3, 6]], [[0, 1, 0], [0, 1, 2], [0, 1, 0]], [[⟨0, 0, 0⟩], [⟨0, 1, 24⟩],
    [⟨0, 2, 48⟩, ⟨1, 1, 27⟩, ⟨2, 0, 6⟩, ⟨2, 1, 30⟩, ⟨2, 2, 54⟩, ⟨5, 2, 63⟩], [⟨1, 0, 3⟩, ⟨3, 0,
    9⟩, ⟨5, 1, 39⟩, ⟨7, 1, 45⟩], [⟨1, 2, 51⟩, ⟨3, 2, 57⟩], [⟨3, 1, 33⟩, ⟨5, 0, 15⟩], [⟨4, 0, 12⟩,
    ⟨4, 2, 60⟩, ⟨6, 0, 18⟩, ⟨6, 1, 42⟩, ⟨6, 2, 66⟩, ⟨7, 0, 21⟩, ⟨7, 2, 69⟩], [⟨4, 1, 36⟩]], [[⟨0,
    0, 0⟩, ⟨0, 2, 48⟩, ⟨1, 0, 1⟩, ⟨2, 0, 2⟩, ⟨2, 2, 50⟩], [⟨0, 1, 24⟩, ⟨1, 1, 25⟩, ⟨2, 1, 26⟩],
    [⟨1, 2, 49⟩]]⟩⟩,
    ⟨7471199917720077, ⟨24, 12, 2, [[0, 1, 2], [1, 0, 3], [2, 2, 2], [3, 3, 3]], [[0, 0, 1], [0,
    0, 0]], [[⟨0, 0, 0⟩, ⟨1, 1, 10⟩], [⟨0, 1, 8⟩, ⟨1, 0, 2⟩], [⟨0, 2, 16⟩, ⟨2, 0, 4⟩, ⟨2, 1, 12⟩,
    ⟨2, 2, 20⟩], [⟨1, 2, 18⟩, ⟨3, 0, 6⟩, ⟨3, 1, 14⟩, ⟨3, 2, 22⟩]], [[⟨0, 0, 0⟩, ⟨0, 1, 8⟩, ⟨1, 0,
    1⟩, ⟨1, 1, 9⟩, ⟨1, 2, 17⟩], [⟨0, 2, 16⟩]]⟩⟩],
    by decide +kernel, by decide +kernel⟩

def list23_1l1_2l0_2 : List Listed := [
  ⟨7471199915362829, [((0, 0), (1, true, 1)), ((0, 1), (0, true, 1)), ((0, 2), (0, false, 0)),
  ((1, 0), (1, false, 1)), ((1, 1), (2, false, 0)), ((1, 2), (2, true, 0))]⟩,
  ⟨7471199915624973, [((0, 0), (1, true, 1)), ((0, 1), (0, true, 1)), ((0, 2), (0, false, 1)),
  ((1, 0), (1, false, 1)), ((1, 1), (2, false, 0)), ((1, 2), (2, true, 0))]⟩,
  ⟨7471199916411405, [((0, 0), (1, true, 1)), ((0, 1), (0, true, 1)), ((0, 2), (0, true, 0)),
  ((1, 0), (1, false, 1)), ((1, 1), (2, false, 0)), ((1, 2), (2, true, 0))]⟩,
  ⟨7471199917722125, [((0, 0), (1, true, 1)), ((0, 1), (0, true, 1)), ((0, 2), (1, false, 1)),
  ((1, 0), (1, false, 1)), ((1, 1), (2, false, 0)), ((1, 2), (2, true, 0))]⟩,
  ⟨7471199915626509, [((0, 0), (1, true, 1)), ((0, 1), (1, false, 0)), ((0, 2), (0, false, 1)),
  ((1, 0), (1, false, 1)), ((1, 1), (2, false, 0)), ((1, 2), (2, true, 0))]⟩,
  ⟨7471199915628557, [((0, 0), (1, true, 1)), ((0, 1), (1, true, 0)), ((0, 2), (0, false, 1)),
  ((1, 0), (1, false, 1)), ((1, 1), (2, false, 0)), ((1, 2), (2, true, 0))]⟩,
  ⟨7471199917725709, [((0, 0), (1, true, 1)), ((0, 1), (1, true, 0)), ((0, 2), (1, false, 1)),
  ((1, 0), (1, false, 1)), ((1, 1), (2, false, 0)), ((1, 2), (2, true, 0))]⟩,
  ⟨7471199915629069, [((0, 0), (1, true, 1)), ((0, 1), (1, true, 1)), ((0, 2), (0, false, 1)),
  ((1, 0), (1, false, 1)), ((1, 1), (2, false, 0)), ((1, 2), (2, true, 0))]⟩,
  ⟨7471199917726221, [((0, 0), (1, true, 1)), ((0, 1), (1, true, 1)), ((0, 2), (1, false, 1)),
  ((1, 0), (1, false, 1)), ((1, 1), (2, false, 0)), ((1, 2), (2, true, 0))]⟩,
  ⟨7471199915630605, [((0, 0), (1, true, 1)), ((0, 1), (2, false, 0)), ((0, 2), (0, false, 1)),
  ((1, 0), (1, false, 1)), ((1, 1), (2, false, 0)), ((1, 2), (2, true, 0))]⟩,
  ⟨7471199915631117, [((0, 0), (1, true, 1)), ((0, 1), (2, false, 1)), ((0, 2), (0, false, 1)),
  ((1, 0), (1, false, 1)), ((1, 1), (2, false, 0)), ((1, 2), (2, true, 0))]⟩,
  ⟨7471199918514701, [((0, 0), (1, true, 1)), ((0, 1), (2, false, 1)), ((0, 2), (1, true, 0)),
  ((1, 0), (1, false, 1)), ((1, 1), (2, false, 0)), ((1, 2), (2, true, 0))]⟩,
  ⟨7471199915370509, [((0, 0), (1, true, 1)), ((0, 1), (2, true, 0)), ((0, 2), (0, false, 0)),
  ((1, 0), (1, false, 1)), ((1, 1), (2, false, 0)), ((1, 2), (2, true, 0))]⟩,
  ⟨7471199915632653, [((0, 0), (1, true, 1)), ((0, 1), (2, true, 0)), ((0, 2), (0, false, 1)),
  ((1, 0), (1, false, 1)), ((1, 1), (2, false, 0)), ((1, 2), (2, true, 0))]⟩,
  ⟨7471199917729805, [((0, 0), (1, true, 1)), ((0, 1), (2, true, 0)), ((0, 2), (1, false, 1)),
  ((1, 0), (1, false, 1)), ((1, 1), (2, false, 0)), ((1, 2), (2, true, 0))]⟩,
  ⟨7506384290594829, [((0, 0), (1, true, 1)), ((0, 1), (0, false, 0)), ((0, 2), (1, true, 0)),
  ((1, 0), (1, false, 1)), ((1, 1), (2, false, 0)), ((1, 2), (2, true, 1))]⟩]

theorem done23_1l1_2l0_2 : ∃ h, Done list23_1l1_2l0_2 h :=
  ⟨[
    ⟨7471199915362829, ⟨45, 15, 3, [[0, 0, 1], [2, 3, 1], [4, 4, 1], [0, 0, 4], [4, 4, 4]], [[0,
    1, 2], [0, 1, 2], [0, 0, 2]], [[⟨0, 0, 0⟩, ⟨0, 1, 15⟩, ⟨3, 0, 9⟩, ⟨3, 1, 24⟩], [⟨0, 2, 30⟩,
    ⟨1, 2, 33⟩, ⟨2, 2, 36⟩], [⟨1, 0, 3⟩], [⟨1, 1, 18⟩], [⟨2, 0, 6⟩, ⟨2, 1, 21⟩, ⟨3, 2, 39⟩, ⟨4,
    0, 12⟩, ⟨4, 1, 27⟩, ⟨4, 2, 42⟩]], [[⟨0, 0, 0⟩, ⟨1, 0, 1⟩, ⟨2, 0, 2⟩, ⟨2, 1, 17⟩], [⟨0, 1,
    15⟩, ⟨1, 1, 16⟩], [⟨0, 2, 30⟩, ⟨1, 2, 31⟩, ⟨2, 2, 32⟩]]⟩⟩,
    ⟨7471199915624973, ⟨24, 12, 2, [[0, 1, 2], [1, 0, 3], [2, 2, 2], [3, 3, 3]], [[0, 0, 1], [0,
    0, 0]], [[⟨0, 0, 0⟩, ⟨1, 1, 10⟩], [⟨0, 1, 8⟩, ⟨1, 0, 2⟩], [⟨0, 2, 16⟩, ⟨2, 0, 4⟩, ⟨2, 1, 12⟩,
    ⟨2, 2, 20⟩], [⟨1, 2, 18⟩, ⟨3, 0, 6⟩, ⟨3, 1, 14⟩, ⟨3, 2, 22⟩]], [[⟨0, 0, 0⟩, ⟨0, 1, 8⟩, ⟨1, 0,
    1⟩, ⟨1, 1, 9⟩, ⟨1, 2, 17⟩], [⟨0, 2, 16⟩]]⟩⟩,
    ⟨7471199916411405, ⟨81, 9, 9, [[0, 1, 1], [2, 1, 2], [2, 2, 2]], [[0, 1, 2], [3, 4, 5], [6,
    1, 5], [6, 1, 2], [3, 7, 7], [8, 4, 5], [0, 5, 7], [8, 7, 7], [6, 5, 7]], [[⟨0, 0, 0⟩], [⟨0,
    1, 27⟩, ⟨0, 2, 54⟩, ⟨1, 1, 36⟩], [⟨1, 0, 9⟩, ⟨1, 2, 63⟩, ⟨2, 0, 18⟩, ⟨2, 1, 45⟩, ⟨2, 2,
    72⟩]], [[⟨0, 0, 0⟩, ⟨6, 0, 6⟩], [⟨0, 1, 27⟩, ⟨2, 1, 29⟩, ⟨3, 1, 30⟩], [⟨0, 2, 54⟩, ⟨3, 2,
    57⟩], [⟨1, 0, 1⟩, ⟨4, 0, 4⟩], [⟨1, 1, 28⟩, ⟨5, 1, 32⟩], [⟨1, 2, 55⟩, ⟨2, 2, 56⟩, ⟨5, 2, 59⟩,
    ⟨6, 1, 33⟩, ⟨8, 1, 35⟩], [⟨2, 0, 2⟩, ⟨3, 0, 3⟩, ⟨8, 0, 8⟩], [⟨4, 1, 31⟩, ⟨4, 2, 58⟩, ⟨6, 2,
    60⟩, ⟨7, 1, 34⟩, ⟨7, 2, 61⟩, ⟨8, 2, 62⟩], [⟨5, 0, 5⟩, ⟨7, 0, 7⟩]]⟩⟩,
    ⟨7471199917722125, ⟨24, 12, 2, [[0, 1, 2], [1, 0, 3], [2, 2, 2], [3, 3, 3]], [[0, 0, 1], [0,
    0, 0]], [[⟨0, 0, 0⟩, ⟨1, 1, 10⟩], [⟨0, 1, 8⟩, ⟨1, 0, 2⟩], [⟨0, 2, 16⟩, ⟨2, 0, 4⟩, ⟨2, 1, 12⟩,
    ⟨2, 2, 20⟩], [⟨1, 2, 18⟩, ⟨3, 0, 6⟩, ⟨3, 1, 14⟩, ⟨3, 2, 22⟩]], [[⟨0, 0, 0⟩, ⟨0, 1, 8⟩, ⟨1, 0,
    1⟩, ⟨1, 1, 9⟩, ⟨1, 2, 17⟩], [⟨0, 2, 16⟩]]⟩⟩,
    ⟨7471199915626509, ⟨24, 12, 2, [[0, 1, 2], [1, 2, 3], [2, 2, 2], [3, 3, 3]], [[0, 0, 1], [0,
    0, 0]], [[⟨0, 0, 0⟩], [⟨0, 1, 8⟩, ⟨1, 0, 2⟩], [⟨0, 2, 16⟩, ⟨1, 1, 10⟩, ⟨2, 0, 4⟩, ⟨2, 1, 12⟩,
    ⟨2, 2, 20⟩], [⟨1, 2, 18⟩, ⟨3, 0, 6⟩, ⟨3, 1, 14⟩, ⟨3, 2, 22⟩]], [[⟨0, 0, 0⟩, ⟨0, 1, 8⟩, ⟨1, 0,
    1⟩, ⟨1, 1, 9⟩, ⟨1, 2, 17⟩], [⟨0, 2, 16⟩]]⟩⟩,
    ⟨7471199915628557, ⟨18, 9, 2, [[0, 1, 2], [1, 1, 1], [2, 2, 2]], [[0, 0, 1], [0, 0, 0]],
    [[⟨0, 0, 0⟩], [⟨0, 1, 6⟩, ⟨1, 0, 2⟩, ⟨1, 1, 8⟩, ⟨1, 2, 14⟩], [⟨0, 2, 12⟩, ⟨2, 0, 4⟩, ⟨2, 1,
    10⟩, ⟨2, 2, 16⟩]], [[⟨0, 0, 0⟩, ⟨0, 1, 6⟩, ⟨1, 0, 1⟩, ⟨1, 1, 7⟩, ⟨1, 2, 13⟩], [⟨0, 2, 12⟩]]⟩⟩,
    ⟨7471199917725709, ⟨18, 9, 2, [[0, 1, 2], [1, 1, 1], [2, 2, 2]], [[0, 0, 1], [0, 0, 0]],
    [[⟨0, 0, 0⟩], [⟨0, 1, 6⟩, ⟨1, 0, 2⟩, ⟨1, 1, 8⟩, ⟨1, 2, 14⟩], [⟨0, 2, 12⟩, ⟨2, 0, 4⟩, ⟨2, 1,
    10⟩, ⟨2, 2, 16⟩]], [[⟨0, 0, 0⟩, ⟨0, 1, 6⟩, ⟨1, 0, 1⟩, ⟨1, 1, 7⟩, ⟨1, 2, 13⟩], [⟨0, 2, 12⟩]]⟩⟩,
    ⟨7471199915629069, ⟨18, 9, 2, [[0, 1, 2], [1, 1, 1], [2, 2, 2]], [[0, 0, 1], [0, 0, 0]],
    [[⟨0, 0, 0⟩], [⟨0, 1, 6⟩, ⟨1, 0, 2⟩, ⟨1, 1, 8⟩, ⟨1, 2, 14⟩], [⟨0, 2, 12⟩, ⟨2, 0, 4⟩, ⟨2, 1,
    10⟩, ⟨2, 2, 16⟩]], [[⟨0, 0, 0⟩, ⟨0, 1, 6⟩, ⟨1, 0, 1⟩, ⟨1, 1, 7⟩, ⟨1, 2, 13⟩], [⟨0, 2, 12⟩]]⟩⟩,
    ⟨7471199917726221, ⟨18, 9, 2, [[0, 1, 2], [1, 1, 1], [2, 2, 2]], [[0, 0, 1], [0, 0, 0]],
    [[⟨0, 0, 0⟩], [⟨0, 1, 6⟩, ⟨1, 0, 2⟩, ⟨1, 1, 8⟩, ⟨1, 2, 14⟩], [⟨0, 2, 12⟩, ⟨2, 0, 4⟩, ⟨2, 1,
    10⟩, ⟨2, 2, 16⟩]], [[⟨0, 0, 0⟩, ⟨0, 1, 6⟩, ⟨1, 0, 1⟩, ⟨1, 1, 7⟩, ⟨1, 2, 13⟩], [⟨0, 2, 12⟩]]⟩⟩,
    ⟨7471199915630605, ⟨30, 15, 2, [[0, 1, 2], [3, 0, 4], [2, 2, 2], [3, 2, 4], [4, 4, 4]], [[0,
    0, 1], [0, 0, 0]], [[⟨0, 0, 0⟩, ⟨1, 1, 12⟩], [⟨0, 1, 10⟩], [⟨0, 2, 20⟩, ⟨2, 0, 4⟩, ⟨2, 1,
    14⟩, ⟨2, 2, 24⟩, ⟨3, 1, 16⟩], [⟨1, 0, 2⟩, ⟨3, 0, 6⟩], [⟨1, 2, 22⟩, ⟨3, 2, 26⟩, ⟨4, 0, 8⟩, ⟨4,
    1, 18⟩, ⟨4, 2, 28⟩]], [[⟨0, 0, 0⟩, ⟨0, 1, 10⟩, ⟨1, 0, 1⟩, ⟨1, 1, 11⟩, ⟨1, 2, 21⟩], [⟨0, 2,
    20⟩]]⟩⟩,
    ⟨7471199915631117, ⟨24, 12, 2, [[0, 1, 2], [1, 0, 3], [2, 2, 2], [3, 3, 3]], [[0, 0, 1], [0,
    0, 0]], [[⟨0, 0, 0⟩, ⟨1, 1, 10⟩], [⟨0, 1, 8⟩, ⟨1, 0, 2⟩], [⟨0, 2, 16⟩, ⟨2, 0, 4⟩, ⟨2, 1, 12⟩,
    ⟨2, 2, 20⟩], [⟨1, 2, 18⟩, ⟨3, 0, 6⟩, ⟨3, 1, 14⟩, ⟨3, 2, 22⟩]], [[⟨0, 0, 0⟩, ⟨0, 1, 8⟩, ⟨1, 0,
    1⟩, ⟨1, 1, 9⟩, ⟨1, 2, 17⟩], [⟨0, 2, 16⟩]]⟩⟩,
    ⟨7471199918514701, ⟨108, 9, 12, [[0, 0, 1], [0, 2, 0], [0, 1, 0]], [[0, 1, 1], [2, 3, 4], [2,
    2, 2], [1, 2, 2], [5, 1, 1], [6, 0, 7], [8, 1, 1], [9, 0, 7], [6, 2, 2], [8, 10, 11], [1, 3,
    4], [5, 10, 11]], [[⟨0, 0, 0⟩, ⟨0, 1, 36⟩, ⟨1, 0, 12⟩, ⟨1, 2, 84⟩, ⟨2, 0, 24⟩, ⟨2, 2, 96⟩],
    [⟨0, 2, 72⟩, ⟨2, 1, 60⟩], [⟨1, 1, 48⟩]], [[⟨0, 0, 0⟩, ⟨5, 1, 41⟩, ⟨7, 1, 43⟩], [⟨0, 1, 36⟩,
    ⟨0, 2, 72⟩, ⟨3, 0, 3⟩, ⟨4, 1, 40⟩, ⟨4, 2, 76⟩, ⟨6, 1, 42⟩, ⟨6, 2, 78⟩, ⟨10, 0, 10⟩], [⟨1, 0,
    1⟩, ⟨2, 0, 2⟩, ⟨2, 1, 38⟩, ⟨2, 2, 74⟩, ⟨3, 1, 39⟩, ⟨3, 2, 75⟩, ⟨8, 1, 44⟩, ⟨8, 2, 80⟩], [⟨1,
    1, 37⟩, ⟨10, 1, 46⟩], [⟨1, 2, 73⟩, ⟨10, 2, 82⟩], [⟨4, 0, 4⟩, ⟨11, 0, 11⟩], [⟨5, 0, 5⟩, ⟨8, 0,
    8⟩], [⟨5, 2, 77⟩, ⟨7, 2, 79⟩], [⟨6, 0, 6⟩, ⟨9, 0, 9⟩], [⟨7, 0, 7⟩], [⟨9, 1, 45⟩, ⟨11, 1,
    47⟩], [⟨9, 2, 81⟩, ⟨11, 2, 83⟩]]⟩⟩,
    ⟨7471199915370509, ⟨84, 21, 4, [[0, 1, 2], [3, 4, 5], [4, 1, 2], [3, 3, 3], [4, 6, 6], [6, 6,
    6], [6, 6, 6]], [[0, 1, 1], [2, 1, 2], [3, 1, 0], [3, 1, 0]], [[⟨0, 0, 0⟩], [⟨0, 1, 28⟩, ⟨2,
    1, 36⟩], [⟨0, 2, 56⟩, ⟨2, 2, 64⟩], [⟨1, 0, 4⟩, ⟨3, 0, 12⟩, ⟨3, 1, 40⟩, ⟨3, 2, 68⟩], [⟨1, 1,
    32⟩, ⟨2, 0, 8⟩, ⟨4, 0, 16⟩], [⟨1, 2, 60⟩], [⟨4, 1, 44⟩, ⟨4, 2, 72⟩, ⟨5, 0, 20⟩, ⟨5, 1, 48⟩,
    ⟨5, 2, 76⟩, ⟨6, 0, 24⟩, ⟨6, 1, 52⟩, ⟨6, 2, 80⟩]], [[⟨0, 0, 0⟩, ⟨2, 2, 58⟩, ⟨3, 2, 59⟩], [⟨0,
    1, 28⟩, ⟨0, 2, 56⟩, ⟨1, 1, 29⟩, ⟨2, 1, 30⟩, ⟨3, 1, 31⟩], [⟨1, 0, 1⟩, ⟨1, 2, 57⟩], [⟨2, 0, 2⟩,
    ⟨3, 0, 3⟩]]⟩⟩,
    ⟨7471199915632653, ⟨24, 12, 2, [[0, 1, 2], [1, 0, 3], [2, 2, 2], [3, 3, 3]], [[0, 0, 1], [0,
    0, 0]], [[⟨0, 0, 0⟩, ⟨1, 1, 10⟩], [⟨0, 1, 8⟩, ⟨1, 0, 2⟩], [⟨0, 2, 16⟩, ⟨2, 0, 4⟩, ⟨2, 1, 12⟩,
    ⟨2, 2, 20⟩], [⟨1, 2, 18⟩, ⟨3, 0, 6⟩, ⟨3, 1, 14⟩, ⟨3, 2, 22⟩]], [[⟨0, 0, 0⟩, ⟨0, 1, 8⟩, ⟨1, 0,
    1⟩, ⟨1, 1, 9⟩, ⟨1, 2, 17⟩], [⟨0, 2, 16⟩]]⟩⟩,
    ⟨7471199917729805, ⟨24, 12, 2, [[0, 1, 2], [1, 0, 3], [2, 2, 2], [3, 3, 3]], [[0, 0, 1], [0,
    0, 0]], [[⟨0, 0, 0⟩, ⟨1, 1, 10⟩], [⟨0, 1, 8⟩, ⟨1, 0, 2⟩], [⟨0, 2, 16⟩, ⟨2, 0, 4⟩, ⟨2, 1, 12⟩,
    ⟨2, 2, 20⟩], [⟨1, 2, 18⟩, ⟨3, 0, 6⟩, ⟨3, 1, 14⟩, ⟨3, 2, 22⟩]], [[⟨0, 0, 0⟩, ⟨0, 1, 8⟩, ⟨1, 0,
    1⟩, ⟨1, 1, 9⟩, ⟨1, 2, 17⟩], [⟨0, 2, 16⟩]]⟩⟩,
    ⟨7506384290594829, ⟨210, 21, 10, [[0, 1, 2], [2, 3, 4], [2, 2, 2], [2, 5, 2], [2, 2, 2], [2,
    6, 2], [2, 2, 2]], [[0, 1, 2], [3, 4, 5], [6, 4, 7], [0, 4, 7], [3, 4, 7], [6, 4, 7], [8, 4,
    7], [6, 4, 7], [9, 1, 2], [0, 1, 2]], [[⟨0, 0, 0⟩], [⟨0, 1, 70⟩], [⟨0, 2, 140⟩, ⟨1, 0, 10⟩,
    ⟨2, 0, 20⟩, ⟨2, 1, 90⟩, ⟨2, 2, 160⟩, ⟨3, 0, 30⟩, ⟨3, 2, 170⟩, ⟨4, 0, 40⟩, ⟨4, 1, 110⟩, ⟨4, 2,
    180⟩, ⟨5, 0, 50⟩, ⟨5, 2, 190⟩, ⟨6, 0, 60⟩, ⟨6, 1, 130⟩, ⟨6, 2, 200⟩], [⟨1, 1, 80⟩], [⟨1, 2,
    150⟩], [⟨3, 1, 100⟩], [⟨5, 1, 120⟩]], [[⟨0, 0, 0⟩, ⟨3, 0, 3⟩, ⟨9, 0, 9⟩], [⟨0, 1, 70⟩, ⟨8, 1,
    78⟩, ⟨9, 1, 79⟩], [⟨0, 2, 140⟩, ⟨8, 2, 148⟩, ⟨9, 2, 149⟩], [⟨1, 0, 1⟩, ⟨4, 0, 4⟩], [⟨1, 1,
    71⟩, ⟨2, 1, 72⟩, ⟨3, 1, 73⟩, ⟨4, 1, 74⟩, ⟨5, 1, 75⟩, ⟨6, 1, 76⟩, ⟨7, 1, 77⟩], [⟨1, 2, 141⟩],
    [⟨2, 0, 2⟩, ⟨5, 0, 5⟩, ⟨7, 0, 7⟩], [⟨2, 2, 142⟩, ⟨3, 2, 143⟩, ⟨4, 2, 144⟩, ⟨5, 2, 145⟩, ⟨6,
    2, 146⟩, ⟨7, 2, 147⟩], [⟨6, 0, 6⟩], [⟨8, 0, 8⟩]]⟩⟩],
    by decide +kernel, by decide +kernel⟩

theorem child23_1l1_2l0 : AllDone (child (1, false, 1) (2, false, 0)) := by
  refine allDone_of [list23_1l1_2l0_0, list23_1l1_2l0_1, list23_1l1_2l0_2] ?_ (by decide +kernel)
  simp only [List.forall_mem_cons, List.not_mem_nil, false_imp_iff, implies_true, and_true]
  exact ⟨done23_1l1_2l0_0, done23_1l1_2l0_1, done23_1l1_2l0_2⟩

theorem child23_1l1_2l1 : AllDone (child (1, false, 1) (2, false, 1)) :=
  allDone_of [] (by simp) (by decide +kernel)

def list23_1l1_2r0_0 : List Listed := [
  ⟨12387912531981, [((0, 0), (1, true, 1)), ((0, 1), (0, false, 0)), ((0, 2), (1, false, 0)),
  ((1, 0), (1, false, 1)), ((1, 1), (2, true, 0))]⟩,
  ⟨7189999820750861, [((0, 0), (1, true, 1)), ((0, 1), (0, false, 0)), ((0, 2), (2, false, 0)),
  ((1, 0), (1, false, 1)), ((1, 1), (2, true, 0)), ((1, 2), (1, true, 0))]⟩,
  ⟨7049262328463885, [((0, 0), (1, true, 1)), ((0, 1), (0, false, 1)), ((0, 2), (0, false, 1)),
  ((1, 0), (1, false, 1)), ((1, 1), (2, true, 0)), ((1, 2), (1, false, 0))]⟩,
  ⟨7049262329250317, [((0, 0), (1, true, 1)), ((0, 1), (0, false, 1)), ((0, 2), (0, true, 0)),
  ((1, 0), (1, false, 1)), ((1, 1), (2, true, 0)), ((1, 2), (1, false, 0))]⟩,
  ⟨7049262330561037, [((0, 0), (1, true, 1)), ((0, 1), (0, false, 1)), ((0, 2), (1, false, 1)),
  ((1, 0), (1, false, 1)), ((1, 1), (2, true, 0)), ((1, 2), (1, false, 0))]⟩,
  ⟨13218334657037, [((0, 0), (1, true, 1)), ((0, 1), (0, true, 1)), ((1, 0), (1, false, 1)), ((1,
  1), (2, true, 0)), ((1, 2), (0, false, 0))]⟩,
  ⟨7049262328203789, [((0, 0), (1, true, 1)), ((0, 1), (0, true, 1)), ((0, 2), (0, false, 0)),
  ((1, 0), (1, false, 1)), ((1, 1), (2, true, 0)), ((1, 2), (1, false, 0))]⟩,
  ⟨7049262328465933, [((0, 0), (1, true, 1)), ((0, 1), (0, true, 1)), ((0, 2), (0, false, 1)),
  ((1, 0), (1, false, 1)), ((1, 1), (2, true, 0)), ((1, 2), (1, false, 0))]⟩,
  ⟨7049262330563085, [((0, 0), (1, true, 1)), ((0, 1), (0, true, 1)), ((0, 2), (1, false, 1)),
  ((1, 0), (1, false, 1)), ((1, 1), (2, true, 0)), ((1, 2), (1, false, 0))]⟩,
  ⟨7049262332660237, [((0, 0), (1, true, 1)), ((0, 1), (0, true, 1)), ((0, 2), (2, false, 1)),
  ((1, 0), (1, false, 1)), ((1, 1), (2, true, 0)), ((1, 2), (1, false, 0))]⟩,
  ⟨7049262328211981, [((0, 0), (1, true, 1)), ((0, 1), (2, true, 1)), ((0, 2), (0, false, 0)),
  ((1, 0), (1, false, 1)), ((1, 1), (2, true, 0)), ((1, 2), (1, false, 0))]⟩]

theorem done23_1l1_2r0_0 : ∃ h, Done list23_1l1_2r0_0 h :=
  ⟨[
    ⟨12387912531981, ⟨45, 9, 5, [[0, 1, 2], [0, 1, 2], [0, 1, 2]], [[0, 1, 2], [1, 1, 2], [3, 4,
    3], [3, 3, 3], [1, 2, 3]], [[⟨0, 0, 0⟩, ⟨1, 0, 5⟩, ⟨2, 0, 10⟩], [⟨0, 1, 15⟩, ⟨1, 1, 20⟩, ⟨2,
    1, 25⟩], [⟨0, 2, 30⟩, ⟨1, 2, 35⟩, ⟨2, 2, 40⟩]], [[⟨0, 0, 0⟩], [⟨0, 1, 15⟩, ⟨1, 0, 1⟩, ⟨1, 1,
    16⟩, ⟨4, 0, 4⟩], [⟨0, 2, 30⟩, ⟨1, 2, 31⟩, ⟨4, 1, 19⟩], [⟨2, 0, 2⟩, ⟨2, 2, 32⟩, ⟨3, 0, 3⟩, ⟨3,
    1, 18⟩, ⟨3, 2, 33⟩, ⟨4, 2, 34⟩], [⟨2, 1, 17⟩]]⟩⟩,
    ⟨7189999820750861, ⟨144, 36, 4, [[0, 1, 2], [3, 2, 3], [4, 5, 6], [3, 3, 3], [0, 7, 2], [3,
    2, 3], [6, 8, 8], [9, 10, 11], [8, 8, 8], [2, 11, 2], [9, 10, 11], [6, 8, 8]], [[0, 0, 1],
    [2, 0, 3], [3, 1, 1], [2, 0, 3]], [[⟨0, 0, 0⟩, ⟨4, 0, 16⟩], [⟨0, 1, 48⟩], [⟨0, 2, 96⟩, ⟨1, 1,
    52⟩, ⟨4, 2, 112⟩, ⟨5, 1, 68⟩, ⟨9, 0, 36⟩, ⟨9, 2, 132⟩], [⟨1, 0, 4⟩, ⟨1, 2, 100⟩, ⟨3, 0, 12⟩,
    ⟨3, 1, 60⟩, ⟨3, 2, 108⟩, ⟨5, 0, 20⟩, ⟨5, 2, 116⟩], [⟨2, 0, 8⟩], [⟨2, 1, 56⟩], [⟨2, 2, 104⟩,
    ⟨6, 0, 24⟩, ⟨11, 0, 44⟩], [⟨4, 1, 64⟩], [⟨6, 1, 72⟩, ⟨6, 2, 120⟩, ⟨8, 0, 32⟩, ⟨8, 1, 80⟩, ⟨8,
    2, 128⟩, ⟨11, 1, 92⟩, ⟨11, 2, 140⟩], [⟨7, 0, 28⟩, ⟨10, 0, 40⟩], [⟨7, 1, 76⟩, ⟨10, 1, 88⟩],
    [⟨7, 2, 124⟩, ⟨9, 1, 84⟩, ⟨10, 2, 136⟩]], [[⟨0, 0, 0⟩, ⟨0, 1, 48⟩, ⟨1, 1, 49⟩, ⟨3, 1, 51⟩],
    [⟨0, 2, 96⟩, ⟨2, 1, 50⟩, ⟨2, 2, 98⟩], [⟨1, 0, 1⟩, ⟨3, 0, 3⟩], [⟨1, 2, 97⟩, ⟨2, 0, 2⟩, ⟨3, 2,
    99⟩]]⟩⟩,
    ⟨7049262328463885, ⟨60, 12, 5, [[0, 1, 2], [0, 2, 3], [0, 2, 3], [0, 1, 2]], [[0, 1, 2], [3,
    2, 2], [4, 4, 4], [0, 1, 2], [4, 4, 4]], [[⟨0, 0, 0⟩, ⟨1, 0, 5⟩, ⟨2, 0, 10⟩, ⟨3, 0, 15⟩],
    [⟨0, 1, 20⟩, ⟨3, 1, 35⟩], [⟨0, 2, 40⟩, ⟨1, 1, 25⟩, ⟨2, 1, 30⟩, ⟨3, 2, 55⟩], [⟨1, 2, 45⟩, ⟨2,
    2, 50⟩]], [[⟨0, 0, 0⟩, ⟨3, 0, 3⟩], [⟨0, 1, 20⟩, ⟨3, 1, 23⟩], [⟨0, 2, 40⟩, ⟨1, 1, 21⟩, ⟨1, 2,
    41⟩, ⟨3, 2, 43⟩], [⟨1, 0, 1⟩], [⟨2, 0, 2⟩, ⟨2, 1, 22⟩, ⟨2, 2, 42⟩, ⟨4, 0, 4⟩, ⟨4, 1, 24⟩, ⟨4,
    2, 44⟩]]⟩⟩,
    ⟨7049262329250317, ⟨45, 15, 3, [[0, 1, 2], [2, 2, 3], [4, 4, 4], [0, 1, 2], [4, 4, 4]], [[0,
    1, 2], [2, 2, 2], [2, 2, 2]], [[⟨0, 0, 0⟩, ⟨3, 0, 9⟩], [⟨0, 1, 15⟩, ⟨3, 1, 24⟩], [⟨0, 2, 30⟩,
    ⟨1, 0, 3⟩, ⟨1, 1, 18⟩, ⟨3, 2, 39⟩], [⟨1, 2, 33⟩], [⟨2, 0, 6⟩, ⟨2, 1, 21⟩, ⟨2, 2, 36⟩, ⟨4, 0,
    12⟩, ⟨4, 1, 27⟩, ⟨4, 2, 42⟩]], [[⟨0, 0, 0⟩], [⟨0, 1, 15⟩], [⟨0, 2, 30⟩, ⟨1, 0, 1⟩, ⟨1, 1,
    16⟩, ⟨1, 2, 31⟩, ⟨2, 0, 2⟩, ⟨2, 1, 17⟩, ⟨2, 2, 32⟩]]⟩⟩,
    ⟨7049262330561037, ⟨108, 27, 4, [[0, 1, 2], [3, 2, 4], [5, 4, 6], [7, 4, 6], [4, 1, 2], [6,
    6, 8], [6, 6, 6], [5, 4, 8], [2, 6, 6]], [[0, 1, 2], [0, 3, 2], [2, 2, 2], [2, 2, 2]], [[⟨0,
    0, 0⟩], [⟨0, 1, 36⟩, ⟨4, 1, 52⟩], [⟨0, 2, 72⟩, ⟨1, 1, 40⟩, ⟨4, 2, 88⟩, ⟨8, 0, 32⟩], [⟨1, 0,
    4⟩], [⟨1, 2, 76⟩, ⟨2, 1, 44⟩, ⟨3, 1, 48⟩, ⟨4, 0, 16⟩, ⟨7, 1, 64⟩], [⟨2, 0, 8⟩, ⟨7, 0, 28⟩],
    [⟨2, 2, 80⟩, ⟨3, 2, 84⟩, ⟨5, 0, 20⟩, ⟨5, 1, 56⟩, ⟨6, 0, 24⟩, ⟨6, 1, 60⟩, ⟨6, 2, 96⟩, ⟨8, 1,
    68⟩, ⟨8, 2, 104⟩], [⟨3, 0, 12⟩], [⟨5, 2, 92⟩, ⟨7, 2, 100⟩]], [[⟨0, 0, 0⟩, ⟨1, 0, 1⟩], [⟨0, 1,
    36⟩], [⟨0, 2, 72⟩, ⟨1, 2, 73⟩, ⟨2, 0, 2⟩, ⟨2, 1, 38⟩, ⟨2, 2, 74⟩, ⟨3, 0, 3⟩, ⟨3, 1, 39⟩, ⟨3,
    2, 75⟩], [⟨1, 1, 37⟩]]⟩⟩,
    ⟨13218334657037, ⟨90, 15, 6, [[0, 1, 2], [0, 1, 3], [4, 1, 3], [0, 1, 3], [0, 1, 2]], [[0, 1,
    2], [2, 3, 2], [2, 2, 2], [4, 5, 2], [2, 2, 2], [2, 2, 2]], [[⟨0, 0, 0⟩, ⟨1, 0, 6⟩, ⟨3, 0,
    18⟩, ⟨4, 0, 24⟩], [⟨0, 1, 30⟩, ⟨1, 1, 36⟩, ⟨2, 1, 42⟩, ⟨3, 1, 48⟩, ⟨4, 1, 54⟩], [⟨0, 2, 60⟩,
    ⟨4, 2, 84⟩], [⟨1, 2, 66⟩, ⟨2, 2, 72⟩, ⟨3, 2, 78⟩], [⟨2, 0, 12⟩]], [[⟨0, 0, 0⟩], [⟨0, 1, 30⟩],
    [⟨0, 2, 60⟩, ⟨1, 0, 1⟩, ⟨1, 2, 61⟩, ⟨2, 0, 2⟩, ⟨2, 1, 32⟩, ⟨2, 2, 62⟩, ⟨3, 2, 63⟩, ⟨4, 0, 4⟩,
    ⟨4, 1, 34⟩, ⟨4, 2, 64⟩, ⟨5, 0, 5⟩, ⟨5, 1, 35⟩, ⟨5, 2, 65⟩], [⟨1, 1, 31⟩], [⟨3, 0, 3⟩], [⟨3,
    1, 33⟩]]⟩⟩,
    ⟨7049262328203789, ⟨75, 15, 5, [[0, 1, 1], [2, 2, 3], [0, 1, 1], [2, 1, 4], [0, 1, 4]], [[0,
    1, 2], [3, 4, 2], [2, 2, 2], [0, 1, 2], [3, 4, 2]], [[⟨0, 0, 0⟩, ⟨2, 0, 10⟩, ⟨4, 0, 20⟩],
    [⟨0, 1, 25⟩, ⟨0, 2, 50⟩, ⟨2, 1, 35⟩, ⟨2, 2, 60⟩, ⟨3, 1, 40⟩, ⟨4, 1, 45⟩], [⟨1, 0, 5⟩, ⟨1, 1,
    30⟩, ⟨3, 0, 15⟩], [⟨1, 2, 55⟩], [⟨3, 2, 65⟩, ⟨4, 2, 70⟩]], [[⟨0, 0, 0⟩, ⟨3, 0, 3⟩], [⟨0, 1,
    25⟩, ⟨3, 1, 28⟩], [⟨0, 2, 50⟩, ⟨1, 2, 51⟩, ⟨2, 0, 2⟩, ⟨2, 1, 27⟩, ⟨2, 2, 52⟩, ⟨3, 2, 53⟩, ⟨4,
    2, 54⟩], [⟨1, 0, 1⟩, ⟨4, 0, 4⟩], [⟨1, 1, 26⟩, ⟨4, 1, 29⟩]]⟩⟩,
    ⟨7049262328465933, ⟨36, 9, 4, [[0, 0, 1], [2, 0, 0], [2, 2, 2]], [[0, 1, 2], [0, 3, 2], [2,
    2, 2], [1, 3, 3]], [[⟨0, 0, 0⟩, ⟨0, 1, 12⟩, ⟨1, 1, 16⟩, ⟨1, 2, 28⟩], [⟨0, 2, 24⟩], [⟨1, 0,
    4⟩, ⟨2, 0, 8⟩, ⟨2, 1, 20⟩, ⟨2, 2, 32⟩]], [[⟨0, 0, 0⟩, ⟨1, 0, 1⟩], [⟨0, 1, 12⟩, ⟨3, 0, 3⟩],
    [⟨0, 2, 24⟩, ⟨1, 2, 25⟩, ⟨2, 0, 2⟩, ⟨2, 1, 14⟩, ⟨2, 2, 26⟩], [⟨1, 1, 13⟩, ⟨3, 1, 15⟩, ⟨3, 2,
    27⟩]]⟩⟩,
    ⟨7049262330563085, ⟨36, 9, 4, [[0, 0, 1], [2, 0, 0], [2, 2, 2]], [[0, 1, 2], [0, 3, 3], [2,
    2, 2], [1, 3, 3]], [[⟨0, 0, 0⟩, ⟨0, 1, 12⟩, ⟨1, 1, 16⟩, ⟨1, 2, 28⟩], [⟨0, 2, 24⟩], [⟨1, 0,
    4⟩, ⟨2, 0, 8⟩, ⟨2, 1, 20⟩, ⟨2, 2, 32⟩]], [[⟨0, 0, 0⟩, ⟨1, 0, 1⟩], [⟨0, 1, 12⟩, ⟨3, 0, 3⟩],
    [⟨0, 2, 24⟩, ⟨2, 0, 2⟩, ⟨2, 1, 14⟩, ⟨2, 2, 26⟩], [⟨1, 1, 13⟩, ⟨1, 2, 25⟩, ⟨3, 1, 15⟩, ⟨3, 2,
    27⟩]]⟩⟩,
    ⟨7049262332660237, ⟨36, 9, 4, [[0, 0, 1], [2, 0, 0], [2, 2, 2]], [[0, 1, 2], [0, 3, 3], [2,
    2, 2], [1, 3, 3]], [[⟨0, 0, 0⟩, ⟨0, 1, 12⟩, ⟨1, 1, 16⟩, ⟨1, 2, 28⟩], [⟨0, 2, 24⟩], [⟨1, 0,
    4⟩, ⟨2, 0, 8⟩, ⟨2, 1, 20⟩, ⟨2, 2, 32⟩]], [[⟨0, 0, 0⟩, ⟨1, 0, 1⟩], [⟨0, 1, 12⟩, ⟨3, 0, 3⟩],
    [⟨0, 2, 24⟩, ⟨2, 0, 2⟩, ⟨2, 1, 14⟩, ⟨2, 2, 26⟩], [⟨1, 1, 13⟩, ⟨1, 2, 25⟩, ⟨3, 1, 15⟩, ⟨3, 2,
    27⟩]]⟩⟩,
    ⟨7049262328211981, ⟨18, 6, 3, [[0, 1, 1], [1, 1, 1]], [[0, 1, 2], [1, 1, 0], [2, 2, 2]],
    [[⟨0, 0, 0⟩], [⟨0, 1, 6⟩, ⟨0, 2, 12⟩, ⟨1, 0, 3⟩, ⟨1, 1, 9⟩, ⟨1, 2, 15⟩]], [[⟨0, 0, 0⟩, ⟨1, 2,
    13⟩], [⟨0, 1, 6⟩, ⟨1, 0, 1⟩, ⟨1, 1, 7⟩], [⟨0, 2, 12⟩, ⟨2, 0, 2⟩, ⟨2, 1, 8⟩, ⟨2, 2, 14⟩]]⟩⟩],
    by decide +kernel, by decide +kernel⟩

theorem child23_1l1_2r0 : AllDone (child (1, false, 1) (2, true, 0)) := by
  refine allDone_of [list23_1l1_2r0_0] ?_ (by decide +kernel)
  simp only [List.forall_mem_cons, List.not_mem_nil, false_imp_iff, implies_true, and_true]
  exact done23_1l1_2r0_0

def list23_1l1_2r1_0 : List Listed := [
  ⟨6767856074113037, [((0, 0), (1, true, 1)), ((0, 1), (0, false, 0)), ((0, 2), (1, true, 0)),
  ((1, 0), (1, false, 1)), ((1, 1), (2, true, 1)), ((1, 2), (0, false, 0))]⟩,
  ⟨6767856074113549, [((0, 0), (1, true, 1)), ((0, 1), (0, false, 1)), ((0, 2), (1, true, 0)),
  ((1, 0), (1, false, 1)), ((1, 1), (2, true, 1)), ((1, 2), (0, false, 0))]⟩,
  ⟨6767856074115597, [((0, 0), (1, true, 1)), ((0, 1), (0, true, 1)), ((0, 2), (1, true, 0)),
  ((1, 0), (1, false, 1)), ((1, 1), (2, true, 1)), ((1, 2), (0, false, 0))]⟩,
  ⟨6767856074117645, [((0, 0), (1, true, 1)), ((0, 1), (1, false, 1)), ((0, 2), (1, true, 0)),
  ((1, 0), (1, false, 1)), ((1, 1), (2, true, 1)), ((1, 2), (0, false, 0))]⟩,
  ⟨6767856074121741, [((0, 0), (1, true, 1)), ((0, 1), (2, false, 1)), ((0, 2), (1, true, 0)),
  ((1, 0), (1, false, 1)), ((1, 1), (2, true, 1)), ((1, 2), (0, false, 0))]⟩,
  ⟨6767856075163661, [((0, 0), (1, true, 1)), ((0, 1), (0, true, 0)), ((0, 2), (2, false, 0)),
  ((1, 0), (1, false, 1)), ((1, 1), (2, true, 1)), ((1, 2), (0, false, 0))]⟩,
  ⟨6767856076210701, [((0, 0), (1, true, 1)), ((0, 1), (0, false, 1)), ((0, 2), (2, true, 0)),
  ((1, 0), (1, false, 1)), ((1, 1), (2, true, 1)), ((1, 2), (0, false, 0))]⟩,
  ⟨6767856076212749, [((0, 0), (1, true, 1)), ((0, 1), (0, true, 1)), ((0, 2), (2, true, 0)),
  ((1, 0), (1, false, 1)), ((1, 1), (2, true, 1)), ((1, 2), (0, false, 0))]⟩,
  ⟨6767856076214797, [((0, 0), (1, true, 1)), ((0, 1), (1, false, 1)), ((0, 2), (2, true, 0)),
  ((1, 0), (1, false, 1)), ((1, 1), (2, true, 1)), ((1, 2), (0, false, 0))]⟩,
  ⟨6767856076218893, [((0, 0), (1, true, 1)), ((0, 1), (2, false, 1)), ((0, 2), (2, true, 0)),
  ((1, 0), (1, false, 1)), ((1, 1), (2, true, 1)), ((1, 2), (0, false, 0))]⟩,
  ⟨13218468899341, [((0, 0), (1, true, 1)), ((0, 2), (2, true, 1)), ((1, 0), (1, false, 1)), ((1,
  1), (2, true, 1)), ((1, 2), (0, false, 0))]⟩,
  ⟨13493346781709, [((0, 0), (1, true, 1)), ((0, 1), (0, true, 1)), ((1, 0), (1, false, 1)), ((1,
  1), (2, true, 1)), ((1, 2), (0, true, 0))]⟩,
  ⟨13768224702477, [((0, 0), (1, true, 1)), ((0, 2), (0, false, 0)), ((1, 0), (1, false, 1)),
  ((1, 1), (2, true, 1)), ((1, 2), (1, false, 0))]⟩,
  ⟨7190068540227597, [((0, 0), (1, true, 1)), ((0, 1), (0, false, 0)), ((0, 2), (2, false, 0)),
  ((1, 0), (1, false, 1)), ((1, 1), (2, true, 1)), ((1, 2), (1, true, 0))]⟩,
  ⟨7330806026487821, [((0, 0), (1, true, 1)), ((0, 1), (0, true, 0)), ((0, 2), (1, false, 0)),
  ((1, 0), (1, false, 1)), ((1, 1), (2, true, 1)), ((1, 2), (2, false, 0))]⟩,
  ⟨7471543513010189, [((0, 0), (1, true, 1)), ((0, 1), (1, false, 0)), ((0, 2), (0, false, 1)),
  ((1, 0), (1, false, 1)), ((1, 1), (2, true, 1)), ((1, 2), (2, true, 0))]⟩]

theorem done23_1l1_2r1_0 : ∃ h, Done list23_1l1_2r1_0 h :=
  ⟨[
    ⟨6767856074113037, ⟨24, 6, 4, [[0, 1, 1], [1, 1, 1]], [[0, 1, 2], [3, 1, 0], [2, 2, 2], [3,
    1, 0]], [[⟨0, 0, 0⟩], [⟨0, 1, 8⟩, ⟨0, 2, 16⟩, ⟨1, 0, 4⟩, ⟨1, 1, 12⟩, ⟨1, 2, 20⟩]], [[⟨0, 0,
    0⟩, ⟨1, 2, 17⟩, ⟨3, 2, 19⟩], [⟨0, 1, 8⟩, ⟨1, 1, 9⟩, ⟨3, 1, 11⟩], [⟨0, 2, 16⟩, ⟨2, 0, 2⟩, ⟨2,
    1, 10⟩, ⟨2, 2, 18⟩], [⟨1, 0, 1⟩, ⟨3, 0, 3⟩]]⟩⟩,
    ⟨6767856074113549, ⟨48, 12, 4, [[0, 1, 2], [1, 0, 3], [2, 1, 2], [3, 3, 3]], [[0, 1, 2], [3,
    1, 1], [2, 2, 2], [0, 1, 2]], [[⟨0, 0, 0⟩, ⟨1, 1, 20⟩], [⟨0, 1, 16⟩, ⟨1, 0, 4⟩, ⟨2, 1, 24⟩],
    [⟨0, 2, 32⟩, ⟨2, 0, 8⟩, ⟨2, 2, 40⟩], [⟨1, 2, 36⟩, ⟨3, 0, 12⟩, ⟨3, 1, 28⟩, ⟨3, 2, 44⟩]], [[⟨0,
    0, 0⟩, ⟨3, 0, 3⟩], [⟨0, 1, 16⟩, ⟨1, 1, 17⟩, ⟨1, 2, 33⟩, ⟨3, 1, 19⟩], [⟨0, 2, 32⟩, ⟨2, 0, 2⟩,
    ⟨2, 1, 18⟩, ⟨2, 2, 34⟩, ⟨3, 2, 35⟩], [⟨1, 0, 1⟩]]⟩⟩,
    ⟨6767856074115597, ⟨24, 12, 2, [[0, 1, 2], [3, 3, 2], [0, 1, 3], [3, 3, 3]], [[0, 1, 0], [0,
    1, 0]], [[⟨0, 0, 0⟩, ⟨2, 0, 4⟩], [⟨0, 1, 8⟩, ⟨2, 1, 12⟩], [⟨0, 2, 16⟩, ⟨1, 2, 18⟩], [⟨1, 0,
    2⟩, ⟨1, 1, 10⟩, ⟨2, 2, 20⟩, ⟨3, 0, 6⟩, ⟨3, 1, 14⟩, ⟨3, 2, 22⟩]], [[⟨0, 0, 0⟩, ⟨0, 2, 16⟩, ⟨1,
    0, 1⟩, ⟨1, 2, 17⟩], [⟨0, 1, 8⟩, ⟨1, 1, 9⟩]]⟩⟩,
    ⟨6767856074117645, ⟨24, 12, 2, [[0, 1, 2], [3, 3, 2], [0, 1, 3], [3, 3, 3]], [[0, 1, 0], [0,
    1, 0]], [[⟨0, 0, 0⟩, ⟨2, 0, 4⟩], [⟨0, 1, 8⟩, ⟨2, 1, 12⟩], [⟨0, 2, 16⟩, ⟨1, 2, 18⟩], [⟨1, 0,
    2⟩, ⟨1, 1, 10⟩, ⟨2, 2, 20⟩, ⟨3, 0, 6⟩, ⟨3, 1, 14⟩, ⟨3, 2, 22⟩]], [[⟨0, 0, 0⟩, ⟨0, 2, 16⟩, ⟨1,
    0, 1⟩, ⟨1, 2, 17⟩], [⟨0, 1, 8⟩, ⟨1, 1, 9⟩]]⟩⟩,
    ⟨6767856074121741, ⟨24, 12, 2, [[0, 1, 2], [3, 3, 2], [2, 1, 3], [3, 3, 3]], [[0, 1, 1], [0,
    1, 1]], [[⟨0, 0, 0⟩], [⟨0, 1, 8⟩, ⟨2, 1, 12⟩], [⟨0, 2, 16⟩, ⟨1, 2, 18⟩, ⟨2, 0, 4⟩], [⟨1, 0,
    2⟩, ⟨1, 1, 10⟩, ⟨2, 2, 20⟩, ⟨3, 0, 6⟩, ⟨3, 1, 14⟩, ⟨3, 2, 22⟩]], [[⟨0, 0, 0⟩, ⟨1, 0, 1⟩],
    [⟨0, 1, 8⟩, ⟨0, 2, 16⟩, ⟨1, 1, 9⟩, ⟨1, 2, 17⟩]]⟩⟩,
    ⟨6767856075163661, ⟨108, 12, 9, [[0, 1, 2], [0, 1, 2], [3, 3, 0], [3, 3, 3]], [[0, 1, 2], [3,
    0, 4], [2, 2, 2], [5, 5, 3], [6, 4, 4], [2, 5, 2], [7, 8, 3], [0, 8, 2], [3, 7, 4]], [[⟨0, 0,
    0⟩, ⟨1, 0, 9⟩, ⟨2, 2, 90⟩], [⟨0, 1, 36⟩, ⟨1, 1, 45⟩], [⟨0, 2, 72⟩, ⟨1, 2, 81⟩], [⟨2, 0, 18⟩,
    ⟨2, 1, 54⟩, ⟨3, 0, 27⟩, ⟨3, 1, 63⟩, ⟨3, 2, 99⟩]], [[⟨0, 0, 0⟩, ⟨1, 1, 37⟩, ⟨7, 0, 7⟩], [⟨0,
    1, 36⟩], [⟨0, 2, 72⟩, ⟨2, 0, 2⟩, ⟨2, 1, 38⟩, ⟨2, 2, 74⟩, ⟨5, 0, 5⟩, ⟨5, 2, 77⟩, ⟨7, 2, 79⟩],
    [⟨1, 0, 1⟩, ⟨3, 2, 75⟩, ⟨6, 2, 78⟩, ⟨8, 0, 8⟩], [⟨1, 2, 73⟩, ⟨4, 1, 40⟩, ⟨4, 2, 76⟩, ⟨8, 2,
    80⟩], [⟨3, 0, 3⟩, ⟨3, 1, 39⟩, ⟨5, 1, 41⟩], [⟨4, 0, 4⟩], [⟨6, 0, 6⟩, ⟨8, 1, 44⟩], [⟨6, 1, 42⟩,
    ⟨7, 1, 43⟩]]⟩⟩,
    ⟨6767856076210701, ⟨48, 12, 4, [[0, 1, 2], [1, 0, 3], [2, 2, 2], [3, 3, 3]], [[0, 1, 2], [3,
    1, 0], [2, 2, 2], [1, 1, 2]], [[⟨0, 0, 0⟩, ⟨1, 1, 20⟩], [⟨0, 1, 16⟩, ⟨1, 0, 4⟩], [⟨0, 2, 32⟩,
    ⟨2, 0, 8⟩, ⟨2, 1, 24⟩, ⟨2, 2, 40⟩], [⟨1, 2, 36⟩, ⟨3, 0, 12⟩, ⟨3, 1, 28⟩, ⟨3, 2, 44⟩]], [[⟨0,
    0, 0⟩, ⟨1, 2, 33⟩], [⟨0, 1, 16⟩, ⟨1, 1, 17⟩, ⟨3, 0, 3⟩, ⟨3, 1, 19⟩], [⟨0, 2, 32⟩, ⟨2, 0, 2⟩,
    ⟨2, 1, 18⟩, ⟨2, 2, 34⟩, ⟨3, 2, 35⟩], [⟨1, 0, 1⟩]]⟩⟩,
    ⟨6767856076212749, ⟨45, 15, 3, [[0, 1, 2], [1, 0, 3], [4, 4, 4], [3, 3, 3], [4, 4, 4]], [[0,
    1, 0], [2, 1, 0], [0, 0, 0]], [[⟨0, 0, 0⟩, ⟨1, 1, 18⟩], [⟨0, 1, 15⟩, ⟨1, 0, 3⟩], [⟨0, 2,
    30⟩], [⟨1, 2, 33⟩, ⟨3, 0, 9⟩, ⟨3, 1, 24⟩, ⟨3, 2, 39⟩], [⟨2, 0, 6⟩, ⟨2, 1, 21⟩, ⟨2, 2, 36⟩,
    ⟨4, 0, 12⟩, ⟨4, 1, 27⟩, ⟨4, 2, 42⟩]], [[⟨0, 0, 0⟩, ⟨0, 2, 30⟩, ⟨1, 2, 31⟩, ⟨2, 0, 2⟩, ⟨2, 1,
    17⟩, ⟨2, 2, 32⟩], [⟨0, 1, 15⟩, ⟨1, 1, 16⟩], [⟨1, 0, 1⟩]]⟩⟩,
    ⟨6767856076214797, ⟨36, 12, 3, [[0, 1, 2], [1, 0, 3], [2, 2, 2], [3, 3, 3]], [[0, 1, 0], [2,
    1, 0], [0, 1, 0]], [[⟨0, 0, 0⟩, ⟨1, 1, 15⟩], [⟨0, 1, 12⟩, ⟨1, 0, 3⟩], [⟨0, 2, 24⟩, ⟨2, 0, 6⟩,
    ⟨2, 1, 18⟩, ⟨2, 2, 30⟩], [⟨1, 2, 27⟩, ⟨3, 0, 9⟩, ⟨3, 1, 21⟩, ⟨3, 2, 33⟩]], [[⟨0, 0, 0⟩, ⟨0,
    2, 24⟩, ⟨1, 2, 25⟩, ⟨2, 0, 2⟩, ⟨2, 2, 26⟩], [⟨0, 1, 12⟩, ⟨1, 1, 13⟩, ⟨2, 1, 14⟩], [⟨1, 0,
    1⟩]]⟩⟩,
    ⟨6767856076218893, ⟨54, 18, 3, [[0, 1, 2], [1, 3, 4], [2, 5, 5], [0, 1, 5], [4, 4, 4], [5, 5,
    5]], [[0, 0, 1], [2, 1, 0], [0, 0, 1]], [[⟨0, 0, 0⟩, ⟨3, 0, 9⟩], [⟨0, 1, 18⟩, ⟨1, 0, 3⟩, ⟨3,
    1, 27⟩], [⟨0, 2, 36⟩, ⟨2, 0, 6⟩], [⟨1, 1, 21⟩], [⟨1, 2, 39⟩, ⟨4, 0, 12⟩, ⟨4, 1, 30⟩, ⟨4, 2,
    48⟩], [⟨2, 1, 24⟩, ⟨2, 2, 42⟩, ⟨3, 2, 45⟩, ⟨5, 0, 15⟩, ⟨5, 1, 33⟩, ⟨5, 2, 51⟩]], [[⟨0, 0, 0⟩,
    ⟨0, 1, 18⟩, ⟨1, 2, 37⟩, ⟨2, 0, 2⟩, ⟨2, 1, 20⟩], [⟨0, 2, 36⟩, ⟨1, 1, 19⟩, ⟨2, 2, 38⟩], [⟨1, 0,
    1⟩]]⟩⟩,
    ⟨13218468899341, ⟨36, 12, 3, [[0, 1, 2], [1, 3, 3], [0, 1, 2], [3, 3, 3]], [[0, 1, 0], [2, 1,
    0], [0, 1, 0]], [[⟨0, 0, 0⟩, ⟨2, 0, 6⟩], [⟨0, 1, 12⟩, ⟨1, 0, 3⟩, ⟨2, 1, 18⟩], [⟨0, 2, 24⟩,
    ⟨2, 2, 30⟩], [⟨1, 1, 15⟩, ⟨1, 2, 27⟩, ⟨3, 0, 9⟩, ⟨3, 1, 21⟩, ⟨3, 2, 33⟩]], [[⟨0, 0, 0⟩, ⟨0,
    2, 24⟩, ⟨1, 2, 25⟩, ⟨2, 0, 2⟩, ⟨2, 2, 26⟩], [⟨0, 1, 12⟩, ⟨1, 1, 13⟩, ⟨2, 1, 14⟩], [⟨1, 0,
    1⟩]]⟩⟩,
    ⟨13493346781709, ⟨156, 12, 13, [[0, 0, 1], [2, 0, 3], [3, 0, 0], [0, 0, 0]], [[0, 1, 2], [2,
    3, 4], [2, 2, 2], [5, 6, 2], [2, 3, 2], [2, 3, 7], [0, 1, 8], [9, 10, 2], [9, 9, 2], [0, 11,
    7], [9, 10, 7], [5, 12, 4], [9, 9, 8]], [[⟨0, 0, 0⟩, ⟨0, 1, 52⟩, ⟨1, 1, 65⟩, ⟨2, 1, 78⟩, ⟨2,
    2, 130⟩, ⟨3, 0, 39⟩, ⟨3, 1, 91⟩, ⟨3, 2, 143⟩], [⟨0, 2, 104⟩], [⟨1, 0, 13⟩], [⟨1, 2, 117⟩, ⟨2,
    0, 26⟩]], [[⟨0, 0, 0⟩, ⟨6, 0, 6⟩, ⟨9, 0, 9⟩], [⟨0, 1, 52⟩, ⟨6, 1, 58⟩], [⟨0, 2, 104⟩, ⟨1, 0,
    1⟩, ⟨2, 0, 2⟩, ⟨2, 1, 54⟩, ⟨2, 2, 106⟩, ⟨3, 2, 107⟩, ⟨4, 0, 4⟩, ⟨4, 2, 108⟩, ⟨5, 0, 5⟩, ⟨7,
    2, 111⟩, ⟨8, 2, 112⟩], [⟨1, 1, 53⟩, ⟨4, 1, 56⟩, ⟨5, 1, 57⟩], [⟨1, 2, 105⟩, ⟨11, 2, 115⟩],
    [⟨3, 0, 3⟩, ⟨11, 0, 11⟩], [⟨3, 1, 55⟩], [⟨5, 2, 109⟩, ⟨9, 2, 113⟩, ⟨10, 2, 114⟩], [⟨6, 2,
    110⟩, ⟨12, 2, 116⟩], [⟨7, 0, 7⟩, ⟨8, 0, 8⟩, ⟨8, 1, 60⟩, ⟨10, 0, 10⟩, ⟨12, 0, 12⟩, ⟨12, 1,
    64⟩], [⟨7, 1, 59⟩, ⟨10, 1, 62⟩], [⟨9, 1, 61⟩], [⟨11, 1, 63⟩]]⟩⟩,
    ⟨13768224702477, ⟨45, 15, 3, [[0, 1, 2], [1, 3, 3], [0, 1, 4], [3, 3, 3], [0, 1, 4]], [[0, 1,
    0], [2, 1, 0], [2, 1, 0]], [[⟨0, 0, 0⟩, ⟨2, 0, 6⟩, ⟨4, 0, 12⟩], [⟨0, 1, 15⟩, ⟨1, 0, 3⟩, ⟨2,
    1, 21⟩, ⟨4, 1, 27⟩], [⟨0, 2, 30⟩], [⟨1, 1, 18⟩, ⟨1, 2, 33⟩, ⟨3, 0, 9⟩, ⟨3, 1, 24⟩, ⟨3, 2,
    39⟩], [⟨2, 2, 36⟩, ⟨4, 2, 42⟩]], [[⟨0, 0, 0⟩, ⟨0, 2, 30⟩, ⟨1, 2, 31⟩, ⟨2, 2, 32⟩], [⟨0, 1,
    15⟩, ⟨1, 1, 16⟩, ⟨2, 1, 17⟩], [⟨1, 0, 1⟩, ⟨2, 0, 2⟩]]⟩⟩,
    ⟨7190068540227597, ⟨48, 12, 4, [[0, 1, 2], [2, 1, 2], [2, 3, 3], [2, 3, 3]], [[0, 1, 2], [3,
    3, 3], [2, 1, 2], [3, 3, 3]], [[⟨0, 0, 0⟩], [⟨0, 1, 16⟩, ⟨1, 1, 20⟩], [⟨0, 2, 32⟩, ⟨1, 0, 4⟩,
    ⟨1, 2, 36⟩, ⟨2, 0, 8⟩, ⟨3, 0, 12⟩], [⟨2, 1, 24⟩, ⟨2, 2, 40⟩, ⟨3, 1, 28⟩, ⟨3, 2, 44⟩]], [[⟨0,
    0, 0⟩], [⟨0, 1, 16⟩, ⟨2, 1, 18⟩], [⟨0, 2, 32⟩, ⟨2, 0, 2⟩, ⟨2, 2, 34⟩], [⟨1, 0, 1⟩, ⟨1, 1,
    17⟩, ⟨1, 2, 33⟩, ⟨3, 0, 3⟩, ⟨3, 1, 19⟩, ⟨3, 2, 35⟩]]⟩⟩,
    ⟨7330806026487821, ⟨18, 6, 3, [[0, 1, 1], [0, 1, 1]], [[0, 1, 2], [2, 1, 2], [2, 2, 2]],
    [[⟨0, 0, 0⟩, ⟨1, 0, 3⟩], [⟨0, 1, 6⟩, ⟨0, 2, 12⟩, ⟨1, 1, 9⟩, ⟨1, 2, 15⟩]], [[⟨0, 0, 0⟩], [⟨0,
    1, 6⟩, ⟨1, 1, 7⟩], [⟨0, 2, 12⟩, ⟨1, 0, 1⟩, ⟨1, 2, 13⟩, ⟨2, 0, 2⟩, ⟨2, 1, 8⟩, ⟨2, 2, 14⟩]]⟩⟩,
    ⟨7471543513010189, ⟨30, 15, 2, [[0, 1, 2], [3, 1, 2], [0, 3, 4], [4, 3, 4], [4, 4, 4]], [[0,
    1, 0], [0, 1, 0]], [[⟨0, 0, 0⟩, ⟨2, 0, 4⟩], [⟨0, 1, 10⟩, ⟨1, 1, 12⟩], [⟨0, 2, 20⟩, ⟨1, 2,
    22⟩], [⟨1, 0, 2⟩, ⟨2, 1, 14⟩, ⟨3, 1, 16⟩], [⟨2, 2, 24⟩, ⟨3, 0, 6⟩, ⟨3, 2, 26⟩, ⟨4, 0, 8⟩, ⟨4,
    1, 18⟩, ⟨4, 2, 28⟩]], [[⟨0, 0, 0⟩, ⟨0, 2, 20⟩, ⟨1, 0, 1⟩, ⟨1, 2, 21⟩], [⟨0, 1, 10⟩, ⟨1, 1,
    11⟩]]⟩⟩],
    by decide +kernel, by decide +kernel⟩

theorem child23_1l1_2r1 : AllDone (child (1, false, 1) (2, true, 1)) := by
  refine allDone_of [list23_1l1_2r1_0] ?_ (by decide +kernel)
  simp only [List.forall_mem_cons, List.not_mem_nil, false_imp_iff, implies_true, and_true]
  exact done23_1l1_2r1_0

theorem part23_1l1 : AllDone (fullPart 2 3 38 (1, false, 1)) := by
  refine allDone_full (by decide +kernel) ?_
  simp only [kids, List.forall_mem_cons, List.not_mem_nil, false_imp_iff, implies_true, and_true]
  exact ⟨child23_1l1_0l0,
    child23_1l1_0l1,
    child23_1l1_0r0,
    child23_1l1_0r1,
    child23_1l1_1l0,
    child23_1l1_1l1,
    child23_1l1_1r0,
    child23_1l1_1r1,
    child23_1l1_2l0,
    child23_1l1_2l1,
    child23_1l1_2r0,
    child23_1l1_2r1⟩

theorem part23_1r0 : AllDone (fullPart 2 3 38 (1, true, 0)) :=
  allDone_of [] (by simp) (by decide +kernel)

theorem part23_1r1 : AllDone (fullPart 2 3 38 (1, true, 1)) :=
  allDone_of [] (by simp) (by decide +kernel)

theorem child23_2l0_0l0 : AllDone (child (2, false, 0) (0, false, 0)) :=
  allDone_of [] (by simp) (by decide +kernel)

end BB.Records
