import Verif.Props.RecordsTwoThreeI

/-!
# C79 for two states and three colours: programs with some instructions at B0
-/

namespace BB.Records

open Watch

def list23_2l1_2r0_0 : List Listed := [
  ⟨13768092582413, [((0, 0), (1, true, 1)), ((0, 2), (0, false, 1)), ((1, 0), (2, false, 1)),
  ((1, 1), (2, true, 0)), ((1, 2), (1, false, 0))]⟩,
  ⟨13218336770573, [((0, 0), (1, true, 1)), ((0, 2), (0, true, 1)), ((1, 0), (2, false, 1)), ((1,
  1), (2, true, 0)), ((1, 2), (0, false, 0))]⟩,
  ⟨13768092584461, [((0, 0), (1, true, 1)), ((0, 2), (0, true, 1)), ((1, 0), (2, false, 1)), ((1,
  1), (2, true, 0)), ((1, 2), (1, false, 0))]⟩,
  ⟨7190000892396045, [((0, 0), (1, true, 1)), ((0, 1), (0, false, 1)), ((0, 2), (1, false, 0)),
  ((1, 0), (2, false, 1)), ((1, 1), (2, true, 0)), ((1, 2), (1, true, 0))]⟩,
  ⟨6802972799420941, [((0, 0), (1, true, 1)), ((0, 1), (0, true, 1)), ((0, 2), (1, false, 0)),
  ((1, 0), (2, false, 1)), ((1, 1), (2, true, 0)), ((1, 2), (0, false, 1))]⟩,
  ⟨6943710287776269, [((0, 0), (1, true, 1)), ((0, 1), (0, true, 1)), ((0, 2), (1, false, 0)),
  ((1, 0), (2, false, 1)), ((1, 1), (2, true, 0)), ((1, 2), (0, true, 1))]⟩,
  ⟨7365922752842253, [((0, 0), (1, true, 1)), ((0, 1), (0, true, 1)), ((0, 2), (1, false, 0)),
  ((1, 0), (2, false, 1)), ((1, 1), (2, true, 0)), ((1, 2), (2, false, 1))]⟩,
  ⟨6943710287778317, [((0, 0), (1, true, 1)), ((0, 1), (1, false, 1)), ((0, 2), (1, false, 0)),
  ((1, 0), (2, false, 1)), ((1, 1), (2, true, 0)), ((1, 2), (0, true, 1))]⟩,
  ⟨7225185264488973, [((0, 0), (1, true, 1)), ((0, 1), (1, false, 1)), ((0, 2), (1, false, 0)),
  ((1, 0), (2, false, 1)), ((1, 1), (2, true, 0)), ((1, 2), (1, true, 1))]⟩,
  ⟨12388986280461, [((0, 0), (1, true, 1)), ((0, 1), (1, true, 1)), ((0, 2), (1, false, 0)), ((1,
  0), (2, false, 1)), ((1, 1), (2, true, 0))]⟩,
  ⟨6943710287781901, [((0, 0), (1, true, 1)), ((0, 1), (2, false, 0)), ((0, 2), (1, false, 0)),
  ((1, 0), (2, false, 1)), ((1, 1), (2, true, 0)), ((1, 2), (0, true, 1))]⟩,
  ⟨6802972799427085, [((0, 0), (1, true, 1)), ((0, 1), (2, false, 1)), ((0, 2), (1, false, 0)),
  ((1, 0), (2, false, 1)), ((1, 1), (2, true, 0)), ((1, 2), (0, false, 1))]⟩,
  ⟨6943710287782413, [((0, 0), (1, true, 1)), ((0, 1), (2, false, 1)), ((0, 2), (1, false, 0)),
  ((1, 0), (2, false, 1)), ((1, 1), (2, true, 0)), ((1, 2), (0, true, 1))]⟩,
  ⟨7225185264493069, [((0, 0), (1, true, 1)), ((0, 1), (2, false, 1)), ((0, 2), (1, false, 0)),
  ((1, 0), (2, false, 1)), ((1, 1), (2, true, 0)), ((1, 2), (1, true, 1))]⟩,
  ⟨12388986284045, [((0, 0), (1, true, 1)), ((0, 1), (2, true, 0)), ((0, 2), (1, false, 0)), ((1,
  0), (2, false, 1)), ((1, 1), (2, true, 0))]⟩,
  ⟨6943710287784461, [((0, 0), (1, true, 1)), ((0, 1), (2, true, 1)), ((0, 2), (1, false, 0)),
  ((1, 0), (2, false, 1)), ((1, 1), (2, true, 0)), ((1, 2), (0, true, 1))]⟩,
  ⟨7084447776139789, [((0, 0), (1, true, 1)), ((0, 1), (2, true, 1)), ((0, 2), (1, false, 0)),
  ((1, 0), (2, false, 1)), ((1, 1), (2, true, 0)), ((1, 2), (1, false, 1))]⟩,
  ⟨7365922752850445, [((0, 0), (1, true, 1)), ((0, 1), (2, true, 1)), ((0, 2), (1, false, 0)),
  ((1, 0), (2, false, 1)), ((1, 1), (2, true, 0)), ((1, 2), (2, false, 1))]⟩,
  ⟨7049263404304909, [((0, 0), (1, true, 1)), ((0, 1), (0, true, 1)), ((0, 2), (1, false, 1)),
  ((1, 0), (2, false, 1)), ((1, 1), (2, true, 0)), ((1, 2), (1, false, 0))]⟩,
  ⟨7049263404309005, [((0, 0), (1, true, 1)), ((0, 1), (1, true, 1)), ((0, 2), (1, false, 1)),
  ((1, 0), (2, false, 1)), ((1, 1), (2, true, 0)), ((1, 2), (1, false, 0))]⟩]

theorem done23_2l1_2r0_0 : ∃ h, Done list23_2l1_2r0_0 h :=
  ⟨[
    ⟨13768092582413, ⟨60, 12, 5, [[0, 1, 2], [0, 2, 3], [0, 2, 3], [0, 1, 2]], [[0, 1, 2], [3, 4,
    2], [4, 4, 4], [0, 1, 2], [4, 4, 4]], [[⟨0, 0, 0⟩, ⟨1, 0, 5⟩, ⟨2, 0, 10⟩, ⟨3, 0, 15⟩], [⟨0,
    1, 20⟩, ⟨3, 1, 35⟩], [⟨0, 2, 40⟩, ⟨1, 1, 25⟩, ⟨2, 1, 30⟩, ⟨3, 2, 55⟩], [⟨1, 2, 45⟩, ⟨2, 2,
    50⟩]], [[⟨0, 0, 0⟩, ⟨3, 0, 3⟩], [⟨0, 1, 20⟩, ⟨3, 1, 23⟩], [⟨0, 2, 40⟩, ⟨1, 2, 41⟩, ⟨3, 2,
    43⟩], [⟨1, 0, 1⟩], [⟨1, 1, 21⟩, ⟨2, 0, 2⟩, ⟨2, 1, 22⟩, ⟨2, 2, 42⟩, ⟨4, 0, 4⟩, ⟨4, 1, 24⟩, ⟨4,
    2, 44⟩]]⟩⟩,
    ⟨13218336770573, ⟨144, 24, 6, [[0, 1, 2], [3, 3, 3], [4, 5, 6], [3, 3, 3], [3, 3, 3], [3, 3,
    3], [7, 1, 2], [3, 3, 3]], [[0, 1, 2], [1, 1, 1], [3, 1, 4], [1, 1, 1], [5, 1, 2], [1, 1,
    1]], [[⟨0, 0, 0⟩], [⟨0, 1, 48⟩, ⟨6, 1, 84⟩], [⟨0, 2, 96⟩, ⟨6, 2, 132⟩], [⟨1, 0, 6⟩, ⟨1, 1,
    54⟩, ⟨1, 2, 102⟩, ⟨3, 0, 18⟩, ⟨3, 1, 66⟩, ⟨3, 2, 114⟩, ⟨4, 0, 24⟩, ⟨4, 1, 72⟩, ⟨4, 2, 120⟩,
    ⟨5, 0, 30⟩, ⟨5, 1, 78⟩, ⟨5, 2, 126⟩, ⟨7, 0, 42⟩, ⟨7, 1, 90⟩, ⟨7, 2, 138⟩], [⟨2, 0, 12⟩], [⟨2,
    1, 60⟩], [⟨2, 2, 108⟩], [⟨6, 0, 36⟩]], [[⟨0, 0, 0⟩], [⟨0, 1, 48⟩, ⟨1, 0, 1⟩, ⟨1, 1, 49⟩, ⟨1,
    2, 97⟩, ⟨2, 1, 50⟩, ⟨3, 0, 3⟩, ⟨3, 1, 51⟩, ⟨3, 2, 99⟩, ⟨4, 1, 52⟩, ⟨5, 0, 5⟩, ⟨5, 1, 53⟩, ⟨5,
    2, 101⟩], [⟨0, 2, 96⟩, ⟨4, 2, 100⟩], [⟨2, 0, 2⟩], [⟨2, 2, 98⟩], [⟨4, 0, 4⟩]]⟩⟩,
    ⟨13768092584461, ⟨108, 12, 9, [[0, 0, 1], [1, 2, 3], [0, 0, 1], [2, 0, 0]], [[0, 1, 2], [3,
    4, 5], [4, 6, 7], [4, 8, 6], [4, 4, 4], [4, 6, 4], [4, 4, 7], [4, 1, 6], [3, 4, 3]], [[⟨0, 0,
    0⟩, ⟨0, 1, 36⟩, ⟨2, 0, 18⟩, ⟨2, 1, 54⟩, ⟨3, 1, 63⟩, ⟨3, 2, 99⟩], [⟨0, 2, 72⟩, ⟨1, 0, 9⟩, ⟨2,
    2, 90⟩], [⟨1, 1, 45⟩, ⟨3, 0, 27⟩], [⟨1, 2, 81⟩]], [[⟨0, 0, 0⟩], [⟨0, 1, 36⟩, ⟨7, 1, 43⟩],
    [⟨0, 2, 72⟩], [⟨1, 0, 1⟩, ⟨8, 0, 8⟩, ⟨8, 2, 80⟩], [⟨1, 1, 37⟩, ⟨2, 0, 2⟩, ⟨3, 0, 3⟩, ⟨4, 0,
    4⟩, ⟨4, 1, 40⟩, ⟨4, 2, 76⟩, ⟨5, 0, 5⟩, ⟨5, 2, 77⟩, ⟨6, 0, 6⟩, ⟨6, 1, 42⟩, ⟨7, 0, 7⟩, ⟨8, 1,
    44⟩], [⟨1, 2, 73⟩], [⟨2, 1, 38⟩, ⟨3, 2, 75⟩, ⟨5, 1, 41⟩, ⟨7, 2, 79⟩], [⟨2, 2, 74⟩, ⟨6, 2,
    78⟩], [⟨3, 1, 39⟩]]⟩⟩,
    ⟨7190000892396045, ⟨81, 27, 3, [[0, 1, 1], [2, 3, 1], [0, 1, 3], [2, 4, 5], [6, 6, 6], [7, 6,
    6], [6, 6, 6], [8, 1, 3], [4, 3, 1]], [[0, 1, 0], [2, 1, 0], [0, 0, 1]], [[⟨0, 0, 0⟩, ⟨2, 0,
    6⟩], [⟨0, 1, 27⟩, ⟨0, 2, 54⟩, ⟨1, 2, 57⟩, ⟨2, 1, 33⟩, ⟨7, 1, 48⟩, ⟨8, 2, 78⟩], [⟨1, 0, 3⟩,
    ⟨3, 0, 9⟩], [⟨1, 1, 30⟩, ⟨2, 2, 60⟩, ⟨7, 2, 75⟩, ⟨8, 1, 51⟩], [⟨3, 1, 36⟩, ⟨8, 0, 24⟩], [⟨3,
    2, 63⟩], [⟨4, 0, 12⟩, ⟨4, 1, 39⟩, ⟨4, 2, 66⟩, ⟨5, 1, 42⟩, ⟨5, 2, 69⟩, ⟨6, 0, 18⟩, ⟨6, 1, 45⟩,
    ⟨6, 2, 72⟩], [⟨5, 0, 15⟩], [⟨7, 0, 21⟩]], [[⟨0, 0, 0⟩, ⟨0, 2, 54⟩, ⟨1, 2, 55⟩, ⟨2, 0, 2⟩, ⟨2,
    1, 29⟩], [⟨0, 1, 27⟩, ⟨1, 1, 28⟩, ⟨2, 2, 56⟩], [⟨1, 0, 1⟩]]⟩⟩,
    ⟨6802972799420941, ⟨63, 9, 7, [[0, 0, 1], [0, 2, 0], [0, 0, 1]], [[0, 1, 2], [3, 3, 0], [4,
    4, 4], [5, 1, 2], [4, 4, 4], [6, 4, 4], [5, 1, 2]], [[⟨0, 0, 0⟩, ⟨0, 1, 21⟩, ⟨1, 0, 7⟩, ⟨1,
    2, 49⟩, ⟨2, 0, 14⟩, ⟨2, 1, 35⟩], [⟨0, 2, 42⟩, ⟨2, 2, 56⟩], [⟨1, 1, 28⟩]], [[⟨0, 0, 0⟩, ⟨1, 2,
    43⟩], [⟨0, 1, 21⟩, ⟨3, 1, 24⟩, ⟨6, 1, 27⟩], [⟨0, 2, 42⟩, ⟨3, 2, 45⟩, ⟨6, 2, 48⟩], [⟨1, 0, 1⟩,
    ⟨1, 1, 22⟩], [⟨2, 0, 2⟩, ⟨2, 1, 23⟩, ⟨2, 2, 44⟩, ⟨4, 0, 4⟩, ⟨4, 1, 25⟩, ⟨4, 2, 46⟩, ⟨5, 1,
    26⟩, ⟨5, 2, 47⟩], [⟨3, 0, 3⟩, ⟨6, 0, 6⟩], [⟨5, 0, 5⟩]]⟩⟩,
    ⟨6943710287776269, ⟨84, 12, 7, [[0, 1, 2], [1, 0, 1], [3, 3, 0], [3, 3, 3]], [[0, 1, 2], [3,
    4, 3], [4, 5, 2], [3, 3, 3], [4, 1, 2], [1, 4, 6], [1, 3, 6]], [[⟨0, 0, 0⟩, ⟨1, 1, 35⟩, ⟨2,
    2, 70⟩], [⟨0, 1, 28⟩, ⟨1, 0, 7⟩, ⟨1, 2, 63⟩], [⟨0, 2, 56⟩], [⟨2, 0, 14⟩, ⟨2, 1, 42⟩, ⟨3, 0,
    21⟩, ⟨3, 1, 49⟩, ⟨3, 2, 77⟩]], [[⟨0, 0, 0⟩], [⟨0, 1, 28⟩, ⟨4, 1, 32⟩, ⟨5, 0, 5⟩, ⟨6, 0, 6⟩],
    [⟨0, 2, 56⟩, ⟨2, 2, 58⟩, ⟨4, 2, 60⟩], [⟨1, 0, 1⟩, ⟨1, 2, 57⟩, ⟨3, 0, 3⟩, ⟨3, 1, 31⟩, ⟨3, 2,
    59⟩, ⟨6, 1, 34⟩], [⟨1, 1, 29⟩, ⟨2, 0, 2⟩, ⟨4, 0, 4⟩, ⟨5, 1, 33⟩], [⟨2, 1, 30⟩], [⟨5, 2, 61⟩,
    ⟨6, 2, 62⟩]]⟩⟩,
    ⟨7365922752842253, ⟨72, 12, 6, [[0, 1, 2], [1, 0, 1], [3, 3, 0], [3, 3, 3]], [[0, 1, 2], [3,
    4, 3], [4, 5, 2], [3, 3, 3], [4, 1, 2], [1, 4, 3]], [[⟨0, 0, 0⟩, ⟨1, 1, 30⟩, ⟨2, 2, 60⟩],
    [⟨0, 1, 24⟩, ⟨1, 0, 6⟩, ⟨1, 2, 54⟩], [⟨0, 2, 48⟩], [⟨2, 0, 12⟩, ⟨2, 1, 36⟩, ⟨3, 0, 18⟩, ⟨3,
    1, 42⟩, ⟨3, 2, 66⟩]], [[⟨0, 0, 0⟩], [⟨0, 1, 24⟩, ⟨4, 1, 28⟩, ⟨5, 0, 5⟩], [⟨0, 2, 48⟩, ⟨2, 2,
    50⟩, ⟨4, 2, 52⟩], [⟨1, 0, 1⟩, ⟨1, 2, 49⟩, ⟨3, 0, 3⟩, ⟨3, 1, 27⟩, ⟨3, 2, 51⟩, ⟨5, 2, 53⟩],
    [⟨1, 1, 25⟩, ⟨2, 0, 2⟩, ⟨4, 0, 4⟩, ⟨5, 1, 29⟩], [⟨2, 1, 26⟩]]⟩⟩,
    ⟨6943710287778317, ⟨36, 12, 3, [[0, 1, 2], [3, 2, 1], [0, 3, 2], [3, 3, 3]], [[0, 1, 0], [0,
    2, 0], [0, 2, 0]], [[⟨0, 0, 0⟩, ⟨2, 0, 6⟩], [⟨0, 1, 12⟩, ⟨1, 2, 27⟩], [⟨0, 2, 24⟩, ⟨1, 1,
    15⟩, ⟨2, 2, 30⟩], [⟨1, 0, 3⟩, ⟨2, 1, 18⟩, ⟨3, 0, 9⟩, ⟨3, 1, 21⟩, ⟨3, 2, 33⟩]], [[⟨0, 0, 0⟩,
    ⟨0, 2, 24⟩, ⟨1, 0, 1⟩, ⟨1, 2, 25⟩, ⟨2, 0, 2⟩, ⟨2, 2, 26⟩], [⟨0, 1, 12⟩], [⟨1, 1, 13⟩, ⟨2, 1,
    14⟩]]⟩⟩,
    ⟨7225185264488973, ⟨45, 15, 3, [[0, 1, 2], [3, 2, 4], [0, 3, 3], [3, 3, 3], [0, 2, 4]], [[0,
    1, 0], [0, 2, 0], [0, 2, 0]], [[⟨0, 0, 0⟩, ⟨2, 0, 6⟩, ⟨4, 0, 12⟩], [⟨0, 1, 15⟩], [⟨0, 2, 30⟩,
    ⟨1, 1, 18⟩, ⟨4, 1, 27⟩], [⟨1, 0, 3⟩, ⟨2, 1, 21⟩, ⟨2, 2, 36⟩, ⟨3, 0, 9⟩, ⟨3, 1, 24⟩, ⟨3, 2,
    39⟩], [⟨1, 2, 33⟩, ⟨4, 2, 42⟩]], [[⟨0, 0, 0⟩, ⟨0, 2, 30⟩, ⟨1, 0, 1⟩, ⟨1, 2, 31⟩, ⟨2, 0, 2⟩,
    ⟨2, 2, 32⟩], [⟨0, 1, 15⟩], [⟨1, 1, 16⟩, ⟨2, 1, 17⟩]]⟩⟩,
    ⟨12388986280461, ⟨72, 9, 8, [[0, 0, 1], [0, 2, 0], [0, 0, 1]], [[0, 1, 2], [0, 1, 2], [3, 4,
    5], [6, 6, 6], [2, 2, 6], [7, 7, 7], [3, 4, 5], [7, 7, 7]], [[⟨0, 0, 0⟩, ⟨0, 1, 24⟩, ⟨1, 0,
    8⟩, ⟨1, 2, 56⟩, ⟨2, 0, 16⟩, ⟨2, 1, 40⟩], [⟨0, 2, 48⟩, ⟨2, 2, 64⟩], [⟨1, 1, 32⟩]], [[⟨0, 0,
    0⟩, ⟨1, 0, 1⟩], [⟨0, 1, 24⟩, ⟨1, 1, 25⟩], [⟨0, 2, 48⟩, ⟨1, 2, 49⟩, ⟨4, 0, 4⟩, ⟨4, 1, 28⟩],
    [⟨2, 0, 2⟩, ⟨6, 0, 6⟩], [⟨2, 1, 26⟩, ⟨6, 1, 30⟩], [⟨2, 2, 50⟩, ⟨6, 2, 54⟩], [⟨3, 0, 3⟩, ⟨3,
    1, 27⟩, ⟨3, 2, 51⟩, ⟨4, 2, 52⟩], [⟨5, 0, 5⟩, ⟨5, 1, 29⟩, ⟨5, 2, 53⟩, ⟨7, 0, 7⟩, ⟨7, 1, 31⟩,
    ⟨7, 2, 55⟩]]⟩⟩,
    ⟨6943710287781901, ⟨18, 6, 3, [[0, 0, 1], [0, 0, 0]], [[0, 1, 1], [0, 2, 1], [1, 2, 2]],
    [[⟨0, 0, 0⟩, ⟨0, 1, 6⟩, ⟨1, 0, 3⟩, ⟨1, 1, 9⟩, ⟨1, 2, 15⟩], [⟨0, 2, 12⟩]], [[⟨0, 0, 0⟩, ⟨1, 0,
    1⟩], [⟨0, 1, 6⟩, ⟨0, 2, 12⟩, ⟨1, 2, 13⟩, ⟨2, 0, 2⟩], [⟨1, 1, 7⟩, ⟨2, 1, 8⟩, ⟨2, 2, 14⟩]]⟩⟩,
    ⟨6802972799427085, ⟨147, 21, 7, [[0, 1, 2], [3, 3, 4], [3, 5, 6], [3, 3, 3], [3, 3, 3], [3,
    3, 3], [3, 1, 2]], [[0, 1, 2], [3, 4, 3], [5, 3, 3], [3, 3, 3], [6, 1, 2], [3, 3, 3], [3, 3,
    3]], [[⟨0, 0, 0⟩], [⟨0, 1, 49⟩, ⟨6, 1, 91⟩], [⟨0, 2, 98⟩, ⟨6, 2, 140⟩], [⟨1, 0, 7⟩, ⟨1, 1,
    56⟩, ⟨2, 0, 14⟩, ⟨3, 0, 21⟩, ⟨3, 1, 70⟩, ⟨3, 2, 119⟩, ⟨4, 0, 28⟩, ⟨4, 1, 77⟩, ⟨4, 2, 126⟩,
    ⟨5, 0, 35⟩, ⟨5, 1, 84⟩, ⟨5, 2, 133⟩, ⟨6, 0, 42⟩], [⟨1, 2, 105⟩], [⟨2, 1, 63⟩], [⟨2, 2,
    112⟩]], [[⟨0, 0, 0⟩], [⟨0, 1, 49⟩, ⟨4, 1, 53⟩], [⟨0, 2, 98⟩, ⟨4, 2, 102⟩], [⟨1, 0, 1⟩, ⟨1, 2,
    99⟩, ⟨2, 1, 51⟩, ⟨2, 2, 100⟩, ⟨3, 0, 3⟩, ⟨3, 1, 52⟩, ⟨3, 2, 101⟩, ⟨5, 0, 5⟩, ⟨5, 1, 54⟩, ⟨5,
    2, 103⟩, ⟨6, 0, 6⟩, ⟨6, 1, 55⟩, ⟨6, 2, 104⟩], [⟨1, 1, 50⟩], [⟨2, 0, 2⟩], [⟨4, 0, 4⟩]]⟩⟩,
    ⟨6943710287782413, ⟨96, 12, 8, [[0, 1, 2], [1, 0, 1], [3, 3, 0], [3, 3, 3]], [[0, 1, 2], [3,
    4, 3], [0, 5, 2], [3, 3, 3], [0, 1, 2], [1, 2, 6], [1, 7, 6], [3, 6, 3]], [[⟨0, 0, 0⟩, ⟨1, 1,
    40⟩, ⟨2, 2, 80⟩], [⟨0, 1, 32⟩, ⟨1, 0, 8⟩, ⟨1, 2, 72⟩], [⟨0, 2, 64⟩], [⟨2, 0, 16⟩, ⟨2, 1, 48⟩,
    ⟨3, 0, 24⟩, ⟨3, 1, 56⟩, ⟨3, 2, 88⟩]], [[⟨0, 0, 0⟩, ⟨2, 0, 2⟩, ⟨4, 0, 4⟩], [⟨0, 1, 32⟩, ⟨4, 1,
    36⟩, ⟨5, 0, 5⟩, ⟨6, 0, 6⟩], [⟨0, 2, 64⟩, ⟨2, 2, 66⟩, ⟨4, 2, 68⟩, ⟨5, 1, 37⟩], [⟨1, 0, 1⟩, ⟨1,
    2, 65⟩, ⟨3, 0, 3⟩, ⟨3, 1, 35⟩, ⟨3, 2, 67⟩, ⟨7, 0, 7⟩, ⟨7, 2, 71⟩], [⟨1, 1, 33⟩], [⟨2, 1,
    34⟩], [⟨5, 2, 69⟩, ⟨6, 2, 70⟩, ⟨7, 1, 39⟩], [⟨6, 1, 38⟩]]⟩⟩,
    ⟨7225185264493069, ⟨60, 12, 5, [[0, 1, 2], [3, 0, 1], [1, 3, 0], [3, 3, 3]], [[0, 1, 2], [3,
    4, 3], [1, 2, 4], [3, 3, 3], [0, 1, 2]], [[⟨0, 0, 0⟩, ⟨1, 1, 25⟩, ⟨2, 2, 50⟩], [⟨0, 1, 20⟩,
    ⟨1, 2, 45⟩, ⟨2, 0, 10⟩], [⟨0, 2, 40⟩], [⟨1, 0, 5⟩, ⟨2, 1, 30⟩, ⟨3, 0, 15⟩, ⟨3, 1, 35⟩, ⟨3, 2,
    55⟩]], [[⟨0, 0, 0⟩, ⟨4, 0, 4⟩], [⟨0, 1, 20⟩, ⟨2, 0, 2⟩, ⟨4, 1, 24⟩], [⟨0, 2, 40⟩, ⟨2, 1, 22⟩,
    ⟨4, 2, 44⟩], [⟨1, 0, 1⟩, ⟨1, 2, 41⟩, ⟨3, 0, 3⟩, ⟨3, 1, 23⟩, ⟨3, 2, 43⟩], [⟨1, 1, 21⟩, ⟨2, 2,
    42⟩]]⟩⟩,
    ⟨12388986284045, ⟨81, 9, 9, [[0, 0, 1], [0, 2, 1], [0, 0, 0]], [[0, 1, 2], [3, 4, 5], [6, 1,
    2], [2, 6, 7], [8, 4, 5], [6, 4, 5], [2, 7, 7], [7, 7, 7], [0, 4, 5]], [[⟨0, 0, 0⟩, ⟨0, 1,
    27⟩, ⟨1, 0, 9⟩, ⟨2, 0, 18⟩, ⟨2, 1, 45⟩, ⟨2, 2, 72⟩], [⟨0, 2, 54⟩, ⟨1, 2, 63⟩], [⟨1, 1, 36⟩]],
    [[⟨0, 0, 0⟩, ⟨8, 0, 8⟩], [⟨0, 1, 27⟩, ⟨2, 1, 29⟩], [⟨0, 2, 54⟩, ⟨2, 2, 56⟩, ⟨3, 0, 3⟩, ⟨6, 0,
    6⟩], [⟨1, 0, 1⟩], [⟨1, 1, 28⟩, ⟨4, 1, 31⟩, ⟨5, 1, 32⟩, ⟨8, 1, 35⟩], [⟨1, 2, 55⟩, ⟨4, 2, 58⟩,
    ⟨5, 2, 59⟩, ⟨8, 2, 62⟩], [⟨2, 0, 2⟩, ⟨3, 1, 30⟩, ⟨5, 0, 5⟩], [⟨3, 2, 57⟩, ⟨6, 1, 33⟩, ⟨6, 2,
    60⟩, ⟨7, 0, 7⟩, ⟨7, 1, 34⟩, ⟨7, 2, 61⟩], [⟨4, 0, 4⟩]]⟩⟩,
    ⟨6943710287784461, ⟨96, 12, 8, [[0, 1, 2], [1, 0, 1], [3, 3, 0], [3, 3, 3]], [[0, 1, 2], [3,
    4, 3], [4, 5, 2], [3, 3, 3], [4, 1, 2], [1, 2, 6], [1, 7, 6], [3, 6, 3]], [[⟨0, 0, 0⟩, ⟨1, 1,
    40⟩, ⟨2, 2, 80⟩], [⟨0, 1, 32⟩, ⟨1, 0, 8⟩, ⟨1, 2, 72⟩], [⟨0, 2, 64⟩], [⟨2, 0, 16⟩, ⟨2, 1, 48⟩,
    ⟨3, 0, 24⟩, ⟨3, 1, 56⟩, ⟨3, 2, 88⟩]], [[⟨0, 0, 0⟩], [⟨0, 1, 32⟩, ⟨4, 1, 36⟩, ⟨5, 0, 5⟩, ⟨6,
    0, 6⟩], [⟨0, 2, 64⟩, ⟨2, 2, 66⟩, ⟨4, 2, 68⟩, ⟨5, 1, 37⟩], [⟨1, 0, 1⟩, ⟨1, 2, 65⟩, ⟨3, 0, 3⟩,
    ⟨3, 1, 35⟩, ⟨3, 2, 67⟩, ⟨7, 0, 7⟩, ⟨7, 2, 71⟩], [⟨1, 1, 33⟩, ⟨2, 0, 2⟩, ⟨4, 0, 4⟩], [⟨2, 1,
    34⟩], [⟨5, 2, 69⟩, ⟨6, 2, 70⟩, ⟨7, 1, 39⟩], [⟨6, 1, 38⟩]]⟩⟩,
    ⟨7084447776139789, ⟨90, 15, 6, [[0, 1, 2], [3, 3, 4], [0, 1, 2], [3, 3, 3], [0, 1, 1]], [[0,
    1, 2], [3, 4, 3], [3, 5, 3], [3, 3, 3], [4, 1, 2], [3, 2, 3]], [[⟨0, 0, 0⟩, ⟨2, 0, 12⟩, ⟨4,
    0, 24⟩], [⟨0, 1, 30⟩, ⟨2, 1, 42⟩, ⟨4, 1, 54⟩, ⟨4, 2, 84⟩], [⟨0, 2, 60⟩, ⟨2, 2, 72⟩], [⟨1, 0,
    6⟩, ⟨1, 1, 36⟩, ⟨3, 0, 18⟩, ⟨3, 1, 48⟩, ⟨3, 2, 78⟩], [⟨1, 2, 66⟩]], [[⟨0, 0, 0⟩], [⟨0, 1,
    30⟩, ⟨4, 1, 34⟩], [⟨0, 2, 60⟩, ⟨4, 2, 64⟩, ⟨5, 1, 35⟩], [⟨1, 0, 1⟩, ⟨1, 2, 61⟩, ⟨2, 0, 2⟩,
    ⟨2, 2, 62⟩, ⟨3, 0, 3⟩, ⟨3, 1, 33⟩, ⟨3, 2, 63⟩, ⟨5, 0, 5⟩, ⟨5, 2, 65⟩], [⟨1, 1, 31⟩, ⟨4, 0,
    4⟩], [⟨2, 1, 32⟩]]⟩⟩,
    ⟨7365922752850445, ⟨72, 12, 6, [[0, 1, 2], [1, 0, 1], [3, 3, 0], [3, 3, 3]], [[0, 1, 2], [3,
    4, 3], [4, 5, 2], [3, 3, 3], [4, 1, 2], [1, 2, 3]], [[⟨0, 0, 0⟩, ⟨1, 1, 30⟩, ⟨2, 2, 60⟩],
    [⟨0, 1, 24⟩, ⟨1, 0, 6⟩, ⟨1, 2, 54⟩], [⟨0, 2, 48⟩], [⟨2, 0, 12⟩, ⟨2, 1, 36⟩, ⟨3, 0, 18⟩, ⟨3,
    1, 42⟩, ⟨3, 2, 66⟩]], [[⟨0, 0, 0⟩], [⟨0, 1, 24⟩, ⟨4, 1, 28⟩, ⟨5, 0, 5⟩], [⟨0, 2, 48⟩, ⟨2, 2,
    50⟩, ⟨4, 2, 52⟩, ⟨5, 1, 29⟩], [⟨1, 0, 1⟩, ⟨1, 2, 49⟩, ⟨3, 0, 3⟩, ⟨3, 1, 27⟩, ⟨3, 2, 51⟩, ⟨5,
    2, 53⟩], [⟨1, 1, 25⟩, ⟨2, 0, 2⟩, ⟨4, 0, 4⟩], [⟨2, 1, 26⟩]]⟩⟩,
    ⟨7049263404304909, ⟨96, 24, 4, [[0, 1, 2], [3, 4, 5], [6, 3, 0], [0, 7, 7], [6, 6, 6], [3, 6,
    6], [6, 6, 6], [6, 4, 5]], [[0, 1, 0], [0, 2, 0], [0, 3, 0], [0, 3, 2]], [[⟨0, 0, 0⟩, ⟨2, 2,
    72⟩, ⟨3, 0, 12⟩], [⟨0, 1, 32⟩], [⟨0, 2, 64⟩], [⟨1, 0, 4⟩, ⟨2, 1, 40⟩, ⟨5, 0, 20⟩], [⟨1, 1,
    36⟩, ⟨7, 1, 60⟩], [⟨1, 2, 68⟩, ⟨7, 2, 92⟩], [⟨2, 0, 8⟩, ⟨4, 0, 16⟩, ⟨4, 1, 48⟩, ⟨4, 2, 80⟩,
    ⟨5, 1, 52⟩, ⟨5, 2, 84⟩, ⟨6, 0, 24⟩, ⟨6, 1, 56⟩, ⟨6, 2, 88⟩, ⟨7, 0, 28⟩], [⟨3, 1, 44⟩, ⟨3, 2,
    76⟩]], [[⟨0, 0, 0⟩, ⟨0, 2, 64⟩, ⟨1, 0, 1⟩, ⟨1, 2, 65⟩, ⟨2, 0, 2⟩, ⟨2, 2, 66⟩, ⟨3, 0, 3⟩],
    [⟨0, 1, 32⟩], [⟨1, 1, 33⟩, ⟨3, 2, 67⟩], [⟨2, 1, 34⟩, ⟨3, 1, 35⟩]]⟩⟩,
    ⟨7049263404309005, ⟨27, 9, 3, [[0, 1, 0], [0, 0, 2], [0, 2, 2]], [[0, 1, 1], [0, 2, 1], [0,
    2, 1]], [[⟨0, 0, 0⟩, ⟨0, 2, 18⟩, ⟨1, 0, 3⟩, ⟨1, 1, 12⟩, ⟨2, 0, 6⟩], [⟨0, 1, 9⟩], [⟨1, 2, 21⟩,
    ⟨2, 1, 15⟩, ⟨2, 2, 24⟩]], [[⟨0, 0, 0⟩, ⟨1, 0, 1⟩, ⟨2, 0, 2⟩], [⟨0, 1, 9⟩, ⟨0, 2, 18⟩, ⟨1, 2,
    19⟩, ⟨2, 2, 20⟩], [⟨1, 1, 10⟩, ⟨2, 1, 11⟩]]⟩⟩],
    by decide +kernel, by decide +kernel⟩

def list23_2l1_2r0_1 : List Listed := [
  ⟨7049263404313101, [((0, 0), (1, true, 1)), ((0, 1), (2, true, 1)), ((0, 2), (1, false, 1)),
  ((1, 0), (2, false, 1)), ((1, 1), (2, true, 0)), ((1, 2), (1, false, 0))]⟩,
  ⟨13287056252941, [((0, 0), (1, true, 1)), ((0, 2), (2, false, 0)), ((1, 0), (2, false, 1)),
  ((1, 1), (2, true, 0)), ((1, 2), (0, false, 1))]⟩,
  ⟨13561934159885, [((0, 0), (1, true, 1)), ((0, 2), (2, false, 0)), ((1, 0), (2, false, 1)),
  ((1, 1), (2, true, 0)), ((1, 2), (0, true, 1))]⟩,
  ⟨7190000894493197, [((0, 0), (1, true, 1)), ((0, 1), (0, false, 1)), ((0, 2), (2, false, 0)),
  ((1, 0), (2, false, 1)), ((1, 1), (2, true, 0)), ((1, 2), (1, true, 0))]⟩,
  ⟨7225185266582029, [((0, 0), (1, true, 1)), ((0, 1), (0, false, 1)), ((0, 2), (2, false, 0)),
  ((1, 0), (2, false, 1)), ((1, 1), (2, true, 0)), ((1, 2), (1, true, 1))]⟩,
  ⟨7225185266590221, [((0, 0), (1, true, 1)), ((0, 1), (2, false, 1)), ((0, 2), (2, false, 0)),
  ((1, 0), (2, false, 1)), ((1, 1), (2, true, 0)), ((1, 2), (1, true, 1))]⟩]

theorem done23_2l1_2r0_1 : ∃ h, Done list23_2l1_2r0_1 h :=
  ⟨[
    ⟨7049263404313101, ⟨90, 15, 6, [[0, 1, 2], [3, 2, 4], [3, 3, 0], [3, 3, 3], [3, 0, 1]], [[0,
    1, 2], [3, 4, 5], [3, 5, 3], [3, 3, 3], [4, 1, 2], [1, 2, 3]], [[⟨0, 0, 0⟩, ⟨2, 2, 72⟩, ⟨4,
    1, 54⟩], [⟨0, 1, 30⟩, ⟨4, 2, 84⟩], [⟨0, 2, 60⟩, ⟨1, 1, 36⟩], [⟨1, 0, 6⟩, ⟨2, 0, 12⟩, ⟨2, 1,
    42⟩, ⟨3, 0, 18⟩, ⟨3, 1, 48⟩, ⟨3, 2, 78⟩, ⟨4, 0, 24⟩], [⟨1, 2, 66⟩]], [[⟨0, 0, 0⟩], [⟨0, 1,
    30⟩, ⟨4, 1, 34⟩, ⟨5, 0, 5⟩], [⟨0, 2, 60⟩, ⟨4, 2, 64⟩, ⟨5, 1, 35⟩], [⟨1, 0, 1⟩, ⟨2, 0, 2⟩, ⟨2,
    2, 62⟩, ⟨3, 0, 3⟩, ⟨3, 1, 33⟩, ⟨3, 2, 63⟩, ⟨5, 2, 65⟩], [⟨1, 1, 31⟩, ⟨4, 0, 4⟩], [⟨1, 2, 61⟩,
    ⟨2, 1, 32⟩]]⟩⟩,
    ⟨13287056252941, ⟨36, 12, 3, [[0, 1, 2], [1, 3, 1], [2, 1, 2], [3, 3, 3]], [[0, 1, 2], [1, 1,
    1], [0, 1, 2]], [[⟨0, 0, 0⟩], [⟨0, 1, 12⟩, ⟨1, 0, 3⟩, ⟨1, 2, 27⟩, ⟨2, 1, 18⟩], [⟨0, 2, 24⟩,
    ⟨2, 0, 6⟩, ⟨2, 2, 30⟩], [⟨1, 1, 15⟩, ⟨3, 0, 9⟩, ⟨3, 1, 21⟩, ⟨3, 2, 33⟩]], [[⟨0, 0, 0⟩, ⟨2, 0,
    2⟩], [⟨0, 1, 12⟩, ⟨1, 0, 1⟩, ⟨1, 1, 13⟩, ⟨1, 2, 25⟩, ⟨2, 1, 14⟩], [⟨0, 2, 24⟩, ⟨2, 2, 26⟩]]⟩⟩,
    ⟨13561934159885, ⟨27, 9, 3, [[0, 1, 0], [1, 2, 1], [2, 2, 2]], [[0, 1, 2], [1, 1, 1], [2, 1,
    2]], [[⟨0, 0, 0⟩, ⟨0, 2, 18⟩], [⟨0, 1, 9⟩, ⟨1, 0, 3⟩, ⟨1, 2, 21⟩], [⟨1, 1, 12⟩, ⟨2, 0, 6⟩,
    ⟨2, 1, 15⟩, ⟨2, 2, 24⟩]], [[⟨0, 0, 0⟩], [⟨0, 1, 9⟩, ⟨1, 0, 1⟩, ⟨1, 1, 10⟩, ⟨1, 2, 19⟩, ⟨2, 1,
    11⟩], [⟨0, 2, 18⟩, ⟨2, 0, 2⟩, ⟨2, 2, 20⟩]]⟩⟩,
    ⟨7190000894493197, ⟨72, 9, 8, [[0, 1, 2], [1, 2, 1], [0, 1, 2]], [[0, 1, 2], [3, 2, 4], [2,
    1, 2], [5, 6, 4], [3, 7, 5], [5, 5, 5], [7, 3, 5], [6, 4, 2]], [[⟨0, 0, 0⟩, ⟨2, 0, 16⟩], [⟨0,
    1, 24⟩, ⟨1, 0, 8⟩, ⟨1, 2, 56⟩, ⟨2, 1, 40⟩], [⟨0, 2, 48⟩, ⟨1, 1, 32⟩, ⟨2, 2, 64⟩]], [[⟨0, 0,
    0⟩], [⟨0, 1, 24⟩, ⟨2, 1, 26⟩], [⟨0, 2, 48⟩, ⟨1, 1, 25⟩, ⟨2, 0, 2⟩, ⟨2, 2, 50⟩, ⟨7, 2, 55⟩],
    [⟨1, 0, 1⟩, ⟨4, 0, 4⟩, ⟨6, 1, 30⟩], [⟨1, 2, 49⟩, ⟨3, 2, 51⟩, ⟨7, 1, 31⟩], [⟨3, 0, 3⟩, ⟨4, 2,
    52⟩, ⟨5, 0, 5⟩, ⟨5, 1, 29⟩, ⟨5, 2, 53⟩, ⟨6, 2, 54⟩], [⟨3, 1, 27⟩, ⟨7, 0, 7⟩], [⟨4, 1, 28⟩,
    ⟨6, 0, 6⟩]]⟩⟩,
    ⟨7225185266582029, ⟨120, 30, 4, [[0, 1, 2], [3, 4, 5], [6, 7, 3], [3, 3, 3], [0, 7, 3], [7,
    8, 9], [7, 1, 2], [3, 3, 3], [0, 4, 5], [6, 8, 9]], [[0, 0, 1], [0, 0, 2], [3, 0, 2], [0, 0,
    1]], [[⟨0, 0, 0⟩, ⟨4, 0, 16⟩, ⟨8, 0, 32⟩], [⟨0, 1, 40⟩, ⟨6, 1, 64⟩], [⟨0, 2, 80⟩, ⟨6, 2,
    104⟩], [⟨1, 0, 4⟩, ⟨2, 2, 88⟩, ⟨3, 0, 12⟩, ⟨3, 1, 52⟩, ⟨3, 2, 92⟩, ⟨4, 2, 96⟩, ⟨7, 0, 28⟩,
    ⟨7, 1, 68⟩, ⟨7, 2, 108⟩], [⟨1, 1, 44⟩, ⟨8, 1, 72⟩], [⟨1, 2, 84⟩, ⟨8, 2, 112⟩], [⟨2, 0, 8⟩,
    ⟨9, 0, 36⟩], [⟨2, 1, 48⟩, ⟨4, 1, 56⟩, ⟨5, 0, 20⟩, ⟨6, 0, 24⟩], [⟨5, 1, 60⟩, ⟨9, 1, 76⟩], [⟨5,
    2, 100⟩, ⟨9, 2, 116⟩]], [[⟨0, 0, 0⟩, ⟨0, 1, 40⟩, ⟨1, 0, 1⟩, ⟨1, 1, 41⟩, ⟨2, 1, 42⟩, ⟨3, 0,
    3⟩, ⟨3, 1, 43⟩], [⟨0, 2, 80⟩, ⟨3, 2, 83⟩], [⟨1, 2, 81⟩, ⟨2, 2, 82⟩], [⟨2, 0, 2⟩]]⟩⟩,
    ⟨7225185266590221, ⟨90, 9, 10, [[0, 1, 2], [2, 0, 1], [1, 2, 0]], [[0, 1, 2], [3, 4, 3], [5,
    2, 6], [3, 3, 3], [6, 1, 2], [7, 4, 8], [6, 5, 2], [3, 9, 3], [7, 3, 8], [5, 7, 6]], [[⟨0, 0,
    0⟩, ⟨1, 1, 40⟩, ⟨2, 2, 80⟩], [⟨0, 1, 30⟩, ⟨1, 2, 70⟩, ⟨2, 0, 20⟩], [⟨0, 2, 60⟩, ⟨1, 0, 10⟩,
    ⟨2, 1, 50⟩]], [[⟨0, 0, 0⟩], [⟨0, 1, 30⟩, ⟨4, 1, 34⟩], [⟨0, 2, 60⟩, ⟨2, 1, 32⟩, ⟨4, 2, 64⟩,
    ⟨6, 2, 66⟩], [⟨1, 0, 1⟩, ⟨1, 2, 61⟩, ⟨3, 0, 3⟩, ⟨3, 1, 33⟩, ⟨3, 2, 63⟩, ⟨7, 0, 7⟩, ⟨7, 2,
    67⟩, ⟨8, 1, 38⟩], [⟨1, 1, 31⟩, ⟨5, 1, 35⟩], [⟨2, 0, 2⟩, ⟨6, 1, 36⟩, ⟨9, 0, 9⟩], [⟨2, 2, 62⟩,
    ⟨4, 0, 4⟩, ⟨6, 0, 6⟩, ⟨9, 2, 69⟩], [⟨5, 0, 5⟩, ⟨8, 0, 8⟩, ⟨9, 1, 39⟩], [⟨5, 2, 65⟩, ⟨8, 2,
    68⟩], [⟨7, 1, 37⟩]]⟩⟩],
    by decide +kernel, by decide +kernel⟩

theorem child23_2l1_2r0 : AllDone (child (2, false, 1) (2, true, 0)) := by
  refine allDone_of [list23_2l1_2r0_0, list23_2l1_2r0_1] ?_ (by decide +kernel)
  simp only [List.forall_mem_cons, List.not_mem_nil, false_imp_iff, implies_true, and_true]
  exact ⟨done23_2l1_2r0_0, done23_2l1_2r0_1⟩

theorem child23_2l1_2r1 : AllDone (child (2, false, 1) (2, true, 1)) :=
  allDone_of [] (by simp) (by decide +kernel)

theorem part23_2l1 : AllDone (fullPart 2 3 38 (2, false, 1)) := by
  refine allDone_full (by decide +kernel) ?_
  simp only [kids, List.forall_mem_cons, List.not_mem_nil, false_imp_iff, implies_true, and_true]
  exact ⟨child23_2l1_0l0,
    child23_2l1_0l1,
    child23_2l1_0r0,
    child23_2l1_0r1,
    child23_2l1_1l0,
    child23_2l1_1l1,
    child23_2l1_1r0,
    child23_2l1_1r1,
    child23_2l1_2l0,
    child23_2l1_2l1,
    child23_2l1_2r0,
    child23_2l1_2r1⟩

theorem part23_2r0 : AllDone (fullPart 2 3 38 (2, true, 0)) :=
  allDone_of [] (by simp) (by decide +kernel)

theorem part23_2r1 : AllDone (fullPart 2 3 38 (2, true, 1)) :=
  allDone_of [] (by simp) (by decide +kernel)

end BB.Records
