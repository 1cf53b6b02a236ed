import Verif.Props.RecordsTwoThreeE

/-!
# C79 for two states and three colours: programs with some instructions at B0
-/

namespace BB.Records

open Watch

def list23_2l0_0l1_0 : List Listed := [
  ⟨6803041387823629, [((0, 0), (1, true, 1)), ((0, 1), (0, false, 1)), ((0, 2), (2, true, 0)),
  ((1, 0), (2, false, 0)), ((1, 1), (2, true, 1)), ((1, 2), (0, false, 1))]⟩,
  ⟨26344440333, [((0, 0), (1, true, 1)), ((0, 1), (0, false, 1)), ((1, 0), (2, false, 0)), ((1,
  2), (0, true, 0))]⟩,
  ⟨7084516360339981, [((0, 0), (1, true, 1)), ((0, 1), (0, false, 1)), ((0, 2), (0, true, 0)),
  ((1, 0), (2, false, 0)), ((1, 1), (2, true, 1)), ((1, 2), (1, false, 1))]⟩,
  ⟨14040285856269, [((0, 0), (1, true, 1)), ((0, 1), (0, false, 1)), ((1, 0), (2, false, 0)),
  ((1, 1), (0, false, 0)), ((1, 2), (1, true, 0))]⟩,
  ⟨14040420073997, [((0, 0), (1, true, 1)), ((0, 1), (0, false, 1)), ((1, 0), (2, false, 0)),
  ((1, 1), (0, false, 1)), ((1, 2), (1, true, 0))]⟩,
  ⟨14041359598093, [((0, 0), (1, true, 1)), ((0, 1), (0, false, 1)), ((1, 0), (2, false, 0)),
  ((1, 1), (1, false, 0)), ((1, 2), (1, true, 0))]⟩,
  ⟨14042433339917, [((0, 0), (1, true, 1)), ((0, 1), (0, false, 1)), ((1, 0), (2, false, 0)),
  ((1, 1), (2, false, 0)), ((1, 2), (1, true, 0))]⟩,
  ⟨7189794598699533, [((0, 0), (1, true, 1)), ((0, 1), (0, false, 1)), ((0, 2), (0, true, 0)),
  ((1, 0), (2, false, 0)), ((1, 1), (2, false, 1)), ((1, 2), (1, true, 0))]⟩,
  ⟨7190069476606477, [((0, 0), (1, true, 1)), ((0, 1), (0, false, 1)), ((0, 2), (0, true, 0)),
  ((1, 0), (2, false, 0)), ((1, 1), (2, true, 1)), ((1, 2), (1, true, 0))]⟩,
  ⟨14111287034381, [((0, 0), (1, true, 1)), ((0, 1), (0, false, 1)), ((1, 0), (2, false, 0)),
  ((1, 1), (2, false, 1)), ((1, 2), (1, true, 1))]⟩,
  ⟨7365372861760013, [((0, 0), (1, true, 1)), ((0, 1), (0, false, 1)), ((0, 2), (0, true, 0)),
  ((1, 0), (2, false, 0)), ((1, 1), (1, true, 0)), ((1, 2), (2, false, 1))]⟩,
  ⟨7365922617573901, [((0, 0), (1, true, 1)), ((0, 1), (0, false, 1)), ((0, 2), (0, true, 0)),
  ((1, 0), (2, false, 0)), ((1, 1), (2, true, 0)), ((1, 2), (2, false, 1))]⟩,
  ⟨14656593740301, [((0, 0), (1, true, 1)), ((0, 1), (0, false, 1)), ((0, 2), (0, true, 0)), ((1,
  0), (2, false, 0)), ((1, 2), (2, true, 1))]⟩,
  ⟨7505285718491661, [((0, 0), (1, true, 1)), ((0, 1), (0, false, 1)), ((0, 2), (1, true, 0)),
  ((1, 0), (2, false, 0)), ((1, 1), (0, false, 0)), ((1, 2), (2, true, 1))]⟩,
  ⟨7505354437968397, [((0, 0), (1, true, 1)), ((0, 1), (0, false, 1)), ((0, 2), (1, true, 0)),
  ((1, 0), (2, false, 0)), ((1, 1), (0, false, 1)), ((1, 2), (2, true, 1))]⟩]

theorem done23_2l0_0l1_0 : ∃ h, Done list23_2l0_0l1_0 h :=
  ⟨[
    ⟨6803041387823629, ⟨180, 12, 15, [[0, 1, 2], [0, 0, 0], [0, 3, 2], [0, 0, 1]], [[0, 1, 2],
    [3, 4, 3], [5, 6, 7], [3, 3, 3], [3, 8, 3], [7, 7, 7], [9, 3, 10], [7, 7, 7], [11, 8, 3],
    [12, 13, 2], [5, 6, 7], [14, 3, 6], [9, 1, 10], [11, 4, 3], [3, 1, 3]], [[⟨0, 0, 0⟩, ⟨1, 0,
    15⟩, ⟨1, 1, 75⟩, ⟨1, 2, 135⟩, ⟨2, 0, 30⟩, ⟨3, 0, 45⟩, ⟨3, 1, 105⟩], [⟨0, 1, 60⟩, ⟨3, 2,
    165⟩], [⟨0, 2, 120⟩, ⟨2, 2, 150⟩], [⟨2, 1, 90⟩]], [[⟨0, 0, 0⟩], [⟨0, 1, 60⟩, ⟨12, 1, 72⟩,
    ⟨14, 1, 74⟩], [⟨0, 2, 120⟩, ⟨9, 2, 129⟩], [⟨1, 0, 1⟩, ⟨1, 2, 121⟩, ⟨3, 0, 3⟩, ⟨3, 1, 63⟩, ⟨3,
    2, 123⟩, ⟨4, 0, 4⟩, ⟨4, 2, 124⟩, ⟨6, 1, 66⟩, ⟨8, 2, 128⟩, ⟨11, 1, 71⟩, ⟨13, 2, 133⟩, ⟨14, 0,
    14⟩, ⟨14, 2, 134⟩], [⟨1, 1, 61⟩, ⟨13, 1, 73⟩], [⟨2, 0, 2⟩, ⟨10, 0, 10⟩], [⟨2, 1, 62⟩, ⟨10, 1,
    70⟩, ⟨11, 2, 131⟩], [⟨2, 2, 122⟩, ⟨5, 0, 5⟩, ⟨5, 1, 65⟩, ⟨5, 2, 125⟩, ⟨7, 0, 7⟩, ⟨7, 1, 67⟩,
    ⟨7, 2, 127⟩, ⟨10, 2, 130⟩], [⟨4, 1, 64⟩, ⟨8, 1, 68⟩], [⟨6, 0, 6⟩, ⟨12, 0, 12⟩], [⟨6, 2, 126⟩,
    ⟨12, 2, 132⟩], [⟨8, 0, 8⟩, ⟨13, 0, 13⟩], [⟨9, 0, 9⟩], [⟨9, 1, 69⟩], [⟨11, 0, 11⟩]]⟩⟩,
    ⟨26344440333, ⟨48, 12, 4, [[0, 1, 2], [3, 2, 2], [2, 2, 2], [1, 1, 2]], [[0, 1, 2], [2, 3,
    2], [1, 1, 3], [3, 3, 3]], [[⟨0, 0, 0⟩], [⟨0, 1, 16⟩, ⟨3, 0, 12⟩, ⟨3, 1, 28⟩], [⟨0, 2, 32⟩,
    ⟨1, 1, 20⟩, ⟨1, 2, 36⟩, ⟨2, 0, 8⟩, ⟨2, 1, 24⟩, ⟨2, 2, 40⟩, ⟨3, 2, 44⟩], [⟨1, 0, 4⟩]], [[⟨0,
    0, 0⟩], [⟨0, 1, 16⟩, ⟨2, 0, 2⟩, ⟨2, 1, 18⟩], [⟨0, 2, 32⟩, ⟨1, 0, 1⟩, ⟨1, 2, 33⟩], [⟨1, 1,
    17⟩, ⟨2, 2, 34⟩, ⟨3, 0, 3⟩, ⟨3, 1, 19⟩, ⟨3, 2, 35⟩]]⟩⟩,
    ⟨7084516360339981, ⟨168, 24, 7, [[0, 1, 2], [3, 4, 1], [5, 6, 1], [3, 7, 1], [5, 6, 1], [3,
    4, 1], [1, 6, 1], [5, 6, 1]], [[0, 1, 2], [3, 4, 2], [3, 4, 2], [3, 4, 5], [3, 4, 5], [4, 4,
    6], [3, 4, 2]], [[⟨0, 0, 0⟩], [⟨0, 1, 56⟩, ⟨1, 2, 119⟩, ⟨2, 2, 126⟩, ⟨3, 2, 133⟩, ⟨4, 2,
    140⟩, ⟨5, 2, 147⟩, ⟨6, 0, 42⟩, ⟨6, 2, 154⟩, ⟨7, 2, 161⟩], [⟨0, 2, 112⟩], [⟨1, 0, 7⟩, ⟨3, 0,
    21⟩, ⟨5, 0, 35⟩], [⟨1, 1, 63⟩, ⟨5, 1, 91⟩], [⟨2, 0, 14⟩, ⟨4, 0, 28⟩, ⟨7, 0, 49⟩], [⟨2, 1,
    70⟩, ⟨4, 1, 84⟩, ⟨6, 1, 98⟩, ⟨7, 1, 105⟩], [⟨3, 1, 77⟩]], [[⟨0, 0, 0⟩], [⟨0, 1, 56⟩], [⟨0, 2,
    112⟩, ⟨1, 2, 113⟩, ⟨2, 2, 114⟩, ⟨6, 2, 118⟩], [⟨1, 0, 1⟩, ⟨2, 0, 2⟩, ⟨3, 0, 3⟩, ⟨4, 0, 4⟩,
    ⟨6, 0, 6⟩], [⟨1, 1, 57⟩, ⟨2, 1, 58⟩, ⟨3, 1, 59⟩, ⟨4, 1, 60⟩, ⟨5, 0, 5⟩, ⟨5, 1, 61⟩, ⟨6, 1,
    62⟩], [⟨3, 2, 115⟩, ⟨4, 2, 116⟩], [⟨5, 2, 117⟩]]⟩⟩,
    ⟨14040285856269, ⟨36, 9, 4, [[0, 1, 2], [1, 1, 2], [2, 2, 2]], [[0, 1, 2], [1, 1, 1], [3, 1,
    1], [2, 1, 2]], [[⟨0, 0, 0⟩], [⟨0, 1, 12⟩, ⟨1, 0, 4⟩, ⟨1, 1, 16⟩], [⟨0, 2, 24⟩, ⟨1, 2, 28⟩,
    ⟨2, 0, 8⟩, ⟨2, 1, 20⟩, ⟨2, 2, 32⟩]], [[⟨0, 0, 0⟩], [⟨0, 1, 12⟩, ⟨1, 0, 1⟩, ⟨1, 1, 13⟩, ⟨1, 2,
    25⟩, ⟨2, 1, 14⟩, ⟨2, 2, 26⟩, ⟨3, 1, 15⟩], [⟨0, 2, 24⟩, ⟨3, 0, 3⟩, ⟨3, 2, 27⟩], [⟨2, 0, 2⟩]]⟩⟩,
    ⟨14040420073997, ⟨60, 15, 4, [[0, 1, 2], [3, 3, 3], [2, 2, 2], [4, 1, 2], [3, 2, 2]], [[0, 1,
    2], [1, 1, 1], [3, 1, 1], [2, 1, 2]], [[⟨0, 0, 0⟩], [⟨0, 1, 20⟩, ⟨3, 1, 32⟩], [⟨0, 2, 40⟩,
    ⟨2, 0, 8⟩, ⟨2, 1, 28⟩, ⟨2, 2, 48⟩, ⟨3, 2, 52⟩, ⟨4, 1, 36⟩, ⟨4, 2, 56⟩], [⟨1, 0, 4⟩, ⟨1, 1,
    24⟩, ⟨1, 2, 44⟩, ⟨4, 0, 16⟩], [⟨3, 0, 12⟩]], [[⟨0, 0, 0⟩], [⟨0, 1, 20⟩, ⟨1, 0, 1⟩, ⟨1, 1,
    21⟩, ⟨1, 2, 41⟩, ⟨2, 1, 22⟩, ⟨2, 2, 42⟩, ⟨3, 1, 23⟩], [⟨0, 2, 40⟩, ⟨3, 0, 3⟩, ⟨3, 2, 43⟩],
    [⟨2, 0, 2⟩]]⟩⟩,
    ⟨14041359598093, ⟨24, 6, 4, [[0, 0, 1], [1, 1, 1]], [[0, 1, 0], [2, 3, 0], [1, 1, 1], [3, 3,
    1]], [[⟨0, 0, 0⟩, ⟨0, 1, 8⟩], [⟨0, 2, 16⟩, ⟨1, 0, 4⟩, ⟨1, 1, 12⟩, ⟨1, 2, 20⟩]], [[⟨0, 0, 0⟩,
    ⟨0, 2, 16⟩, ⟨1, 2, 17⟩], [⟨0, 1, 8⟩, ⟨2, 0, 2⟩, ⟨2, 1, 10⟩, ⟨2, 2, 18⟩, ⟨3, 2, 19⟩], [⟨1, 0,
    1⟩], [⟨1, 1, 9⟩, ⟨3, 0, 3⟩, ⟨3, 1, 11⟩]]⟩⟩,
    ⟨14042433339917, ⟨36, 9, 4, [[0, 1, 2], [0, 1, 2], [2, 2, 2]], [[0, 0, 1], [2, 2, 3], [1, 1,
    1], [3, 3, 3]], [[⟨0, 0, 0⟩, ⟨1, 0, 4⟩], [⟨0, 1, 12⟩, ⟨1, 1, 16⟩], [⟨0, 2, 24⟩, ⟨1, 2, 28⟩,
    ⟨2, 0, 8⟩, ⟨2, 1, 20⟩, ⟨2, 2, 32⟩]], [[⟨0, 0, 0⟩, ⟨0, 1, 12⟩], [⟨0, 2, 24⟩, ⟨2, 0, 2⟩, ⟨2, 1,
    14⟩, ⟨2, 2, 26⟩], [⟨1, 0, 1⟩, ⟨1, 1, 13⟩], [⟨1, 2, 25⟩, ⟨3, 0, 3⟩, ⟨3, 1, 15⟩, ⟨3, 2, 27⟩]]⟩⟩,
    ⟨7189794598699533, ⟨45, 9, 5, [[0, 1, 0], [0, 1, 2], [2, 0, 0]], [[0, 1, 2], [1, 1, 1], [3,
    3, 1], [2, 2, 4], [4, 4, 4]], [[⟨0, 0, 0⟩, ⟨0, 2, 30⟩, ⟨1, 0, 5⟩, ⟨2, 1, 25⟩, ⟨2, 2, 40⟩],
    [⟨0, 1, 15⟩, ⟨1, 1, 20⟩], [⟨1, 2, 35⟩, ⟨2, 0, 10⟩]], [[⟨0, 0, 0⟩], [⟨0, 1, 15⟩, ⟨1, 0, 1⟩,
    ⟨1, 1, 16⟩, ⟨1, 2, 31⟩, ⟨2, 2, 32⟩], [⟨0, 2, 30⟩, ⟨3, 0, 3⟩, ⟨3, 1, 18⟩], [⟨2, 0, 2⟩, ⟨2, 1,
    17⟩], [⟨3, 2, 33⟩, ⟨4, 0, 4⟩, ⟨4, 1, 19⟩, ⟨4, 2, 34⟩]]⟩⟩,
    ⟨7190069476606477, ⟨216, 12, 18, [[0, 1, 0], [2, 3, 2], [2, 2, 2], [1, 2, 2]], [[0, 1, 2],
    [3, 4, 2], [5, 4, 6], [7, 1, 8], [9, 10, 11], [12, 1, 8], [13, 12, 14], [9, 8, 11], [8, 8,
    8], [7, 12, 8], [8, 10, 8], [5, 4, 15], [3, 7, 2], [16, 1, 14], [3, 7, 14], [14, 12, 8], [17,
    1, 11], [17, 12, 11]], [[⟨0, 0, 0⟩, ⟨0, 2, 144⟩], [⟨0, 1, 72⟩, ⟨3, 0, 54⟩], [⟨1, 0, 18⟩, ⟨1,
    2, 162⟩, ⟨2, 0, 36⟩, ⟨2, 1, 108⟩, ⟨2, 2, 180⟩, ⟨3, 1, 126⟩, ⟨3, 2, 198⟩], [⟨1, 1, 90⟩]],
    [[⟨0, 0, 0⟩], [⟨0, 1, 72⟩, ⟨3, 1, 75⟩, ⟨5, 1, 77⟩, ⟨13, 1, 85⟩, ⟨16, 1, 88⟩], [⟨0, 2, 144⟩,
    ⟨1, 2, 145⟩, ⟨12, 2, 156⟩], [⟨1, 0, 1⟩, ⟨12, 0, 12⟩, ⟨14, 0, 14⟩], [⟨1, 1, 73⟩, ⟨2, 1, 74⟩,
    ⟨11, 1, 83⟩], [⟨2, 0, 2⟩, ⟨11, 0, 11⟩], [⟨2, 2, 146⟩], [⟨3, 0, 3⟩, ⟨9, 0, 9⟩, ⟨12, 1, 84⟩,
    ⟨14, 1, 86⟩], [⟨3, 2, 147⟩, ⟨5, 2, 149⟩, ⟨7, 1, 79⟩, ⟨8, 0, 8⟩, ⟨8, 1, 80⟩, ⟨8, 2, 152⟩, ⟨9,
    2, 153⟩, ⟨10, 0, 10⟩, ⟨10, 2, 154⟩, ⟨15, 2, 159⟩], [⟨4, 0, 4⟩, ⟨7, 0, 7⟩], [⟨4, 1, 76⟩, ⟨10,
    1, 82⟩], [⟨4, 2, 148⟩, ⟨7, 2, 151⟩, ⟨16, 2, 160⟩, ⟨17, 2, 161⟩], [⟨5, 0, 5⟩, ⟨6, 1, 78⟩, ⟨9,
    1, 81⟩, ⟨15, 1, 87⟩, ⟨17, 1, 89⟩], [⟨6, 0, 6⟩], [⟨6, 2, 150⟩, ⟨13, 2, 157⟩, ⟨14, 2, 158⟩,
    ⟨15, 0, 15⟩], [⟨11, 2, 155⟩], [⟨13, 0, 13⟩], [⟨16, 0, 16⟩, ⟨17, 0, 17⟩]]⟩⟩,
    ⟨14111287034381, ⟨36, 18, 2, [[0, 1, 2], [3, 4, 1], [3, 1, 2], [1, 5, 5], [4, 4, 1], [5, 5,
    5]], [[0, 0, 1], [0, 0, 1]], [[⟨0, 0, 0⟩], [⟨0, 1, 12⟩, ⟨1, 2, 26⟩, ⟨2, 1, 16⟩, ⟨3, 0, 6⟩,
    ⟨4, 2, 32⟩], [⟨0, 2, 24⟩, ⟨2, 2, 28⟩], [⟨1, 0, 2⟩, ⟨2, 0, 4⟩], [⟨1, 1, 14⟩, ⟨4, 0, 8⟩, ⟨4, 1,
    20⟩], [⟨3, 1, 18⟩, ⟨3, 2, 30⟩, ⟨5, 0, 10⟩, ⟨5, 1, 22⟩, ⟨5, 2, 34⟩]], [[⟨0, 0, 0⟩, ⟨0, 1, 12⟩,
    ⟨1, 0, 1⟩, ⟨1, 1, 13⟩], [⟨0, 2, 24⟩, ⟨1, 2, 25⟩]]⟩⟩,
    ⟨7365372861760013, ⟨18, 9, 2, [[0, 1, 2], [1, 1, 0], [2, 2, 2]], [[0, 1, 1], [1, 1, 1]],
    [[⟨0, 0, 0⟩, ⟨1, 2, 14⟩], [⟨0, 1, 6⟩, ⟨1, 0, 2⟩, ⟨1, 1, 8⟩], [⟨0, 2, 12⟩, ⟨2, 0, 4⟩, ⟨2, 1,
    10⟩, ⟨2, 2, 16⟩]], [[⟨0, 0, 0⟩], [⟨0, 1, 6⟩, ⟨0, 2, 12⟩, ⟨1, 0, 1⟩, ⟨1, 1, 7⟩, ⟨1, 2, 13⟩]]⟩⟩,
    ⟨7365922617573901, ⟨54, 9, 6, [[0, 0, 1], [1, 2, 1], [0, 0, 1]], [[0, 1, 2], [3, 3, 4], [5,
    5, 2], [1, 1, 5], [4, 4, 4], [5, 5, 5]], [[⟨0, 0, 0⟩, ⟨0, 1, 18⟩, ⟨2, 0, 12⟩, ⟨2, 1, 30⟩],
    [⟨0, 2, 36⟩, ⟨1, 0, 6⟩, ⟨1, 2, 42⟩, ⟨2, 2, 48⟩], [⟨1, 1, 24⟩]], [[⟨0, 0, 0⟩], [⟨0, 1, 18⟩,
    ⟨3, 0, 3⟩, ⟨3, 1, 21⟩], [⟨0, 2, 36⟩, ⟨2, 2, 38⟩], [⟨1, 0, 1⟩, ⟨1, 1, 19⟩], [⟨1, 2, 37⟩, ⟨4,
    0, 4⟩, ⟨4, 1, 22⟩, ⟨4, 2, 40⟩], [⟨2, 0, 2⟩, ⟨2, 1, 20⟩, ⟨3, 2, 39⟩, ⟨5, 0, 5⟩, ⟨5, 1, 23⟩,
    ⟨5, 2, 41⟩]]⟩⟩,
    ⟨14656593740301, ⟨36, 12, 3, [[0, 1, 0], [2, 1, 2], [3, 1, 2], [3, 2, 0]], [[0, 1, 2], [1, 1,
    1], [0, 1, 2]], [[⟨0, 0, 0⟩, ⟨0, 2, 24⟩, ⟨3, 2, 33⟩], [⟨0, 1, 12⟩, ⟨1, 1, 15⟩, ⟨2, 1, 18⟩],
    [⟨1, 0, 3⟩, ⟨1, 2, 27⟩, ⟨2, 2, 30⟩, ⟨3, 1, 21⟩], [⟨2, 0, 6⟩, ⟨3, 0, 9⟩]], [[⟨0, 0, 0⟩, ⟨2, 0,
    2⟩], [⟨0, 1, 12⟩, ⟨1, 0, 1⟩, ⟨1, 1, 13⟩, ⟨1, 2, 25⟩, ⟨2, 1, 14⟩], [⟨0, 2, 24⟩, ⟨2, 2, 26⟩]]⟩⟩,
    ⟨7505285718491661, ⟨36, 9, 4, [[0, 1, 2], [0, 2, 0], [0, 2, 2]], [[0, 1, 2], [1, 1, 1], [3,
    3, 3], [3, 3, 3]], [[⟨0, 0, 0⟩, ⟨1, 0, 4⟩, ⟨1, 2, 28⟩, ⟨2, 0, 8⟩], [⟨0, 1, 12⟩], [⟨0, 2, 24⟩,
    ⟨1, 1, 16⟩, ⟨2, 1, 20⟩, ⟨2, 2, 32⟩]], [[⟨0, 0, 0⟩], [⟨0, 1, 12⟩, ⟨1, 0, 1⟩, ⟨1, 1, 13⟩, ⟨1,
    2, 25⟩], [⟨0, 2, 24⟩], [⟨2, 0, 2⟩, ⟨2, 1, 14⟩, ⟨2, 2, 26⟩, ⟨3, 0, 3⟩, ⟨3, 1, 15⟩, ⟨3, 2,
    27⟩]]⟩⟩,
    ⟨7505354437968397, ⟨36, 9, 4, [[0, 1, 2], [0, 2, 0], [0, 2, 2]], [[0, 1, 2], [1, 1, 1], [3,
    3, 3], [3, 3, 3]], [[⟨0, 0, 0⟩, ⟨1, 0, 4⟩, ⟨1, 2, 28⟩, ⟨2, 0, 8⟩], [⟨0, 1, 12⟩], [⟨0, 2, 24⟩,
    ⟨1, 1, 16⟩, ⟨2, 1, 20⟩, ⟨2, 2, 32⟩]], [[⟨0, 0, 0⟩], [⟨0, 1, 12⟩, ⟨1, 0, 1⟩, ⟨1, 1, 13⟩, ⟨1,
    2, 25⟩], [⟨0, 2, 24⟩], [⟨2, 0, 2⟩, ⟨2, 1, 14⟩, ⟨2, 2, 26⟩, ⟨3, 0, 3⟩, ⟨3, 1, 15⟩, ⟨3, 2,
    27⟩]]⟩⟩],
    by decide +kernel, by decide +kernel⟩

theorem child23_2l0_0l1 : AllDone (child (2, false, 0) (0, false, 1)) := by
  refine allDone_of [list23_2l0_0l1_0] ?_ (by decide +kernel)
  simp only [List.forall_mem_cons, List.not_mem_nil, false_imp_iff, implies_true, and_true]
  exact done23_2l0_0l1_0

def list23_2l0_0r0_0 : List Listed := [
  ⟨6907769867225101, [((0, 0), (1, true, 1)), ((0, 1), (0, true, 0)), ((0, 2), (1, false, 0)),
  ((1, 0), (2, false, 0)), ((1, 1), (1, false, 1)), ((1, 2), (0, true, 0))]⟩,
  ⟨7189244843935757, [((0, 0), (1, true, 1)), ((0, 1), (0, true, 0)), ((0, 2), (1, false, 0)),
  ((1, 0), (2, false, 0)), ((1, 1), (1, false, 1)), ((1, 2), (1, true, 0))]⟩,
  ⟨7470719820646413, [((0, 0), (1, true, 1)), ((0, 1), (0, true, 0)), ((0, 2), (1, false, 0)),
  ((1, 0), (2, false, 0)), ((1, 1), (1, false, 1)), ((1, 2), (2, true, 0))]⟩,
  ⟨7189794599749645, [((0, 0), (1, true, 1)), ((0, 1), (0, true, 0)), ((0, 2), (1, false, 0)),
  ((1, 0), (2, false, 0)), ((1, 1), (2, false, 1)), ((1, 2), (1, true, 0))]⟩,
  ⟨7224978971838477, [((0, 0), (1, true, 1)), ((0, 1), (0, true, 0)), ((0, 2), (1, false, 0)),
  ((1, 0), (2, false, 0)), ((1, 1), (2, false, 1)), ((1, 2), (1, true, 1))]⟩,
  ⟨7471269576460301, [((0, 0), (1, true, 1)), ((0, 1), (0, true, 0)), ((0, 2), (1, false, 0)),
  ((1, 0), (2, false, 0)), ((1, 1), (2, false, 1)), ((1, 2), (2, true, 0))]⟩,
  ⟨7506453948549133, [((0, 0), (1, true, 1)), ((0, 1), (0, true, 0)), ((0, 2), (1, false, 0)),
  ((1, 0), (2, false, 0)), ((1, 1), (2, false, 1)), ((1, 2), (2, true, 1))]⟩,
  ⟨14656596887565, [((0, 0), (1, true, 1)), ((0, 1), (0, true, 0)), ((0, 2), (2, false, 0)), ((1,
  0), (2, false, 0)), ((1, 2), (2, true, 1))]⟩,
  ⟨7083623010551821, [((0, 0), (1, true, 1)), ((0, 1), (0, true, 0)), ((0, 2), (2, false, 1)),
  ((1, 0), (2, false, 0)), ((1, 1), (1, false, 0)), ((1, 2), (1, false, 1))]⟩,
  ⟨7188695090481165, [((0, 0), (1, true, 1)), ((0, 1), (0, true, 0)), ((0, 2), (2, false, 1)),
  ((1, 0), (2, false, 0)), ((1, 1), (0, false, 1)), ((1, 2), (1, true, 0))]⟩,
  ⟨14106841335821, [((0, 0), (1, true, 1)), ((0, 1), (0, true, 0)), ((0, 2), (2, false, 1)), ((1,
  0), (2, false, 0)), ((1, 2), (1, true, 1))]⟩]

theorem done23_2l0_0r0_0 : ∃ h, Done list23_2l0_0r0_0 h :=
  ⟨[
    ⟨6907769867225101, ⟨36, 12, 3, [[0, 1, 2], [3, 1, 1], [2, 2, 2], [3, 1, 0]], [[0, 1, 2], [2,
    1, 2], [2, 2, 2]], [[⟨0, 0, 0⟩, ⟨3, 2, 33⟩], [⟨0, 1, 12⟩, ⟨1, 1, 15⟩, ⟨1, 2, 27⟩, ⟨3, 1,
    21⟩], [⟨0, 2, 24⟩, ⟨2, 0, 6⟩, ⟨2, 1, 18⟩, ⟨2, 2, 30⟩], [⟨1, 0, 3⟩, ⟨3, 0, 9⟩]], [[⟨0, 0, 0⟩],
    [⟨0, 1, 12⟩, ⟨1, 1, 13⟩], [⟨0, 2, 24⟩, ⟨1, 0, 1⟩, ⟨1, 2, 25⟩, ⟨2, 0, 2⟩, ⟨2, 1, 14⟩, ⟨2, 2,
    26⟩]]⟩⟩,
    ⟨7189244843935757, ⟨63, 9, 7, [[0, 1, 0], [2, 1, 1], [2, 1, 0]], [[0, 1, 2], [3, 1, 2], [3,
    3, 4], [3, 3, 3], [5, 3, 3], [4, 6, 6], [6, 6, 6]], [[⟨0, 0, 0⟩, ⟨0, 2, 42⟩, ⟨2, 2, 56⟩],
    [⟨0, 1, 21⟩, ⟨1, 1, 28⟩, ⟨1, 2, 49⟩, ⟨2, 1, 35⟩], [⟨1, 0, 7⟩, ⟨2, 0, 14⟩]], [[⟨0, 0, 0⟩],
    [⟨0, 1, 21⟩, ⟨1, 1, 22⟩], [⟨0, 2, 42⟩, ⟨1, 2, 43⟩], [⟨1, 0, 1⟩, ⟨2, 0, 2⟩, ⟨2, 1, 23⟩, ⟨3, 0,
    3⟩, ⟨3, 1, 24⟩, ⟨3, 2, 45⟩, ⟨4, 1, 25⟩, ⟨4, 2, 46⟩], [⟨2, 2, 44⟩, ⟨5, 0, 5⟩], [⟨4, 0, 4⟩],
    [⟨5, 1, 26⟩, ⟨5, 2, 47⟩, ⟨6, 0, 6⟩, ⟨6, 1, 27⟩, ⟨6, 2, 48⟩]]⟩⟩,
    ⟨7470719820646413, ⟨90, 9, 10, [[0, 1, 1], [2, 0, 1], [2, 1, 1]], [[0, 1, 2], [3, 1, 4], [5,
    3, 6], [3, 3, 3], [7, 3, 6], [2, 8, 8], [9, 3, 3], [4, 3, 3], [8, 8, 8], [6, 8, 8]], [[⟨0, 0,
    0⟩, ⟨1, 1, 40⟩], [⟨0, 1, 30⟩, ⟨0, 2, 60⟩, ⟨1, 2, 70⟩, ⟨2, 1, 50⟩, ⟨2, 2, 80⟩], [⟨1, 0, 10⟩,
    ⟨2, 0, 20⟩]], [[⟨0, 0, 0⟩], [⟨0, 1, 30⟩, ⟨1, 1, 31⟩], [⟨0, 2, 60⟩, ⟨5, 0, 5⟩], [⟨1, 0, 1⟩,
    ⟨2, 1, 32⟩, ⟨3, 0, 3⟩, ⟨3, 1, 33⟩, ⟨3, 2, 63⟩, ⟨4, 1, 34⟩, ⟨6, 1, 36⟩, ⟨6, 2, 66⟩, ⟨7, 1,
    37⟩, ⟨7, 2, 67⟩], [⟨1, 2, 61⟩, ⟨7, 0, 7⟩], [⟨2, 0, 2⟩], [⟨2, 2, 62⟩, ⟨4, 2, 64⟩, ⟨9, 0, 9⟩],
    [⟨4, 0, 4⟩], [⟨5, 1, 35⟩, ⟨5, 2, 65⟩, ⟨8, 0, 8⟩, ⟨8, 1, 38⟩, ⟨8, 2, 68⟩, ⟨9, 1, 39⟩, ⟨9, 2,
    69⟩], [⟨6, 0, 6⟩]]⟩⟩,
    ⟨7189794599749645, ⟨54, 9, 6, [[0, 1, 0], [0, 1, 2], [0, 1, 2]], [[0, 1, 2], [3, 1, 4], [3,
    3, 5], [3, 3, 3], [1, 3, 5], [1, 3, 3]], [[⟨0, 0, 0⟩, ⟨0, 2, 36⟩, ⟨1, 0, 6⟩, ⟨2, 0, 12⟩],
    [⟨0, 1, 18⟩, ⟨1, 1, 24⟩, ⟨2, 1, 30⟩], [⟨1, 2, 42⟩, ⟨2, 2, 48⟩]], [[⟨0, 0, 0⟩], [⟨0, 1, 18⟩,
    ⟨1, 1, 19⟩, ⟨4, 0, 4⟩, ⟨5, 0, 5⟩], [⟨0, 2, 36⟩], [⟨1, 0, 1⟩, ⟨2, 0, 2⟩, ⟨2, 1, 20⟩, ⟨3, 0,
    3⟩, ⟨3, 1, 21⟩, ⟨3, 2, 39⟩, ⟨4, 1, 22⟩, ⟨5, 1, 23⟩, ⟨5, 2, 41⟩], [⟨1, 2, 37⟩], [⟨2, 2, 38⟩,
    ⟨4, 2, 40⟩]]⟩⟩,
    ⟨7224978971838477, ⟨18, 6, 3, [[0, 1, 0], [0, 1, 1]], [[0, 1, 2], [2, 1, 2], [2, 2, 2]],
    [[⟨0, 0, 0⟩, ⟨0, 2, 12⟩, ⟨1, 0, 3⟩], [⟨0, 1, 6⟩, ⟨1, 1, 9⟩, ⟨1, 2, 15⟩]], [[⟨0, 0, 0⟩], [⟨0,
    1, 6⟩, ⟨1, 1, 7⟩], [⟨0, 2, 12⟩, ⟨1, 0, 1⟩, ⟨1, 2, 13⟩, ⟨2, 0, 2⟩, ⟨2, 1, 8⟩, ⟨2, 2, 14⟩]]⟩⟩,
    ⟨7471269576460301, ⟨54, 9, 6, [[0, 1, 0], [0, 1, 2], [0, 1, 2]], [[0, 1, 2], [3, 1, 4], [3,
    3, 5], [3, 3, 3], [1, 3, 5], [1, 3, 3]], [[⟨0, 0, 0⟩, ⟨0, 2, 36⟩, ⟨1, 0, 6⟩, ⟨2, 0, 12⟩],
    [⟨0, 1, 18⟩, ⟨1, 1, 24⟩, ⟨2, 1, 30⟩], [⟨1, 2, 42⟩, ⟨2, 2, 48⟩]], [[⟨0, 0, 0⟩], [⟨0, 1, 18⟩,
    ⟨1, 1, 19⟩, ⟨4, 0, 4⟩, ⟨5, 0, 5⟩], [⟨0, 2, 36⟩], [⟨1, 0, 1⟩, ⟨2, 0, 2⟩, ⟨2, 1, 20⟩, ⟨3, 0,
    3⟩, ⟨3, 1, 21⟩, ⟨3, 2, 39⟩, ⟨4, 1, 22⟩, ⟨5, 1, 23⟩, ⟨5, 2, 41⟩], [⟨1, 2, 37⟩], [⟨2, 2, 38⟩,
    ⟨4, 2, 40⟩]]⟩⟩,
    ⟨7506453948549133, ⟨18, 6, 3, [[0, 1, 1], [0, 1, 1]], [[0, 1, 2], [2, 1, 2], [2, 2, 2]],
    [[⟨0, 0, 0⟩, ⟨1, 0, 3⟩], [⟨0, 1, 6⟩, ⟨0, 2, 12⟩, ⟨1, 1, 9⟩, ⟨1, 2, 15⟩]], [[⟨0, 0, 0⟩], [⟨0,
    1, 6⟩, ⟨1, 1, 7⟩], [⟨0, 2, 12⟩, ⟨1, 0, 1⟩, ⟨1, 2, 13⟩, ⟨2, 0, 2⟩, ⟨2, 1, 8⟩, ⟨2, 2, 14⟩]]⟩⟩,
    ⟨14656596887565, ⟨18, 6, 3, [[0, 0, 1], [0, 0, 1]], [[0, 1, 2], [1, 1, 1], [2, 1, 2]], [[⟨0,
    0, 0⟩, ⟨0, 1, 6⟩, ⟨1, 0, 3⟩, ⟨1, 1, 9⟩], [⟨0, 2, 12⟩, ⟨1, 2, 15⟩]], [[⟨0, 0, 0⟩], [⟨0, 1, 6⟩,
    ⟨1, 0, 1⟩, ⟨1, 1, 7⟩, ⟨1, 2, 13⟩, ⟨2, 1, 8⟩], [⟨0, 2, 12⟩, ⟨2, 0, 2⟩, ⟨2, 2, 14⟩]]⟩⟩,
    ⟨7083623010551821, ⟨12, 3, 4, [[0, 0, 0]], [[0, 0, 1], [2, 3, 3], [1, 0, 1], [3, 3, 3]],
    [[⟨0, 0, 0⟩, ⟨0, 1, 4⟩, ⟨0, 2, 8⟩]], [[⟨0, 0, 0⟩, ⟨0, 1, 4⟩, ⟨2, 1, 6⟩], [⟨0, 2, 8⟩, ⟨2, 0,
    2⟩, ⟨2, 2, 10⟩], [⟨1, 0, 1⟩], [⟨1, 1, 5⟩, ⟨1, 2, 9⟩, ⟨3, 0, 3⟩, ⟨3, 1, 7⟩, ⟨3, 2, 11⟩]]⟩⟩,
    ⟨7188695090481165, ⟨18, 6, 3, [[0, 1, 1], [1, 1, 1]], [[0, 1, 2], [1, 1, 1], [2, 0, 2]],
    [[⟨0, 0, 0⟩], [⟨0, 1, 6⟩, ⟨0, 2, 12⟩, ⟨1, 0, 3⟩, ⟨1, 1, 9⟩, ⟨1, 2, 15⟩]], [[⟨0, 0, 0⟩, ⟨2, 1,
    8⟩], [⟨0, 1, 6⟩, ⟨1, 0, 1⟩, ⟨1, 1, 7⟩, ⟨1, 2, 13⟩], [⟨0, 2, 12⟩, ⟨2, 0, 2⟩, ⟨2, 2, 14⟩]]⟩⟩,
    ⟨14106841335821, ⟨27, 9, 3, [[0, 1, 0], [0, 1, 2], [2, 2, 2]], [[0, 1, 2], [1, 1, 1], [0, 1,
    2]], [[⟨0, 0, 0⟩, ⟨0, 2, 18⟩, ⟨1, 0, 3⟩], [⟨0, 1, 9⟩, ⟨1, 1, 12⟩], [⟨1, 2, 21⟩, ⟨2, 0, 6⟩,
    ⟨2, 1, 15⟩, ⟨2, 2, 24⟩]], [[⟨0, 0, 0⟩, ⟨2, 0, 2⟩], [⟨0, 1, 9⟩, ⟨1, 0, 1⟩, ⟨1, 1, 10⟩, ⟨1, 2,
    19⟩, ⟨2, 1, 11⟩], [⟨0, 2, 18⟩, ⟨2, 2, 20⟩]]⟩⟩],
    by decide +kernel, by decide +kernel⟩

theorem child23_2l0_0r0 : AllDone (child (2, false, 0) (0, true, 0)) := by
  refine allDone_of [list23_2l0_0r0_0] ?_ (by decide +kernel)
  simp only [List.forall_mem_cons, List.not_mem_nil, false_imp_iff, implies_true, and_true]
  exact done23_2l0_0r0_0

def list23_2l0_0r1_0 : List Listed := [
  ⟨13835872258573, [((0, 0), (1, true, 1)), ((0, 1), (0, true, 1)), ((1, 0), (2, false, 0)), ((1,
  1), (1, true, 1)), ((1, 2), (1, false, 1))]⟩,
  ⟨7084447639816717, [((0, 0), (1, true, 1)), ((0, 1), (0, true, 1)), ((0, 2), (0, false, 0)),
  ((1, 0), (2, false, 0)), ((1, 1), (2, true, 0)), ((1, 2), (1, false, 1))]⟩,
  ⟨14656592693773, [((0, 0), (1, true, 1)), ((0, 1), (0, true, 1)), ((0, 2), (0, false, 0)), ((1,
  0), (2, false, 0)), ((1, 2), (2, true, 1))]⟩,
  ⟨7505285717445133, [((0, 0), (1, true, 1)), ((0, 1), (0, true, 1)), ((0, 2), (1, false, 0)),
  ((1, 0), (2, false, 0)), ((1, 1), (0, false, 0)), ((1, 2), (2, true, 1))]⟩,
  ⟨14656596888077, [((0, 0), (1, true, 1)), ((0, 1), (0, true, 1)), ((0, 2), (2, false, 0)), ((1,
  0), (2, false, 0)), ((1, 2), (2, true, 1))]⟩]

theorem done23_2l0_0r1_0 : ∃ h, Done list23_2l0_0r1_0 h :=
  ⟨[
    ⟨13835872258573, ⟨18, 9, 2, [[0, 1, 2], [1, 1, 2], [2, 2, 2]], [[0, 1, 1], [0, 1, 1]], [[⟨0,
    0, 0⟩], [⟨0, 1, 6⟩, ⟨1, 0, 2⟩, ⟨1, 1, 8⟩], [⟨0, 2, 12⟩, ⟨1, 2, 14⟩, ⟨2, 0, 4⟩, ⟨2, 1, 10⟩,
    ⟨2, 2, 16⟩]], [[⟨0, 0, 0⟩, ⟨1, 0, 1⟩], [⟨0, 1, 6⟩, ⟨0, 2, 12⟩, ⟨1, 1, 7⟩, ⟨1, 2, 13⟩]]⟩⟩,
    ⟨7084447639816717, ⟨84, 12, 7, [[0, 0, 1], [2, 2, 1], [0, 3, 1], [0, 0, 0]], [[0, 1, 2], [3,
    4, 3], [5, 5, 6], [3, 3, 3], [3, 3, 3], [6, 2, 6], [6, 6, 6]], [[⟨0, 0, 0⟩, ⟨0, 1, 28⟩, ⟨2,
    0, 14⟩, ⟨3, 0, 21⟩, ⟨3, 1, 49⟩, ⟨3, 2, 77⟩], [⟨0, 2, 56⟩, ⟨1, 2, 63⟩, ⟨2, 2, 70⟩], [⟨1, 0,
    7⟩, ⟨1, 1, 35⟩], [⟨2, 1, 42⟩]], [[⟨0, 0, 0⟩], [⟨0, 1, 28⟩], [⟨0, 2, 56⟩, ⟨5, 1, 33⟩], [⟨1, 0,
    1⟩, ⟨1, 2, 57⟩, ⟨3, 0, 3⟩, ⟨3, 1, 31⟩, ⟨3, 2, 59⟩, ⟨4, 0, 4⟩, ⟨4, 1, 32⟩, ⟨4, 2, 60⟩], [⟨1,
    1, 29⟩], [⟨2, 0, 2⟩, ⟨2, 1, 30⟩], [⟨2, 2, 58⟩, ⟨5, 0, 5⟩, ⟨5, 2, 61⟩, ⟨6, 0, 6⟩, ⟨6, 1, 34⟩,
    ⟨6, 2, 62⟩]]⟩⟩,
    ⟨14656592693773, ⟨18, 6, 3, [[0, 0, 1], [0, 0, 1]], [[0, 1, 2], [1, 1, 1], [2, 1, 2]], [[⟨0,
    0, 0⟩, ⟨0, 1, 6⟩, ⟨1, 0, 3⟩, ⟨1, 1, 9⟩], [⟨0, 2, 12⟩, ⟨1, 2, 15⟩]], [[⟨0, 0, 0⟩], [⟨0, 1, 6⟩,
    ⟨1, 0, 1⟩, ⟨1, 1, 7⟩, ⟨1, 2, 13⟩, ⟨2, 1, 8⟩], [⟨0, 2, 12⟩, ⟨2, 0, 2⟩, ⟨2, 2, 14⟩]]⟩⟩,
    ⟨7505285717445133, ⟨36, 9, 4, [[0, 0, 1], [0, 2, 1], [0, 0, 0]], [[0, 1, 2], [1, 1, 1], [3,
    3, 3], [3, 3, 3]], [[⟨0, 0, 0⟩, ⟨0, 1, 12⟩, ⟨1, 0, 4⟩, ⟨2, 0, 8⟩, ⟨2, 1, 20⟩, ⟨2, 2, 32⟩],
    [⟨0, 2, 24⟩, ⟨1, 2, 28⟩], [⟨1, 1, 16⟩]], [[⟨0, 0, 0⟩], [⟨0, 1, 12⟩, ⟨1, 0, 1⟩, ⟨1, 1, 13⟩,
    ⟨1, 2, 25⟩], [⟨0, 2, 24⟩], [⟨2, 0, 2⟩, ⟨2, 1, 14⟩, ⟨2, 2, 26⟩, ⟨3, 0, 3⟩, ⟨3, 1, 15⟩, ⟨3, 2,
    27⟩]]⟩⟩,
    ⟨14656596888077, ⟨18, 6, 3, [[0, 0, 1], [0, 0, 1]], [[0, 1, 2], [1, 1, 1], [2, 1, 2]], [[⟨0,
    0, 0⟩, ⟨0, 1, 6⟩, ⟨1, 0, 3⟩, ⟨1, 1, 9⟩], [⟨0, 2, 12⟩, ⟨1, 2, 15⟩]], [[⟨0, 0, 0⟩], [⟨0, 1, 6⟩,
    ⟨1, 0, 1⟩, ⟨1, 1, 7⟩, ⟨1, 2, 13⟩, ⟨2, 1, 8⟩], [⟨0, 2, 12⟩, ⟨2, 0, 2⟩, ⟨2, 2, 14⟩]]⟩⟩],
    by decide +kernel, by decide +kernel⟩

theorem child23_2l0_0r1 : AllDone (child (2, false, 0) (0, true, 1)) := by
  refine allDone_of [list23_2l0_0r1_0] ?_ (by decide +kernel)
  simp only [List.forall_mem_cons, List.not_mem_nil, false_imp_iff, implies_true, and_true]
  exact done23_2l0_0r1_0

def list23_2l0_1l0_0 : List Listed := [
  ⟨13490664263693, [((0, 0), (1, true, 1)), ((0, 1), (1, false, 0)), ((1, 0), (2, false, 0)),
  ((1, 1), (0, false, 1)), ((1, 2), (0, true, 0))]⟩,
  ⟨14040420077581, [((0, 0), (1, true, 1)), ((0, 1), (1, false, 0)), ((1, 0), (2, false, 0)),
  ((1, 1), (0, false, 1)), ((1, 2), (1, true, 0))]⟩,
  ⟨7470170062737421, [((0, 0), (1, true, 1)), ((0, 1), (1, false, 0)), ((0, 2), (0, false, 0)),
  ((1, 0), (2, false, 0)), ((1, 1), (0, false, 1)), ((1, 2), (2, true, 0))]⟩,
  ⟨7470170063785997, [((0, 0), (1, true, 1)), ((0, 1), (1, false, 0)), ((0, 2), (0, true, 0)),
  ((1, 0), (2, false, 0)), ((1, 1), (0, false, 1)), ((1, 2), (2, true, 0))]⟩,
  ⟨7470170065883149, [((0, 0), (1, true, 1)), ((0, 1), (1, false, 0)), ((0, 2), (1, true, 0)),
  ((1, 0), (2, false, 0)), ((1, 1), (0, false, 1)), ((1, 2), (2, true, 0))]⟩,
  ⟨7470170066145293, [((0, 0), (1, true, 1)), ((0, 1), (1, false, 0)), ((0, 2), (1, true, 1)),
  ((1, 0), (2, false, 0)), ((1, 1), (0, false, 1)), ((1, 2), (2, true, 0))]⟩,
  ⟨7505354435874829, [((0, 0), (1, true, 1)), ((0, 1), (1, false, 0)), ((0, 2), (0, true, 0)),
  ((1, 0), (2, false, 0)), ((1, 1), (0, false, 1)), ((1, 2), (2, true, 1))]⟩,
  ⟨7505354437971981, [((0, 0), (1, true, 1)), ((0, 1), (1, false, 0)), ((0, 2), (1, true, 0)),
  ((1, 0), (2, false, 0)), ((1, 1), (0, false, 1)), ((1, 2), (2, true, 1))]⟩,
  ⟨11289338335245, [((0, 0), (1, true, 1)), ((0, 1), (1, false, 0)), ((0, 2), (0, false, 0)),
  ((1, 0), (2, false, 0)), ((1, 1), (0, true, 0))]⟩,
  ⟨11289341480973, [((0, 0), (1, true, 1)), ((0, 1), (1, false, 0)), ((0, 2), (1, true, 0)), ((1,
  0), (2, false, 0)), ((1, 1), (0, true, 0))]⟩,
  ⟨6801873156984845, [((0, 0), (1, true, 1)), ((0, 1), (1, false, 0)), ((0, 2), (2, true, 1)),
  ((1, 0), (2, false, 0)), ((1, 1), (0, true, 0)), ((1, 2), (0, false, 1))]⟩,
  ⟨13216323227661, [((0, 0), (1, true, 1)), ((0, 1), (1, false, 0)), ((1, 0), (2, false, 0)),
  ((1, 1), (0, true, 1)), ((1, 2), (0, false, 0))]⟩,
  ⟨14040956948493, [((0, 0), (1, true, 1)), ((0, 1), (1, false, 0)), ((1, 0), (2, false, 0)),
  ((1, 1), (0, true, 1)), ((1, 2), (1, true, 0))]⟩,
  ⟨14315834855437, [((0, 0), (1, true, 1)), ((0, 1), (1, false, 0)), ((1, 0), (2, false, 0)),
  ((1, 1), (0, true, 1)), ((1, 2), (2, false, 0))]⟩,
  ⟨7470444940644365, [((0, 0), (1, true, 1)), ((0, 1), (1, false, 0)), ((0, 2), (0, false, 0)),
  ((1, 0), (2, false, 0)), ((1, 1), (0, true, 1)), ((1, 2), (2, true, 0))]⟩,
  ⟨7470444943003661, [((0, 0), (1, true, 1)), ((0, 1), (1, false, 0)), ((0, 2), (1, false, 1)),
  ((1, 0), (2, false, 0)), ((1, 1), (0, true, 1)), ((1, 2), (2, true, 0))]⟩,
  ⟨7505629315092493, [((0, 0), (1, true, 1)), ((0, 1), (1, false, 0)), ((0, 2), (1, false, 1)),
  ((1, 0), (2, false, 0)), ((1, 1), (0, true, 1)), ((1, 2), (2, true, 1))]⟩,
  ⟨13217396969485, [((0, 0), (1, true, 1)), ((0, 1), (1, false, 0)), ((1, 0), (2, false, 0)),
  ((1, 1), (1, true, 1)), ((1, 2), (0, false, 0))]⟩,
  ⟨13286116446221, [((0, 0), (1, true, 1)), ((0, 1), (1, false, 0)), ((1, 0), (2, false, 0)),
  ((1, 1), (1, true, 1)), ((1, 2), (0, false, 1))]⟩,
  ⟨13767152783373, [((0, 0), (1, true, 1)), ((0, 1), (1, false, 0)), ((1, 0), (2, false, 0)),
  ((1, 1), (1, true, 1)), ((1, 2), (1, false, 0))]⟩]

theorem done23_2l0_1l0_0 : ∃ h, Done list23_2l0_1l0_0 h :=
  ⟨[
    ⟨13490664263693, ⟨36, 9, 4, [[0, 1, 2], [0, 1, 2], [2, 2, 2]], [[0, 0, 1], [2, 2, 1], [3, 2,
    1], [3, 0, 2]], [[⟨0, 0, 0⟩, ⟨1, 0, 4⟩], [⟨0, 1, 12⟩, ⟨1, 1, 16⟩], [⟨0, 2, 24⟩, ⟨1, 2, 28⟩,
    ⟨2, 0, 8⟩, ⟨2, 1, 20⟩, ⟨2, 2, 32⟩]], [[⟨0, 0, 0⟩, ⟨0, 1, 12⟩, ⟨3, 1, 15⟩], [⟨0, 2, 24⟩, ⟨1,
    2, 25⟩, ⟨2, 2, 26⟩], [⟨1, 0, 1⟩, ⟨1, 1, 13⟩, ⟨2, 1, 14⟩, ⟨3, 2, 27⟩], [⟨2, 0, 2⟩, ⟨3, 0,
    3⟩]]⟩⟩,
    ⟨14040420077581, ⟨36, 9, 4, [[0, 1, 2], [0, 1, 2], [2, 2, 2]], [[0, 0, 1], [2, 2, 1], [3, 2,
    1], [3, 0, 2]], [[⟨0, 0, 0⟩, ⟨1, 0, 4⟩], [⟨0, 1, 12⟩, ⟨1, 1, 16⟩], [⟨0, 2, 24⟩, ⟨1, 2, 28⟩,
    ⟨2, 0, 8⟩, ⟨2, 1, 20⟩, ⟨2, 2, 32⟩]], [[⟨0, 0, 0⟩, ⟨0, 1, 12⟩, ⟨3, 1, 15⟩], [⟨0, 2, 24⟩, ⟨1,
    2, 25⟩, ⟨2, 2, 26⟩], [⟨1, 0, 1⟩, ⟨1, 1, 13⟩, ⟨2, 1, 14⟩, ⟨3, 2, 27⟩], [⟨2, 0, 2⟩, ⟨3, 0,
    3⟩]]⟩⟩,
    ⟨7470170062737421, ⟨63, 21, 3, [[0, 1, 2], [3, 4, 2], [5, 5, 2], [6, 2, 5], [3, 4, 5], [5, 5,
    5], [6, 1, 5]], [[0, 1, 1], [2, 2, 1], [2, 2, 2]], [[⟨0, 0, 0⟩], [⟨0, 1, 21⟩, ⟨6, 1, 39⟩],
    [⟨0, 2, 42⟩, ⟨1, 2, 45⟩, ⟨2, 2, 48⟩, ⟨3, 1, 30⟩], [⟨1, 0, 3⟩, ⟨4, 0, 12⟩], [⟨1, 1, 24⟩, ⟨4,
    1, 33⟩], [⟨2, 0, 6⟩, ⟨2, 1, 27⟩, ⟨3, 2, 51⟩, ⟨4, 2, 54⟩, ⟨5, 0, 15⟩, ⟨5, 1, 36⟩, ⟨5, 2, 57⟩,
    ⟨6, 2, 60⟩], [⟨3, 0, 9⟩, ⟨6, 0, 18⟩]], [[⟨0, 0, 0⟩], [⟨0, 1, 21⟩, ⟨0, 2, 42⟩, ⟨1, 2, 43⟩],
    [⟨1, 0, 1⟩, ⟨1, 1, 22⟩, ⟨2, 0, 2⟩, ⟨2, 1, 23⟩, ⟨2, 2, 44⟩]]⟩⟩,
    ⟨7470170063785997, ⟨36, 9, 4, [[0, 0, 1], [1, 2, 2], [0, 0, 1]], [[0, 1, 2], [1, 1, 1], [3,
    3, 2], [3, 3, 3]], [[⟨0, 0, 0⟩, ⟨0, 1, 12⟩, ⟨2, 0, 8⟩, ⟨2, 1, 20⟩], [⟨0, 2, 24⟩, ⟨1, 0, 4⟩,
    ⟨2, 2, 32⟩], [⟨1, 1, 16⟩, ⟨1, 2, 28⟩]], [[⟨0, 0, 0⟩], [⟨0, 1, 12⟩, ⟨1, 0, 1⟩, ⟨1, 1, 13⟩, ⟨1,
    2, 25⟩], [⟨0, 2, 24⟩, ⟨2, 2, 26⟩], [⟨2, 0, 2⟩, ⟨2, 1, 14⟩, ⟨3, 0, 3⟩, ⟨3, 1, 15⟩, ⟨3, 2,
    27⟩]]⟩⟩,
    ⟨7470170065883149, ⟨72, 9, 8, [[0, 0, 1], [0, 2, 0], [0, 2, 1]], [[0, 1, 2], [3, 4, 4], [5,
    5, 2], [6, 4, 2], [4, 4, 4], [5, 5, 5], [7, 4, 4], [6, 4, 5]], [[⟨0, 0, 0⟩, ⟨0, 1, 24⟩, ⟨1,
    0, 8⟩, ⟨1, 2, 56⟩, ⟨2, 0, 16⟩], [⟨0, 2, 48⟩, ⟨2, 2, 64⟩], [⟨1, 1, 32⟩, ⟨2, 1, 40⟩]], [[⟨0, 0,
    0⟩], [⟨0, 1, 24⟩], [⟨0, 2, 48⟩, ⟨2, 2, 50⟩, ⟨3, 2, 51⟩], [⟨1, 0, 1⟩], [⟨1, 1, 25⟩, ⟨1, 2,
    49⟩, ⟨3, 1, 27⟩, ⟨4, 0, 4⟩, ⟨4, 1, 28⟩, ⟨4, 2, 52⟩, ⟨6, 1, 30⟩, ⟨6, 2, 54⟩, ⟨7, 1, 31⟩], [⟨2,
    0, 2⟩, ⟨2, 1, 26⟩, ⟨5, 0, 5⟩, ⟨5, 1, 29⟩, ⟨5, 2, 53⟩, ⟨7, 2, 55⟩], [⟨3, 0, 3⟩, ⟨7, 0, 7⟩],
    [⟨6, 0, 6⟩]]⟩⟩,
    ⟨7470170066145293, ⟨54, 9, 6, [[0, 0, 1], [0, 1, 2], [0, 1, 0]], [[0, 1, 2], [3, 3, 4], [5,
    5, 5], [3, 3, 3], [2, 1, 2], [5, 5, 5]], [[⟨0, 0, 0⟩, ⟨0, 1, 18⟩, ⟨1, 0, 6⟩, ⟨2, 0, 12⟩, ⟨2,
    2, 48⟩], [⟨0, 2, 36⟩, ⟨1, 1, 24⟩, ⟨2, 1, 30⟩], [⟨1, 2, 42⟩]], [[⟨0, 0, 0⟩], [⟨0, 1, 18⟩, ⟨4,
    1, 22⟩], [⟨0, 2, 36⟩, ⟨4, 0, 4⟩, ⟨4, 2, 40⟩], [⟨1, 0, 1⟩, ⟨1, 1, 19⟩, ⟨3, 0, 3⟩, ⟨3, 1, 21⟩,
    ⟨3, 2, 39⟩], [⟨1, 2, 37⟩], [⟨2, 0, 2⟩, ⟨2, 1, 20⟩, ⟨2, 2, 38⟩, ⟨5, 0, 5⟩, ⟨5, 1, 23⟩, ⟨5, 2,
    41⟩]]⟩⟩,
    ⟨7505354435874829, ⟨147, 21, 7, [[0, 1, 2], [3, 1, 4], [5, 5, 5], [6, 4, 1], [3, 1, 4], [3,
    1, 1], [6, 4, 1]], [[0, 1, 2], [3, 3, 3], [4, 5, 2], [4, 2, 2], [6, 2, 5], [4, 5, 2], [6, 2,
    5]], [[⟨0, 0, 0⟩], [⟨0, 1, 49⟩, ⟨1, 1, 56⟩, ⟨3, 2, 119⟩, ⟨4, 1, 77⟩, ⟨5, 1, 84⟩, ⟨5, 2, 133⟩,
    ⟨6, 2, 140⟩], [⟨0, 2, 98⟩], [⟨1, 0, 7⟩, ⟨4, 0, 28⟩, ⟨5, 0, 35⟩], [⟨1, 2, 105⟩, ⟨3, 1, 70⟩,
    ⟨4, 2, 126⟩, ⟨6, 1, 91⟩], [⟨2, 0, 14⟩, ⟨2, 1, 63⟩, ⟨2, 2, 112⟩], [⟨3, 0, 21⟩, ⟨6, 0, 42⟩]],
    [[⟨0, 0, 0⟩], [⟨0, 1, 49⟩], [⟨0, 2, 98⟩, ⟨2, 2, 100⟩, ⟨3, 1, 52⟩, ⟨3, 2, 101⟩, ⟨4, 1, 53⟩,
    ⟨5, 2, 103⟩, ⟨6, 1, 55⟩], [⟨1, 0, 1⟩, ⟨1, 1, 50⟩, ⟨1, 2, 99⟩], [⟨2, 0, 2⟩, ⟨3, 0, 3⟩, ⟨5, 0,
    5⟩], [⟨2, 1, 51⟩, ⟨4, 2, 102⟩, ⟨5, 1, 54⟩, ⟨6, 2, 104⟩], [⟨4, 0, 4⟩, ⟨6, 0, 6⟩]]⟩⟩,
    ⟨7505354437971981, ⟨36, 9, 4, [[0, 1, 2], [0, 2, 0], [0, 2, 2]], [[0, 1, 2], [1, 1, 1], [3,
    3, 3], [3, 3, 3]], [[⟨0, 0, 0⟩, ⟨1, 0, 4⟩, ⟨1, 2, 28⟩, ⟨2, 0, 8⟩], [⟨0, 1, 12⟩], [⟨0, 2, 24⟩,
    ⟨1, 1, 16⟩, ⟨2, 1, 20⟩, ⟨2, 2, 32⟩]], [[⟨0, 0, 0⟩], [⟨0, 1, 12⟩, ⟨1, 0, 1⟩, ⟨1, 1, 13⟩, ⟨1,
    2, 25⟩], [⟨0, 2, 24⟩], [⟨2, 0, 2⟩, ⟨2, 1, 14⟩, ⟨2, 2, 26⟩, ⟨3, 0, 3⟩, ⟨3, 1, 15⟩, ⟨3, 2,
    27⟩]]⟩⟩,
    ⟨11289338335245, ⟨45, 9, 5, [[0, 1, 0], [2, 1, 0], [0, 1, 0]], [[0, 1, 2], [1, 1, 2], [3, 1,
    2], [1, 4, 2], [3, 4, 2]], [[⟨0, 0, 0⟩, ⟨0, 2, 30⟩, ⟨1, 2, 35⟩, ⟨2, 0, 10⟩, ⟨2, 2, 40⟩], [⟨0,
    1, 15⟩, ⟨1, 1, 20⟩, ⟨2, 1, 25⟩], [⟨1, 0, 5⟩]], [[⟨0, 0, 0⟩], [⟨0, 1, 15⟩, ⟨1, 0, 1⟩, ⟨1, 1,
    16⟩, ⟨2, 1, 17⟩, ⟨3, 0, 3⟩], [⟨0, 2, 30⟩, ⟨1, 2, 31⟩, ⟨2, 2, 32⟩, ⟨3, 2, 33⟩, ⟨4, 2, 34⟩],
    [⟨2, 0, 2⟩, ⟨4, 0, 4⟩], [⟨3, 1, 18⟩, ⟨4, 1, 19⟩]]⟩⟩,
    ⟨11289341480973, ⟨30, 6, 5, [[0, 1, 0], [0, 1, 0]], [[0, 1, 2], [1, 1, 1], [3, 4, 2], [2, 1,
    1], [4, 4, 2]], [[⟨0, 0, 0⟩, ⟨0, 2, 20⟩, ⟨1, 0, 5⟩, ⟨1, 2, 25⟩], [⟨0, 1, 10⟩, ⟨1, 1, 15⟩]],
    [[⟨0, 0, 0⟩], [⟨0, 1, 10⟩, ⟨1, 0, 1⟩, ⟨1, 1, 11⟩, ⟨1, 2, 21⟩, ⟨3, 1, 13⟩, ⟨3, 2, 23⟩], [⟨0,
    2, 20⟩, ⟨2, 2, 22⟩, ⟨3, 0, 3⟩, ⟨4, 2, 24⟩], [⟨2, 0, 2⟩], [⟨2, 1, 12⟩, ⟨4, 0, 4⟩, ⟨4, 1,
    14⟩]]⟩⟩,
    ⟨6801873156984845, ⟨24, 12, 2, [[0, 1, 2], [3, 3, 2], [2, 2, 2], [3, 3, 3]], [[0, 1, 0], [0,
    1, 0]], [[⟨0, 0, 0⟩], [⟨0, 1, 8⟩], [⟨0, 2, 16⟩, ⟨1, 2, 18⟩, ⟨2, 0, 4⟩, ⟨2, 1, 12⟩, ⟨2, 2,
    20⟩], [⟨1, 0, 2⟩, ⟨1, 1, 10⟩, ⟨3, 0, 6⟩, ⟨3, 1, 14⟩, ⟨3, 2, 22⟩]], [[⟨0, 0, 0⟩, ⟨0, 2, 16⟩,
    ⟨1, 0, 1⟩, ⟨1, 2, 17⟩], [⟨0, 1, 8⟩, ⟨1, 1, 9⟩]]⟩⟩,
    ⟨13216323227661, ⟨18, 9, 2, [[0, 1, 2], [1, 1, 2], [2, 2, 2]], [[0, 1, 0], [0, 1, 0]], [[⟨0,
    0, 0⟩], [⟨0, 1, 6⟩, ⟨1, 0, 2⟩, ⟨1, 1, 8⟩], [⟨0, 2, 12⟩, ⟨1, 2, 14⟩, ⟨2, 0, 4⟩, ⟨2, 1, 10⟩,
    ⟨2, 2, 16⟩]], [[⟨0, 0, 0⟩, ⟨0, 2, 12⟩, ⟨1, 0, 1⟩, ⟨1, 2, 13⟩], [⟨0, 1, 6⟩, ⟨1, 1, 7⟩]]⟩⟩,
    ⟨14040956948493, ⟨90, 9, 10, [[0, 1, 2], [0, 1, 2], [0, 2, 2]], [[0, 1, 2], [1, 1, 1], [3, 4,
    1], [5, 1, 2], [6, 4, 2], [3, 1, 1], [7, 1, 8], [0, 4, 2], [9, 4, 1], [2, 1, 8]], [[⟨0, 0,
    0⟩, ⟨1, 0, 10⟩, ⟨2, 0, 20⟩], [⟨0, 1, 30⟩, ⟨1, 1, 40⟩], [⟨0, 2, 60⟩, ⟨1, 2, 70⟩, ⟨2, 1, 50⟩,
    ⟨2, 2, 80⟩]], [[⟨0, 0, 0⟩, ⟨7, 0, 7⟩], [⟨0, 1, 30⟩, ⟨1, 0, 1⟩, ⟨1, 1, 31⟩, ⟨1, 2, 61⟩, ⟨2, 2,
    62⟩, ⟨3, 1, 33⟩, ⟨5, 1, 35⟩, ⟨5, 2, 65⟩, ⟨6, 1, 36⟩, ⟨8, 2, 68⟩, ⟨9, 1, 39⟩], [⟨0, 2, 60⟩,
    ⟨3, 2, 63⟩, ⟨4, 2, 64⟩, ⟨7, 2, 67⟩, ⟨9, 0, 9⟩], [⟨2, 0, 2⟩, ⟨5, 0, 5⟩], [⟨2, 1, 32⟩, ⟨4, 1,
    34⟩, ⟨7, 1, 37⟩, ⟨8, 1, 38⟩], [⟨3, 0, 3⟩], [⟨4, 0, 4⟩], [⟨6, 0, 6⟩], [⟨6, 2, 66⟩, ⟨9, 2,
    69⟩], [⟨8, 0, 8⟩]]⟩⟩,
    ⟨14315834855437, ⟨18, 6, 3, [[0, 0, 1], [1, 1, 1]], [[0, 1, 2], [2, 1, 2], [2, 2, 2]], [[⟨0,
    0, 0⟩, ⟨0, 1, 6⟩], [⟨0, 2, 12⟩, ⟨1, 0, 3⟩, ⟨1, 1, 9⟩, ⟨1, 2, 15⟩]], [[⟨0, 0, 0⟩], [⟨0, 1, 6⟩,
    ⟨1, 1, 7⟩], [⟨0, 2, 12⟩, ⟨1, 0, 1⟩, ⟨1, 2, 13⟩, ⟨2, 0, 2⟩, ⟨2, 1, 8⟩, ⟨2, 2, 14⟩]]⟩⟩,
    ⟨7470444940644365, ⟨24, 6, 4, [[0, 0, 1], [0, 0, 0]], [[0, 1, 0], [2, 1, 2], [1, 3, 1], [3,
    3, 3]], [[⟨0, 0, 0⟩, ⟨0, 1, 8⟩, ⟨1, 0, 4⟩, ⟨1, 1, 12⟩, ⟨1, 2, 20⟩], [⟨0, 2, 16⟩]], [[⟨0, 0,
    0⟩, ⟨0, 2, 16⟩], [⟨0, 1, 8⟩, ⟨1, 1, 9⟩, ⟨2, 0, 2⟩, ⟨2, 2, 18⟩], [⟨1, 0, 1⟩, ⟨1, 2, 17⟩], [⟨2,
    1, 10⟩, ⟨3, 0, 3⟩, ⟨3, 1, 11⟩, ⟨3, 2, 19⟩]]⟩⟩,
    ⟨7470444943003661, ⟨54, 6, 9, [[0, 0, 1], [0, 1, 0]], [[0, 1, 2], [1, 1, 1], [3, 4, 5], [1,
    1, 6], [4, 4, 4], [7, 1, 7], [8, 1, 1], [5, 4, 5], [6, 1, 2]], [[⟨0, 0, 0⟩, ⟨0, 1, 18⟩, ⟨1,
    0, 9⟩, ⟨1, 2, 45⟩], [⟨0, 2, 36⟩, ⟨1, 1, 27⟩]], [[⟨0, 0, 0⟩], [⟨0, 1, 18⟩, ⟨1, 0, 1⟩, ⟨1, 1,
    19⟩, ⟨1, 2, 37⟩, ⟨3, 0, 3⟩, ⟨3, 1, 21⟩, ⟨5, 1, 23⟩, ⟨6, 1, 24⟩, ⟨6, 2, 42⟩, ⟨8, 1, 26⟩], [⟨0,
    2, 36⟩, ⟨8, 2, 44⟩], [⟨2, 0, 2⟩], [⟨2, 1, 20⟩, ⟨4, 0, 4⟩, ⟨4, 1, 22⟩, ⟨4, 2, 40⟩, ⟨7, 1,
    25⟩], [⟨2, 2, 38⟩, ⟨7, 0, 7⟩, ⟨7, 2, 43⟩], [⟨3, 2, 39⟩, ⟨8, 0, 8⟩], [⟨5, 0, 5⟩, ⟨5, 2, 41⟩],
    [⟨6, 0, 6⟩]]⟩⟩,
    ⟨7505629315092493, ⟨30, 6, 5, [[0, 0, 1], [0, 0, 0]], [[0, 1, 2], [1, 1, 1], [1, 3, 4], [3,
    3, 3], [3, 1, 2]], [[⟨0, 0, 0⟩, ⟨0, 1, 10⟩, ⟨1, 0, 5⟩, ⟨1, 1, 15⟩, ⟨1, 2, 25⟩], [⟨0, 2,
    20⟩]], [[⟨0, 0, 0⟩], [⟨0, 1, 10⟩, ⟨1, 0, 1⟩, ⟨1, 1, 11⟩, ⟨1, 2, 21⟩, ⟨2, 0, 2⟩, ⟨4, 1, 14⟩],
    [⟨0, 2, 20⟩, ⟨4, 2, 24⟩], [⟨2, 1, 12⟩, ⟨3, 0, 3⟩, ⟨3, 1, 13⟩, ⟨3, 2, 23⟩, ⟨4, 0, 4⟩], [⟨2, 2,
    22⟩]]⟩⟩,
    ⟨13217396969485, ⟨18, 9, 2, [[0, 1, 2], [1, 1, 2], [2, 2, 2]], [[0, 1, 0], [0, 1, 0]], [[⟨0,
    0, 0⟩], [⟨0, 1, 6⟩, ⟨1, 0, 2⟩, ⟨1, 1, 8⟩], [⟨0, 2, 12⟩, ⟨1, 2, 14⟩, ⟨2, 0, 4⟩, ⟨2, 1, 10⟩,
    ⟨2, 2, 16⟩]], [[⟨0, 0, 0⟩, ⟨0, 2, 12⟩, ⟨1, 0, 1⟩, ⟨1, 2, 13⟩], [⟨0, 1, 6⟩, ⟨1, 1, 7⟩]]⟩⟩,
    ⟨13286116446221, ⟨18, 9, 2, [[0, 1, 2], [1, 1, 2], [2, 2, 2]], [[0, 0, 1], [0, 1, 1]], [[⟨0,
    0, 0⟩], [⟨0, 1, 6⟩, ⟨1, 0, 2⟩, ⟨1, 1, 8⟩], [⟨0, 2, 12⟩, ⟨1, 2, 14⟩, ⟨2, 0, 4⟩, ⟨2, 1, 10⟩,
    ⟨2, 2, 16⟩]], [[⟨0, 0, 0⟩, ⟨0, 1, 6⟩, ⟨1, 0, 1⟩], [⟨0, 2, 12⟩, ⟨1, 1, 7⟩, ⟨1, 2, 13⟩]]⟩⟩,
    ⟨13767152783373, ⟨18, 9, 2, [[0, 1, 2], [1, 1, 2], [2, 2, 2]], [[0, 1, 0], [0, 1, 0]], [[⟨0,
    0, 0⟩], [⟨0, 1, 6⟩, ⟨1, 0, 2⟩, ⟨1, 1, 8⟩], [⟨0, 2, 12⟩, ⟨1, 2, 14⟩, ⟨2, 0, 4⟩, ⟨2, 1, 10⟩,
    ⟨2, 2, 16⟩]], [[⟨0, 0, 0⟩, ⟨0, 2, 12⟩, ⟨1, 0, 1⟩, ⟨1, 2, 13⟩], [⟨0, 1, 6⟩, ⟨1, 1, 7⟩]]⟩⟩],
    by decide +kernel, by decide +kernel⟩

def list23_2l0_1l0_1 : List Listed := [
  ⟨13835872260109, [((0, 0), (1, true, 1)), ((0, 1), (1, false, 0)), ((1, 0), (2, false, 0)),
  ((1, 1), (1, true, 1)), ((1, 2), (1, false, 1))]⟩,
  ⟨14042030690317, [((0, 0), (1, true, 1)), ((0, 1), (1, false, 0)), ((1, 0), (2, false, 0)),
  ((1, 1), (1, true, 1)), ((1, 2), (1, true, 0))]⟩,
  ⟨14110750167053, [((0, 0), (1, true, 1)), ((0, 1), (1, false, 0)), ((1, 0), (2, false, 0)),
  ((1, 1), (1, true, 1)), ((1, 2), (1, true, 1))]⟩,
  ⟨14316908597261, [((0, 0), (1, true, 1)), ((0, 1), (1, false, 0)), ((1, 0), (2, false, 0)),
  ((1, 1), (1, true, 1)), ((1, 2), (2, false, 0))]⟩,
  ⟨6908319621992461, [((0, 0), (1, true, 1)), ((0, 1), (1, false, 0)), ((0, 2), (0, true, 0)),
  ((1, 0), (2, false, 0)), ((1, 1), (2, false, 1)), ((1, 2), (0, true, 0))]⟩,
  ⟨6908319622254605, [((0, 0), (1, true, 1)), ((0, 1), (1, false, 0)), ((0, 2), (0, true, 1)),
  ((1, 0), (2, false, 0)), ((1, 1), (2, false, 1)), ((1, 2), (0, true, 0))]⟩,
  ⟨7189794598703117, [((0, 0), (1, true, 1)), ((0, 1), (1, false, 0)), ((0, 2), (0, true, 0)),
  ((1, 0), (2, false, 0)), ((1, 1), (2, false, 1)), ((1, 2), (1, true, 0))]⟩,
  ⟨14111287037965, [((0, 0), (1, true, 1)), ((0, 1), (1, false, 0)), ((1, 0), (2, false, 0)),
  ((1, 1), (2, false, 1)), ((1, 2), (1, true, 1))]⟩,
  ⟨7471269575413773, [((0, 0), (1, true, 1)), ((0, 1), (1, false, 0)), ((0, 2), (0, true, 0)),
  ((1, 0), (2, false, 0)), ((1, 1), (2, false, 1)), ((1, 2), (2, true, 0))]⟩,
  ⟨7506453947502605, [((0, 0), (1, true, 1)), ((0, 1), (1, false, 0)), ((0, 2), (0, true, 0)),
  ((1, 0), (2, false, 0)), ((1, 1), (2, false, 1)), ((1, 2), (2, true, 1))]⟩,
  ⟨12388849963021, [((0, 0), (1, true, 1)), ((0, 1), (1, false, 0)), ((0, 2), (0, false, 0)),
  ((1, 0), (2, false, 0)), ((1, 1), (2, true, 0))]⟩,
  ⟨6767857011806221, [((0, 0), (1, true, 1)), ((0, 1), (1, false, 0)), ((0, 2), (0, true, 1)),
  ((1, 0), (2, false, 0)), ((1, 1), (2, true, 1)), ((1, 2), (0, false, 0))]⟩,
  ⟨6803041385730061, [((0, 0), (1, true, 1)), ((0, 1), (1, false, 0)), ((0, 2), (1, true, 0)),
  ((1, 0), (2, false, 0)), ((1, 1), (2, true, 1)), ((1, 2), (0, false, 1))]⟩]

theorem done23_2l0_1l0_1 : ∃ h, Done list23_2l0_1l0_1 h :=
  ⟨[
    ⟨13835872260109, ⟨18, 9, 2, [[0, 1, 2], [1, 1, 2], [2, 2, 2]], [[0, 0, 1], [0, 1, 1]], [[⟨0,
    0, 0⟩], [⟨0, 1, 6⟩, ⟨1, 0, 2⟩, ⟨1, 1, 8⟩], [⟨0, 2, 12⟩, ⟨1, 2, 14⟩, ⟨2, 0, 4⟩, ⟨2, 1, 10⟩,
    ⟨2, 2, 16⟩]], [[⟨0, 0, 0⟩, ⟨0, 1, 6⟩, ⟨1, 0, 1⟩], [⟨0, 2, 12⟩, ⟨1, 1, 7⟩, ⟨1, 2, 13⟩]]⟩⟩,
    ⟨14042030690317, ⟨45, 9, 5, [[0, 1, 2], [0, 1, 2], [2, 2, 2]], [[0, 1, 2], [1, 1, 2], [3, 1,
    4], [2, 4, 2], [4, 4, 4]], [[⟨0, 0, 0⟩, ⟨1, 0, 5⟩], [⟨0, 1, 15⟩, ⟨1, 1, 20⟩], [⟨0, 2, 30⟩,
    ⟨1, 2, 35⟩, ⟨2, 0, 10⟩, ⟨2, 1, 25⟩, ⟨2, 2, 40⟩]], [[⟨0, 0, 0⟩], [⟨0, 1, 15⟩, ⟨1, 0, 1⟩, ⟨1,
    1, 16⟩, ⟨2, 1, 17⟩], [⟨0, 2, 30⟩, ⟨1, 2, 31⟩, ⟨3, 0, 3⟩, ⟨3, 2, 33⟩], [⟨2, 0, 2⟩], [⟨2, 2,
    32⟩, ⟨3, 1, 18⟩, ⟨4, 0, 4⟩, ⟨4, 1, 19⟩, ⟨4, 2, 34⟩]]⟩⟩,
    ⟨14110750167053, ⟨18, 9, 2, [[0, 1, 2], [1, 1, 2], [2, 2, 2]], [[0, 0, 1], [0, 1, 1]], [[⟨0,
    0, 0⟩], [⟨0, 1, 6⟩, ⟨1, 0, 2⟩, ⟨1, 1, 8⟩], [⟨0, 2, 12⟩, ⟨1, 2, 14⟩, ⟨2, 0, 4⟩, ⟨2, 1, 10⟩,
    ⟨2, 2, 16⟩]], [[⟨0, 0, 0⟩, ⟨0, 1, 6⟩, ⟨1, 0, 1⟩], [⟨0, 2, 12⟩, ⟨1, 1, 7⟩, ⟨1, 2, 13⟩]]⟩⟩,
    ⟨14316908597261, ⟨18, 6, 3, [[0, 0, 1], [1, 1, 1]], [[0, 1, 2], [2, 1, 2], [2, 2, 2]], [[⟨0,
    0, 0⟩, ⟨0, 1, 6⟩], [⟨0, 2, 12⟩, ⟨1, 0, 3⟩, ⟨1, 1, 9⟩, ⟨1, 2, 15⟩]], [[⟨0, 0, 0⟩], [⟨0, 1, 6⟩,
    ⟨1, 1, 7⟩], [⟨0, 2, 12⟩, ⟨1, 0, 1⟩, ⟨1, 2, 13⟩, ⟨2, 0, 2⟩, ⟨2, 1, 8⟩, ⟨2, 2, 14⟩]]⟩⟩,
    ⟨6908319621992461, ⟨18, 9, 2, [[0, 1, 2], [1, 1, 0], [2, 2, 2]], [[0, 1, 1], [1, 1, 1]],
    [[⟨0, 0, 0⟩, ⟨1, 2, 14⟩], [⟨0, 1, 6⟩, ⟨1, 0, 2⟩, ⟨1, 1, 8⟩], [⟨0, 2, 12⟩, ⟨2, 0, 4⟩, ⟨2, 1,
    10⟩, ⟨2, 2, 16⟩]], [[⟨0, 0, 0⟩], [⟨0, 1, 6⟩, ⟨0, 2, 12⟩, ⟨1, 0, 1⟩, ⟨1, 1, 7⟩, ⟨1, 2, 13⟩]]⟩⟩,
    ⟨6908319622254605, ⟨18, 9, 2, [[0, 1, 2], [1, 1, 0], [2, 2, 2]], [[0, 1, 1], [1, 1, 1]],
    [[⟨0, 0, 0⟩, ⟨1, 2, 14⟩], [⟨0, 1, 6⟩, ⟨1, 0, 2⟩, ⟨1, 1, 8⟩], [⟨0, 2, 12⟩, ⟨2, 0, 4⟩, ⟨2, 1,
    10⟩, ⟨2, 2, 16⟩]], [[⟨0, 0, 0⟩], [⟨0, 1, 6⟩, ⟨0, 2, 12⟩, ⟨1, 0, 1⟩, ⟨1, 1, 7⟩, ⟨1, 2, 13⟩]]⟩⟩,
    ⟨7189794598703117, ⟨18, 9, 2, [[0, 1, 2], [1, 1, 0], [2, 2, 2]], [[0, 1, 1], [1, 1, 1]],
    [[⟨0, 0, 0⟩, ⟨1, 2, 14⟩], [⟨0, 1, 6⟩, ⟨1, 0, 2⟩, ⟨1, 1, 8⟩], [⟨0, 2, 12⟩, ⟨2, 0, 4⟩, ⟨2, 1,
    10⟩, ⟨2, 2, 16⟩]], [[⟨0, 0, 0⟩], [⟨0, 1, 6⟩, ⟨0, 2, 12⟩, ⟨1, 0, 1⟩, ⟨1, 1, 7⟩, ⟨1, 2, 13⟩]]⟩⟩,
    ⟨14111287037965, ⟨18, 9, 2, [[0, 1, 2], [1, 1, 2], [2, 2, 2]], [[0, 0, 1], [0, 1, 1]], [[⟨0,
    0, 0⟩], [⟨0, 1, 6⟩, ⟨1, 0, 2⟩, ⟨1, 1, 8⟩], [⟨0, 2, 12⟩, ⟨1, 2, 14⟩, ⟨2, 0, 4⟩, ⟨2, 1, 10⟩,
    ⟨2, 2, 16⟩]], [[⟨0, 0, 0⟩, ⟨0, 1, 6⟩, ⟨1, 0, 1⟩], [⟨0, 2, 12⟩, ⟨1, 1, 7⟩, ⟨1, 2, 13⟩]]⟩⟩,
    ⟨7471269575413773, ⟨18, 9, 2, [[0, 1, 2], [1, 1, 1], [2, 2, 2]], [[0, 1, 1], [1, 1, 1]],
    [[⟨0, 0, 0⟩], [⟨0, 1, 6⟩, ⟨1, 0, 2⟩, ⟨1, 1, 8⟩, ⟨1, 2, 14⟩], [⟨0, 2, 12⟩, ⟨2, 0, 4⟩, ⟨2, 1,
    10⟩, ⟨2, 2, 16⟩]], [[⟨0, 0, 0⟩], [⟨0, 1, 6⟩, ⟨0, 2, 12⟩, ⟨1, 0, 1⟩, ⟨1, 1, 7⟩, ⟨1, 2, 13⟩]]⟩⟩,
    ⟨7506453947502605, ⟨18, 9, 2, [[0, 1, 2], [1, 1, 1], [2, 2, 2]], [[0, 1, 1], [1, 1, 1]],
    [[⟨0, 0, 0⟩], [⟨0, 1, 6⟩, ⟨1, 0, 2⟩, ⟨1, 1, 8⟩, ⟨1, 2, 14⟩], [⟨0, 2, 12⟩, ⟨2, 0, 4⟩, ⟨2, 1,
    10⟩, ⟨2, 2, 16⟩]], [[⟨0, 0, 0⟩], [⟨0, 1, 6⟩, ⟨0, 2, 12⟩, ⟨1, 0, 1⟩, ⟨1, 1, 7⟩, ⟨1, 2, 13⟩]]⟩⟩,
    ⟨12388849963021, ⟨45, 9, 5, [[0, 1, 0], [0, 1, 2], [0, 1, 0]], [[0, 1, 2], [1, 1, 2], [3, 1,
    2], [1, 4, 2], [3, 4, 2]], [[⟨0, 0, 0⟩, ⟨0, 2, 30⟩, ⟨1, 0, 5⟩, ⟨2, 0, 10⟩, ⟨2, 2, 40⟩], [⟨0,
    1, 15⟩, ⟨1, 1, 20⟩, ⟨2, 1, 25⟩], [⟨1, 2, 35⟩]], [[⟨0, 0, 0⟩], [⟨0, 1, 15⟩, ⟨1, 0, 1⟩, ⟨1, 1,
    16⟩, ⟨2, 1, 17⟩, ⟨3, 0, 3⟩], [⟨0, 2, 30⟩, ⟨1, 2, 31⟩, ⟨2, 2, 32⟩, ⟨3, 2, 33⟩, ⟨4, 2, 34⟩],
    [⟨2, 0, 2⟩, ⟨4, 0, 4⟩], [⟨3, 1, 18⟩, ⟨4, 1, 19⟩]]⟩⟩,
    ⟨6767857011806221, ⟨18, 9, 2, [[0, 1, 2], [1, 1, 1], [2, 2, 2]], [[0, 1, 1], [1, 1, 1]],
    [[⟨0, 0, 0⟩], [⟨0, 1, 6⟩, ⟨1, 0, 2⟩, ⟨1, 1, 8⟩, ⟨1, 2, 14⟩], [⟨0, 2, 12⟩, ⟨2, 0, 4⟩, ⟨2, 1,
    10⟩, ⟨2, 2, 16⟩]], [[⟨0, 0, 0⟩], [⟨0, 1, 6⟩, ⟨0, 2, 12⟩, ⟨1, 0, 1⟩, ⟨1, 1, 7⟩, ⟨1, 2, 13⟩]]⟩⟩,
    ⟨6803041385730061, ⟨18, 9, 2, [[0, 1, 2], [1, 1, 1], [1, 1, 2]], [[0, 1, 1], [0, 1, 1]],
    [[⟨0, 0, 0⟩], [⟨0, 1, 6⟩, ⟨1, 0, 2⟩, ⟨1, 1, 8⟩, ⟨1, 2, 14⟩, ⟨2, 0, 4⟩, ⟨2, 1, 10⟩], [⟨0, 2,
    12⟩, ⟨2, 2, 16⟩]], [[⟨0, 0, 0⟩, ⟨1, 0, 1⟩], [⟨0, 1, 6⟩, ⟨0, 2, 12⟩, ⟨1, 1, 7⟩, ⟨1, 2, 13⟩]]⟩⟩],
    by decide +kernel, by decide +kernel⟩

theorem child23_2l0_1l0 : AllDone (child (2, false, 0) (1, false, 0)) := by
  refine allDone_of [list23_2l0_1l0_0, list23_2l0_1l0_1] ?_ (by decide +kernel)
  simp only [List.forall_mem_cons, List.not_mem_nil, false_imp_iff, implies_true, and_true]
  exact ⟨done23_2l0_1l0_0, done23_2l0_1l0_1⟩

end BB.Records
