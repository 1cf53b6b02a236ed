import Verif.Props.RecordsTwoThreeG

/-!
# C79 for two states and three colours: programs with some instructions at B0
-/

namespace BB.Records

open Watch

def list23_2l0_2l1_0 : List Listed := [
  ⟨6802422908346893, [((0, 0), (1, true, 1)), ((0, 1), (2, false, 1)), ((0, 2), (0, true, 0)),
  ((1, 0), (2, false, 0)), ((1, 1), (1, true, 0)), ((1, 2), (0, false, 1))]⟩,
  ⟨6803041385734669, [((0, 0), (1, true, 1)), ((0, 1), (2, false, 1)), ((0, 2), (1, true, 0)),
  ((1, 0), (2, false, 0)), ((1, 1), (2, true, 1)), ((1, 2), (0, false, 1))]⟩,
  ⟨6803041387831821, [((0, 0), (1, true, 1)), ((0, 1), (2, false, 1)), ((0, 2), (2, true, 0)),
  ((1, 0), (2, false, 0)), ((1, 1), (2, true, 1)), ((1, 2), (0, false, 1))]⟩,
  ⟨13488362643981, [((0, 0), (1, true, 1)), ((0, 1), (2, false, 1)), ((0, 2), (0, true, 0)), ((1,
  0), (2, false, 0)), ((1, 2), (0, true, 0))]⟩,
  ⟨13488362906125, [((0, 0), (1, true, 1)), ((0, 1), (2, false, 1)), ((0, 2), (0, true, 1)), ((1,
  0), (2, false, 0)), ((1, 2), (0, true, 0))]⟩,
  ⟨6907220111417869, [((0, 0), (1, true, 1)), ((0, 1), (2, false, 1)), ((0, 2), (1, false, 0)),
  ((1, 0), (2, false, 0)), ((1, 1), (0, false, 1)), ((1, 2), (0, true, 0))]⟩,
  ⟨6907220112466445, [((0, 0), (1, true, 1)), ((0, 1), (2, false, 1)), ((0, 2), (1, true, 0)),
  ((1, 0), (2, false, 0)), ((1, 1), (0, false, 1)), ((1, 2), (0, true, 0))]⟩,
  ⟨13488365003277, [((0, 0), (1, true, 1)), ((0, 1), (2, false, 1)), ((0, 2), (1, true, 1)), ((1,
  0), (2, false, 0)), ((1, 2), (0, true, 0))]⟩,
  ⟨13488367100429, [((0, 0), (1, true, 1)), ((0, 1), (2, false, 1)), ((0, 2), (2, true, 1)), ((1,
  0), (2, false, 0)), ((1, 2), (0, true, 0))]⟩,
  ⟨7083897885057549, [((0, 0), (1, true, 1)), ((0, 1), (2, false, 1)), ((0, 2), (0, true, 0)),
  ((1, 0), (2, false, 0)), ((1, 1), (1, true, 0)), ((1, 2), (1, false, 1))]⟩,
  ⟨7084516360348173, [((0, 0), (1, true, 1)), ((0, 1), (2, false, 1)), ((0, 2), (0, true, 0)),
  ((1, 0), (2, false, 0)), ((1, 1), (2, true, 1)), ((1, 2), (1, false, 1))]⟩,
  ⟨7188695086031373, [((0, 0), (1, true, 1)), ((0, 1), (2, false, 1)), ((0, 2), (0, false, 0)),
  ((1, 0), (2, false, 0)), ((1, 1), (0, false, 1)), ((1, 2), (1, true, 0))]⟩,
  ⟨7188695086293517, [((0, 0), (1, true, 1)), ((0, 1), (2, false, 1)), ((0, 2), (0, false, 1)),
  ((1, 0), (2, false, 0)), ((1, 1), (0, false, 1)), ((1, 2), (1, true, 0))]⟩,
  ⟨14038118457869, [((0, 0), (1, true, 1)), ((0, 1), (2, false, 1)), ((0, 2), (0, true, 0)), ((1,
  0), (2, false, 0)), ((1, 2), (1, true, 0))]⟩,
  ⟨7188695087342093, [((0, 0), (1, true, 1)), ((0, 1), (2, false, 1)), ((0, 2), (0, true, 1)),
  ((1, 0), (2, false, 0)), ((1, 1), (0, false, 1)), ((1, 2), (1, true, 0))]⟩,
  ⟨7188695088128525, [((0, 0), (1, true, 1)), ((0, 1), (2, false, 1)), ((0, 2), (1, false, 0)),
  ((1, 0), (2, false, 0)), ((1, 1), (0, false, 1)), ((1, 2), (1, true, 0))]⟩,
  ⟨7188695088390669, [((0, 0), (1, true, 1)), ((0, 1), (2, false, 1)), ((0, 2), (1, false, 1)),
  ((1, 0), (2, false, 0)), ((1, 1), (0, false, 1)), ((1, 2), (1, true, 0))]⟩,
  ⟨7188695089177101, [((0, 0), (1, true, 1)), ((0, 1), (2, false, 1)), ((0, 2), (1, true, 0)),
  ((1, 0), (2, false, 0)), ((1, 1), (0, false, 1)), ((1, 2), (1, true, 0))]⟩,
  ⟨7188695089439245, [((0, 0), (1, true, 1)), ((0, 1), (2, false, 1)), ((0, 2), (1, true, 1)),
  ((1, 0), (2, false, 0)), ((1, 1), (0, false, 1)), ((1, 2), (1, true, 0))]⟩,
  ⟨7188695090225677, [((0, 0), (1, true, 1)), ((0, 1), (2, false, 1)), ((0, 2), (2, false, 0)),
  ((1, 0), (2, false, 0)), ((1, 1), (0, false, 1)), ((1, 2), (1, true, 0))]⟩]

theorem done23_2l0_2l1_0 : ∃ h, Done list23_2l0_2l1_0 h :=
  ⟨[
    ⟨6802422908346893, ⟨18, 9, 2, [[0, 1, 2], [1, 1, 0], [2, 2, 2]], [[0, 1, 1], [1, 1, 1]],
    [[⟨0, 0, 0⟩, ⟨1, 2, 14⟩], [⟨0, 1, 6⟩, ⟨1, 0, 2⟩, ⟨1, 1, 8⟩], [⟨0, 2, 12⟩, ⟨2, 0, 4⟩, ⟨2, 1,
    10⟩, ⟨2, 2, 16⟩]], [[⟨0, 0, 0⟩], [⟨0, 1, 6⟩, ⟨0, 2, 12⟩, ⟨1, 0, 1⟩, ⟨1, 1, 7⟩, ⟨1, 2, 13⟩]]⟩⟩,
    ⟨6803041385734669, ⟨54, 18, 3, [[0, 1, 2], [3, 4, 3], [3, 5, 2], [3, 3, 3], [2, 3, 3], [2, 4,
    3]], [[0, 0, 1], [0, 2, 1], [0, 2, 1]], [[⟨0, 0, 0⟩], [⟨0, 1, 18⟩], [⟨0, 2, 36⟩, ⟨2, 2, 42⟩,
    ⟨4, 0, 12⟩, ⟨5, 0, 15⟩], [⟨1, 0, 3⟩, ⟨1, 2, 39⟩, ⟨2, 0, 6⟩, ⟨3, 0, 9⟩, ⟨3, 1, 27⟩, ⟨3, 2,
    45⟩, ⟨4, 1, 30⟩, ⟨4, 2, 48⟩, ⟨5, 2, 51⟩], [⟨1, 1, 21⟩, ⟨5, 1, 33⟩], [⟨2, 1, 24⟩]], [[⟨0, 0,
    0⟩, ⟨0, 1, 18⟩, ⟨1, 0, 1⟩, ⟨2, 0, 2⟩], [⟨0, 2, 36⟩, ⟨1, 2, 37⟩, ⟨2, 2, 38⟩], [⟨1, 1, 19⟩, ⟨2,
    1, 20⟩]]⟩⟩,
    ⟨6803041387831821, ⟨63, 21, 3, [[0, 1, 2], [3, 4, 3], [3, 1, 2], [3, 3, 3], [5, 3, 3], [4, 6,
    6], [6, 6, 6]], [[0, 0, 1], [2, 1, 1], [2, 0, 1]], [[⟨0, 0, 0⟩], [⟨0, 1, 21⟩, ⟨2, 1, 27⟩],
    [⟨0, 2, 42⟩, ⟨2, 2, 48⟩], [⟨1, 0, 3⟩, ⟨1, 2, 45⟩, ⟨2, 0, 6⟩, ⟨3, 0, 9⟩, ⟨3, 1, 30⟩, ⟨3, 2,
    51⟩, ⟨4, 1, 33⟩, ⟨4, 2, 54⟩], [⟨1, 1, 24⟩, ⟨5, 0, 15⟩], [⟨4, 0, 12⟩], [⟨5, 1, 36⟩, ⟨5, 2,
    57⟩, ⟨6, 0, 18⟩, ⟨6, 1, 39⟩, ⟨6, 2, 60⟩]], [[⟨0, 0, 0⟩, ⟨0, 1, 21⟩, ⟨2, 1, 23⟩], [⟨0, 2, 42⟩,
    ⟨1, 1, 22⟩, ⟨1, 2, 43⟩, ⟨2, 2, 44⟩], [⟨1, 0, 1⟩, ⟨2, 0, 2⟩]]⟩⟩,
    ⟨13488362643981, ⟨48, 12, 4, [[0, 1, 2], [3, 2, 2], [2, 2, 2], [1, 1, 1]], [[0, 1, 2], [1, 1,
    1], [1, 1, 3], [1, 1, 2]], [[⟨0, 0, 0⟩], [⟨0, 1, 16⟩, ⟨3, 0, 12⟩, ⟨3, 1, 28⟩, ⟨3, 2, 44⟩],
    [⟨0, 2, 32⟩, ⟨1, 1, 20⟩, ⟨1, 2, 36⟩, ⟨2, 0, 8⟩, ⟨2, 1, 24⟩, ⟨2, 2, 40⟩], [⟨1, 0, 4⟩]], [[⟨0,
    0, 0⟩], [⟨0, 1, 16⟩, ⟨1, 0, 1⟩, ⟨1, 1, 17⟩, ⟨1, 2, 33⟩, ⟨2, 0, 2⟩, ⟨2, 1, 18⟩, ⟨3, 0, 3⟩, ⟨3,
    1, 19⟩], [⟨0, 2, 32⟩, ⟨3, 2, 35⟩], [⟨2, 2, 34⟩]]⟩⟩,
    ⟨13488362906125, ⟨36, 12, 3, [[0, 1, 2], [3, 2, 2], [2, 2, 2], [1, 1, 1]], [[0, 1, 2], [1, 1,
    1], [1, 1, 2]], [[⟨0, 0, 0⟩], [⟨0, 1, 12⟩, ⟨3, 0, 9⟩, ⟨3, 1, 21⟩, ⟨3, 2, 33⟩], [⟨0, 2, 24⟩,
    ⟨1, 1, 15⟩, ⟨1, 2, 27⟩, ⟨2, 0, 6⟩, ⟨2, 1, 18⟩, ⟨2, 2, 30⟩], [⟨1, 0, 3⟩]], [[⟨0, 0, 0⟩], [⟨0,
    1, 12⟩, ⟨1, 0, 1⟩, ⟨1, 1, 13⟩, ⟨1, 2, 25⟩, ⟨2, 0, 2⟩, ⟨2, 1, 14⟩], [⟨0, 2, 24⟩, ⟨2, 2,
    26⟩]]⟩⟩,
    ⟨6907220111417869, ⟨84, 12, 7, [[0, 1, 0], [0, 1, 2], [3, 2, 3], [3, 2, 3]], [[0, 1, 2], [3,
    4, 5], [6, 1, 1], [4, 4, 5], [4, 4, 4], [3, 4, 4], [1, 1, 2]], [[⟨0, 0, 0⟩, ⟨0, 2, 56⟩, ⟨1,
    0, 7⟩], [⟨0, 1, 28⟩, ⟨1, 1, 35⟩], [⟨1, 2, 63⟩, ⟨2, 1, 42⟩, ⟨3, 1, 49⟩], [⟨2, 0, 14⟩, ⟨2, 2,
    70⟩, ⟨3, 0, 21⟩, ⟨3, 2, 77⟩]], [[⟨0, 0, 0⟩], [⟨0, 1, 28⟩, ⟨2, 1, 30⟩, ⟨2, 2, 58⟩, ⟨6, 0, 6⟩,
    ⟨6, 1, 34⟩], [⟨0, 2, 56⟩, ⟨6, 2, 62⟩], [⟨1, 0, 1⟩, ⟨5, 0, 5⟩], [⟨1, 1, 29⟩, ⟨3, 0, 3⟩, ⟨3, 1,
    31⟩, ⟨4, 0, 4⟩, ⟨4, 1, 32⟩, ⟨4, 2, 60⟩, ⟨5, 1, 33⟩, ⟨5, 2, 61⟩], [⟨1, 2, 57⟩, ⟨3, 2, 59⟩],
    [⟨2, 0, 2⟩]]⟩⟩,
    ⟨6907220112466445, ⟨45, 9, 5, [[0, 1, 0], [0, 1, 2], [2, 0, 0]], [[0, 1, 2], [1, 1, 1], [3,
    2, 4], [2, 1, 1], [4, 4, 4]], [[⟨0, 0, 0⟩, ⟨0, 2, 30⟩, ⟨1, 0, 5⟩, ⟨2, 1, 25⟩, ⟨2, 2, 40⟩],
    [⟨0, 1, 15⟩, ⟨1, 1, 20⟩], [⟨1, 2, 35⟩, ⟨2, 0, 10⟩]], [[⟨0, 0, 0⟩], [⟨0, 1, 15⟩, ⟨1, 0, 1⟩,
    ⟨1, 1, 16⟩, ⟨1, 2, 31⟩, ⟨3, 1, 18⟩, ⟨3, 2, 33⟩], [⟨0, 2, 30⟩, ⟨2, 1, 17⟩, ⟨3, 0, 3⟩], [⟨2, 0,
    2⟩], [⟨2, 2, 32⟩, ⟨4, 0, 4⟩, ⟨4, 1, 19⟩, ⟨4, 2, 34⟩]]⟩⟩,
    ⟨13488365003277, ⟨36, 12, 3, [[0, 1, 0], [2, 3, 2], [1, 1, 1], [3, 3, 3]], [[0, 1, 2], [1, 1,
    1], [0, 1, 2]], [[⟨0, 0, 0⟩, ⟨0, 2, 24⟩], [⟨0, 1, 12⟩, ⟨2, 0, 6⟩, ⟨2, 1, 18⟩, ⟨2, 2, 30⟩],
    [⟨1, 0, 3⟩, ⟨1, 2, 27⟩], [⟨1, 1, 15⟩, ⟨3, 0, 9⟩, ⟨3, 1, 21⟩, ⟨3, 2, 33⟩]], [[⟨0, 0, 0⟩, ⟨2,
    0, 2⟩], [⟨0, 1, 12⟩, ⟨1, 0, 1⟩, ⟨1, 1, 13⟩, ⟨1, 2, 25⟩, ⟨2, 1, 14⟩], [⟨0, 2, 24⟩, ⟨2, 2,
    26⟩]]⟩⟩,
    ⟨13488367100429, ⟨24, 12, 2, [[0, 0, 1], [2, 0, 3], [1, 1, 1], [3, 1, 3]], [[0, 1, 0], [1, 1,
    1]], [[⟨0, 0, 0⟩, ⟨0, 1, 8⟩, ⟨1, 1, 10⟩], [⟨0, 2, 16⟩, ⟨2, 0, 4⟩, ⟨2, 1, 12⟩, ⟨2, 2, 20⟩, ⟨3,
    1, 14⟩], [⟨1, 0, 2⟩], [⟨1, 2, 18⟩, ⟨3, 0, 6⟩, ⟨3, 2, 22⟩]], [[⟨0, 0, 0⟩, ⟨0, 2, 16⟩], [⟨0, 1,
    8⟩, ⟨1, 0, 1⟩, ⟨1, 1, 9⟩, ⟨1, 2, 17⟩]]⟩⟩,
    ⟨7083897885057549, ⟨18, 9, 2, [[0, 1, 2], [1, 1, 0], [2, 2, 2]], [[0, 1, 1], [1, 1, 1]],
    [[⟨0, 0, 0⟩, ⟨1, 2, 14⟩], [⟨0, 1, 6⟩, ⟨1, 0, 2⟩, ⟨1, 1, 8⟩], [⟨0, 2, 12⟩, ⟨2, 0, 4⟩, ⟨2, 1,
    10⟩, ⟨2, 2, 16⟩]], [[⟨0, 0, 0⟩], [⟨0, 1, 6⟩, ⟨0, 2, 12⟩, ⟨1, 0, 1⟩, ⟨1, 1, 7⟩, ⟨1, 2, 13⟩]]⟩⟩,
    ⟨7084516360348173, ⟨72, 12, 6, [[0, 0, 1], [2, 0, 2], [3, 1, 2], [3, 2, 1]], [[0, 1, 2], [2,
    3, 3], [4, 5, 2], [3, 3, 3], [5, 1, 3], [3, 3, 3]], [[⟨0, 0, 0⟩, ⟨0, 1, 24⟩, ⟨1, 1, 30⟩],
    [⟨0, 2, 48⟩, ⟨2, 1, 36⟩, ⟨3, 2, 66⟩], [⟨1, 0, 6⟩, ⟨1, 2, 54⟩, ⟨2, 2, 60⟩, ⟨3, 1, 42⟩], [⟨2,
    0, 12⟩, ⟨3, 0, 18⟩]], [[⟨0, 0, 0⟩], [⟨0, 1, 24⟩, ⟨4, 1, 28⟩], [⟨0, 2, 48⟩, ⟨1, 0, 1⟩, ⟨2, 2,
    50⟩], [⟨1, 1, 25⟩, ⟨1, 2, 49⟩, ⟨3, 0, 3⟩, ⟨3, 1, 27⟩, ⟨3, 2, 51⟩, ⟨4, 2, 52⟩, ⟨5, 0, 5⟩, ⟨5,
    1, 29⟩, ⟨5, 2, 53⟩], [⟨2, 0, 2⟩], [⟨2, 1, 26⟩, ⟨4, 0, 4⟩]]⟩⟩,
    ⟨7188695086031373, ⟨27, 9, 3, [[0, 1, 2], [1, 1, 1], [1, 1, 2]], [[0, 1, 2], [1, 1, 1], [2,
    0, 2]], [[⟨0, 0, 0⟩], [⟨0, 1, 9⟩, ⟨1, 0, 3⟩, ⟨1, 1, 12⟩, ⟨1, 2, 21⟩, ⟨2, 0, 6⟩, ⟨2, 1, 15⟩],
    [⟨0, 2, 18⟩, ⟨2, 2, 24⟩]], [[⟨0, 0, 0⟩, ⟨2, 1, 11⟩], [⟨0, 1, 9⟩, ⟨1, 0, 1⟩, ⟨1, 1, 10⟩, ⟨1,
    2, 19⟩], [⟨0, 2, 18⟩, ⟨2, 0, 2⟩, ⟨2, 2, 20⟩]]⟩⟩,
    ⟨7188695086293517, ⟨96, 24, 4, [[0, 1, 2], [3, 4, 5], [3, 6, 6], [2, 7, 1], [1, 1, 2], [1, 7,
    1], [6, 6, 6], [5, 5, 5]], [[0, 1, 2], [1, 1, 1], [3, 1, 3], [2, 1, 2]], [[⟨0, 0, 0⟩], [⟨0,
    1, 32⟩, ⟨3, 2, 76⟩, ⟨4, 0, 16⟩, ⟨4, 1, 48⟩, ⟨5, 0, 20⟩, ⟨5, 2, 84⟩], [⟨0, 2, 64⟩, ⟨3, 0, 12⟩,
    ⟨4, 2, 80⟩], [⟨1, 0, 4⟩, ⟨2, 0, 8⟩], [⟨1, 1, 36⟩], [⟨1, 2, 68⟩, ⟨7, 0, 28⟩, ⟨7, 1, 60⟩, ⟨7,
    2, 92⟩], [⟨2, 1, 40⟩, ⟨2, 2, 72⟩, ⟨6, 0, 24⟩, ⟨6, 1, 56⟩, ⟨6, 2, 88⟩], [⟨3, 1, 44⟩, ⟨5, 1,
    52⟩]], [[⟨0, 0, 0⟩], [⟨0, 1, 32⟩, ⟨1, 0, 1⟩, ⟨1, 1, 33⟩, ⟨1, 2, 65⟩, ⟨2, 1, 34⟩, ⟨3, 1, 35⟩],
    [⟨0, 2, 64⟩, ⟨3, 0, 3⟩, ⟨3, 2, 67⟩], [⟨2, 0, 2⟩, ⟨2, 2, 66⟩]]⟩⟩,
    ⟨14038118457869, ⟨105, 21, 5, [[0, 1, 2], [3, 4, 2], [5, 1, 2], [6, 4, 2], [3, 4, 2], [0, 4,
    2], [0, 1, 2]], [[0, 1, 2], [1, 1, 1], [1, 1, 3], [1, 1, 4], [1, 1, 1]], [[⟨0, 0, 0⟩, ⟨5, 0,
    25⟩, ⟨6, 0, 30⟩], [⟨0, 1, 35⟩, ⟨2, 1, 45⟩, ⟨6, 1, 65⟩], [⟨0, 2, 70⟩, ⟨1, 2, 75⟩, ⟨2, 2, 80⟩,
    ⟨3, 2, 85⟩, ⟨4, 2, 90⟩, ⟨5, 2, 95⟩, ⟨6, 2, 100⟩], [⟨1, 0, 5⟩, ⟨4, 0, 20⟩], [⟨1, 1, 40⟩, ⟨3,
    1, 50⟩, ⟨4, 1, 55⟩, ⟨5, 1, 60⟩], [⟨2, 0, 10⟩], [⟨3, 0, 15⟩]], [[⟨0, 0, 0⟩], [⟨0, 1, 35⟩, ⟨1,
    0, 1⟩, ⟨1, 1, 36⟩, ⟨1, 2, 71⟩, ⟨2, 0, 2⟩, ⟨2, 1, 37⟩, ⟨3, 0, 3⟩, ⟨3, 1, 38⟩, ⟨4, 0, 4⟩, ⟨4,
    1, 39⟩, ⟨4, 2, 74⟩], [⟨0, 2, 70⟩], [⟨2, 2, 72⟩], [⟨3, 2, 73⟩]]⟩⟩,
    ⟨7188695087342093, ⟨45, 9, 5, [[0, 1, 0], [0, 2, 0], [1, 2, 0]], [[0, 1, 2], [1, 1, 1], [1,
    1, 3], [4, 1, 2], [4, 4, 4]], [[⟨0, 0, 0⟩, ⟨0, 2, 30⟩, ⟨1, 0, 5⟩, ⟨1, 2, 35⟩, ⟨2, 2, 40⟩],
    [⟨0, 1, 15⟩, ⟨2, 0, 10⟩], [⟨1, 1, 20⟩, ⟨2, 1, 25⟩]], [[⟨0, 0, 0⟩], [⟨0, 1, 15⟩, ⟨1, 0, 1⟩,
    ⟨1, 1, 16⟩, ⟨1, 2, 31⟩, ⟨2, 0, 2⟩, ⟨2, 1, 17⟩, ⟨3, 1, 18⟩], [⟨0, 2, 30⟩, ⟨3, 2, 33⟩], [⟨2, 2,
    32⟩], [⟨3, 0, 3⟩, ⟨4, 0, 4⟩, ⟨4, 1, 19⟩, ⟨4, 2, 34⟩]]⟩⟩,
    ⟨7188695088128525, ⟨252, 63, 4, [[0, 1, 2], [3, 4, 5], [2, 2, 2], [6, 7, 2], [8, 1, 9], [6,
    1, 2], [5, 2, 2], [10, 11, 12], [5, 13, 12], [3, 2, 2], [8, 7, 9], [8, 14, 15], [6, 16, 17],
    [8, 1, 2], [10, 11, 18], [2, 13, 12], [3, 4, 13], [2, 19, 17], [8, 16, 17], [2, 2, 20], [15,
    2, 2]], [[0, 0, 1], [0, 2, 2], [3, 0, 3], [2, 2, 2]], [[⟨0, 0, 0⟩], [⟨0, 1, 84⟩, ⟨4, 1, 100⟩,
    ⟨5, 1, 104⟩, ⟨13, 1, 136⟩], [⟨0, 2, 168⟩, ⟨2, 0, 8⟩, ⟨2, 1, 92⟩, ⟨2, 2, 176⟩, ⟨3, 2, 180⟩,
    ⟨5, 2, 188⟩, ⟨6, 1, 108⟩, ⟨6, 2, 192⟩, ⟨9, 1, 120⟩, ⟨9, 2, 204⟩, ⟨13, 2, 220⟩, ⟨15, 0, 60⟩,
    ⟨17, 0, 68⟩, ⟨19, 0, 76⟩, ⟨19, 1, 160⟩, ⟨20, 1, 164⟩, ⟨20, 2, 248⟩], [⟨1, 0, 4⟩, ⟨9, 0, 36⟩,
    ⟨16, 0, 64⟩], [⟨1, 1, 88⟩, ⟨16, 1, 148⟩], [⟨1, 2, 172⟩, ⟨6, 0, 24⟩, ⟨8, 0, 32⟩], [⟨3, 0, 12⟩,
    ⟨5, 0, 20⟩, ⟨12, 0, 48⟩], [⟨3, 1, 96⟩, ⟨10, 1, 124⟩], [⟨4, 0, 16⟩, ⟨10, 0, 40⟩, ⟨11, 0, 44⟩,
    ⟨13, 0, 52⟩, ⟨18, 0, 72⟩], [⟨4, 2, 184⟩, ⟨10, 2, 208⟩], [⟨7, 0, 28⟩, ⟨14, 0, 56⟩], [⟨7, 1,
    112⟩, ⟨14, 1, 140⟩], [⟨7, 2, 196⟩, ⟨8, 2, 200⟩, ⟨15, 2, 228⟩], [⟨8, 1, 116⟩, ⟨15, 1, 144⟩,
    ⟨16, 2, 232⟩], [⟨11, 1, 128⟩], [⟨11, 2, 212⟩, ⟨20, 0, 80⟩], [⟨12, 1, 132⟩, ⟨18, 1, 156⟩],
    [⟨12, 2, 216⟩, ⟨17, 2, 236⟩, ⟨18, 2, 240⟩], [⟨14, 2, 224⟩], [⟨17, 1, 152⟩], [⟨19, 2, 244⟩]],
    [[⟨0, 0, 0⟩, ⟨0, 1, 84⟩, ⟨1, 0, 1⟩, ⟨2, 1, 86⟩], [⟨0, 2, 168⟩], [⟨1, 1, 85⟩, ⟨1, 2, 169⟩, ⟨3,
    0, 3⟩, ⟨3, 1, 87⟩, ⟨3, 2, 171⟩], [⟨2, 0, 2⟩, ⟨2, 2, 170⟩]]⟩⟩,
    ⟨7188695088390669, ⟨48, 12, 4, [[0, 1, 2], [2, 0, 3], [2, 2, 2], [1, 1, 2]], [[0, 1, 1], [2,
    3, 3], [1, 1, 1], [3, 3, 3]], [[⟨0, 0, 0⟩, ⟨1, 1, 20⟩], [⟨0, 1, 16⟩, ⟨3, 0, 12⟩, ⟨3, 1, 28⟩],
    [⟨0, 2, 32⟩, ⟨1, 0, 4⟩, ⟨2, 0, 8⟩, ⟨2, 1, 24⟩, ⟨2, 2, 40⟩, ⟨3, 2, 44⟩], [⟨1, 2, 36⟩]], [[⟨0,
    0, 0⟩], [⟨0, 1, 16⟩, ⟨0, 2, 32⟩, ⟨2, 0, 2⟩, ⟨2, 1, 18⟩, ⟨2, 2, 34⟩], [⟨1, 0, 1⟩], [⟨1, 1,
    17⟩, ⟨1, 2, 33⟩, ⟨3, 0, 3⟩, ⟨3, 1, 19⟩, ⟨3, 2, 35⟩]]⟩⟩,
    ⟨7188695089177101, ⟨18, 6, 3, [[0, 1, 1], [1, 1, 1]], [[0, 1, 2], [1, 1, 1], [2, 0, 2]],
    [[⟨0, 0, 0⟩], [⟨0, 1, 6⟩, ⟨0, 2, 12⟩, ⟨1, 0, 3⟩, ⟨1, 1, 9⟩, ⟨1, 2, 15⟩]], [[⟨0, 0, 0⟩, ⟨2, 1,
    8⟩], [⟨0, 1, 6⟩, ⟨1, 0, 1⟩, ⟨1, 1, 7⟩, ⟨1, 2, 13⟩], [⟨0, 2, 12⟩, ⟨2, 0, 2⟩, ⟨2, 2, 14⟩]]⟩⟩,
    ⟨7188695089439245, ⟨18, 6, 3, [[0, 1, 1], [1, 1, 1]], [[0, 1, 2], [1, 1, 1], [2, 0, 2]],
    [[⟨0, 0, 0⟩], [⟨0, 1, 6⟩, ⟨0, 2, 12⟩, ⟨1, 0, 3⟩, ⟨1, 1, 9⟩, ⟨1, 2, 15⟩]], [[⟨0, 0, 0⟩, ⟨2, 1,
    8⟩], [⟨0, 1, 6⟩, ⟨1, 0, 1⟩, ⟨1, 1, 7⟩, ⟨1, 2, 13⟩], [⟨0, 2, 12⟩, ⟨2, 0, 2⟩, ⟨2, 2, 14⟩]]⟩⟩,
    ⟨7188695090225677, ⟨36, 12, 3, [[0, 1, 1], [2, 1, 1], [1, 3, 3], [3, 3, 3]], [[0, 0, 1], [0,
    0, 2], [2, 0, 2]], [[⟨0, 0, 0⟩], [⟨0, 1, 12⟩, ⟨0, 2, 24⟩, ⟨1, 1, 15⟩, ⟨1, 2, 27⟩, ⟨2, 0, 6⟩],
    [⟨1, 0, 3⟩], [⟨2, 1, 18⟩, ⟨2, 2, 30⟩, ⟨3, 0, 9⟩, ⟨3, 1, 21⟩, ⟨3, 2, 33⟩]], [[⟨0, 0, 0⟩, ⟨0,
    1, 12⟩, ⟨1, 0, 1⟩, ⟨1, 1, 13⟩, ⟨2, 1, 14⟩], [⟨0, 2, 24⟩], [⟨1, 2, 25⟩, ⟨2, 0, 2⟩, ⟨2, 2,
    26⟩]]⟩⟩],
    by decide +kernel, by decide +kernel⟩

def list23_2l0_2l1_1 : List Listed := [
  ⟨7188695090487821, [((0, 0), (1, true, 1)), ((0, 1), (2, false, 1)), ((0, 2), (2, false, 1)),
  ((1, 0), (2, false, 0)), ((1, 1), (0, false, 1)), ((1, 2), (1, true, 0))]⟩,
  ⟨7188695091536397, [((0, 0), (1, true, 1)), ((0, 1), (2, false, 1)), ((0, 2), (2, true, 1)),
  ((1, 0), (2, false, 0)), ((1, 1), (0, false, 1)), ((1, 2), (1, true, 0))]⟩,
  ⟨14109005341197, [((0, 0), (1, true, 1)), ((0, 1), (2, false, 1)), ((1, 0), (2, false, 0)),
  ((1, 1), (0, false, 0)), ((1, 2), (1, true, 1))]⟩,
  ⟨7224085617598989, [((0, 0), (1, true, 1)), ((0, 1), (2, false, 1)), ((0, 2), (0, true, 0)),
  ((1, 0), (2, false, 0)), ((1, 1), (0, true, 0)), ((1, 2), (1, true, 1))]⟩,
  ⟨14110079083021, [((0, 0), (1, true, 1)), ((0, 1), (2, false, 1)), ((1, 0), (2, false, 0)),
  ((1, 1), (1, false, 0)), ((1, 2), (1, true, 1))]⟩,
  ⟨7224635373412877, [((0, 0), (1, true, 1)), ((0, 1), (2, false, 1)), ((0, 2), (0, true, 0)),
  ((1, 0), (2, false, 0)), ((1, 1), (1, true, 0)), ((1, 2), (1, true, 1))]⟩,
  ⟨14111152824845, [((0, 0), (1, true, 1)), ((0, 1), (2, false, 1)), ((1, 0), (2, false, 0)),
  ((1, 1), (2, false, 0)), ((1, 2), (1, true, 1))]⟩,
  ⟨14111287042573, [((0, 0), (1, true, 1)), ((0, 1), (2, false, 1)), ((1, 0), (2, false, 0)),
  ((1, 1), (2, false, 1)), ((1, 2), (1, true, 1))]⟩,
  ⟨7225185128178189, [((0, 0), (1, true, 1)), ((0, 1), (2, false, 1)), ((0, 2), (0, false, 0)),
  ((1, 0), (2, false, 0)), ((1, 1), (2, true, 0)), ((1, 2), (1, true, 1))]⟩,
  ⟨7225185129226765, [((0, 0), (1, true, 1)), ((0, 1), (2, false, 1)), ((0, 2), (0, true, 0)),
  ((1, 0), (2, false, 0)), ((1, 1), (2, true, 0)), ((1, 2), (1, true, 1))]⟩,
  ⟨7365372861768205, [((0, 0), (1, true, 1)), ((0, 1), (2, false, 1)), ((0, 2), (0, true, 0)),
  ((1, 0), (2, false, 0)), ((1, 1), (1, true, 0)), ((1, 2), (2, false, 1))]⟩,
  ⟨7365922617582093, [((0, 0), (1, true, 1)), ((0, 1), (2, false, 1)), ((0, 2), (0, true, 0)),
  ((1, 0), (2, false, 0)), ((1, 1), (2, true, 0)), ((1, 2), (2, false, 1))]⟩,
  ⟨14587874271757, [((0, 0), (1, true, 1)), ((0, 1), (2, false, 1)), ((0, 2), (0, true, 0)), ((1,
  0), (2, false, 0)), ((1, 2), (2, true, 0))]⟩,
  ⟨7470170065887757, [((0, 0), (1, true, 1)), ((0, 1), (2, false, 1)), ((0, 2), (1, true, 0)),
  ((1, 0), (2, false, 0)), ((1, 1), (0, false, 1)), ((1, 2), (2, true, 0))]⟩,
  ⟨14656592699917, [((0, 0), (1, true, 1)), ((0, 1), (2, false, 1)), ((0, 2), (0, false, 0)),
  ((1, 0), (2, false, 0)), ((1, 2), (2, true, 1))]⟩,
  ⟨14656593748493, [((0, 0), (1, true, 1)), ((0, 1), (2, false, 1)), ((0, 2), (0, true, 0)), ((1,
  0), (2, false, 0)), ((1, 2), (2, true, 1))]⟩,
  ⟨7505354437976589, [((0, 0), (1, true, 1)), ((0, 1), (2, false, 1)), ((0, 2), (1, true, 0)),
  ((1, 0), (2, false, 0)), ((1, 1), (0, false, 1)), ((1, 2), (2, true, 1))]⟩,
  ⟨14656596894221, [((0, 0), (1, true, 1)), ((0, 1), (2, false, 1)), ((0, 2), (2, false, 0)),
  ((1, 0), (2, false, 0)), ((1, 2), (2, true, 1))]⟩]

theorem done23_2l0_2l1_1 : ∃ h, Done list23_2l0_2l1_1 h :=
  ⟨[
    ⟨7188695090487821, ⟨18, 6, 3, [[0, 1, 1], [1, 1, 1]], [[0, 1, 2], [1, 1, 1], [2, 0, 2]],
    [[⟨0, 0, 0⟩], [⟨0, 1, 6⟩, ⟨0, 2, 12⟩, ⟨1, 0, 3⟩, ⟨1, 1, 9⟩, ⟨1, 2, 15⟩]], [[⟨0, 0, 0⟩, ⟨2, 1,
    8⟩], [⟨0, 1, 6⟩, ⟨1, 0, 1⟩, ⟨1, 1, 7⟩, ⟨1, 2, 13⟩], [⟨0, 2, 12⟩, ⟨2, 0, 2⟩, ⟨2, 2, 14⟩]]⟩⟩,
    ⟨7188695091536397, ⟨30, 6, 5, [[0, 0, 1], [0, 1, 1]], [[0, 1, 2], [1, 1, 1], [3, 1, 4], [2,
    1, 2], [4, 4, 4]], [[⟨0, 0, 0⟩, ⟨0, 1, 10⟩, ⟨1, 0, 5⟩], [⟨0, 2, 20⟩, ⟨1, 1, 15⟩, ⟨1, 2,
    25⟩]], [[⟨0, 0, 0⟩], [⟨0, 1, 10⟩, ⟨1, 0, 1⟩, ⟨1, 1, 11⟩, ⟨1, 2, 21⟩, ⟨2, 1, 12⟩, ⟨3, 1, 13⟩],
    [⟨0, 2, 20⟩, ⟨3, 0, 3⟩, ⟨3, 2, 23⟩], [⟨2, 0, 2⟩], [⟨2, 2, 22⟩, ⟨4, 0, 4⟩, ⟨4, 1, 14⟩, ⟨4, 2,
    24⟩]]⟩⟩,
    ⟨14109005341197, ⟨18, 9, 2, [[0, 1, 2], [1, 1, 2], [2, 2, 2]], [[0, 0, 1], [1, 0, 1]], [[⟨0,
    0, 0⟩], [⟨0, 1, 6⟩, ⟨1, 0, 2⟩, ⟨1, 1, 8⟩], [⟨0, 2, 12⟩, ⟨1, 2, 14⟩, ⟨2, 0, 4⟩, ⟨2, 1, 10⟩,
    ⟨2, 2, 16⟩]], [[⟨0, 0, 0⟩, ⟨0, 1, 6⟩, ⟨1, 1, 7⟩], [⟨0, 2, 12⟩, ⟨1, 0, 1⟩, ⟨1, 2, 13⟩]]⟩⟩,
    ⟨7224085617598989, ⟨108, 12, 9, [[0, 1, 2], [3, 2, 0], [1, 3, 0], [3, 3, 0]], [[0, 1, 2], [3,
    4, 5], [6, 3, 7], [8, 4, 8], [3, 8, 5], [7, 8, 8], [1, 3, 2], [4, 3, 7], [8, 8, 8]], [[⟨0, 0,
    0⟩, ⟨1, 2, 81⟩, ⟨2, 2, 90⟩, ⟨3, 2, 99⟩], [⟨0, 1, 36⟩, ⟨2, 0, 18⟩], [⟨0, 2, 72⟩, ⟨1, 1, 45⟩],
    [⟨1, 0, 9⟩, ⟨2, 1, 54⟩, ⟨3, 0, 27⟩, ⟨3, 1, 63⟩]], [[⟨0, 0, 0⟩], [⟨0, 1, 36⟩, ⟨6, 0, 6⟩], [⟨0,
    2, 72⟩, ⟨6, 2, 78⟩], [⟨1, 0, 1⟩, ⟨2, 1, 38⟩, ⟨4, 0, 4⟩, ⟨6, 1, 42⟩, ⟨7, 1, 43⟩], [⟨1, 1, 37⟩,
    ⟨3, 1, 39⟩, ⟨7, 0, 7⟩], [⟨1, 2, 73⟩, ⟨4, 2, 76⟩], [⟨2, 0, 2⟩], [⟨2, 2, 74⟩, ⟨5, 0, 5⟩, ⟨7, 2,
    79⟩], [⟨3, 0, 3⟩, ⟨3, 2, 75⟩, ⟨4, 1, 40⟩, ⟨5, 1, 41⟩, ⟨5, 2, 77⟩, ⟨8, 0, 8⟩, ⟨8, 1, 44⟩, ⟨8,
    2, 80⟩]]⟩⟩,
    ⟨14110079083021, ⟨12, 6, 2, [[0, 0, 1], [1, 1, 1]], [[0, 1, 0], [1, 1, 1]], [[⟨0, 0, 0⟩, ⟨0,
    1, 4⟩], [⟨0, 2, 8⟩, ⟨1, 0, 2⟩, ⟨1, 1, 6⟩, ⟨1, 2, 10⟩]], [[⟨0, 0, 0⟩, ⟨0, 2, 8⟩], [⟨0, 1, 4⟩,
    ⟨1, 0, 1⟩, ⟨1, 1, 5⟩, ⟨1, 2, 9⟩]]⟩⟩,
    ⟨7224635373412877, ⟨18, 9, 2, [[0, 1, 2], [1, 1, 0], [2, 2, 2]], [[0, 1, 1], [1, 1, 1]],
    [[⟨0, 0, 0⟩, ⟨1, 2, 14⟩], [⟨0, 1, 6⟩, ⟨1, 0, 2⟩, ⟨1, 1, 8⟩], [⟨0, 2, 12⟩, ⟨2, 0, 4⟩, ⟨2, 1,
    10⟩, ⟨2, 2, 16⟩]], [[⟨0, 0, 0⟩], [⟨0, 1, 6⟩, ⟨0, 2, 12⟩, ⟨1, 0, 1⟩, ⟨1, 1, 7⟩, ⟨1, 2, 13⟩]]⟩⟩,
    ⟨14111152824845, ⟨18, 9, 2, [[0, 1, 2], [1, 1, 2], [2, 2, 2]], [[0, 0, 1], [0, 0, 1]], [[⟨0,
    0, 0⟩], [⟨0, 1, 6⟩, ⟨1, 0, 2⟩, ⟨1, 1, 8⟩], [⟨0, 2, 12⟩, ⟨1, 2, 14⟩, ⟨2, 0, 4⟩, ⟨2, 1, 10⟩,
    ⟨2, 2, 16⟩]], [[⟨0, 0, 0⟩, ⟨0, 1, 6⟩, ⟨1, 0, 1⟩, ⟨1, 1, 7⟩], [⟨0, 2, 12⟩, ⟨1, 2, 13⟩]]⟩⟩,
    ⟨14111287042573, ⟨30, 15, 2, [[0, 1, 2], [1, 1, 2], [3, 1, 2], [2, 4, 4], [4, 4, 4]], [[0, 0,
    1], [0, 0, 1]], [[⟨0, 0, 0⟩], [⟨0, 1, 10⟩, ⟨1, 0, 2⟩, ⟨1, 1, 12⟩, ⟨2, 1, 14⟩], [⟨0, 2, 20⟩,
    ⟨1, 2, 22⟩, ⟨2, 2, 24⟩, ⟨3, 0, 6⟩], [⟨2, 0, 4⟩], [⟨3, 1, 16⟩, ⟨3, 2, 26⟩, ⟨4, 0, 8⟩, ⟨4, 1,
    18⟩, ⟨4, 2, 28⟩]], [[⟨0, 0, 0⟩, ⟨0, 1, 10⟩, ⟨1, 0, 1⟩, ⟨1, 1, 11⟩], [⟨0, 2, 20⟩, ⟨1, 2,
    21⟩]]⟩⟩,
    ⟨7225185128178189, ⟨96, 12, 8, [[0, 1, 0], [0, 1, 2], [0, 0, 3], [0, 2, 0]], [[0, 1, 2], [1,
    1, 1], [3, 4, 5], [5, 6, 5], [1, 7, 1], [5, 5, 5], [3, 5, 5], [5, 4, 5]], [[⟨0, 0, 0⟩, ⟨0, 2,
    64⟩, ⟨1, 0, 8⟩, ⟨2, 0, 16⟩, ⟨2, 1, 48⟩, ⟨3, 0, 24⟩, ⟨3, 2, 88⟩], [⟨0, 1, 32⟩, ⟨1, 1, 40⟩],
    [⟨1, 2, 72⟩, ⟨3, 1, 56⟩], [⟨2, 2, 80⟩]], [[⟨0, 0, 0⟩], [⟨0, 1, 32⟩, ⟨1, 0, 1⟩, ⟨1, 1, 33⟩,
    ⟨1, 2, 65⟩, ⟨4, 0, 4⟩, ⟨4, 2, 68⟩], [⟨0, 2, 64⟩], [⟨2, 0, 2⟩, ⟨6, 0, 6⟩], [⟨2, 1, 34⟩, ⟨7, 1,
    39⟩], [⟨2, 2, 66⟩, ⟨3, 0, 3⟩, ⟨3, 2, 67⟩, ⟨5, 0, 5⟩, ⟨5, 1, 37⟩, ⟨5, 2, 69⟩, ⟨6, 1, 38⟩, ⟨6,
    2, 70⟩, ⟨7, 0, 7⟩, ⟨7, 2, 71⟩], [⟨3, 1, 35⟩], [⟨4, 1, 36⟩]]⟩⟩,
    ⟨7225185129226765, ⟨132, 12, 11, [[0, 1, 1], [2, 3, 1], [1, 0, 0], [0, 3, 1]], [[0, 1, 2],
    [1, 1, 1], [1, 1, 3], [4, 1, 2], [5, 6, 7], [8, 1, 2], [4, 3, 6], [3, 9, 9], [0, 3, 10], [9,
    9, 9], [0, 3, 6]], [[⟨0, 0, 0⟩, ⟨2, 1, 66⟩, ⟨2, 2, 110⟩, ⟨3, 0, 33⟩], [⟨0, 1, 44⟩, ⟨0, 2,
    88⟩, ⟨1, 2, 99⟩, ⟨2, 0, 22⟩, ⟨3, 2, 121⟩], [⟨1, 0, 11⟩], [⟨1, 1, 55⟩, ⟨3, 1, 77⟩]], [[⟨0, 0,
    0⟩, ⟨8, 0, 8⟩, ⟨10, 0, 10⟩], [⟨0, 1, 44⟩, ⟨1, 0, 1⟩, ⟨1, 1, 45⟩, ⟨1, 2, 89⟩, ⟨2, 0, 2⟩, ⟨2,
    1, 46⟩, ⟨3, 1, 47⟩, ⟨5, 1, 49⟩], [⟨0, 2, 88⟩, ⟨3, 2, 91⟩, ⟨5, 2, 93⟩], [⟨2, 2, 90⟩, ⟨6, 1,
    50⟩, ⟨7, 0, 7⟩, ⟨8, 1, 52⟩, ⟨10, 1, 54⟩], [⟨3, 0, 3⟩, ⟨6, 0, 6⟩], [⟨4, 0, 4⟩], [⟨4, 1, 48⟩,
    ⟨6, 2, 94⟩, ⟨10, 2, 98⟩], [⟨4, 2, 92⟩], [⟨5, 0, 5⟩], [⟨7, 1, 51⟩, ⟨7, 2, 95⟩, ⟨9, 0, 9⟩, ⟨9,
    1, 53⟩, ⟨9, 2, 97⟩], [⟨8, 2, 96⟩]]⟩⟩,
    ⟨7365372861768205, ⟨18, 9, 2, [[0, 1, 2], [1, 1, 0], [2, 2, 2]], [[0, 1, 1], [1, 1, 1]],
    [[⟨0, 0, 0⟩, ⟨1, 2, 14⟩], [⟨0, 1, 6⟩, ⟨1, 0, 2⟩, ⟨1, 1, 8⟩], [⟨0, 2, 12⟩, ⟨2, 0, 4⟩, ⟨2, 1,
    10⟩, ⟨2, 2, 16⟩]], [[⟨0, 0, 0⟩], [⟨0, 1, 6⟩, ⟨0, 2, 12⟩, ⟨1, 0, 1⟩, ⟨1, 1, 7⟩, ⟨1, 2, 13⟩]]⟩⟩,
    ⟨7365922617582093, ⟨420, 12, 35, [[0, 0, 1], [2, 0, 1], [3, 1, 2], [3, 3, 2]], [[0, 1, 2],
    [3, 4, 2], [5, 6, 7], [8, 9, 9], [10, 4, 2], [11, 6, 7], [12, 13, 14], [15, 16, 7], [3, 1,
    2], [9, 9, 9], [8, 17, 18], [19, 13, 14], [20, 1, 2], [21, 16, 7], [22, 23, 24], [16, 24,
    24], [25, 13, 14], [26, 9, 9], [9, 27, 9], [2, 13, 14], [28, 6, 7], [29, 17, 18], [15, 6, 7],
    [30, 24, 24], [24, 24, 24], [22, 24, 24], [17, 24, 24], [31, 9, 9], [6, 1, 2], [32, 13, 14],
    [23, 1, 2], [9, 17, 18], [33, 9, 9], [34, 6, 7], [29, 9, 9]], [[⟨0, 0, 0⟩, ⟨0, 1, 140⟩, ⟨1,
    1, 175⟩], [⟨0, 2, 280⟩, ⟨1, 2, 315⟩, ⟨2, 1, 210⟩], [⟨1, 0, 35⟩, ⟨2, 2, 350⟩, ⟨3, 2, 385⟩],
    [⟨2, 0, 70⟩, ⟨3, 0, 105⟩, ⟨3, 1, 245⟩]], [[⟨0, 0, 0⟩], [⟨0, 1, 140⟩, ⟨8, 1, 148⟩, ⟨12, 1,
    152⟩, ⟨28, 1, 168⟩, ⟨30, 1, 170⟩], [⟨0, 2, 280⟩, ⟨1, 2, 281⟩, ⟨4, 2, 284⟩, ⟨8, 2, 288⟩, ⟨12,
    2, 292⟩, ⟨19, 0, 19⟩, ⟨28, 2, 308⟩, ⟨30, 2, 310⟩], [⟨1, 0, 1⟩, ⟨8, 0, 8⟩], [⟨1, 1, 141⟩, ⟨4,
    1, 144⟩], [⟨2, 0, 2⟩], [⟨2, 1, 142⟩, ⟨5, 1, 145⟩, ⟨20, 1, 160⟩, ⟨22, 1, 162⟩, ⟨28, 0, 28⟩,
    ⟨33, 1, 173⟩], [⟨2, 2, 282⟩, ⟨5, 2, 285⟩, ⟨7, 2, 287⟩, ⟨13, 2, 293⟩, ⟨20, 2, 300⟩, ⟨22, 2,
    302⟩, ⟨33, 2, 313⟩], [⟨3, 0, 3⟩, ⟨10, 0, 10⟩], [⟨3, 1, 143⟩, ⟨3, 2, 283⟩, ⟨9, 0, 9⟩, ⟨9, 1,
    149⟩, ⟨9, 2, 289⟩, ⟨17, 1, 157⟩, ⟨17, 2, 297⟩, ⟨18, 0, 18⟩, ⟨18, 2, 298⟩, ⟨27, 1, 167⟩, ⟨27,
    2, 307⟩, ⟨31, 0, 31⟩, ⟨32, 1, 172⟩, ⟨32, 2, 312⟩, ⟨34, 1, 174⟩, ⟨34, 2, 314⟩], [⟨4, 0, 4⟩],
    [⟨5, 0, 5⟩], [⟨6, 0, 6⟩], [⟨6, 1, 146⟩, ⟨11, 1, 151⟩, ⟨16, 1, 156⟩, ⟨19, 1, 159⟩, ⟨29, 1,
    169⟩], [⟨6, 2, 286⟩, ⟨11, 2, 291⟩, ⟨16, 2, 296⟩, ⟨19, 2, 299⟩, ⟨29, 2, 309⟩], [⟨7, 0, 7⟩,
    ⟨22, 0, 22⟩], [⟨7, 1, 147⟩, ⟨13, 1, 153⟩, ⟨15, 0, 15⟩], [⟨10, 1, 150⟩, ⟨21, 1, 161⟩, ⟨26, 0,
    26⟩, ⟨31, 1, 171⟩], [⟨10, 2, 290⟩, ⟨21, 2, 301⟩, ⟨31, 2, 311⟩], [⟨11, 0, 11⟩], [⟨12, 0, 12⟩],
    [⟨13, 0, 13⟩], [⟨14, 0, 14⟩, ⟨25, 0, 25⟩], [⟨14, 1, 154⟩, ⟨30, 0, 30⟩], [⟨14, 2, 294⟩, ⟨15,
    1, 155⟩, ⟨15, 2, 295⟩, ⟨23, 1, 163⟩, ⟨23, 2, 303⟩, ⟨24, 0, 24⟩, ⟨24, 1, 164⟩, ⟨24, 2, 304⟩,
    ⟨25, 1, 165⟩, ⟨25, 2, 305⟩, ⟨26, 1, 166⟩, ⟨26, 2, 306⟩], [⟨16, 0, 16⟩], [⟨17, 0, 17⟩], [⟨18,
    1, 158⟩], [⟨20, 0, 20⟩], [⟨21, 0, 21⟩, ⟨34, 0, 34⟩], [⟨23, 0, 23⟩], [⟨27, 0, 27⟩], [⟨29, 0,
    29⟩], [⟨32, 0, 32⟩], [⟨33, 0, 33⟩]]⟩⟩,
    ⟨14587874271757, ⟨72, 9, 8, [[0, 0, 1], [2, 2, 0], [1, 0, 1]], [[0, 1, 2], [1, 1, 1], [3, 4,
    4], [5, 4, 6], [5, 1, 2], [4, 1, 1], [7, 4, 6], [0, 4, 6]], [[⟨0, 0, 0⟩, ⟨0, 1, 24⟩, ⟨1, 2,
    56⟩, ⟨2, 1, 40⟩], [⟨0, 2, 48⟩, ⟨2, 0, 16⟩, ⟨2, 2, 64⟩], [⟨1, 0, 8⟩, ⟨1, 1, 32⟩]], [[⟨0, 0,
    0⟩, ⟨7, 0, 7⟩], [⟨0, 1, 24⟩, ⟨1, 0, 1⟩, ⟨1, 1, 25⟩, ⟨1, 2, 49⟩, ⟨4, 1, 28⟩, ⟨5, 1, 29⟩, ⟨5,
    2, 53⟩], [⟨0, 2, 48⟩, ⟨4, 2, 52⟩], [⟨2, 0, 2⟩], [⟨2, 1, 26⟩, ⟨2, 2, 50⟩, ⟨3, 1, 27⟩, ⟨5, 0,
    5⟩, ⟨6, 1, 30⟩, ⟨7, 1, 31⟩], [⟨3, 0, 3⟩, ⟨4, 0, 4⟩], [⟨3, 2, 51⟩, ⟨6, 2, 54⟩, ⟨7, 2, 55⟩],
    [⟨6, 0, 6⟩]]⟩⟩,
    ⟨7470170065887757, ⟨12, 12, 1, [[0, 0, 1], [2, 3, 3], [1, 0, 1], [3, 3, 3]], [[0, 0, 0]],
    [[⟨0, 0, 0⟩, ⟨0, 1, 4⟩, ⟨2, 1, 6⟩], [⟨0, 2, 8⟩, ⟨2, 0, 2⟩, ⟨2, 2, 10⟩], [⟨1, 0, 1⟩], [⟨1, 1,
    5⟩, ⟨1, 2, 9⟩, ⟨3, 0, 3⟩, ⟨3, 1, 7⟩, ⟨3, 2, 11⟩]], [[⟨0, 0, 0⟩, ⟨0, 1, 4⟩, ⟨0, 2, 8⟩]]⟩⟩,
    ⟨14656592699917, ⟨27, 9, 3, [[0, 1, 1], [2, 2, 1], [2, 2, 2]], [[0, 1, 2], [1, 1, 1], [2, 1,
    2]], [[⟨0, 0, 0⟩], [⟨0, 1, 9⟩, ⟨0, 2, 18⟩, ⟨1, 2, 21⟩], [⟨1, 0, 3⟩, ⟨1, 1, 12⟩, ⟨2, 0, 6⟩,
    ⟨2, 1, 15⟩, ⟨2, 2, 24⟩]], [[⟨0, 0, 0⟩], [⟨0, 1, 9⟩, ⟨1, 0, 1⟩, ⟨1, 1, 10⟩, ⟨1, 2, 19⟩, ⟨2, 1,
    11⟩], [⟨0, 2, 18⟩, ⟨2, 0, 2⟩, ⟨2, 2, 20⟩]]⟩⟩,
    ⟨14656593748493, ⟨48, 12, 4, [[0, 0, 1], [2, 1, 2], [3, 0, 2], [3, 2, 0]], [[0, 1, 2], [1, 1,
    1], [0, 1, 3], [0, 1, 3]], [[⟨0, 0, 0⟩, ⟨0, 1, 16⟩, ⟨2, 1, 24⟩, ⟨3, 2, 44⟩], [⟨0, 2, 32⟩, ⟨1,
    1, 20⟩], [⟨1, 0, 4⟩, ⟨1, 2, 36⟩, ⟨2, 2, 40⟩, ⟨3, 1, 28⟩], [⟨2, 0, 8⟩, ⟨3, 0, 12⟩]], [[⟨0, 0,
    0⟩, ⟨2, 0, 2⟩, ⟨3, 0, 3⟩], [⟨0, 1, 16⟩, ⟨1, 0, 1⟩, ⟨1, 1, 17⟩, ⟨1, 2, 33⟩, ⟨2, 1, 18⟩, ⟨3, 1,
    19⟩], [⟨0, 2, 32⟩], [⟨2, 2, 34⟩, ⟨3, 2, 35⟩]]⟩⟩,
    ⟨7505354437976589, ⟨36, 9, 4, [[0, 1, 1], [0, 2, 1], [0, 1, 0]], [[0, 1, 2], [1, 1, 1], [1,
    1, 3], [3, 3, 3]], [[⟨0, 0, 0⟩, ⟨1, 0, 4⟩, ⟨2, 0, 8⟩, ⟨2, 2, 32⟩], [⟨0, 1, 12⟩, ⟨0, 2, 24⟩,
    ⟨1, 2, 28⟩, ⟨2, 1, 20⟩], [⟨1, 1, 16⟩]], [[⟨0, 0, 0⟩], [⟨0, 1, 12⟩, ⟨1, 0, 1⟩, ⟨1, 1, 13⟩, ⟨1,
    2, 25⟩, ⟨2, 0, 2⟩, ⟨2, 1, 14⟩], [⟨0, 2, 24⟩], [⟨2, 2, 26⟩, ⟨3, 0, 3⟩, ⟨3, 1, 15⟩, ⟨3, 2,
    27⟩]]⟩⟩,
    ⟨14656596894221, ⟨27, 9, 3, [[0, 1, 1], [2, 2, 1], [2, 2, 2]], [[0, 1, 2], [1, 1, 1], [0, 1,
    2]], [[⟨0, 0, 0⟩], [⟨0, 1, 9⟩, ⟨0, 2, 18⟩, ⟨1, 2, 21⟩], [⟨1, 0, 3⟩, ⟨1, 1, 12⟩, ⟨2, 0, 6⟩,
    ⟨2, 1, 15⟩, ⟨2, 2, 24⟩]], [[⟨0, 0, 0⟩, ⟨2, 0, 2⟩], [⟨0, 1, 9⟩, ⟨1, 0, 1⟩, ⟨1, 1, 10⟩, ⟨1, 2,
    19⟩, ⟨2, 1, 11⟩], [⟨0, 2, 18⟩, ⟨2, 2, 20⟩]]⟩⟩],
    by decide +kernel, by decide +kernel⟩

theorem child23_2l0_2l1 : AllDone (child (2, false, 0) (2, false, 1)) := by
  refine allDone_of [list23_2l0_2l1_0, list23_2l0_2l1_1] ?_ (by decide +kernel)
  simp only [List.forall_mem_cons, List.not_mem_nil, false_imp_iff, implies_true, and_true]
  exact ⟨done23_2l0_2l1_0, done23_2l0_2l1_1⟩

def list23_2l0_2r0_0 : List Listed := [
  ⟨11014462531597, [((0, 0), (1, true, 1)), ((0, 1), (2, true, 0)), ((0, 2), (1, false, 0)), ((1,
  0), (2, false, 0)), ((1, 1), (0, false, 0))]⟩,
  ⟨6907220111419405, [((0, 0), (1, true, 1)), ((0, 1), (2, true, 0)), ((0, 2), (1, false, 0)),
  ((1, 0), (2, false, 0)), ((1, 1), (0, false, 1)), ((1, 2), (0, true, 0))]⟩,
  ⟨7047957599774733, [((0, 0), (1, true, 1)), ((0, 1), (2, true, 0)), ((0, 2), (1, false, 0)),
  ((1, 0), (2, false, 0)), ((1, 1), (0, false, 1)), ((1, 2), (1, false, 0))]⟩,
  ⟨7188695088130061, [((0, 0), (1, true, 1)), ((0, 1), (2, true, 0)), ((0, 2), (1, false, 0)),
  ((1, 0), (2, false, 0)), ((1, 1), (0, false, 1)), ((1, 2), (1, true, 0))]⟩,
  ⟨7223879460218893, [((0, 0), (1, true, 1)), ((0, 1), (2, true, 0)), ((0, 2), (1, false, 0)),
  ((1, 0), (2, false, 0)), ((1, 1), (0, false, 1)), ((1, 2), (1, true, 1))]⟩,
  ⟨11289340438541, [((0, 0), (1, true, 1)), ((0, 1), (2, true, 0)), ((0, 2), (1, false, 0)), ((1,
  0), (2, false, 0)), ((1, 1), (0, true, 0))]⟩,
  ⟨11564218345485, [((0, 0), (1, true, 1)), ((0, 1), (2, true, 0)), ((0, 2), (1, false, 0)), ((1,
  0), (2, false, 0)), ((1, 1), (1, false, 0))]⟩,
  ⟨11839096252429, [((0, 0), (1, true, 1)), ((0, 1), (2, true, 0)), ((0, 2), (1, false, 0)), ((1,
  0), (2, false, 0)), ((1, 1), (1, true, 0))]⟩,
  ⟨11907815729165, [((0, 0), (1, true, 1)), ((0, 1), (2, true, 0)), ((0, 2), (1, false, 0)), ((1,
  0), (2, false, 0)), ((1, 1), (1, true, 1))]⟩,
  ⟨12388852066317, [((0, 0), (1, true, 1)), ((0, 1), (2, true, 0)), ((0, 2), (1, false, 0)), ((1,
  0), (2, false, 0)), ((1, 1), (2, true, 0))]⟩,
  ⟨12457571543053, [((0, 0), (1, true, 1)), ((0, 1), (2, true, 0)), ((0, 2), (1, false, 0)), ((1,
  0), (2, false, 0)), ((1, 1), (2, true, 1))]⟩,
  ⟨7047957600036877, [((0, 0), (1, true, 1)), ((0, 1), (2, true, 0)), ((0, 2), (1, false, 1)),
  ((1, 0), (2, false, 0)), ((1, 1), (0, false, 1)), ((1, 2), (1, false, 0))]⟩,
  ⟨7048232477943821, [((0, 0), (1, true, 1)), ((0, 1), (2, true, 0)), ((0, 2), (1, false, 1)),
  ((1, 0), (2, false, 0)), ((1, 1), (0, true, 1)), ((1, 2), (1, false, 0))]⟩,
  ⟨13213487884301, [((0, 0), (1, true, 1)), ((0, 1), (2, true, 0)), ((0, 2), (2, false, 0)), ((1,
  0), (2, false, 0)), ((1, 2), (0, false, 0))]⟩,
  ⟨14106841081869, [((0, 0), (1, true, 1)), ((0, 1), (2, true, 0)), ((0, 2), (2, false, 0)), ((1,
  0), (2, false, 0)), ((1, 2), (1, true, 1))]⟩,
  ⟨14656596895757, [((0, 0), (1, true, 1)), ((0, 1), (2, true, 0)), ((0, 2), (2, false, 0)), ((1,
  0), (2, false, 0)), ((1, 2), (2, true, 1))]⟩,
  ⟨7047957602134029, [((0, 0), (1, true, 1)), ((0, 1), (2, true, 0)), ((0, 2), (2, false, 1)),
  ((1, 0), (2, false, 0)), ((1, 1), (0, false, 1)), ((1, 2), (1, false, 0))]⟩,
  ⟨7188695090489357, [((0, 0), (1, true, 1)), ((0, 1), (2, true, 0)), ((0, 2), (2, false, 1)),
  ((1, 0), (2, false, 0)), ((1, 1), (0, false, 1)), ((1, 2), (1, true, 0))]⟩]

theorem done23_2l0_2r0_0 : ∃ h, Done list23_2l0_2r0_0 h :=
  ⟨[
    ⟨11014462531597, ⟨36, 9, 4, [[0, 1, 1], [0, 2, 1], [0, 1, 1]], [[0, 1, 2], [0, 1, 2], [3, 2,
    3], [3, 3, 3]], [[⟨0, 0, 0⟩, ⟨1, 0, 4⟩, ⟨2, 0, 8⟩], [⟨0, 1, 12⟩, ⟨0, 2, 24⟩, ⟨1, 2, 28⟩, ⟨2,
    1, 20⟩, ⟨2, 2, 32⟩], [⟨1, 1, 16⟩]], [[⟨0, 0, 0⟩, ⟨1, 0, 1⟩], [⟨0, 1, 12⟩, ⟨1, 1, 13⟩], [⟨0,
    2, 24⟩, ⟨1, 2, 25⟩, ⟨2, 1, 14⟩], [⟨2, 0, 2⟩, ⟨2, 2, 26⟩, ⟨3, 0, 3⟩, ⟨3, 1, 15⟩, ⟨3, 2,
    27⟩]]⟩⟩,
    ⟨6907220111419405, ⟨147, 21, 7, [[0, 1, 2], [3, 1, 4], [3, 1, 4], [3, 5, 4], [3, 5, 4], [4,
    6, 4], [3, 1, 4]], [[0, 1, 2], [3, 4, 1], [3, 4, 5], [6, 4, 1], [3, 4, 1], [3, 4, 1], [6, 4,
    4]], [[⟨0, 0, 0⟩], [⟨0, 1, 49⟩, ⟨1, 1, 56⟩, ⟨2, 1, 63⟩, ⟨6, 1, 91⟩], [⟨0, 2, 98⟩], [⟨1, 0,
    7⟩, ⟨2, 0, 14⟩, ⟨3, 0, 21⟩, ⟨4, 0, 28⟩, ⟨6, 0, 42⟩], [⟨1, 2, 105⟩, ⟨2, 2, 112⟩, ⟨3, 2, 119⟩,
    ⟨4, 2, 126⟩, ⟨5, 0, 35⟩, ⟨5, 2, 133⟩, ⟨6, 2, 140⟩], [⟨3, 1, 70⟩, ⟨4, 1, 77⟩], [⟨5, 1, 84⟩]],
    [[⟨0, 0, 0⟩], [⟨0, 1, 49⟩, ⟨1, 2, 99⟩, ⟨3, 2, 101⟩, ⟨4, 2, 102⟩, ⟨5, 2, 103⟩], [⟨0, 2, 98⟩],
    [⟨1, 0, 1⟩, ⟨2, 0, 2⟩, ⟨4, 0, 4⟩, ⟨5, 0, 5⟩], [⟨1, 1, 50⟩, ⟨2, 1, 51⟩, ⟨3, 1, 52⟩, ⟨4, 1,
    53⟩, ⟨5, 1, 54⟩, ⟨6, 1, 55⟩, ⟨6, 2, 104⟩], [⟨2, 2, 100⟩], [⟨3, 0, 3⟩, ⟨6, 0, 6⟩]]⟩⟩,
    ⟨7047957599774733, ⟨72, 24, 3, [[0, 1, 2], [3, 1, 2], [1, 4, 5], [2, 6, 2], [6, 4, 5], [5, 5,
    5], [7, 6, 2], [4, 5, 5]], [[0, 1, 0], [1, 2, 2], [1, 2, 0]], [[⟨0, 0, 0⟩], [⟨0, 1, 24⟩, ⟨1,
    1, 27⟩, ⟨2, 0, 6⟩], [⟨0, 2, 48⟩, ⟨1, 2, 51⟩, ⟨3, 0, 9⟩, ⟨3, 2, 57⟩, ⟨6, 2, 66⟩], [⟨1, 0, 3⟩],
    [⟨2, 1, 30⟩, ⟨4, 1, 36⟩, ⟨7, 0, 21⟩], [⟨2, 2, 54⟩, ⟨4, 2, 60⟩, ⟨5, 0, 15⟩, ⟨5, 1, 39⟩, ⟨5, 2,
    63⟩, ⟨7, 1, 45⟩, ⟨7, 2, 69⟩], [⟨3, 1, 33⟩, ⟨4, 0, 12⟩, ⟨6, 1, 42⟩], [⟨6, 0, 18⟩]], [[⟨0, 0,
    0⟩, ⟨0, 2, 48⟩, ⟨2, 2, 50⟩], [⟨0, 1, 24⟩, ⟨1, 0, 1⟩, ⟨2, 0, 2⟩], [⟨1, 1, 25⟩, ⟨1, 2, 49⟩, ⟨2,
    1, 26⟩]]⟩⟩,
    ⟨7188695088130061, ⟨120, 12, 10, [[0, 1, 2], [3, 0, 0], [0, 1, 2], [3, 3, 3]], [[0, 1, 2],
    [3, 4, 4], [5, 1, 2], [6, 7, 7], [8, 9, 9], [1, 7, 7], [3, 4, 9], [7, 7, 7], [9, 9, 4], [9,
    9, 9]], [[⟨0, 0, 0⟩, ⟨1, 1, 50⟩, ⟨1, 2, 90⟩, ⟨2, 0, 20⟩], [⟨0, 1, 40⟩, ⟨2, 1, 60⟩], [⟨0, 2,
    80⟩, ⟨2, 2, 100⟩], [⟨1, 0, 10⟩, ⟨3, 0, 30⟩, ⟨3, 1, 70⟩, ⟨3, 2, 110⟩]], [[⟨0, 0, 0⟩], [⟨0, 1,
    40⟩, ⟨2, 1, 42⟩, ⟨5, 0, 5⟩], [⟨0, 2, 80⟩, ⟨2, 2, 82⟩], [⟨1, 0, 1⟩, ⟨6, 0, 6⟩], [⟨1, 1, 41⟩,
    ⟨1, 2, 81⟩, ⟨6, 1, 46⟩, ⟨8, 2, 88⟩], [⟨2, 0, 2⟩], [⟨3, 0, 3⟩], [⟨3, 1, 43⟩, ⟨3, 2, 83⟩, ⟨5,
    1, 45⟩, ⟨5, 2, 85⟩, ⟨7, 0, 7⟩, ⟨7, 1, 47⟩, ⟨7, 2, 87⟩], [⟨4, 0, 4⟩], [⟨4, 1, 44⟩, ⟨4, 2, 84⟩,
    ⟨6, 2, 86⟩, ⟨8, 0, 8⟩, ⟨8, 1, 48⟩, ⟨9, 0, 9⟩, ⟨9, 1, 49⟩, ⟨9, 2, 89⟩]]⟩⟩,
    ⟨7223879460218893, ⟨45, 15, 3, [[0, 1, 2], [3, 1, 4], [1, 4, 4], [4, 4, 2], [4, 4, 4]], [[0,
    1, 0], [2, 2, 1], [2, 2, 2]], [[⟨0, 0, 0⟩], [⟨0, 1, 15⟩, ⟨1, 1, 18⟩, ⟨2, 0, 6⟩], [⟨0, 2, 30⟩,
    ⟨3, 2, 39⟩], [⟨1, 0, 3⟩], [⟨1, 2, 33⟩, ⟨2, 1, 21⟩, ⟨2, 2, 36⟩, ⟨3, 0, 9⟩, ⟨3, 1, 24⟩, ⟨4, 0,
    12⟩, ⟨4, 1, 27⟩, ⟨4, 2, 42⟩]], [[⟨0, 0, 0⟩, ⟨0, 2, 30⟩], [⟨0, 1, 15⟩, ⟨1, 2, 31⟩], [⟨1, 0,
    1⟩, ⟨1, 1, 16⟩, ⟨2, 0, 2⟩, ⟨2, 1, 17⟩, ⟨2, 2, 32⟩]]⟩⟩,
    ⟨11289340438541, ⟨63, 9, 7, [[0, 0, 1], [0, 2, 1], [0, 0, 0]], [[0, 1, 2], [3, 4, 1], [3, 1,
    2], [2, 5, 5], [6, 4, 1], [5, 5, 5], [0, 4, 1]], [[⟨0, 0, 0⟩, ⟨0, 1, 21⟩, ⟨1, 0, 7⟩, ⟨2, 0,
    14⟩, ⟨2, 1, 35⟩, ⟨2, 2, 56⟩], [⟨0, 2, 42⟩, ⟨1, 2, 49⟩], [⟨1, 1, 28⟩]], [[⟨0, 0, 0⟩, ⟨6, 0,
    6⟩], [⟨0, 1, 21⟩, ⟨1, 2, 43⟩, ⟨2, 1, 23⟩, ⟨4, 2, 46⟩, ⟨6, 2, 48⟩], [⟨0, 2, 42⟩, ⟨2, 2, 44⟩,
    ⟨3, 0, 3⟩], [⟨1, 0, 1⟩, ⟨2, 0, 2⟩], [⟨1, 1, 22⟩, ⟨4, 1, 25⟩, ⟨6, 1, 27⟩], [⟨3, 1, 24⟩, ⟨3, 2,
    45⟩, ⟨5, 0, 5⟩, ⟨5, 1, 26⟩, ⟨5, 2, 47⟩], [⟨4, 0, 4⟩]]⟩⟩,
    ⟨11564218345485, ⟨30, 6, 5, [[0, 0, 1], [0, 1, 1]], [[0, 1, 2], [0, 1, 2], [3, 1, 2], [2, 4,
    4], [4, 4, 4]], [[⟨0, 0, 0⟩, ⟨0, 1, 10⟩, ⟨1, 0, 5⟩], [⟨0, 2, 20⟩, ⟨1, 1, 15⟩, ⟨1, 2, 25⟩]],
    [[⟨0, 0, 0⟩, ⟨1, 0, 1⟩], [⟨0, 1, 10⟩, ⟨1, 1, 11⟩, ⟨2, 1, 12⟩], [⟨0, 2, 20⟩, ⟨1, 2, 21⟩, ⟨2,
    2, 22⟩, ⟨3, 0, 3⟩], [⟨2, 0, 2⟩], [⟨3, 1, 13⟩, ⟨3, 2, 23⟩, ⟨4, 0, 4⟩, ⟨4, 1, 14⟩, ⟨4, 2,
    24⟩]]⟩⟩,
    ⟨11839096252429, ⟨30, 6, 5, [[0, 1, 1], [0, 1, 1]], [[0, 1, 2], [0, 1, 2], [3, 1, 2], [2, 4,
    4], [4, 4, 4]], [[⟨0, 0, 0⟩, ⟨1, 0, 5⟩], [⟨0, 1, 10⟩, ⟨0, 2, 20⟩, ⟨1, 1, 15⟩, ⟨1, 2, 25⟩]],
    [[⟨0, 0, 0⟩, ⟨1, 0, 1⟩], [⟨0, 1, 10⟩, ⟨1, 1, 11⟩, ⟨2, 1, 12⟩], [⟨0, 2, 20⟩, ⟨1, 2, 21⟩, ⟨2,
    2, 22⟩, ⟨3, 0, 3⟩], [⟨2, 0, 2⟩], [⟨3, 1, 13⟩, ⟨3, 2, 23⟩, ⟨4, 0, 4⟩, ⟨4, 1, 14⟩, ⟨4, 2,
    24⟩]]⟩⟩,
    ⟨11907815729165, ⟨36, 9, 4, [[0, 1, 1], [0, 2, 1], [0, 2, 0]], [[0, 1, 2], [0, 1, 2], [3, 2,
    3], [3, 3, 3]], [[⟨0, 0, 0⟩, ⟨1, 0, 4⟩, ⟨2, 0, 8⟩, ⟨2, 2, 32⟩], [⟨0, 1, 12⟩, ⟨0, 2, 24⟩, ⟨1,
    2, 28⟩], [⟨1, 1, 16⟩, ⟨2, 1, 20⟩]], [[⟨0, 0, 0⟩, ⟨1, 0, 1⟩], [⟨0, 1, 12⟩, ⟨1, 1, 13⟩], [⟨0,
    2, 24⟩, ⟨1, 2, 25⟩, ⟨2, 1, 14⟩], [⟨2, 0, 2⟩, ⟨2, 2, 26⟩, ⟨3, 0, 3⟩, ⟨3, 1, 15⟩, ⟨3, 2,
    27⟩]]⟩⟩,
    ⟨12388852066317, ⟨30, 6, 5, [[0, 0, 1], [0, 1, 1]], [[0, 1, 2], [0, 1, 2], [3, 1, 2], [2, 4,
    4], [4, 4, 4]], [[⟨0, 0, 0⟩, ⟨0, 1, 10⟩, ⟨1, 0, 5⟩], [⟨0, 2, 20⟩, ⟨1, 1, 15⟩, ⟨1, 2, 25⟩]],
    [[⟨0, 0, 0⟩, ⟨1, 0, 1⟩], [⟨0, 1, 10⟩, ⟨1, 1, 11⟩, ⟨2, 1, 12⟩], [⟨0, 2, 20⟩, ⟨1, 2, 21⟩, ⟨2,
    2, 22⟩, ⟨3, 0, 3⟩], [⟨2, 0, 2⟩], [⟨3, 1, 13⟩, ⟨3, 2, 23⟩, ⟨4, 0, 4⟩, ⟨4, 1, 14⟩, ⟨4, 2,
    24⟩]]⟩⟩,
    ⟨12457571543053, ⟨36, 9, 4, [[0, 1, 0], [2, 2, 1], [2, 2, 2]], [[0, 1, 2], [1, 1, 2], [3, 2,
    3], [3, 3, 3]], [[⟨0, 0, 0⟩, ⟨0, 2, 24⟩], [⟨0, 1, 12⟩, ⟨1, 2, 28⟩], [⟨1, 0, 4⟩, ⟨1, 1, 16⟩,
    ⟨2, 0, 8⟩, ⟨2, 1, 20⟩, ⟨2, 2, 32⟩]], [[⟨0, 0, 0⟩], [⟨0, 1, 12⟩, ⟨1, 0, 1⟩, ⟨1, 1, 13⟩], [⟨0,
    2, 24⟩, ⟨1, 2, 25⟩, ⟨2, 1, 14⟩], [⟨2, 0, 2⟩, ⟨2, 2, 26⟩, ⟨3, 0, 3⟩, ⟨3, 1, 15⟩, ⟨3, 2,
    27⟩]]⟩⟩,
    ⟨7047957600036877, ⟨72, 24, 3, [[0, 1, 2], [3, 1, 2], [4, 2, 5], [6, 4, 2], [7, 4, 2], [5, 5,
    5], [1, 2, 5], [2, 5, 5]], [[0, 1, 0], [1, 2, 2], [1, 2, 2]], [[⟨0, 0, 0⟩], [⟨0, 1, 24⟩, ⟨1,
    1, 27⟩, ⟨6, 0, 18⟩], [⟨0, 2, 48⟩, ⟨1, 2, 51⟩, ⟨2, 1, 30⟩, ⟨3, 2, 57⟩, ⟨4, 2, 60⟩, ⟨6, 1, 42⟩,
    ⟨7, 0, 21⟩], [⟨1, 0, 3⟩], [⟨2, 0, 6⟩, ⟨3, 1, 33⟩, ⟨4, 1, 36⟩], [⟨2, 2, 54⟩, ⟨5, 0, 15⟩, ⟨5,
    1, 39⟩, ⟨5, 2, 63⟩, ⟨6, 2, 66⟩, ⟨7, 1, 45⟩, ⟨7, 2, 69⟩], [⟨3, 0, 9⟩], [⟨4, 0, 12⟩]], [[⟨0, 0,
    0⟩, ⟨0, 2, 48⟩], [⟨0, 1, 24⟩, ⟨1, 0, 1⟩, ⟨2, 0, 2⟩], [⟨1, 1, 25⟩, ⟨1, 2, 49⟩, ⟨2, 1, 26⟩, ⟨2,
    2, 50⟩]]⟩⟩,
    ⟨7048232477943821, ⟨435, 15, 29, [[0, 1, 1], [2, 3, 4], [2, 3, 4], [1, 1, 1], [1, 1, 1]],
    [[0, 1, 2], [3, 4, 5], [6, 6, 7], [7, 6, 7], [8, 9, 10], [3, 11, 12], [12, 3, 13], [7, 7, 7],
    [0, 14, 15], [16, 4, 5], [6, 17, 18], [16, 11, 12], [7, 5, 7], [6, 7, 7], [10, 19, 9], [16,
    20, 12], [12, 16, 13], [10, 9, 10], [3, 13, 12], [21, 19, 9], [22, 3, 13], [0, 23, 24], [25,
    1, 2], [9, 26, 26], [27, 28, 25], [6, 5, 7], [26, 26, 26], [25, 14, 15], [22, 16, 13]], [[⟨0,
    0, 0⟩], [⟨0, 1, 145⟩, ⟨0, 2, 290⟩, ⟨3, 0, 87⟩, ⟨3, 1, 232⟩, ⟨3, 2, 377⟩, ⟨4, 0, 116⟩, ⟨4, 1,
    261⟩, ⟨4, 2, 406⟩], [⟨1, 0, 29⟩, ⟨2, 0, 58⟩], [⟨1, 1, 174⟩, ⟨2, 1, 203⟩], [⟨1, 2, 319⟩, ⟨2,
    2, 348⟩]], [[⟨0, 0, 0⟩, ⟨8, 0, 8⟩, ⟨21, 0, 21⟩], [⟨0, 1, 145⟩, ⟨22, 1, 167⟩], [⟨0, 2, 290⟩,
    ⟨22, 2, 312⟩], [⟨1, 0, 1⟩, ⟨5, 0, 5⟩, ⟨6, 1, 151⟩, ⟨18, 0, 18⟩, ⟨20, 1, 165⟩], [⟨1, 1, 146⟩,
    ⟨9, 1, 154⟩], [⟨1, 2, 291⟩, ⟨9, 2, 299⟩, ⟨12, 1, 157⟩, ⟨25, 1, 170⟩], [⟨2, 0, 2⟩, ⟨2, 1,
    147⟩, ⟨3, 1, 148⟩, ⟨10, 0, 10⟩, ⟨13, 0, 13⟩, ⟨25, 0, 25⟩], [⟨2, 2, 292⟩, ⟨3, 0, 3⟩, ⟨3, 2,
    293⟩, ⟨7, 0, 7⟩, ⟨7, 1, 152⟩, ⟨7, 2, 297⟩, ⟨12, 0, 12⟩, ⟨12, 2, 302⟩, ⟨13, 1, 158⟩, ⟨13, 2,
    303⟩, ⟨25, 2, 315⟩], [⟨4, 0, 4⟩], [⟨4, 1, 149⟩, ⟨14, 2, 304⟩, ⟨17, 1, 162⟩, ⟨19, 2, 309⟩,
    ⟨23, 0, 23⟩], [⟨4, 2, 294⟩, ⟨14, 0, 14⟩, ⟨17, 0, 17⟩, ⟨17, 2, 307⟩], [⟨5, 1, 150⟩, ⟨11, 1,
    156⟩], [⟨5, 2, 295⟩, ⟨6, 0, 6⟩, ⟨11, 2, 301⟩, ⟨15, 2, 305⟩, ⟨16, 0, 16⟩, ⟨18, 2, 308⟩], [⟨6,
    2, 296⟩, ⟨16, 2, 306⟩, ⟨18, 1, 163⟩, ⟨20, 2, 310⟩, ⟨28, 2, 318⟩], [⟨8, 1, 153⟩, ⟨27, 1,
    172⟩], [⟨8, 2, 298⟩, ⟨27, 2, 317⟩], [⟨9, 0, 9⟩, ⟨11, 0, 11⟩, ⟨15, 0, 15⟩, ⟨16, 1, 161⟩, ⟨28,
    1, 173⟩], [⟨10, 1, 155⟩], [⟨10, 2, 300⟩], [⟨14, 1, 159⟩, ⟨19, 1, 164⟩], [⟨15, 1, 160⟩], [⟨19,
    0, 19⟩], [⟨20, 0, 20⟩, ⟨28, 0, 28⟩], [⟨21, 1, 166⟩], [⟨21, 2, 311⟩], [⟨22, 0, 22⟩, ⟨24, 2,
    314⟩, ⟨27, 0, 27⟩], [⟨23, 1, 168⟩, ⟨23, 2, 313⟩, ⟨26, 0, 26⟩, ⟨26, 1, 171⟩, ⟨26, 2, 316⟩],
    [⟨24, 0, 24⟩], [⟨24, 1, 169⟩]]⟩⟩,
    ⟨13213487884301, ⟨18, 6, 3, [[0, 1, 1], [0, 1, 1]], [[0, 1, 2], [1, 1, 1], [2, 1, 2]], [[⟨0,
    0, 0⟩, ⟨1, 0, 3⟩], [⟨0, 1, 6⟩, ⟨0, 2, 12⟩, ⟨1, 1, 9⟩, ⟨1, 2, 15⟩]], [[⟨0, 0, 0⟩], [⟨0, 1, 6⟩,
    ⟨1, 0, 1⟩, ⟨1, 1, 7⟩, ⟨1, 2, 13⟩, ⟨2, 1, 8⟩], [⟨0, 2, 12⟩, ⟨2, 0, 2⟩, ⟨2, 2, 14⟩]]⟩⟩,
    ⟨14106841081869, ⟨18, 6, 3, [[0, 1, 0], [0, 1, 0]], [[0, 1, 2], [1, 1, 1], [2, 1, 2]], [[⟨0,
    0, 0⟩, ⟨0, 2, 12⟩, ⟨1, 0, 3⟩, ⟨1, 2, 15⟩], [⟨0, 1, 6⟩, ⟨1, 1, 9⟩]], [[⟨0, 0, 0⟩], [⟨0, 1, 6⟩,
    ⟨1, 0, 1⟩, ⟨1, 1, 7⟩, ⟨1, 2, 13⟩, ⟨2, 1, 8⟩], [⟨0, 2, 12⟩, ⟨2, 0, 2⟩, ⟨2, 2, 14⟩]]⟩⟩,
    ⟨14656596895757, ⟨18, 6, 3, [[0, 0, 1], [0, 0, 1]], [[0, 1, 2], [1, 1, 1], [2, 1, 2]], [[⟨0,
    0, 0⟩, ⟨0, 1, 6⟩, ⟨1, 0, 3⟩, ⟨1, 1, 9⟩], [⟨0, 2, 12⟩, ⟨1, 2, 15⟩]], [[⟨0, 0, 0⟩], [⟨0, 1, 6⟩,
    ⟨1, 0, 1⟩, ⟨1, 1, 7⟩, ⟨1, 2, 13⟩, ⟨2, 1, 8⟩], [⟨0, 2, 12⟩, ⟨2, 0, 2⟩, ⟨2, 2, 14⟩]]⟩⟩,
    ⟨7047957602134029, ⟨63, 9, 7, [[0, 1, 0], [2, 0, 0], [0, 1, 1]], [[0, 0, 1], [2, 3, 4], [1,
    5, 1], [6, 4, 4], [4, 4, 4], [0, 0, 1], [4, 4, 4]], [[⟨0, 0, 0⟩, ⟨0, 2, 42⟩, ⟨1, 1, 28⟩, ⟨1,
    2, 49⟩, ⟨2, 0, 14⟩], [⟨0, 1, 21⟩, ⟨2, 1, 35⟩, ⟨2, 2, 56⟩], [⟨1, 0, 7⟩]], [[⟨0, 0, 0⟩, ⟨0, 1,
    21⟩, ⟨5, 0, 5⟩, ⟨5, 1, 26⟩], [⟨0, 2, 42⟩, ⟨2, 0, 2⟩, ⟨2, 2, 44⟩, ⟨5, 2, 47⟩], [⟨1, 0, 1⟩],
    [⟨1, 1, 22⟩], [⟨1, 2, 43⟩, ⟨3, 1, 24⟩, ⟨3, 2, 45⟩, ⟨4, 0, 4⟩, ⟨4, 1, 25⟩, ⟨4, 2, 46⟩, ⟨6, 0,
    6⟩, ⟨6, 1, 27⟩, ⟨6, 2, 48⟩], [⟨2, 1, 23⟩], [⟨3, 0, 3⟩]]⟩⟩,
    ⟨7188695090489357, ⟨18, 6, 3, [[0, 1, 1], [1, 1, 1]], [[0, 1, 2], [1, 1, 1], [2, 0, 2]],
    [[⟨0, 0, 0⟩], [⟨0, 1, 6⟩, ⟨0, 2, 12⟩, ⟨1, 0, 3⟩, ⟨1, 1, 9⟩, ⟨1, 2, 15⟩]], [[⟨0, 0, 0⟩, ⟨2, 1,
    8⟩], [⟨0, 1, 6⟩, ⟨1, 0, 1⟩, ⟨1, 1, 7⟩, ⟨1, 2, 13⟩], [⟨0, 2, 12⟩, ⟨2, 0, 2⟩, ⟨2, 2, 14⟩]]⟩⟩],
    by decide +kernel, by decide +kernel⟩

theorem child23_2l0_2r0 : AllDone (child (2, false, 0) (2, true, 0)) := by
  refine allDone_of [list23_2l0_2r0_0] ?_ (by decide +kernel)
  simp only [List.forall_mem_cons, List.not_mem_nil, false_imp_iff, implies_true, and_true]
  exact done23_2l0_2r0_0

def list23_2l0_2r1_0 : List Listed := [
  ⟨7083348129245709, [((0, 0), (1, true, 1)), ((0, 1), (2, true, 1)), ((0, 2), (0, true, 0)),
  ((1, 0), (2, false, 0)), ((1, 1), (0, true, 0)), ((1, 2), (1, false, 1))]⟩,
  ⟨7083897885059597, [((0, 0), (1, true, 1)), ((0, 1), (2, true, 1)), ((0, 2), (0, true, 0)),
  ((1, 0), (2, false, 0)), ((1, 1), (1, true, 0)), ((1, 2), (1, false, 1))]⟩,
  ⟨7084447639824909, [((0, 0), (1, true, 1)), ((0, 1), (2, true, 1)), ((0, 2), (0, false, 0)),
  ((1, 0), (2, false, 0)), ((1, 1), (2, true, 0)), ((1, 2), (1, false, 1))]⟩,
  ⟨7084447640873485, [((0, 0), (1, true, 1)), ((0, 1), (2, true, 1)), ((0, 2), (0, true, 0)),
  ((1, 0), (2, false, 0)), ((1, 1), (2, true, 0)), ((1, 2), (1, false, 1))]⟩,
  ⟨7084516360350221, [((0, 0), (1, true, 1)), ((0, 1), (2, true, 1)), ((0, 2), (0, true, 0)),
  ((1, 0), (2, false, 0)), ((1, 1), (2, true, 1)), ((1, 2), (1, false, 1))]⟩,
  ⟨7365372861770253, [((0, 0), (1, true, 1)), ((0, 1), (2, true, 1)), ((0, 2), (0, true, 0)),
  ((1, 0), (2, false, 0)), ((1, 1), (1, true, 0)), ((1, 2), (2, false, 1))]⟩,
  ⟨7365922617584141, [((0, 0), (1, true, 1)), ((0, 1), (2, true, 1)), ((0, 2), (0, true, 0)),
  ((1, 0), (2, false, 0)), ((1, 1), (2, true, 0)), ((1, 2), (2, false, 1))]⟩,
  ⟨14656596896269, [((0, 0), (1, true, 1)), ((0, 1), (2, true, 1)), ((0, 2), (2, false, 0)), ((1,
  0), (2, false, 0)), ((1, 2), (2, true, 1))]⟩]

theorem done23_2l0_2r1_0 : ∃ h, Done list23_2l0_2r1_0 h :=
  ⟨[
    ⟨7083348129245709, ⟨36, 9, 4, [[0, 0, 1], [1, 2, 2], [1, 0, 0]], [[0, 1, 0], [0, 2, 1], [1,
    3, 3], [3, 3, 3]], [[⟨0, 0, 0⟩, ⟨0, 1, 12⟩, ⟨2, 1, 20⟩, ⟨2, 2, 32⟩], [⟨0, 2, 24⟩, ⟨1, 0, 4⟩,
    ⟨2, 0, 8⟩], [⟨1, 1, 16⟩, ⟨1, 2, 28⟩]], [[⟨0, 0, 0⟩, ⟨0, 2, 24⟩, ⟨1, 0, 1⟩], [⟨0, 1, 12⟩, ⟨1,
    2, 25⟩, ⟨2, 0, 2⟩], [⟨1, 1, 13⟩], [⟨2, 1, 14⟩, ⟨2, 2, 26⟩, ⟨3, 0, 3⟩, ⟨3, 1, 15⟩, ⟨3, 2,
    27⟩]]⟩⟩,
    ⟨7083897885059597, ⟨72, 9, 8, [[0, 0, 1], [0, 2, 1], [2, 2, 2]], [[0, 1, 1], [2, 3, 4], [5,
    1, 1], [4, 6, 6], [7, 3, 4], [1, 4, 3], [6, 6, 6], [3, 4, 3]], [[⟨0, 0, 0⟩, ⟨0, 1, 24⟩, ⟨1,
    0, 8⟩], [⟨0, 2, 48⟩, ⟨1, 2, 56⟩], [⟨1, 1, 32⟩, ⟨2, 0, 16⟩, ⟨2, 1, 40⟩, ⟨2, 2, 64⟩]], [[⟨0, 0,
    0⟩], [⟨0, 1, 24⟩, ⟨0, 2, 48⟩, ⟨2, 1, 26⟩, ⟨2, 2, 50⟩, ⟨5, 0, 5⟩], [⟨1, 0, 1⟩], [⟨1, 1, 25⟩,
    ⟨4, 1, 28⟩, ⟨5, 2, 53⟩, ⟨7, 0, 7⟩, ⟨7, 2, 55⟩], [⟨1, 2, 49⟩, ⟨3, 0, 3⟩, ⟨4, 2, 52⟩, ⟨5, 1,
    29⟩, ⟨7, 1, 31⟩], [⟨2, 0, 2⟩], [⟨3, 1, 27⟩, ⟨3, 2, 51⟩, ⟨6, 0, 6⟩, ⟨6, 1, 30⟩, ⟨6, 2, 54⟩],
    [⟨4, 0, 4⟩]]⟩⟩,
    ⟨7084447639824909, ⟨435, 87, 5, [[0, 1, 2], [3, 4, 3], [5, 6, 7], [8, 9, 5], [4, 4, 4], [4,
    4, 3], [5, 8, 10], [11, 12, 13], [4, 4, 6], [3, 4, 4], [14, 8, 10], [0, 15, 16], [3, 17, 18],
    [14, 6, 7], [8, 9, 14], [14, 8, 19], [12, 13, 20], [5, 8, 9], [12, 12, 13], [21, 9, 5], [22,
    13, 20], [23, 1, 2], [0, 24, 25], [3, 4, 6], [26, 23, 27], [13, 28, 28], [23, 15, 16], [21,
    9, 14], [28, 28, 28]], [[0, 1, 1], [2, 3, 4], [2, 3, 4], [1, 1, 1], [1, 1, 1]], [[⟨0, 0, 0⟩,
    ⟨11, 0, 55⟩, ⟨22, 0, 110⟩], [⟨0, 1, 145⟩, ⟨21, 1, 250⟩], [⟨0, 2, 290⟩, ⟨21, 2, 395⟩], [⟨1, 0,
    5⟩, ⟨1, 2, 295⟩, ⟨5, 2, 315⟩, ⟨9, 0, 45⟩, ⟨12, 0, 60⟩, ⟨23, 0, 115⟩], [⟨1, 1, 150⟩, ⟨4, 0,
    20⟩, ⟨4, 1, 165⟩, ⟨4, 2, 310⟩, ⟨5, 0, 25⟩, ⟨5, 1, 170⟩, ⟨8, 0, 40⟩, ⟨8, 1, 185⟩, ⟨9, 1, 190⟩,
    ⟨9, 2, 335⟩, ⟨23, 1, 260⟩], [⟨2, 0, 10⟩, ⟨3, 2, 305⟩, ⟨6, 0, 30⟩, ⟨17, 0, 85⟩, ⟨19, 2, 385⟩],
    [⟨2, 1, 155⟩, ⟨8, 2, 330⟩, ⟨13, 1, 210⟩, ⟨23, 2, 405⟩], [⟨2, 2, 300⟩, ⟨13, 2, 355⟩], [⟨3, 0,
    15⟩, ⟨6, 1, 175⟩, ⟨10, 1, 195⟩, ⟨14, 0, 70⟩, ⟨15, 1, 220⟩, ⟨17, 1, 230⟩], [⟨3, 1, 160⟩, ⟨14,
    1, 215⟩, ⟨17, 2, 375⟩, ⟨19, 1, 240⟩, ⟨27, 1, 280⟩], [⟨6, 2, 320⟩, ⟨10, 2, 340⟩], [⟨7, 0,
    35⟩], [⟨7, 1, 180⟩, ⟨16, 0, 80⟩, ⟨18, 0, 90⟩, ⟨18, 1, 235⟩], [⟨7, 2, 325⟩, ⟨16, 1, 225⟩, ⟨18,
    2, 380⟩, ⟨20, 1, 245⟩, ⟨25, 0, 125⟩], [⟨10, 0, 50⟩, ⟨13, 0, 65⟩, ⟨14, 2, 360⟩, ⟨15, 0, 75⟩,
    ⟨27, 2, 425⟩], [⟨11, 1, 200⟩, ⟨26, 1, 275⟩], [⟨11, 2, 345⟩, ⟨26, 2, 420⟩], [⟨12, 1, 205⟩],
    [⟨12, 2, 350⟩], [⟨15, 2, 365⟩], [⟨16, 2, 370⟩, ⟨20, 2, 390⟩], [⟨19, 0, 95⟩, ⟨27, 0, 135⟩],
    [⟨20, 0, 100⟩], [⟨21, 0, 105⟩, ⟨24, 1, 265⟩, ⟨26, 0, 130⟩], [⟨22, 1, 255⟩], [⟨22, 2, 400⟩],
    [⟨24, 0, 120⟩], [⟨24, 2, 410⟩], [⟨25, 1, 270⟩, ⟨25, 2, 415⟩, ⟨28, 0, 140⟩, ⟨28, 1, 285⟩, ⟨28,
    2, 430⟩]], [[⟨0, 0, 0⟩], [⟨0, 1, 145⟩, ⟨0, 2, 290⟩, ⟨3, 0, 3⟩, ⟨3, 1, 148⟩, ⟨3, 2, 293⟩, ⟨4,
    0, 4⟩, ⟨4, 1, 149⟩, ⟨4, 2, 294⟩], [⟨1, 0, 1⟩, ⟨2, 0, 2⟩], [⟨1, 1, 146⟩, ⟨2, 1, 147⟩], [⟨1, 2,
    291⟩, ⟨2, 2, 292⟩]]⟩⟩,
    ⟨7084447640873485, ⟨72, 9, 8, [[0, 0, 1], [1, 2, 2], [1, 2, 2]], [[0, 1, 2], [3, 4, 1], [5,
    1, 2], [6, 1, 3], [4, 4, 4], [7, 1, 3], [1, 4, 4], [2, 4, 1]], [[⟨0, 0, 0⟩, ⟨0, 1, 24⟩], [⟨0,
    2, 48⟩, ⟨1, 0, 8⟩, ⟨2, 0, 16⟩], [⟨1, 1, 32⟩, ⟨1, 2, 56⟩, ⟨2, 1, 40⟩, ⟨2, 2, 64⟩]], [[⟨0, 0,
    0⟩], [⟨0, 1, 24⟩, ⟨1, 2, 49⟩, ⟨2, 1, 26⟩, ⟨3, 1, 27⟩, ⟨5, 1, 29⟩, ⟨6, 0, 6⟩, ⟨7, 2, 55⟩],
    [⟨0, 2, 48⟩, ⟨2, 2, 50⟩, ⟨7, 0, 7⟩], [⟨1, 0, 1⟩, ⟨3, 2, 51⟩, ⟨5, 2, 53⟩], [⟨1, 1, 25⟩, ⟨4, 0,
    4⟩, ⟨4, 1, 28⟩, ⟨4, 2, 52⟩, ⟨6, 1, 30⟩, ⟨6, 2, 54⟩, ⟨7, 1, 31⟩], [⟨2, 0, 2⟩], [⟨3, 0, 3⟩],
    [⟨5, 0, 5⟩]]⟩⟩,
    ⟨7084516360350221, ⟨72, 9, 8, [[0, 0, 1], [1, 2, 2], [1, 0, 2]], [[0, 1, 2], [2, 3, 4], [5,
    1, 2], [3, 3, 3], [6, 3, 4], [1, 1, 6], [7, 1, 6], [4, 3, 3]], [[⟨0, 0, 0⟩, ⟨0, 1, 24⟩, ⟨2,
    1, 40⟩], [⟨0, 2, 48⟩, ⟨1, 0, 8⟩, ⟨2, 0, 16⟩], [⟨1, 1, 32⟩, ⟨1, 2, 56⟩, ⟨2, 2, 64⟩]], [[⟨0, 0,
    0⟩], [⟨0, 1, 24⟩, ⟨2, 1, 26⟩, ⟨5, 0, 5⟩, ⟨5, 1, 29⟩, ⟨6, 1, 30⟩], [⟨0, 2, 48⟩, ⟨1, 0, 1⟩, ⟨2,
    2, 50⟩], [⟨1, 1, 25⟩, ⟨3, 0, 3⟩, ⟨3, 1, 27⟩, ⟨3, 2, 51⟩, ⟨4, 1, 28⟩, ⟨7, 1, 31⟩, ⟨7, 2, 55⟩],
    [⟨1, 2, 49⟩, ⟨4, 2, 52⟩, ⟨7, 0, 7⟩], [⟨2, 0, 2⟩], [⟨4, 0, 4⟩, ⟨5, 2, 53⟩, ⟨6, 2, 54⟩], [⟨6,
    0, 6⟩]]⟩⟩,
    ⟨7365372861770253, ⟨72, 12, 6, [[0, 1, 2], [1, 1, 0], [3, 1, 2], [3, 3, 3]], [[0, 1, 2], [3,
    3, 4], [5, 2, 2], [1, 1, 2], [4, 4, 4], [5, 2, 2]], [[⟨0, 0, 0⟩, ⟨1, 2, 54⟩], [⟨0, 1, 24⟩,
    ⟨1, 0, 6⟩, ⟨1, 1, 30⟩, ⟨2, 1, 36⟩], [⟨0, 2, 48⟩, ⟨2, 2, 60⟩], [⟨2, 0, 12⟩, ⟨3, 0, 18⟩, ⟨3, 1,
    42⟩, ⟨3, 2, 66⟩]], [[⟨0, 0, 0⟩], [⟨0, 1, 24⟩, ⟨3, 0, 3⟩, ⟨3, 1, 27⟩], [⟨0, 2, 48⟩, ⟨2, 1,
    26⟩, ⟨2, 2, 50⟩, ⟨3, 2, 51⟩, ⟨5, 1, 29⟩, ⟨5, 2, 53⟩], [⟨1, 0, 1⟩, ⟨1, 1, 25⟩], [⟨1, 2, 49⟩,
    ⟨4, 0, 4⟩, ⟨4, 1, 28⟩, ⟨4, 2, 52⟩], [⟨2, 0, 2⟩, ⟨5, 0, 5⟩]]⟩⟩,
    ⟨7365922617584141, ⟨312, 12, 26, [[0, 0, 1], [2, 0, 1], [3, 1, 2], [3, 3, 3]], [[0, 0, 1],
    [2, 3, 4], [5, 6, 4], [7, 8, 9], [10, 11, 4], [12, 8, 9], [13, 6, 4], [14, 15, 1], [10, 3,
    4], [16, 17, 18], [11, 16, 18], [19, 20, 9], [1, 21, 9], [15, 14, 1], [13, 22, 4], [7, 23,
    9], [10, 17, 4], [24, 16, 18], [18, 18, 18], [16, 11, 18], [18, 11, 18], [19, 21, 9], [0, 14,
    1], [25, 15, 1], [25, 25, 1], [24, 24, 18]], [[⟨0, 0, 0⟩, ⟨0, 1, 104⟩, ⟨1, 1, 130⟩], [⟨0, 2,
    208⟩, ⟨1, 2, 234⟩, ⟨2, 1, 156⟩], [⟨1, 0, 26⟩, ⟨2, 2, 260⟩], [⟨2, 0, 52⟩, ⟨3, 0, 78⟩, ⟨3, 1,
    182⟩, ⟨3, 2, 286⟩]], [[⟨0, 0, 0⟩, ⟨0, 1, 104⟩, ⟨22, 0, 22⟩], [⟨0, 2, 208⟩, ⟨7, 2, 215⟩, ⟨12,
    0, 12⟩, ⟨13, 2, 221⟩, ⟨22, 2, 230⟩, ⟨23, 2, 231⟩, ⟨24, 2, 232⟩], [⟨1, 0, 1⟩], [⟨1, 1, 105⟩,
    ⟨8, 1, 112⟩], [⟨1, 2, 209⟩, ⟨2, 2, 210⟩, ⟨4, 2, 212⟩, ⟨6, 2, 214⟩, ⟨8, 2, 216⟩, ⟨14, 2, 222⟩,
    ⟨16, 2, 224⟩], [⟨2, 0, 2⟩], [⟨2, 1, 106⟩, ⟨6, 1, 110⟩], [⟨3, 0, 3⟩, ⟨15, 0, 15⟩], [⟨3, 1,
    107⟩, ⟨5, 1, 109⟩], [⟨3, 2, 211⟩, ⟨5, 2, 213⟩, ⟨11, 2, 219⟩, ⟨12, 2, 220⟩, ⟨15, 2, 223⟩, ⟨21,
    2, 229⟩], [⟨4, 0, 4⟩, ⟨8, 0, 8⟩, ⟨16, 0, 16⟩], [⟨4, 1, 108⟩, ⟨10, 0, 10⟩, ⟨19, 1, 123⟩, ⟨20,
    1, 124⟩], [⟨5, 0, 5⟩], [⟨6, 0, 6⟩, ⟨14, 0, 14⟩], [⟨7, 0, 7⟩, ⟨13, 1, 117⟩, ⟨22, 1, 126⟩],
    [⟨7, 1, 111⟩, ⟨13, 0, 13⟩, ⟨23, 1, 127⟩], [⟨9, 0, 9⟩, ⟨10, 1, 114⟩, ⟨17, 1, 121⟩, ⟨19, 0,
    19⟩], [⟨9, 1, 113⟩, ⟨16, 1, 120⟩], [⟨9, 2, 217⟩, ⟨10, 2, 218⟩, ⟨17, 2, 225⟩, ⟨18, 0, 18⟩,
    ⟨18, 1, 122⟩, ⟨18, 2, 226⟩, ⟨19, 2, 227⟩, ⟨20, 0, 20⟩, ⟨20, 2, 228⟩, ⟨25, 2, 233⟩], [⟨11, 0,
    11⟩, ⟨21, 0, 21⟩], [⟨11, 1, 115⟩], [⟨12, 1, 116⟩, ⟨21, 1, 125⟩], [⟨14, 1, 118⟩], [⟨15, 1,
    119⟩], [⟨17, 0, 17⟩, ⟨25, 0, 25⟩, ⟨25, 1, 129⟩], [⟨23, 0, 23⟩, ⟨24, 0, 24⟩, ⟨24, 1, 128⟩]]⟩⟩,
    ⟨14656596896269, ⟨18, 6, 3, [[0, 0, 1], [0, 0, 1]], [[0, 1, 2], [1, 1, 1], [2, 1, 2]], [[⟨0,
    0, 0⟩, ⟨0, 1, 6⟩, ⟨1, 0, 3⟩, ⟨1, 1, 9⟩], [⟨0, 2, 12⟩, ⟨1, 2, 15⟩]], [[⟨0, 0, 0⟩], [⟨0, 1, 6⟩,
    ⟨1, 0, 1⟩, ⟨1, 1, 7⟩, ⟨1, 2, 13⟩, ⟨2, 1, 8⟩], [⟨0, 2, 12⟩, ⟨2, 0, 2⟩, ⟨2, 2, 14⟩]]⟩⟩],
    by decide +kernel, by decide +kernel⟩

theorem child23_2l0_2r1 : AllDone (child (2, false, 0) (2, true, 1)) := by
  refine allDone_of [list23_2l0_2r1_0] ?_ (by decide +kernel)
  simp only [List.forall_mem_cons, List.not_mem_nil, false_imp_iff, implies_true, and_true]
  exact done23_2l0_2r1_0

theorem part23_2l0 : AllDone (fullPart 2 3 38 (2, false, 0)) := by
  refine allDone_full (by decide +kernel) ?_
  simp only [kids, List.forall_mem_cons, List.not_mem_nil, false_imp_iff, implies_true, and_true]
  exact ⟨child23_2l0_0l0,
    child23_2l0_0l1,
    child23_2l0_0r0,
    child23_2l0_0r1,
    child23_2l0_1l0,
    child23_2l0_1l1,
    child23_2l0_1r0,
    child23_2l0_1r1,
    child23_2l0_2l0,
    child23_2l0_2l1,
    child23_2l0_2r0,
    child23_2l0_2r1⟩

theorem child23_2l1_0l0 : AllDone (child (2, false, 1) (0, false, 0)) :=
  allDone_of [] (by simp) (by decide +kernel)

theorem child23_2l1_0l1 : AllDone (child (2, false, 1) (0, false, 1)) :=
  allDone_of [] (by simp) (by decide +kernel)

end BB.Records
