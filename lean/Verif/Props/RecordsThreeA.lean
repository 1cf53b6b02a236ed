import Verif.Props.Records
import Verif.Props.SettleThree

/-!
# C79 for three states and two colours: the automata

Pairs that remember the nearest 0 to 3 cells and whether all others are blank, and pairs found by a
search for the programs for which these do not do.
-/

namespace BB.Records

open Watch

def gram22 : Try :=
  ⟨1000, ⟨128, 16, 8, [[0, 1], [2, 3], [4, 5], [6, 7], [4, 5], [6, 7], [4, 5], [6, 7]], [[0, 1],
  [2, 3], [4, 5], [6, 7], [4, 5], [6, 7], [4, 5], [6, 7]], [[⟨0, 0, 0⟩], [⟨0, 1, 64⟩], [⟨1, 0,
  8⟩], [⟨1, 1, 72⟩], [⟨2, 0, 16⟩, ⟨4, 0, 32⟩, ⟨6, 0, 48⟩], [⟨2, 1, 80⟩, ⟨4, 1, 96⟩, ⟨6, 1, 112⟩],
  [⟨3, 0, 24⟩, ⟨5, 0, 40⟩, ⟨7, 0, 56⟩], [⟨3, 1, 88⟩, ⟨5, 1, 104⟩, ⟨7, 1, 120⟩]], [[⟨0, 0, 0⟩],
  [⟨0, 1, 64⟩], [⟨1, 0, 1⟩], [⟨1, 1, 65⟩], [⟨2, 0, 2⟩, ⟨4, 0, 4⟩, ⟨6, 0, 6⟩], [⟨2, 1, 66⟩, ⟨4, 1,
  68⟩, ⟨6, 1, 70⟩], [⟨3, 0, 3⟩, ⟨5, 0, 5⟩, ⟨7, 0, 7⟩], [⟨3, 1, 67⟩, ⟨5, 1, 69⟩, ⟨7, 1, 71⟩]]⟩⟩

def gram23 : Try :=
  ⟨1000, ⟨512, 32, 16, [[0, 1], [2, 3], [4, 5], [6, 7], [8, 9], [10, 11], [12, 13], [14, 15], [8,
  9], [10, 11], [12, 13], [14, 15], [8, 9], [10, 11], [12, 13], [14, 15]], [[0, 1], [2, 3], [4,
  5], [6, 7], [8, 9], [10, 11], [12, 13], [14, 15], [8, 9], [10, 11], [12, 13], [14, 15], [8, 9],
  [10, 11], [12, 13], [14, 15]], [[⟨0, 0, 0⟩], [⟨0, 1, 256⟩], [⟨1, 0, 16⟩], [⟨1, 1, 272⟩], [⟨2,
  0, 32⟩], [⟨2, 1, 288⟩], [⟨3, 0, 48⟩], [⟨3, 1, 304⟩], [⟨4, 0, 64⟩, ⟨8, 0, 128⟩, ⟨12, 0, 192⟩],
  [⟨4, 1, 320⟩, ⟨8, 1, 384⟩, ⟨12, 1, 448⟩], [⟨5, 0, 80⟩, ⟨9, 0, 144⟩, ⟨13, 0, 208⟩], [⟨5, 1,
  336⟩, ⟨9, 1, 400⟩, ⟨13, 1, 464⟩], [⟨6, 0, 96⟩, ⟨10, 0, 160⟩, ⟨14, 0, 224⟩], [⟨6, 1, 352⟩, ⟨10,
  1, 416⟩, ⟨14, 1, 480⟩], [⟨7, 0, 112⟩, ⟨11, 0, 176⟩, ⟨15, 0, 240⟩], [⟨7, 1, 368⟩, ⟨11, 1, 432⟩,
  ⟨15, 1, 496⟩]], [[⟨0, 0, 0⟩], [⟨0, 1, 256⟩], [⟨1, 0, 1⟩], [⟨1, 1, 257⟩], [⟨2, 0, 2⟩], [⟨2, 1,
  258⟩], [⟨3, 0, 3⟩], [⟨3, 1, 259⟩], [⟨4, 0, 4⟩, ⟨8, 0, 8⟩, ⟨12, 0, 12⟩], [⟨4, 1, 260⟩, ⟨8, 1,
  264⟩, ⟨12, 1, 268⟩], [⟨5, 0, 5⟩, ⟨9, 0, 9⟩, ⟨13, 0, 13⟩], [⟨5, 1, 261⟩, ⟨9, 1, 265⟩, ⟨13, 1,
  269⟩], [⟨6, 0, 6⟩, ⟨10, 0, 10⟩, ⟨14, 0, 14⟩], [⟨6, 1, 262⟩, ⟨10, 1, 266⟩, ⟨14, 1, 270⟩], [⟨7,
  0, 7⟩, ⟨11, 0, 11⟩, ⟨15, 0, 15⟩], [⟨7, 1, 263⟩, ⟨11, 1, 267⟩, ⟨15, 1, 271⟩]]⟩⟩

def hard32e : List Hard := [
  ⟨18164121359373, ⟨24, 8, 3, [[0, 1], [2, 3], [1, 1], [3, 3]], [[0, 1], [0, 2], [0, 1]], [[⟨0,
  0, 0⟩], [⟨0, 1, 12⟩, ⟨2, 0, 6⟩, ⟨2, 1, 18⟩], [⟨1, 0, 3⟩], [⟨1, 1, 15⟩, ⟨3, 0, 9⟩, ⟨3, 1, 21⟩]],
  [[⟨0, 0, 0⟩, ⟨1, 0, 1⟩, ⟨2, 0, 2⟩], [⟨0, 1, 12⟩, ⟨2, 1, 14⟩], [⟨1, 1, 13⟩]]⟩⟩,
  ⟨10327185277604877, ⟨24, 8, 3, [[0, 1], [2, 3], [1, 1], [3, 3]], [[0, 1], [2, 2], [0, 1]],
  [[⟨0, 0, 0⟩], [⟨0, 1, 12⟩, ⟨2, 0, 6⟩, ⟨2, 1, 18⟩], [⟨1, 0, 3⟩], [⟨1, 1, 15⟩, ⟨3, 0, 9⟩, ⟨3, 1,
  21⟩]], [[⟨0, 0, 0⟩, ⟨2, 0, 2⟩], [⟨0, 1, 12⟩, ⟨2, 1, 14⟩], [⟨1, 0, 1⟩, ⟨1, 1, 13⟩]]⟩⟩,
  ⟨10221908112987149, ⟨40, 8, 5, [[0, 1], [2, 1], [1, 3], [0, 0]], [[0, 1], [2, 3], [2, 2], [4,
  1], [4, 4]], [[⟨0, 0, 0⟩, ⟨3, 0, 15⟩, ⟨3, 1, 35⟩], [⟨0, 1, 20⟩, ⟨1, 1, 25⟩, ⟨2, 0, 10⟩], [⟨1,
  0, 5⟩], [⟨2, 1, 30⟩]], [[⟨0, 0, 0⟩], [⟨0, 1, 20⟩, ⟨3, 1, 23⟩], [⟨1, 0, 1⟩, ⟨2, 0, 2⟩, ⟨2, 1,
  22⟩], [⟨1, 1, 21⟩], [⟨3, 0, 3⟩, ⟨4, 0, 4⟩, ⟨4, 1, 24⟩]]⟩⟩,
  ⟨10186723204287501, ⟨70, 10, 7, [[0, 1], [2, 0], [0, 3], [2, 4], [0, 1]], [[0, 1], [2, 3], [4,
  5], [6, 1], [0, 5], [2, 3], [6, 6]], [[⟨0, 0, 0⟩, ⟨1, 1, 42⟩, ⟨2, 0, 14⟩, ⟨4, 0, 28⟩], [⟨0, 1,
  35⟩, ⟨4, 1, 63⟩], [⟨1, 0, 7⟩, ⟨3, 0, 21⟩], [⟨2, 1, 49⟩], [⟨3, 1, 56⟩]], [[⟨0, 0, 0⟩, ⟨4, 0,
  4⟩], [⟨0, 1, 35⟩, ⟨3, 1, 38⟩], [⟨1, 0, 1⟩, ⟨5, 0, 5⟩], [⟨1, 1, 36⟩, ⟨5, 1, 40⟩], [⟨2, 0, 2⟩],
  [⟨2, 1, 37⟩, ⟨4, 1, 39⟩], [⟨3, 0, 3⟩, ⟨6, 0, 6⟩, ⟨6, 1, 41⟩]]⟩⟩,
  ⟨10468198180998157, ⟨56, 8, 7, [[0, 1], [2, 0], [0, 3], [2, 1]], [[0, 1], [2, 1], [3, 4], [5,
  6], [2, 1], [3, 1], [6, 6]], [[⟨0, 0, 0⟩, ⟨1, 1, 35⟩, ⟨2, 0, 14⟩], [⟨0, 1, 28⟩, ⟨3, 1, 49⟩],
  [⟨1, 0, 7⟩, ⟨3, 0, 21⟩], [⟨2, 1, 42⟩]], [[⟨0, 0, 0⟩], [⟨0, 1, 28⟩, ⟨1, 1, 29⟩, ⟨4, 1, 32⟩, ⟨5,
  1, 33⟩], [⟨1, 0, 1⟩, ⟨4, 0, 4⟩], [⟨2, 0, 2⟩, ⟨5, 0, 5⟩], [⟨2, 1, 30⟩], [⟨3, 0, 3⟩], [⟨3, 1,
  31⟩, ⟨6, 0, 6⟩, ⟨6, 1, 34⟩]]⟩⟩,
  ⟨10468198181001229, ⟨40, 8, 5, [[0, 1], [2, 3], [2, 2], [0, 1]], [[0, 1], [2, 3], [4, 3], [4,
  1], [4, 4]], [[⟨0, 0, 0⟩, ⟨3, 0, 15⟩], [⟨0, 1, 20⟩, ⟨3, 1, 35⟩], [⟨1, 0, 5⟩, ⟨2, 0, 10⟩, ⟨2, 1,
  30⟩], [⟨1, 1, 25⟩]], [[⟨0, 0, 0⟩], [⟨0, 1, 20⟩, ⟨3, 1, 23⟩], [⟨1, 0, 1⟩], [⟨1, 1, 21⟩, ⟨2, 1,
  22⟩], [⟨2, 0, 2⟩, ⟨3, 0, 3⟩, ⟨4, 0, 4⟩, ⟨4, 1, 24⟩]]⟩⟩,
  ⟨20376710349837, ⟨12, 6, 2, [[0, 1], [1, 2], [2, 2]], [[0, 1], [0, 1]], [[⟨0, 0, 0⟩], [⟨0, 1,
  6⟩, ⟨1, 0, 2⟩], [⟨1, 1, 8⟩, ⟨2, 0, 4⟩, ⟨2, 1, 10⟩]], [[⟨0, 0, 0⟩, ⟨1, 0, 1⟩], [⟨0, 1, 6⟩, ⟨1,
  1, 7⟩]]⟩⟩,
  ⟨10432875833349133, ⟨24, 6, 4, [[0, 1], [2, 0], [1, 2]], [[0, 1], [2, 3], [2, 2], [0, 1]],
  [[⟨0, 0, 0⟩, ⟨1, 1, 16⟩], [⟨0, 1, 12⟩, ⟨2, 0, 8⟩], [⟨1, 0, 4⟩, ⟨2, 1, 20⟩]], [[⟨0, 0, 0⟩, ⟨3,
  0, 3⟩], [⟨0, 1, 12⟩, ⟨3, 1, 15⟩], [⟨1, 0, 1⟩, ⟨2, 0, 2⟩, ⟨2, 1, 14⟩], [⟨1, 1, 13⟩]]⟩⟩,
  ⟨20364084659213, ⟨24, 8, 3, [[0, 1], [2, 3], [2, 2], [0, 1]], [[0, 1], [0, 2], [2, 2]], [[⟨0,
  0, 0⟩, ⟨3, 0, 9⟩], [⟨0, 1, 12⟩, ⟨3, 1, 21⟩], [⟨1, 0, 3⟩, ⟨2, 0, 6⟩, ⟨2, 1, 18⟩], [⟨1, 1, 15⟩]],
  [[⟨0, 0, 0⟩, ⟨1, 0, 1⟩], [⟨0, 1, 12⟩], [⟨1, 1, 13⟩, ⟨2, 0, 2⟩, ⟨2, 1, 14⟩]]⟩⟩,
  ⟨20444624258061, ⟨32, 8, 4, [[0, 1], [2, 3], [0, 1], [3, 3]], [[0, 1], [2, 3], [0, 1], [3, 3]],
  [[⟨0, 0, 0⟩, ⟨2, 0, 8⟩], [⟨0, 1, 16⟩, ⟨2, 1, 24⟩], [⟨1, 0, 4⟩], [⟨1, 1, 20⟩, ⟨3, 0, 12⟩, ⟨3, 1,
  28⟩]], [[⟨0, 0, 0⟩, ⟨2, 0, 2⟩], [⟨0, 1, 16⟩, ⟨2, 1, 18⟩], [⟨1, 0, 1⟩], [⟨1, 1, 17⟩, ⟨3, 0, 3⟩,
  ⟨3, 1, 19⟩]]⟩⟩,
  ⟨20445161128973, ⟨32, 8, 4, [[0, 1], [2, 3], [3, 1], [3, 3]], [[0, 1], [2, 3], [0, 1], [3, 3]],
  [[⟨0, 0, 0⟩], [⟨0, 1, 16⟩, ⟨2, 1, 24⟩], [⟨1, 0, 4⟩], [⟨1, 1, 20⟩, ⟨2, 0, 8⟩, ⟨3, 0, 12⟩, ⟨3, 1,
  28⟩]], [[⟨0, 0, 0⟩, ⟨2, 0, 2⟩], [⟨0, 1, 16⟩, ⟨2, 1, 18⟩], [⟨1, 0, 1⟩], [⟨1, 1, 17⟩, ⟨3, 0, 3⟩,
  ⟨3, 1, 19⟩]]⟩⟩,
  ⟨10467922632266765, ⟨6, 2, 3, [[0, 0]], [[0, 1], [2, 1], [2, 2]], [[⟨0, 0, 0⟩, ⟨0, 1, 3⟩]],
  [[⟨0, 0, 0⟩], [⟨0, 1, 3⟩, ⟨1, 1, 4⟩], [⟨1, 0, 1⟩, ⟨2, 0, 2⟩, ⟨2, 1, 5⟩]]⟩⟩,
  ⟨20513334777869, ⟨12, 4, 3, [[0, 1], [0, 1]], [[0, 1], [2, 1], [2, 2]], [[⟨0, 0, 0⟩, ⟨1, 0,
  3⟩], [⟨0, 1, 6⟩, ⟨1, 1, 9⟩]], [[⟨0, 0, 0⟩], [⟨0, 1, 6⟩, ⟨1, 1, 7⟩], [⟨1, 0, 1⟩, ⟨2, 0, 2⟩, ⟨2,
  1, 8⟩]]⟩⟩,
  ⟨20513882965005, ⟨16, 8, 2, [[0, 1], [2, 1], [1, 3], [3, 3]], [[0, 1], [0, 1]], [[⟨0, 0, 0⟩],
  [⟨0, 1, 8⟩, ⟨1, 1, 10⟩, ⟨2, 0, 4⟩], [⟨1, 0, 2⟩], [⟨2, 1, 12⟩, ⟨3, 0, 6⟩, ⟨3, 1, 14⟩]], [[⟨0, 0,
  0⟩, ⟨1, 0, 1⟩], [⟨0, 1, 8⟩, ⟨1, 1, 9⟩]]⟩⟩,
  ⟨20514408519693, ⟨12, 4, 3, [[0, 1], [0, 1]], [[0, 1], [2, 1], [2, 2]], [[⟨0, 0, 0⟩, ⟨1, 0,
  3⟩], [⟨0, 1, 6⟩, ⟨1, 1, 9⟩]], [[⟨0, 0, 0⟩], [⟨0, 1, 6⟩, ⟨1, 1, 7⟩], [⟨1, 0, 1⟩, ⟨2, 0, 2⟩, ⟨2,
  1, 8⟩]]⟩⟩,
  ⟨10432326883885069, ⟨16, 4, 4, [[0, 1], [1, 1]], [[0, 1], [2, 3], [2, 1], [3, 3]], [[⟨0, 0,
  0⟩], [⟨0, 1, 8⟩, ⟨1, 0, 4⟩, ⟨1, 1, 12⟩]], [[⟨0, 0, 0⟩], [⟨0, 1, 8⟩, ⟨2, 1, 10⟩], [⟨1, 0, 1⟩,
  ⟨2, 0, 2⟩], [⟨1, 1, 9⟩, ⟨3, 0, 3⟩, ⟨3, 1, 11⟩]]⟩⟩,
  ⟨10432326883886093, ⟨40, 10, 4, [[0, 1], [2, 3], [2, 4], [0, 1], [4, 4]], [[0, 1], [2, 3], [3,
  1], [3, 3]], [[⟨0, 0, 0⟩, ⟨3, 0, 12⟩], [⟨0, 1, 20⟩, ⟨3, 1, 32⟩], [⟨1, 0, 4⟩, ⟨2, 0, 8⟩], [⟨1,
  1, 24⟩], [⟨2, 1, 28⟩, ⟨4, 0, 16⟩, ⟨4, 1, 36⟩]], [[⟨0, 0, 0⟩], [⟨0, 1, 20⟩, ⟨2, 1, 22⟩], [⟨1, 0,
  1⟩], [⟨1, 1, 21⟩, ⟨2, 0, 2⟩, ⟨3, 0, 3⟩, ⟨3, 1, 23⟩]]⟩⟩,
  ⟨10151401797206541, ⟨60, 10, 6, [[0, 1], [2, 3], [4, 0], [3, 1], [4, 4]], [[0, 1], [2, 3], [4,
  5], [3, 1], [4, 4], [4, 2]], [[⟨0, 0, 0⟩, ⟨2, 1, 42⟩], [⟨0, 1, 30⟩, ⟨3, 1, 48⟩], [⟨1, 0, 6⟩],
  [⟨1, 1, 36⟩, ⟨3, 0, 18⟩], [⟨2, 0, 12⟩, ⟨4, 0, 24⟩, ⟨4, 1, 54⟩]], [[⟨0, 0, 0⟩], [⟨0, 1, 30⟩, ⟨3,
  1, 33⟩], [⟨1, 0, 1⟩, ⟨5, 1, 35⟩], [⟨1, 1, 31⟩, ⟨3, 0, 3⟩], [⟨2, 0, 2⟩, ⟨4, 0, 4⟩, ⟨4, 1, 34⟩,
  ⟨5, 0, 5⟩], [⟨2, 1, 32⟩]]⟩⟩,
  ⟨19826946362381, ⟨48, 8, 6, [[0, 1], [2, 3], [1, 2], [3, 1]], [[0, 1], [2, 3], [4, 4], [5, 1],
  [4, 4], [0, 1]], [[⟨0, 0, 0⟩], [⟨0, 1, 24⟩, ⟨2, 0, 12⟩, ⟨3, 1, 42⟩], [⟨1, 0, 6⟩, ⟨2, 1, 36⟩],
  [⟨1, 1, 30⟩, ⟨3, 0, 18⟩]], [[⟨0, 0, 0⟩, ⟨5, 0, 5⟩], [⟨0, 1, 24⟩, ⟨3, 1, 27⟩, ⟨5, 1, 29⟩], [⟨1,
  0, 1⟩], [⟨1, 1, 25⟩], [⟨2, 0, 2⟩, ⟨2, 1, 26⟩, ⟨4, 0, 4⟩, ⟨4, 1, 28⟩], [⟨3, 0, 3⟩]]⟩⟩,
  ⟨20376710351885, ⟨24, 6, 4, [[0, 1], [1, 2], [2, 2]], [[0, 1], [2, 1], [1, 3], [3, 3]], [[⟨0,
  0, 0⟩], [⟨0, 1, 12⟩, ⟨1, 0, 4⟩], [⟨1, 1, 16⟩, ⟨2, 0, 8⟩, ⟨2, 1, 20⟩]], [[⟨0, 0, 0⟩], [⟨0, 1,
  12⟩, ⟨1, 1, 13⟩, ⟨2, 0, 2⟩], [⟨1, 0, 1⟩], [⟨2, 1, 14⟩, ⟨3, 0, 3⟩, ⟨3, 1, 15⟩]]⟩⟩,
  ⟨10432875834397709, ⟨24, 6, 4, [[0, 1], [2, 0], [1, 2]], [[0, 1], [2, 3], [2, 2], [0, 1]],
  [[⟨0, 0, 0⟩, ⟨1, 1, 16⟩], [⟨0, 1, 12⟩, ⟨2, 0, 8⟩], [⟨1, 0, 4⟩, ⟨2, 1, 20⟩]], [[⟨0, 0, 0⟩, ⟨3,
  0, 3⟩], [⟨0, 1, 12⟩, ⟨3, 1, 15⟩], [⟨1, 0, 1⟩, ⟨2, 0, 2⟩, ⟨2, 1, 14⟩], [⟨1, 1, 13⟩]]⟩⟩,
  ⟨10608797695361549, ⟨24, 12, 2, [[0, 1], [2, 3], [1, 1], [4, 1], [3, 5], [5, 5]], [[0, 1], [1,
  1]], [[⟨0, 0, 0⟩], [⟨0, 1, 12⟩, ⟨2, 0, 4⟩, ⟨2, 1, 16⟩, ⟨3, 1, 18⟩], [⟨1, 0, 2⟩], [⟨1, 1, 14⟩,
  ⟨4, 0, 8⟩], [⟨3, 0, 6⟩], [⟨4, 1, 20⟩, ⟨5, 0, 10⟩, ⟨5, 1, 22⟩]], [[⟨0, 0, 0⟩], [⟨0, 1, 12⟩, ⟨1,
  0, 1⟩, ⟨1, 1, 13⟩]]⟩⟩,
  ⟨18507855053325, ⟨16, 4, 4, [[0, 1], [1, 1]], [[0, 1], [2, 3], [1, 1], [3, 3]], [[⟨0, 0, 0⟩],
  [⟨0, 1, 8⟩, ⟨1, 0, 4⟩, ⟨1, 1, 12⟩]], [[⟨0, 0, 0⟩], [⟨0, 1, 8⟩, ⟨2, 0, 2⟩, ⟨2, 1, 10⟩], [⟨1, 0,
  1⟩], [⟨1, 1, 9⟩, ⟨3, 0, 3⟩, ⟨3, 1, 11⟩]]⟩⟩,
  ⟨10292413224469005, ⟨72, 12, 6, [[0, 1], [2, 3], [3, 4], [3, 3], [5, 3], [3, 1]], [[0, 1], [2,
  3], [4, 5], [5, 1], [4, 4], [3, 4]], [[⟨0, 0, 0⟩], [⟨0, 1, 36⟩, ⟨5, 1, 66⟩], [⟨1, 0, 6⟩], [⟨1,
  1, 42⟩, ⟨2, 0, 12⟩, ⟨3, 0, 18⟩, ⟨3, 1, 54⟩, ⟨4, 1, 60⟩, ⟨5, 0, 30⟩], [⟨2, 1, 48⟩], [⟨4, 0,
  24⟩]], [[⟨0, 0, 0⟩], [⟨0, 1, 36⟩, ⟨3, 1, 39⟩], [⟨1, 0, 1⟩], [⟨1, 1, 37⟩, ⟨5, 0, 5⟩], [⟨2, 0,
  2⟩, ⟨4, 0, 4⟩, ⟨4, 1, 40⟩, ⟨5, 1, 41⟩], [⟨2, 1, 38⟩, ⟨3, 0, 3⟩]]⟩⟩,
  ⟨10150989346653197, ⟨12, 4, 3, [[0, 1], [1, 1]], [[0, 1], [2, 2], [1, 1]], [[⟨0, 0, 0⟩], [⟨0,
  1, 6⟩, ⟨1, 0, 3⟩, ⟨1, 1, 9⟩]], [[⟨0, 0, 0⟩], [⟨0, 1, 6⟩, ⟨2, 0, 2⟩, ⟨2, 1, 8⟩], [⟨1, 0, 1⟩, ⟨1,
  1, 7⟩]]⟩⟩,
  ⟨10221358090830861, ⟨60, 10, 6, [[0, 1], [0, 2], [3, 1], [2, 4], [2, 0]], [[0, 1], [2, 3], [4,
  4], [3, 3], [5, 3], [4, 4]], [[⟨0, 0, 0⟩, ⟨1, 0, 6⟩, ⟨4, 1, 54⟩], [⟨0, 1, 30⟩, ⟨2, 1, 42⟩],
  [⟨1, 1, 36⟩, ⟨3, 0, 18⟩, ⟨4, 0, 24⟩], [⟨2, 0, 12⟩], [⟨3, 1, 48⟩]], [[⟨0, 0, 0⟩], [⟨0, 1, 30⟩],
  [⟨1, 0, 1⟩], [⟨1, 1, 31⟩, ⟨3, 0, 3⟩, ⟨3, 1, 33⟩, ⟨4, 1, 34⟩], [⟨2, 0, 2⟩, ⟨2, 1, 32⟩, ⟨5, 0,
  5⟩, ⟨5, 1, 35⟩], [⟨4, 0, 4⟩]]⟩⟩,
  ⟨18163989234701, ⟨16, 8, 2, [[0, 1], [2, 3], [1, 1], [3, 3]], [[0, 1], [1, 1]], [[⟨0, 0, 0⟩],
  [⟨0, 1, 8⟩, ⟨2, 0, 4⟩, ⟨2, 1, 12⟩], [⟨1, 0, 2⟩], [⟨1, 1, 10⟩, ⟨3, 0, 6⟩, ⟨3, 1, 14⟩]], [[⟨0, 0,
  0⟩], [⟨0, 1, 8⟩, ⟨1, 0, 1⟩, ⟨1, 1, 9⟩]]⟩⟩,
  ⟨10151264224560141, ⟨12, 4, 3, [[0, 1], [1, 1]], [[0, 1], [2, 2], [1, 1]], [[⟨0, 0, 0⟩], [⟨0,
  1, 6⟩, ⟨1, 0, 3⟩, ⟨1, 1, 9⟩]], [[⟨0, 0, 0⟩], [⟨0, 1, 6⟩, ⟨2, 0, 2⟩, ⟨2, 1, 8⟩], [⟨1, 0, 1⟩, ⟨1,
  1, 7⟩]]⟩⟩,
  ⟨10221632968737805, ⟨48, 16, 3, [[0, 1], [2, 3], [4, 5], [1, 1], [2, 6], [7, 7], [6, 6], [1,
  5]], [[0, 1], [2, 2], [1, 1]], [[⟨0, 0, 0⟩], [⟨0, 1, 24⟩, ⟨3, 0, 9⟩, ⟨3, 1, 33⟩, ⟨7, 0, 21⟩],
  [⟨1, 0, 3⟩, ⟨4, 0, 12⟩], [⟨1, 1, 27⟩], [⟨2, 0, 6⟩], [⟨2, 1, 30⟩, ⟨7, 1, 45⟩], [⟨4, 1, 36⟩, ⟨6,
  0, 18⟩, ⟨6, 1, 42⟩], [⟨5, 0, 15⟩, ⟨5, 1, 39⟩]], [[⟨0, 0, 0⟩], [⟨0, 1, 24⟩, ⟨2, 0, 2⟩, ⟨2, 1,
  26⟩], [⟨1, 0, 1⟩, ⟨1, 1, 25⟩]]⟩⟩,
  ⟨10151539370902541, ⟨204, 34, 6, [[0, 1], [2, 3], [4, 5], [6, 7], [4, 4], [6, 7], [4, 8], [4,
  9], [2, 10], [11, 12], [4, 4], [4, 13], [4, 9], [11, 14], [15, 16], [4, 6], [11, 14]], [[0, 1],
  [2, 3], [2, 3], [4, 1], [5, 1], [1, 3]], [[⟨0, 0, 0⟩], [⟨0, 1, 102⟩], [⟨1, 0, 6⟩, ⟨8, 0, 48⟩],
  [⟨1, 1, 108⟩], [⟨2, 0, 12⟩, ⟨4, 0, 24⟩, ⟨4, 1, 126⟩, ⟨6, 0, 36⟩, ⟨7, 0, 42⟩, ⟨10, 0, 60⟩, ⟨10,
  1, 162⟩, ⟨11, 0, 66⟩, ⟨12, 0, 72⟩, ⟨15, 0, 90⟩], [⟨2, 1, 114⟩], [⟨3, 0, 18⟩, ⟨5, 0, 30⟩, ⟨15,
  1, 192⟩], [⟨3, 1, 120⟩, ⟨5, 1, 132⟩], [⟨6, 1, 138⟩], [⟨7, 1, 144⟩, ⟨12, 1, 174⟩], [⟨8, 1,
  150⟩], [⟨9, 0, 54⟩, ⟨13, 0, 78⟩, ⟨16, 0, 96⟩], [⟨9, 1, 156⟩], [⟨11, 1, 168⟩], [⟨13, 1, 180⟩,
  ⟨16, 1, 198⟩], [⟨14, 0, 84⟩], [⟨14, 1, 186⟩]], [[⟨0, 0, 0⟩], [⟨0, 1, 102⟩, ⟨3, 1, 105⟩, ⟨4, 1,
  106⟩, ⟨5, 0, 5⟩], [⟨1, 0, 1⟩, ⟨2, 0, 2⟩], [⟨1, 1, 103⟩, ⟨2, 1, 104⟩, ⟨5, 1, 107⟩], [⟨3, 0, 3⟩],
  [⟨4, 0, 4⟩]]⟩⟩,
  ⟨10433150444389389, ⟨24, 4, 6, [[0, 1], [1, 1]], [[0, 1], [2, 3], [1, 1], [4, 1], [3, 5], [5,
  5]], [[⟨0, 0, 0⟩], [⟨0, 1, 12⟩, ⟨1, 0, 6⟩, ⟨1, 1, 18⟩]], [[⟨0, 0, 0⟩], [⟨0, 1, 12⟩, ⟨2, 0, 2⟩,
  ⟨2, 1, 14⟩, ⟨3, 1, 15⟩], [⟨1, 0, 1⟩], [⟨1, 1, 13⟩, ⟨4, 0, 4⟩], [⟨3, 0, 3⟩], [⟨4, 1, 16⟩, ⟨5, 0,
  5⟩, ⟨5, 1, 17⟩]]⟩⟩,
  ⟨10609073647010829, ⟨24, 6, 4, [[0, 1], [2, 0], [2, 2]], [[0, 1], [2, 3], [1, 2], [3, 1]],
  [[⟨0, 0, 0⟩, ⟨1, 1, 16⟩], [⟨0, 1, 12⟩], [⟨1, 0, 4⟩, ⟨2, 0, 8⟩, ⟨2, 1, 20⟩]], [[⟨0, 0, 0⟩], [⟨0,
  1, 12⟩, ⟨2, 0, 2⟩, ⟨3, 1, 15⟩], [⟨1, 0, 1⟩, ⟨2, 1, 14⟩], [⟨1, 1, 13⟩, ⟨3, 0, 3⟩]]⟩⟩,
  ⟨20707952054285, ⟨24, 6, 4, [[0, 1], [2, 0], [2, 2]], [[0, 1], [2, 3], [2, 2], [3, 1]], [[⟨0,
  0, 0⟩, ⟨1, 1, 16⟩], [⟨0, 1, 12⟩], [⟨1, 0, 4⟩, ⟨2, 0, 8⟩, ⟨2, 1, 20⟩]], [[⟨0, 0, 0⟩], [⟨0, 1,
  12⟩, ⟨3, 1, 15⟩], [⟨1, 0, 1⟩, ⟨2, 0, 2⟩, ⟨2, 1, 14⟩], [⟨1, 1, 13⟩, ⟨3, 0, 3⟩]]⟩⟩,
  ⟨10326704243364365, ⟨12, 6, 2, [[0, 1], [2, 2], [1, 1]], [[0, 1], [1, 1]], [[⟨0, 0, 0⟩], [⟨0,
  1, 6⟩, ⟨2, 0, 4⟩, ⟨2, 1, 10⟩], [⟨1, 0, 2⟩, ⟨1, 1, 8⟩]], [[⟨0, 0, 0⟩], [⟨0, 1, 6⟩, ⟨1, 0, 1⟩,
  ⟨1, 1, 7⟩]]⟩⟩,
  ⟨10327253999178253, ⟨12, 6, 2, [[0, 1], [2, 2], [1, 1]], [[0, 1], [1, 1]], [[⟨0, 0, 0⟩], [⟨0,
  1, 6⟩, ⟨2, 0, 4⟩, ⟨2, 1, 10⟩], [⟨1, 0, 2⟩, ⟨1, 1, 8⟩]], [[⟨0, 0, 0⟩], [⟨0, 1, 6⟩, ⟨1, 0, 1⟩,
  ⟨1, 1, 7⟩]]⟩⟩,
  ⟨10361888615453197, ⟨60, 12, 5, [[0, 1], [2, 3], [4, 4], [3, 3], [5, 3], [4, 4]], [[0, 1], [0,
  2], [3, 1], [2, 4], [2, 0]], [[⟨0, 0, 0⟩], [⟨0, 1, 30⟩], [⟨1, 0, 5⟩], [⟨1, 1, 35⟩, ⟨3, 0, 15⟩,
  ⟨3, 1, 45⟩, ⟨4, 1, 50⟩], [⟨2, 0, 10⟩, ⟨2, 1, 40⟩, ⟨5, 0, 25⟩, ⟨5, 1, 55⟩], [⟨4, 0, 20⟩]], [[⟨0,
  0, 0⟩, ⟨1, 0, 1⟩, ⟨4, 1, 34⟩], [⟨0, 1, 30⟩, ⟨2, 1, 32⟩], [⟨1, 1, 31⟩, ⟨3, 0, 3⟩, ⟨4, 0, 4⟩],
  [⟨2, 0, 2⟩], [⟨3, 1, 33⟩]]⟩⟩,
  ⟨10327253999178765, ⟨204, 12, 17, [[0, 1], [2, 3], [2, 3], [4, 1], [5, 1], [1, 3]], [[0, 1],
  [2, 3], [4, 5], [6, 7], [4, 4], [6, 7], [4, 8], [4, 9], [2, 10], [11, 12], [4, 4], [4, 13], [4,
  9], [11, 14], [15, 16], [4, 6], [11, 14]], [[⟨0, 0, 0⟩], [⟨0, 1, 102⟩, ⟨3, 1, 153⟩, ⟨4, 1,
  170⟩, ⟨5, 0, 85⟩], [⟨1, 0, 17⟩, ⟨2, 0, 34⟩], [⟨1, 1, 119⟩, ⟨2, 1, 136⟩, ⟨5, 1, 187⟩], [⟨3, 0,
  51⟩], [⟨4, 0, 68⟩]], [[⟨0, 0, 0⟩], [⟨0, 1, 102⟩], [⟨1, 0, 1⟩, ⟨8, 0, 8⟩], [⟨1, 1, 103⟩], [⟨2,
  0, 2⟩, ⟨4, 0, 4⟩, ⟨4, 1, 106⟩, ⟨6, 0, 6⟩, ⟨7, 0, 7⟩, ⟨10, 0, 10⟩, ⟨10, 1, 112⟩, ⟨11, 0, 11⟩,
  ⟨12, 0, 12⟩, ⟨15, 0, 15⟩], [⟨2, 1, 104⟩], [⟨3, 0, 3⟩, ⟨5, 0, 5⟩, ⟨15, 1, 117⟩], [⟨3, 1, 105⟩,
  ⟨5, 1, 107⟩], [⟨6, 1, 108⟩], [⟨7, 1, 109⟩, ⟨12, 1, 114⟩], [⟨8, 1, 110⟩], [⟨9, 0, 9⟩, ⟨13, 0,
  13⟩, ⟨16, 0, 16⟩], [⟨9, 1, 111⟩], [⟨11, 1, 113⟩], [⟨13, 1, 115⟩, ⟨16, 1, 118⟩], [⟨14, 0, 14⟩],
  [⟨14, 1, 116⟩]]⟩⟩,
  ⟨10432875835184141, ⟨24, 6, 4, [[0, 1], [2, 0], [1, 2]], [[0, 1], [2, 3], [2, 2], [0, 1]],
  [[⟨0, 0, 0⟩, ⟨1, 1, 16⟩], [⟨0, 1, 12⟩, ⟨2, 0, 8⟩], [⟨1, 0, 4⟩, ⟨2, 1, 20⟩]], [[⟨0, 0, 0⟩, ⟨3,
  0, 3⟩], [⟨0, 1, 12⟩, ⟨3, 1, 15⟩], [⟨1, 0, 1⟩, ⟨2, 0, 2⟩, ⟨2, 1, 14⟩], [⟨1, 1, 13⟩]]⟩⟩,
  ⟨10467648427284493, ⟨42, 6, 7, [[0, 1], [0, 2], [0, 1]], [[0, 1], [2, 3], [2, 2], [4, 1], [5,
  3], [6, 1], [5, 2]], [[⟨0, 0, 0⟩, ⟨1, 0, 7⟩, ⟨2, 0, 14⟩], [⟨0, 1, 21⟩, ⟨2, 1, 35⟩], [⟨1, 1,
  28⟩]], [[⟨0, 0, 0⟩], [⟨0, 1, 21⟩, ⟨3, 1, 24⟩, ⟨5, 1, 26⟩], [⟨1, 0, 1⟩, ⟨2, 0, 2⟩, ⟨2, 1, 23⟩,
  ⟨6, 1, 27⟩], [⟨1, 1, 22⟩, ⟨4, 1, 25⟩], [⟨3, 0, 3⟩], [⟨4, 0, 4⟩, ⟨6, 0, 6⟩], [⟨5, 0, 5⟩]]⟩⟩,
  ⟨10151538834295309, ⟨48, 8, 6, [[0, 1], [2, 3], [3, 2], [1, 0]], [[0, 1], [2, 3], [4, 4], [1,
  5], [4, 4], [5, 1]], [[⟨0, 0, 0⟩, ⟨3, 1, 42⟩], [⟨0, 1, 24⟩, ⟨3, 0, 18⟩], [⟨1, 0, 6⟩, ⟨2, 1,
  36⟩], [⟨1, 1, 30⟩, ⟨2, 0, 12⟩]], [[⟨0, 0, 0⟩], [⟨0, 1, 24⟩, ⟨3, 0, 3⟩, ⟨5, 1, 29⟩], [⟨1, 0,
  1⟩], [⟨1, 1, 25⟩], [⟨2, 0, 2⟩, ⟨2, 1, 26⟩, ⟨4, 0, 4⟩, ⟨4, 1, 28⟩], [⟨3, 1, 27⟩, ⟨5, 0, 5⟩]]⟩⟩,
  ⟨20364086494221, ⟨32, 8, 4, [[0, 1], [2, 3], [2, 2], [0, 1]], [[0, 1], [0, 2], [3, 3], [3, 3]],
  [[⟨0, 0, 0⟩, ⟨3, 0, 12⟩], [⟨0, 1, 16⟩, ⟨3, 1, 28⟩], [⟨1, 0, 4⟩, ⟨2, 0, 8⟩, ⟨2, 1, 24⟩], [⟨1, 1,
  20⟩]], [[⟨0, 0, 0⟩, ⟨1, 0, 1⟩], [⟨0, 1, 16⟩], [⟨1, 1, 17⟩], [⟨2, 0, 2⟩, ⟨2, 1, 18⟩, ⟨3, 0, 3⟩,
  ⟨3, 1, 19⟩]]⟩⟩,
  ⟨10151401663777805, ⟨72, 12, 6, [[0, 1], [2, 3], [1, 4], [5, 1], [4, 4], [0, 1]], [[0, 1], [2,
  3], [4, 4], [5, 1], [4, 4], [0, 1]], [[⟨0, 0, 0⟩, ⟨5, 0, 30⟩], [⟨0, 1, 36⟩, ⟨2, 0, 12⟩, ⟨3, 1,
  54⟩, ⟨5, 1, 66⟩], [⟨1, 0, 6⟩], [⟨1, 1, 42⟩], [⟨2, 1, 48⟩, ⟨4, 0, 24⟩, ⟨4, 1, 60⟩], [⟨3, 0,
  18⟩]], [[⟨0, 0, 0⟩, ⟨5, 0, 5⟩], [⟨0, 1, 36⟩, ⟨3, 1, 39⟩, ⟨5, 1, 41⟩], [⟨1, 0, 1⟩], [⟨1, 1,
  37⟩], [⟨2, 0, 2⟩, ⟨2, 1, 38⟩, ⟨4, 0, 4⟩, ⟨4, 1, 40⟩], [⟨3, 0, 3⟩]]⟩⟩,
  ⟨19894861585421, ⟨40, 8, 5, [[0, 1], [2, 3], [0, 1], [3, 3]], [[0, 1], [2, 3], [4, 1], [3, 3],
  [1, 3]], [[⟨0, 0, 0⟩, ⟨2, 0, 10⟩], [⟨0, 1, 20⟩, ⟨2, 1, 30⟩], [⟨1, 0, 5⟩], [⟨1, 1, 25⟩, ⟨3, 0,
  15⟩, ⟨3, 1, 35⟩]], [[⟨0, 0, 0⟩], [⟨0, 1, 20⟩, ⟨2, 1, 22⟩, ⟨4, 0, 4⟩], [⟨1, 0, 1⟩], [⟨1, 1, 21⟩,
  ⟨3, 0, 3⟩, ⟨3, 1, 23⟩, ⟨4, 1, 24⟩], [⟨2, 0, 2⟩]]⟩⟩,
  ⟨19895002665997, ⟨20, 4, 5, [[0, 1], [1, 1]], [[0, 1], [2, 3], [4, 4], [3, 3], [2, 3]], [[⟨0,
  0, 0⟩], [⟨0, 1, 10⟩, ⟨1, 0, 5⟩, ⟨1, 1, 15⟩]], [[⟨0, 0, 0⟩], [⟨0, 1, 10⟩], [⟨1, 0, 1⟩, ⟨4, 0,
  4⟩], [⟨1, 1, 11⟩, ⟨3, 0, 3⟩, ⟨3, 1, 13⟩, ⟨4, 1, 14⟩], [⟨2, 0, 2⟩, ⟨2, 1, 12⟩]]⟩⟩,
  ⟨10186721998691341, ⟨80, 16, 5, [[0, 1], [0, 2], [3, 4], [0, 4], [5, 4], [6, 7], [5, 1], [7,
  7]], [[0, 1], [2, 1], [3, 2], [4, 2], [4, 4]], [[⟨0, 0, 0⟩, ⟨1, 0, 5⟩, ⟨3, 0, 15⟩], [⟨0, 1,
  40⟩, ⟨6, 1, 70⟩], [⟨1, 1, 45⟩], [⟨2, 0, 10⟩], [⟨2, 1, 50⟩, ⟨3, 1, 55⟩, ⟨4, 1, 60⟩], [⟨4, 0,
  20⟩, ⟨6, 0, 30⟩], [⟨5, 0, 25⟩], [⟨5, 1, 65⟩, ⟨7, 0, 35⟩, ⟨7, 1, 75⟩]], [[⟨0, 0, 0⟩], [⟨0, 1,
  40⟩, ⟨1, 1, 41⟩], [⟨1, 0, 1⟩, ⟨2, 1, 42⟩, ⟨3, 1, 43⟩], [⟨2, 0, 2⟩], [⟨3, 0, 3⟩, ⟨4, 0, 4⟩, ⟨4,
  1, 44⟩]]⟩⟩,
  ⟨10186722132909069, ⟨104, 26, 4, [[0, 1], [2, 3], [2, 2], [4, 2], [2, 5], [6, 7], [0, 8], [2,
  9], [4, 3], [10, 7], [0, 11], [10, 12], [4, 9]], [[0, 1], [2, 1], [3, 0], [0, 0]], [[⟨0, 0, 0⟩,
  ⟨6, 0, 24⟩, ⟨10, 0, 40⟩], [⟨0, 1, 52⟩], [⟨1, 0, 4⟩, ⟨2, 0, 8⟩, ⟨2, 1, 60⟩, ⟨3, 1, 64⟩, ⟨4, 0,
  16⟩, ⟨7, 0, 28⟩], [⟨1, 1, 56⟩, ⟨8, 1, 84⟩], [⟨3, 0, 12⟩, ⟨8, 0, 32⟩, ⟨12, 0, 48⟩], [⟨4, 1,
  68⟩], [⟨5, 0, 20⟩], [⟨5, 1, 72⟩, ⟨9, 1, 88⟩], [⟨6, 1, 76⟩], [⟨7, 1, 80⟩, ⟨12, 1, 100⟩], [⟨9, 0,
  36⟩, ⟨11, 0, 44⟩], [⟨10, 1, 92⟩], [⟨11, 1, 96⟩]], [[⟨0, 0, 0⟩, ⟨2, 1, 54⟩, ⟨3, 0, 3⟩, ⟨3, 1,
  55⟩], [⟨0, 1, 52⟩, ⟨1, 1, 53⟩], [⟨1, 0, 1⟩], [⟨2, 0, 2⟩]]⟩⟩,
  ⟨19896076407821, ⟨16, 4, 4, [[0, 1], [1, 1]], [[0, 1], [2, 3], [1, 1], [3, 3]], [[⟨0, 0, 0⟩],
  [⟨0, 1, 8⟩, ⟨1, 0, 4⟩, ⟨1, 1, 12⟩]], [[⟨0, 0, 0⟩], [⟨0, 1, 8⟩, ⟨2, 0, 2⟩, ⟨2, 1, 10⟩], [⟨1, 0,
  1⟩], [⟨1, 1, 9⟩, ⟨3, 0, 3⟩, ⟨3, 1, 11⟩]]⟩⟩,
  ⟨19963590022157, ⟨24, 6, 4, [[0, 1], [0, 2], [0, 1]], [[0, 1], [2, 3], [1, 1], [3, 3]], [[⟨0,
  0, 0⟩, ⟨1, 0, 4⟩, ⟨2, 0, 8⟩], [⟨0, 1, 12⟩, ⟨2, 1, 20⟩], [⟨1, 1, 16⟩]], [[⟨0, 0, 0⟩], [⟨0, 1,
  12⟩, ⟨2, 0, 2⟩, ⟨2, 1, 14⟩], [⟨1, 0, 1⟩], [⟨1, 1, 13⟩, ⟨3, 0, 3⟩, ⟨3, 1, 15⟩]]⟩⟩,
  ⟨10221426810838029, ⟨6, 6, 1, [[0, 1], [2, 1], [2, 2]], [[0, 0]], [[⟨0, 0, 0⟩], [⟨0, 1, 3⟩, ⟨1,
  1, 4⟩], [⟨1, 0, 1⟩, ⟨2, 0, 2⟩, ⟨2, 1, 5⟩]], [[⟨0, 0, 0⟩, ⟨0, 1, 3⟩]]⟩⟩,
  ⟨19964126893069, ⟨32, 8, 4, [[0, 1], [2, 3], [2, 2], [2, 1]], [[0, 1], [2, 3], [1, 1], [3, 3]],
  [[⟨0, 0, 0⟩], [⟨0, 1, 16⟩, ⟨3, 1, 28⟩], [⟨1, 0, 4⟩, ⟨2, 0, 8⟩, ⟨2, 1, 24⟩, ⟨3, 0, 12⟩], [⟨1, 1,
  20⟩]], [[⟨0, 0, 0⟩], [⟨0, 1, 16⟩, ⟨2, 0, 2⟩, ⟨2, 1, 18⟩], [⟨1, 0, 1⟩], [⟨1, 1, 17⟩, ⟨3, 0, 3⟩,
  ⟨3, 1, 19⟩]]⟩⟩,
  ⟨10432806847531533, ⟨48, 8, 6, [[0, 1], [2, 3], [1, 0], [3, 3]], [[0, 1], [2, 3], [2, 2], [4,
  1], [4, 5], [1, 4]], [[⟨0, 0, 0⟩, ⟨2, 1, 36⟩], [⟨0, 1, 24⟩, ⟨2, 0, 12⟩], [⟨1, 0, 6⟩], [⟨1, 1,
  30⟩, ⟨3, 0, 18⟩, ⟨3, 1, 42⟩]], [[⟨0, 0, 0⟩], [⟨0, 1, 24⟩, ⟨3, 1, 27⟩, ⟨5, 0, 5⟩], [⟨1, 0, 1⟩,
  ⟨2, 0, 2⟩, ⟨2, 1, 26⟩], [⟨1, 1, 25⟩], [⟨3, 0, 3⟩, ⟨4, 0, 4⟩, ⟨5, 1, 29⟩], [⟨4, 1, 28⟩]]⟩⟩,
  ⟨10432875567008269, ⟨48, 8, 6, [[0, 1], [2, 3], [1, 0], [3, 3]], [[0, 1], [2, 3], [2, 2], [4,
  1], [4, 5], [1, 4]], [[⟨0, 0, 0⟩, ⟨2, 1, 36⟩], [⟨0, 1, 24⟩, ⟨2, 0, 12⟩], [⟨1, 0, 6⟩], [⟨1, 1,
  30⟩, ⟨3, 0, 18⟩, ⟨3, 1, 42⟩]], [[⟨0, 0, 0⟩], [⟨0, 1, 24⟩, ⟨3, 1, 27⟩, ⟨5, 0, 5⟩], [⟨1, 0, 1⟩,
  ⟨2, 0, 2⟩, ⟨2, 1, 26⟩], [⟨1, 1, 25⟩], [⟨3, 0, 3⟩, ⟨4, 0, 4⟩, ⟨5, 1, 29⟩], [⟨4, 1, 28⟩]]⟩⟩,
  ⟨10432325811196941, ⟨120, 12, 10, [[0, 1], [2, 0], [0, 3], [4, 1], [0, 5], [4, 1]], [[0, 1],
  [2, 3], [4, 5], [6, 6], [7, 6], [8, 5], [6, 6], [4, 1], [0, 9], [8, 5]], [[⟨0, 0, 0⟩, ⟨1, 1,
  70⟩, ⟨2, 0, 20⟩, ⟨4, 0, 40⟩], [⟨0, 1, 60⟩, ⟨3, 1, 90⟩, ⟨5, 1, 110⟩], [⟨1, 0, 10⟩], [⟨2, 1,
  80⟩], [⟨3, 0, 30⟩, ⟨5, 0, 50⟩], [⟨4, 1, 100⟩]], [[⟨0, 0, 0⟩, ⟨8, 0, 8⟩], [⟨0, 1, 60⟩, ⟨7, 1,
  67⟩], [⟨1, 0, 1⟩], [⟨1, 1, 61⟩], [⟨2, 0, 2⟩, ⟨7, 0, 7⟩], [⟨2, 1, 62⟩, ⟨5, 1, 65⟩, ⟨9, 1, 69⟩],
  [⟨3, 0, 3⟩, ⟨3, 1, 63⟩, ⟨4, 1, 64⟩, ⟨6, 0, 6⟩, ⟨6, 1, 66⟩], [⟨4, 0, 4⟩], [⟨5, 0, 5⟩, ⟨9, 0,
  9⟩], [⟨8, 1, 68⟩]]⟩⟩,
  ⟨10432463384367629, ⟨16, 8, 2, [[0, 1], [2, 2], [2, 3], [3, 3]], [[0, 1], [0, 1]], [[⟨0, 0,
  0⟩], [⟨0, 1, 8⟩], [⟨1, 0, 2⟩, ⟨1, 1, 10⟩, ⟨2, 0, 4⟩], [⟨2, 1, 12⟩, ⟨3, 0, 6⟩, ⟨3, 1, 14⟩]],
  [[⟨0, 0, 0⟩, ⟨1, 0, 1⟩], [⟨0, 1, 8⟩, ⟨1, 1, 9⟩]]⟩⟩,
  ⟨20376576136205, ⟨32, 8, 4, [[0, 1], [2, 3], [1, 2], [3, 3]], [[0, 1], [2, 3], [2, 2], [0, 1]],
  [[⟨0, 0, 0⟩], [⟨0, 1, 16⟩, ⟨2, 0, 8⟩], [⟨1, 0, 4⟩, ⟨2, 1, 24⟩], [⟨1, 1, 20⟩, ⟨3, 0, 12⟩, ⟨3, 1,
  28⟩]], [[⟨0, 0, 0⟩, ⟨3, 0, 3⟩], [⟨0, 1, 16⟩, ⟨3, 1, 19⟩], [⟨1, 0, 1⟩, ⟨2, 0, 2⟩, ⟨2, 1, 18⟩],
  [⟨1, 1, 17⟩]]⟩⟩,
  ⟨20376710353933, ⟨12, 6, 2, [[0, 1], [1, 2], [2, 2]], [[0, 1], [0, 1]], [[⟨0, 0, 0⟩], [⟨0, 1,
  6⟩, ⟨1, 0, 2⟩], [⟨1, 1, 8⟩, ⟨2, 0, 4⟩, ⟨2, 1, 10⟩]], [[⟨0, 0, 0⟩, ⟨1, 0, 1⟩], [⟨0, 1, 6⟩, ⟨1,
  1, 7⟩]]⟩⟩,
  ⟨10433150579134989, ⟨40, 10, 4, [[0, 1], [2, 3], [1, 4], [3, 3], [1, 4]], [[0, 1], [2, 3], [2,
  2], [0, 1]], [[⟨0, 0, 0⟩], [⟨0, 1, 20⟩, ⟨2, 0, 8⟩, ⟨4, 0, 16⟩], [⟨1, 0, 4⟩], [⟨1, 1, 24⟩, ⟨3,
  0, 12⟩, ⟨3, 1, 32⟩], [⟨2, 1, 28⟩, ⟨4, 1, 36⟩]], [[⟨0, 0, 0⟩, ⟨3, 0, 3⟩], [⟨0, 1, 20⟩, ⟨3, 1,
  23⟩], [⟨1, 0, 1⟩, ⟨2, 0, 2⟩, ⟨2, 1, 22⟩], [⟨1, 1, 21⟩]]⟩⟩,
  ⟨20364220973581, ⟨24, 6, 4, [[0, 1], [2, 0], [2, 2]], [[0, 1], [2, 3], [2, 2], [0, 1]], [[⟨0,
  0, 0⟩, ⟨1, 1, 16⟩], [⟨0, 1, 12⟩], [⟨1, 0, 4⟩, ⟨2, 0, 8⟩, ⟨2, 1, 20⟩]], [[⟨0, 0, 0⟩, ⟨3, 0, 3⟩],
  [⟨0, 1, 12⟩, ⟨3, 1, 15⟩], [⟨1, 0, 1⟩, ⟨2, 0, 2⟩, ⟨2, 1, 14⟩], [⟨1, 1, 13⟩]]⟩⟩,
  ⟨20364220978189, ⟨24, 6, 4, [[0, 1], [2, 0], [2, 2]], [[0, 1], [2, 3], [2, 2], [0, 1]], [[⟨0,
  0, 0⟩, ⟨1, 1, 16⟩], [⟨0, 1, 12⟩], [⟨1, 0, 4⟩, ⟨2, 0, 8⟩, ⟨2, 1, 20⟩]], [[⟨0, 0, 0⟩, ⟨3, 0, 3⟩],
  [⟨0, 1, 12⟩, ⟨3, 1, 15⟩], [⟨1, 0, 1⟩, ⟨2, 0, 2⟩, ⟨2, 1, 14⟩], [⟨1, 1, 13⟩]]⟩⟩,
  ⟨10468196975400973, ⟨40, 10, 4, [[0, 1], [2, 3], [2, 2], [2, 4], [2, 4]], [[0, 1], [2, 1], [3,
  2], [3, 1]], [[⟨0, 0, 0⟩], [⟨0, 1, 20⟩], [⟨1, 0, 4⟩, ⟨2, 0, 8⟩, ⟨2, 1, 28⟩, ⟨3, 0, 12⟩, ⟨4, 0,
  16⟩], [⟨1, 1, 24⟩], [⟨3, 1, 32⟩, ⟨4, 1, 36⟩]], [[⟨0, 0, 0⟩], [⟨0, 1, 20⟩, ⟨1, 1, 21⟩, ⟨3, 1,
  23⟩], [⟨1, 0, 1⟩, ⟨2, 1, 22⟩], [⟨2, 0, 2⟩, ⟨3, 0, 3⟩]]⟩⟩,
  ⟨20513336875021, ⟨16, 4, 4, [[0, 1], [0, 1]], [[0, 1], [2, 1], [1, 3], [3, 3]], [[⟨0, 0, 0⟩,
  ⟨1, 0, 4⟩], [⟨0, 1, 8⟩, ⟨1, 1, 12⟩]], [[⟨0, 0, 0⟩], [⟨0, 1, 8⟩, ⟨1, 1, 9⟩, ⟨2, 0, 2⟩], [⟨1, 0,
  1⟩], [⟨2, 1, 10⟩, ⟨3, 0, 3⟩, ⟨3, 1, 11⟩]]⟩⟩,
  ⟨20513882969101, ⟨16, 8, 2, [[0, 1], [2, 1], [1, 3], [3, 3]], [[0, 1], [0, 1]], [[⟨0, 0, 0⟩],
  [⟨0, 1, 8⟩, ⟨1, 1, 10⟩, ⟨2, 0, 4⟩], [⟨1, 0, 2⟩], [⟨2, 1, 12⟩, ⟨3, 0, 6⟩, ⟨3, 1, 14⟩]], [[⟨0, 0,
  0⟩, ⟨1, 0, 1⟩], [⟨0, 1, 8⟩, ⟨1, 1, 9⟩]]⟩⟩,
  ⟨20514410616845, ⟨16, 4, 4, [[0, 1], [0, 1]], [[0, 1], [2, 1], [1, 3], [3, 3]], [[⟨0, 0, 0⟩,
  ⟨1, 0, 4⟩], [⟨0, 1, 8⟩, ⟨1, 1, 12⟩]], [[⟨0, 0, 0⟩], [⟨0, 1, 8⟩, ⟨1, 1, 9⟩, ⟨2, 0, 2⟩], [⟨1, 0,
  1⟩], [⟨2, 1, 10⟩, ⟨3, 0, 3⟩, ⟨3, 1, 11⟩]]⟩⟩,
  ⟨10573544470106125, ⟨24, 6, 4, [[0, 1], [2, 0], [1, 2]], [[0, 1], [2, 3], [1, 2], [3, 1]],
  [[⟨0, 0, 0⟩, ⟨1, 1, 16⟩], [⟨0, 1, 12⟩, ⟨2, 0, 8⟩], [⟨1, 0, 4⟩, ⟨2, 1, 20⟩]], [[⟨0, 0, 0⟩], [⟨0,
  1, 12⟩, ⟨2, 0, 2⟩, ⟨3, 1, 15⟩], [⟨1, 0, 1⟩, ⟨2, 1, 14⟩], [⟨1, 1, 13⟩, ⟨3, 0, 3⟩]]⟩⟩,
  ⟨10291451690238477, ⟨24, 6, 4, [[0, 1], [1, 2], [2, 1]], [[0, 1], [2, 3], [0, 3], [3, 3]],
  [[⟨0, 0, 0⟩], [⟨0, 1, 12⟩, ⟨1, 0, 4⟩, ⟨2, 1, 20⟩], [⟨1, 1, 16⟩, ⟨2, 0, 8⟩]], [[⟨0, 0, 0⟩, ⟨2,
  0, 2⟩], [⟨0, 1, 12⟩], [⟨1, 0, 1⟩], [⟨1, 1, 13⟩, ⟨2, 1, 14⟩, ⟨3, 0, 3⟩, ⟨3, 1, 15⟩]]⟩⟩,
  ⟨17615442956301, ⟨12, 4, 3, [[0, 1], [0, 1]], [[0, 1], [2, 1], [2, 2]], [[⟨0, 0, 0⟩, ⟨1, 0,
  3⟩], [⟨0, 1, 6⟩, ⟨1, 1, 9⟩]], [[⟨0, 0, 0⟩], [⟨0, 1, 6⟩, ⟨1, 1, 7⟩], [⟨1, 0, 1⟩, ⟨2, 0, 2⟩, ⟨2,
  1, 8⟩]]⟩⟩,
  ⟨10608109831082509, ⟨48, 12, 4, [[0, 1], [2, 3], [2, 2], [4, 5], [2, 3], [0, 1]], [[0, 1], [2,
  0], [3, 1], [1, 3]], [[⟨0, 0, 0⟩, ⟨5, 0, 20⟩], [⟨0, 1, 24⟩, ⟨5, 1, 44⟩], [⟨1, 0, 4⟩, ⟨2, 0, 8⟩,
  ⟨2, 1, 32⟩, ⟨4, 0, 16⟩], [⟨1, 1, 28⟩, ⟨4, 1, 40⟩], [⟨3, 0, 12⟩], [⟨3, 1, 36⟩]], [[⟨0, 0, 0⟩,
  ⟨1, 1, 25⟩], [⟨0, 1, 24⟩, ⟨2, 1, 26⟩, ⟨3, 0, 3⟩], [⟨1, 0, 1⟩], [⟨2, 0, 2⟩, ⟨3, 1, 27⟩]]⟩⟩,
  ⟨10572995117989901, ⟨40, 8, 5, [[0, 1], [2, 1], [1, 3], [0, 0]], [[0, 1], [2, 3], [2, 2], [4,
  1], [4, 4]], [[⟨0, 0, 0⟩, ⟨3, 0, 15⟩, ⟨3, 1, 35⟩], [⟨0, 1, 20⟩, ⟨1, 1, 25⟩, ⟨2, 0, 10⟩], [⟨1,
  0, 5⟩], [⟨2, 1, 30⟩]], [[⟨0, 0, 0⟩], [⟨0, 1, 20⟩, ⟨3, 1, 23⟩], [⟨1, 0, 1⟩, ⟨2, 0, 2⟩, ⟨2, 1,
  22⟩], [⟨1, 1, 21⟩], [⟨3, 0, 3⟩, ⟨4, 0, 4⟩, ⟨4, 1, 24⟩]]⟩⟩,
  ⟨18165198770189, ⟨16, 4, 4, [[0, 1], [0, 1]], [[0, 1], [2, 1], [1, 3], [3, 3]], [[⟨0, 0, 0⟩,
  ⟨1, 0, 4⟩], [⟨0, 1, 8⟩, ⟨1, 1, 12⟩]], [[⟨0, 0, 0⟩], [⟨0, 1, 8⟩, ⟨1, 1, 9⟩, ⟨2, 0, 2⟩], [⟨1, 0,
  1⟩], [⟨2, 1, 10⟩, ⟨3, 0, 3⟩, ⟨3, 1, 11⟩]]⟩⟩,
  ⟨10608728172151309, ⟨12, 4, 3, [[0, 1], [1, 1]], [[0, 1], [2, 2], [1, 1]], [[⟨0, 0, 0⟩], [⟨0,
  1, 6⟩, ⟨1, 0, 3⟩, ⟨1, 1, 9⟩]], [[⟨0, 0, 0⟩], [⟨0, 1, 6⟩, ⟨2, 0, 2⟩, ⟨2, 1, 8⟩], [⟨1, 0, 1⟩, ⟨1,
  1, 7⟩]]⟩⟩,
  ⟨10432875833348621, ⟨96, 24, 4, [[0, 1], [2, 3], [4, 5], [6, 5], [7, 8], [4, 9], [0, 8], [9,
  10], [11, 3], [9, 9], [5, 9], [9, 5]], [[0, 1], [0, 2], [0, 3], [0, 3]], [[⟨0, 0, 0⟩, ⟨6, 0,
  24⟩], [⟨0, 1, 48⟩], [⟨1, 0, 4⟩], [⟨1, 1, 52⟩, ⟨8, 1, 80⟩], [⟨2, 0, 8⟩, ⟨5, 0, 20⟩], [⟨2, 1,
  56⟩, ⟨3, 1, 60⟩, ⟨10, 0, 40⟩, ⟨11, 1, 92⟩], [⟨3, 0, 12⟩], [⟨4, 0, 16⟩], [⟨4, 1, 64⟩, ⟨6, 1,
  72⟩], [⟨5, 1, 68⟩, ⟨7, 0, 28⟩, ⟨9, 0, 36⟩, ⟨9, 1, 84⟩, ⟨10, 1, 88⟩, ⟨11, 0, 44⟩], [⟨7, 1, 76⟩],
  [⟨8, 0, 32⟩]], [[⟨0, 0, 0⟩, ⟨1, 0, 1⟩, ⟨2, 0, 2⟩, ⟨3, 0, 3⟩], [⟨0, 1, 48⟩], [⟨1, 1, 49⟩], [⟨2,
  1, 50⟩, ⟨3, 1, 51⟩]]⟩⟩,
  ⟨10433014346039309, ⟨110, 22, 5, [[0, 1], [0, 2], [0, 3], [4, 5], [6, 7], [4, 5], [8, 9], [10,
  10], [0, 3], [0, 2], [10, 10]], [[0, 1], [2, 0], [3, 1], [4, 1], [4, 4]], [[⟨0, 0, 0⟩, ⟨1, 0,
  5⟩, ⟨2, 0, 10⟩, ⟨8, 0, 40⟩, ⟨9, 0, 45⟩], [⟨0, 1, 55⟩], [⟨1, 1, 60⟩, ⟨9, 1, 100⟩], [⟨2, 1, 65⟩,
  ⟨8, 1, 95⟩], [⟨3, 0, 15⟩, ⟨5, 0, 25⟩], [⟨3, 1, 70⟩, ⟨5, 1, 80⟩], [⟨4, 0, 20⟩], [⟨4, 1, 75⟩],
  [⟨6, 0, 30⟩], [⟨6, 1, 85⟩], [⟨7, 0, 35⟩, ⟨7, 1, 90⟩, ⟨10, 0, 50⟩, ⟨10, 1, 105⟩]], [[⟨0, 0, 0⟩,
  ⟨1, 1, 56⟩], [⟨0, 1, 55⟩, ⟨2, 1, 57⟩, ⟨3, 1, 58⟩], [⟨1, 0, 1⟩], [⟨2, 0, 2⟩], [⟨3, 0, 3⟩, ⟨4, 0,
  4⟩, ⟨4, 1, 59⟩]]⟩⟩,
  ⟨10432326883885581, ⟨42, 14, 3, [[0, 1], [2, 3], [4, 5], [0, 6], [4, 4], [4, 6], [4, 4]], [[0,
  1], [2, 0], [0, 0]], [[⟨0, 0, 0⟩, ⟨3, 0, 9⟩], [⟨0, 1, 21⟩], [⟨1, 0, 3⟩], [⟨1, 1, 24⟩], [⟨2, 0,
  6⟩, ⟨4, 0, 12⟩, ⟨4, 1, 33⟩, ⟨5, 0, 15⟩, ⟨6, 0, 18⟩, ⟨6, 1, 39⟩], [⟨2, 1, 27⟩], [⟨3, 1, 30⟩, ⟨5,
  1, 36⟩]], [[⟨0, 0, 0⟩, ⟨1, 1, 22⟩, ⟨2, 0, 2⟩, ⟨2, 1, 23⟩], [⟨0, 1, 21⟩], [⟨1, 0, 1⟩]]⟩⟩,
  ⟨10151400052376077, ⟨72, 12, 6, [[0, 1], [2, 3], [4, 0], [5, 1], [4, 4], [0, 1]], [[0, 1], [2,
  3], [4, 4], [5, 1], [4, 4], [5, 1]], [[⟨0, 0, 0⟩, ⟨2, 1, 48⟩, ⟨5, 0, 30⟩], [⟨0, 1, 36⟩, ⟨3, 1,
  54⟩, ⟨5, 1, 66⟩], [⟨1, 0, 6⟩], [⟨1, 1, 42⟩], [⟨2, 0, 12⟩, ⟨4, 0, 24⟩, ⟨4, 1, 60⟩], [⟨3, 0,
  18⟩]], [[⟨0, 0, 0⟩], [⟨0, 1, 36⟩, ⟨3, 1, 39⟩, ⟨5, 1, 41⟩], [⟨1, 0, 1⟩], [⟨1, 1, 37⟩], [⟨2, 0,
  2⟩, ⟨2, 1, 38⟩, ⟨4, 0, 4⟩, ⟨4, 1, 40⟩], [⟨3, 0, 3⟩, ⟨5, 0, 5⟩]]⟩⟩,
  ⟨10151400589246989, ⟨72, 12, 6, [[0, 1], [2, 3], [4, 0], [5, 1], [4, 4], [0, 1]], [[0, 1], [2,
  3], [4, 4], [5, 1], [4, 4], [5, 1]], [[⟨0, 0, 0⟩, ⟨2, 1, 48⟩, ⟨5, 0, 30⟩], [⟨0, 1, 36⟩, ⟨3, 1,
  54⟩, ⟨5, 1, 66⟩], [⟨1, 0, 6⟩], [⟨1, 1, 42⟩], [⟨2, 0, 12⟩, ⟨4, 0, 24⟩, ⟨4, 1, 60⟩], [⟨3, 0,
  18⟩]], [[⟨0, 0, 0⟩], [⟨0, 1, 36⟩, ⟨3, 1, 39⟩, ⟨5, 1, 41⟩], [⟨1, 0, 1⟩], [⟨1, 1, 37⟩], [⟨2, 0,
  2⟩, ⟨2, 1, 38⟩, ⟨4, 0, 4⟩, ⟨4, 1, 40⟩], [⟨3, 0, 3⟩, ⟨5, 0, 5⟩]]⟩⟩,
  ⟨10151401260335629, ⟨96, 16, 6, [[0, 1], [2, 3], [4, 3], [5, 6], [4, 4], [0, 1], [7, 3], [7,
  3]], [[0, 1], [2, 3], [3, 1], [4, 5], [3, 1], [2, 3]], [[⟨0, 0, 0⟩, ⟨5, 0, 30⟩], [⟨0, 1, 48⟩,
  ⟨5, 1, 78⟩], [⟨1, 0, 6⟩], [⟨1, 1, 54⟩, ⟨2, 1, 60⟩, ⟨6, 1, 84⟩, ⟨7, 1, 90⟩], [⟨2, 0, 12⟩, ⟨4, 0,
  24⟩, ⟨4, 1, 72⟩], [⟨3, 0, 18⟩], [⟨3, 1, 66⟩], [⟨6, 0, 36⟩, ⟨7, 0, 42⟩]], [[⟨0, 0, 0⟩], [⟨0, 1,
  48⟩, ⟨2, 1, 50⟩, ⟨4, 1, 52⟩], [⟨1, 0, 1⟩, ⟨5, 0, 5⟩], [⟨1, 1, 49⟩, ⟨2, 0, 2⟩, ⟨4, 0, 4⟩, ⟨5, 1,
  53⟩], [⟨3, 0, 3⟩], [⟨3, 1, 51⟩]]⟩⟩,
  ⟨10151401662988813, ⟨80, 20, 4, [[0, 1], [2, 3], [0, 4], [5, 6], [7, 3], [0, 4], [8, 8], [8,
  9], [8, 8], [8, 6]], [[0, 1], [2, 1], [3, 0], [0, 0]], [[⟨0, 0, 0⟩, ⟨2, 0, 8⟩, ⟨5, 0, 20⟩],
  [⟨0, 1, 40⟩], [⟨1, 0, 4⟩], [⟨1, 1, 44⟩, ⟨4, 1, 56⟩], [⟨2, 1, 48⟩, ⟨5, 1, 60⟩], [⟨3, 0, 12⟩],
  [⟨3, 1, 52⟩, ⟨9, 1, 76⟩], [⟨4, 0, 16⟩], [⟨6, 0, 24⟩, ⟨6, 1, 64⟩, ⟨7, 0, 28⟩, ⟨8, 0, 32⟩, ⟨8, 1,
  72⟩, ⟨9, 0, 36⟩], [⟨7, 1, 68⟩]], [[⟨0, 0, 0⟩, ⟨2, 1, 42⟩, ⟨3, 0, 3⟩, ⟨3, 1, 43⟩], [⟨0, 1, 40⟩,
  ⟨1, 1, 41⟩], [⟨1, 0, 1⟩], [⟨2, 0, 2⟩]]⟩⟩,
  ⟨19826946360333, ⟨72, 12, 6, [[0, 1], [2, 3], [1, 4], [5, 1], [4, 4], [0, 1]], [[0, 1], [2, 3],
  [4, 4], [5, 1], [4, 4], [5, 1]], [[⟨0, 0, 0⟩, ⟨5, 0, 30⟩], [⟨0, 1, 36⟩, ⟨2, 0, 12⟩, ⟨3, 1, 54⟩,
  ⟨5, 1, 66⟩], [⟨1, 0, 6⟩], [⟨1, 1, 42⟩], [⟨2, 1, 48⟩, ⟨4, 0, 24⟩, ⟨4, 1, 60⟩], [⟨3, 0, 18⟩]],
  [[⟨0, 0, 0⟩], [⟨0, 1, 36⟩, ⟨3, 1, 39⟩, ⟨5, 1, 41⟩], [⟨1, 0, 1⟩], [⟨1, 1, 37⟩], [⟨2, 0, 2⟩, ⟨2,
  1, 38⟩, ⟨4, 0, 4⟩, ⟨4, 1, 40⟩], [⟨3, 0, 3⟩, ⟨5, 0, 5⟩]]⟩⟩,
  ⟨10151400186595341, ⟨170, 34, 5, [[0, 1], [2, 3], [1, 4], [5, 6], [1, 7], [0, 1], [8, 3], [7,
  7], [8, 9], [10, 6], [11, 12], [10, 13], [14, 15], [8, 3], [10, 13], [16, 15], [16, 16]], [[0,
  1], [2, 3], [0, 1], [4, 1], [0, 1]], [[⟨0, 0, 0⟩, ⟨5, 0, 25⟩], [⟨0, 1, 85⟩, ⟨2, 0, 10⟩, ⟨4, 0,
  20⟩, ⟨5, 1, 110⟩], [⟨1, 0, 5⟩], [⟨1, 1, 90⟩, ⟨6, 1, 115⟩, ⟨13, 1, 150⟩], [⟨2, 1, 95⟩], [⟨3, 0,
  15⟩], [⟨3, 1, 100⟩, ⟨9, 1, 130⟩], [⟨4, 1, 105⟩, ⟨7, 0, 35⟩, ⟨7, 1, 120⟩], [⟨6, 0, 30⟩, ⟨8, 0,
  40⟩, ⟨13, 0, 65⟩], [⟨8, 1, 125⟩], [⟨9, 0, 45⟩, ⟨11, 0, 55⟩, ⟨14, 0, 70⟩], [⟨10, 0, 50⟩], [⟨10,
  1, 135⟩], [⟨11, 1, 140⟩, ⟨14, 1, 155⟩], [⟨12, 0, 60⟩], [⟨12, 1, 145⟩, ⟨15, 1, 160⟩], [⟨15, 0,
  75⟩, ⟨16, 0, 80⟩, ⟨16, 1, 165⟩]], [[⟨0, 0, 0⟩, ⟨2, 0, 2⟩, ⟨4, 0, 4⟩], [⟨0, 1, 85⟩, ⟨2, 1, 87⟩,
  ⟨3, 1, 88⟩, ⟨4, 1, 89⟩], [⟨1, 0, 1⟩], [⟨1, 1, 86⟩], [⟨3, 0, 3⟩]]⟩⟩,
  ⟨10432876639699469, ⟨36, 12, 3, [[0, 1], [2, 3], [4, 5], [0, 4], [4, 4], [4, 4]], [[0, 1], [2,
  1], [0, 0]], [[⟨0, 0, 0⟩, ⟨3, 0, 9⟩], [⟨0, 1, 18⟩], [⟨1, 0, 3⟩], [⟨1, 1, 21⟩], [⟨2, 0, 6⟩, ⟨3,
  1, 27⟩, ⟨4, 0, 12⟩, ⟨4, 1, 30⟩, ⟨5, 0, 15⟩, ⟨5, 1, 33⟩], [⟨2, 1, 24⟩]], [[⟨0, 0, 0⟩, ⟨2, 0, 2⟩,
  ⟨2, 1, 20⟩], [⟨0, 1, 18⟩, ⟨1, 1, 19⟩], [⟨1, 0, 1⟩]]⟩⟩,
  ⟨10432876773917197, ⟨48, 16, 3, [[0, 1], [2, 3], [0, 4], [2, 5], [6, 3], [7, 7], [7, 5], [7,
  7]], [[0, 1], [2, 1], [0, 0]], [[⟨0, 0, 0⟩, ⟨2, 0, 6⟩], [⟨0, 1, 24⟩], [⟨1, 0, 3⟩, ⟨3, 0, 9⟩],
  [⟨1, 1, 27⟩, ⟨4, 1, 36⟩], [⟨2, 1, 30⟩], [⟨3, 1, 33⟩, ⟨6, 1, 42⟩], [⟨4, 0, 12⟩], [⟨5, 0, 15⟩,
  ⟨5, 1, 39⟩, ⟨6, 0, 18⟩, ⟨7, 0, 21⟩, ⟨7, 1, 45⟩]], [[⟨0, 0, 0⟩, ⟨2, 0, 2⟩, ⟨2, 1, 26⟩], [⟨0, 1,
  24⟩, ⟨1, 1, 25⟩], [⟨1, 0, 1⟩]]⟩⟩,
  ⟨10608523891196429, ⟨48, 8, 6, [[0, 1], [2, 1], [0, 3], [2, 1]], [[0, 1], [2, 0], [3, 4], [3,
  3], [5, 1], [0, 3]], [[⟨0, 0, 0⟩, ⟨2, 0, 12⟩], [⟨0, 1, 24⟩, ⟨1, 1, 30⟩, ⟨3, 1, 42⟩], [⟨1, 0,
  6⟩, ⟨3, 0, 18⟩], [⟨2, 1, 36⟩]], [[⟨0, 0, 0⟩, ⟨1, 1, 25⟩, ⟨5, 0, 5⟩], [⟨0, 1, 24⟩, ⟨4, 1, 28⟩],
  [⟨1, 0, 1⟩], [⟨2, 0, 2⟩, ⟨3, 0, 3⟩, ⟨3, 1, 27⟩, ⟨5, 1, 29⟩], [⟨2, 1, 26⟩], [⟨4, 0, 4⟩]]⟩⟩,
  ⟨10151539102467085, ⟨12, 4, 3, [[0, 1], [1, 1]], [[0, 1], [2, 2], [1, 1]], [[⟨0, 0, 0⟩], [⟨0,
  1, 6⟩, ⟨1, 0, 3⟩, ⟨1, 1, 9⟩]], [[⟨0, 0, 0⟩], [⟨0, 1, 6⟩, ⟨2, 0, 2⟩, ⟨2, 1, 8⟩], [⟨1, 0, 1⟩, ⟨1,
  1, 7⟩]]⟩⟩,
  ⟨10221633237702669, ⟨70, 14, 5, [[0, 1], [2, 3], [2, 2], [4, 5], [6, 2], [4, 5], [4, 1]], [[0,
  1], [2, 1], [3, 2], [4, 1], [4, 4]], [[⟨0, 0, 0⟩], [⟨0, 1, 35⟩, ⟨6, 1, 65⟩], [⟨1, 0, 5⟩, ⟨2, 0,
  10⟩, ⟨2, 1, 45⟩, ⟨4, 1, 55⟩], [⟨1, 1, 40⟩], [⟨3, 0, 15⟩, ⟨5, 0, 25⟩, ⟨6, 0, 30⟩], [⟨3, 1, 50⟩,
  ⟨5, 1, 60⟩], [⟨4, 0, 20⟩]], [[⟨0, 0, 0⟩], [⟨0, 1, 35⟩, ⟨1, 1, 36⟩, ⟨3, 1, 38⟩], [⟨1, 0, 1⟩, ⟨2,
  1, 37⟩], [⟨2, 0, 2⟩], [⟨3, 0, 3⟩, ⟨4, 0, 4⟩, ⟨4, 1, 39⟩]]⟩⟩,
  ⟨10433013677049869, ⟨70, 10, 7, [[0, 1], [2, 1], [3, 2], [4, 1], [4, 4]], [[0, 1], [2, 3], [2,
  2], [4, 5], [6, 2], [4, 5], [4, 1]], [[⟨0, 0, 0⟩], [⟨0, 1, 35⟩, ⟨1, 1, 42⟩, ⟨3, 1, 56⟩], [⟨1,
  0, 7⟩, ⟨2, 1, 49⟩], [⟨2, 0, 14⟩], [⟨3, 0, 21⟩, ⟨4, 0, 28⟩, ⟨4, 1, 63⟩]], [[⟨0, 0, 0⟩], [⟨0, 1,
  35⟩, ⟨6, 1, 41⟩], [⟨1, 0, 1⟩, ⟨2, 0, 2⟩, ⟨2, 1, 37⟩, ⟨4, 1, 39⟩], [⟨1, 1, 36⟩], [⟨3, 0, 3⟩, ⟨5,
  0, 5⟩, ⟨6, 0, 6⟩], [⟨3, 1, 38⟩, ⟨5, 1, 40⟩], [⟨4, 0, 4⟩]]⟩⟩,
  ⟨10467922500143117, ⟨80, 10, 8, [[0, 1], [2, 1], [3, 2], [4, 2], [4, 4]], [[0, 1], [0, 2], [3,
  4], [0, 4], [5, 4], [6, 7], [5, 1], [7, 7]], [[⟨0, 0, 0⟩], [⟨0, 1, 40⟩, ⟨1, 1, 48⟩], [⟨1, 0,
  8⟩, ⟨2, 1, 56⟩, ⟨3, 1, 64⟩], [⟨2, 0, 16⟩], [⟨3, 0, 24⟩, ⟨4, 0, 32⟩, ⟨4, 1, 72⟩]], [[⟨0, 0, 0⟩,
  ⟨1, 0, 1⟩, ⟨3, 0, 3⟩], [⟨0, 1, 40⟩, ⟨6, 1, 46⟩], [⟨1, 1, 41⟩], [⟨2, 0, 2⟩], [⟨2, 1, 42⟩, ⟨3, 1,
  43⟩, ⟨4, 1, 44⟩], [⟨4, 0, 4⟩, ⟨6, 0, 6⟩], [⟨5, 0, 5⟩], [⟨5, 1, 45⟩, ⟨7, 0, 7⟩, ⟨7, 1, 47⟩]]⟩⟩,
  ⟨10467923573884941, ⟨310, 10, 31, [[0, 1], [2, 1], [3, 3], [4, 2], [4, 3]], [[0, 1], [2, 3],
  [4, 1], [5, 6], [2, 7], [8, 9], [10, 11], [7, 7], [12, 13], [14, 4], [15, 6], [16, 11], [17,
  7], [18, 19], [7, 9], [20, 13], [21, 22], [23, 6], [24, 13], [25, 26], [27, 13], [26, 13], [22,
  22], [8, 7], [17, 9], [28, 9], [29, 22], [10, 6], [30, 22], [16, 6], [28, 7]], [[⟨0, 0, 0⟩],
  [⟨0, 1, 155⟩, ⟨1, 1, 186⟩], [⟨1, 0, 31⟩, ⟨3, 1, 248⟩], [⟨2, 0, 62⟩, ⟨2, 1, 217⟩, ⟨4, 1, 279⟩],
  [⟨3, 0, 93⟩, ⟨4, 0, 124⟩]], [[⟨0, 0, 0⟩], [⟨0, 1, 155⟩, ⟨2, 1, 157⟩], [⟨1, 0, 1⟩, ⟨4, 0, 4⟩],
  [⟨1, 1, 156⟩], [⟨2, 0, 2⟩, ⟨9, 1, 164⟩], [⟨3, 0, 3⟩], [⟨3, 1, 158⟩, ⟨10, 1, 165⟩, ⟨17, 1, 172⟩,
  ⟨27, 1, 182⟩, ⟨29, 1, 184⟩], [⟨4, 1, 159⟩, ⟨7, 0, 7⟩, ⟨7, 1, 162⟩, ⟨12, 1, 167⟩, ⟨14, 0, 14⟩,
  ⟨23, 1, 178⟩, ⟨30, 1, 185⟩], [⟨5, 0, 5⟩, ⟨23, 0, 23⟩], [⟨5, 1, 160⟩, ⟨14, 1, 169⟩, ⟨24, 1,
  179⟩, ⟨25, 1, 180⟩], [⟨6, 0, 6⟩, ⟨27, 0, 27⟩], [⟨6, 1, 161⟩, ⟨11, 1, 166⟩], [⟨8, 0, 8⟩], [⟨8,
  1, 163⟩, ⟨15, 1, 170⟩, ⟨18, 1, 173⟩, ⟨20, 1, 175⟩, ⟨21, 1, 176⟩], [⟨9, 0, 9⟩], [⟨10, 0, 10⟩],
  [⟨11, 0, 11⟩, ⟨29, 0, 29⟩], [⟨12, 0, 12⟩, ⟨24, 0, 24⟩], [⟨13, 0, 13⟩], [⟨13, 1, 168⟩], [⟨15, 0,
  15⟩], [⟨16, 0, 16⟩], [⟨16, 1, 171⟩, ⟨22, 0, 22⟩, ⟨22, 1, 177⟩, ⟨26, 1, 181⟩, ⟨28, 1, 183⟩],
  [⟨17, 0, 17⟩], [⟨18, 0, 18⟩], [⟨19, 0, 19⟩], [⟨19, 1, 174⟩, ⟨21, 0, 21⟩], [⟨20, 0, 20⟩], [⟨25,
  0, 25⟩, ⟨30, 0, 30⟩], [⟨26, 0, 26⟩], [⟨28, 0, 28⟩]]⟩⟩,
  ⟨10468196975401997, ⟨310, 62, 5, [[0, 1], [2, 3], [4, 1], [5, 6], [2, 7], [8, 9], [10, 11], [7,
  7], [12, 13], [14, 4], [15, 6], [16, 11], [17, 7], [18, 19], [7, 9], [20, 13], [21, 22], [23,
  6], [24, 13], [25, 26], [27, 13], [26, 13], [22, 22], [8, 7], [17, 9], [28, 9], [29, 22], [10,
  6], [30, 22], [16, 6], [28, 7]], [[0, 1], [2, 1], [3, 3], [4, 2], [4, 3]], [[⟨0, 0, 0⟩], [⟨0,
  1, 155⟩, ⟨2, 1, 165⟩], [⟨1, 0, 5⟩, ⟨4, 0, 20⟩], [⟨1, 1, 160⟩], [⟨2, 0, 10⟩, ⟨9, 1, 200⟩], [⟨3,
  0, 15⟩], [⟨3, 1, 170⟩, ⟨10, 1, 205⟩, ⟨17, 1, 240⟩, ⟨27, 1, 290⟩, ⟨29, 1, 300⟩], [⟨4, 1, 175⟩,
  ⟨7, 0, 35⟩, ⟨7, 1, 190⟩, ⟨12, 1, 215⟩, ⟨14, 0, 70⟩, ⟨23, 1, 270⟩, ⟨30, 1, 305⟩], [⟨5, 0, 25⟩,
  ⟨23, 0, 115⟩], [⟨5, 1, 180⟩, ⟨14, 1, 225⟩, ⟨24, 1, 275⟩, ⟨25, 1, 280⟩], [⟨6, 0, 30⟩, ⟨27, 0,
  135⟩], [⟨6, 1, 185⟩, ⟨11, 1, 210⟩], [⟨8, 0, 40⟩], [⟨8, 1, 195⟩, ⟨15, 1, 230⟩, ⟨18, 1, 245⟩,
  ⟨20, 1, 255⟩, ⟨21, 1, 260⟩], [⟨9, 0, 45⟩], [⟨10, 0, 50⟩], [⟨11, 0, 55⟩, ⟨29, 0, 145⟩], [⟨12, 0,
  60⟩, ⟨24, 0, 120⟩], [⟨13, 0, 65⟩], [⟨13, 1, 220⟩], [⟨15, 0, 75⟩], [⟨16, 0, 80⟩], [⟨16, 1, 235⟩,
  ⟨22, 0, 110⟩, ⟨22, 1, 265⟩, ⟨26, 1, 285⟩, ⟨28, 1, 295⟩], [⟨17, 0, 85⟩], [⟨18, 0, 90⟩], [⟨19, 0,
  95⟩], [⟨19, 1, 250⟩, ⟨21, 0, 105⟩], [⟨20, 0, 100⟩], [⟨25, 0, 125⟩, ⟨30, 0, 150⟩], [⟨26, 0,
  130⟩], [⟨28, 0, 140⟩]], [[⟨0, 0, 0⟩], [⟨0, 1, 155⟩, ⟨1, 1, 156⟩], [⟨1, 0, 1⟩, ⟨3, 1, 158⟩],
  [⟨2, 0, 2⟩, ⟨2, 1, 157⟩, ⟨4, 1, 159⟩], [⟨3, 0, 3⟩, ⟨4, 0, 4⟩]]⟩⟩,
  ⟨10221632970314765, ⟨310, 62, 5, [[0, 1], [2, 3], [4, 1], [5, 6], [2, 7], [8, 9], [10, 11], [7,
  7], [12, 13], [14, 4], [15, 6], [16, 11], [17, 7], [18, 19], [7, 9], [20, 13], [21, 22], [23,
  6], [24, 13], [25, 26], [27, 13], [26, 13], [22, 22], [8, 7], [17, 9], [28, 9], [29, 22], [10,
  6], [30, 22], [16, 6], [28, 7]], [[0, 1], [2, 1], [3, 3], [4, 2], [4, 3]], [[⟨0, 0, 0⟩], [⟨0,
  1, 155⟩, ⟨2, 1, 165⟩], [⟨1, 0, 5⟩, ⟨4, 0, 20⟩], [⟨1, 1, 160⟩], [⟨2, 0, 10⟩, ⟨9, 1, 200⟩], [⟨3,
  0, 15⟩], [⟨3, 1, 170⟩, ⟨10, 1, 205⟩, ⟨17, 1, 240⟩, ⟨27, 1, 290⟩, ⟨29, 1, 300⟩], [⟨4, 1, 175⟩,
  ⟨7, 0, 35⟩, ⟨7, 1, 190⟩, ⟨12, 1, 215⟩, ⟨14, 0, 70⟩, ⟨23, 1, 270⟩, ⟨30, 1, 305⟩], [⟨5, 0, 25⟩,
  ⟨23, 0, 115⟩], [⟨5, 1, 180⟩, ⟨14, 1, 225⟩, ⟨24, 1, 275⟩, ⟨25, 1, 280⟩], [⟨6, 0, 30⟩, ⟨27, 0,
  135⟩], [⟨6, 1, 185⟩, ⟨11, 1, 210⟩], [⟨8, 0, 40⟩], [⟨8, 1, 195⟩, ⟨15, 1, 230⟩, ⟨18, 1, 245⟩,
  ⟨20, 1, 255⟩, ⟨21, 1, 260⟩], [⟨9, 0, 45⟩], [⟨10, 0, 50⟩], [⟨11, 0, 55⟩, ⟨29, 0, 145⟩], [⟨12, 0,
  60⟩, ⟨24, 0, 120⟩], [⟨13, 0, 65⟩], [⟨13, 1, 220⟩], [⟨15, 0, 75⟩], [⟨16, 0, 80⟩], [⟨16, 1, 235⟩,
  ⟨22, 0, 110⟩, ⟨22, 1, 265⟩, ⟨26, 1, 285⟩, ⟨28, 1, 295⟩], [⟨17, 0, 85⟩], [⟨18, 0, 90⟩], [⟨19, 0,
  95⟩], [⟨19, 1, 250⟩, ⟨21, 0, 105⟩], [⟨20, 0, 100⟩], [⟨25, 0, 125⟩, ⟨30, 0, 150⟩], [⟨26, 0,
  130⟩], [⟨28, 0, 140⟩]], [[⟨0, 0, 0⟩], [⟨0, 1, 155⟩, ⟨1, 1, 156⟩], [⟨1, 0, 1⟩, ⟨3, 1, 158⟩],
  [⟨2, 0, 2⟩, ⟨2, 1, 157⟩, ⟨4, 1, 159⟩], [⟨3, 0, 3⟩, ⟨4, 0, 4⟩]]⟩⟩,
  ⟨10433013274395149, ⟨160, 20, 8, [[0, 1], [2, 3], [0, 4], [5, 6], [2, 7], [0, 4], [8, 9], [5,
  6], [0, 1], [0, 9]], [[0, 1], [2, 3], [2, 2], [4, 2], [5, 6], [2, 2], [5, 7], [5, 2]], [[⟨0, 0,
  0⟩, ⟨2, 0, 16⟩, ⟨5, 0, 40⟩, ⟨8, 0, 64⟩, ⟨9, 0, 72⟩], [⟨0, 1, 80⟩, ⟨8, 1, 144⟩], [⟨1, 0, 8⟩, ⟨4,
  0, 32⟩], [⟨1, 1, 88⟩], [⟨2, 1, 96⟩, ⟨5, 1, 120⟩], [⟨3, 0, 24⟩, ⟨7, 0, 56⟩], [⟨3, 1, 104⟩, ⟨7,
  1, 136⟩], [⟨4, 1, 112⟩], [⟨6, 0, 48⟩], [⟨6, 1, 128⟩, ⟨9, 1, 152⟩]], [[⟨0, 0, 0⟩], [⟨0, 1, 80⟩],
  [⟨1, 0, 1⟩, ⟨2, 0, 2⟩, ⟨2, 1, 82⟩, ⟨3, 1, 83⟩, ⟨5, 0, 5⟩, ⟨5, 1, 85⟩, ⟨7, 1, 87⟩], [⟨1, 1,
  81⟩], [⟨3, 0, 3⟩], [⟨4, 0, 4⟩, ⟨6, 0, 6⟩, ⟨7, 0, 7⟩], [⟨4, 1, 84⟩], [⟨6, 1, 86⟩]]⟩⟩,
  ⟨10292000372314637, ⟨160, 20, 8, [[0, 1], [2, 3], [0, 4], [5, 6], [2, 7], [0, 4], [8, 9], [5,
  6], [0, 1], [0, 9]], [[0, 1], [2, 3], [2, 2], [4, 2], [5, 6], [2, 2], [5, 7], [5, 2]], [[⟨0, 0,
  0⟩, ⟨2, 0, 16⟩, ⟨5, 0, 40⟩, ⟨8, 0, 64⟩, ⟨9, 0, 72⟩], [⟨0, 1, 80⟩, ⟨8, 1, 144⟩], [⟨1, 0, 8⟩, ⟨4,
  0, 32⟩], [⟨1, 1, 88⟩], [⟨2, 1, 96⟩, ⟨5, 1, 120⟩], [⟨3, 0, 24⟩, ⟨7, 0, 56⟩], [⟨3, 1, 104⟩, ⟨7,
  1, 136⟩], [⟨4, 1, 112⟩], [⟨6, 0, 48⟩], [⟨6, 1, 128⟩, ⟨9, 1, 152⟩]], [[⟨0, 0, 0⟩], [⟨0, 1, 80⟩],
  [⟨1, 0, 1⟩, ⟨2, 0, 2⟩, ⟨2, 1, 82⟩, ⟨3, 1, 83⟩, ⟨5, 0, 5⟩, ⟨5, 1, 85⟩, ⟨7, 1, 87⟩], [⟨1, 1,
  81⟩], [⟨3, 0, 3⟩], [⟨4, 0, 4⟩, ⟨6, 0, 6⟩, ⟨7, 0, 7⟩], [⟨4, 1, 84⟩], [⟨6, 1, 86⟩]]⟩⟩]

def plan32 : Plan :=
  ⟨2, 34, 55, 9, 46, [gram20, gram21], [gram22, gram23], hard32e⟩

theorem plan32_ok : plan32.ok = true := by decide +kernel

end BB.Records
