import Verif.Props.RecordsTwoThreeC

/-!
# C79 for two states and three colours: programs with some instructions at B0
-/

namespace BB.Records

open Watch

def list23_1l0_2r1_0 : List Listed := [
  ⟨12456497801741, [((0, 0), (1, true, 1)), ((0, 1), (2, true, 1)), ((0, 2), (1, false, 0)), ((1,
  0), (1, false, 0)), ((1, 1), (2, true, 1))]⟩,
  ⟨6803040311208461, [((0, 0), (1, true, 1)), ((0, 1), (2, true, 1)), ((0, 2), (1, false, 1)),
  ((1, 0), (1, false, 0)), ((1, 1), (2, true, 1)), ((1, 2), (0, false, 1))]⟩]

theorem done23_1l0_2r1_0 : ∃ h, Done list23_1l0_2r1_0 h :=
  ⟨[
    ⟨12456497801741, ⟨18, 6, 3, [[0, 0, 1], [0, 0, 1]], [[0, 1, 2], [1, 1, 2], [2, 2, 2]], [[⟨0,
    0, 0⟩, ⟨0, 1, 6⟩, ⟨1, 0, 3⟩, ⟨1, 1, 9⟩], [⟨0, 2, 12⟩, ⟨1, 2, 15⟩]], [[⟨0, 0, 0⟩], [⟨0, 1, 6⟩,
    ⟨1, 0, 1⟩, ⟨1, 1, 7⟩], [⟨0, 2, 12⟩, ⟨1, 2, 13⟩, ⟨2, 0, 2⟩, ⟨2, 1, 8⟩, ⟨2, 2, 14⟩]]⟩⟩,
    ⟨6803040311208461, ⟨36, 9, 4, [[0, 0, 1], [0, 2, 1], [0, 0, 0]], [[0, 1, 2], [3, 3, 3], [2,
    2, 2], [3, 3, 3]], [[⟨0, 0, 0⟩, ⟨0, 1, 12⟩, ⟨1, 0, 4⟩, ⟨2, 0, 8⟩, ⟨2, 1, 20⟩, ⟨2, 2, 32⟩],
    [⟨0, 2, 24⟩, ⟨1, 2, 28⟩], [⟨1, 1, 16⟩]], [[⟨0, 0, 0⟩], [⟨0, 1, 12⟩], [⟨0, 2, 24⟩, ⟨2, 0, 2⟩,
    ⟨2, 1, 14⟩, ⟨2, 2, 26⟩], [⟨1, 0, 1⟩, ⟨1, 1, 13⟩, ⟨1, 2, 25⟩, ⟨3, 0, 3⟩, ⟨3, 1, 15⟩, ⟨3, 2,
    27⟩]]⟩⟩],
    by decide +kernel, by decide +kernel⟩

theorem child23_1l0_2r1 : AllDone (child (1, false, 0) (2, true, 1)) := by
  refine allDone_of [list23_1l0_2r1_0] ?_ (by decide +kernel)
  simp only [List.forall_mem_cons, List.not_mem_nil, false_imp_iff, implies_true, and_true]
  exact done23_1l0_2r1_0

theorem part23_1l0 : AllDone (fullPart 2 3 38 (1, false, 0)) := by
  refine allDone_full (by decide +kernel) ?_
  simp only [kids, List.forall_mem_cons, List.not_mem_nil, false_imp_iff, implies_true, and_true]
  exact ⟨child23_1l0_0l0,
    child23_1l0_0l1,
    child23_1l0_0r0,
    child23_1l0_0r1,
    child23_1l0_1l0,
    child23_1l0_1l1,
    child23_1l0_1r0,
    child23_1l0_1r1,
    child23_1l0_2l0,
    child23_1l0_2l1,
    child23_1l0_2r0,
    child23_1l0_2r1⟩

theorem child23_1l1_0l0 : AllDone (child (1, false, 1) (0, false, 0)) :=
  allDone_of [] (by simp) (by decide +kernel)

theorem child23_1l1_0l1 : AllDone (child (1, false, 1) (0, false, 1)) :=
  allDone_of [] (by simp) (by decide +kernel)

theorem child23_1l1_0r0 : AllDone (child (1, false, 1) (0, true, 0)) :=
  allDone_of [] (by simp) (by decide +kernel)

theorem child23_1l1_0r1 : AllDone (child (1, false, 1) (0, true, 1)) :=
  allDone_of [] (by simp) (by decide +kernel)

def list23_1l1_1l0_0 : List Listed := [
  ⟨6907700206395405, [((0, 0), (1, true, 1)), ((0, 1), (2, false, 0)), ((0, 2), (0, false, 1)),
  ((1, 0), (1, false, 1)), ((1, 1), (1, false, 0)), ((1, 2), (0, true, 0))]⟩,
  ⟨6907700207181837, [((0, 0), (1, true, 1)), ((0, 1), (2, false, 0)), ((0, 2), (0, true, 0)),
  ((1, 0), (1, false, 1)), ((1, 1), (1, false, 0)), ((1, 2), (0, true, 0))]⟩,
  ⟨6907700207443981, [((0, 0), (1, true, 1)), ((0, 1), (2, false, 0)), ((0, 2), (0, true, 1)),
  ((1, 0), (1, false, 1)), ((1, 1), (1, false, 0)), ((1, 2), (0, true, 0))]⟩,
  ⟨6907700208492557, [((0, 0), (1, true, 1)), ((0, 1), (2, false, 0)), ((0, 2), (1, false, 1)),
  ((1, 0), (1, false, 1)), ((1, 1), (1, false, 0)), ((1, 2), (0, true, 0))]⟩,
  ⟨6907700210589709, [((0, 0), (1, true, 1)), ((0, 1), (2, false, 0)), ((0, 2), (2, false, 1)),
  ((1, 0), (1, false, 1)), ((1, 1), (1, false, 0)), ((1, 2), (0, true, 0))]⟩,
  ⟨13560321433613, [((0, 0), (1, true, 1)), ((0, 1), (2, false, 0)), ((1, 0), (1, false, 1)),
  ((1, 1), (1, false, 0)), ((1, 2), (0, true, 1))]⟩,
  ⟨7189175183892493, [((0, 0), (1, true, 1)), ((0, 1), (2, false, 0)), ((0, 2), (0, true, 0)),
  ((1, 0), (1, false, 1)), ((1, 1), (1, false, 0)), ((1, 2), (1, true, 0))]⟩,
  ⟨14110077247501, [((0, 0), (1, true, 1)), ((0, 1), (2, false, 0)), ((1, 0), (1, false, 1)),
  ((1, 1), (1, false, 0)), ((1, 2), (1, true, 1))]⟩,
  ⟨7470650160603149, [((0, 0), (1, true, 1)), ((0, 1), (2, false, 0)), ((0, 2), (0, true, 0)),
  ((1, 0), (1, false, 1)), ((1, 1), (1, false, 0)), ((1, 2), (2, true, 0))]⟩,
  ⟨11563276724237, [((0, 0), (1, true, 1)), ((0, 1), (2, true, 0)), ((0, 2), (0, false, 0)), ((1,
  0), (1, false, 1)), ((1, 1), (1, false, 0))]⟩,
  ⟨6907700206397453, [((0, 0), (1, true, 1)), ((0, 1), (2, true, 0)), ((0, 2), (0, false, 1)),
  ((1, 0), (1, false, 1)), ((1, 1), (1, false, 0)), ((1, 2), (0, true, 0))]⟩,
  ⟨6942884578486285, [((0, 0), (1, true, 1)), ((0, 1), (2, true, 0)), ((0, 2), (0, false, 1)),
  ((1, 0), (1, false, 1)), ((1, 1), (1, false, 0)), ((1, 2), (0, true, 1))]⟩,
  ⟨7189175183108109, [((0, 0), (1, true, 1)), ((0, 1), (2, true, 0)), ((0, 2), (0, false, 1)),
  ((1, 0), (1, false, 1)), ((1, 1), (1, false, 0)), ((1, 2), (1, true, 0))]⟩,
  ⟨7470650159818765, [((0, 0), (1, true, 1)), ((0, 1), (2, true, 0)), ((0, 2), (0, false, 1)),
  ((1, 0), (1, false, 1)), ((1, 1), (1, false, 0)), ((1, 2), (2, true, 0))]⟩,
  ⟨11563278821389, [((0, 0), (1, true, 1)), ((0, 1), (2, true, 0)), ((0, 2), (1, false, 0)), ((1,
  0), (1, false, 1)), ((1, 1), (1, false, 0))]⟩,
  ⟨6907700208494605, [((0, 0), (1, true, 1)), ((0, 1), (2, true, 0)), ((0, 2), (1, false, 1)),
  ((1, 0), (1, false, 1)), ((1, 1), (1, false, 0)), ((1, 2), (0, true, 0))]⟩,
  ⟨6942884580583437, [((0, 0), (1, true, 1)), ((0, 1), (2, true, 0)), ((0, 2), (1, false, 1)),
  ((1, 0), (1, false, 1)), ((1, 1), (1, false, 0)), ((1, 2), (0, true, 1))]⟩,
  ⟨7189175185205261, [((0, 0), (1, true, 1)), ((0, 1), (2, true, 0)), ((0, 2), (1, false, 1)),
  ((1, 0), (1, false, 1)), ((1, 1), (1, false, 0)), ((1, 2), (1, true, 0))]⟩,
  ⟨7224359557294093, [((0, 0), (1, true, 1)), ((0, 1), (2, true, 0)), ((0, 2), (1, false, 1)),
  ((1, 0), (1, false, 1)), ((1, 1), (1, false, 0)), ((1, 2), (1, true, 1))]⟩,
  ⟨7470650161915917, [((0, 0), (1, true, 1)), ((0, 1), (2, true, 0)), ((0, 2), (1, false, 1)),
  ((1, 0), (1, false, 1)), ((1, 1), (1, false, 0)), ((1, 2), (2, true, 0))]⟩]

theorem done23_1l1_1l0_0 : ∃ h, Done list23_1l1_1l0_0 h :=
  ⟨[
    ⟨6907700206395405, ⟨24, 12, 2, [[0, 1, 2], [3, 1, 3], [2, 2, 2], [3, 3, 3]], [[0, 1, 0], [0,
    1, 1]], [[⟨0, 0, 0⟩], [⟨0, 1, 8⟩, ⟨1, 1, 10⟩], [⟨0, 2, 16⟩, ⟨2, 0, 4⟩, ⟨2, 1, 12⟩, ⟨2, 2,
    20⟩], [⟨1, 0, 2⟩, ⟨1, 2, 18⟩, ⟨3, 0, 6⟩, ⟨3, 1, 14⟩, ⟨3, 2, 22⟩]], [[⟨0, 0, 0⟩, ⟨0, 2, 16⟩,
    ⟨1, 0, 1⟩], [⟨0, 1, 8⟩, ⟨1, 1, 9⟩, ⟨1, 2, 17⟩]]⟩⟩,
    ⟨6907700207181837, ⟨24, 12, 2, [[0, 1, 2], [1, 3, 3], [2, 2, 2], [3, 3, 3]], [[0, 0, 1], [0,
    0, 1]], [[⟨0, 0, 0⟩], [⟨0, 1, 8⟩, ⟨1, 0, 2⟩], [⟨0, 2, 16⟩, ⟨2, 0, 4⟩, ⟨2, 1, 12⟩, ⟨2, 2,
    20⟩], [⟨1, 1, 10⟩, ⟨1, 2, 18⟩, ⟨3, 0, 6⟩, ⟨3, 1, 14⟩, ⟨3, 2, 22⟩]], [[⟨0, 0, 0⟩, ⟨0, 1, 8⟩,
    ⟨1, 0, 1⟩, ⟨1, 1, 9⟩], [⟨0, 2, 16⟩, ⟨1, 2, 17⟩]]⟩⟩,
    ⟨6907700207443981, ⟨24, 12, 2, [[0, 1, 2], [3, 1, 3], [2, 2, 2], [3, 3, 3]], [[0, 1, 0], [1,
    1, 1]], [[⟨0, 0, 0⟩], [⟨0, 1, 8⟩, ⟨1, 1, 10⟩], [⟨0, 2, 16⟩, ⟨2, 0, 4⟩, ⟨2, 1, 12⟩, ⟨2, 2,
    20⟩], [⟨1, 0, 2⟩, ⟨1, 2, 18⟩, ⟨3, 0, 6⟩, ⟨3, 1, 14⟩, ⟨3, 2, 22⟩]], [[⟨0, 0, 0⟩, ⟨0, 2, 16⟩],
    [⟨0, 1, 8⟩, ⟨1, 0, 1⟩, ⟨1, 1, 9⟩, ⟨1, 2, 17⟩]]⟩⟩,
    ⟨6907700208492557, ⟨24, 12, 2, [[0, 1, 2], [3, 1, 3], [2, 2, 2], [3, 3, 3]], [[0, 1, 0], [0,
    1, 1]], [[⟨0, 0, 0⟩], [⟨0, 1, 8⟩, ⟨1, 1, 10⟩], [⟨0, 2, 16⟩, ⟨2, 0, 4⟩, ⟨2, 1, 12⟩, ⟨2, 2,
    20⟩], [⟨1, 0, 2⟩, ⟨1, 2, 18⟩, ⟨3, 0, 6⟩, ⟨3, 1, 14⟩, ⟨3, 2, 22⟩]], [[⟨0, 0, 0⟩, ⟨0, 2, 16⟩,
    ⟨1, 0, 1⟩], [⟨0, 1, 8⟩, ⟨1, 1, 9⟩, ⟨1, 2, 17⟩]]⟩⟩,
    ⟨6907700210589709, ⟨24, 12, 2, [[0, 1, 2], [1, 3, 3], [2, 2, 2], [3, 3, 3]], [[0, 0, 1], [0,
    1, 1]], [[⟨0, 0, 0⟩], [⟨0, 1, 8⟩, ⟨1, 0, 2⟩], [⟨0, 2, 16⟩, ⟨2, 0, 4⟩, ⟨2, 1, 12⟩, ⟨2, 2,
    20⟩], [⟨1, 1, 10⟩, ⟨1, 2, 18⟩, ⟨3, 0, 6⟩, ⟨3, 1, 14⟩, ⟨3, 2, 22⟩]], [[⟨0, 0, 0⟩, ⟨0, 1, 8⟩,
    ⟨1, 0, 1⟩], [⟨0, 2, 16⟩, ⟨1, 1, 9⟩, ⟨1, 2, 17⟩]]⟩⟩,
    ⟨13560321433613, ⟨12, 6, 2, [[0, 0, 1], [1, 1, 1]], [[0, 1, 0], [0, 1, 1]], [[⟨0, 0, 0⟩, ⟨0,
    1, 4⟩], [⟨0, 2, 8⟩, ⟨1, 0, 2⟩, ⟨1, 1, 6⟩, ⟨1, 2, 10⟩]], [[⟨0, 0, 0⟩, ⟨0, 2, 8⟩, ⟨1, 0, 1⟩],
    [⟨0, 1, 4⟩, ⟨1, 1, 5⟩, ⟨1, 2, 9⟩]]⟩⟩,
    ⟨7189175183892493, ⟨24, 12, 2, [[0, 1, 2], [1, 3, 3], [2, 2, 2], [3, 3, 3]], [[0, 0, 1], [0,
    0, 1]], [[⟨0, 0, 0⟩], [⟨0, 1, 8⟩, ⟨1, 0, 2⟩], [⟨0, 2, 16⟩, ⟨2, 0, 4⟩, ⟨2, 1, 12⟩, ⟨2, 2,
    20⟩], [⟨1, 1, 10⟩, ⟨1, 2, 18⟩, ⟨3, 0, 6⟩, ⟨3, 1, 14⟩, ⟨3, 2, 22⟩]], [[⟨0, 0, 0⟩, ⟨0, 1, 8⟩,
    ⟨1, 0, 1⟩, ⟨1, 1, 9⟩], [⟨0, 2, 16⟩, ⟨1, 2, 17⟩]]⟩⟩,
    ⟨14110077247501, ⟨12, 6, 2, [[0, 0, 1], [1, 1, 1]], [[0, 1, 0], [0, 1, 1]], [[⟨0, 0, 0⟩, ⟨0,
    1, 4⟩], [⟨0, 2, 8⟩, ⟨1, 0, 2⟩, ⟨1, 1, 6⟩, ⟨1, 2, 10⟩]], [[⟨0, 0, 0⟩, ⟨0, 2, 8⟩, ⟨1, 0, 1⟩],
    [⟨0, 1, 4⟩, ⟨1, 1, 5⟩, ⟨1, 2, 9⟩]]⟩⟩,
    ⟨7470650160603149, ⟨24, 12, 2, [[0, 1, 2], [1, 3, 3], [2, 2, 2], [3, 3, 3]], [[0, 0, 1], [0,
    0, 1]], [[⟨0, 0, 0⟩], [⟨0, 1, 8⟩, ⟨1, 0, 2⟩], [⟨0, 2, 16⟩, ⟨2, 0, 4⟩, ⟨2, 1, 12⟩, ⟨2, 2,
    20⟩], [⟨1, 1, 10⟩, ⟨1, 2, 18⟩, ⟨3, 0, 6⟩, ⟨3, 1, 14⟩, ⟨3, 2, 22⟩]], [[⟨0, 0, 0⟩, ⟨0, 1, 8⟩,
    ⟨1, 0, 1⟩, ⟨1, 1, 9⟩], [⟨0, 2, 16⟩, ⟨1, 2, 17⟩]]⟩⟩,
    ⟨11563276724237, ⟨27, 9, 3, [[0, 1, 2], [1, 1, 2], [2, 1, 2]], [[0, 1, 2], [1, 1, 2], [2, 2,
    2]], [[⟨0, 0, 0⟩], [⟨0, 1, 9⟩, ⟨1, 0, 3⟩, ⟨1, 1, 12⟩, ⟨2, 1, 15⟩], [⟨0, 2, 18⟩, ⟨1, 2, 21⟩,
    ⟨2, 0, 6⟩, ⟨2, 2, 24⟩]], [[⟨0, 0, 0⟩], [⟨0, 1, 9⟩, ⟨1, 0, 1⟩, ⟨1, 1, 10⟩], [⟨0, 2, 18⟩, ⟨1,
    2, 19⟩, ⟨2, 0, 2⟩, ⟨2, 1, 11⟩, ⟨2, 2, 20⟩]]⟩⟩,
    ⟨6907700206397453, ⟨99, 9, 11, [[0, 0, 1], [1, 0, 2], [1, 2, 2]], [[0, 1, 2], [3, 4, 5], [2,
    2, 2], [0, 4, 6], [3, 4, 1], [0, 4, 7], [8, 2, 9], [10, 2, 2], [7, 4, 6], [7, 4, 7], [7, 1,
    2]], [[⟨0, 0, 0⟩, ⟨0, 1, 33⟩, ⟨1, 1, 44⟩], [⟨0, 2, 66⟩, ⟨1, 0, 11⟩, ⟨2, 0, 22⟩], [⟨1, 2, 77⟩,
    ⟨2, 1, 55⟩, ⟨2, 2, 88⟩]], [[⟨0, 0, 0⟩, ⟨3, 0, 3⟩, ⟨5, 0, 5⟩], [⟨0, 1, 33⟩, ⟨4, 2, 70⟩, ⟨10,
    1, 43⟩], [⟨0, 2, 66⟩, ⟨2, 0, 2⟩, ⟨2, 1, 35⟩, ⟨2, 2, 68⟩, ⟨6, 1, 39⟩, ⟨7, 1, 40⟩, ⟨7, 2, 73⟩,
    ⟨10, 2, 76⟩], [⟨1, 0, 1⟩, ⟨4, 0, 4⟩], [⟨1, 1, 34⟩, ⟨3, 1, 36⟩, ⟨4, 1, 37⟩, ⟨5, 1, 38⟩, ⟨8, 1,
    41⟩, ⟨9, 1, 42⟩], [⟨1, 2, 67⟩], [⟨3, 2, 69⟩, ⟨8, 2, 74⟩], [⟨5, 2, 71⟩, ⟨8, 0, 8⟩, ⟨9, 0, 9⟩,
    ⟨9, 2, 75⟩, ⟨10, 0, 10⟩], [⟨6, 0, 6⟩], [⟨6, 2, 72⟩], [⟨7, 0, 7⟩]]⟩⟩,
    ⟨6942884578486285, ⟨72, 24, 3, [[0, 1, 2], [3, 4, 5], [4, 6, 5], [3, 3, 3], [3, 3, 5], [3, 6,
    3], [0, 7, 2], [3, 4, 3]], [[0, 1, 0], [0, 2, 0], [0, 2, 0]], [[⟨0, 0, 0⟩, ⟨6, 0, 18⟩], [⟨0,
    1, 24⟩], [⟨0, 2, 48⟩, ⟨6, 2, 66⟩], [⟨1, 0, 3⟩, ⟨3, 0, 9⟩, ⟨3, 1, 33⟩, ⟨3, 2, 57⟩, ⟨4, 0, 12⟩,
    ⟨4, 1, 36⟩, ⟨5, 0, 15⟩, ⟨5, 2, 63⟩, ⟨7, 0, 21⟩, ⟨7, 2, 69⟩], [⟨1, 1, 27⟩, ⟨2, 0, 6⟩, ⟨7, 1,
    45⟩], [⟨1, 2, 51⟩, ⟨2, 2, 54⟩, ⟨4, 2, 60⟩], [⟨2, 1, 30⟩, ⟨5, 1, 39⟩], [⟨6, 1, 42⟩]], [[⟨0, 0,
    0⟩, ⟨0, 2, 48⟩, ⟨1, 0, 1⟩, ⟨1, 2, 49⟩, ⟨2, 0, 2⟩, ⟨2, 2, 50⟩], [⟨0, 1, 24⟩], [⟨1, 1, 25⟩, ⟨2,
    1, 26⟩]]⟩⟩,
    ⟨7189175183108109, ⟨30, 15, 2, [[0, 1, 2], [1, 1, 1], [1, 3, 4], [3, 1, 2], [3, 1, 1]], [[0,
    1, 1], [0, 1, 1]], [[⟨0, 0, 0⟩], [⟨0, 1, 10⟩, ⟨1, 0, 2⟩, ⟨1, 1, 12⟩, ⟨1, 2, 22⟩, ⟨2, 0, 4⟩,
    ⟨3, 1, 16⟩, ⟨4, 1, 18⟩, ⟨4, 2, 28⟩], [⟨0, 2, 20⟩, ⟨3, 2, 26⟩], [⟨2, 1, 14⟩, ⟨3, 0, 6⟩, ⟨4, 0,
    8⟩], [⟨2, 2, 24⟩]], [[⟨0, 0, 0⟩, ⟨1, 0, 1⟩], [⟨0, 1, 10⟩, ⟨0, 2, 20⟩, ⟨1, 1, 11⟩, ⟨1, 2,
    21⟩]]⟩⟩,
    ⟨7470650159818765, ⟨36, 9, 4, [[0, 0, 1], [0, 0, 2], [0, 2, 2]], [[0, 1, 0], [2, 1, 1], [0,
    1, 3], [2, 1, 2]], [[⟨0, 0, 0⟩, ⟨0, 1, 12⟩, ⟨1, 0, 4⟩, ⟨1, 1, 16⟩, ⟨2, 0, 8⟩], [⟨0, 2, 24⟩],
    [⟨1, 2, 28⟩, ⟨2, 1, 20⟩, ⟨2, 2, 32⟩]], [[⟨0, 0, 0⟩, ⟨0, 2, 24⟩, ⟨2, 0, 2⟩], [⟨0, 1, 12⟩, ⟨1,
    1, 13⟩, ⟨1, 2, 25⟩, ⟨2, 1, 14⟩, ⟨3, 1, 15⟩], [⟨1, 0, 1⟩, ⟨3, 0, 3⟩, ⟨3, 2, 27⟩], [⟨2, 2,
    26⟩]]⟩⟩,
    ⟨11563278821389, ⟨45, 9, 5, [[0, 0, 1], [0, 2, 1], [0, 0, 0]], [[0, 1, 2], [0, 1, 2], [3, 1,
    2], [2, 4, 4], [4, 4, 4]], [[⟨0, 0, 0⟩, ⟨0, 1, 15⟩, ⟨1, 0, 5⟩, ⟨2, 0, 10⟩, ⟨2, 1, 25⟩, ⟨2, 2,
    40⟩], [⟨0, 2, 30⟩, ⟨1, 2, 35⟩], [⟨1, 1, 20⟩]], [[⟨0, 0, 0⟩, ⟨1, 0, 1⟩], [⟨0, 1, 15⟩, ⟨1, 1,
    16⟩, ⟨2, 1, 17⟩], [⟨0, 2, 30⟩, ⟨1, 2, 31⟩, ⟨2, 2, 32⟩, ⟨3, 0, 3⟩], [⟨2, 0, 2⟩], [⟨3, 1, 18⟩,
    ⟨3, 2, 33⟩, ⟨4, 0, 4⟩, ⟨4, 1, 19⟩, ⟨4, 2, 34⟩]]⟩⟩,
    ⟨6907700208494605, ⟨72, 9, 8, [[0, 0, 1], [1, 0, 2], [1, 2, 2]], [[0, 1, 2], [3, 4, 5], [6,
    1, 2], [0, 4, 1], [3, 4, 1], [0, 4, 5], [2, 7, 7], [7, 7, 7]], [[⟨0, 0, 0⟩, ⟨0, 1, 24⟩, ⟨1,
    1, 32⟩], [⟨0, 2, 48⟩, ⟨1, 0, 8⟩, ⟨2, 0, 16⟩], [⟨1, 2, 56⟩, ⟨2, 1, 40⟩, ⟨2, 2, 64⟩]], [[⟨0, 0,
    0⟩, ⟨3, 0, 3⟩, ⟨5, 0, 5⟩], [⟨0, 1, 24⟩, ⟨2, 1, 26⟩, ⟨3, 2, 51⟩, ⟨4, 2, 52⟩], [⟨0, 2, 48⟩, ⟨2,
    2, 50⟩, ⟨6, 0, 6⟩], [⟨1, 0, 1⟩, ⟨4, 0, 4⟩], [⟨1, 1, 25⟩, ⟨3, 1, 27⟩, ⟨4, 1, 28⟩, ⟨5, 1, 29⟩],
    [⟨1, 2, 49⟩, ⟨5, 2, 53⟩], [⟨2, 0, 2⟩], [⟨6, 1, 30⟩, ⟨6, 2, 54⟩, ⟨7, 0, 7⟩, ⟨7, 1, 31⟩, ⟨7, 2,
    55⟩]]⟩⟩,
    ⟨6942884580583437, ⟨18, 9, 2, [[0, 1, 2], [1, 1, 1], [1, 0, 1]], [[0, 1, 0], [0, 1, 0]],
    [[⟨0, 0, 0⟩, ⟨2, 1, 10⟩], [⟨0, 1, 6⟩, ⟨1, 0, 2⟩, ⟨1, 1, 8⟩, ⟨1, 2, 14⟩, ⟨2, 0, 4⟩, ⟨2, 2,
    16⟩], [⟨0, 2, 12⟩]], [[⟨0, 0, 0⟩, ⟨0, 2, 12⟩, ⟨1, 0, 1⟩, ⟨1, 2, 13⟩], [⟨0, 1, 6⟩, ⟨1, 1,
    7⟩]]⟩⟩,
    ⟨7189175185205261, ⟨171, 9, 19, [[0, 1, 2], [2, 2, 1], [0, 0, 1]], [[0, 1, 2], [3, 4, 1], [5,
    6, 7], [8, 6, 9], [3, 4, 10], [11, 6, 7], [11, 11, 12], [6, 11, 11], [12, 1, 13], [8, 11,
    11], [14, 4, 1], [11, 11, 11], [15, 11, 11], [16, 6, 7], [17, 4, 10], [12, 1, 2], [9, 4, 1],
    [18, 1, 13], [0, 1, 13]], [[⟨0, 0, 0⟩, ⟨2, 0, 38⟩, ⟨2, 1, 95⟩], [⟨0, 1, 57⟩, ⟨1, 2, 133⟩, ⟨2,
    2, 152⟩], [⟨0, 2, 114⟩, ⟨1, 0, 19⟩, ⟨1, 1, 76⟩]], [[⟨0, 0, 0⟩, ⟨18, 0, 18⟩], [⟨0, 1, 57⟩, ⟨1,
    2, 115⟩, ⟨8, 1, 65⟩, ⟨10, 2, 124⟩, ⟨15, 1, 72⟩, ⟨16, 2, 130⟩, ⟨17, 1, 74⟩, ⟨18, 1, 75⟩], [⟨0,
    2, 114⟩, ⟨15, 2, 129⟩], [⟨1, 0, 1⟩, ⟨4, 0, 4⟩], [⟨1, 1, 58⟩, ⟨4, 1, 61⟩, ⟨10, 1, 67⟩, ⟨14, 1,
    71⟩, ⟨16, 1, 73⟩], [⟨2, 0, 2⟩], [⟨2, 1, 59⟩, ⟨3, 1, 60⟩, ⟨5, 1, 62⟩, ⟨7, 0, 7⟩, ⟨13, 1, 70⟩],
    [⟨2, 2, 116⟩, ⟨5, 2, 119⟩, ⟨13, 2, 127⟩], [⟨3, 0, 3⟩, ⟨9, 0, 9⟩], [⟨3, 2, 117⟩, ⟨16, 0, 16⟩],
    [⟨4, 2, 118⟩, ⟨14, 2, 128⟩], [⟨5, 0, 5⟩, ⟨6, 0, 6⟩, ⟨6, 1, 63⟩, ⟨7, 1, 64⟩, ⟨7, 2, 121⟩, ⟨9,
    1, 66⟩, ⟨9, 2, 123⟩, ⟨11, 0, 11⟩, ⟨11, 1, 68⟩, ⟨11, 2, 125⟩, ⟨12, 1, 69⟩, ⟨12, 2, 126⟩], [⟨6,
    2, 120⟩, ⟨8, 0, 8⟩, ⟨15, 0, 15⟩], [⟨8, 2, 122⟩, ⟨17, 2, 131⟩, ⟨18, 2, 132⟩], [⟨10, 0, 10⟩],
    [⟨12, 0, 12⟩], [⟨13, 0, 13⟩], [⟨14, 0, 14⟩], [⟨17, 0, 17⟩]]⟩⟩,
    ⟨7224359557294093, ⟨18, 9, 2, [[0, 1, 2], [1, 1, 1], [1, 0, 1]], [[0, 1, 0], [0, 1, 0]],
    [[⟨0, 0, 0⟩, ⟨2, 1, 10⟩], [⟨0, 1, 6⟩, ⟨1, 0, 2⟩, ⟨1, 1, 8⟩, ⟨1, 2, 14⟩, ⟨2, 0, 4⟩, ⟨2, 2,
    16⟩], [⟨0, 2, 12⟩]], [[⟨0, 0, 0⟩, ⟨0, 2, 12⟩, ⟨1, 0, 1⟩, ⟨1, 2, 13⟩], [⟨0, 1, 6⟩, ⟨1, 1,
    7⟩]]⟩⟩,
    ⟨7470650161915917, ⟨18, 9, 2, [[0, 1, 2], [1, 1, 1], [1, 0, 1]], [[0, 1, 0], [0, 1, 0]],
    [[⟨0, 0, 0⟩, ⟨2, 1, 10⟩], [⟨0, 1, 6⟩, ⟨1, 0, 2⟩, ⟨1, 1, 8⟩, ⟨1, 2, 14⟩, ⟨2, 0, 4⟩, ⟨2, 2,
    16⟩], [⟨0, 2, 12⟩]], [[⟨0, 0, 0⟩, ⟨0, 2, 12⟩, ⟨1, 0, 1⟩, ⟨1, 2, 13⟩], [⟨0, 1, 6⟩, ⟨1, 1,
    7⟩]]⟩⟩],
    by decide +kernel, by decide +kernel⟩

def list23_1l1_1l0_1 : List Listed := [
  ⟨6942884582680589, [((0, 0), (1, true, 1)), ((0, 1), (2, true, 0)), ((0, 2), (2, false, 1)),
  ((1, 0), (1, false, 1)), ((1, 1), (1, false, 0)), ((1, 2), (0, true, 1))]⟩,
  ⟨7224359559391245, [((0, 0), (1, true, 1)), ((0, 1), (2, true, 0)), ((0, 2), (2, false, 1)),
  ((1, 0), (1, false, 1)), ((1, 1), (1, false, 0)), ((1, 2), (1, true, 1))]⟩,
  ⟨6766962718829069, [((0, 0), (1, true, 1)), ((0, 1), (2, true, 1)), ((0, 2), (0, true, 0)),
  ((1, 0), (1, false, 1)), ((1, 1), (1, false, 0)), ((1, 2), (0, false, 0))]⟩]

theorem done23_1l1_1l0_1 : ∃ h, Done list23_1l1_1l0_1 h :=
  ⟨[
    ⟨6942884582680589, ⟨18, 9, 2, [[0, 1, 2], [1, 1, 1], [1, 0, 1]], [[0, 1, 0], [0, 1, 1]],
    [[⟨0, 0, 0⟩, ⟨2, 1, 10⟩], [⟨0, 1, 6⟩, ⟨1, 0, 2⟩, ⟨1, 1, 8⟩, ⟨1, 2, 14⟩, ⟨2, 0, 4⟩, ⟨2, 2,
    16⟩], [⟨0, 2, 12⟩]], [[⟨0, 0, 0⟩, ⟨0, 2, 12⟩, ⟨1, 0, 1⟩], [⟨0, 1, 6⟩, ⟨1, 1, 7⟩, ⟨1, 2,
    13⟩]]⟩⟩,
    ⟨7224359559391245, ⟨18, 9, 2, [[0, 1, 2], [1, 1, 1], [1, 0, 1]], [[0, 1, 1], [0, 1, 1]],
    [[⟨0, 0, 0⟩, ⟨2, 1, 10⟩], [⟨0, 1, 6⟩, ⟨1, 0, 2⟩, ⟨1, 1, 8⟩, ⟨1, 2, 14⟩, ⟨2, 0, 4⟩, ⟨2, 2,
    16⟩], [⟨0, 2, 12⟩]], [[⟨0, 0, 0⟩, ⟨1, 0, 1⟩], [⟨0, 1, 6⟩, ⟨0, 2, 12⟩, ⟨1, 1, 7⟩, ⟨1, 2,
    13⟩]]⟩⟩,
    ⟨6766962718829069, ⟨24, 6, 4, [[0, 1, 1], [0, 1, 0]], [[0, 1, 2], [3, 1, 2], [2, 2, 2], [3,
    1, 2]], [[⟨0, 0, 0⟩, ⟨1, 0, 4⟩, ⟨1, 2, 20⟩], [⟨0, 1, 8⟩, ⟨0, 2, 16⟩, ⟨1, 1, 12⟩]], [[⟨0, 0,
    0⟩], [⟨0, 1, 8⟩, ⟨1, 1, 9⟩, ⟨3, 1, 11⟩], [⟨0, 2, 16⟩, ⟨1, 2, 17⟩, ⟨2, 0, 2⟩, ⟨2, 1, 10⟩, ⟨2,
    2, 18⟩, ⟨3, 2, 19⟩], [⟨1, 0, 1⟩, ⟨3, 0, 3⟩]]⟩⟩],
    by decide +kernel, by decide +kernel⟩

theorem child23_1l1_1l0 : AllDone (child (1, false, 1) (1, false, 0)) := by
  refine allDone_of [list23_1l1_1l0_0, list23_1l1_1l0_1] ?_ (by decide +kernel)
  simp only [List.forall_mem_cons, List.not_mem_nil, false_imp_iff, implies_true, and_true]
  exact ⟨done23_1l1_1l0_0, done23_1l1_1l0_1⟩

theorem child23_1l1_1l1 : AllDone (child (1, false, 1) (1, false, 1)) :=
  allDone_of [] (by simp) (by decide +kernel)

def list23_1l1_1r0_0 : List Listed := [
  ⟨13285980397581, [((0, 0), (1, true, 1)), ((0, 1), (2, false, 0)), ((1, 0), (1, false, 1)),
  ((1, 1), (1, true, 0)), ((1, 2), (0, false, 1))]⟩,
  ⟨6907975085350925, [((0, 0), (1, true, 1)), ((0, 1), (2, false, 0)), ((0, 2), (0, true, 1)),
  ((1, 0), (1, false, 1)), ((1, 1), (1, true, 0)), ((1, 2), (0, true, 0))]⟩,
  ⟨13560858304525, [((0, 0), (1, true, 1)), ((0, 1), (2, false, 0)), ((1, 0), (1, false, 1)),
  ((1, 1), (1, true, 0)), ((1, 2), (0, true, 1))]⟩,
  ⟨7189450061013005, [((0, 0), (1, true, 1)), ((0, 1), (2, false, 0)), ((0, 2), (0, false, 1)),
  ((1, 0), (1, false, 1)), ((1, 1), (1, true, 0)), ((1, 2), (1, true, 0))]⟩,
  ⟨14110614118413, [((0, 0), (1, true, 1)), ((0, 1), (2, false, 0)), ((1, 0), (1, false, 1)),
  ((1, 1), (1, true, 0)), ((1, 2), (1, true, 1))]⟩,
  ⟨7365371921457165, [((0, 0), (1, true, 1)), ((0, 1), (2, false, 0)), ((0, 2), (0, false, 1)),
  ((1, 0), (1, false, 1)), ((1, 1), (1, true, 0)), ((1, 2), (2, false, 1))]⟩,
  ⟨7470925037723661, [((0, 0), (1, true, 1)), ((0, 1), (2, false, 0)), ((0, 2), (0, false, 1)),
  ((1, 0), (1, false, 1)), ((1, 1), (1, true, 0)), ((1, 2), (2, true, 0))]⟩,
  ⟨7506109409812493, [((0, 0), (1, true, 1)), ((0, 1), (2, false, 0)), ((0, 2), (0, false, 1)),
  ((1, 0), (1, false, 1)), ((1, 1), (1, true, 0)), ((1, 2), (2, true, 1))]⟩,
  ⟨7506109410598925, [((0, 0), (1, true, 1)), ((0, 1), (2, false, 0)), ((0, 2), (0, true, 0)),
  ((1, 0), (1, false, 1)), ((1, 1), (1, true, 0)), ((1, 2), (2, true, 1))]⟩,
  ⟨7506109411909645, [((0, 0), (1, true, 1)), ((0, 1), (2, false, 0)), ((0, 2), (1, false, 1)),
  ((1, 0), (1, false, 1)), ((1, 1), (1, true, 0)), ((1, 2), (2, true, 1))]⟩,
  ⟨7506109414006797, [((0, 0), (1, true, 1)), ((0, 1), (2, false, 0)), ((0, 2), (2, false, 1)),
  ((1, 0), (1, false, 1)), ((1, 1), (1, true, 0)), ((1, 2), (2, true, 1))]⟩,
  ⟨6767237595949581, [((0, 0), (1, true, 1)), ((0, 1), (2, true, 1)), ((0, 2), (0, false, 1)),
  ((1, 0), (1, false, 1)), ((1, 1), (1, true, 0)), ((1, 2), (0, false, 0))]⟩,
  ⟨6767237596998157, [((0, 0), (1, true, 1)), ((0, 1), (2, true, 1)), ((0, 2), (0, true, 1)),
  ((1, 0), (1, false, 1)), ((1, 1), (1, true, 0)), ((1, 2), (0, false, 0))]⟩,
  ⟨6767237598046733, [((0, 0), (1, true, 1)), ((0, 1), (2, true, 1)), ((0, 2), (1, false, 1)),
  ((1, 0), (1, false, 1)), ((1, 1), (1, true, 0)), ((1, 2), (0, false, 0))]⟩,
  ⟨7365371922246157, [((0, 0), (1, true, 1)), ((0, 1), (2, true, 1)), ((0, 2), (0, true, 0)),
  ((1, 0), (1, false, 1)), ((1, 1), (1, true, 0)), ((1, 2), (2, false, 1))]⟩,
  ⟨7365371926440461, [((0, 0), (1, true, 1)), ((0, 1), (2, true, 1)), ((0, 2), (2, true, 0)),
  ((1, 0), (1, false, 1)), ((1, 1), (1, true, 0)), ((1, 2), (2, false, 1))]⟩]

theorem done23_1l1_1r0_0 : ∃ h, Done list23_1l1_1r0_0 h :=
  ⟨[
    ⟨13285980397581, ⟨36, 9, 4, [[0, 1, 2], [0, 1, 2], [2, 2, 2]], [[0, 0, 1], [0, 2, 1], [3, 1,
    3], [3, 3, 3]], [[⟨0, 0, 0⟩, ⟨1, 0, 4⟩], [⟨0, 1, 12⟩, ⟨1, 1, 16⟩], [⟨0, 2, 24⟩, ⟨1, 2, 28⟩,
    ⟨2, 0, 8⟩, ⟨2, 1, 20⟩, ⟨2, 2, 32⟩]], [[⟨0, 0, 0⟩, ⟨0, 1, 12⟩, ⟨1, 0, 1⟩], [⟨0, 2, 24⟩, ⟨1, 2,
    25⟩, ⟨2, 1, 14⟩], [⟨1, 1, 13⟩], [⟨2, 0, 2⟩, ⟨2, 2, 26⟩, ⟨3, 0, 3⟩, ⟨3, 1, 15⟩, ⟨3, 2, 27⟩]]⟩⟩,
    ⟨6907975085350925, ⟨18, 9, 2, [[0, 1, 2], [1, 1, 1], [2, 2, 2]], [[0, 0, 1], [0, 0, 1]],
    [[⟨0, 0, 0⟩], [⟨0, 1, 6⟩, ⟨1, 0, 2⟩, ⟨1, 1, 8⟩, ⟨1, 2, 14⟩], [⟨0, 2, 12⟩, ⟨2, 0, 4⟩, ⟨2, 1,
    10⟩, ⟨2, 2, 16⟩]], [[⟨0, 0, 0⟩, ⟨0, 1, 6⟩, ⟨1, 0, 1⟩, ⟨1, 1, 7⟩], [⟨0, 2, 12⟩, ⟨1, 2, 13⟩]]⟩⟩,
    ⟨13560858304525, ⟨36, 9, 4, [[0, 1, 2], [1, 1, 2], [2, 2, 2]], [[0, 0, 1], [2, 2, 1], [3, 1,
    3], [3, 3, 3]], [[⟨0, 0, 0⟩], [⟨0, 1, 12⟩, ⟨1, 0, 4⟩, ⟨1, 1, 16⟩], [⟨0, 2, 24⟩, ⟨1, 2, 28⟩,
    ⟨2, 0, 8⟩, ⟨2, 1, 20⟩, ⟨2, 2, 32⟩]], [[⟨0, 0, 0⟩, ⟨0, 1, 12⟩], [⟨0, 2, 24⟩, ⟨1, 2, 25⟩, ⟨2,
    1, 14⟩], [⟨1, 0, 1⟩, ⟨1, 1, 13⟩], [⟨2, 0, 2⟩, ⟨2, 2, 26⟩, ⟨3, 0, 3⟩, ⟨3, 1, 15⟩, ⟨3, 2,
    27⟩]]⟩⟩,
    ⟨7189450061013005, ⟨24, 12, 2, [[0, 1, 2], [1, 1, 1], [2, 3, 0], [3, 3, 3]], [[0, 0, 1], [0,
    0, 1]], [[⟨0, 0, 0⟩, ⟨2, 2, 20⟩], [⟨0, 1, 8⟩, ⟨1, 0, 2⟩, ⟨1, 1, 10⟩, ⟨1, 2, 18⟩], [⟨0, 2,
    16⟩, ⟨2, 0, 4⟩], [⟨2, 1, 12⟩, ⟨3, 0, 6⟩, ⟨3, 1, 14⟩, ⟨3, 2, 22⟩]], [[⟨0, 0, 0⟩, ⟨0, 1, 8⟩,
    ⟨1, 0, 1⟩, ⟨1, 1, 9⟩], [⟨0, 2, 16⟩, ⟨1, 2, 17⟩]]⟩⟩,
    ⟨14110614118413, ⟨36, 9, 4, [[0, 1, 2], [0, 1, 2], [2, 2, 2]], [[0, 0, 1], [0, 2, 1], [3, 1,
    3], [3, 3, 3]], [[⟨0, 0, 0⟩, ⟨1, 0, 4⟩], [⟨0, 1, 12⟩, ⟨1, 1, 16⟩], [⟨0, 2, 24⟩, ⟨1, 2, 28⟩,
    ⟨2, 0, 8⟩, ⟨2, 1, 20⟩, ⟨2, 2, 32⟩]], [[⟨0, 0, 0⟩, ⟨0, 1, 12⟩, ⟨1, 0, 1⟩], [⟨0, 2, 24⟩, ⟨1, 2,
    25⟩, ⟨2, 1, 14⟩], [⟨1, 1, 13⟩], [⟨2, 0, 2⟩, ⟨2, 2, 26⟩, ⟨3, 0, 3⟩, ⟨3, 1, 15⟩, ⟨3, 2, 27⟩]]⟩⟩,
    ⟨7365371921457165, ⟨18, 9, 2, [[0, 1, 2], [1, 1, 1], [2, 2, 2]], [[0, 0, 1], [0, 0, 1]],
    [[⟨0, 0, 0⟩], [⟨0, 1, 6⟩, ⟨1, 0, 2⟩, ⟨1, 1, 8⟩, ⟨1, 2, 14⟩], [⟨0, 2, 12⟩, ⟨2, 0, 4⟩, ⟨2, 1,
    10⟩, ⟨2, 2, 16⟩]], [[⟨0, 0, 0⟩, ⟨0, 1, 6⟩, ⟨1, 0, 1⟩, ⟨1, 1, 7⟩], [⟨0, 2, 12⟩, ⟨1, 2, 13⟩]]⟩⟩,
    ⟨7470925037723661, ⟨18, 9, 2, [[0, 1, 2], [1, 1, 1], [2, 2, 2]], [[0, 0, 1], [0, 0, 1]],
    [[⟨0, 0, 0⟩], [⟨0, 1, 6⟩, ⟨1, 0, 2⟩, ⟨1, 1, 8⟩, ⟨1, 2, 14⟩], [⟨0, 2, 12⟩, ⟨2, 0, 4⟩, ⟨2, 1,
    10⟩, ⟨2, 2, 16⟩]], [[⟨0, 0, 0⟩, ⟨0, 1, 6⟩, ⟨1, 0, 1⟩, ⟨1, 1, 7⟩], [⟨0, 2, 12⟩, ⟨1, 2, 13⟩]]⟩⟩,
    ⟨7506109409812493, ⟨18, 9, 2, [[0, 1, 2], [1, 1, 1], [2, 2, 2]], [[0, 0, 1], [0, 0, 1]],
    [[⟨0, 0, 0⟩], [⟨0, 1, 6⟩, ⟨1, 0, 2⟩, ⟨1, 1, 8⟩, ⟨1, 2, 14⟩], [⟨0, 2, 12⟩, ⟨2, 0, 4⟩, ⟨2, 1,
    10⟩, ⟨2, 2, 16⟩]], [[⟨0, 0, 0⟩, ⟨0, 1, 6⟩, ⟨1, 0, 1⟩, ⟨1, 1, 7⟩], [⟨0, 2, 12⟩, ⟨1, 2, 13⟩]]⟩⟩,
    ⟨7506109410598925, ⟨18, 9, 2, [[0, 1, 2], [1, 1, 1], [2, 2, 2]], [[0, 1, 1], [1, 1, 1]],
    [[⟨0, 0, 0⟩], [⟨0, 1, 6⟩, ⟨1, 0, 2⟩, ⟨1, 1, 8⟩, ⟨1, 2, 14⟩], [⟨0, 2, 12⟩, ⟨2, 0, 4⟩, ⟨2, 1,
    10⟩, ⟨2, 2, 16⟩]], [[⟨0, 0, 0⟩], [⟨0, 1, 6⟩, ⟨0, 2, 12⟩, ⟨1, 0, 1⟩, ⟨1, 1, 7⟩, ⟨1, 2, 13⟩]]⟩⟩,
    ⟨7506109411909645, ⟨18, 9, 2, [[0, 1, 2], [1, 1, 1], [2, 2, 2]], [[0, 0, 1], [0, 0, 1]],
    [[⟨0, 0, 0⟩], [⟨0, 1, 6⟩, ⟨1, 0, 2⟩, ⟨1, 1, 8⟩, ⟨1, 2, 14⟩], [⟨0, 2, 12⟩, ⟨2, 0, 4⟩, ⟨2, 1,
    10⟩, ⟨2, 2, 16⟩]], [[⟨0, 0, 0⟩, ⟨0, 1, 6⟩, ⟨1, 0, 1⟩, ⟨1, 1, 7⟩], [⟨0, 2, 12⟩, ⟨1, 2, 13⟩]]⟩⟩,
    ⟨7506109414006797, ⟨18, 9, 2, [[0, 1, 2], [1, 1, 1], [0, 2, 1]], [[0, 0, 1], [0, 0, 1]],
    [[⟨0, 0, 0⟩, ⟨2, 0, 4⟩], [⟨0, 1, 6⟩, ⟨1, 0, 2⟩, ⟨1, 1, 8⟩, ⟨1, 2, 14⟩, ⟨2, 2, 16⟩], [⟨0, 2,
    12⟩, ⟨2, 1, 10⟩]], [[⟨0, 0, 0⟩, ⟨0, 1, 6⟩, ⟨1, 0, 1⟩, ⟨1, 1, 7⟩], [⟨0, 2, 12⟩, ⟨1, 2, 13⟩]]⟩⟩,
    ⟨6767237595949581, ⟨72, 24, 3, [[0, 1, 2], [3, 3, 4], [5, 6, 6], [3, 3, 3], [1, 1, 5], [5, 6,
    7], [6, 6, 6], [0, 1, 5]], [[0, 1, 0], [2, 1, 0], [0, 1, 0]], [[⟨0, 0, 0⟩, ⟨7, 0, 21⟩], [⟨0,
    1, 24⟩, ⟨4, 0, 12⟩, ⟨4, 1, 36⟩, ⟨7, 1, 45⟩], [⟨0, 2, 48⟩], [⟨1, 0, 3⟩, ⟨1, 1, 27⟩, ⟨3, 0, 9⟩,
    ⟨3, 1, 33⟩, ⟨3, 2, 57⟩], [⟨1, 2, 51⟩], [⟨2, 0, 6⟩, ⟨4, 2, 60⟩, ⟨5, 0, 15⟩, ⟨7, 2, 69⟩], [⟨2,
    1, 30⟩, ⟨2, 2, 54⟩, ⟨5, 1, 39⟩, ⟨6, 0, 18⟩, ⟨6, 1, 42⟩, ⟨6, 2, 66⟩], [⟨5, 2, 63⟩]], [[⟨0, 0,
    0⟩, ⟨0, 2, 48⟩, ⟨1, 2, 49⟩, ⟨2, 0, 2⟩, ⟨2, 2, 50⟩], [⟨0, 1, 24⟩, ⟨1, 1, 25⟩, ⟨2, 1, 26⟩],
    [⟨1, 0, 1⟩]]⟩⟩,
    ⟨6767237596998157, ⟨45, 9, 5, [[0, 1, 2], [1, 1, 1], [1, 2, 0]], [[0, 1, 2], [3, 4, 4], [2,
    2, 2], [0, 1, 2], [3, 4, 4]], [[⟨0, 0, 0⟩, ⟨2, 2, 40⟩], [⟨0, 1, 15⟩, ⟨1, 0, 5⟩, ⟨1, 1, 20⟩,
    ⟨1, 2, 35⟩, ⟨2, 0, 10⟩], [⟨0, 2, 30⟩, ⟨2, 1, 25⟩]], [[⟨0, 0, 0⟩, ⟨3, 0, 3⟩], [⟨0, 1, 15⟩, ⟨3,
    1, 18⟩], [⟨0, 2, 30⟩, ⟨2, 0, 2⟩, ⟨2, 1, 17⟩, ⟨2, 2, 32⟩, ⟨3, 2, 33⟩], [⟨1, 0, 1⟩, ⟨4, 0, 4⟩],
    [⟨1, 1, 16⟩, ⟨1, 2, 31⟩, ⟨4, 1, 19⟩, ⟨4, 2, 34⟩]]⟩⟩,
    ⟨6767237598046733, ⟨45, 15, 3, [[0, 1, 2], [3, 3, 3], [2, 4, 0], [3, 3, 3], [4, 4, 4]], [[0,
    1, 0], [2, 1, 0], [0, 1, 0]], [[⟨0, 0, 0⟩, ⟨2, 2, 36⟩], [⟨0, 1, 15⟩], [⟨0, 2, 30⟩, ⟨2, 0,
    6⟩], [⟨1, 0, 3⟩, ⟨1, 1, 18⟩, ⟨1, 2, 33⟩, ⟨3, 0, 9⟩, ⟨3, 1, 24⟩, ⟨3, 2, 39⟩], [⟨2, 1, 21⟩, ⟨4,
    0, 12⟩, ⟨4, 1, 27⟩, ⟨4, 2, 42⟩]], [[⟨0, 0, 0⟩, ⟨0, 2, 30⟩, ⟨1, 2, 31⟩, ⟨2, 0, 2⟩, ⟨2, 2,
    32⟩], [⟨0, 1, 15⟩, ⟨1, 1, 16⟩, ⟨2, 1, 17⟩], [⟨1, 0, 1⟩]]⟩⟩,
    ⟨7365371922246157, ⟨6, 6, 1, [[0, 1, 0], [1, 1, 1]], [[0, 0, 0]], [[⟨0, 0, 0⟩, ⟨0, 2, 4⟩],
    [⟨0, 1, 2⟩, ⟨1, 0, 1⟩, ⟨1, 1, 3⟩, ⟨1, 2, 5⟩]], [[⟨0, 0, 0⟩, ⟨0, 1, 2⟩, ⟨0, 2, 4⟩]]⟩⟩,
    ⟨7365371926440461, ⟨6, 6, 1, [[0, 1, 0], [1, 1, 1]], [[0, 0, 0]], [[⟨0, 0, 0⟩, ⟨0, 2, 4⟩],
    [⟨0, 1, 2⟩, ⟨1, 0, 1⟩, ⟨1, 1, 3⟩, ⟨1, 2, 5⟩]], [[⟨0, 0, 0⟩, ⟨0, 1, 2⟩, ⟨0, 2, 4⟩]]⟩⟩],
    by decide +kernel, by decide +kernel⟩

theorem child23_1l1_1r0 : AllDone (child (1, false, 1) (1, true, 0)) := by
  refine allDone_of [list23_1l1_1r0_0] ?_ (by decide +kernel)
  simp only [List.forall_mem_cons, List.not_mem_nil, false_imp_iff, implies_true, and_true]
  exact done23_1l1_1r0_0

theorem child23_1l1_1r1 : AllDone (child (1, false, 1) (1, true, 1)) :=
  allDone_of [] (by simp) (by decide +kernel)

end BB.Records
