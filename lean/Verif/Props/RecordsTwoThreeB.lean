import Verif.Props.RecordsTwoThreeA

/-!
# C79 for two states and three colours: programs with some instructions at B0
-/

namespace BB.Records

open Watch

theorem child23_0l0_0l0 : AllDone (child (0, false, 0) (0, false, 0)) :=
  allDone_of [] (by simp) (by decide +kernel)

theorem child23_0l0_0l1 : AllDone (child (0, false, 0) (0, false, 1)) :=
  allDone_of [] (by simp) (by decide +kernel)

theorem child23_0l0_0r0 : AllDone (child (0, false, 0) (0, true, 0)) :=
  allDone_of [] (by simp) (by decide +kernel)

theorem child23_0l0_0r1 : AllDone (child (0, false, 0) (0, true, 1)) :=
  allDone_of [] (by simp) (by decide +kernel)

def list23_0l0_1l0_0 : List Listed := [
  ⟨12386702479373, [((0, 0), (1, true, 1)), ((0, 1), (1, false, 0)), ((0, 2), (0, false, 0)),
  ((1, 0), (0, false, 0)), ((1, 1), (2, true, 0))]⟩,
  ⟨12386702741517, [((0, 0), (1, true, 1)), ((0, 1), (1, false, 0)), ((0, 2), (0, false, 1)),
  ((1, 0), (0, false, 0)), ((1, 1), (2, true, 0))]⟩,
  ⟨6943708008435725, [((0, 0), (1, true, 1)), ((0, 1), (1, false, 0)), ((0, 2), (2, false, 1)),
  ((1, 0), (0, false, 0)), ((1, 1), (2, true, 0)), ((1, 2), (0, true, 1))]⟩,
  ⟨12455423266829, [((0, 0), (1, true, 1)), ((0, 1), (1, false, 0)), ((0, 2), (0, true, 1)), ((1,
  0), (0, false, 0)), ((1, 1), (2, true, 1))]⟩,
  ⟨12455424053261, [((0, 0), (1, true, 1)), ((0, 1), (1, false, 0)), ((0, 2), (1, false, 0)),
  ((1, 0), (0, false, 0)), ((1, 1), (2, true, 1))]⟩,
  ⟨12455425101837, [((0, 0), (1, true, 1)), ((0, 1), (1, false, 0)), ((0, 2), (1, true, 0)), ((1,
  0), (0, false, 0)), ((1, 1), (2, true, 1))]⟩,
  ⟨12455425363981, [((0, 0), (1, true, 1)), ((0, 1), (1, false, 0)), ((0, 2), (1, true, 1)), ((1,
  0), (0, false, 0)), ((1, 1), (2, true, 1))]⟩]

theorem done23_0l0_1l0_0 : ∃ h, Done list23_0l0_1l0_0 h :=
  ⟨[
    ⟨12386702479373, ⟨24, 6, 4, [[0, 1, 0], [0, 1, 1]], [[0, 1, 2], [1, 1, 2], [3, 1, 3], [3, 3,
    3]], [[⟨0, 0, 0⟩, ⟨0, 2, 16⟩, ⟨1, 0, 4⟩], [⟨0, 1, 8⟩, ⟨1, 1, 12⟩, ⟨1, 2, 20⟩]], [[⟨0, 0, 0⟩],
    [⟨0, 1, 8⟩, ⟨1, 0, 1⟩, ⟨1, 1, 9⟩, ⟨2, 1, 10⟩], [⟨0, 2, 16⟩, ⟨1, 2, 17⟩], [⟨2, 0, 2⟩, ⟨2, 2,
    18⟩, ⟨3, 0, 3⟩, ⟨3, 1, 11⟩, ⟨3, 2, 19⟩]]⟩⟩,
    ⟨12386702741517, ⟨60, 12, 5, [[0, 1, 0], [0, 0, 2], [0, 3, 0], [0, 0, 0]], [[0, 1, 2], [3, 1,
    2], [2, 2, 2], [2, 4, 2], [0, 2, 2]], [[⟨0, 0, 0⟩, ⟨0, 2, 40⟩, ⟨1, 0, 5⟩, ⟨1, 1, 25⟩, ⟨2, 0,
    10⟩, ⟨2, 2, 50⟩, ⟨3, 0, 15⟩, ⟨3, 1, 35⟩, ⟨3, 2, 55⟩], [⟨0, 1, 20⟩], [⟨1, 2, 45⟩], [⟨2, 1,
    30⟩]], [[⟨0, 0, 0⟩, ⟨4, 0, 4⟩], [⟨0, 1, 20⟩, ⟨1, 1, 21⟩], [⟨0, 2, 40⟩, ⟨1, 2, 41⟩, ⟨2, 0, 2⟩,
    ⟨2, 1, 22⟩, ⟨2, 2, 42⟩, ⟨3, 0, 3⟩, ⟨3, 2, 43⟩, ⟨4, 1, 24⟩, ⟨4, 2, 44⟩], [⟨1, 0, 1⟩], [⟨3, 1,
    23⟩]]⟩⟩,
    ⟨6943708008435725, ⟨54, 9, 6, [[0, 0, 1], [0, 2, 0], [0, 0, 0]], [[0, 1, 2], [3, 1, 4], [2,
    2, 2], [2, 5, 2], [4, 4, 4], [0, 2, 2]], [[⟨0, 0, 0⟩, ⟨0, 1, 18⟩, ⟨1, 0, 6⟩, ⟨1, 2, 42⟩, ⟨2,
    0, 12⟩, ⟨2, 1, 30⟩, ⟨2, 2, 48⟩], [⟨0, 2, 36⟩], [⟨1, 1, 24⟩]], [[⟨0, 0, 0⟩, ⟨5, 0, 5⟩], [⟨0,
    1, 18⟩, ⟨1, 1, 19⟩], [⟨0, 2, 36⟩, ⟨2, 0, 2⟩, ⟨2, 1, 20⟩, ⟨2, 2, 38⟩, ⟨3, 0, 3⟩, ⟨3, 2, 39⟩,
    ⟨5, 1, 23⟩, ⟨5, 2, 41⟩], [⟨1, 0, 1⟩], [⟨1, 2, 37⟩, ⟨4, 0, 4⟩, ⟨4, 1, 22⟩, ⟨4, 2, 40⟩], [⟨3,
    1, 21⟩]]⟩⟩,
    ⟨12455423266829, ⟨27, 9, 3, [[0, 1, 2], [1, 1, 1], [2, 2, 2]], [[0, 1, 2], [1, 1, 2], [1, 2,
    2]], [[⟨0, 0, 0⟩], [⟨0, 1, 9⟩, ⟨1, 0, 3⟩, ⟨1, 1, 12⟩, ⟨1, 2, 21⟩], [⟨0, 2, 18⟩, ⟨2, 0, 6⟩,
    ⟨2, 1, 15⟩, ⟨2, 2, 24⟩]], [[⟨0, 0, 0⟩], [⟨0, 1, 9⟩, ⟨1, 0, 1⟩, ⟨1, 1, 10⟩, ⟨2, 0, 2⟩], [⟨0,
    2, 18⟩, ⟨1, 2, 19⟩, ⟨2, 1, 11⟩, ⟨2, 2, 20⟩]]⟩⟩,
    ⟨12455424053261, ⟨18, 6, 3, [[0, 0, 1], [0, 0, 1]], [[0, 1, 2], [1, 1, 2], [1, 2, 2]], [[⟨0,
    0, 0⟩, ⟨0, 1, 6⟩, ⟨1, 0, 3⟩, ⟨1, 1, 9⟩], [⟨0, 2, 12⟩, ⟨1, 2, 15⟩]], [[⟨0, 0, 0⟩], [⟨0, 1, 6⟩,
    ⟨1, 0, 1⟩, ⟨1, 1, 7⟩, ⟨2, 0, 2⟩], [⟨0, 2, 12⟩, ⟨1, 2, 13⟩, ⟨2, 1, 8⟩, ⟨2, 2, 14⟩]]⟩⟩,
    ⟨12455425101837, ⟨18, 6, 3, [[0, 1, 0], [0, 1, 1]], [[0, 1, 2], [1, 1, 2], [2, 2, 2]], [[⟨0,
    0, 0⟩, ⟨0, 2, 12⟩, ⟨1, 0, 3⟩], [⟨0, 1, 6⟩, ⟨1, 1, 9⟩, ⟨1, 2, 15⟩]], [[⟨0, 0, 0⟩], [⟨0, 1, 6⟩,
    ⟨1, 0, 1⟩, ⟨1, 1, 7⟩], [⟨0, 2, 12⟩, ⟨1, 2, 13⟩, ⟨2, 0, 2⟩, ⟨2, 1, 8⟩, ⟨2, 2, 14⟩]]⟩⟩,
    ⟨12455425363981, ⟨18, 6, 3, [[0, 1, 0], [0, 1, 1]], [[0, 1, 2], [1, 1, 2], [1, 2, 2]], [[⟨0,
    0, 0⟩, ⟨0, 2, 12⟩, ⟨1, 0, 3⟩], [⟨0, 1, 6⟩, ⟨1, 1, 9⟩, ⟨1, 2, 15⟩]], [[⟨0, 0, 0⟩], [⟨0, 1, 6⟩,
    ⟨1, 0, 1⟩, ⟨1, 1, 7⟩, ⟨2, 0, 2⟩], [⟨0, 2, 12⟩, ⟨1, 2, 13⟩, ⟨2, 1, 8⟩, ⟨2, 2, 14⟩]]⟩⟩],
    by decide +kernel, by decide +kernel⟩

theorem child23_0l0_1l0 : AllDone (child (0, false, 0) (1, false, 0)) := by
  refine allDone_of [list23_0l0_1l0_0] ?_ (by decide +kernel)
  simp only [List.forall_mem_cons, List.not_mem_nil, false_imp_iff, implies_true, and_true]
  exact done23_0l0_1l0_0

theorem child23_0l0_1l1 : AllDone (child (0, false, 0) (1, false, 1)) :=
  allDone_of [] (by simp) (by decide +kernel)

theorem child23_0l0_1r0 : AllDone (child (0, false, 0) (1, true, 0)) :=
  allDone_of [] (by simp) (by decide +kernel)

theorem child23_0l0_1r1 : AllDone (child (0, false, 0) (1, true, 1)) :=
  allDone_of [] (by simp) (by decide +kernel)

def list23_0l0_2l0_0 : List Listed := [
  ⟨13285978038285, [((0, 0), (1, true, 1)), ((0, 1), (2, false, 0)), ((1, 0), (0, false, 0)),
  ((1, 1), (1, true, 0)), ((1, 2), (0, false, 1))]⟩,
  ⟨6803039238250509, [((0, 0), (1, true, 1)), ((0, 1), (2, false, 0)), ((0, 2), (1, true, 0)),
  ((1, 0), (0, false, 0)), ((1, 1), (2, true, 1)), ((1, 2), (0, false, 1))]⟩,
  ⟨26474471437, [((0, 0), (1, true, 1)), ((0, 1), (2, false, 0)), ((1, 0), (0, false, 0)), ((1,
  2), (0, true, 1))]⟩,
  ⟨13835868069901, [((0, 0), (1, true, 1)), ((0, 1), (2, false, 0)), ((1, 0), (0, false, 0)),
  ((1, 1), (1, true, 1)), ((1, 2), (1, false, 1))]⟩,
  ⟨7188692938809357, [((0, 0), (1, true, 1)), ((0, 1), (2, false, 0)), ((0, 2), (0, false, 1)),
  ((1, 0), (0, false, 0)), ((1, 1), (0, false, 1)), ((1, 2), (1, true, 0))]⟩,
  ⟨7190067328344077, [((0, 0), (1, true, 1)), ((0, 1), (2, false, 0)), ((0, 2), (0, false, 1)),
  ((1, 0), (0, false, 0)), ((1, 1), (2, true, 1)), ((1, 2), (1, true, 0))]⟩,
  ⟨14035970973709, [((0, 0), (1, true, 1)), ((0, 1), (2, false, 0)), ((0, 2), (0, true, 0)), ((1,
  0), (0, false, 0)), ((1, 2), (1, true, 0))]⟩,
  ⟨14035971235853, [((0, 0), (1, true, 1)), ((0, 1), (2, false, 0)), ((0, 2), (0, true, 1)), ((1,
  0), (0, false, 0)), ((1, 2), (1, true, 0))]⟩,
  ⟨7188692940906509, [((0, 0), (1, true, 1)), ((0, 1), (2, false, 0)), ((0, 2), (1, false, 1)),
  ((1, 0), (0, false, 0)), ((1, 1), (0, false, 1)), ((1, 2), (1, true, 0))]⟩,
  ⟨7188967818813453, [((0, 0), (1, true, 1)), ((0, 1), (2, false, 0)), ((0, 2), (1, false, 1)),
  ((1, 0), (0, false, 0)), ((1, 1), (0, true, 1)), ((1, 2), (1, true, 0))]⟩,
  ⟨14035973070861, [((0, 0), (1, true, 1)), ((0, 1), (2, false, 0)), ((0, 2), (1, true, 0)), ((1,
  0), (0, false, 0)), ((1, 2), (1, true, 0))]⟩,
  ⟨14035973333005, [((0, 0), (1, true, 1)), ((0, 1), (2, false, 0)), ((0, 2), (1, true, 1)), ((1,
  0), (0, false, 0)), ((1, 2), (1, true, 0))]⟩,
  ⟨7188692943003661, [((0, 0), (1, true, 1)), ((0, 1), (2, false, 0)), ((0, 2), (2, false, 1)),
  ((1, 0), (0, false, 0)), ((1, 1), (0, false, 1)), ((1, 2), (1, true, 0))]⟩,
  ⟨27548213261, [((0, 0), (1, true, 1)), ((0, 1), (2, false, 0)), ((1, 0), (0, false, 0)), ((1,
  2), (1, true, 1))]⟩,
  ⟨14585725739021, [((0, 0), (1, true, 1)), ((0, 1), (2, false, 0)), ((0, 2), (0, false, 0)),
  ((1, 0), (0, false, 0)), ((1, 2), (2, true, 0))]⟩,
  ⟨7471542305054733, [((0, 0), (1, true, 1)), ((0, 1), (2, false, 0)), ((0, 2), (0, false, 1)),
  ((1, 0), (0, false, 0)), ((1, 1), (2, true, 1)), ((1, 2), (2, true, 0))]⟩,
  ⟨7470442795524109, [((0, 0), (1, true, 1)), ((0, 1), (2, false, 0)), ((0, 2), (1, false, 1)),
  ((1, 0), (0, false, 0)), ((1, 1), (0, true, 1)), ((1, 2), (2, true, 0))]⟩,
  ⟨14585728884749, [((0, 0), (1, true, 1)), ((0, 1), (2, false, 0)), ((0, 2), (1, true, 0)), ((1,
  0), (0, false, 0)), ((1, 2), (2, true, 0))]⟩,
  ⟨7506108201852941, [((0, 0), (1, true, 1)), ((0, 1), (2, false, 0)), ((0, 2), (0, false, 1)),
  ((1, 0), (0, false, 0)), ((1, 1), (1, true, 0)), ((1, 2), (2, true, 1))]⟩,
  ⟨14654446526477, [((0, 0), (1, true, 1)), ((0, 1), (2, false, 0)), ((0, 2), (0, true, 1)), ((1,
  0), (0, false, 0)), ((1, 2), (2, true, 1))]⟩]

theorem done23_0l0_2l0_0 : ∃ h, Done list23_0l0_2l0_0 h :=
  ⟨[
    ⟨13285978038285, ⟨36, 9, 4, [[0, 1, 2], [0, 1, 2], [2, 2, 2]], [[0, 0, 1], [0, 2, 1], [1, 1,
    3], [1, 3, 3]], [[⟨0, 0, 0⟩, ⟨1, 0, 4⟩], [⟨0, 1, 12⟩, ⟨1, 1, 16⟩], [⟨0, 2, 24⟩, ⟨1, 2, 28⟩,
    ⟨2, 0, 8⟩, ⟨2, 1, 20⟩, ⟨2, 2, 32⟩]], [[⟨0, 0, 0⟩, ⟨0, 1, 12⟩, ⟨1, 0, 1⟩], [⟨0, 2, 24⟩, ⟨1, 2,
    25⟩, ⟨2, 0, 2⟩, ⟨2, 1, 14⟩, ⟨3, 0, 3⟩], [⟨1, 1, 13⟩], [⟨2, 2, 26⟩, ⟨3, 1, 15⟩, ⟨3, 2, 27⟩]]⟩⟩,
    ⟨6803039238250509, ⟨18, 9, 2, [[0, 1, 2], [1, 1, 1], [1, 1, 2]], [[0, 0, 1], [0, 1, 1]],
    [[⟨0, 0, 0⟩], [⟨0, 1, 6⟩, ⟨1, 0, 2⟩, ⟨1, 1, 8⟩, ⟨1, 2, 14⟩, ⟨2, 0, 4⟩, ⟨2, 1, 10⟩], [⟨0, 2,
    12⟩, ⟨2, 2, 16⟩]], [[⟨0, 0, 0⟩, ⟨0, 1, 6⟩, ⟨1, 0, 1⟩], [⟨0, 2, 12⟩, ⟨1, 1, 7⟩, ⟨1, 2, 13⟩]]⟩⟩,
    ⟨26474471437, ⟨27, 9, 3, [[0, 1, 2], [1, 1, 2], [2, 2, 2]], [[0, 1, 2], [2, 1, 1], [0, 1,
    2]], [[⟨0, 0, 0⟩], [⟨0, 1, 9⟩, ⟨1, 0, 3⟩, ⟨1, 1, 12⟩], [⟨0, 2, 18⟩, ⟨1, 2, 21⟩, ⟨2, 0, 6⟩,
    ⟨2, 1, 15⟩, ⟨2, 2, 24⟩]], [[⟨0, 0, 0⟩, ⟨2, 0, 2⟩], [⟨0, 1, 9⟩, ⟨1, 1, 10⟩, ⟨1, 2, 19⟩, ⟨2, 1,
    11⟩], [⟨0, 2, 18⟩, ⟨1, 0, 1⟩, ⟨2, 2, 20⟩]]⟩⟩,
    ⟨13835868069901, ⟨18, 9, 2, [[0, 1, 2], [1, 1, 2], [2, 2, 2]], [[0, 0, 1], [0, 0, 1]], [[⟨0,
    0, 0⟩], [⟨0, 1, 6⟩, ⟨1, 0, 2⟩, ⟨1, 1, 8⟩], [⟨0, 2, 12⟩, ⟨1, 2, 14⟩, ⟨2, 0, 4⟩, ⟨2, 1, 10⟩,
    ⟨2, 2, 16⟩]], [[⟨0, 0, 0⟩, ⟨0, 1, 6⟩, ⟨1, 0, 1⟩, ⟨1, 1, 7⟩], [⟨0, 2, 12⟩, ⟨1, 2, 13⟩]]⟩⟩,
    ⟨7188692938809357, ⟨228, 57, 4, [[0, 1, 2], [3, 4, 5], [6, 7, 8], [9, 10, 2], [6, 7, 5], [7,
    11, 12], [13, 10, 2], [12, 7, 5], [10, 14, 6], [15, 1, 2], [16, 4, 5], [11, 11, 11], [14, 14,
    7], [17, 17, 7], [18, 18, 11], [1, 17, 7], [10, 14, 7], [4, 18, 11], [7, 11, 11]], [[0, 1,
    2], [2, 0, 3], [3, 0, 1], [3, 0, 3]], [[⟨0, 0, 0⟩], [⟨0, 1, 76⟩, ⟨9, 1, 112⟩, ⟨15, 0, 60⟩],
    [⟨0, 2, 152⟩, ⟨3, 2, 164⟩, ⟨6, 2, 176⟩, ⟨9, 2, 188⟩], [⟨1, 0, 4⟩], [⟨1, 1, 80⟩, ⟨10, 1, 116⟩,
    ⟨17, 0, 68⟩], [⟨1, 2, 156⟩, ⟨4, 2, 168⟩, ⟨7, 2, 180⟩, ⟨10, 2, 192⟩], [⟨2, 0, 8⟩, ⟨4, 0, 16⟩,
    ⟨8, 2, 184⟩], [⟨2, 1, 84⟩, ⟨4, 1, 92⟩, ⟨5, 0, 20⟩, ⟨7, 1, 104⟩, ⟨12, 2, 200⟩, ⟨13, 2, 204⟩,
    ⟨15, 2, 212⟩, ⟨16, 2, 216⟩, ⟨18, 0, 72⟩], [⟨2, 2, 160⟩], [⟨3, 0, 12⟩], [⟨3, 1, 88⟩, ⟨6, 1,
    100⟩, ⟨8, 0, 32⟩, ⟨16, 0, 64⟩], [⟨5, 1, 96⟩, ⟨11, 0, 44⟩, ⟨11, 1, 120⟩, ⟨11, 2, 196⟩, ⟨14, 2,
    208⟩, ⟨17, 2, 220⟩, ⟨18, 1, 148⟩, ⟨18, 2, 224⟩], [⟨5, 2, 172⟩, ⟨7, 0, 28⟩], [⟨6, 0, 24⟩],
    [⟨8, 1, 108⟩, ⟨12, 0, 48⟩, ⟨12, 1, 124⟩, ⟨16, 1, 140⟩], [⟨9, 0, 36⟩], [⟨10, 0, 40⟩], [⟨13, 0,
    52⟩, ⟨13, 1, 128⟩, ⟨15, 1, 136⟩], [⟨14, 0, 56⟩, ⟨14, 1, 132⟩, ⟨17, 1, 144⟩]], [[⟨0, 0, 0⟩,
    ⟨1, 1, 77⟩, ⟨2, 1, 78⟩, ⟨3, 1, 79⟩], [⟨0, 1, 76⟩, ⟨2, 2, 154⟩], [⟨0, 2, 152⟩, ⟨1, 0, 1⟩],
    [⟨1, 2, 153⟩, ⟨2, 0, 2⟩, ⟨3, 0, 3⟩, ⟨3, 2, 155⟩]]⟩⟩,
    ⟨7190067328344077, ⟨105, 15, 7, [[0, 1, 1], [2, 3, 4], [2, 2, 2], [2, 4, 2], [2, 2, 2]], [[0,
    1, 2], [3, 1, 4], [3, 5, 1], [6, 5, 1], [3, 1, 4], [3, 1, 1], [6, 5, 4]], [[⟨0, 0, 0⟩], [⟨0,
    1, 35⟩, ⟨0, 2, 70⟩], [⟨1, 0, 7⟩, ⟨2, 0, 14⟩, ⟨2, 1, 49⟩, ⟨2, 2, 84⟩, ⟨3, 0, 21⟩, ⟨3, 2, 91⟩,
    ⟨4, 0, 28⟩, ⟨4, 1, 63⟩, ⟨4, 2, 98⟩], [⟨1, 1, 42⟩], [⟨1, 2, 77⟩, ⟨3, 1, 56⟩]], [[⟨0, 0, 0⟩],
    [⟨0, 1, 35⟩, ⟨1, 1, 36⟩, ⟨2, 2, 72⟩, ⟨3, 2, 73⟩, ⟨4, 1, 39⟩, ⟨5, 1, 40⟩, ⟨5, 2, 75⟩], [⟨0, 2,
    70⟩], [⟨1, 0, 1⟩, ⟨2, 0, 2⟩, ⟨4, 0, 4⟩, ⟨5, 0, 5⟩], [⟨1, 2, 71⟩, ⟨4, 2, 74⟩, ⟨6, 2, 76⟩],
    [⟨2, 1, 37⟩, ⟨3, 1, 38⟩, ⟨6, 1, 41⟩], [⟨3, 0, 3⟩, ⟨6, 0, 6⟩]]⟩⟩,
    ⟨14035970973709, ⟨27, 9, 3, [[0, 1, 2], [1, 1, 0], [2, 2, 2]], [[0, 1, 2], [1, 1, 1], [1, 1,
    2]], [[⟨0, 0, 0⟩, ⟨1, 2, 21⟩], [⟨0, 1, 9⟩, ⟨1, 0, 3⟩, ⟨1, 1, 12⟩], [⟨0, 2, 18⟩, ⟨2, 0, 6⟩,
    ⟨2, 1, 15⟩, ⟨2, 2, 24⟩]], [[⟨0, 0, 0⟩], [⟨0, 1, 9⟩, ⟨1, 0, 1⟩, ⟨1, 1, 10⟩, ⟨1, 2, 19⟩, ⟨2, 0,
    2⟩, ⟨2, 1, 11⟩], [⟨0, 2, 18⟩, ⟨2, 2, 20⟩]]⟩⟩,
    ⟨14035971235853, ⟨30, 6, 5, [[0, 1, 0], [1, 1, 0]], [[0, 1, 2], [3, 3, 4], [2, 1, 2], [3, 3,
    3], [2, 3, 1]], [[⟨0, 0, 0⟩, ⟨0, 2, 20⟩, ⟨1, 2, 25⟩], [⟨0, 1, 10⟩, ⟨1, 0, 5⟩, ⟨1, 1, 15⟩]],
    [[⟨0, 0, 0⟩], [⟨0, 1, 10⟩, ⟨2, 1, 12⟩, ⟨4, 2, 24⟩], [⟨0, 2, 20⟩, ⟨2, 0, 2⟩, ⟨2, 2, 22⟩, ⟨4,
    0, 4⟩], [⟨1, 0, 1⟩, ⟨1, 1, 11⟩, ⟨3, 0, 3⟩, ⟨3, 1, 13⟩, ⟨3, 2, 23⟩, ⟨4, 1, 14⟩], [⟨1, 2,
    21⟩]]⟩⟩,
    ⟨7188692940906509, ⟨156, 39, 4, [[0, 1, 2], [0, 3, 4], [2, 2, 2], [5, 6, 4], [5, 7, 2], [1,
    8, 2], [5, 6, 4], [5, 6, 2], [9, 10, 11], [5, 6, 2], [12, 11, 11], [11, 11, 11], [11, 11,
    2]], [[0, 1, 1], [2, 1, 3], [3, 0, 0], [3, 1, 3]], [[⟨0, 0, 0⟩, ⟨1, 0, 4⟩], [⟨0, 1, 52⟩, ⟨5,
    0, 20⟩], [⟨0, 2, 104⟩, ⟨2, 0, 8⟩, ⟨2, 1, 60⟩, ⟨2, 2, 112⟩, ⟨4, 2, 120⟩, ⟨5, 2, 124⟩, ⟨7, 2,
    132⟩, ⟨9, 2, 140⟩, ⟨12, 2, 152⟩], [⟨1, 1, 56⟩], [⟨1, 2, 108⟩, ⟨3, 2, 116⟩, ⟨6, 2, 128⟩], [⟨3,
    0, 12⟩, ⟨4, 0, 16⟩, ⟨6, 0, 24⟩, ⟨7, 0, 28⟩, ⟨9, 0, 36⟩], [⟨3, 1, 64⟩, ⟨6, 1, 76⟩, ⟨7, 1, 80⟩,
    ⟨9, 1, 88⟩], [⟨4, 1, 68⟩], [⟨5, 1, 72⟩], [⟨8, 0, 32⟩], [⟨8, 1, 84⟩], [⟨8, 2, 136⟩, ⟨10, 1,
    92⟩, ⟨10, 2, 144⟩, ⟨11, 0, 44⟩, ⟨11, 1, 96⟩, ⟨11, 2, 148⟩, ⟨12, 0, 48⟩, ⟨12, 1, 100⟩], [⟨10,
    0, 40⟩]], [[⟨0, 0, 0⟩, ⟨2, 1, 54⟩, ⟨2, 2, 106⟩], [⟨0, 1, 52⟩, ⟨0, 2, 104⟩, ⟨1, 1, 53⟩, ⟨3, 1,
    55⟩], [⟨1, 0, 1⟩], [⟨1, 2, 105⟩, ⟨2, 0, 2⟩, ⟨3, 0, 3⟩, ⟨3, 2, 107⟩]]⟩⟩,
    ⟨7188967818813453, ⟨72, 24, 3, [[0, 1, 2], [3, 3, 4], [5, 1, 2], [3, 3, 3], [6, 6, 1], [3, 3,
    7], [6, 6, 6], [5, 1, 5]], [[0, 0, 1], [2, 2, 1], [1, 2, 0]], [[⟨0, 0, 0⟩], [⟨0, 1, 24⟩, ⟨2,
    1, 30⟩, ⟨4, 2, 60⟩, ⟨7, 1, 45⟩], [⟨0, 2, 48⟩, ⟨2, 2, 54⟩], [⟨1, 0, 3⟩, ⟨1, 1, 27⟩, ⟨3, 0, 9⟩,
    ⟨3, 1, 33⟩, ⟨3, 2, 57⟩, ⟨5, 0, 15⟩, ⟨5, 1, 39⟩], [⟨1, 2, 51⟩], [⟨2, 0, 6⟩, ⟨7, 0, 21⟩, ⟨7, 2,
    69⟩], [⟨4, 0, 12⟩, ⟨4, 1, 36⟩, ⟨6, 0, 18⟩, ⟨6, 1, 42⟩, ⟨6, 2, 66⟩], [⟨5, 2, 63⟩]], [[⟨0, 0,
    0⟩, ⟨0, 1, 24⟩, ⟨2, 2, 50⟩], [⟨0, 2, 48⟩, ⟨1, 2, 49⟩, ⟨2, 0, 2⟩], [⟨1, 0, 1⟩, ⟨1, 1, 25⟩, ⟨2,
    1, 26⟩]]⟩⟩,
    ⟨14035973070861, ⟨24, 6, 4, [[0, 1, 0], [0, 1, 0]], [[0, 1, 2], [3, 1, 2], [2, 1, 2], [3, 3,
    3]], [[⟨0, 0, 0⟩, ⟨0, 2, 16⟩, ⟨1, 0, 4⟩, ⟨1, 2, 20⟩], [⟨0, 1, 8⟩, ⟨1, 1, 12⟩]], [[⟨0, 0, 0⟩],
    [⟨0, 1, 8⟩, ⟨1, 1, 9⟩, ⟨2, 1, 10⟩], [⟨0, 2, 16⟩, ⟨1, 2, 17⟩, ⟨2, 0, 2⟩, ⟨2, 2, 18⟩], [⟨1, 0,
    1⟩, ⟨3, 0, 3⟩, ⟨3, 1, 11⟩, ⟨3, 2, 19⟩]]⟩⟩,
    ⟨14035973333005, ⟨30, 6, 5, [[0, 1, 0], [0, 1, 0]], [[0, 1, 2], [3, 3, 4], [2, 1, 2], [3, 3,
    3], [2, 3, 1]], [[⟨0, 0, 0⟩, ⟨0, 2, 20⟩, ⟨1, 0, 5⟩, ⟨1, 2, 25⟩], [⟨0, 1, 10⟩, ⟨1, 1, 15⟩]],
    [[⟨0, 0, 0⟩], [⟨0, 1, 10⟩, ⟨2, 1, 12⟩, ⟨4, 2, 24⟩], [⟨0, 2, 20⟩, ⟨2, 0, 2⟩, ⟨2, 2, 22⟩, ⟨4,
    0, 4⟩], [⟨1, 0, 1⟩, ⟨1, 1, 11⟩, ⟨3, 0, 3⟩, ⟨3, 1, 13⟩, ⟨3, 2, 23⟩, ⟨4, 1, 14⟩], [⟨1, 2,
    21⟩]]⟩⟩,
    ⟨7188692943003661, ⟨18, 6, 3, [[0, 1, 1], [1, 1, 1]], [[0, 1, 2], [1, 1, 1], [2, 0, 2]],
    [[⟨0, 0, 0⟩], [⟨0, 1, 6⟩, ⟨0, 2, 12⟩, ⟨1, 0, 3⟩, ⟨1, 1, 9⟩, ⟨1, 2, 15⟩]], [[⟨0, 0, 0⟩, ⟨2, 1,
    8⟩], [⟨0, 1, 6⟩, ⟨1, 0, 1⟩, ⟨1, 1, 7⟩, ⟨1, 2, 13⟩], [⟨0, 2, 12⟩, ⟨2, 0, 2⟩, ⟨2, 2, 14⟩]]⟩⟩,
    ⟨27548213261, ⟨27, 9, 3, [[0, 1, 2], [0, 1, 2], [2, 2, 2]], [[0, 1, 2], [2, 1, 1], [0, 1,
    2]], [[⟨0, 0, 0⟩, ⟨1, 0, 3⟩], [⟨0, 1, 9⟩, ⟨1, 1, 12⟩], [⟨0, 2, 18⟩, ⟨1, 2, 21⟩, ⟨2, 0, 6⟩,
    ⟨2, 1, 15⟩, ⟨2, 2, 24⟩]], [[⟨0, 0, 0⟩, ⟨2, 0, 2⟩], [⟨0, 1, 9⟩, ⟨1, 1, 10⟩, ⟨1, 2, 19⟩, ⟨2, 1,
    11⟩], [⟨0, 2, 18⟩, ⟨1, 0, 1⟩, ⟨2, 2, 20⟩]]⟩⟩,
    ⟨14585725739021, ⟨30, 6, 5, [[0, 1, 0], [0, 1, 1]], [[0, 1, 2], [3, 3, 4], [2, 1, 2], [3, 3,
    3], [2, 3, 1]], [[⟨0, 0, 0⟩, ⟨0, 2, 20⟩, ⟨1, 0, 5⟩], [⟨0, 1, 10⟩, ⟨1, 1, 15⟩, ⟨1, 2, 25⟩]],
    [[⟨0, 0, 0⟩], [⟨0, 1, 10⟩, ⟨2, 1, 12⟩, ⟨4, 2, 24⟩], [⟨0, 2, 20⟩, ⟨2, 0, 2⟩, ⟨2, 2, 22⟩, ⟨4,
    0, 4⟩], [⟨1, 0, 1⟩, ⟨1, 1, 11⟩, ⟨3, 0, 3⟩, ⟨3, 1, 13⟩, ⟨3, 2, 23⟩, ⟨4, 1, 14⟩], [⟨1, 2,
    21⟩]]⟩⟩,
    ⟨7471542305054733, ⟨24, 12, 2, [[0, 1, 2], [2, 1, 2], [1, 3, 3], [3, 3, 3]], [[0, 0, 1], [1,
    0, 1]], [[⟨0, 0, 0⟩], [⟨0, 1, 8⟩, ⟨1, 1, 10⟩, ⟨2, 0, 4⟩], [⟨0, 2, 16⟩, ⟨1, 0, 2⟩, ⟨1, 2,
    18⟩], [⟨2, 1, 12⟩, ⟨2, 2, 20⟩, ⟨3, 0, 6⟩, ⟨3, 1, 14⟩, ⟨3, 2, 22⟩]], [[⟨0, 0, 0⟩, ⟨0, 1, 8⟩,
    ⟨1, 1, 9⟩], [⟨0, 2, 16⟩, ⟨1, 0, 1⟩, ⟨1, 2, 17⟩]]⟩⟩,
    ⟨7470442795524109, ⟨45, 9, 5, [[0, 0, 1], [0, 2, 0], [0, 0, 1]], [[0, 1, 2], [3, 1, 2], [4,
    4, 4], [3, 3, 3], [4, 4, 4]], [[⟨0, 0, 0⟩, ⟨0, 1, 15⟩, ⟨1, 0, 5⟩, ⟨1, 2, 35⟩, ⟨2, 0, 10⟩, ⟨2,
    1, 25⟩], [⟨0, 2, 30⟩, ⟨2, 2, 40⟩], [⟨1, 1, 20⟩]], [[⟨0, 0, 0⟩], [⟨0, 1, 15⟩, ⟨1, 1, 16⟩],
    [⟨0, 2, 30⟩, ⟨1, 2, 31⟩], [⟨1, 0, 1⟩, ⟨3, 0, 3⟩, ⟨3, 1, 18⟩, ⟨3, 2, 33⟩], [⟨2, 0, 2⟩, ⟨2, 1,
    17⟩, ⟨2, 2, 32⟩, ⟨4, 0, 4⟩, ⟨4, 1, 19⟩, ⟨4, 2, 34⟩]]⟩⟩,
    ⟨14585728884749, ⟨24, 6, 4, [[0, 1, 0], [0, 1, 1]], [[0, 1, 2], [3, 1, 2], [2, 1, 2], [3, 3,
    3]], [[⟨0, 0, 0⟩, ⟨0, 2, 16⟩, ⟨1, 0, 4⟩], [⟨0, 1, 8⟩, ⟨1, 1, 12⟩, ⟨1, 2, 20⟩]], [[⟨0, 0, 0⟩],
    [⟨0, 1, 8⟩, ⟨1, 1, 9⟩, ⟨2, 1, 10⟩], [⟨0, 2, 16⟩, ⟨1, 2, 17⟩, ⟨2, 0, 2⟩, ⟨2, 2, 18⟩], [⟨1, 0,
    1⟩, ⟨3, 0, 3⟩, ⟨3, 1, 11⟩, ⟨3, 2, 19⟩]]⟩⟩,
    ⟨7506108201852941, ⟨18, 6, 3, [[0, 1, 0], [0, 1, 1]], [[0, 1, 2], [1, 1, 1], [1, 1, 2]],
    [[⟨0, 0, 0⟩, ⟨0, 2, 12⟩, ⟨1, 0, 3⟩], [⟨0, 1, 6⟩, ⟨1, 1, 9⟩, ⟨1, 2, 15⟩]], [[⟨0, 0, 0⟩], [⟨0,
    1, 6⟩, ⟨1, 0, 1⟩, ⟨1, 1, 7⟩, ⟨1, 2, 13⟩, ⟨2, 0, 2⟩, ⟨2, 1, 8⟩], [⟨0, 2, 12⟩, ⟨2, 2, 14⟩]]⟩⟩,
    ⟨14654446526477, ⟨27, 9, 3, [[0, 1, 2], [1, 1, 1], [2, 2, 2]], [[0, 1, 2], [2, 1, 1], [2, 1,
    2]], [[⟨0, 0, 0⟩], [⟨0, 1, 9⟩, ⟨1, 0, 3⟩, ⟨1, 1, 12⟩, ⟨1, 2, 21⟩], [⟨0, 2, 18⟩, ⟨2, 0, 6⟩,
    ⟨2, 1, 15⟩, ⟨2, 2, 24⟩]], [[⟨0, 0, 0⟩], [⟨0, 1, 9⟩, ⟨1, 1, 10⟩, ⟨1, 2, 19⟩, ⟨2, 1, 11⟩], [⟨0,
    2, 18⟩, ⟨1, 0, 1⟩, ⟨2, 0, 2⟩, ⟨2, 2, 20⟩]]⟩⟩],
    by decide +kernel, by decide +kernel⟩

def list23_0l0_2l0_1 : List Listed := [
  ⟨14654448361485, [((0, 0), (1, true, 1)), ((0, 1), (2, false, 0)), ((0, 2), (1, true, 0)), ((1,
  0), (0, false, 0)), ((1, 2), (2, true, 1))]⟩,
  ⟨14654448623629, [((0, 0), (1, true, 1)), ((0, 1), (2, false, 0)), ((0, 2), (1, true, 1)), ((1,
  0), (0, false, 0)), ((1, 2), (2, true, 1))]⟩,
  ⟨14654449410061, [((0, 0), (1, true, 1)), ((0, 1), (2, false, 0)), ((0, 2), (2, false, 0)),
  ((1, 0), (0, false, 0)), ((1, 2), (2, true, 1))]⟩]

theorem done23_0l0_2l0_1 : ∃ h, Done list23_0l0_2l0_1 h :=
  ⟨[
    ⟨14654448361485, ⟨18, 6, 3, [[0, 1, 0], [0, 1, 1]], [[0, 1, 2], [1, 1, 1], [1, 1, 2]], [[⟨0,
    0, 0⟩, ⟨0, 2, 12⟩, ⟨1, 0, 3⟩], [⟨0, 1, 6⟩, ⟨1, 1, 9⟩, ⟨1, 2, 15⟩]], [[⟨0, 0, 0⟩], [⟨0, 1, 6⟩,
    ⟨1, 0, 1⟩, ⟨1, 1, 7⟩, ⟨1, 2, 13⟩, ⟨2, 0, 2⟩, ⟨2, 1, 8⟩], [⟨0, 2, 12⟩, ⟨2, 2, 14⟩]]⟩⟩,
    ⟨14654448623629, ⟨18, 6, 3, [[0, 1, 0], [0, 1, 1]], [[0, 1, 2], [1, 1, 1], [1, 1, 2]], [[⟨0,
    0, 0⟩, ⟨0, 2, 12⟩, ⟨1, 0, 3⟩], [⟨0, 1, 6⟩, ⟨1, 1, 9⟩, ⟨1, 2, 15⟩]], [[⟨0, 0, 0⟩], [⟨0, 1, 6⟩,
    ⟨1, 0, 1⟩, ⟨1, 1, 7⟩, ⟨1, 2, 13⟩, ⟨2, 0, 2⟩, ⟨2, 1, 8⟩], [⟨0, 2, 12⟩, ⟨2, 2, 14⟩]]⟩⟩,
    ⟨14654449410061, ⟨18, 6, 3, [[0, 0, 1], [0, 0, 1]], [[0, 1, 2], [2, 1, 1], [2, 1, 2]], [[⟨0,
    0, 0⟩, ⟨0, 1, 6⟩, ⟨1, 0, 3⟩, ⟨1, 1, 9⟩], [⟨0, 2, 12⟩, ⟨1, 2, 15⟩]], [[⟨0, 0, 0⟩], [⟨0, 1, 6⟩,
    ⟨1, 1, 7⟩, ⟨1, 2, 13⟩, ⟨2, 1, 8⟩], [⟨0, 2, 12⟩, ⟨1, 0, 1⟩, ⟨2, 0, 2⟩, ⟨2, 2, 14⟩]]⟩⟩],
    by decide +kernel, by decide +kernel⟩

theorem child23_0l0_2l0 : AllDone (child (0, false, 0) (2, false, 0)) := by
  refine allDone_of [list23_0l0_2l0_0, list23_0l0_2l0_1] ?_ (by decide +kernel)
  simp only [List.forall_mem_cons, List.not_mem_nil, false_imp_iff, implies_true, and_true]
  exact ⟨done23_0l0_2l0_0, done23_0l0_2l0_1⟩

theorem child23_0l0_2l1 : AllDone (child (0, false, 0) (2, false, 1)) :=
  allDone_of [] (by simp) (by decide +kernel)

theorem child23_0l0_2r0 : AllDone (child (0, false, 0) (2, true, 0)) :=
  allDone_of [] (by simp) (by decide +kernel)

def list23_0l0_2r1_0 : List Listed := [
  ⟨11355912432141, [((0, 0), (1, true, 1)), ((0, 1), (2, true, 1)), ((0, 2), (1, false, 0)), ((1,
  0), (0, false, 0)), ((1, 1), (0, true, 1))]⟩,
  ⟨11905668246029, [((0, 0), (1, true, 1)), ((0, 1), (2, true, 1)), ((0, 2), (1, false, 0)), ((1,
  0), (0, false, 0)), ((1, 1), (1, true, 1))]⟩,
  ⟨12386704583181, [((0, 0), (1, true, 1)), ((0, 1), (2, true, 1)), ((0, 2), (1, false, 0)), ((1,
  0), (0, false, 0)), ((1, 1), (2, true, 0))]⟩,
  ⟨12455424059917, [((0, 0), (1, true, 1)), ((0, 1), (2, true, 1)), ((0, 2), (1, false, 0)), ((1,
  0), (0, false, 0)), ((1, 1), (2, true, 1))]⟩,
  ⟨6802970519824909, [((0, 0), (1, true, 1)), ((0, 1), (2, true, 1)), ((0, 2), (2, false, 0)),
  ((1, 0), (0, false, 0)), ((1, 1), (2, true, 0)), ((1, 2), (0, false, 1))]⟩,
  ⟨13554937784845, [((0, 0), (1, true, 1)), ((0, 1), (2, true, 1)), ((0, 2), (2, false, 0)), ((1,
  0), (0, false, 0)), ((1, 2), (0, true, 1))]⟩,
  ⟨14104693598733, [((0, 0), (1, true, 1)), ((0, 1), (2, true, 1)), ((0, 2), (2, false, 0)), ((1,
  0), (0, false, 0)), ((1, 2), (1, true, 1))]⟩,
  ⟨14654449412621, [((0, 0), (1, true, 1)), ((0, 1), (2, true, 1)), ((0, 2), (2, false, 0)), ((1,
  0), (0, false, 0)), ((1, 2), (2, true, 1))]⟩]

theorem done23_0l0_2r1_0 : ∃ h, Done list23_0l0_2r1_0 h :=
  ⟨[
    ⟨11355912432141, ⟨18, 6, 3, [[0, 1, 1], [1, 1, 1]], [[0, 1, 2], [1, 1, 2], [1, 2, 2]], [[⟨0,
    0, 0⟩], [⟨0, 1, 6⟩, ⟨0, 2, 12⟩, ⟨1, 0, 3⟩, ⟨1, 1, 9⟩, ⟨1, 2, 15⟩]], [[⟨0, 0, 0⟩], [⟨0, 1, 6⟩,
    ⟨1, 0, 1⟩, ⟨1, 1, 7⟩, ⟨2, 0, 2⟩], [⟨0, 2, 12⟩, ⟨1, 2, 13⟩, ⟨2, 1, 8⟩, ⟨2, 2, 14⟩]]⟩⟩,
    ⟨11905668246029, ⟨18, 6, 3, [[0, 1, 1], [0, 1, 1]], [[0, 1, 2], [1, 1, 2], [1, 2, 2]], [[⟨0,
    0, 0⟩, ⟨1, 0, 3⟩], [⟨0, 1, 6⟩, ⟨0, 2, 12⟩, ⟨1, 1, 9⟩, ⟨1, 2, 15⟩]], [[⟨0, 0, 0⟩], [⟨0, 1, 6⟩,
    ⟨1, 0, 1⟩, ⟨1, 1, 7⟩, ⟨2, 0, 2⟩], [⟨0, 2, 12⟩, ⟨1, 2, 13⟩, ⟨2, 1, 8⟩, ⟨2, 2, 14⟩]]⟩⟩,
    ⟨12386704583181, ⟨30, 6, 5, [[0, 0, 1], [0, 1, 1]], [[0, 1, 2], [1, 1, 2], [3, 4, 3], [3, 3,
    3], [1, 2, 3]], [[⟨0, 0, 0⟩, ⟨0, 1, 10⟩, ⟨1, 0, 5⟩], [⟨0, 2, 20⟩, ⟨1, 1, 15⟩, ⟨1, 2, 25⟩]],
    [[⟨0, 0, 0⟩], [⟨0, 1, 10⟩, ⟨1, 0, 1⟩, ⟨1, 1, 11⟩, ⟨4, 0, 4⟩], [⟨0, 2, 20⟩, ⟨1, 2, 21⟩, ⟨4, 1,
    14⟩], [⟨2, 0, 2⟩, ⟨2, 2, 22⟩, ⟨3, 0, 3⟩, ⟨3, 1, 13⟩, ⟨3, 2, 23⟩, ⟨4, 2, 24⟩], [⟨2, 1, 12⟩]]⟩⟩,
    ⟨12455424059917, ⟨18, 6, 3, [[0, 0, 1], [0, 0, 1]], [[0, 1, 2], [1, 1, 2], [1, 2, 2]], [[⟨0,
    0, 0⟩, ⟨0, 1, 6⟩, ⟨1, 0, 3⟩, ⟨1, 1, 9⟩], [⟨0, 2, 12⟩, ⟨1, 2, 15⟩]], [[⟨0, 0, 0⟩], [⟨0, 1, 6⟩,
    ⟨1, 0, 1⟩, ⟨1, 1, 7⟩, ⟨2, 0, 2⟩], [⟨0, 2, 12⟩, ⟨1, 2, 13⟩, ⟨2, 1, 8⟩, ⟨2, 2, 14⟩]]⟩⟩,
    ⟨6802970519824909, ⟨45, 15, 3, [[0, 1, 2], [3, 3, 3], [4, 1, 2], [2, 4, 4], [4, 4, 4]], [[0,
    0, 1], [2, 1, 2], [2, 0, 2]], [[⟨0, 0, 0⟩], [⟨0, 1, 15⟩, ⟨2, 1, 21⟩], [⟨0, 2, 30⟩, ⟨2, 2,
    36⟩, ⟨3, 0, 9⟩], [⟨1, 0, 3⟩, ⟨1, 1, 18⟩, ⟨1, 2, 33⟩], [⟨2, 0, 6⟩, ⟨3, 1, 24⟩, ⟨3, 2, 39⟩, ⟨4,
    0, 12⟩, ⟨4, 1, 27⟩, ⟨4, 2, 42⟩]], [[⟨0, 0, 0⟩, ⟨0, 1, 15⟩, ⟨2, 1, 17⟩], [⟨0, 2, 30⟩, ⟨1, 1,
    16⟩], [⟨1, 0, 1⟩, ⟨1, 2, 31⟩, ⟨2, 0, 2⟩, ⟨2, 2, 32⟩]]⟩⟩,
    ⟨13554937784845, ⟨18, 6, 3, [[0, 1, 1], [1, 1, 1]], [[0, 1, 2], [1, 1, 1], [1, 1, 2]], [[⟨0,
    0, 0⟩], [⟨0, 1, 6⟩, ⟨0, 2, 12⟩, ⟨1, 0, 3⟩, ⟨1, 1, 9⟩, ⟨1, 2, 15⟩]], [[⟨0, 0, 0⟩], [⟨0, 1, 6⟩,
    ⟨1, 0, 1⟩, ⟨1, 1, 7⟩, ⟨1, 2, 13⟩, ⟨2, 0, 2⟩, ⟨2, 1, 8⟩], [⟨0, 2, 12⟩, ⟨2, 2, 14⟩]]⟩⟩,
    ⟨14104693598733, ⟨18, 6, 3, [[0, 1, 1], [0, 1, 1]], [[0, 1, 2], [2, 1, 1], [2, 1, 2]], [[⟨0,
    0, 0⟩, ⟨1, 0, 3⟩], [⟨0, 1, 6⟩, ⟨0, 2, 12⟩, ⟨1, 1, 9⟩, ⟨1, 2, 15⟩]], [[⟨0, 0, 0⟩], [⟨0, 1, 6⟩,
    ⟨1, 1, 7⟩, ⟨1, 2, 13⟩, ⟨2, 1, 8⟩], [⟨0, 2, 12⟩, ⟨1, 0, 1⟩, ⟨2, 0, 2⟩, ⟨2, 2, 14⟩]]⟩⟩,
    ⟨14654449412621, ⟨18, 6, 3, [[0, 0, 1], [0, 0, 1]], [[0, 1, 2], [2, 1, 1], [2, 1, 2]], [[⟨0,
    0, 0⟩, ⟨0, 1, 6⟩, ⟨1, 0, 3⟩, ⟨1, 1, 9⟩], [⟨0, 2, 12⟩, ⟨1, 2, 15⟩]], [[⟨0, 0, 0⟩], [⟨0, 1, 6⟩,
    ⟨1, 1, 7⟩, ⟨1, 2, 13⟩, ⟨2, 1, 8⟩], [⟨0, 2, 12⟩, ⟨1, 0, 1⟩, ⟨2, 0, 2⟩, ⟨2, 2, 14⟩]]⟩⟩],
    by decide +kernel, by decide +kernel⟩

theorem child23_0l0_2r1 : AllDone (child (0, false, 0) (2, true, 1)) := by
  refine allDone_of [list23_0l0_2r1_0] ?_ (by decide +kernel)
  simp only [List.forall_mem_cons, List.not_mem_nil, false_imp_iff, implies_true, and_true]
  exact done23_0l0_2r1_0

theorem part23_0l0 : AllDone (fullPart 2 3 38 (0, false, 0)) := by
  refine allDone_full (by decide +kernel) ?_
  simp only [kids, List.forall_mem_cons, List.not_mem_nil, false_imp_iff, implies_true, and_true]
  exact ⟨child23_0l0_0l0,
    child23_0l0_0l1,
    child23_0l0_0r0,
    child23_0l0_0r1,
    child23_0l0_1l0,
    child23_0l0_1l1,
    child23_0l0_1r0,
    child23_0l0_1r1,
    child23_0l0_2l0,
    child23_0l0_2l1,
    child23_0l0_2r0,
    child23_0l0_2r1⟩

theorem child23_0l1_0l0 : AllDone (child (0, false, 1) (0, false, 0)) :=
  allDone_of [] (by simp) (by decide +kernel)

theorem child23_0l1_0l1 : AllDone (child (0, false, 1) (0, false, 1)) :=
  allDone_of [] (by simp) (by decide +kernel)

theorem child23_0l1_0r0 : AllDone (child (0, false, 1) (0, true, 0)) :=
  allDone_of [] (by simp) (by decide +kernel)

theorem child23_0l1_0r1 : AllDone (child (0, false, 1) (0, true, 1)) :=
  allDone_of [] (by simp) (by decide +kernel)

def list23_0l1_1l0_0 : List Listed := [
  ⟨6907699132653581, [((0, 0), (1, true, 1)), ((0, 1), (2, false, 0)), ((0, 2), (0, false, 1)),
  ((1, 0), (0, false, 1)), ((1, 1), (1, false, 0)), ((1, 2), (0, true, 0))]⟩,
  ⟨6907699133440013, [((0, 0), (1, true, 1)), ((0, 1), (2, false, 0)), ((0, 2), (0, true, 0)),
  ((1, 0), (0, false, 1)), ((1, 1), (1, false, 0)), ((1, 2), (0, true, 0))]⟩,
  ⟨6907699133702157, [((0, 0), (1, true, 1)), ((0, 1), (2, false, 0)), ((0, 2), (0, true, 1)),
  ((1, 0), (0, false, 1)), ((1, 1), (1, false, 0)), ((1, 2), (0, true, 0))]⟩,
  ⟨6907699134750733, [((0, 0), (1, true, 1)), ((0, 1), (2, false, 0)), ((0, 2), (1, false, 1)),
  ((1, 0), (0, false, 1)), ((1, 1), (1, false, 0)), ((1, 2), (0, true, 0))]⟩,
  ⟨6907699136847885, [((0, 0), (1, true, 1)), ((0, 1), (2, false, 0)), ((0, 2), (2, false, 1)),
  ((1, 0), (0, false, 1)), ((1, 1), (1, false, 0)), ((1, 2), (0, true, 0))]⟩,
  ⟨13560319336461, [((0, 0), (1, true, 1)), ((0, 1), (2, false, 0)), ((1, 0), (0, false, 1)),
  ((1, 1), (1, false, 0)), ((1, 2), (0, true, 1))]⟩,
  ⟨7189174110150669, [((0, 0), (1, true, 1)), ((0, 1), (2, false, 0)), ((0, 2), (0, true, 0)),
  ((1, 0), (0, false, 1)), ((1, 1), (1, false, 0)), ((1, 2), (1, true, 0))]⟩,
  ⟨14110075150349, [((0, 0), (1, true, 1)), ((0, 1), (2, false, 0)), ((1, 0), (0, false, 1)),
  ((1, 1), (1, false, 0)), ((1, 2), (1, true, 1))]⟩,
  ⟨7470649085812749, [((0, 0), (1, true, 1)), ((0, 1), (2, false, 0)), ((0, 2), (0, false, 0)),
  ((1, 0), (0, false, 1)), ((1, 1), (1, false, 0)), ((1, 2), (2, true, 0))]⟩,
  ⟨7470649086861325, [((0, 0), (1, true, 1)), ((0, 1), (2, false, 0)), ((0, 2), (0, true, 0)),
  ((1, 0), (0, false, 1)), ((1, 1), (1, false, 0)), ((1, 2), (2, true, 0))]⟩,
  ⟨11562202982413, [((0, 0), (1, true, 1)), ((0, 1), (2, true, 0)), ((0, 2), (0, false, 0)), ((1,
  0), (0, false, 1)), ((1, 1), (1, false, 0))]⟩,
  ⟨6766961644300301, [((0, 0), (1, true, 1)), ((0, 1), (2, true, 0)), ((0, 2), (0, false, 1)),
  ((1, 0), (0, false, 1)), ((1, 1), (1, false, 0)), ((1, 2), (0, false, 0))]⟩,
  ⟨6907699132655629, [((0, 0), (1, true, 1)), ((0, 1), (2, true, 0)), ((0, 2), (0, false, 1)),
  ((1, 0), (0, false, 1)), ((1, 1), (1, false, 0)), ((1, 2), (0, true, 0))]⟩,
  ⟨7048436621010957, [((0, 0), (1, true, 1)), ((0, 1), (2, true, 0)), ((0, 2), (0, false, 1)),
  ((1, 0), (0, false, 1)), ((1, 1), (1, false, 0)), ((1, 2), (1, false, 0))]⟩,
  ⟨7189174109366285, [((0, 0), (1, true, 1)), ((0, 1), (2, true, 0)), ((0, 2), (0, false, 1)),
  ((1, 0), (0, false, 1)), ((1, 1), (1, false, 0)), ((1, 2), (1, true, 0))]⟩,
  ⟨7224358481455117, [((0, 0), (1, true, 1)), ((0, 1), (2, true, 0)), ((0, 2), (0, false, 1)),
  ((1, 0), (0, false, 1)), ((1, 1), (1, false, 0)), ((1, 2), (1, true, 1))]⟩,
  ⟨7470649086076941, [((0, 0), (1, true, 1)), ((0, 1), (2, true, 0)), ((0, 2), (0, false, 1)),
  ((1, 0), (0, false, 1)), ((1, 1), (1, false, 0)), ((1, 2), (2, true, 0))]⟩,
  ⟨11562205079565, [((0, 0), (1, true, 1)), ((0, 1), (2, true, 0)), ((0, 2), (1, false, 0)), ((1,
  0), (0, false, 1)), ((1, 1), (1, false, 0))]⟩,
  ⟨6907699134752781, [((0, 0), (1, true, 1)), ((0, 1), (2, true, 0)), ((0, 2), (1, false, 1)),
  ((1, 0), (0, false, 1)), ((1, 1), (1, false, 0)), ((1, 2), (0, true, 0))]⟩,
  ⟨6942883506841613, [((0, 0), (1, true, 1)), ((0, 1), (2, true, 0)), ((0, 2), (1, false, 1)),
  ((1, 0), (0, false, 1)), ((1, 1), (1, false, 0)), ((1, 2), (0, true, 1))]⟩]

theorem done23_0l1_1l0_0 : ∃ h, Done list23_0l1_1l0_0 h :=
  ⟨[
    ⟨6907699132653581, ⟨24, 12, 2, [[0, 1, 2], [3, 1, 3], [2, 2, 2], [3, 3, 3]], [[0, 1, 0], [0,
    1, 1]], [[⟨0, 0, 0⟩], [⟨0, 1, 8⟩, ⟨1, 1, 10⟩], [⟨0, 2, 16⟩, ⟨2, 0, 4⟩, ⟨2, 1, 12⟩, ⟨2, 2,
    20⟩], [⟨1, 0, 2⟩, ⟨1, 2, 18⟩, ⟨3, 0, 6⟩, ⟨3, 1, 14⟩, ⟨3, 2, 22⟩]], [[⟨0, 0, 0⟩, ⟨0, 2, 16⟩,
    ⟨1, 0, 1⟩], [⟨0, 1, 8⟩, ⟨1, 1, 9⟩, ⟨1, 2, 17⟩]]⟩⟩,
    ⟨6907699133440013, ⟨24, 12, 2, [[0, 1, 2], [1, 3, 3], [2, 2, 2], [3, 3, 3]], [[0, 0, 1], [0,
    0, 1]], [[⟨0, 0, 0⟩], [⟨0, 1, 8⟩, ⟨1, 0, 2⟩], [⟨0, 2, 16⟩, ⟨2, 0, 4⟩, ⟨2, 1, 12⟩, ⟨2, 2,
    20⟩], [⟨1, 1, 10⟩, ⟨1, 2, 18⟩, ⟨3, 0, 6⟩, ⟨3, 1, 14⟩, ⟨3, 2, 22⟩]], [[⟨0, 0, 0⟩, ⟨0, 1, 8⟩,
    ⟨1, 0, 1⟩, ⟨1, 1, 9⟩], [⟨0, 2, 16⟩, ⟨1, 2, 17⟩]]⟩⟩,
    ⟨6907699133702157, ⟨24, 12, 2, [[0, 1, 2], [3, 1, 3], [2, 2, 2], [3, 3, 3]], [[0, 1, 0], [1,
    1, 1]], [[⟨0, 0, 0⟩], [⟨0, 1, 8⟩, ⟨1, 1, 10⟩], [⟨0, 2, 16⟩, ⟨2, 0, 4⟩, ⟨2, 1, 12⟩, ⟨2, 2,
    20⟩], [⟨1, 0, 2⟩, ⟨1, 2, 18⟩, ⟨3, 0, 6⟩, ⟨3, 1, 14⟩, ⟨3, 2, 22⟩]], [[⟨0, 0, 0⟩, ⟨0, 2, 16⟩],
    [⟨0, 1, 8⟩, ⟨1, 0, 1⟩, ⟨1, 1, 9⟩, ⟨1, 2, 17⟩]]⟩⟩,
    ⟨6907699134750733, ⟨24, 12, 2, [[0, 1, 2], [3, 1, 3], [2, 2, 2], [3, 3, 3]], [[0, 1, 0], [0,
    1, 1]], [[⟨0, 0, 0⟩], [⟨0, 1, 8⟩, ⟨1, 1, 10⟩], [⟨0, 2, 16⟩, ⟨2, 0, 4⟩, ⟨2, 1, 12⟩, ⟨2, 2,
    20⟩], [⟨1, 0, 2⟩, ⟨1, 2, 18⟩, ⟨3, 0, 6⟩, ⟨3, 1, 14⟩, ⟨3, 2, 22⟩]], [[⟨0, 0, 0⟩, ⟨0, 2, 16⟩,
    ⟨1, 0, 1⟩], [⟨0, 1, 8⟩, ⟨1, 1, 9⟩, ⟨1, 2, 17⟩]]⟩⟩,
    ⟨6907699136847885, ⟨24, 12, 2, [[0, 1, 2], [1, 3, 3], [2, 2, 2], [3, 3, 3]], [[0, 0, 1], [1,
    1, 1]], [[⟨0, 0, 0⟩], [⟨0, 1, 8⟩, ⟨1, 0, 2⟩], [⟨0, 2, 16⟩, ⟨2, 0, 4⟩, ⟨2, 1, 12⟩, ⟨2, 2,
    20⟩], [⟨1, 1, 10⟩, ⟨1, 2, 18⟩, ⟨3, 0, 6⟩, ⟨3, 1, 14⟩, ⟨3, 2, 22⟩]], [[⟨0, 0, 0⟩, ⟨0, 1, 8⟩],
    [⟨0, 2, 16⟩, ⟨1, 0, 1⟩, ⟨1, 1, 9⟩, ⟨1, 2, 17⟩]]⟩⟩,
    ⟨13560319336461, ⟨12, 6, 2, [[0, 0, 1], [1, 1, 1]], [[0, 1, 0], [0, 1, 1]], [[⟨0, 0, 0⟩, ⟨0,
    1, 4⟩], [⟨0, 2, 8⟩, ⟨1, 0, 2⟩, ⟨1, 1, 6⟩, ⟨1, 2, 10⟩]], [[⟨0, 0, 0⟩, ⟨0, 2, 8⟩, ⟨1, 0, 1⟩],
    [⟨0, 1, 4⟩, ⟨1, 1, 5⟩, ⟨1, 2, 9⟩]]⟩⟩,
    ⟨7189174110150669, ⟨24, 12, 2, [[0, 1, 2], [1, 3, 3], [2, 2, 2], [3, 3, 3]], [[0, 0, 1], [0,
    0, 1]], [[⟨0, 0, 0⟩], [⟨0, 1, 8⟩, ⟨1, 0, 2⟩], [⟨0, 2, 16⟩, ⟨2, 0, 4⟩, ⟨2, 1, 12⟩, ⟨2, 2,
    20⟩], [⟨1, 1, 10⟩, ⟨1, 2, 18⟩, ⟨3, 0, 6⟩, ⟨3, 1, 14⟩, ⟨3, 2, 22⟩]], [[⟨0, 0, 0⟩, ⟨0, 1, 8⟩,
    ⟨1, 0, 1⟩, ⟨1, 1, 9⟩], [⟨0, 2, 16⟩, ⟨1, 2, 17⟩]]⟩⟩,
    ⟨14110075150349, ⟨12, 6, 2, [[0, 0, 1], [1, 1, 1]], [[0, 1, 0], [0, 1, 1]], [[⟨0, 0, 0⟩, ⟨0,
    1, 4⟩], [⟨0, 2, 8⟩, ⟨1, 0, 2⟩, ⟨1, 1, 6⟩, ⟨1, 2, 10⟩]], [[⟨0, 0, 0⟩, ⟨0, 2, 8⟩, ⟨1, 0, 1⟩],
    [⟨0, 1, 4⟩, ⟨1, 1, 5⟩, ⟨1, 2, 9⟩]]⟩⟩,
    ⟨7470649085812749, ⟨12, 6, 2, [[0, 1, 0], [0, 1, 1]], [[0, 1, 1], [1, 1, 1]], [[⟨0, 0, 0⟩,
    ⟨0, 2, 8⟩, ⟨1, 0, 2⟩], [⟨0, 1, 4⟩, ⟨1, 1, 6⟩, ⟨1, 2, 10⟩]], [[⟨0, 0, 0⟩], [⟨0, 1, 4⟩, ⟨0, 2,
    8⟩, ⟨1, 0, 1⟩, ⟨1, 1, 5⟩, ⟨1, 2, 9⟩]]⟩⟩,
    ⟨7470649086861325, ⟨24, 12, 2, [[0, 1, 2], [1, 3, 3], [2, 2, 2], [3, 3, 3]], [[0, 0, 1], [0,
    0, 1]], [[⟨0, 0, 0⟩], [⟨0, 1, 8⟩, ⟨1, 0, 2⟩], [⟨0, 2, 16⟩, ⟨2, 0, 4⟩, ⟨2, 1, 12⟩, ⟨2, 2,
    20⟩], [⟨1, 1, 10⟩, ⟨1, 2, 18⟩, ⟨3, 0, 6⟩, ⟨3, 1, 14⟩, ⟨3, 2, 22⟩]], [[⟨0, 0, 0⟩, ⟨0, 1, 8⟩,
    ⟨1, 0, 1⟩, ⟨1, 1, 9⟩], [⟨0, 2, 16⟩, ⟨1, 2, 17⟩]]⟩⟩,
    ⟨11562202982413, ⟨27, 9, 3, [[0, 1, 2], [1, 1, 2], [2, 1, 2]], [[0, 1, 2], [1, 1, 2], [2, 2,
    2]], [[⟨0, 0, 0⟩], [⟨0, 1, 9⟩, ⟨1, 0, 3⟩, ⟨1, 1, 12⟩, ⟨2, 1, 15⟩], [⟨0, 2, 18⟩, ⟨1, 2, 21⟩,
    ⟨2, 0, 6⟩, ⟨2, 2, 24⟩]], [[⟨0, 0, 0⟩], [⟨0, 1, 9⟩, ⟨1, 0, 1⟩, ⟨1, 1, 10⟩], [⟨0, 2, 18⟩, ⟨1,
    2, 19⟩, ⟨2, 0, 2⟩, ⟨2, 1, 11⟩, ⟨2, 2, 20⟩]]⟩⟩,
    ⟨6766961644300301, ⟨108, 27, 4, [[0, 1, 2], [3, 3, 4], [2, 5, 4], [1, 4, 6], [4, 1, 2], [7,
    7, 2], [6, 6, 6], [5, 2, 8], [8, 8, 8]], [[0, 1, 2], [3, 2, 2], [2, 2, 2], [3, 1, 2]], [[⟨0,
    0, 0⟩], [⟨0, 1, 36⟩, ⟨3, 0, 12⟩, ⟨4, 1, 52⟩], [⟨0, 2, 72⟩, ⟨2, 0, 8⟩, ⟨4, 2, 88⟩, ⟨5, 2, 92⟩,
    ⟨7, 1, 64⟩], [⟨1, 0, 4⟩, ⟨1, 1, 40⟩], [⟨1, 2, 76⟩, ⟨2, 2, 80⟩, ⟨3, 1, 48⟩, ⟨4, 0, 16⟩], [⟨2,
    1, 44⟩, ⟨7, 0, 28⟩], [⟨3, 2, 84⟩, ⟨6, 0, 24⟩, ⟨6, 1, 60⟩, ⟨6, 2, 96⟩], [⟨5, 0, 20⟩, ⟨5, 1,
    56⟩], [⟨7, 2, 100⟩, ⟨8, 0, 32⟩, ⟨8, 1, 68⟩, ⟨8, 2, 104⟩]], [[⟨0, 0, 0⟩], [⟨0, 1, 36⟩, ⟨3, 1,
    39⟩], [⟨0, 2, 72⟩, ⟨1, 1, 37⟩, ⟨1, 2, 73⟩, ⟨2, 0, 2⟩, ⟨2, 1, 38⟩, ⟨2, 2, 74⟩, ⟨3, 2, 75⟩],
    [⟨1, 0, 1⟩, ⟨3, 0, 3⟩]]⟩⟩,
    ⟨6907699132655629, ⟨84, 12, 7, [[0, 0, 1], [0, 0, 2], [0, 3, 2], [0, 0, 1]], [[0, 1, 2], [3,
    4, 5], [2, 2, 2], [0, 4, 6], [3, 4, 1], [2, 4, 2], [3, 2, 5]], [[⟨0, 0, 0⟩, ⟨0, 1, 28⟩, ⟨1,
    0, 7⟩, ⟨1, 1, 35⟩, ⟨2, 0, 14⟩, ⟨3, 0, 21⟩, ⟨3, 1, 49⟩], [⟨0, 2, 56⟩, ⟨3, 2, 77⟩], [⟨1, 2,
    63⟩, ⟨2, 2, 70⟩], [⟨2, 1, 42⟩]], [[⟨0, 0, 0⟩, ⟨3, 0, 3⟩], [⟨0, 1, 28⟩, ⟨4, 2, 60⟩], [⟨0, 2,
    56⟩, ⟨2, 0, 2⟩, ⟨2, 1, 30⟩, ⟨2, 2, 58⟩, ⟨5, 0, 5⟩, ⟨5, 2, 61⟩, ⟨6, 1, 34⟩], [⟨1, 0, 1⟩, ⟨4,
    0, 4⟩, ⟨6, 0, 6⟩], [⟨1, 1, 29⟩, ⟨3, 1, 31⟩, ⟨4, 1, 32⟩, ⟨5, 1, 33⟩], [⟨1, 2, 57⟩, ⟨6, 2,
    62⟩], [⟨3, 2, 59⟩]]⟩⟩,
    ⟨7048436621010957, ⟨45, 15, 3, [[0, 1, 2], [1, 1, 1], [2, 3, 4], [3, 3, 3], [4, 1, 2]], [[0,
    1, 1], [0, 2, 2], [2, 2, 2]], [[⟨0, 0, 0⟩], [⟨0, 1, 15⟩, ⟨1, 0, 3⟩, ⟨1, 1, 18⟩, ⟨1, 2, 33⟩,
    ⟨4, 1, 27⟩], [⟨0, 2, 30⟩, ⟨2, 0, 6⟩, ⟨4, 2, 42⟩], [⟨2, 1, 21⟩, ⟨3, 0, 9⟩, ⟨3, 1, 24⟩, ⟨3, 2,
    39⟩], [⟨2, 2, 36⟩, ⟨4, 0, 12⟩]], [[⟨0, 0, 0⟩, ⟨1, 0, 1⟩], [⟨0, 1, 15⟩, ⟨0, 2, 30⟩], [⟨1, 1,
    16⟩, ⟨1, 2, 31⟩, ⟨2, 0, 2⟩, ⟨2, 1, 17⟩, ⟨2, 2, 32⟩]]⟩⟩,
    ⟨7189174109366285, ⟨24, 12, 2, [[0, 1, 2], [1, 1, 1], [1, 3, 1], [3, 1, 2]], [[0, 1, 1], [0,
    1, 1]], [[⟨0, 0, 0⟩], [⟨0, 1, 8⟩, ⟨1, 0, 2⟩, ⟨1, 1, 10⟩, ⟨1, 2, 18⟩, ⟨2, 0, 4⟩, ⟨2, 2, 20⟩,
    ⟨3, 1, 14⟩], [⟨0, 2, 16⟩, ⟨3, 2, 22⟩], [⟨2, 1, 12⟩, ⟨3, 0, 6⟩]], [[⟨0, 0, 0⟩, ⟨1, 0, 1⟩],
    [⟨0, 1, 8⟩, ⟨0, 2, 16⟩, ⟨1, 1, 9⟩, ⟨1, 2, 17⟩]]⟩⟩,
    ⟨7224358481455117, ⟨45, 15, 3, [[0, 1, 2], [1, 1, 1], [2, 3, 4], [3, 3, 3], [4, 1, 2]], [[0,
    1, 1], [0, 2, 1], [2, 2, 2]], [[⟨0, 0, 0⟩], [⟨0, 1, 15⟩, ⟨1, 0, 3⟩, ⟨1, 1, 18⟩, ⟨1, 2, 33⟩,
    ⟨4, 1, 27⟩], [⟨0, 2, 30⟩, ⟨2, 0, 6⟩, ⟨4, 2, 42⟩], [⟨2, 1, 21⟩, ⟨3, 0, 9⟩, ⟨3, 1, 24⟩, ⟨3, 2,
    39⟩], [⟨2, 2, 36⟩, ⟨4, 0, 12⟩]], [[⟨0, 0, 0⟩, ⟨1, 0, 1⟩], [⟨0, 1, 15⟩, ⟨0, 2, 30⟩, ⟨1, 2,
    31⟩], [⟨1, 1, 16⟩, ⟨2, 0, 2⟩, ⟨2, 1, 17⟩, ⟨2, 2, 32⟩]]⟩⟩,
    ⟨7470649086076941, ⟨36, 9, 4, [[0, 0, 1], [0, 0, 2], [0, 2, 2]], [[0, 1, 0], [2, 1, 1], [0,
    1, 3], [2, 1, 2]], [[⟨0, 0, 0⟩, ⟨0, 1, 12⟩, ⟨1, 0, 4⟩, ⟨1, 1, 16⟩, ⟨2, 0, 8⟩], [⟨0, 2, 24⟩],
    [⟨1, 2, 28⟩, ⟨2, 1, 20⟩, ⟨2, 2, 32⟩]], [[⟨0, 0, 0⟩, ⟨0, 2, 24⟩, ⟨2, 0, 2⟩], [⟨0, 1, 12⟩, ⟨1,
    1, 13⟩, ⟨1, 2, 25⟩, ⟨2, 1, 14⟩, ⟨3, 1, 15⟩], [⟨1, 0, 1⟩, ⟨3, 0, 3⟩, ⟨3, 2, 27⟩], [⟨2, 2,
    26⟩]]⟩⟩,
    ⟨11562205079565, ⟨36, 9, 4, [[0, 0, 1], [0, 2, 1], [0, 0, 0]], [[0, 1, 2], [0, 1, 2], [3, 1,
    2], [3, 3, 3]], [[⟨0, 0, 0⟩, ⟨0, 1, 12⟩, ⟨1, 0, 4⟩, ⟨2, 0, 8⟩, ⟨2, 1, 20⟩, ⟨2, 2, 32⟩], [⟨0,
    2, 24⟩, ⟨1, 2, 28⟩], [⟨1, 1, 16⟩]], [[⟨0, 0, 0⟩, ⟨1, 0, 1⟩], [⟨0, 1, 12⟩, ⟨1, 1, 13⟩, ⟨2, 1,
    14⟩], [⟨0, 2, 24⟩, ⟨1, 2, 25⟩, ⟨2, 2, 26⟩], [⟨2, 0, 2⟩, ⟨3, 0, 3⟩, ⟨3, 1, 15⟩, ⟨3, 2, 27⟩]]⟩⟩,
    ⟨6907699134752781, ⟨144, 12, 12, [[0, 0, 1], [0, 0, 2], [0, 3, 0], [0, 0, 0]], [[0, 1, 2],
    [2, 3, 4], [2, 2, 2], [0, 5, 6], [2, 7, 4], [2, 1, 2], [8, 2, 2], [0, 9, 10], [0, 11, 10],
    [0, 4, 6], [8, 7, 4], [8, 11, 10]], [[⟨0, 0, 0⟩, ⟨0, 1, 48⟩, ⟨1, 0, 12⟩, ⟨1, 1, 60⟩, ⟨2, 0,
    24⟩, ⟨2, 2, 120⟩, ⟨3, 0, 36⟩, ⟨3, 1, 84⟩, ⟨3, 2, 132⟩], [⟨0, 2, 96⟩], [⟨1, 2, 108⟩], [⟨2, 1,
    72⟩]], [[⟨0, 0, 0⟩, ⟨3, 0, 3⟩, ⟨7, 0, 7⟩, ⟨8, 0, 8⟩, ⟨9, 0, 9⟩], [⟨0, 1, 48⟩, ⟨5, 1, 53⟩],
    [⟨0, 2, 96⟩, ⟨1, 0, 1⟩, ⟨2, 0, 2⟩, ⟨2, 1, 50⟩, ⟨2, 2, 98⟩, ⟨4, 0, 4⟩, ⟨5, 0, 5⟩, ⟨5, 2, 101⟩,
    ⟨6, 1, 54⟩, ⟨6, 2, 102⟩], [⟨1, 1, 49⟩], [⟨1, 2, 97⟩, ⟨4, 2, 100⟩, ⟨9, 1, 57⟩, ⟨10, 2, 106⟩],
    [⟨3, 1, 51⟩], [⟨3, 2, 99⟩, ⟨9, 2, 105⟩], [⟨4, 1, 52⟩, ⟨10, 1, 58⟩], [⟨6, 0, 6⟩, ⟨10, 0, 10⟩,
    ⟨11, 0, 11⟩], [⟨7, 1, 55⟩], [⟨7, 2, 103⟩, ⟨8, 2, 104⟩, ⟨11, 2, 107⟩], [⟨8, 1, 56⟩, ⟨11, 1,
    59⟩]]⟩⟩,
    ⟨6942883506841613, ⟨24, 12, 2, [[0, 1, 2], [1, 1, 1], [0, 0, 3], [0, 1, 3]], [[0, 1, 0], [0,
    1, 0]], [[⟨0, 0, 0⟩, ⟨2, 0, 4⟩, ⟨2, 1, 12⟩, ⟨3, 0, 6⟩], [⟨0, 1, 8⟩, ⟨1, 0, 2⟩, ⟨1, 1, 10⟩,
    ⟨1, 2, 18⟩, ⟨3, 1, 14⟩], [⟨0, 2, 16⟩], [⟨2, 2, 20⟩, ⟨3, 2, 22⟩]], [[⟨0, 0, 0⟩, ⟨0, 2, 16⟩,
    ⟨1, 0, 1⟩, ⟨1, 2, 17⟩], [⟨0, 1, 8⟩, ⟨1, 1, 9⟩]]⟩⟩],
    by decide +kernel, by decide +kernel⟩

def list23_0l1_1l0_1 : List Listed := [
  ⟨7048436623108109, [((0, 0), (1, true, 1)), ((0, 1), (2, true, 0)), ((0, 2), (1, false, 1)),
  ((1, 0), (0, false, 1)), ((1, 1), (1, false, 0)), ((1, 2), (1, false, 0))]⟩,
  ⟨7189174111463437, [((0, 0), (1, true, 1)), ((0, 1), (2, true, 0)), ((0, 2), (1, false, 1)),
  ((1, 0), (0, false, 1)), ((1, 1), (1, false, 0)), ((1, 2), (1, true, 0))]⟩,
  ⟨7224358483552269, [((0, 0), (1, true, 1)), ((0, 1), (2, true, 0)), ((0, 2), (1, false, 1)),
  ((1, 0), (0, false, 1)), ((1, 1), (1, false, 0)), ((1, 2), (1, true, 1))]⟩,
  ⟨7470649088174093, [((0, 0), (1, true, 1)), ((0, 1), (2, true, 0)), ((0, 2), (1, false, 1)),
  ((1, 0), (0, false, 1)), ((1, 1), (1, false, 0)), ((1, 2), (2, true, 0))]⟩,
  ⟨6942883508676621, [((0, 0), (1, true, 1)), ((0, 1), (2, true, 0)), ((0, 2), (2, false, 0)),
  ((1, 0), (0, false, 1)), ((1, 1), (1, false, 0)), ((1, 2), (0, true, 1))]⟩,
  ⟨6942883508938765, [((0, 0), (1, true, 1)), ((0, 1), (2, true, 0)), ((0, 2), (2, false, 1)),
  ((1, 0), (0, false, 1)), ((1, 1), (1, false, 0)), ((1, 2), (0, true, 1))]⟩,
  ⟨7224358485649421, [((0, 0), (1, true, 1)), ((0, 1), (2, true, 0)), ((0, 2), (2, false, 1)),
  ((1, 0), (0, false, 1)), ((1, 1), (1, false, 0)), ((1, 2), (1, true, 1))]⟩,
  ⟨6942883508677133, [((0, 0), (1, true, 1)), ((0, 1), (2, true, 1)), ((0, 2), (2, false, 0)),
  ((1, 0), (0, false, 1)), ((1, 1), (1, false, 0)), ((1, 2), (0, true, 1))]⟩]

theorem done23_0l1_1l0_1 : ∃ h, Done list23_0l1_1l0_1 h :=
  ⟨[
    ⟨7048436623108109, ⟨60, 12, 5, [[0, 0, 1], [2, 2, 3], [2, 2, 2], [2, 1, 1]], [[0, 1, 2], [2,
    3, 4], [2, 2, 2], [2, 1, 2], [2, 3, 4]], [[⟨0, 0, 0⟩, ⟨0, 1, 20⟩], [⟨0, 2, 40⟩, ⟨3, 1, 35⟩,
    ⟨3, 2, 55⟩], [⟨1, 0, 5⟩, ⟨1, 1, 25⟩, ⟨2, 0, 10⟩, ⟨2, 1, 30⟩, ⟨2, 2, 50⟩, ⟨3, 0, 15⟩], [⟨1, 2,
    45⟩]], [[⟨0, 0, 0⟩], [⟨0, 1, 20⟩, ⟨3, 1, 23⟩], [⟨0, 2, 40⟩, ⟨1, 0, 1⟩, ⟨2, 0, 2⟩, ⟨2, 1, 22⟩,
    ⟨2, 2, 42⟩, ⟨3, 0, 3⟩, ⟨3, 2, 43⟩, ⟨4, 0, 4⟩], [⟨1, 1, 21⟩, ⟨4, 1, 24⟩], [⟨1, 2, 41⟩, ⟨4, 2,
    44⟩]]⟩⟩,
    ⟨7189174111463437, ⟨144, 12, 12, [[0, 0, 1], [0, 0, 2], [0, 3, 0], [0, 0, 0]], [[0, 1, 2],
    [2, 3, 4], [2, 2, 2], [0, 5, 6], [2, 7, 4], [2, 1, 2], [8, 2, 2], [0, 9, 10], [0, 11, 10],
    [0, 4, 6], [8, 7, 4], [8, 11, 10]], [[⟨0, 0, 0⟩, ⟨0, 1, 48⟩, ⟨1, 0, 12⟩, ⟨1, 1, 60⟩, ⟨2, 0,
    24⟩, ⟨2, 2, 120⟩, ⟨3, 0, 36⟩, ⟨3, 1, 84⟩, ⟨3, 2, 132⟩], [⟨0, 2, 96⟩], [⟨1, 2, 108⟩], [⟨2, 1,
    72⟩]], [[⟨0, 0, 0⟩, ⟨3, 0, 3⟩, ⟨7, 0, 7⟩, ⟨8, 0, 8⟩, ⟨9, 0, 9⟩], [⟨0, 1, 48⟩, ⟨5, 1, 53⟩],
    [⟨0, 2, 96⟩, ⟨1, 0, 1⟩, ⟨2, 0, 2⟩, ⟨2, 1, 50⟩, ⟨2, 2, 98⟩, ⟨4, 0, 4⟩, ⟨5, 0, 5⟩, ⟨5, 2, 101⟩,
    ⟨6, 1, 54⟩, ⟨6, 2, 102⟩], [⟨1, 1, 49⟩], [⟨1, 2, 97⟩, ⟨4, 2, 100⟩, ⟨9, 1, 57⟩, ⟨10, 2, 106⟩],
    [⟨3, 1, 51⟩], [⟨3, 2, 99⟩, ⟨9, 2, 105⟩], [⟨4, 1, 52⟩, ⟨10, 1, 58⟩], [⟨6, 0, 6⟩, ⟨10, 0, 10⟩,
    ⟨11, 0, 11⟩], [⟨7, 1, 55⟩], [⟨7, 2, 103⟩, ⟨8, 2, 104⟩, ⟨11, 2, 107⟩], [⟨8, 1, 56⟩, ⟨11, 1,
    59⟩]]⟩⟩,
    ⟨7224358483552269, ⟨24, 12, 2, [[0, 1, 2], [1, 1, 1], [1, 0, 3], [0, 1, 1]], [[0, 1, 0], [0,
    1, 0]], [[⟨0, 0, 0⟩, ⟨2, 1, 12⟩, ⟨3, 0, 6⟩], [⟨0, 1, 8⟩, ⟨1, 0, 2⟩, ⟨1, 1, 10⟩, ⟨1, 2, 18⟩,
    ⟨2, 0, 4⟩, ⟨3, 1, 14⟩, ⟨3, 2, 22⟩], [⟨0, 2, 16⟩], [⟨2, 2, 20⟩]], [[⟨0, 0, 0⟩, ⟨0, 2, 16⟩, ⟨1,
    0, 1⟩, ⟨1, 2, 17⟩], [⟨0, 1, 8⟩, ⟨1, 1, 9⟩]]⟩⟩,
    ⟨7470649088174093, ⟨18, 9, 2, [[0, 1, 2], [1, 1, 1], [0, 0, 1]], [[0, 1, 0], [0, 1, 0]],
    [[⟨0, 0, 0⟩, ⟨2, 0, 4⟩, ⟨2, 1, 10⟩], [⟨0, 1, 6⟩, ⟨1, 0, 2⟩, ⟨1, 1, 8⟩, ⟨1, 2, 14⟩, ⟨2, 2,
    16⟩], [⟨0, 2, 12⟩]], [[⟨0, 0, 0⟩, ⟨0, 2, 12⟩, ⟨1, 0, 1⟩, ⟨1, 2, 13⟩], [⟨0, 1, 6⟩, ⟨1, 1,
    7⟩]]⟩⟩,
    ⟨6942883508676621, ⟨18, 9, 2, [[0, 1, 2], [1, 1, 1], [2, 1, 2]], [[0, 1, 1], [0, 0, 1]],
    [[⟨0, 0, 0⟩], [⟨0, 1, 6⟩, ⟨1, 0, 2⟩, ⟨1, 1, 8⟩, ⟨1, 2, 14⟩, ⟨2, 1, 10⟩], [⟨0, 2, 12⟩, ⟨2, 0,
    4⟩, ⟨2, 2, 16⟩]], [[⟨0, 0, 0⟩, ⟨1, 0, 1⟩, ⟨1, 1, 7⟩], [⟨0, 1, 6⟩, ⟨0, 2, 12⟩, ⟨1, 2, 13⟩]]⟩⟩,
    ⟨6942883508938765, ⟨72, 24, 3, [[0, 1, 2], [3, 1, 2], [0, 4, 5], [6, 7, 3], [0, 3, 2], [4, 7,
    5], [6, 6, 3], [3, 3, 2]], [[0, 1, 2], [0, 0, 1], [2, 2, 2]], [[⟨0, 0, 0⟩, ⟨2, 0, 6⟩, ⟨4, 0,
    12⟩], [⟨0, 1, 24⟩, ⟨1, 1, 27⟩], [⟨0, 2, 48⟩, ⟨1, 2, 51⟩, ⟨4, 2, 60⟩, ⟨7, 2, 69⟩], [⟨1, 0, 3⟩,
    ⟨3, 2, 57⟩, ⟨4, 1, 36⟩, ⟨6, 2, 66⟩, ⟨7, 0, 21⟩, ⟨7, 1, 45⟩], [⟨2, 1, 30⟩, ⟨5, 0, 15⟩], [⟨2,
    2, 54⟩, ⟨5, 2, 63⟩], [⟨3, 0, 9⟩, ⟨6, 0, 18⟩, ⟨6, 1, 42⟩], [⟨3, 1, 33⟩, ⟨5, 1, 39⟩]], [[⟨0, 0,
    0⟩, ⟨1, 0, 1⟩, ⟨1, 1, 25⟩], [⟨0, 1, 24⟩, ⟨1, 2, 49⟩], [⟨0, 2, 48⟩, ⟨2, 0, 2⟩, ⟨2, 1, 26⟩, ⟨2,
    2, 50⟩]]⟩⟩,
    ⟨7224358485649421, ⟨24, 12, 2, [[0, 1, 2], [1, 1, 1], [1, 0, 3], [0, 1, 1]], [[0, 1, 1], [0,
    1, 1]], [[⟨0, 0, 0⟩, ⟨2, 1, 12⟩, ⟨3, 0, 6⟩], [⟨0, 1, 8⟩, ⟨1, 0, 2⟩, ⟨1, 1, 10⟩, ⟨1, 2, 18⟩,
    ⟨2, 0, 4⟩, ⟨3, 1, 14⟩, ⟨3, 2, 22⟩], [⟨0, 2, 16⟩], [⟨2, 2, 20⟩]], [[⟨0, 0, 0⟩, ⟨1, 0, 1⟩],
    [⟨0, 1, 8⟩, ⟨0, 2, 16⟩, ⟨1, 1, 9⟩, ⟨1, 2, 17⟩]]⟩⟩,
    ⟨6942883508677133, ⟨6, 3, 2, [[0, 0, 0]], [[0, 1, 0], [0, 1, 1]], [[⟨0, 0, 0⟩, ⟨0, 1, 2⟩, ⟨0,
    2, 4⟩]], [[⟨0, 0, 0⟩, ⟨0, 2, 4⟩, ⟨1, 0, 1⟩], [⟨0, 1, 2⟩, ⟨1, 1, 3⟩, ⟨1, 2, 5⟩]]⟩⟩],
    by decide +kernel, by decide +kernel⟩

theorem child23_0l1_1l0 : AllDone (child (0, false, 1) (1, false, 0)) := by
  refine allDone_of [list23_0l1_1l0_0, list23_0l1_1l0_1] ?_ (by decide +kernel)
  simp only [List.forall_mem_cons, List.not_mem_nil, false_imp_iff, implies_true, and_true]
  exact ⟨done23_0l1_1l0_0, done23_0l1_1l0_1⟩

theorem child23_0l1_1l1 : AllDone (child (0, false, 1) (1, false, 1)) :=
  allDone_of [] (by simp) (by decide +kernel)

theorem child23_0l1_1r0 : AllDone (child (0, false, 1) (1, true, 0)) :=
  allDone_of [] (by simp) (by decide +kernel)

theorem child23_0l1_1r1 : AllDone (child (0, false, 1) (1, true, 1)) :=
  allDone_of [] (by simp) (by decide +kernel)

def list23_0l1_2l0_0 : List Listed := [
  ⟨6767511404304397, [((0, 0), (1, true, 1)), ((0, 1), (1, true, 0)), ((0, 2), (2, false, 1)),
  ((1, 0), (0, false, 1)), ((1, 1), (2, false, 0)), ((1, 2), (0, false, 0))]⟩,
  ⟨7048986376820749, [((0, 0), (1, true, 1)), ((0, 1), (1, true, 0)), ((0, 2), (0, false, 1)),
  ((1, 0), (0, false, 1)), ((1, 1), (2, false, 0)), ((1, 2), (1, false, 0))]⟩,
  ⟨7048986378917901, [((0, 0), (1, true, 1)), ((0, 1), (1, true, 0)), ((0, 2), (1, false, 1)),
  ((1, 0), (0, false, 1)), ((1, 1), (2, false, 0)), ((1, 2), (1, false, 0))]⟩,
  ⟨7048986376562701, [((0, 0), (1, true, 1)), ((0, 1), (2, true, 0)), ((0, 2), (0, false, 0)),
  ((1, 0), (0, false, 1)), ((1, 1), (2, false, 0)), ((1, 2), (1, false, 0))]⟩,
  ⟨14042429407245, [((0, 0), (1, true, 1)), ((0, 1), (0, false, 0)), ((1, 0), (0, false, 1)),
  ((1, 1), (2, false, 0)), ((1, 2), (1, true, 0))]⟩,
  ⟨14042429407757, [((0, 0), (1, true, 1)), ((0, 1), (0, false, 1)), ((1, 0), (0, false, 1)),
  ((1, 1), (2, false, 0)), ((1, 2), (1, true, 0))]⟩,
  ⟨7189723865171981, [((0, 0), (1, true, 1)), ((0, 1), (0, true, 0)), ((0, 2), (0, false, 1)),
  ((1, 0), (0, false, 1)), ((1, 1), (2, false, 0)), ((1, 2), (1, true, 0))]⟩,
  ⟨7189723866220557, [((0, 0), (1, true, 1)), ((0, 1), (0, true, 0)), ((0, 2), (0, true, 1)),
  ((1, 0), (0, false, 1)), ((1, 1), (2, false, 0)), ((1, 2), (1, true, 0))]⟩,
  ⟨7189723869366285, [((0, 0), (1, true, 1)), ((0, 1), (0, true, 0)), ((0, 2), (2, false, 1)),
  ((1, 0), (0, false, 1)), ((1, 1), (2, false, 0)), ((1, 2), (1, true, 0))]⟩,
  ⟨7189723865176077, [((0, 0), (1, true, 1)), ((0, 1), (1, true, 0)), ((0, 2), (0, false, 1)),
  ((1, 0), (0, false, 1)), ((1, 1), (2, false, 0)), ((1, 2), (1, true, 0))]⟩,
  ⟨7189723867273229, [((0, 0), (1, true, 1)), ((0, 1), (1, true, 0)), ((0, 2), (1, false, 1)),
  ((1, 0), (0, false, 1)), ((1, 1), (2, false, 0)), ((1, 2), (1, true, 0))]⟩,
  ⟨7189723865964557, [((0, 0), (1, true, 1)), ((0, 1), (2, false, 0)), ((0, 2), (0, true, 0)),
  ((1, 0), (0, false, 1)), ((1, 1), (2, false, 0)), ((1, 2), (1, true, 0))]⟩,
  ⟨7189723865965069, [((0, 0), (1, true, 1)), ((0, 1), (2, false, 1)), ((0, 2), (0, true, 0)),
  ((1, 0), (0, false, 1)), ((1, 1), (2, false, 0)), ((1, 2), (1, true, 0))]⟩,
  ⟨7189723868062221, [((0, 0), (1, true, 1)), ((0, 1), (2, false, 1)), ((0, 2), (1, true, 0)),
  ((1, 0), (0, false, 1)), ((1, 1), (2, false, 0)), ((1, 2), (1, true, 0))]⟩,
  ⟨7189723868324365, [((0, 0), (1, true, 1)), ((0, 1), (2, false, 1)), ((0, 2), (1, true, 1)),
  ((1, 0), (0, false, 1)), ((1, 1), (2, false, 0)), ((1, 2), (1, true, 0))]⟩,
  ⟨7189723870421517, [((0, 0), (1, true, 1)), ((0, 1), (2, false, 1)), ((0, 2), (2, true, 1)),
  ((1, 0), (0, false, 1)), ((1, 1), (2, false, 0)), ((1, 2), (1, true, 0))]⟩,
  ⟨7189723864918029, [((0, 0), (1, true, 1)), ((0, 1), (2, true, 0)), ((0, 2), (0, false, 0)),
  ((1, 0), (0, false, 1)), ((1, 1), (2, false, 0)), ((1, 2), (1, true, 0))]⟩,
  ⟨7189723867277325, [((0, 0), (1, true, 1)), ((0, 1), (2, true, 0)), ((0, 2), (1, false, 1)),
  ((1, 0), (0, false, 1)), ((1, 1), (2, false, 0)), ((1, 2), (1, true, 0))]⟩,
  ⟨7224908241459213, [((0, 0), (1, true, 1)), ((0, 1), (1, true, 0)), ((0, 2), (2, false, 1)),
  ((1, 0), (0, false, 1)), ((1, 1), (2, false, 0)), ((1, 2), (1, true, 1))]⟩,
  ⟨14111148892173, [((0, 0), (1, true, 1)), ((0, 1), (2, false, 0)), ((1, 0), (0, false, 1)),
  ((1, 1), (2, false, 0)), ((1, 2), (1, true, 1))]⟩]

theorem done23_0l1_2l0_0 : ∃ h, Done list23_0l1_2l0_0 h :=
  ⟨[
    ⟨6767511404304397, ⟨18, 9, 2, [[0, 1, 2], [1, 1, 1], [2, 2, 2]], [[0, 0, 1], [0, 0, 1]],
    [[⟨0, 0, 0⟩], [⟨0, 1, 6⟩, ⟨1, 0, 2⟩, ⟨1, 1, 8⟩, ⟨1, 2, 14⟩], [⟨0, 2, 12⟩, ⟨2, 0, 4⟩, ⟨2, 1,
    10⟩, ⟨2, 2, 16⟩]], [[⟨0, 0, 0⟩, ⟨0, 1, 6⟩, ⟨1, 0, 1⟩, ⟨1, 1, 7⟩], [⟨0, 2, 12⟩, ⟨1, 2, 13⟩]]⟩⟩,
    ⟨7048986376820749, ⟨18, 9, 2, [[0, 1, 2], [1, 1, 1], [2, 2, 2]], [[0, 0, 1], [0, 0, 0]],
    [[⟨0, 0, 0⟩], [⟨0, 1, 6⟩, ⟨1, 0, 2⟩, ⟨1, 1, 8⟩, ⟨1, 2, 14⟩], [⟨0, 2, 12⟩, ⟨2, 0, 4⟩, ⟨2, 1,
    10⟩, ⟨2, 2, 16⟩]], [[⟨0, 0, 0⟩, ⟨0, 1, 6⟩, ⟨1, 0, 1⟩, ⟨1, 1, 7⟩, ⟨1, 2, 13⟩], [⟨0, 2, 12⟩]]⟩⟩,
    ⟨7048986378917901, ⟨18, 9, 2, [[0, 1, 2], [1, 1, 1], [2, 2, 2]], [[0, 0, 1], [0, 0, 0]],
    [[⟨0, 0, 0⟩], [⟨0, 1, 6⟩, ⟨1, 0, 2⟩, ⟨1, 1, 8⟩, ⟨1, 2, 14⟩], [⟨0, 2, 12⟩, ⟨2, 0, 4⟩, ⟨2, 1,
    10⟩, ⟨2, 2, 16⟩]], [[⟨0, 0, 0⟩, ⟨0, 1, 6⟩, ⟨1, 0, 1⟩, ⟨1, 1, 7⟩, ⟨1, 2, 13⟩], [⟨0, 2, 12⟩]]⟩⟩,
    ⟨7048986376562701, ⟨240, 60, 4, [[0, 1, 2], [3, 3, 1], [4, 5, 6], [3, 3, 3], [7, 8, 9], [10,
    11, 12], [9, 13, 6], [2, 14, 2], [3, 3, 1], [15, 16, 17], [18, 13, 6], [3, 3, 1], [13, 16,
    17], [10, 11, 12], [3, 3, 1], [6, 11, 12], [19, 19, 19], [17, 19, 19], [5, 16, 17], [19, 19,
    19]], [[0, 1, 2], [2, 0, 0], [3, 2, 1], [3, 0, 3]], [[⟨0, 0, 0⟩], [⟨0, 1, 80⟩, ⟨1, 2, 164⟩,
    ⟨8, 2, 192⟩, ⟨11, 2, 204⟩, ⟨14, 2, 216⟩], [⟨0, 2, 160⟩, ⟨7, 0, 28⟩, ⟨7, 2, 188⟩], [⟨1, 0, 4⟩,
    ⟨1, 1, 84⟩, ⟨3, 0, 12⟩, ⟨3, 1, 92⟩, ⟨3, 2, 172⟩, ⟨8, 0, 32⟩, ⟨8, 1, 112⟩, ⟨11, 0, 44⟩, ⟨11,
    1, 124⟩, ⟨14, 0, 56⟩, ⟨14, 1, 136⟩], [⟨2, 0, 8⟩], [⟨2, 1, 88⟩, ⟨18, 0, 72⟩], [⟨2, 2, 168⟩,
    ⟨6, 2, 184⟩, ⟨10, 2, 200⟩, ⟨15, 0, 60⟩], [⟨4, 0, 16⟩], [⟨4, 1, 96⟩], [⟨4, 2, 176⟩, ⟨6, 0,
    24⟩], [⟨5, 0, 20⟩, ⟨13, 0, 52⟩], [⟨5, 1, 100⟩, ⟨13, 1, 132⟩, ⟨15, 1, 140⟩], [⟨5, 2, 180⟩,
    ⟨13, 2, 212⟩, ⟨15, 2, 220⟩], [⟨6, 1, 104⟩, ⟨10, 1, 120⟩, ⟨12, 0, 48⟩], [⟨7, 1, 108⟩], [⟨9, 0,
    36⟩], [⟨9, 1, 116⟩, ⟨12, 1, 128⟩, ⟨18, 1, 152⟩], [⟨9, 2, 196⟩, ⟨12, 2, 208⟩, ⟨17, 0, 68⟩,
    ⟨18, 2, 232⟩], [⟨10, 0, 40⟩], [⟨16, 0, 64⟩, ⟨16, 1, 144⟩, ⟨16, 2, 224⟩, ⟨17, 1, 148⟩, ⟨17, 2,
    228⟩, ⟨19, 0, 76⟩, ⟨19, 1, 156⟩, ⟨19, 2, 236⟩]], [[⟨0, 0, 0⟩, ⟨1, 1, 81⟩, ⟨1, 2, 161⟩, ⟨3, 1,
    83⟩], [⟨0, 1, 80⟩, ⟨2, 2, 162⟩], [⟨0, 2, 160⟩, ⟨1, 0, 1⟩, ⟨2, 1, 82⟩], [⟨2, 0, 2⟩, ⟨3, 0, 3⟩,
    ⟨3, 2, 163⟩]]⟩⟩,
    ⟨14042429407245, ⟨36, 9, 4, [[0, 1, 2], [0, 1, 2], [2, 2, 2]], [[0, 1, 1], [2, 3, 3], [2, 0,
    1], [3, 3, 3]], [[⟨0, 0, 0⟩, ⟨1, 0, 4⟩], [⟨0, 1, 12⟩, ⟨1, 1, 16⟩], [⟨0, 2, 24⟩, ⟨1, 2, 28⟩,
    ⟨2, 0, 8⟩, ⟨2, 1, 20⟩, ⟨2, 2, 32⟩]], [[⟨0, 0, 0⟩, ⟨2, 1, 14⟩], [⟨0, 1, 12⟩, ⟨0, 2, 24⟩, ⟨2,
    2, 26⟩], [⟨1, 0, 1⟩, ⟨2, 0, 2⟩], [⟨1, 1, 13⟩, ⟨1, 2, 25⟩, ⟨3, 0, 3⟩, ⟨3, 1, 15⟩, ⟨3, 2,
    27⟩]]⟩⟩,
    ⟨14042429407757, ⟨36, 12, 3, [[0, 1, 2], [1, 3, 1], [2, 2, 2], [3, 1, 2]], [[0, 1, 2], [1, 1,
    1], [0, 1, 1]], [[⟨0, 0, 0⟩], [⟨0, 1, 12⟩, ⟨1, 0, 3⟩, ⟨1, 2, 27⟩, ⟨3, 1, 21⟩], [⟨0, 2, 24⟩,
    ⟨2, 0, 6⟩, ⟨2, 1, 18⟩, ⟨2, 2, 30⟩, ⟨3, 2, 33⟩], [⟨1, 1, 15⟩, ⟨3, 0, 9⟩]], [[⟨0, 0, 0⟩, ⟨2, 0,
    2⟩], [⟨0, 1, 12⟩, ⟨1, 0, 1⟩, ⟨1, 1, 13⟩, ⟨1, 2, 25⟩, ⟨2, 1, 14⟩, ⟨2, 2, 26⟩], [⟨0, 2, 24⟩]]⟩⟩,
    ⟨7189723865171981, ⟨36, 12, 3, [[0, 1, 2], [1, 3, 2], [2, 2, 2], [0, 1, 2]], [[0, 1, 2], [1,
    1, 1], [0, 1, 1]], [[⟨0, 0, 0⟩, ⟨3, 0, 9⟩], [⟨0, 1, 12⟩, ⟨1, 0, 3⟩, ⟨3, 1, 21⟩], [⟨0, 2, 24⟩,
    ⟨1, 2, 27⟩, ⟨2, 0, 6⟩, ⟨2, 1, 18⟩, ⟨2, 2, 30⟩, ⟨3, 2, 33⟩], [⟨1, 1, 15⟩]], [[⟨0, 0, 0⟩, ⟨2,
    0, 2⟩], [⟨0, 1, 12⟩, ⟨1, 0, 1⟩, ⟨1, 1, 13⟩, ⟨1, 2, 25⟩, ⟨2, 1, 14⟩, ⟨2, 2, 26⟩], [⟨0, 2,
    24⟩]]⟩⟩,
    ⟨7189723866220557, ⟨36, 12, 3, [[0, 1, 2], [1, 3, 2], [2, 2, 2], [0, 1, 2]], [[0, 1, 2], [1,
    1, 1], [0, 1, 1]], [[⟨0, 0, 0⟩, ⟨3, 0, 9⟩], [⟨0, 1, 12⟩, ⟨1, 0, 3⟩, ⟨3, 1, 21⟩], [⟨0, 2, 24⟩,
    ⟨1, 2, 27⟩, ⟨2, 0, 6⟩, ⟨2, 1, 18⟩, ⟨2, 2, 30⟩, ⟨3, 2, 33⟩], [⟨1, 1, 15⟩]], [[⟨0, 0, 0⟩, ⟨2,
    0, 2⟩], [⟨0, 1, 12⟩, ⟨1, 0, 1⟩, ⟨1, 1, 13⟩, ⟨1, 2, 25⟩, ⟨2, 1, 14⟩, ⟨2, 2, 26⟩], [⟨0, 2,
    24⟩]]⟩⟩,
    ⟨7189723869366285, ⟨45, 15, 3, [[0, 1, 2], [3, 4, 1], [2, 2, 2], [3, 4, 1], [0, 1, 2]], [[0,
    1, 2], [1, 1, 1], [0, 1, 1]], [[⟨0, 0, 0⟩, ⟨4, 0, 12⟩], [⟨0, 1, 15⟩, ⟨1, 2, 33⟩, ⟨3, 2, 39⟩,
    ⟨4, 1, 27⟩], [⟨0, 2, 30⟩, ⟨2, 0, 6⟩, ⟨2, 1, 21⟩, ⟨2, 2, 36⟩, ⟨4, 2, 42⟩], [⟨1, 0, 3⟩, ⟨3, 0,
    9⟩], [⟨1, 1, 18⟩, ⟨3, 1, 24⟩]], [[⟨0, 0, 0⟩, ⟨2, 0, 2⟩], [⟨0, 1, 15⟩, ⟨1, 0, 1⟩, ⟨1, 1, 16⟩,
    ⟨1, 2, 31⟩, ⟨2, 1, 17⟩, ⟨2, 2, 32⟩], [⟨0, 2, 30⟩]]⟩⟩,
    ⟨7189723865176077, ⟨24, 12, 2, [[0, 1, 2], [1, 1, 1], [2, 3, 0], [3, 3, 3]], [[0, 0, 1], [0,
    0, 0]], [[⟨0, 0, 0⟩, ⟨2, 2, 20⟩], [⟨0, 1, 8⟩, ⟨1, 0, 2⟩, ⟨1, 1, 10⟩, ⟨1, 2, 18⟩], [⟨0, 2,
    16⟩, ⟨2, 0, 4⟩], [⟨2, 1, 12⟩, ⟨3, 0, 6⟩, ⟨3, 1, 14⟩, ⟨3, 2, 22⟩]], [[⟨0, 0, 0⟩, ⟨0, 1, 8⟩,
    ⟨1, 0, 1⟩, ⟨1, 1, 9⟩, ⟨1, 2, 17⟩], [⟨0, 2, 16⟩]]⟩⟩,
    ⟨7189723867273229, ⟨24, 12, 2, [[0, 1, 2], [1, 1, 1], [2, 3, 0], [3, 3, 3]], [[0, 0, 1], [0,
    0, 0]], [[⟨0, 0, 0⟩, ⟨2, 2, 20⟩], [⟨0, 1, 8⟩, ⟨1, 0, 2⟩, ⟨1, 1, 10⟩, ⟨1, 2, 18⟩], [⟨0, 2,
    16⟩, ⟨2, 0, 4⟩], [⟨2, 1, 12⟩, ⟨3, 0, 6⟩, ⟨3, 1, 14⟩, ⟨3, 2, 22⟩]], [[⟨0, 0, 0⟩, ⟨0, 1, 8⟩,
    ⟨1, 0, 1⟩, ⟨1, 1, 9⟩, ⟨1, 2, 17⟩], [⟨0, 2, 16⟩]]⟩⟩,
    ⟨7189723865964557, ⟨18, 9, 2, [[0, 1, 2], [1, 1, 0], [2, 2, 2]], [[0, 1, 1], [0, 1, 1]],
    [[⟨0, 0, 0⟩, ⟨1, 2, 14⟩], [⟨0, 1, 6⟩, ⟨1, 0, 2⟩, ⟨1, 1, 8⟩], [⟨0, 2, 12⟩, ⟨2, 0, 4⟩, ⟨2, 1,
    10⟩, ⟨2, 2, 16⟩]], [[⟨0, 0, 0⟩, ⟨1, 0, 1⟩], [⟨0, 1, 6⟩, ⟨0, 2, 12⟩, ⟨1, 1, 7⟩, ⟨1, 2, 13⟩]]⟩⟩,
    ⟨7189723865965069, ⟨36, 12, 3, [[0, 1, 2], [1, 3, 1], [2, 2, 2], [3, 1, 0]], [[0, 1, 2], [1,
    1, 1], [2, 1, 2]], [[⟨0, 0, 0⟩, ⟨3, 2, 33⟩], [⟨0, 1, 12⟩, ⟨1, 0, 3⟩, ⟨1, 2, 27⟩, ⟨3, 1, 21⟩],
    [⟨0, 2, 24⟩, ⟨2, 0, 6⟩, ⟨2, 1, 18⟩, ⟨2, 2, 30⟩], [⟨1, 1, 15⟩, ⟨3, 0, 9⟩]], [[⟨0, 0, 0⟩], [⟨0,
    1, 12⟩, ⟨1, 0, 1⟩, ⟨1, 1, 13⟩, ⟨1, 2, 25⟩, ⟨2, 1, 14⟩], [⟨0, 2, 24⟩, ⟨2, 0, 2⟩, ⟨2, 2,
    26⟩]]⟩⟩,
    ⟨7189723868062221, ⟨72, 12, 6, [[0, 1, 0], [2, 3, 1], [2, 2, 2], [0, 1, 0]], [[0, 1, 2], [3,
    4, 4], [0, 3, 5], [4, 3, 5], [4, 4, 4], [3, 1, 2]], [[⟨0, 0, 0⟩, ⟨0, 2, 48⟩, ⟨3, 0, 18⟩, ⟨3,
    2, 66⟩], [⟨0, 1, 24⟩, ⟨1, 2, 54⟩, ⟨3, 1, 42⟩], [⟨1, 0, 6⟩, ⟨2, 0, 12⟩, ⟨2, 1, 36⟩, ⟨2, 2,
    60⟩], [⟨1, 1, 30⟩]], [[⟨0, 0, 0⟩, ⟨2, 0, 2⟩], [⟨0, 1, 24⟩, ⟨5, 1, 29⟩], [⟨0, 2, 48⟩, ⟨5, 2,
    53⟩], [⟨1, 0, 1⟩, ⟨2, 1, 26⟩, ⟨3, 1, 27⟩, ⟨5, 0, 5⟩], [⟨1, 1, 25⟩, ⟨1, 2, 49⟩, ⟨3, 0, 3⟩, ⟨4,
    0, 4⟩, ⟨4, 1, 28⟩, ⟨4, 2, 52⟩], [⟨2, 2, 50⟩, ⟨3, 2, 51⟩]]⟩⟩,
    ⟨7189723868324365, ⟨27, 9, 3, [[0, 1, 0], [1, 2, 1], [0, 1, 0]], [[0, 1, 2], [1, 1, 1], [2,
    1, 2]], [[⟨0, 0, 0⟩, ⟨0, 2, 18⟩, ⟨2, 0, 6⟩, ⟨2, 2, 24⟩], [⟨0, 1, 9⟩, ⟨1, 0, 3⟩, ⟨1, 2, 21⟩,
    ⟨2, 1, 15⟩], [⟨1, 1, 12⟩]], [[⟨0, 0, 0⟩], [⟨0, 1, 9⟩, ⟨1, 0, 1⟩, ⟨1, 1, 10⟩, ⟨1, 2, 19⟩, ⟨2,
    1, 11⟩], [⟨0, 2, 18⟩, ⟨2, 0, 2⟩, ⟨2, 2, 20⟩]]⟩⟩,
    ⟨7189723870421517, ⟨81, 9, 9, [[0, 0, 1], [0, 2, 0], [0, 2, 1]], [[0, 1, 1], [0, 2, 3], [4,
    1, 1], [4, 1, 5], [4, 4, 4], [6, 2, 3], [0, 7, 8], [0, 7, 6], [6, 7, 8]], [[⟨0, 0, 0⟩, ⟨0, 1,
    27⟩, ⟨1, 0, 9⟩, ⟨1, 2, 63⟩, ⟨2, 0, 18⟩], [⟨0, 2, 54⟩, ⟨2, 2, 72⟩], [⟨1, 1, 36⟩, ⟨2, 1, 45⟩]],
    [[⟨0, 0, 0⟩, ⟨1, 0, 1⟩, ⟨6, 0, 6⟩, ⟨7, 0, 7⟩], [⟨0, 1, 27⟩, ⟨0, 2, 54⟩, ⟨2, 1, 29⟩, ⟨2, 2,
    56⟩, ⟨3, 1, 30⟩], [⟨1, 1, 28⟩, ⟨5, 1, 32⟩], [⟨1, 2, 55⟩, ⟨5, 2, 59⟩], [⟨2, 0, 2⟩, ⟨3, 0, 3⟩,
    ⟨4, 0, 4⟩, ⟨4, 1, 31⟩, ⟨4, 2, 58⟩], [⟨3, 2, 57⟩], [⟨5, 0, 5⟩, ⟨7, 2, 61⟩, ⟨8, 0, 8⟩], [⟨6, 1,
    33⟩, ⟨7, 1, 34⟩, ⟨8, 1, 35⟩], [⟨6, 2, 60⟩, ⟨8, 2, 62⟩]]⟩⟩,
    ⟨7189723864918029, ⟨72, 18, 4, [[0, 1, 2], [3, 4, 5], [4, 1, 2], [5, 1, 2], [4, 5, 5], [5, 5,
    5]], [[0, 1, 2], [1, 1, 1], [3, 1, 0], [3, 0, 3]], [[⟨0, 0, 0⟩], [⟨0, 1, 24⟩, ⟨2, 1, 32⟩, ⟨3,
    1, 36⟩], [⟨0, 2, 48⟩, ⟨2, 2, 56⟩, ⟨3, 2, 60⟩], [⟨1, 0, 4⟩], [⟨1, 1, 28⟩, ⟨2, 0, 8⟩, ⟨4, 0,
    16⟩], [⟨1, 2, 52⟩, ⟨3, 0, 12⟩, ⟨4, 1, 40⟩, ⟨4, 2, 64⟩, ⟨5, 0, 20⟩, ⟨5, 1, 44⟩, ⟨5, 2, 68⟩]],
    [[⟨0, 0, 0⟩, ⟨2, 2, 50⟩, ⟨3, 1, 27⟩], [⟨0, 1, 24⟩, ⟨1, 0, 1⟩, ⟨1, 1, 25⟩, ⟨1, 2, 49⟩, ⟨2, 1,
    26⟩], [⟨0, 2, 48⟩], [⟨2, 0, 2⟩, ⟨3, 0, 3⟩, ⟨3, 2, 51⟩]]⟩⟩,
    ⟨7189723867277325, ⟨30, 15, 2, [[0, 1, 2], [3, 3, 3], [2, 4, 0], [3, 3, 3], [4, 4, 4]], [[0,
    0, 1], [0, 0, 0]], [[⟨0, 0, 0⟩, ⟨2, 2, 24⟩], [⟨0, 1, 10⟩], [⟨0, 2, 20⟩, ⟨2, 0, 4⟩], [⟨1, 0,
    2⟩, ⟨1, 1, 12⟩, ⟨1, 2, 22⟩, ⟨3, 0, 6⟩, ⟨3, 1, 16⟩, ⟨3, 2, 26⟩], [⟨2, 1, 14⟩, ⟨4, 0, 8⟩, ⟨4,
    1, 18⟩, ⟨4, 2, 28⟩]], [[⟨0, 0, 0⟩, ⟨0, 1, 10⟩, ⟨1, 0, 1⟩, ⟨1, 1, 11⟩, ⟨1, 2, 21⟩], [⟨0, 2,
    20⟩]]⟩⟩,
    ⟨7224908241459213, ⟨24, 12, 2, [[0, 1, 2], [1, 1, 1], [2, 3, 0], [3, 3, 3]], [[0, 0, 1], [0,
    0, 1]], [[⟨0, 0, 0⟩, ⟨2, 2, 20⟩], [⟨0, 1, 8⟩, ⟨1, 0, 2⟩, ⟨1, 1, 10⟩, ⟨1, 2, 18⟩], [⟨0, 2,
    16⟩, ⟨2, 0, 4⟩], [⟨2, 1, 12⟩, ⟨3, 0, 6⟩, ⟨3, 1, 14⟩, ⟨3, 2, 22⟩]], [[⟨0, 0, 0⟩, ⟨0, 1, 8⟩,
    ⟨1, 0, 1⟩, ⟨1, 1, 9⟩], [⟨0, 2, 16⟩, ⟨1, 2, 17⟩]]⟩⟩,
    ⟨14111148892173, ⟨18, 9, 2, [[0, 1, 2], [1, 1, 2], [2, 2, 2]], [[0, 0, 1], [0, 0, 1]], [[⟨0,
    0, 0⟩], [⟨0, 1, 6⟩, ⟨1, 0, 2⟩, ⟨1, 1, 8⟩], [⟨0, 2, 12⟩, ⟨1, 2, 14⟩, ⟨2, 0, 4⟩, ⟨2, 1, 10⟩,
    ⟨2, 2, 16⟩]], [[⟨0, 0, 0⟩, ⟨0, 1, 6⟩, ⟨1, 0, 1⟩, ⟨1, 1, 7⟩], [⟨0, 2, 12⟩, ⟨1, 2, 13⟩]]⟩⟩],
    by decide +kernel, by decide +kernel⟩

def list23_0l1_2l0_1 : List Listed := [
  ⟨7471198841618445, [((0, 0), (1, true, 1)), ((0, 1), (0, false, 0)), ((0, 2), (0, false, 0)),
  ((1, 0), (0, false, 1)), ((1, 1), (2, false, 0)), ((1, 2), (2, true, 0))]⟩,
  ⟨7471198841620493, [((0, 0), (1, true, 1)), ((0, 1), (0, true, 0)), ((0, 2), (0, false, 0)),
  ((1, 0), (0, false, 1)), ((1, 1), (2, false, 0)), ((1, 2), (2, true, 0))]⟩,
  ⟨7471198841628685, [((0, 0), (1, true, 1)), ((0, 1), (2, true, 0)), ((0, 2), (0, false, 0)),
  ((1, 0), (0, false, 1)), ((1, 1), (2, false, 0)), ((1, 2), (2, true, 0))]⟩,
  ⟨7471198841629197, [((0, 0), (1, true, 1)), ((0, 1), (2, true, 1)), ((0, 2), (0, false, 0)),
  ((1, 0), (0, false, 1)), ((1, 1), (2, false, 0)), ((1, 2), (2, true, 0))]⟩,
  ⟨14592185238029, [((0, 0), (1, true, 1)), ((0, 2), (0, false, 1)), ((1, 0), (0, false, 1)),
  ((1, 1), (2, false, 0)), ((1, 2), (2, true, 0))]⟩,
  ⟨7471198843978253, [((0, 0), (1, true, 1)), ((0, 1), (0, false, 1)), ((0, 2), (1, false, 1)),
  ((1, 0), (0, false, 1)), ((1, 1), (2, false, 0)), ((1, 2), (2, true, 0))]⟩,
  ⟨7471198843980301, [((0, 0), (1, true, 1)), ((0, 1), (0, true, 1)), ((0, 2), (1, false, 1)),
  ((1, 0), (0, false, 1)), ((1, 1), (2, false, 0)), ((1, 2), (2, true, 0))]⟩,
  ⟨7471198843983885, [((0, 0), (1, true, 1)), ((0, 1), (1, true, 0)), ((0, 2), (1, false, 1)),
  ((1, 0), (0, false, 1)), ((1, 1), (2, false, 0)), ((1, 2), (2, true, 0))]⟩,
  ⟨7471198843984397, [((0, 0), (1, true, 1)), ((0, 1), (1, true, 1)), ((0, 2), (1, false, 1)),
  ((1, 0), (0, false, 1)), ((1, 1), (2, false, 0)), ((1, 2), (2, true, 0))]⟩,
  ⟨7471198843987981, [((0, 0), (1, true, 1)), ((0, 1), (2, true, 0)), ((0, 2), (1, false, 1)),
  ((1, 0), (0, false, 1)), ((1, 1), (2, false, 0)), ((1, 2), (2, true, 0))]⟩,
  ⟨7471198843988493, [((0, 0), (1, true, 1)), ((0, 1), (2, true, 1)), ((0, 2), (1, false, 1)),
  ((1, 0), (0, false, 1)), ((1, 1), (2, false, 0)), ((1, 2), (2, true, 0))]⟩,
  ⟨7471198844764173, [((0, 0), (1, true, 1)), ((0, 1), (0, false, 0)), ((0, 2), (1, true, 0)),
  ((1, 0), (0, false, 1)), ((1, 1), (2, false, 0)), ((1, 2), (2, true, 0))]⟩]

theorem done23_0l1_2l0_1 : ∃ h, Done list23_0l1_2l0_1 h :=
  ⟨[
    ⟨7471198841618445, ⟨96, 24, 4, [[0, 1, 2], [3, 4, 4], [3, 4, 4], [3, 3, 3], [2, 5, 0], [6, 1,
    2], [7, 1, 2], [5, 1, 2]], [[0, 0, 1], [2, 0, 0], [3, 0, 1], [1, 0, 3]], [[⟨0, 0, 0⟩, ⟨4, 2,
    80⟩], [⟨0, 1, 32⟩, ⟨5, 1, 52⟩, ⟨6, 1, 56⟩, ⟨7, 1, 60⟩], [⟨0, 2, 64⟩, ⟨4, 0, 16⟩, ⟨5, 2, 84⟩,
    ⟨6, 2, 88⟩, ⟨7, 2, 92⟩], [⟨1, 0, 4⟩, ⟨2, 0, 8⟩, ⟨3, 0, 12⟩, ⟨3, 1, 44⟩, ⟨3, 2, 76⟩], [⟨1, 1,
    36⟩, ⟨1, 2, 68⟩, ⟨2, 1, 40⟩, ⟨2, 2, 72⟩], [⟨4, 1, 48⟩, ⟨7, 0, 28⟩], [⟨5, 0, 20⟩], [⟨6, 0,
    24⟩]], [[⟨0, 0, 0⟩, ⟨0, 1, 32⟩, ⟨1, 1, 33⟩, ⟨1, 2, 65⟩, ⟨2, 1, 34⟩, ⟨3, 1, 35⟩], [⟨0, 2, 64⟩,
    ⟨2, 2, 66⟩, ⟨3, 0, 3⟩], [⟨1, 0, 1⟩], [⟨2, 0, 2⟩, ⟨3, 2, 67⟩]]⟩⟩,
    ⟨7471198841620493, ⟨96, 12, 8, [[0, 1, 0], [0, 0, 2], [0, 3, 0], [0, 0, 0]], [[0, 1, 2], [1,
    1, 1], [3, 1, 1], [1, 4, 5], [1, 4, 6], [0, 1, 1], [7, 1, 1], [0, 4, 6]], [[⟨0, 0, 0⟩, ⟨0, 2,
    64⟩, ⟨1, 0, 8⟩, ⟨1, 1, 40⟩, ⟨2, 0, 16⟩, ⟨2, 2, 80⟩, ⟨3, 0, 24⟩, ⟨3, 1, 56⟩, ⟨3, 2, 88⟩], [⟨0,
    1, 32⟩], [⟨1, 2, 72⟩], [⟨2, 1, 48⟩]], [[⟨0, 0, 0⟩, ⟨5, 0, 5⟩, ⟨7, 0, 7⟩], [⟨0, 1, 32⟩, ⟨1, 0,
    1⟩, ⟨1, 1, 33⟩, ⟨1, 2, 65⟩, ⟨2, 1, 34⟩, ⟨2, 2, 66⟩, ⟨3, 0, 3⟩, ⟨4, 0, 4⟩, ⟨5, 1, 37⟩, ⟨5, 2,
    69⟩, ⟨6, 1, 38⟩, ⟨6, 2, 70⟩], [⟨0, 2, 64⟩], [⟨2, 0, 2⟩], [⟨3, 1, 35⟩, ⟨4, 1, 36⟩, ⟨7, 1,
    39⟩], [⟨3, 2, 67⟩], [⟨4, 2, 68⟩, ⟨7, 2, 71⟩], [⟨6, 0, 6⟩]]⟩⟩,
    ⟨7471198841628685, ⟨96, 12, 8, [[0, 1, 0], [0, 0, 2], [0, 3, 0], [0, 0, 0]], [[0, 1, 2], [1,
    1, 1], [3, 1, 1], [1, 4, 5], [1, 4, 6], [0, 1, 1], [7, 1, 1], [0, 4, 6]], [[⟨0, 0, 0⟩, ⟨0, 2,
    64⟩, ⟨1, 0, 8⟩, ⟨1, 1, 40⟩, ⟨2, 0, 16⟩, ⟨2, 2, 80⟩, ⟨3, 0, 24⟩, ⟨3, 1, 56⟩, ⟨3, 2, 88⟩], [⟨0,
    1, 32⟩], [⟨1, 2, 72⟩], [⟨2, 1, 48⟩]], [[⟨0, 0, 0⟩, ⟨5, 0, 5⟩, ⟨7, 0, 7⟩], [⟨0, 1, 32⟩, ⟨1, 0,
    1⟩, ⟨1, 1, 33⟩, ⟨1, 2, 65⟩, ⟨2, 1, 34⟩, ⟨2, 2, 66⟩, ⟨3, 0, 3⟩, ⟨4, 0, 4⟩, ⟨5, 1, 37⟩, ⟨5, 2,
    69⟩, ⟨6, 1, 38⟩, ⟨6, 2, 70⟩], [⟨0, 2, 64⟩], [⟨2, 0, 2⟩], [⟨3, 1, 35⟩, ⟨4, 1, 36⟩, ⟨7, 1,
    39⟩], [⟨3, 2, 67⟩], [⟨4, 2, 68⟩, ⟨7, 2, 71⟩], [⟨6, 0, 6⟩]]⟩⟩,
    ⟨7471198841629197, ⟨84, 12, 7, [[0, 1, 2], [2, 0, 1], [0, 3, 1], [0, 1, 2]], [[0, 1, 2], [1,
    1, 1], [3, 1, 1], [0, 4, 5], [3, 2, 5], [3, 6, 1], [1, 2, 5]], [[⟨0, 0, 0⟩, ⟨1, 1, 35⟩, ⟨2,
    0, 14⟩, ⟨3, 0, 21⟩], [⟨0, 1, 28⟩, ⟨1, 2, 63⟩, ⟨2, 2, 70⟩, ⟨3, 1, 49⟩], [⟨0, 2, 56⟩, ⟨1, 0,
    7⟩, ⟨3, 2, 77⟩], [⟨2, 1, 42⟩]], [[⟨0, 0, 0⟩, ⟨3, 0, 3⟩], [⟨0, 1, 28⟩, ⟨1, 0, 1⟩, ⟨1, 1, 29⟩,
    ⟨1, 2, 57⟩, ⟨2, 1, 30⟩, ⟨2, 2, 58⟩, ⟨5, 2, 61⟩, ⟨6, 0, 6⟩], [⟨0, 2, 56⟩, ⟨4, 1, 32⟩, ⟨6, 1,
    34⟩], [⟨2, 0, 2⟩, ⟨4, 0, 4⟩, ⟨5, 0, 5⟩], [⟨3, 1, 31⟩], [⟨3, 2, 59⟩, ⟨4, 2, 60⟩, ⟨6, 2, 62⟩],
    [⟨5, 1, 33⟩]]⟩⟩,
    ⟨14592185238029, ⟨36, 12, 3, [[0, 1, 2], [1, 2, 3], [2, 2, 2], [3, 1, 3]], [[0, 1, 2], [1, 1,
    1], [0, 1, 0]], [[⟨0, 0, 0⟩], [⟨0, 1, 12⟩, ⟨1, 0, 3⟩, ⟨3, 1, 21⟩], [⟨0, 2, 24⟩, ⟨1, 1, 15⟩,
    ⟨2, 0, 6⟩, ⟨2, 1, 18⟩, ⟨2, 2, 30⟩], [⟨1, 2, 27⟩, ⟨3, 0, 9⟩, ⟨3, 2, 33⟩]], [[⟨0, 0, 0⟩, ⟨2, 0,
    2⟩, ⟨2, 2, 26⟩], [⟨0, 1, 12⟩, ⟨1, 0, 1⟩, ⟨1, 1, 13⟩, ⟨1, 2, 25⟩, ⟨2, 1, 14⟩], [⟨0, 2, 24⟩]]⟩⟩,
    ⟨7471198843978253, ⟨24, 12, 2, [[0, 1, 2], [1, 0, 3], [2, 2, 2], [3, 3, 3]], [[0, 0, 1], [0,
    0, 0]], [[⟨0, 0, 0⟩, ⟨1, 1, 10⟩], [⟨0, 1, 8⟩, ⟨1, 0, 2⟩], [⟨0, 2, 16⟩, ⟨2, 0, 4⟩, ⟨2, 1, 12⟩,
    ⟨2, 2, 20⟩], [⟨1, 2, 18⟩, ⟨3, 0, 6⟩, ⟨3, 1, 14⟩, ⟨3, 2, 22⟩]], [[⟨0, 0, 0⟩, ⟨0, 1, 8⟩, ⟨1, 0,
    1⟩, ⟨1, 1, 9⟩, ⟨1, 2, 17⟩], [⟨0, 2, 16⟩]]⟩⟩,
    ⟨7471198843980301, ⟨24, 12, 2, [[0, 1, 2], [1, 0, 3], [2, 2, 2], [3, 3, 3]], [[0, 0, 1], [0,
    0, 0]], [[⟨0, 0, 0⟩, ⟨1, 1, 10⟩], [⟨0, 1, 8⟩, ⟨1, 0, 2⟩], [⟨0, 2, 16⟩, ⟨2, 0, 4⟩, ⟨2, 1, 12⟩,
    ⟨2, 2, 20⟩], [⟨1, 2, 18⟩, ⟨3, 0, 6⟩, ⟨3, 1, 14⟩, ⟨3, 2, 22⟩]], [[⟨0, 0, 0⟩, ⟨0, 1, 8⟩, ⟨1, 0,
    1⟩, ⟨1, 1, 9⟩, ⟨1, 2, 17⟩], [⟨0, 2, 16⟩]]⟩⟩,
    ⟨7471198843983885, ⟨18, 9, 2, [[0, 1, 2], [1, 1, 1], [2, 2, 2]], [[0, 0, 1], [0, 0, 0]],
    [[⟨0, 0, 0⟩], [⟨0, 1, 6⟩, ⟨1, 0, 2⟩, ⟨1, 1, 8⟩, ⟨1, 2, 14⟩], [⟨0, 2, 12⟩, ⟨2, 0, 4⟩, ⟨2, 1,
    10⟩, ⟨2, 2, 16⟩]], [[⟨0, 0, 0⟩, ⟨0, 1, 6⟩, ⟨1, 0, 1⟩, ⟨1, 1, 7⟩, ⟨1, 2, 13⟩], [⟨0, 2, 12⟩]]⟩⟩,
    ⟨7471198843984397, ⟨18, 9, 2, [[0, 1, 2], [1, 1, 1], [2, 2, 2]], [[0, 0, 1], [0, 0, 0]],
    [[⟨0, 0, 0⟩], [⟨0, 1, 6⟩, ⟨1, 0, 2⟩, ⟨1, 1, 8⟩, ⟨1, 2, 14⟩], [⟨0, 2, 12⟩, ⟨2, 0, 4⟩, ⟨2, 1,
    10⟩, ⟨2, 2, 16⟩]], [[⟨0, 0, 0⟩, ⟨0, 1, 6⟩, ⟨1, 0, 1⟩, ⟨1, 1, 7⟩, ⟨1, 2, 13⟩], [⟨0, 2, 12⟩]]⟩⟩,
    ⟨7471198843987981, ⟨24, 12, 2, [[0, 1, 2], [1, 0, 3], [2, 2, 2], [3, 3, 3]], [[0, 0, 1], [0,
    0, 0]], [[⟨0, 0, 0⟩, ⟨1, 1, 10⟩], [⟨0, 1, 8⟩, ⟨1, 0, 2⟩], [⟨0, 2, 16⟩, ⟨2, 0, 4⟩, ⟨2, 1, 12⟩,
    ⟨2, 2, 20⟩], [⟨1, 2, 18⟩, ⟨3, 0, 6⟩, ⟨3, 1, 14⟩, ⟨3, 2, 22⟩]], [[⟨0, 0, 0⟩, ⟨0, 1, 8⟩, ⟨1, 0,
    1⟩, ⟨1, 1, 9⟩, ⟨1, 2, 17⟩], [⟨0, 2, 16⟩]]⟩⟩,
    ⟨7471198843988493, ⟨24, 12, 2, [[0, 1, 2], [1, 0, 3], [2, 2, 2], [3, 3, 3]], [[0, 0, 1], [0,
    0, 0]], [[⟨0, 0, 0⟩, ⟨1, 1, 10⟩], [⟨0, 1, 8⟩, ⟨1, 0, 2⟩], [⟨0, 2, 16⟩, ⟨2, 0, 4⟩, ⟨2, 1, 12⟩,
    ⟨2, 2, 20⟩], [⟨1, 2, 18⟩, ⟨3, 0, 6⟩, ⟨3, 1, 14⟩, ⟨3, 2, 22⟩]], [[⟨0, 0, 0⟩, ⟨0, 1, 8⟩, ⟨1, 0,
    1⟩, ⟨1, 1, 9⟩, ⟨1, 2, 17⟩], [⟨0, 2, 16⟩]]⟩⟩,
    ⟨7471198844764173, ⟨18, 6, 3, [[0, 1, 1], [1, 1, 1]], [[0, 1, 2], [1, 1, 1], [2, 0, 2]],
    [[⟨0, 0, 0⟩], [⟨0, 1, 6⟩, ⟨0, 2, 12⟩, ⟨1, 0, 3⟩, ⟨1, 1, 9⟩, ⟨1, 2, 15⟩]], [[⟨0, 0, 0⟩, ⟨2, 1,
    8⟩], [⟨0, 1, 6⟩, ⟨1, 0, 1⟩, ⟨1, 1, 7⟩, ⟨1, 2, 13⟩], [⟨0, 2, 12⟩, ⟨2, 0, 2⟩, ⟨2, 2, 14⟩]]⟩⟩],
    by decide +kernel, by decide +kernel⟩

theorem child23_0l1_2l0 : AllDone (child (0, false, 1) (2, false, 0)) := by
  refine allDone_of [list23_0l1_2l0_0, list23_0l1_2l0_1] ?_ (by decide +kernel)
  simp only [List.forall_mem_cons, List.not_mem_nil, false_imp_iff, implies_true, and_true]
  exact ⟨done23_0l1_2l0_0, done23_0l1_2l0_1⟩

theorem child23_0l1_2l1 : AllDone (child (0, false, 1) (2, false, 1)) :=
  allDone_of [] (by simp) (by decide +kernel)

theorem child23_0l1_2r0 : AllDone (child (0, false, 1) (2, true, 0)) :=
  allDone_of [] (by simp) (by decide +kernel)

def list23_0l1_2r1_0 : List Listed := [
  ⟨7049329974202381, [((0, 0), (1, true, 1)), ((0, 1), (1, false, 0)), ((0, 2), (0, false, 1)),
  ((1, 0), (0, false, 1)), ((1, 1), (2, true, 1)), ((1, 2), (1, false, 0))]⟩,
  ⟨7049329976299533, [((0, 0), (1, true, 1)), ((0, 1), (1, false, 0)), ((0, 2), (1, false, 1)),
  ((1, 0), (0, false, 1)), ((1, 1), (2, true, 1)), ((1, 2), (1, false, 0))]⟩,
  ⟨7049329973946381, [((0, 0), (1, true, 1)), ((0, 1), (2, true, 0)), ((0, 2), (0, false, 0)),
  ((1, 0), (0, false, 1)), ((1, 1), (2, true, 1)), ((1, 2), (1, false, 0))]⟩,
  ⟨7049329974208525, [((0, 0), (1, true, 1)), ((0, 1), (2, true, 0)), ((0, 2), (0, false, 1)),
  ((1, 0), (0, false, 1)), ((1, 1), (2, true, 1)), ((1, 2), (1, false, 0))]⟩,
  ⟨7049329976305677, [((0, 0), (1, true, 1)), ((0, 1), (2, true, 0)), ((0, 2), (1, false, 1)),
  ((1, 0), (0, false, 1)), ((1, 1), (2, true, 1)), ((1, 2), (1, false, 0))]⟩]

theorem done23_0l1_2r1_0 : ∃ h, Done list23_0l1_2r1_0 h :=
  ⟨[
    ⟨7049329974202381, ⟨24, 12, 2, [[0, 1, 2], [1, 1, 1], [2, 3, 0], [3, 3, 3]], [[0, 1, 1], [0,
    1, 1]], [[⟨0, 0, 0⟩, ⟨2, 2, 20⟩], [⟨0, 1, 8⟩, ⟨1, 0, 2⟩, ⟨1, 1, 10⟩, ⟨1, 2, 18⟩], [⟨0, 2,
    16⟩, ⟨2, 0, 4⟩], [⟨2, 1, 12⟩, ⟨3, 0, 6⟩, ⟨3, 1, 14⟩, ⟨3, 2, 22⟩]], [[⟨0, 0, 0⟩, ⟨1, 0, 1⟩],
    [⟨0, 1, 8⟩, ⟨0, 2, 16⟩, ⟨1, 1, 9⟩, ⟨1, 2, 17⟩]]⟩⟩,
    ⟨7049329976299533, ⟨48, 12, 4, [[0, 1, 2], [2, 2, 1], [2, 3, 0], [3, 3, 3]], [[0, 1, 1], [2,
    2, 3], [0, 1, 1], [0, 3, 3]], [[⟨0, 0, 0⟩, ⟨2, 2, 40⟩], [⟨0, 1, 16⟩, ⟨1, 2, 36⟩], [⟨0, 2,
    32⟩, ⟨1, 0, 4⟩, ⟨1, 1, 20⟩, ⟨2, 0, 8⟩], [⟨2, 1, 24⟩, ⟨3, 0, 12⟩, ⟨3, 1, 28⟩, ⟨3, 2, 44⟩]],
    [[⟨0, 0, 0⟩, ⟨2, 0, 2⟩, ⟨3, 0, 3⟩], [⟨0, 1, 16⟩, ⟨0, 2, 32⟩, ⟨2, 1, 18⟩, ⟨2, 2, 34⟩], [⟨1, 0,
    1⟩, ⟨1, 1, 17⟩], [⟨1, 2, 33⟩, ⟨3, 1, 19⟩, ⟨3, 2, 35⟩]]⟩⟩,
    ⟨7049329973946381, ⟨18, 6, 3, [[0, 1, 1], [1, 1, 1]], [[0, 1, 2], [1, 1, 0], [2, 2, 2]],
    [[⟨0, 0, 0⟩], [⟨0, 1, 6⟩, ⟨0, 2, 12⟩, ⟨1, 0, 3⟩, ⟨1, 1, 9⟩, ⟨1, 2, 15⟩]], [[⟨0, 0, 0⟩, ⟨1, 2,
    13⟩], [⟨0, 1, 6⟩, ⟨1, 0, 1⟩, ⟨1, 1, 7⟩], [⟨0, 2, 12⟩, ⟨2, 0, 2⟩, ⟨2, 1, 8⟩, ⟨2, 2, 14⟩]]⟩⟩,
    ⟨7049329974208525, ⟨45, 15, 3, [[0, 1, 2], [1, 1, 1], [2, 3, 4], [3, 3, 3], [4, 1, 2]], [[0,
    1, 1], [0, 0, 2], [2, 2, 2]], [[⟨0, 0, 0⟩], [⟨0, 1, 15⟩, ⟨1, 0, 3⟩, ⟨1, 1, 18⟩, ⟨1, 2, 33⟩,
    ⟨4, 1, 27⟩], [⟨0, 2, 30⟩, ⟨2, 0, 6⟩, ⟨4, 2, 42⟩], [⟨2, 1, 21⟩, ⟨3, 0, 9⟩, ⟨3, 1, 24⟩, ⟨3, 2,
    39⟩], [⟨2, 2, 36⟩, ⟨4, 0, 12⟩]], [[⟨0, 0, 0⟩, ⟨1, 0, 1⟩, ⟨1, 1, 16⟩], [⟨0, 1, 15⟩, ⟨0, 2,
    30⟩], [⟨1, 2, 31⟩, ⟨2, 0, 2⟩, ⟨2, 1, 17⟩, ⟨2, 2, 32⟩]]⟩⟩,
    ⟨7049329976305677, ⟨45, 15, 3, [[0, 1, 2], [1, 1, 1], [2, 3, 4], [3, 3, 3], [4, 1, 2]], [[0,
    1, 2], [0, 0, 2], [2, 2, 2]], [[⟨0, 0, 0⟩], [⟨0, 1, 15⟩, ⟨1, 0, 3⟩, ⟨1, 1, 18⟩, ⟨1, 2, 33⟩,
    ⟨4, 1, 27⟩], [⟨0, 2, 30⟩, ⟨2, 0, 6⟩, ⟨4, 2, 42⟩], [⟨2, 1, 21⟩, ⟨3, 0, 9⟩, ⟨3, 1, 24⟩, ⟨3, 2,
    39⟩], [⟨2, 2, 36⟩, ⟨4, 0, 12⟩]], [[⟨0, 0, 0⟩, ⟨1, 0, 1⟩, ⟨1, 1, 16⟩], [⟨0, 1, 15⟩], [⟨0, 2,
    30⟩, ⟨1, 2, 31⟩, ⟨2, 0, 2⟩, ⟨2, 1, 17⟩, ⟨2, 2, 32⟩]]⟩⟩],
    by decide +kernel, by decide +kernel⟩

theorem child23_0l1_2r1 : AllDone (child (0, false, 1) (2, true, 1)) := by
  refine allDone_of [list23_0l1_2r1_0] ?_ (by decide +kernel)
  simp only [List.forall_mem_cons, List.not_mem_nil, false_imp_iff, implies_true, and_true]
  exact done23_0l1_2r1_0

theorem part23_0l1 : AllDone (fullPart 2 3 38 (0, false, 1)) := by
  refine allDone_full (by decide +kernel) ?_
  simp only [kids, List.forall_mem_cons, List.not_mem_nil, false_imp_iff, implies_true, and_true]
  exact ⟨child23_0l1_0l0,
    child23_0l1_0l1,
    child23_0l1_0r0,
    child23_0l1_0r1,
    child23_0l1_1l0,
    child23_0l1_1l1,
    child23_0l1_1r0,
    child23_0l1_1r1,
    child23_0l1_2l0,
    child23_0l1_2l1,
    child23_0l1_2r0,
    child23_0l1_2r1⟩

theorem part23_0r0 : AllDone (fullPart 2 3 38 (0, true, 0)) :=
  allDone_of [] (by simp) (by decide +kernel)

theorem part23_0r1 : AllDone (fullPart 2 3 38 (0, true, 1)) :=
  allDone_of [] (by simp) (by decide +kernel)

theorem child23_1l0_0l0 : AllDone (child (1, false, 0) (0, false, 0)) :=
  allDone_of [] (by simp) (by decide +kernel)

def list23_1l0_0l1_0 : List Listed := [
  ⟨13218334392845, [((0, 0), (1, true, 1)), ((0, 1), (0, false, 1)), ((1, 0), (1, false, 0)),
  ((1, 1), (2, true, 0)), ((1, 2), (0, false, 0))]⟩,
  ⟨13287053869581, [((0, 0), (1, true, 1)), ((0, 1), (0, false, 1)), ((1, 0), (1, false, 0)),
  ((1, 1), (2, true, 0)), ((1, 2), (0, false, 1))]⟩,
  ⟨13768090206733, [((0, 0), (1, true, 1)), ((0, 1), (0, false, 1)), ((1, 0), (1, false, 0)),
  ((1, 1), (2, true, 0)), ((1, 2), (1, false, 0))]⟩,
  ⟨14111687590413, [((0, 0), (1, true, 1)), ((0, 1), (0, false, 1)), ((1, 0), (1, false, 0)),
  ((1, 1), (2, true, 0)), ((1, 2), (1, true, 1))]⟩,
  ⟨14317846020621, [((0, 0), (1, true, 1)), ((0, 1), (0, false, 1)), ((1, 0), (1, false, 0)),
  ((1, 1), (2, true, 0)), ((1, 2), (2, false, 0))]⟩,
  ⟨7365921542783501, [((0, 0), (1, true, 1)), ((0, 1), (0, false, 1)), ((0, 2), (0, false, 0)),
  ((1, 0), (1, false, 0)), ((1, 1), (2, true, 0)), ((1, 2), (2, false, 1))]⟩,
  ⟨7365921543832077, [((0, 0), (1, true, 1)), ((0, 1), (0, false, 1)), ((0, 2), (0, true, 0)),
  ((1, 0), (1, false, 0)), ((1, 1), (2, true, 0)), ((1, 2), (2, false, 1))]⟩,
  ⟨7506659031138829, [((0, 0), (1, true, 1)), ((0, 1), (0, false, 1)), ((0, 2), (0, false, 0)),
  ((1, 0), (1, false, 0)), ((1, 1), (2, true, 0)), ((1, 2), (2, true, 1))]⟩,
  ⟨7506659032187405, [((0, 0), (1, true, 1)), ((0, 1), (0, false, 1)), ((0, 2), (0, true, 0)),
  ((1, 0), (1, false, 0)), ((1, 1), (2, true, 0)), ((1, 2), (2, true, 1))]⟩,
  ⟨6803040311198221, [((0, 0), (1, true, 1)), ((0, 1), (0, false, 1)), ((0, 2), (1, false, 1)),
  ((1, 0), (1, false, 0)), ((1, 1), (2, true, 1)), ((1, 2), (0, false, 1))]⟩]

theorem done23_1l0_0l1_0 : ∃ h, Done list23_1l0_0l1_0 h :=
  ⟨[
    ⟨13218334392845, ⟨48, 12, 4, [[0, 0, 1], [2, 2, 3], [1, 1, 1], [3, 3, 3]], [[0, 1, 2], [3, 2,
    2], [2, 2, 2], [1, 1, 1]], [[⟨0, 0, 0⟩, ⟨0, 1, 16⟩], [⟨0, 2, 32⟩, ⟨2, 0, 8⟩, ⟨2, 1, 24⟩, ⟨2,
    2, 40⟩], [⟨1, 0, 4⟩, ⟨1, 1, 20⟩], [⟨1, 2, 36⟩, ⟨3, 0, 12⟩, ⟨3, 1, 28⟩, ⟨3, 2, 44⟩]], [[⟨0, 0,
    0⟩], [⟨0, 1, 16⟩, ⟨3, 0, 3⟩, ⟨3, 1, 19⟩, ⟨3, 2, 35⟩], [⟨0, 2, 32⟩, ⟨1, 1, 17⟩, ⟨1, 2, 33⟩,
    ⟨2, 0, 2⟩, ⟨2, 1, 18⟩, ⟨2, 2, 34⟩], [⟨1, 0, 1⟩]]⟩⟩,
    ⟨13287053869581, ⟨84, 21, 4, [[0, 1, 2], [1, 0, 3], [4, 1, 2], [5, 0, 3], [2, 6, 6], [3, 6,
    6], [6, 6, 6]], [[0, 1, 2], [1, 3, 2], [2, 2, 2], [0, 1, 2]], [[⟨0, 0, 0⟩, ⟨1, 1, 32⟩, ⟨3, 1,
    40⟩], [⟨0, 1, 28⟩, ⟨1, 0, 4⟩, ⟨2, 1, 36⟩], [⟨0, 2, 56⟩, ⟨2, 2, 64⟩, ⟨4, 0, 16⟩], [⟨1, 2, 60⟩,
    ⟨3, 2, 68⟩, ⟨5, 0, 20⟩], [⟨2, 0, 8⟩], [⟨3, 0, 12⟩], [⟨4, 1, 44⟩, ⟨4, 2, 72⟩, ⟨5, 1, 48⟩, ⟨5,
    2, 76⟩, ⟨6, 0, 24⟩, ⟨6, 1, 52⟩, ⟨6, 2, 80⟩]], [[⟨0, 0, 0⟩, ⟨3, 0, 3⟩], [⟨0, 1, 28⟩, ⟨1, 0,
    1⟩, ⟨3, 1, 31⟩], [⟨0, 2, 56⟩, ⟨1, 2, 57⟩, ⟨2, 0, 2⟩, ⟨2, 1, 30⟩, ⟨2, 2, 58⟩, ⟨3, 2, 59⟩],
    [⟨1, 1, 29⟩]]⟩⟩,
    ⟨13768090206733, ⟨36, 12, 3, [[0, 0, 1], [2, 2, 3], [1, 1, 1], [3, 3, 3]], [[0, 1, 2], [1, 1,
    2], [2, 2, 2]], [[⟨0, 0, 0⟩, ⟨0, 1, 12⟩], [⟨0, 2, 24⟩, ⟨2, 0, 6⟩, ⟨2, 1, 18⟩, ⟨2, 2, 30⟩],
    [⟨1, 0, 3⟩, ⟨1, 1, 15⟩], [⟨1, 2, 27⟩, ⟨3, 0, 9⟩, ⟨3, 1, 21⟩, ⟨3, 2, 33⟩]], [[⟨0, 0, 0⟩], [⟨0,
    1, 12⟩, ⟨1, 0, 1⟩, ⟨1, 1, 13⟩], [⟨0, 2, 24⟩, ⟨1, 2, 25⟩, ⟨2, 0, 2⟩, ⟨2, 1, 14⟩, ⟨2, 2,
    26⟩]]⟩⟩,
    ⟨14111687590413, ⟨45, 15, 3, [[0, 1, 2], [1, 1, 2], [3, 1, 2], [2, 4, 4], [4, 4, 4]], [[0, 1,
    2], [1, 1, 2], [2, 2, 2]], [[⟨0, 0, 0⟩], [⟨0, 1, 15⟩, ⟨1, 0, 3⟩, ⟨1, 1, 18⟩, ⟨2, 1, 21⟩],
    [⟨0, 2, 30⟩, ⟨1, 2, 33⟩, ⟨2, 2, 36⟩, ⟨3, 0, 9⟩], [⟨2, 0, 6⟩], [⟨3, 1, 24⟩, ⟨3, 2, 39⟩, ⟨4, 0,
    12⟩, ⟨4, 1, 27⟩, ⟨4, 2, 42⟩]], [[⟨0, 0, 0⟩], [⟨0, 1, 15⟩, ⟨1, 0, 1⟩, ⟨1, 1, 16⟩], [⟨0, 2,
    30⟩, ⟨1, 2, 31⟩, ⟨2, 0, 2⟩, ⟨2, 1, 17⟩, ⟨2, 2, 32⟩]]⟩⟩,
    ⟨14317846020621, ⟨36, 12, 3, [[0, 0, 1], [2, 2, 3], [1, 1, 1], [3, 3, 3]], [[0, 0, 1], [2, 0,
    0], [0, 1, 1]], [[⟨0, 0, 0⟩, ⟨0, 1, 12⟩], [⟨0, 2, 24⟩, ⟨2, 0, 6⟩, ⟨2, 1, 18⟩, ⟨2, 2, 30⟩],
    [⟨1, 0, 3⟩, ⟨1, 1, 15⟩], [⟨1, 2, 27⟩, ⟨3, 0, 9⟩, ⟨3, 1, 21⟩, ⟨3, 2, 33⟩]], [[⟨0, 0, 0⟩, ⟨0,
    1, 12⟩, ⟨1, 1, 13⟩, ⟨1, 2, 25⟩, ⟨2, 0, 2⟩], [⟨0, 2, 24⟩, ⟨2, 1, 14⟩, ⟨2, 2, 26⟩], [⟨1, 0,
    1⟩]]⟩⟩,
    ⟨7365921542783501, ⟨255, 51, 5, [[0, 1, 2], [0, 1, 3], [1, 4, 5], [6, 4, 3], [7, 1, 3], [1,
    4, 3], [1, 8, 9], [1, 8, 10], [7, 11, 12], [6, 8, 9], [1, 8, 6], [0, 13, 9], [14, 15, 12],
    [0, 11, 12], [8, 16, 16], [7, 13, 9], [16, 16, 16]], [[0, 1, 0], [2, 1, 0], [3, 1, 3], [4, 4,
    3], [4, 4, 3]], [[⟨0, 0, 0⟩, ⟨1, 0, 5⟩, ⟨11, 0, 55⟩, ⟨13, 0, 65⟩], [⟨0, 1, 85⟩, ⟨1, 1, 90⟩,
    ⟨2, 0, 10⟩, ⟨4, 1, 105⟩, ⟨5, 0, 25⟩, ⟨6, 0, 30⟩, ⟨7, 0, 35⟩, ⟨10, 0, 50⟩], [⟨0, 2, 170⟩],
    [⟨1, 2, 175⟩, ⟨3, 2, 185⟩, ⟨4, 2, 190⟩, ⟨5, 2, 195⟩], [⟨2, 1, 95⟩, ⟨3, 1, 100⟩, ⟨5, 1, 110⟩],
    [⟨2, 2, 180⟩], [⟨3, 0, 15⟩, ⟨9, 0, 45⟩, ⟨10, 2, 220⟩], [⟨4, 0, 20⟩, ⟨8, 0, 40⟩, ⟨15, 0, 75⟩],
    [⟨6, 1, 115⟩, ⟨7, 1, 120⟩, ⟨9, 1, 130⟩, ⟨10, 1, 135⟩, ⟨14, 0, 70⟩], [⟨6, 2, 200⟩, ⟨9, 2,
    215⟩, ⟨11, 2, 225⟩, ⟨15, 2, 245⟩], [⟨7, 2, 205⟩], [⟨8, 1, 125⟩, ⟨13, 1, 150⟩], [⟨8, 2, 210⟩,
    ⟨12, 2, 230⟩, ⟨13, 2, 235⟩], [⟨11, 1, 140⟩, ⟨15, 1, 160⟩], [⟨12, 0, 60⟩], [⟨12, 1, 145⟩],
    [⟨14, 1, 155⟩, ⟨14, 2, 240⟩, ⟨16, 0, 80⟩, ⟨16, 1, 165⟩, ⟨16, 2, 250⟩]], [[⟨0, 0, 0⟩, ⟨0, 2,
    170⟩, ⟨1, 2, 171⟩], [⟨0, 1, 85⟩, ⟨1, 1, 86⟩, ⟨2, 1, 87⟩], [⟨1, 0, 1⟩], [⟨2, 0, 2⟩, ⟨2, 2,
    172⟩, ⟨3, 2, 173⟩, ⟨4, 2, 174⟩], [⟨3, 0, 3⟩, ⟨3, 1, 88⟩, ⟨4, 0, 4⟩, ⟨4, 1, 89⟩]]⟩⟩,
    ⟨7365921543832077, ⟨63, 9, 7, [[0, 0, 1], [0, 2, 0], [0, 0, 0]], [[0, 1, 2], [3, 4, 2], [2,
    2, 2], [2, 5, 6], [5, 1, 2], [4, 2, 2], [6, 6, 6]], [[⟨0, 0, 0⟩, ⟨0, 1, 21⟩, ⟨1, 0, 7⟩, ⟨1,
    2, 49⟩, ⟨2, 0, 14⟩, ⟨2, 1, 35⟩, ⟨2, 2, 56⟩], [⟨0, 2, 42⟩], [⟨1, 1, 28⟩]], [[⟨0, 0, 0⟩], [⟨0,
    1, 21⟩, ⟨4, 1, 25⟩], [⟨0, 2, 42⟩, ⟨1, 2, 43⟩, ⟨2, 0, 2⟩, ⟨2, 1, 23⟩, ⟨2, 2, 44⟩, ⟨3, 0, 3⟩,
    ⟨4, 2, 46⟩, ⟨5, 1, 26⟩, ⟨5, 2, 47⟩], [⟨1, 0, 1⟩], [⟨1, 1, 22⟩, ⟨5, 0, 5⟩], [⟨3, 1, 24⟩, ⟨4,
    0, 4⟩], [⟨3, 2, 45⟩, ⟨6, 0, 6⟩, ⟨6, 1, 27⟩, ⟨6, 2, 48⟩]]⟩⟩,
    ⟨7506659031138829, ⟨36, 9, 4, [[0, 1, 2], [0, 0, 1], [0, 2, 2]], [[0, 1, 2], [3, 3, 1], [2,
    2, 2], [3, 3, 3]], [[⟨0, 0, 0⟩, ⟨1, 0, 4⟩, ⟨1, 1, 16⟩, ⟨2, 0, 8⟩], [⟨0, 1, 12⟩, ⟨1, 2, 28⟩],
    [⟨0, 2, 24⟩, ⟨2, 1, 20⟩, ⟨2, 2, 32⟩]], [[⟨0, 0, 0⟩], [⟨0, 1, 12⟩, ⟨1, 2, 25⟩], [⟨0, 2, 24⟩,
    ⟨2, 0, 2⟩, ⟨2, 1, 14⟩, ⟨2, 2, 26⟩], [⟨1, 0, 1⟩, ⟨1, 1, 13⟩, ⟨3, 0, 3⟩, ⟨3, 1, 15⟩, ⟨3, 2,
    27⟩]]⟩⟩,
    ⟨7506659032187405, ⟨36, 9, 4, [[0, 1, 2], [1, 0, 1], [0, 1, 2]], [[0, 1, 2], [1, 3, 1], [2,
    2, 2], [3, 1, 3]], [[⟨0, 0, 0⟩, ⟨1, 1, 16⟩, ⟨2, 0, 8⟩], [⟨0, 1, 12⟩, ⟨1, 0, 4⟩, ⟨1, 2, 28⟩,
    ⟨2, 1, 20⟩], [⟨0, 2, 24⟩, ⟨2, 2, 32⟩]], [[⟨0, 0, 0⟩], [⟨0, 1, 12⟩, ⟨1, 0, 1⟩, ⟨1, 2, 25⟩, ⟨3,
    1, 15⟩], [⟨0, 2, 24⟩, ⟨2, 0, 2⟩, ⟨2, 1, 14⟩, ⟨2, 2, 26⟩], [⟨1, 1, 13⟩, ⟨3, 0, 3⟩, ⟨3, 2,
    27⟩]]⟩⟩,
    ⟨6803040311198221, ⟨36, 9, 4, [[0, 0, 1], [0, 2, 1], [0, 0, 0]], [[0, 1, 2], [3, 3, 3], [2,
    2, 2], [3, 3, 3]], [[⟨0, 0, 0⟩, ⟨0, 1, 12⟩, ⟨1, 0, 4⟩, ⟨2, 0, 8⟩, ⟨2, 1, 20⟩, ⟨2, 2, 32⟩],
    [⟨0, 2, 24⟩, ⟨1, 2, 28⟩], [⟨1, 1, 16⟩]], [[⟨0, 0, 0⟩], [⟨0, 1, 12⟩], [⟨0, 2, 24⟩, ⟨2, 0, 2⟩,
    ⟨2, 1, 14⟩, ⟨2, 2, 26⟩], [⟨1, 0, 1⟩, ⟨1, 1, 13⟩, ⟨1, 2, 25⟩, ⟨3, 0, 3⟩, ⟨3, 1, 15⟩, ⟨3, 2,
    27⟩]]⟩⟩],
    by decide +kernel, by decide +kernel⟩

theorem child23_1l0_0l1 : AllDone (child (1, false, 0) (0, false, 1)) := by
  refine allDone_of [list23_1l0_0l1_0] ?_ (by decide +kernel)
  simp only [List.forall_mem_cons, List.not_mem_nil, false_imp_iff, implies_true, and_true]
  exact done23_1l0_0l1_0

theorem child23_1l0_0r0 : AllDone (child (1, false, 0) (0, true, 0)) :=
  allDone_of [] (by simp) (by decide +kernel)

end BB.Records
