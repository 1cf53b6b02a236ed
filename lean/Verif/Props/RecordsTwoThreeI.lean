import Verif.Props.RecordsTwoThreeH

/-!
# C79 for two states and three colours: programs with some instructions at B0
-/

namespace BB.Records

open Watch

def list23_2l1_0r0_0 : List Listed := [
  ⟨13559786676237, [((0, 0), (1, true, 1)), ((0, 2), (2, false, 0)), ((1, 0), (2, false, 1)),
  ((1, 1), (0, true, 0)), ((1, 2), (0, true, 1))]⟩]

theorem done23_2l1_0r0_0 : ∃ h, Done list23_2l1_0r0_0 h :=
  ⟨[
    ⟨13559786676237, ⟨54, 9, 6, [[0, 1, 0], [1, 2, 1], [0, 1, 2]], [[0, 1, 2], [1, 1, 1], [2, 3,
    2], [4, 1, 3], [1, 5, 1], [2, 1, 2]], [[⟨0, 0, 0⟩, ⟨0, 2, 36⟩, ⟨2, 0, 12⟩], [⟨0, 1, 18⟩, ⟨1,
    0, 6⟩, ⟨1, 2, 42⟩, ⟨2, 1, 30⟩], [⟨1, 1, 24⟩, ⟨2, 2, 48⟩]], [[⟨0, 0, 0⟩], [⟨0, 1, 18⟩, ⟨1, 0,
    1⟩, ⟨1, 1, 19⟩, ⟨1, 2, 37⟩, ⟨3, 1, 21⟩, ⟨4, 0, 4⟩, ⟨4, 2, 40⟩, ⟨5, 1, 23⟩], [⟨0, 2, 36⟩, ⟨2,
    0, 2⟩, ⟨2, 2, 38⟩, ⟨5, 0, 5⟩, ⟨5, 2, 41⟩], [⟨2, 1, 20⟩, ⟨3, 2, 39⟩], [⟨3, 0, 3⟩], [⟨4, 1,
    22⟩]]⟩⟩],
    by decide +kernel, by decide +kernel⟩

theorem child23_2l1_0r0 : AllDone (child (2, false, 1) (0, true, 0)) := by
  refine allDone_of [list23_2l1_0r0_0] ?_ (by decide +kernel)
  simp only [List.forall_mem_cons, List.not_mem_nil, false_imp_iff, implies_true, and_true]
  exact done23_2l1_0r0_0

def list23_2l1_0r1_0 : List Listed := [
  ⟨14315835117581, [((0, 0), (1, true, 1)), ((0, 1), (1, false, 0)), ((1, 0), (2, false, 1)),
  ((1, 1), (0, true, 1)), ((1, 2), (2, false, 0))]⟩]

theorem done23_2l1_0r1_0 : ∃ h, Done list23_2l1_0r1_0 h :=
  ⟨[
    ⟨14315835117581, ⟨12, 6, 2, [[0, 0, 1], [1, 1, 1]], [[0, 0, 1], [0, 1, 1]], [[⟨0, 0, 0⟩, ⟨0,
    1, 4⟩], [⟨0, 2, 8⟩, ⟨1, 0, 2⟩, ⟨1, 1, 6⟩, ⟨1, 2, 10⟩]], [[⟨0, 0, 0⟩, ⟨0, 1, 4⟩, ⟨1, 0, 1⟩],
    [⟨0, 2, 8⟩, ⟨1, 1, 5⟩, ⟨1, 2, 9⟩]]⟩⟩],
    by decide +kernel, by decide +kernel⟩

theorem child23_2l1_0r1 : AllDone (child (2, false, 1) (0, true, 1)) := by
  refine allDone_of [list23_2l1_0r1_0] ?_ (by decide +kernel)
  simp only [List.forall_mem_cons, List.not_mem_nil, false_imp_iff, implies_true, and_true]
  exact done23_2l1_0r1_0

def list23_2l1_1l0_0 : List Listed := [
  ⟨6942885656152077, [((0, 0), (1, true, 1)), ((0, 1), (0, true, 0)), ((0, 2), (2, false, 0)),
  ((1, 0), (2, false, 1)), ((1, 1), (1, false, 0)), ((1, 2), (0, true, 1))]⟩,
  ⟨6907701281183757, [((0, 0), (1, true, 1)), ((0, 1), (1, true, 0)), ((0, 2), (0, true, 1)),
  ((1, 0), (2, false, 1)), ((1, 1), (1, false, 0)), ((1, 2), (0, true, 0))]⟩,
  ⟨6942885653272589, [((0, 0), (1, true, 1)), ((0, 1), (1, true, 0)), ((0, 2), (0, true, 1)),
  ((1, 0), (2, false, 1)), ((1, 1), (1, false, 0)), ((1, 2), (0, true, 1))]⟩,
  ⟨6942885657466893, [((0, 0), (1, true, 1)), ((0, 1), (1, true, 0)), ((0, 2), (2, true, 1)),
  ((1, 0), (2, false, 1)), ((1, 1), (1, false, 0)), ((1, 2), (0, true, 1))]⟩,
  ⟨6907701280137229, [((0, 0), (1, true, 1)), ((0, 1), (2, false, 0)), ((0, 2), (0, false, 1)),
  ((1, 0), (2, false, 1)), ((1, 1), (1, false, 0)), ((1, 2), (0, true, 0))]⟩,
  ⟨6907701280923661, [((0, 0), (1, true, 1)), ((0, 1), (2, false, 0)), ((0, 2), (0, true, 0)),
  ((1, 0), (2, false, 1)), ((1, 1), (1, false, 0)), ((1, 2), (0, true, 0))]⟩,
  ⟨6907701281185805, [((0, 0), (1, true, 1)), ((0, 1), (2, false, 0)), ((0, 2), (0, true, 1)),
  ((1, 0), (2, false, 1)), ((1, 1), (1, false, 0)), ((1, 2), (0, true, 0))]⟩,
  ⟨6907701282234381, [((0, 0), (1, true, 1)), ((0, 1), (2, false, 0)), ((0, 2), (1, false, 1)),
  ((1, 0), (2, false, 1)), ((1, 1), (1, false, 0)), ((1, 2), (0, true, 0))]⟩,
  ⟨6907701284331533, [((0, 0), (1, true, 1)), ((0, 1), (2, false, 0)), ((0, 2), (2, false, 1)),
  ((1, 0), (2, false, 1)), ((1, 1), (1, false, 0)), ((1, 2), (0, true, 0))]⟩,
  ⟨13560323530765, [((0, 0), (1, true, 1)), ((0, 1), (2, false, 0)), ((1, 0), (2, false, 1)),
  ((1, 1), (1, false, 0)), ((1, 2), (0, true, 1))]⟩,
  ⟨7189176257634317, [((0, 0), (1, true, 1)), ((0, 1), (2, false, 0)), ((0, 2), (0, true, 0)),
  ((1, 0), (2, false, 1)), ((1, 1), (1, false, 0)), ((1, 2), (1, true, 0))]⟩,
  ⟨14110079344653, [((0, 0), (1, true, 1)), ((0, 1), (2, false, 0)), ((1, 0), (2, false, 1)),
  ((1, 1), (1, false, 0)), ((1, 2), (1, true, 1))]⟩,
  ⟨7470651234344973, [((0, 0), (1, true, 1)), ((0, 1), (2, false, 0)), ((0, 2), (0, true, 0)),
  ((1, 0), (2, false, 1)), ((1, 1), (1, false, 0)), ((1, 2), (2, true, 0))]⟩,
  ⟨7470651233560589, [((0, 0), (1, true, 1)), ((0, 1), (2, true, 0)), ((0, 2), (0, false, 1)),
  ((1, 0), (2, false, 1)), ((1, 1), (1, false, 0)), ((1, 2), (2, true, 0))]⟩,
  ⟨11564352563213, [((0, 0), (1, true, 1)), ((0, 1), (2, true, 0)), ((0, 2), (1, false, 0)), ((1,
  0), (2, false, 1)), ((1, 1), (1, false, 0))]⟩,
  ⟨6942885654325261, [((0, 0), (1, true, 1)), ((0, 1), (2, true, 0)), ((0, 2), (1, false, 1)),
  ((1, 0), (2, false, 1)), ((1, 1), (1, false, 0)), ((1, 2), (0, true, 1))]⟩,
  ⟨7224360631035917, [((0, 0), (1, true, 1)), ((0, 1), (2, true, 0)), ((0, 2), (1, false, 1)),
  ((1, 0), (2, false, 1)), ((1, 1), (1, false, 0)), ((1, 2), (1, true, 1))]⟩,
  ⟨7470651235657741, [((0, 0), (1, true, 1)), ((0, 1), (2, true, 0)), ((0, 2), (1, false, 1)),
  ((1, 0), (2, false, 1)), ((1, 1), (1, false, 0)), ((1, 2), (2, true, 0))]⟩,
  ⟨6942885656160269, [((0, 0), (1, true, 1)), ((0, 1), (2, true, 0)), ((0, 2), (2, false, 0)),
  ((1, 0), (2, false, 1)), ((1, 1), (1, false, 0)), ((1, 2), (0, true, 1))]⟩,
  ⟨6942885655112205, [((0, 0), (1, true, 1)), ((0, 1), (2, true, 1)), ((0, 2), (1, true, 0)),
  ((1, 0), (2, false, 1)), ((1, 1), (1, false, 0)), ((1, 2), (0, true, 1))]⟩]

theorem done23_2l1_1l0_0 : ∃ h, Done list23_2l1_1l0_0 h :=
  ⟨[
    ⟨6942885656152077, ⟨18, 6, 3, [[0, 1, 0], [1, 1, 0]], [[0, 1, 2], [1, 1, 1], [2, 2, 2]],
    [[⟨0, 0, 0⟩, ⟨0, 2, 12⟩, ⟨1, 2, 15⟩], [⟨0, 1, 6⟩, ⟨1, 0, 3⟩, ⟨1, 1, 9⟩]], [[⟨0, 0, 0⟩], [⟨0,
    1, 6⟩, ⟨1, 0, 1⟩, ⟨1, 1, 7⟩, ⟨1, 2, 13⟩], [⟨0, 2, 12⟩, ⟨2, 0, 2⟩, ⟨2, 1, 8⟩, ⟨2, 2, 14⟩]]⟩⟩,
    ⟨6907701281183757, ⟨12, 6, 2, [[0, 1, 0], [1, 1, 0]], [[0, 1, 0], [0, 1, 1]], [[⟨0, 0, 0⟩,
    ⟨0, 2, 8⟩, ⟨1, 2, 10⟩], [⟨0, 1, 4⟩, ⟨1, 0, 2⟩, ⟨1, 1, 6⟩]], [[⟨0, 0, 0⟩, ⟨0, 2, 8⟩, ⟨1, 0,
    1⟩], [⟨0, 1, 4⟩, ⟨1, 1, 5⟩, ⟨1, 2, 9⟩]]⟩⟩,
    ⟨6942885653272589, ⟨12, 6, 2, [[0, 1, 0], [1, 1, 0]], [[0, 1, 0], [0, 1, 1]], [[⟨0, 0, 0⟩,
    ⟨0, 2, 8⟩, ⟨1, 2, 10⟩], [⟨0, 1, 4⟩, ⟨1, 0, 2⟩, ⟨1, 1, 6⟩]], [[⟨0, 0, 0⟩, ⟨0, 2, 8⟩, ⟨1, 0,
    1⟩], [⟨0, 1, 4⟩, ⟨1, 1, 5⟩, ⟨1, 2, 9⟩]]⟩⟩,
    ⟨6942885657466893, ⟨12, 6, 2, [[0, 1, 0], [1, 1, 1]], [[0, 1, 0], [0, 1, 1]], [[⟨0, 0, 0⟩,
    ⟨0, 2, 8⟩], [⟨0, 1, 4⟩, ⟨1, 0, 2⟩, ⟨1, 1, 6⟩, ⟨1, 2, 10⟩]], [[⟨0, 0, 0⟩, ⟨0, 2, 8⟩, ⟨1, 0,
    1⟩], [⟨0, 1, 4⟩, ⟨1, 1, 5⟩, ⟨1, 2, 9⟩]]⟩⟩,
    ⟨6907701280137229, ⟨30, 15, 2, [[0, 1, 2], [3, 3, 4], [2, 2, 2], [3, 3, 3], [3, 1, 3]], [[0,
    0, 1], [1, 1, 1]], [[⟨0, 0, 0⟩], [⟨0, 1, 10⟩, ⟨4, 1, 18⟩], [⟨0, 2, 20⟩, ⟨2, 0, 4⟩, ⟨2, 1,
    14⟩, ⟨2, 2, 24⟩], [⟨1, 0, 2⟩, ⟨1, 1, 12⟩, ⟨3, 0, 6⟩, ⟨3, 1, 16⟩, ⟨3, 2, 26⟩, ⟨4, 0, 8⟩, ⟨4,
    2, 28⟩], [⟨1, 2, 22⟩]], [[⟨0, 0, 0⟩, ⟨0, 1, 10⟩], [⟨0, 2, 20⟩, ⟨1, 0, 1⟩, ⟨1, 1, 11⟩, ⟨1, 2,
    21⟩]]⟩⟩,
    ⟨6907701280923661, ⟨24, 12, 2, [[0, 1, 2], [1, 3, 3], [2, 2, 2], [3, 3, 3]], [[0, 0, 1], [0,
    0, 1]], [[⟨0, 0, 0⟩], [⟨0, 1, 8⟩, ⟨1, 0, 2⟩], [⟨0, 2, 16⟩, ⟨2, 0, 4⟩, ⟨2, 1, 12⟩, ⟨2, 2,
    20⟩], [⟨1, 1, 10⟩, ⟨1, 2, 18⟩, ⟨3, 0, 6⟩, ⟨3, 1, 14⟩, ⟨3, 2, 22⟩]], [[⟨0, 0, 0⟩, ⟨0, 1, 8⟩,
    ⟨1, 0, 1⟩, ⟨1, 1, 9⟩], [⟨0, 2, 16⟩, ⟨1, 2, 17⟩]]⟩⟩,
    ⟨6907701281185805, ⟨18, 9, 2, [[0, 1, 2], [1, 1, 1], [2, 2, 2]], [[0, 0, 1], [0, 1, 1]],
    [[⟨0, 0, 0⟩], [⟨0, 1, 6⟩, ⟨1, 0, 2⟩, ⟨1, 1, 8⟩, ⟨1, 2, 14⟩], [⟨0, 2, 12⟩, ⟨2, 0, 4⟩, ⟨2, 1,
    10⟩, ⟨2, 2, 16⟩]], [[⟨0, 0, 0⟩, ⟨0, 1, 6⟩, ⟨1, 0, 1⟩], [⟨0, 2, 12⟩, ⟨1, 1, 7⟩, ⟨1, 2, 13⟩]]⟩⟩,
    ⟨6907701282234381, ⟨30, 15, 2, [[0, 1, 2], [3, 3, 4], [2, 2, 2], [3, 3, 3], [3, 1, 3]], [[0,
    0, 1], [0, 1, 1]], [[⟨0, 0, 0⟩], [⟨0, 1, 10⟩, ⟨4, 1, 18⟩], [⟨0, 2, 20⟩, ⟨2, 0, 4⟩, ⟨2, 1,
    14⟩, ⟨2, 2, 24⟩], [⟨1, 0, 2⟩, ⟨1, 1, 12⟩, ⟨3, 0, 6⟩, ⟨3, 1, 16⟩, ⟨3, 2, 26⟩, ⟨4, 0, 8⟩, ⟨4,
    2, 28⟩], [⟨1, 2, 22⟩]], [[⟨0, 0, 0⟩, ⟨0, 1, 10⟩, ⟨1, 0, 1⟩], [⟨0, 2, 20⟩, ⟨1, 1, 11⟩, ⟨1, 2,
    21⟩]]⟩⟩,
    ⟨6907701284331533, ⟨18, 9, 2, [[0, 1, 2], [1, 1, 1], [2, 2, 2]], [[0, 0, 1], [0, 1, 1]],
    [[⟨0, 0, 0⟩], [⟨0, 1, 6⟩, ⟨1, 0, 2⟩, ⟨1, 1, 8⟩, ⟨1, 2, 14⟩], [⟨0, 2, 12⟩, ⟨2, 0, 4⟩, ⟨2, 1,
    10⟩, ⟨2, 2, 16⟩]], [[⟨0, 0, 0⟩, ⟨0, 1, 6⟩, ⟨1, 0, 1⟩], [⟨0, 2, 12⟩, ⟨1, 1, 7⟩, ⟨1, 2, 13⟩]]⟩⟩,
    ⟨13560323530765, ⟨12, 6, 2, [[0, 0, 1], [1, 1, 1]], [[0, 1, 0], [0, 1, 1]], [[⟨0, 0, 0⟩, ⟨0,
    1, 4⟩], [⟨0, 2, 8⟩, ⟨1, 0, 2⟩, ⟨1, 1, 6⟩, ⟨1, 2, 10⟩]], [[⟨0, 0, 0⟩, ⟨0, 2, 8⟩, ⟨1, 0, 1⟩],
    [⟨0, 1, 4⟩, ⟨1, 1, 5⟩, ⟨1, 2, 9⟩]]⟩⟩,
    ⟨7189176257634317, ⟨24, 12, 2, [[0, 1, 2], [1, 3, 3], [2, 2, 2], [3, 3, 3]], [[0, 0, 1], [0,
    0, 1]], [[⟨0, 0, 0⟩], [⟨0, 1, 8⟩, ⟨1, 0, 2⟩], [⟨0, 2, 16⟩, ⟨2, 0, 4⟩, ⟨2, 1, 12⟩, ⟨2, 2,
    20⟩], [⟨1, 1, 10⟩, ⟨1, 2, 18⟩, ⟨3, 0, 6⟩, ⟨3, 1, 14⟩, ⟨3, 2, 22⟩]], [[⟨0, 0, 0⟩, ⟨0, 1, 8⟩,
    ⟨1, 0, 1⟩, ⟨1, 1, 9⟩], [⟨0, 2, 16⟩, ⟨1, 2, 17⟩]]⟩⟩,
    ⟨14110079344653, ⟨12, 6, 2, [[0, 0, 1], [1, 1, 1]], [[0, 1, 0], [0, 1, 1]], [[⟨0, 0, 0⟩, ⟨0,
    1, 4⟩], [⟨0, 2, 8⟩, ⟨1, 0, 2⟩, ⟨1, 1, 6⟩, ⟨1, 2, 10⟩]], [[⟨0, 0, 0⟩, ⟨0, 2, 8⟩, ⟨1, 0, 1⟩],
    [⟨0, 1, 4⟩, ⟨1, 1, 5⟩, ⟨1, 2, 9⟩]]⟩⟩,
    ⟨7470651234344973, ⟨24, 12, 2, [[0, 1, 2], [1, 3, 3], [2, 2, 2], [3, 3, 3]], [[0, 0, 1], [0,
    0, 1]], [[⟨0, 0, 0⟩], [⟨0, 1, 8⟩, ⟨1, 0, 2⟩], [⟨0, 2, 16⟩, ⟨2, 0, 4⟩, ⟨2, 1, 12⟩, ⟨2, 2,
    20⟩], [⟨1, 1, 10⟩, ⟨1, 2, 18⟩, ⟨3, 0, 6⟩, ⟨3, 1, 14⟩, ⟨3, 2, 22⟩]], [[⟨0, 0, 0⟩, ⟨0, 1, 8⟩,
    ⟨1, 0, 1⟩, ⟨1, 1, 9⟩], [⟨0, 2, 16⟩, ⟨1, 2, 17⟩]]⟩⟩,
    ⟨7470651233560589, ⟨36, 9, 4, [[0, 0, 1], [0, 0, 2], [0, 2, 2]], [[0, 1, 0], [2, 1, 1], [0,
    1, 3], [2, 1, 2]], [[⟨0, 0, 0⟩, ⟨0, 1, 12⟩, ⟨1, 0, 4⟩, ⟨1, 1, 16⟩, ⟨2, 0, 8⟩], [⟨0, 2, 24⟩],
    [⟨1, 2, 28⟩, ⟨2, 1, 20⟩, ⟨2, 2, 32⟩]], [[⟨0, 0, 0⟩, ⟨0, 2, 24⟩, ⟨2, 0, 2⟩], [⟨0, 1, 12⟩, ⟨1,
    1, 13⟩, ⟨1, 2, 25⟩, ⟨2, 1, 14⟩, ⟨3, 1, 15⟩], [⟨1, 0, 1⟩, ⟨3, 0, 3⟩, ⟨3, 2, 27⟩], [⟨2, 2,
    26⟩]]⟩⟩,
    ⟨11564352563213, ⟨45, 9, 5, [[0, 0, 1], [0, 2, 1], [0, 0, 0]], [[0, 1, 2], [0, 1, 2], [3, 1,
    2], [2, 4, 4], [4, 4, 4]], [[⟨0, 0, 0⟩, ⟨0, 1, 15⟩, ⟨1, 0, 5⟩, ⟨2, 0, 10⟩, ⟨2, 1, 25⟩, ⟨2, 2,
    40⟩], [⟨0, 2, 30⟩, ⟨1, 2, 35⟩], [⟨1, 1, 20⟩]], [[⟨0, 0, 0⟩, ⟨1, 0, 1⟩], [⟨0, 1, 15⟩, ⟨1, 1,
    16⟩, ⟨2, 1, 17⟩], [⟨0, 2, 30⟩, ⟨1, 2, 31⟩, ⟨2, 2, 32⟩, ⟨3, 0, 3⟩], [⟨2, 0, 2⟩], [⟨3, 1, 18⟩,
    ⟨3, 2, 33⟩, ⟨4, 0, 4⟩, ⟨4, 1, 19⟩, ⟨4, 2, 34⟩]]⟩⟩,
    ⟨6942885654325261, ⟨24, 12, 2, [[0, 1, 2], [1, 1, 1], [0, 0, 3], [0, 1, 3]], [[0, 1, 0], [0,
    1, 0]], [[⟨0, 0, 0⟩, ⟨2, 0, 4⟩, ⟨2, 1, 12⟩, ⟨3, 0, 6⟩], [⟨0, 1, 8⟩, ⟨1, 0, 2⟩, ⟨1, 1, 10⟩,
    ⟨1, 2, 18⟩, ⟨3, 1, 14⟩], [⟨0, 2, 16⟩], [⟨2, 2, 20⟩, ⟨3, 2, 22⟩]], [[⟨0, 0, 0⟩, ⟨0, 2, 16⟩,
    ⟨1, 0, 1⟩, ⟨1, 2, 17⟩], [⟨0, 1, 8⟩, ⟨1, 1, 9⟩]]⟩⟩,
    ⟨7224360631035917, ⟨24, 12, 2, [[0, 1, 2], [1, 1, 1], [1, 0, 3], [0, 1, 1]], [[0, 1, 0], [0,
    1, 0]], [[⟨0, 0, 0⟩, ⟨2, 1, 12⟩, ⟨3, 0, 6⟩], [⟨0, 1, 8⟩, ⟨1, 0, 2⟩, ⟨1, 1, 10⟩, ⟨1, 2, 18⟩,
    ⟨2, 0, 4⟩, ⟨3, 1, 14⟩, ⟨3, 2, 22⟩], [⟨0, 2, 16⟩], [⟨2, 2, 20⟩]], [[⟨0, 0, 0⟩, ⟨0, 2, 16⟩, ⟨1,
    0, 1⟩, ⟨1, 2, 17⟩], [⟨0, 1, 8⟩, ⟨1, 1, 9⟩]]⟩⟩,
    ⟨7470651235657741, ⟨18, 9, 2, [[0, 1, 2], [1, 1, 1], [0, 0, 1]], [[0, 1, 0], [0, 1, 0]],
    [[⟨0, 0, 0⟩, ⟨2, 0, 4⟩, ⟨2, 1, 10⟩], [⟨0, 1, 6⟩, ⟨1, 0, 2⟩, ⟨1, 1, 8⟩, ⟨1, 2, 14⟩, ⟨2, 2,
    16⟩], [⟨0, 2, 12⟩]], [[⟨0, 0, 0⟩, ⟨0, 2, 12⟩, ⟨1, 0, 1⟩, ⟨1, 2, 13⟩], [⟨0, 1, 6⟩, ⟨1, 1,
    7⟩]]⟩⟩,
    ⟨6942885656160269, ⟨18, 6, 3, [[0, 1, 0], [1, 1, 0]], [[0, 1, 2], [1, 1, 1], [2, 2, 2]],
    [[⟨0, 0, 0⟩, ⟨0, 2, 12⟩, ⟨1, 2, 15⟩], [⟨0, 1, 6⟩, ⟨1, 0, 3⟩, ⟨1, 1, 9⟩]], [[⟨0, 0, 0⟩], [⟨0,
    1, 6⟩, ⟨1, 0, 1⟩, ⟨1, 1, 7⟩, ⟨1, 2, 13⟩], [⟨0, 2, 12⟩, ⟨2, 0, 2⟩, ⟨2, 1, 8⟩, ⟨2, 2, 14⟩]]⟩⟩,
    ⟨6942885655112205, ⟨12, 6, 2, [[0, 1, 0], [1, 1, 1]], [[0, 1, 0], [0, 1, 1]], [[⟨0, 0, 0⟩,
    ⟨0, 2, 8⟩], [⟨0, 1, 4⟩, ⟨1, 0, 2⟩, ⟨1, 1, 6⟩, ⟨1, 2, 10⟩]], [[⟨0, 0, 0⟩, ⟨0, 2, 8⟩, ⟨1, 0,
    1⟩], [⟨0, 1, 4⟩, ⟨1, 1, 5⟩, ⟨1, 2, 9⟩]]⟩⟩],
    by decide +kernel, by decide +kernel⟩

def list23_2l1_1l0_1 : List Listed := [
  ⟨6942885656160781, [((0, 0), (1, true, 1)), ((0, 1), (2, true, 1)), ((0, 2), (2, false, 0)),
  ((1, 0), (2, false, 1)), ((1, 1), (1, false, 0)), ((1, 2), (0, true, 1))]⟩]

theorem done23_2l1_1l0_1 : ∃ h, Done list23_2l1_1l0_1 h :=
  ⟨[
    ⟨6942885656160781, ⟨6, 3, 2, [[0, 0, 0]], [[0, 1, 0], [0, 1, 1]], [[⟨0, 0, 0⟩, ⟨0, 1, 2⟩, ⟨0,
    2, 4⟩]], [[⟨0, 0, 0⟩, ⟨0, 2, 4⟩, ⟨1, 0, 1⟩], [⟨0, 1, 2⟩, ⟨1, 1, 3⟩, ⟨1, 2, 5⟩]]⟩⟩],
    by decide +kernel, by decide +kernel⟩

theorem child23_2l1_1l0 : AllDone (child (2, false, 1) (1, false, 0)) := by
  refine allDone_of [list23_2l1_1l0_0, list23_2l1_1l0_1] ?_ (by decide +kernel)
  simp only [List.forall_mem_cons, List.not_mem_nil, false_imp_iff, implies_true, and_true]
  exact ⟨done23_2l1_1l0_0, done23_2l1_1l0_1⟩

theorem child23_2l1_1l1 : AllDone (child (2, false, 1) (1, false, 1)) :=
  allDone_of [] (by simp) (by decide +kernel)

def list23_2l1_1r0_0 : List Listed := [
  ⟨13560860412429, [((0, 0), (1, true, 1)), ((0, 2), (0, true, 1)), ((1, 0), (2, false, 1)), ((1,
  1), (1, true, 0)), ((1, 2), (0, true, 1))]⟩,
  ⟨7330188624152589, [((0, 0), (1, true, 1)), ((0, 1), (0, true, 0)), ((0, 2), (0, true, 1)),
  ((1, 0), (2, false, 1)), ((1, 1), (1, true, 0)), ((1, 2), (2, false, 0))]⟩,
  ⟨6943160531968013, [((0, 0), (1, true, 1)), ((0, 1), (2, false, 0)), ((0, 2), (1, false, 0)),
  ((1, 0), (2, false, 1)), ((1, 1), (1, true, 0)), ((1, 2), (0, true, 1))]⟩,
  ⟨6943160532224525, [((0, 0), (1, true, 1)), ((0, 1), (0, true, 1)), ((0, 2), (1, false, 1)),
  ((1, 0), (2, false, 1)), ((1, 1), (1, true, 0)), ((1, 2), (0, true, 1))]⟩,
  ⟨6802423043874829, [((0, 0), (1, true, 1)), ((0, 1), (2, false, 0)), ((0, 2), (1, false, 1)),
  ((1, 0), (2, false, 1)), ((1, 1), (1, true, 0)), ((1, 2), (0, false, 1))]⟩,
  ⟨6943160532230157, [((0, 0), (1, true, 1)), ((0, 1), (2, false, 0)), ((0, 2), (1, false, 1)),
  ((1, 0), (2, false, 1)), ((1, 1), (1, true, 0)), ((1, 2), (0, true, 1))]⟩,
  ⟨7224635508940813, [((0, 0), (1, true, 1)), ((0, 1), (2, false, 0)), ((0, 2), (1, false, 1)),
  ((1, 0), (2, false, 1)), ((1, 1), (1, true, 0)), ((1, 2), (1, true, 1))]⟩,
  ⟨6943160532232717, [((0, 0), (1, true, 1)), ((0, 1), (2, true, 1)), ((0, 2), (1, false, 1)),
  ((1, 0), (2, false, 1)), ((1, 1), (1, true, 0)), ((1, 2), (0, true, 1))]⟩,
  ⟨6943160534059021, [((0, 0), (1, true, 1)), ((0, 1), (0, true, 0)), ((0, 2), (2, false, 0)),
  ((1, 0), (2, false, 1)), ((1, 1), (1, true, 0)), ((1, 2), (0, true, 1))]⟩,
  ⟨6943160534063629, [((0, 0), (1, true, 1)), ((0, 1), (1, true, 1)), ((0, 2), (2, false, 0)),
  ((1, 0), (2, false, 1)), ((1, 1), (1, true, 0)), ((1, 2), (0, true, 1))]⟩,
  ⟨6943160534065165, [((0, 0), (1, true, 1)), ((0, 1), (2, false, 0)), ((0, 2), (2, false, 0)),
  ((1, 0), (2, false, 1)), ((1, 1), (1, true, 0)), ((1, 2), (0, true, 1))]⟩,
  ⟨6943160534067213, [((0, 0), (1, true, 1)), ((0, 1), (2, true, 0)), ((0, 2), (2, false, 0)),
  ((1, 0), (2, false, 1)), ((1, 1), (1, true, 0)), ((1, 2), (0, true, 1))]⟩,
  ⟨13560860420621, [((0, 0), (1, true, 1)), ((0, 2), (2, true, 1)), ((1, 0), (2, false, 1)), ((1,
  1), (1, true, 0)), ((1, 2), (0, true, 1))]⟩,
  ⟨7048713651634189, [((0, 0), (1, true, 1)), ((0, 1), (0, false, 0)), ((0, 2), (2, true, 1)),
  ((1, 0), (2, false, 1)), ((1, 1), (1, true, 0)), ((1, 2), (1, false, 0))]⟩,
  ⟨7083898023725069, [((0, 0), (1, true, 1)), ((0, 1), (0, true, 0)), ((0, 2), (2, true, 1)),
  ((1, 0), (2, false, 1)), ((1, 1), (1, true, 0)), ((1, 2), (1, false, 1))]⟩,
  ⟨7083898023733261, [((0, 0), (1, true, 1)), ((0, 1), (2, true, 0)), ((0, 2), (2, true, 1)),
  ((1, 0), (2, false, 1)), ((1, 1), (1, true, 0)), ((1, 2), (1, false, 1))]⟩]

theorem done23_2l1_1r0_0 : ∃ h, Done list23_2l1_1r0_0 h :=
  ⟨[
    ⟨13560860412429, ⟨48, 6, 8, [[0, 1, 0], [1, 0, 0]], [[0, 1, 2], [1, 1, 1], [3, 4, 2], [3, 5,
    2], [6, 1, 7], [3, 1, 2], [1, 4, 1], [6, 5, 7]], [[⟨0, 0, 0⟩, ⟨0, 2, 32⟩, ⟨1, 1, 24⟩, ⟨1, 2,
    40⟩], [⟨0, 1, 16⟩, ⟨1, 0, 8⟩]], [[⟨0, 0, 0⟩], [⟨0, 1, 16⟩, ⟨1, 0, 1⟩, ⟨1, 1, 17⟩, ⟨1, 2, 33⟩,
    ⟨4, 1, 20⟩, ⟨5, 1, 21⟩, ⟨6, 0, 6⟩, ⟨6, 2, 38⟩], [⟨0, 2, 32⟩, ⟨2, 2, 34⟩, ⟨3, 2, 35⟩, ⟨5, 2,
    37⟩], [⟨2, 0, 2⟩, ⟨3, 0, 3⟩, ⟨5, 0, 5⟩], [⟨2, 1, 18⟩, ⟨6, 1, 22⟩], [⟨3, 1, 19⟩, ⟨7, 1, 23⟩],
    [⟨4, 0, 4⟩, ⟨7, 0, 7⟩], [⟨4, 2, 36⟩, ⟨7, 2, 39⟩]]⟩⟩,
    ⟨7330188624152589, ⟨12, 12, 1, [[0, 1, 0], [2, 2, 3], [2, 2, 2], [0, 1, 1]], [[0, 0, 0]],
    [[⟨0, 0, 0⟩, ⟨0, 2, 8⟩, ⟨3, 0, 3⟩], [⟨0, 1, 4⟩, ⟨3, 1, 7⟩, ⟨3, 2, 11⟩], [⟨1, 0, 1⟩, ⟨1, 1,
    5⟩, ⟨2, 0, 2⟩, ⟨2, 1, 6⟩, ⟨2, 2, 10⟩], [⟨1, 2, 9⟩]], [[⟨0, 0, 0⟩, ⟨0, 1, 4⟩, ⟨0, 2, 8⟩]]⟩⟩,
    ⟨6943160531968013, ⟨12, 6, 2, [[0, 1, 0], [1, 1, 0]], [[0, 1, 1], [1, 1, 1]], [[⟨0, 0, 0⟩,
    ⟨0, 2, 8⟩, ⟨1, 2, 10⟩], [⟨0, 1, 4⟩, ⟨1, 0, 2⟩, ⟨1, 1, 6⟩]], [[⟨0, 0, 0⟩], [⟨0, 1, 4⟩, ⟨0, 2,
    8⟩, ⟨1, 0, 1⟩, ⟨1, 1, 5⟩, ⟨1, 2, 9⟩]]⟩⟩,
    ⟨6943160532224525, ⟨6, 6, 1, [[0, 1, 0], [1, 1, 1]], [[0, 0, 0]], [[⟨0, 0, 0⟩, ⟨0, 2, 4⟩],
    [⟨0, 1, 2⟩, ⟨1, 0, 1⟩, ⟨1, 1, 3⟩, ⟨1, 2, 5⟩]], [[⟨0, 0, 0⟩, ⟨0, 1, 2⟩, ⟨0, 2, 4⟩]]⟩⟩,
    ⟨6802423043874829, ⟨18, 9, 2, [[0, 1, 2], [1, 1, 1], [2, 2, 2]], [[0, 0, 1], [0, 0, 1]],
    [[⟨0, 0, 0⟩], [⟨0, 1, 6⟩, ⟨1, 0, 2⟩, ⟨1, 1, 8⟩, ⟨1, 2, 14⟩], [⟨0, 2, 12⟩, ⟨2, 0, 4⟩, ⟨2, 1,
    10⟩, ⟨2, 2, 16⟩]], [[⟨0, 0, 0⟩, ⟨0, 1, 6⟩, ⟨1, 0, 1⟩, ⟨1, 1, 7⟩], [⟨0, 2, 12⟩, ⟨1, 2, 13⟩]]⟩⟩,
    ⟨6943160532230157, ⟨18, 9, 2, [[0, 1, 2], [1, 1, 1], [2, 2, 2]], [[0, 0, 1], [0, 0, 1]],
    [[⟨0, 0, 0⟩], [⟨0, 1, 6⟩, ⟨1, 0, 2⟩, ⟨1, 1, 8⟩, ⟨1, 2, 14⟩], [⟨0, 2, 12⟩, ⟨2, 0, 4⟩, ⟨2, 1,
    10⟩, ⟨2, 2, 16⟩]], [[⟨0, 0, 0⟩, ⟨0, 1, 6⟩, ⟨1, 0, 1⟩, ⟨1, 1, 7⟩], [⟨0, 2, 12⟩, ⟨1, 2, 13⟩]]⟩⟩,
    ⟨7224635508940813, ⟨24, 12, 2, [[0, 1, 2], [1, 1, 1], [2, 3, 0], [3, 3, 3]], [[0, 0, 1], [0,
    0, 1]], [[⟨0, 0, 0⟩, ⟨2, 2, 20⟩], [⟨0, 1, 8⟩, ⟨1, 0, 2⟩, ⟨1, 1, 10⟩, ⟨1, 2, 18⟩], [⟨0, 2,
    16⟩, ⟨2, 0, 4⟩], [⟨2, 1, 12⟩, ⟨3, 0, 6⟩, ⟨3, 1, 14⟩, ⟨3, 2, 22⟩]], [[⟨0, 0, 0⟩, ⟨0, 1, 8⟩,
    ⟨1, 0, 1⟩, ⟨1, 1, 9⟩], [⟨0, 2, 16⟩, ⟨1, 2, 17⟩]]⟩⟩,
    ⟨6943160532232717, ⟨6, 6, 1, [[0, 1, 0], [1, 1, 1]], [[0, 0, 0]], [[⟨0, 0, 0⟩, ⟨0, 2, 4⟩],
    [⟨0, 1, 2⟩, ⟨1, 0, 1⟩, ⟨1, 1, 3⟩, ⟨1, 2, 5⟩]], [[⟨0, 0, 0⟩, ⟨0, 1, 2⟩, ⟨0, 2, 4⟩]]⟩⟩,
    ⟨6943160534059021, ⟨18, 6, 3, [[0, 1, 0], [1, 1, 0]], [[0, 1, 2], [2, 1, 2], [2, 2, 2]],
    [[⟨0, 0, 0⟩, ⟨0, 2, 12⟩, ⟨1, 2, 15⟩], [⟨0, 1, 6⟩, ⟨1, 0, 3⟩, ⟨1, 1, 9⟩]], [[⟨0, 0, 0⟩], [⟨0,
    1, 6⟩, ⟨1, 1, 7⟩], [⟨0, 2, 12⟩, ⟨1, 0, 1⟩, ⟨1, 2, 13⟩, ⟨2, 0, 2⟩, ⟨2, 1, 8⟩, ⟨2, 2, 14⟩]]⟩⟩,
    ⟨6943160534063629, ⟨6, 6, 1, [[0, 1, 0], [1, 1, 1]], [[0, 0, 0]], [[⟨0, 0, 0⟩, ⟨0, 2, 4⟩],
    [⟨0, 1, 2⟩, ⟨1, 0, 1⟩, ⟨1, 1, 3⟩, ⟨1, 2, 5⟩]], [[⟨0, 0, 0⟩, ⟨0, 1, 2⟩, ⟨0, 2, 4⟩]]⟩⟩,
    ⟨6943160534065165, ⟨12, 6, 2, [[0, 1, 0], [1, 1, 0]], [[0, 1, 1], [1, 1, 1]], [[⟨0, 0, 0⟩,
    ⟨0, 2, 8⟩, ⟨1, 2, 10⟩], [⟨0, 1, 4⟩, ⟨1, 0, 2⟩, ⟨1, 1, 6⟩]], [[⟨0, 0, 0⟩], [⟨0, 1, 4⟩, ⟨0, 2,
    8⟩, ⟨1, 0, 1⟩, ⟨1, 1, 5⟩, ⟨1, 2, 9⟩]]⟩⟩,
    ⟨6943160534067213, ⟨24, 6, 4, [[0, 1, 0], [1, 1, 0]], [[0, 1, 2], [2, 3, 2], [2, 2, 2], [3,
    3, 3]], [[⟨0, 0, 0⟩, ⟨0, 2, 16⟩, ⟨1, 2, 20⟩], [⟨0, 1, 8⟩, ⟨1, 0, 4⟩, ⟨1, 1, 12⟩]], [[⟨0, 0,
    0⟩], [⟨0, 1, 8⟩], [⟨0, 2, 16⟩, ⟨1, 0, 1⟩, ⟨1, 2, 17⟩, ⟨2, 0, 2⟩, ⟨2, 1, 10⟩, ⟨2, 2, 18⟩],
    [⟨1, 1, 9⟩, ⟨3, 0, 3⟩, ⟨3, 1, 11⟩, ⟨3, 2, 19⟩]]⟩⟩,
    ⟨13560860420621, ⟨48, 6, 8, [[0, 1, 0], [1, 0, 1]], [[0, 1, 2], [1, 1, 1], [3, 4, 2], [3, 5,
    2], [6, 1, 7], [3, 1, 2], [1, 4, 1], [6, 5, 7]], [[⟨0, 0, 0⟩, ⟨0, 2, 32⟩, ⟨1, 1, 24⟩], [⟨0,
    1, 16⟩, ⟨1, 0, 8⟩, ⟨1, 2, 40⟩]], [[⟨0, 0, 0⟩], [⟨0, 1, 16⟩, ⟨1, 0, 1⟩, ⟨1, 1, 17⟩, ⟨1, 2,
    33⟩, ⟨4, 1, 20⟩, ⟨5, 1, 21⟩, ⟨6, 0, 6⟩, ⟨6, 2, 38⟩], [⟨0, 2, 32⟩, ⟨2, 2, 34⟩, ⟨3, 2, 35⟩, ⟨5,
    2, 37⟩], [⟨2, 0, 2⟩, ⟨3, 0, 3⟩, ⟨5, 0, 5⟩], [⟨2, 1, 18⟩, ⟨6, 1, 22⟩], [⟨3, 1, 19⟩, ⟨7, 1,
    23⟩], [⟨4, 0, 4⟩, ⟨7, 0, 7⟩], [⟨4, 2, 36⟩, ⟨7, 2, 39⟩]]⟩⟩,
    ⟨7048713651634189, ⟨27, 9, 3, [[0, 1, 2], [0, 1, 2], [2, 2, 2]], [[0, 0, 1], [0, 2, 1], [2,
    0, 1]], [[⟨0, 0, 0⟩, ⟨1, 0, 3⟩], [⟨0, 1, 9⟩, ⟨1, 1, 12⟩], [⟨0, 2, 18⟩, ⟨1, 2, 21⟩, ⟨2, 0, 6⟩,
    ⟨2, 1, 15⟩, ⟨2, 2, 24⟩]], [[⟨0, 0, 0⟩, ⟨0, 1, 9⟩, ⟨1, 0, 1⟩, ⟨2, 1, 11⟩], [⟨0, 2, 18⟩, ⟨1, 2,
    19⟩, ⟨2, 2, 20⟩], [⟨1, 1, 10⟩, ⟨2, 0, 2⟩]]⟩⟩,
    ⟨7083898023725069, ⟨6, 6, 1, [[0, 1, 0], [1, 1, 1]], [[0, 0, 0]], [[⟨0, 0, 0⟩, ⟨0, 2, 4⟩],
    [⟨0, 1, 2⟩, ⟨1, 0, 1⟩, ⟨1, 1, 3⟩, ⟨1, 2, 5⟩]], [[⟨0, 0, 0⟩, ⟨0, 1, 2⟩, ⟨0, 2, 4⟩]]⟩⟩,
    ⟨7083898023733261, ⟨6, 6, 1, [[0, 1, 0], [1, 1, 1]], [[0, 0, 0]], [[⟨0, 0, 0⟩, ⟨0, 2, 4⟩],
    [⟨0, 1, 2⟩, ⟨1, 0, 1⟩, ⟨1, 1, 3⟩, ⟨1, 2, 5⟩]], [[⟨0, 0, 0⟩, ⟨0, 1, 2⟩, ⟨0, 2, 4⟩]]⟩⟩],
    by decide +kernel, by decide +kernel⟩

theorem child23_2l1_1r0 : AllDone (child (2, false, 1) (1, true, 0)) := by
  refine allDone_of [list23_2l1_1r0_0] ?_ (by decide +kernel)
  simp only [List.forall_mem_cons, List.not_mem_nil, false_imp_iff, implies_true, and_true]
  exact done23_2l1_1r0_0

def list23_2l1_1r1_0 : List Listed := [
  ⟨13217397231629, [((0, 0), (1, true, 1)), ((0, 1), (1, false, 0)), ((1, 0), (2, false, 1)),
  ((1, 1), (1, true, 1)), ((1, 2), (0, false, 0))]⟩,
  ⟨26486317581, [((0, 0), (1, true, 1)), ((1, 0), (2, false, 1)), ((1, 1), (1, true, 1)), ((1,
  2), (0, true, 1))]⟩,
  ⟨13767153045517, [((0, 0), (1, true, 1)), ((0, 1), (1, false, 0)), ((1, 0), (2, false, 1)),
  ((1, 1), (1, true, 1)), ((1, 2), (1, false, 0))]⟩,
  ⟨14316908859405, [((0, 0), (1, true, 1)), ((0, 1), (1, false, 0)), ((1, 0), (2, false, 1)),
  ((1, 1), (1, true, 1)), ((1, 2), (2, false, 0))]⟩]

theorem done23_2l1_1r1_0 : ∃ h, Done list23_2l1_1r1_0 h :=
  ⟨[
    ⟨13217397231629, ⟨18, 9, 2, [[0, 1, 2], [1, 1, 2], [2, 2, 2]], [[0, 1, 0], [0, 1, 0]], [[⟨0,
    0, 0⟩], [⟨0, 1, 6⟩, ⟨1, 0, 2⟩, ⟨1, 1, 8⟩], [⟨0, 2, 12⟩, ⟨1, 2, 14⟩, ⟨2, 0, 4⟩, ⟨2, 1, 10⟩,
    ⟨2, 2, 16⟩]], [[⟨0, 0, 0⟩, ⟨0, 2, 12⟩, ⟨1, 0, 1⟩, ⟨1, 2, 13⟩], [⟨0, 1, 6⟩, ⟨1, 1, 7⟩]]⟩⟩,
    ⟨26486317581, ⟨6, 6, 1, [[0, 1, 0], [1, 1, 1]], [[0, 0, 0]], [[⟨0, 0, 0⟩, ⟨0, 2, 4⟩], [⟨0, 1,
    2⟩, ⟨1, 0, 1⟩, ⟨1, 1, 3⟩, ⟨1, 2, 5⟩]], [[⟨0, 0, 0⟩, ⟨0, 1, 2⟩, ⟨0, 2, 4⟩]]⟩⟩,
    ⟨13767153045517, ⟨18, 9, 2, [[0, 1, 2], [1, 1, 2], [2, 2, 2]], [[0, 1, 0], [0, 1, 0]], [[⟨0,
    0, 0⟩], [⟨0, 1, 6⟩, ⟨1, 0, 2⟩, ⟨1, 1, 8⟩], [⟨0, 2, 12⟩, ⟨1, 2, 14⟩, ⟨2, 0, 4⟩, ⟨2, 1, 10⟩,
    ⟨2, 2, 16⟩]], [[⟨0, 0, 0⟩, ⟨0, 2, 12⟩, ⟨1, 0, 1⟩, ⟨1, 2, 13⟩], [⟨0, 1, 6⟩, ⟨1, 1, 7⟩]]⟩⟩,
    ⟨14316908859405, ⟨12, 6, 2, [[0, 0, 1], [1, 1, 1]], [[0, 0, 1], [0, 1, 1]], [[⟨0, 0, 0⟩, ⟨0,
    1, 4⟩], [⟨0, 2, 8⟩, ⟨1, 0, 2⟩, ⟨1, 1, 6⟩, ⟨1, 2, 10⟩]], [[⟨0, 0, 0⟩, ⟨0, 1, 4⟩, ⟨1, 0, 1⟩],
    [⟨0, 2, 8⟩, ⟨1, 1, 5⟩, ⟨1, 2, 9⟩]]⟩⟩],
    by decide +kernel, by decide +kernel⟩

theorem child23_2l1_1r1 : AllDone (child (2, false, 1) (1, true, 1)) := by
  refine allDone_of [list23_2l1_1r1_0] ?_ (by decide +kernel)
  simp only [List.forall_mem_cons, List.not_mem_nil, false_imp_iff, implies_true, and_true]
  exact done23_2l1_1r1_0

def list23_2l1_2l0_0 : List Listed := [
  ⟨6767513551788045, [((0, 0), (1, true, 1)), ((0, 1), (1, true, 0)), ((0, 2), (2, false, 1)),
  ((1, 0), (2, false, 1)), ((1, 1), (2, false, 0)), ((1, 2), (0, false, 0))]⟩,
  ⟨6767513547335693, [((0, 0), (1, true, 1)), ((0, 1), (2, true, 0)), ((0, 2), (0, false, 0)),
  ((1, 0), (2, false, 1)), ((1, 1), (2, false, 0)), ((1, 2), (0, false, 0))]⟩,
  ⟨6767513547597837, [((0, 0), (1, true, 1)), ((0, 1), (2, true, 0)), ((0, 2), (0, false, 1)),
  ((1, 0), (2, false, 1)), ((1, 1), (2, false, 0)), ((1, 2), (0, false, 0))]⟩,
  ⟨6767513548646413, [((0, 0), (1, true, 1)), ((0, 1), (2, true, 0)), ((0, 2), (0, true, 1)),
  ((1, 0), (2, false, 1)), ((1, 1), (2, false, 0)), ((1, 2), (0, false, 0))]⟩,
  ⟨6767513549694989, [((0, 0), (1, true, 1)), ((0, 1), (2, true, 0)), ((0, 2), (1, false, 1)),
  ((1, 0), (2, false, 1)), ((1, 1), (2, false, 0)), ((1, 2), (0, false, 0))]⟩,
  ⟨13492677806605, [((0, 0), (1, true, 1)), ((0, 2), (0, true, 1)), ((1, 0), (2, false, 1)), ((1,
  1), (2, false, 0)), ((1, 2), (0, true, 0))]⟩,
  ⟨6908251037778445, [((0, 0), (1, true, 1)), ((0, 1), (0, false, 1)), ((0, 2), (1, false, 0)),
  ((1, 0), (2, false, 1)), ((1, 1), (2, false, 0)), ((1, 2), (0, true, 0))]⟩,
  ⟨6908251038826509, [((0, 0), (1, true, 1)), ((0, 1), (0, false, 0)), ((0, 2), (1, true, 0)),
  ((1, 0), (2, false, 1)), ((1, 1), (2, false, 0)), ((1, 2), (0, true, 0))]⟩,
  ⟨6908251038827021, [((0, 0), (1, true, 1)), ((0, 1), (0, false, 1)), ((0, 2), (1, true, 0)),
  ((1, 0), (2, false, 1)), ((1, 1), (2, false, 0)), ((1, 2), (0, true, 0))]⟩,
  ⟨26487104013, [((0, 0), (1, true, 1)), ((1, 0), (2, false, 1)), ((1, 1), (2, false, 0)), ((1,
  2), (0, true, 1))]⟩,
  ⟨7048988524304397, [((0, 0), (1, true, 1)), ((0, 1), (1, true, 0)), ((0, 2), (0, false, 1)),
  ((1, 0), (2, false, 1)), ((1, 1), (2, false, 0)), ((1, 2), (1, false, 0))]⟩,
  ⟨7048988526401549, [((0, 0), (1, true, 1)), ((0, 1), (1, true, 0)), ((0, 2), (1, false, 1)),
  ((1, 0), (2, false, 1)), ((1, 1), (2, false, 0)), ((1, 2), (1, false, 0))]⟩,
  ⟨7189726012391949, [((0, 0), (1, true, 1)), ((0, 1), (0, false, 1)), ((0, 2), (0, false, 0)),
  ((1, 0), (2, false, 1)), ((1, 1), (2, false, 0)), ((1, 2), (1, true, 0))]⟩,
  ⟨7189726012401677, [((0, 0), (1, true, 1)), ((0, 1), (2, true, 0)), ((0, 2), (0, false, 0)),
  ((1, 0), (2, false, 1)), ((1, 1), (2, false, 0)), ((1, 2), (1, true, 0))]⟩,
  ⟨7189726012659725, [((0, 0), (1, true, 1)), ((0, 1), (1, true, 0)), ((0, 2), (0, false, 1)),
  ((1, 0), (2, false, 1)), ((1, 1), (2, false, 0)), ((1, 2), (1, true, 0))]⟩,
  ⟨7189726012664333, [((0, 0), (1, true, 1)), ((0, 1), (2, true, 1)), ((0, 2), (0, false, 1)),
  ((1, 0), (2, false, 1)), ((1, 1), (2, false, 0)), ((1, 2), (1, true, 0))]⟩,
  ⟨7189726013702157, [((0, 0), (1, true, 1)), ((0, 1), (0, false, 0)), ((0, 2), (0, true, 1)),
  ((1, 0), (2, false, 1)), ((1, 1), (2, false, 0)), ((1, 2), (1, true, 0))]⟩,
  ⟨7189726014753293, [((0, 0), (1, true, 1)), ((0, 1), (0, true, 1)), ((0, 2), (1, false, 1)),
  ((1, 0), (2, false, 1)), ((1, 1), (2, false, 0)), ((1, 2), (1, true, 0))]⟩,
  ⟨7189726014756877, [((0, 0), (1, true, 1)), ((0, 1), (1, true, 0)), ((0, 2), (1, false, 1)),
  ((1, 0), (2, false, 1)), ((1, 1), (2, false, 0)), ((1, 2), (1, true, 0))]⟩,
  ⟨7189726014760973, [((0, 0), (1, true, 1)), ((0, 1), (2, true, 0)), ((0, 2), (1, false, 1)),
  ((1, 0), (2, false, 1)), ((1, 1), (2, false, 0)), ((1, 2), (1, true, 0))]⟩]

theorem done23_2l1_2l0_0 : ∃ h, Done list23_2l1_2l0_0 h :=
  ⟨[
    ⟨6767513551788045, ⟨18, 9, 2, [[0, 1, 2], [1, 1, 1], [2, 2, 2]], [[0, 0, 1], [0, 0, 1]],
    [[⟨0, 0, 0⟩], [⟨0, 1, 6⟩, ⟨1, 0, 2⟩, ⟨1, 1, 8⟩, ⟨1, 2, 14⟩], [⟨0, 2, 12⟩, ⟨2, 0, 4⟩, ⟨2, 1,
    10⟩, ⟨2, 2, 16⟩]], [[⟨0, 0, 0⟩, ⟨0, 1, 6⟩, ⟨1, 0, 1⟩, ⟨1, 1, 7⟩], [⟨0, 2, 12⟩, ⟨1, 2, 13⟩]]⟩⟩,
    ⟨6767513547335693, ⟨120, 30, 4, [[0, 1, 2], [3, 4, 5], [5, 1, 2], [6, 7, 8], [4, 5, 5], [5,
    5, 5], [3, 9, 2], [7, 8, 8], [8, 8, 8], [3, 4, 5]], [[0, 1, 2], [1, 1, 1], [3, 1, 2], [3, 0,
    0]], [[⟨0, 0, 0⟩], [⟨0, 1, 40⟩, ⟨2, 1, 48⟩], [⟨0, 2, 80⟩, ⟨2, 2, 88⟩, ⟨6, 2, 104⟩], [⟨1, 0,
    4⟩, ⟨6, 0, 24⟩, ⟨9, 0, 36⟩], [⟨1, 1, 44⟩, ⟨4, 0, 16⟩, ⟨9, 1, 76⟩], [⟨1, 2, 84⟩, ⟨2, 0, 8⟩,
    ⟨4, 1, 56⟩, ⟨4, 2, 96⟩, ⟨5, 0, 20⟩, ⟨5, 1, 60⟩, ⟨5, 2, 100⟩, ⟨9, 2, 116⟩], [⟨3, 0, 12⟩], [⟨3,
    1, 52⟩, ⟨7, 0, 28⟩], [⟨3, 2, 92⟩, ⟨7, 1, 68⟩, ⟨7, 2, 108⟩, ⟨8, 0, 32⟩, ⟨8, 1, 72⟩, ⟨8, 2,
    112⟩], [⟨6, 1, 64⟩]], [[⟨0, 0, 0⟩, ⟨3, 1, 43⟩, ⟨3, 2, 83⟩], [⟨0, 1, 40⟩, ⟨1, 0, 1⟩, ⟨1, 1,
    41⟩, ⟨1, 2, 81⟩, ⟨2, 1, 42⟩], [⟨0, 2, 80⟩, ⟨2, 2, 82⟩], [⟨2, 0, 2⟩, ⟨3, 0, 3⟩]]⟩⟩,
    ⟨6767513547597837, ⟨189, 21, 9, [[0, 1, 2], [3, 3, 3], [3, 4, 5], [3, 3, 3], [3, 3, 3], [3,
    6, 3], [3, 3, 3]], [[0, 1, 2], [3, 1, 4], [5, 1, 6], [0, 1, 2], [7, 1, 4], [8, 1, 2], [7, 1,
    4], [8, 1, 2], [0, 1, 2]], [[⟨0, 0, 0⟩], [⟨0, 1, 63⟩], [⟨0, 2, 126⟩], [⟨1, 0, 9⟩, ⟨1, 1, 72⟩,
    ⟨1, 2, 135⟩, ⟨2, 0, 18⟩, ⟨3, 0, 27⟩, ⟨3, 1, 90⟩, ⟨3, 2, 153⟩, ⟨4, 0, 36⟩, ⟨4, 1, 99⟩, ⟨4, 2,
    162⟩, ⟨5, 0, 45⟩, ⟨5, 2, 171⟩, ⟨6, 0, 54⟩, ⟨6, 1, 117⟩, ⟨6, 2, 180⟩], [⟨2, 1, 81⟩], [⟨2, 2,
    144⟩], [⟨5, 1, 108⟩]], [[⟨0, 0, 0⟩, ⟨3, 0, 3⟩, ⟨8, 0, 8⟩], [⟨0, 1, 63⟩, ⟨1, 1, 64⟩, ⟨2, 1,
    65⟩, ⟨3, 1, 66⟩, ⟨4, 1, 67⟩, ⟨5, 1, 68⟩, ⟨6, 1, 69⟩, ⟨7, 1, 70⟩, ⟨8, 1, 71⟩], [⟨0, 2, 126⟩,
    ⟨3, 2, 129⟩, ⟨5, 2, 131⟩, ⟨7, 2, 133⟩, ⟨8, 2, 134⟩], [⟨1, 0, 1⟩], [⟨1, 2, 127⟩, ⟨4, 2, 130⟩,
    ⟨6, 2, 132⟩], [⟨2, 0, 2⟩], [⟨2, 2, 128⟩], [⟨4, 0, 4⟩, ⟨6, 0, 6⟩], [⟨5, 0, 5⟩, ⟨7, 0, 7⟩]]⟩⟩,
    ⟨6767513548646413, ⟨60, 12, 5, [[0, 1, 2], [0, 1, 2], [1, 1, 3], [3, 1, 2]], [[0, 1, 2], [1,
    1, 1], [3, 2, 4], [3, 1, 2], [3, 2, 4]], [[⟨0, 0, 0⟩, ⟨1, 0, 5⟩], [⟨0, 1, 20⟩, ⟨1, 1, 25⟩,
    ⟨2, 0, 10⟩, ⟨2, 1, 30⟩, ⟨3, 1, 35⟩], [⟨0, 2, 40⟩, ⟨1, 2, 45⟩, ⟨3, 2, 55⟩], [⟨2, 2, 50⟩, ⟨3,
    0, 15⟩]], [[⟨0, 0, 0⟩], [⟨0, 1, 20⟩, ⟨1, 0, 1⟩, ⟨1, 1, 21⟩, ⟨1, 2, 41⟩, ⟨3, 1, 23⟩], [⟨0, 2,
    40⟩, ⟨2, 1, 22⟩, ⟨3, 2, 43⟩, ⟨4, 1, 24⟩], [⟨2, 0, 2⟩, ⟨3, 0, 3⟩, ⟨4, 0, 4⟩], [⟨2, 2, 42⟩, ⟨4,
    2, 44⟩]]⟩⟩,
    ⟨6767513549694989, ⟨168, 24, 7, [[0, 1, 2], [3, 3, 3], [3, 4, 5], [3, 3, 3], [3, 3, 3], [3,
    6, 7], [3, 3, 3], [3, 3, 3]], [[0, 1, 2], [3, 1, 4], [0, 1, 2], [0, 1, 2], [5, 1, 6], [0, 1,
    2], [0, 1, 2]], [[⟨0, 0, 0⟩], [⟨0, 1, 56⟩], [⟨0, 2, 112⟩], [⟨1, 0, 7⟩, ⟨1, 1, 63⟩, ⟨1, 2,
    119⟩, ⟨2, 0, 14⟩, ⟨3, 0, 21⟩, ⟨3, 1, 77⟩, ⟨3, 2, 133⟩, ⟨4, 0, 28⟩, ⟨4, 1, 84⟩, ⟨4, 2, 140⟩,
    ⟨5, 0, 35⟩, ⟨6, 0, 42⟩, ⟨6, 1, 98⟩, ⟨6, 2, 154⟩, ⟨7, 0, 49⟩, ⟨7, 1, 105⟩, ⟨7, 2, 161⟩], [⟨2,
    1, 70⟩], [⟨2, 2, 126⟩], [⟨5, 1, 91⟩], [⟨5, 2, 147⟩]], [[⟨0, 0, 0⟩, ⟨2, 0, 2⟩, ⟨3, 0, 3⟩, ⟨5,
    0, 5⟩, ⟨6, 0, 6⟩], [⟨0, 1, 56⟩, ⟨1, 1, 57⟩, ⟨2, 1, 58⟩, ⟨3, 1, 59⟩, ⟨4, 1, 60⟩, ⟨5, 1, 61⟩,
    ⟨6, 1, 62⟩], [⟨0, 2, 112⟩, ⟨2, 2, 114⟩, ⟨3, 2, 115⟩, ⟨5, 2, 117⟩, ⟨6, 2, 118⟩], [⟨1, 0, 1⟩],
    [⟨1, 2, 113⟩], [⟨4, 0, 4⟩], [⟨4, 2, 116⟩]]⟩⟩,
    ⟨13492677806605, ⟨48, 12, 4, [[0, 1, 2], [3, 2, 1], [2, 2, 2], [1, 2, 0]], [[0, 1, 2], [1, 1,
    1], [1, 1, 3], [1, 1, 2]], [[⟨0, 0, 0⟩, ⟨3, 2, 44⟩], [⟨0, 1, 16⟩, ⟨1, 2, 36⟩, ⟨3, 0, 12⟩],
    [⟨0, 2, 32⟩, ⟨1, 1, 20⟩, ⟨2, 0, 8⟩, ⟨2, 1, 24⟩, ⟨2, 2, 40⟩, ⟨3, 1, 28⟩], [⟨1, 0, 4⟩]], [[⟨0,
    0, 0⟩], [⟨0, 1, 16⟩, ⟨1, 0, 1⟩, ⟨1, 1, 17⟩, ⟨1, 2, 33⟩, ⟨2, 0, 2⟩, ⟨2, 1, 18⟩, ⟨3, 0, 3⟩, ⟨3,
    1, 19⟩], [⟨0, 2, 32⟩, ⟨3, 2, 35⟩], [⟨2, 2, 34⟩]]⟩⟩,
    ⟨6908251037778445, ⟨264, 33, 8, [[0, 1, 2], [3, 4, 2], [2, 2, 2], [2, 5, 2], [2, 2, 2], [6,
    7, 2], [2, 8, 2], [9, 4, 2], [10, 2, 2], [2, 2, 2], [2, 5, 2]], [[0, 1, 2], [3, 3, 3], [4, 3,
    5], [3, 3, 3], [3, 3, 6], [3, 3, 3], [7, 3, 3], [3, 1, 2]], [[⟨0, 0, 0⟩], [⟨0, 1, 88⟩], [⟨0,
    2, 176⟩, ⟨1, 2, 184⟩, ⟨2, 0, 16⟩, ⟨2, 1, 104⟩, ⟨2, 2, 192⟩, ⟨3, 0, 24⟩, ⟨3, 2, 200⟩, ⟨4, 0,
    32⟩, ⟨4, 1, 120⟩, ⟨4, 2, 208⟩, ⟨5, 2, 216⟩, ⟨6, 0, 48⟩, ⟨6, 2, 224⟩, ⟨7, 2, 232⟩, ⟨8, 1,
    152⟩, ⟨8, 2, 240⟩, ⟨9, 0, 72⟩, ⟨9, 1, 160⟩, ⟨9, 2, 248⟩, ⟨10, 0, 80⟩, ⟨10, 2, 256⟩], [⟨1, 0,
    8⟩], [⟨1, 1, 96⟩, ⟨7, 1, 144⟩], [⟨3, 1, 112⟩, ⟨10, 1, 168⟩], [⟨5, 0, 40⟩], [⟨5, 1, 128⟩],
    [⟨6, 1, 136⟩], [⟨7, 0, 56⟩], [⟨8, 0, 64⟩]], [[⟨0, 0, 0⟩], [⟨0, 1, 88⟩, ⟨7, 1, 95⟩], [⟨0, 2,
    176⟩, ⟨7, 2, 183⟩], [⟨1, 0, 1⟩, ⟨1, 1, 89⟩, ⟨1, 2, 177⟩, ⟨2, 1, 90⟩, ⟨3, 0, 3⟩, ⟨3, 1, 91⟩,
    ⟨3, 2, 179⟩, ⟨4, 0, 4⟩, ⟨4, 1, 92⟩, ⟨5, 0, 5⟩, ⟨5, 1, 93⟩, ⟨5, 2, 181⟩, ⟨6, 1, 94⟩, ⟨6, 2,
    182⟩, ⟨7, 0, 7⟩], [⟨2, 0, 2⟩], [⟨2, 2, 178⟩], [⟨4, 2, 180⟩], [⟨6, 0, 6⟩]]⟩⟩,
    ⟨6908251038826509, ⟨24, 12, 2, [[0, 1, 2], [3, 1, 2], [2, 2, 2], [3, 3, 3]], [[0, 0, 1], [1,
    0, 1]], [[⟨0, 0, 0⟩], [⟨0, 1, 8⟩, ⟨1, 1, 10⟩], [⟨0, 2, 16⟩, ⟨1, 2, 18⟩, ⟨2, 0, 4⟩, ⟨2, 1,
    12⟩, ⟨2, 2, 20⟩], [⟨1, 0, 2⟩, ⟨3, 0, 6⟩, ⟨3, 1, 14⟩, ⟨3, 2, 22⟩]], [[⟨0, 0, 0⟩, ⟨0, 1, 8⟩,
    ⟨1, 1, 9⟩], [⟨0, 2, 16⟩, ⟨1, 0, 1⟩, ⟨1, 2, 17⟩]]⟩⟩,
    ⟨6908251038827021, ⟨135, 15, 9, [[0, 1, 2], [3, 2, 1], [2, 2, 2], [2, 4, 2], [0, 1, 2]], [[0,
    1, 1], [2, 3, 4], [2, 2, 2], [1, 5, 2], [6, 1, 2], [2, 2, 6], [4, 2, 7], [1, 8, 4], [1, 5,
    6]], [[⟨0, 0, 0⟩, ⟨4, 0, 36⟩], [⟨0, 1, 45⟩, ⟨1, 2, 99⟩, ⟨4, 1, 81⟩], [⟨0, 2, 90⟩, ⟨1, 1, 54⟩,
    ⟨2, 0, 18⟩, ⟨2, 1, 63⟩, ⟨2, 2, 108⟩, ⟨3, 0, 27⟩, ⟨3, 2, 117⟩, ⟨4, 2, 126⟩], [⟨1, 0, 9⟩], [⟨3,
    1, 72⟩]], [[⟨0, 0, 0⟩], [⟨0, 1, 45⟩, ⟨0, 2, 90⟩, ⟨3, 0, 3⟩, ⟨4, 1, 49⟩, ⟨7, 0, 7⟩, ⟨8, 0,
    8⟩], [⟨1, 0, 1⟩, ⟨2, 0, 2⟩, ⟨2, 1, 47⟩, ⟨2, 2, 92⟩, ⟨3, 2, 93⟩, ⟨4, 2, 94⟩, ⟨5, 0, 5⟩, ⟨5, 1,
    50⟩, ⟨6, 1, 51⟩], [⟨1, 1, 46⟩], [⟨1, 2, 91⟩, ⟨6, 0, 6⟩, ⟨7, 2, 97⟩], [⟨3, 1, 48⟩, ⟨8, 1,
    53⟩], [⟨4, 0, 4⟩, ⟨5, 2, 95⟩, ⟨8, 2, 98⟩], [⟨6, 2, 96⟩], [⟨7, 1, 52⟩]]⟩⟩,
    ⟨26487104013, ⟨27, 9, 3, [[0, 1, 2], [1, 2, 1], [2, 2, 2]], [[0, 1, 2], [1, 1, 1], [0, 1,
    2]], [[⟨0, 0, 0⟩], [⟨0, 1, 9⟩, ⟨1, 0, 3⟩, ⟨1, 2, 21⟩], [⟨0, 2, 18⟩, ⟨1, 1, 12⟩, ⟨2, 0, 6⟩,
    ⟨2, 1, 15⟩, ⟨2, 2, 24⟩]], [[⟨0, 0, 0⟩, ⟨2, 0, 2⟩], [⟨0, 1, 9⟩, ⟨1, 0, 1⟩, ⟨1, 1, 10⟩, ⟨1, 2,
    19⟩, ⟨2, 1, 11⟩], [⟨0, 2, 18⟩, ⟨2, 2, 20⟩]]⟩⟩,
    ⟨7048988524304397, ⟨42, 21, 2, [[0, 1, 2], [3, 4, 4], [2, 2, 2], [1, 4, 5], [4, 4, 4], [5, 2,
    6], [6, 4, 5]], [[0, 0, 1], [0, 0, 0]], [[⟨0, 0, 0⟩], [⟨0, 1, 14⟩, ⟨3, 0, 6⟩], [⟨0, 2, 28⟩,
    ⟨2, 0, 4⟩, ⟨2, 1, 18⟩, ⟨2, 2, 32⟩, ⟨5, 1, 24⟩], [⟨1, 0, 2⟩], [⟨1, 1, 16⟩, ⟨1, 2, 30⟩, ⟨3, 1,
    20⟩, ⟨4, 0, 8⟩, ⟨4, 1, 22⟩, ⟨4, 2, 36⟩, ⟨6, 1, 26⟩], [⟨3, 2, 34⟩, ⟨5, 0, 10⟩, ⟨6, 2, 40⟩],
    [⟨5, 2, 38⟩, ⟨6, 0, 12⟩]], [[⟨0, 0, 0⟩, ⟨0, 1, 14⟩, ⟨1, 0, 1⟩, ⟨1, 1, 15⟩, ⟨1, 2, 29⟩], [⟨0,
    2, 28⟩]]⟩⟩,
    ⟨7048988526401549, ⟨42, 21, 2, [[0, 1, 2], [3, 4, 4], [2, 2, 2], [1, 4, 5], [4, 4, 4], [5, 2,
    6], [6, 4, 5]], [[0, 0, 1], [0, 0, 0]], [[⟨0, 0, 0⟩], [⟨0, 1, 14⟩, ⟨3, 0, 6⟩], [⟨0, 2, 28⟩,
    ⟨2, 0, 4⟩, ⟨2, 1, 18⟩, ⟨2, 2, 32⟩, ⟨5, 1, 24⟩], [⟨1, 0, 2⟩], [⟨1, 1, 16⟩, ⟨1, 2, 30⟩, ⟨3, 1,
    20⟩, ⟨4, 0, 8⟩, ⟨4, 1, 22⟩, ⟨4, 2, 36⟩, ⟨6, 1, 26⟩], [⟨3, 2, 34⟩, ⟨5, 0, 10⟩, ⟨6, 2, 40⟩],
    [⟨5, 2, 38⟩, ⟨6, 0, 12⟩]], [[⟨0, 0, 0⟩, ⟨0, 1, 14⟩, ⟨1, 0, 1⟩, ⟨1, 1, 15⟩, ⟨1, 2, 29⟩], [⟨0,
    2, 28⟩]]⟩⟩,
    ⟨7189726012391949, ⟨45, 9, 5, [[0, 1, 0], [1, 2, 1], [0, 1, 0]], [[0, 1, 2], [3, 1, 4], [2,
    1, 2], [2, 1, 4], [3, 1, 2]], [[⟨0, 0, 0⟩, ⟨0, 2, 30⟩, ⟨2, 0, 10⟩, ⟨2, 2, 40⟩], [⟨0, 1, 15⟩,
    ⟨1, 0, 5⟩, ⟨1, 2, 35⟩, ⟨2, 1, 25⟩], [⟨1, 1, 20⟩]], [[⟨0, 0, 0⟩], [⟨0, 1, 15⟩, ⟨1, 1, 16⟩, ⟨2,
    1, 17⟩, ⟨3, 1, 18⟩, ⟨4, 1, 19⟩], [⟨0, 2, 30⟩, ⟨2, 0, 2⟩, ⟨2, 2, 32⟩, ⟨3, 0, 3⟩, ⟨4, 2, 34⟩],
    [⟨1, 0, 1⟩, ⟨4, 0, 4⟩], [⟨1, 2, 31⟩, ⟨3, 2, 33⟩]]⟩⟩,
    ⟨7189726012401677, ⟨84, 21, 4, [[0, 1, 2], [3, 4, 5], [4, 1, 2], [3, 3, 3], [4, 6, 6], [6, 6,
    6], [6, 6, 6]], [[0, 1, 1], [2, 1, 2], [3, 1, 2], [3, 0, 3]], [[⟨0, 0, 0⟩], [⟨0, 1, 28⟩, ⟨2,
    1, 36⟩], [⟨0, 2, 56⟩, ⟨2, 2, 64⟩], [⟨1, 0, 4⟩, ⟨3, 0, 12⟩, ⟨3, 1, 40⟩, ⟨3, 2, 68⟩], [⟨1, 1,
    32⟩, ⟨2, 0, 8⟩, ⟨4, 0, 16⟩], [⟨1, 2, 60⟩], [⟨4, 1, 44⟩, ⟨4, 2, 72⟩, ⟨5, 0, 20⟩, ⟨5, 1, 48⟩,
    ⟨5, 2, 76⟩, ⟨6, 0, 24⟩, ⟨6, 1, 52⟩, ⟨6, 2, 80⟩]], [[⟨0, 0, 0⟩, ⟨3, 1, 31⟩], [⟨0, 1, 28⟩, ⟨0,
    2, 56⟩, ⟨1, 1, 29⟩, ⟨2, 1, 30⟩], [⟨1, 0, 1⟩, ⟨1, 2, 57⟩, ⟨2, 2, 58⟩], [⟨2, 0, 2⟩, ⟨3, 0, 3⟩,
    ⟨3, 2, 59⟩]]⟩⟩,
    ⟨7189726012659725, ⟨42, 21, 2, [[0, 1, 2], [3, 4, 4], [2, 5, 6], [1, 4, 2], [4, 4, 4], [5, 5,
    5], [6, 4, 2]], [[0, 0, 1], [0, 0, 0]], [[⟨0, 0, 0⟩], [⟨0, 1, 14⟩, ⟨3, 0, 6⟩], [⟨0, 2, 28⟩,
    ⟨2, 0, 4⟩, ⟨3, 2, 34⟩, ⟨6, 2, 40⟩], [⟨1, 0, 2⟩], [⟨1, 1, 16⟩, ⟨1, 2, 30⟩, ⟨3, 1, 20⟩, ⟨4, 0,
    8⟩, ⟨4, 1, 22⟩, ⟨4, 2, 36⟩, ⟨6, 1, 26⟩], [⟨2, 1, 18⟩, ⟨5, 0, 10⟩, ⟨5, 1, 24⟩, ⟨5, 2, 38⟩],
    [⟨2, 2, 32⟩, ⟨6, 0, 12⟩]], [[⟨0, 0, 0⟩, ⟨0, 1, 14⟩, ⟨1, 0, 1⟩, ⟨1, 1, 15⟩, ⟨1, 2, 29⟩], [⟨0,
    2, 28⟩]]⟩⟩,
    ⟨7189726012664333, ⟨150, 30, 5, [[0, 1, 2], [3, 4, 5], [1, 3, 6], [0, 7, 2], [3, 8, 9], [3,
    8, 8], [3, 5, 9], [8, 4, 5], [8, 8, 8], [8, 5, 8]], [[0, 1, 2], [0, 0, 1], [3, 0, 1], [0, 0,
    4], [3, 0, 1]], [[⟨0, 0, 0⟩, ⟨3, 0, 15⟩], [⟨0, 1, 50⟩, ⟨2, 0, 10⟩], [⟨0, 2, 100⟩, ⟨3, 2,
    115⟩], [⟨1, 0, 5⟩, ⟨2, 1, 60⟩, ⟨4, 0, 20⟩, ⟨5, 0, 25⟩, ⟨6, 0, 30⟩], [⟨1, 1, 55⟩, ⟨7, 1, 85⟩],
    [⟨1, 2, 105⟩, ⟨6, 1, 80⟩, ⟨7, 2, 135⟩, ⟨9, 1, 95⟩], [⟨2, 2, 110⟩], [⟨3, 1, 65⟩], [⟨4, 1, 70⟩,
    ⟨5, 1, 75⟩, ⟨5, 2, 125⟩, ⟨7, 0, 35⟩, ⟨8, 0, 40⟩, ⟨8, 1, 90⟩, ⟨8, 2, 140⟩, ⟨9, 0, 45⟩, ⟨9, 2,
    145⟩], [⟨4, 2, 120⟩, ⟨6, 2, 130⟩]], [[⟨0, 0, 0⟩, ⟨1, 0, 1⟩, ⟨1, 1, 51⟩, ⟨2, 1, 52⟩, ⟨3, 0,
    3⟩, ⟨3, 1, 53⟩, ⟨4, 1, 54⟩], [⟨0, 1, 50⟩, ⟨1, 2, 101⟩, ⟨2, 2, 102⟩, ⟨4, 2, 104⟩], [⟨0, 2,
    100⟩], [⟨2, 0, 2⟩, ⟨4, 0, 4⟩], [⟨3, 2, 103⟩]]⟩⟩,
    ⟨7189726013702157, ⟨27, 9, 3, [[0, 1, 2], [1, 1, 1], [2, 2, 2]], [[0, 1, 2], [1, 1, 1], [2,
    0, 2]], [[⟨0, 0, 0⟩], [⟨0, 1, 9⟩, ⟨1, 0, 3⟩, ⟨1, 1, 12⟩, ⟨1, 2, 21⟩], [⟨0, 2, 18⟩, ⟨2, 0, 6⟩,
    ⟨2, 1, 15⟩, ⟨2, 2, 24⟩]], [[⟨0, 0, 0⟩, ⟨2, 1, 11⟩], [⟨0, 1, 9⟩, ⟨1, 0, 1⟩, ⟨1, 1, 10⟩, ⟨1, 2,
    19⟩], [⟨0, 2, 18⟩, ⟨2, 0, 2⟩, ⟨2, 2, 20⟩]]⟩⟩,
    ⟨7189726014753293, ⟨18, 9, 2, [[0, 1, 2], [1, 1, 1], [1, 0, 0]], [[0, 0, 1], [0, 0, 1]],
    [[⟨0, 0, 0⟩, ⟨2, 1, 10⟩, ⟨2, 2, 16⟩], [⟨0, 1, 6⟩, ⟨1, 0, 2⟩, ⟨1, 1, 8⟩, ⟨1, 2, 14⟩, ⟨2, 0,
    4⟩], [⟨0, 2, 12⟩]], [[⟨0, 0, 0⟩, ⟨0, 1, 6⟩, ⟨1, 0, 1⟩, ⟨1, 1, 7⟩], [⟨0, 2, 12⟩, ⟨1, 2,
    13⟩]]⟩⟩,
    ⟨7189726014756877, ⟨42, 21, 2, [[0, 1, 2], [3, 4, 4], [2, 5, 6], [1, 4, 2], [4, 4, 4], [5, 5,
    5], [6, 4, 2]], [[0, 0, 1], [0, 0, 0]], [[⟨0, 0, 0⟩], [⟨0, 1, 14⟩, ⟨3, 0, 6⟩], [⟨0, 2, 28⟩,
    ⟨2, 0, 4⟩, ⟨3, 2, 34⟩, ⟨6, 2, 40⟩], [⟨1, 0, 2⟩], [⟨1, 1, 16⟩, ⟨1, 2, 30⟩, ⟨3, 1, 20⟩, ⟨4, 0,
    8⟩, ⟨4, 1, 22⟩, ⟨4, 2, 36⟩, ⟨6, 1, 26⟩], [⟨2, 1, 18⟩, ⟨5, 0, 10⟩, ⟨5, 1, 24⟩, ⟨5, 2, 38⟩],
    [⟨2, 2, 32⟩, ⟨6, 0, 12⟩]], [[⟨0, 0, 0⟩, ⟨0, 1, 14⟩, ⟨1, 0, 1⟩, ⟨1, 1, 15⟩, ⟨1, 2, 29⟩], [⟨0,
    2, 28⟩]]⟩⟩,
    ⟨7189726014760973, ⟨24, 12, 2, [[0, 1, 2], [1, 1, 1], [2, 3, 0], [3, 3, 3]], [[0, 0, 1], [0,
    0, 1]], [[⟨0, 0, 0⟩, ⟨2, 2, 20⟩], [⟨0, 1, 8⟩, ⟨1, 0, 2⟩, ⟨1, 1, 10⟩, ⟨1, 2, 18⟩], [⟨0, 2,
    16⟩, ⟨2, 0, 4⟩], [⟨2, 1, 12⟩, ⟨3, 0, 6⟩, ⟨3, 1, 14⟩, ⟨3, 2, 22⟩]], [[⟨0, 0, 0⟩, ⟨0, 1, 8⟩,
    ⟨1, 0, 1⟩, ⟨1, 1, 9⟩], [⟨0, 2, 16⟩, ⟨1, 2, 17⟩]]⟩⟩],
    by decide +kernel, by decide +kernel⟩

def list23_2l1_2l0_1 : List Listed := [
  ⟨7189726015537165, [((0, 0), (1, true, 1)), ((0, 1), (0, false, 0)), ((0, 2), (1, true, 0)),
  ((1, 0), (2, false, 1)), ((1, 1), (2, false, 0)), ((1, 2), (1, true, 0))]⟩,
  ⟨7189726015799309, [((0, 0), (1, true, 1)), ((0, 1), (0, false, 0)), ((0, 2), (1, true, 1)),
  ((1, 0), (2, false, 1)), ((1, 1), (2, false, 0)), ((1, 2), (1, true, 0))]⟩,
  ⟨7189726015799821, [((0, 0), (1, true, 1)), ((0, 1), (0, false, 1)), ((0, 2), (1, true, 1)),
  ((1, 0), (2, false, 1)), ((1, 1), (2, false, 0)), ((1, 2), (1, true, 0))]⟩,
  ⟨7189726015808013, [((0, 0), (1, true, 1)), ((0, 1), (2, false, 1)), ((0, 2), (1, true, 1)),
  ((1, 0), (2, false, 1)), ((1, 1), (2, false, 0)), ((1, 2), (1, true, 0))]⟩,
  ⟨7189726016586253, [((0, 0), (1, true, 1)), ((0, 1), (0, false, 1)), ((0, 2), (2, false, 0)),
  ((1, 0), (2, false, 1)), ((1, 1), (2, false, 0)), ((1, 2), (1, true, 0))]⟩,
  ⟨14111153078285, [((0, 0), (1, true, 1)), ((0, 1), (0, false, 0)), ((1, 0), (2, false, 1)),
  ((1, 1), (2, false, 0)), ((1, 2), (1, true, 1))]⟩,
  ⟨7224910384744461, [((0, 0), (1, true, 1)), ((0, 1), (0, true, 0)), ((0, 2), (0, false, 1)),
  ((1, 0), (2, false, 1)), ((1, 1), (2, false, 0)), ((1, 2), (1, true, 1))]⟩,
  ⟨7224910388938765, [((0, 0), (1, true, 1)), ((0, 1), (0, true, 0)), ((0, 2), (2, false, 1)),
  ((1, 0), (2, false, 1)), ((1, 1), (2, false, 0)), ((1, 2), (1, true, 1))]⟩,
  ⟨7224910388942861, [((0, 0), (1, true, 1)), ((0, 1), (1, true, 0)), ((0, 2), (2, false, 1)),
  ((1, 0), (2, false, 1)), ((1, 1), (2, false, 0)), ((1, 2), (1, true, 1))]⟩,
  ⟨14111153086477, [((0, 0), (1, true, 1)), ((0, 1), (2, false, 0)), ((1, 0), (2, false, 1)),
  ((1, 1), (2, false, 0)), ((1, 2), (1, true, 1))]⟩,
  ⟨14111153086989, [((0, 0), (1, true, 1)), ((0, 1), (2, false, 1)), ((1, 0), (2, false, 1)),
  ((1, 1), (2, false, 0)), ((1, 2), (1, true, 1))]⟩,
  ⟨7224910384752653, [((0, 0), (1, true, 1)), ((0, 1), (2, true, 0)), ((0, 2), (0, false, 1)),
  ((1, 0), (2, false, 1)), ((1, 1), (2, false, 0)), ((1, 2), (1, true, 1))]⟩,
  ⟨14592189432333, [((0, 0), (1, true, 1)), ((0, 2), (0, false, 1)), ((1, 0), (2, false, 1)),
  ((1, 1), (2, false, 0)), ((1, 2), (2, true, 0))]⟩,
  ⟨7471200991461901, [((0, 0), (1, true, 1)), ((0, 1), (0, false, 1)), ((0, 2), (1, false, 1)),
  ((1, 0), (2, false, 1)), ((1, 1), (2, false, 0)), ((1, 2), (2, true, 0))]⟩,
  ⟨7471200991463949, [((0, 0), (1, true, 1)), ((0, 1), (0, true, 1)), ((0, 2), (1, false, 1)),
  ((1, 0), (2, false, 1)), ((1, 1), (2, false, 0)), ((1, 2), (2, true, 0))]⟩,
  ⟨7471200991467533, [((0, 0), (1, true, 1)), ((0, 1), (1, true, 0)), ((0, 2), (1, false, 1)),
  ((1, 0), (2, false, 1)), ((1, 1), (2, false, 0)), ((1, 2), (2, true, 0))]⟩,
  ⟨7471200991468045, [((0, 0), (1, true, 1)), ((0, 1), (1, true, 1)), ((0, 2), (1, false, 1)),
  ((1, 0), (2, false, 1)), ((1, 1), (2, false, 0)), ((1, 2), (2, true, 0))]⟩,
  ⟨7471200991471629, [((0, 0), (1, true, 1)), ((0, 1), (2, true, 0)), ((0, 2), (1, false, 1)),
  ((1, 0), (2, false, 1)), ((1, 1), (2, false, 0)), ((1, 2), (2, true, 0))]⟩,
  ⟨7471200992247821, [((0, 0), (1, true, 1)), ((0, 1), (0, false, 0)), ((0, 2), (1, true, 0)),
  ((1, 0), (2, false, 1)), ((1, 1), (2, false, 0)), ((1, 2), (2, true, 0))]⟩,
  ⟨7471200992248333, [((0, 0), (1, true, 1)), ((0, 1), (0, false, 1)), ((0, 2), (1, true, 0)),
  ((1, 0), (2, false, 1)), ((1, 1), (2, false, 0)), ((1, 2), (2, true, 0))]⟩]

theorem done23_2l1_2l0_1 : ∃ h, Done list23_2l1_2l0_1 h :=
  ⟨[
    ⟨7189726015537165, ⟨18, 6, 3, [[0, 1, 1], [1, 1, 1]], [[0, 1, 2], [1, 1, 1], [2, 0, 2]],
    [[⟨0, 0, 0⟩], [⟨0, 1, 6⟩, ⟨0, 2, 12⟩, ⟨1, 0, 3⟩, ⟨1, 1, 9⟩, ⟨1, 2, 15⟩]], [[⟨0, 0, 0⟩, ⟨2, 1,
    8⟩], [⟨0, 1, 6⟩, ⟨1, 0, 1⟩, ⟨1, 1, 7⟩, ⟨1, 2, 13⟩], [⟨0, 2, 12⟩, ⟨2, 0, 2⟩, ⟨2, 2, 14⟩]]⟩⟩,
    ⟨7189726015799309, ⟨18, 6, 3, [[0, 1, 1], [1, 1, 1]], [[0, 1, 2], [1, 1, 1], [2, 0, 2]],
    [[⟨0, 0, 0⟩], [⟨0, 1, 6⟩, ⟨0, 2, 12⟩, ⟨1, 0, 3⟩, ⟨1, 1, 9⟩, ⟨1, 2, 15⟩]], [[⟨0, 0, 0⟩, ⟨2, 1,
    8⟩], [⟨0, 1, 6⟩, ⟨1, 0, 1⟩, ⟨1, 1, 7⟩, ⟨1, 2, 13⟩], [⟨0, 2, 12⟩, ⟨2, 0, 2⟩, ⟨2, 2, 14⟩]]⟩⟩,
    ⟨7189726015799821, ⟨27, 9, 3, [[0, 1, 0], [1, 2, 1], [0, 1, 0]], [[0, 1, 2], [1, 1, 1], [2,
    1, 2]], [[⟨0, 0, 0⟩, ⟨0, 2, 18⟩, ⟨2, 0, 6⟩, ⟨2, 2, 24⟩], [⟨0, 1, 9⟩, ⟨1, 0, 3⟩, ⟨1, 2, 21⟩,
    ⟨2, 1, 15⟩], [⟨1, 1, 12⟩]], [[⟨0, 0, 0⟩], [⟨0, 1, 9⟩, ⟨1, 0, 1⟩, ⟨1, 1, 10⟩, ⟨1, 2, 19⟩, ⟨2,
    1, 11⟩], [⟨0, 2, 18⟩, ⟨2, 0, 2⟩, ⟨2, 2, 20⟩]]⟩⟩,
    ⟨7189726015808013, ⟨27, 9, 3, [[0, 1, 0], [1, 2, 1], [0, 1, 0]], [[0, 1, 2], [1, 1, 1], [2,
    1, 2]], [[⟨0, 0, 0⟩, ⟨0, 2, 18⟩, ⟨2, 0, 6⟩, ⟨2, 2, 24⟩], [⟨0, 1, 9⟩, ⟨1, 0, 3⟩, ⟨1, 2, 21⟩,
    ⟨2, 1, 15⟩], [⟨1, 1, 12⟩]], [[⟨0, 0, 0⟩], [⟨0, 1, 9⟩, ⟨1, 0, 1⟩, ⟨1, 1, 10⟩, ⟨1, 2, 19⟩, ⟨2,
    1, 11⟩], [⟨0, 2, 18⟩, ⟨2, 0, 2⟩, ⟨2, 2, 20⟩]]⟩⟩,
    ⟨7189726016586253, ⟨27, 9, 3, [[0, 1, 0], [1, 2, 1], [0, 1, 0]], [[0, 1, 2], [1, 1, 1], [2,
    1, 2]], [[⟨0, 0, 0⟩, ⟨0, 2, 18⟩, ⟨2, 0, 6⟩, ⟨2, 2, 24⟩], [⟨0, 1, 9⟩, ⟨1, 0, 3⟩, ⟨1, 2, 21⟩,
    ⟨2, 1, 15⟩], [⟨1, 1, 12⟩]], [[⟨0, 0, 0⟩], [⟨0, 1, 9⟩, ⟨1, 0, 1⟩, ⟨1, 1, 10⟩, ⟨1, 2, 19⟩, ⟨2,
    1, 11⟩], [⟨0, 2, 18⟩, ⟨2, 0, 2⟩, ⟨2, 2, 20⟩]]⟩⟩,
    ⟨14111153078285, ⟨18, 9, 2, [[0, 1, 2], [1, 1, 2], [2, 2, 2]], [[0, 0, 1], [1, 0, 1]], [[⟨0,
    0, 0⟩], [⟨0, 1, 6⟩, ⟨1, 0, 2⟩, ⟨1, 1, 8⟩], [⟨0, 2, 12⟩, ⟨1, 2, 14⟩, ⟨2, 0, 4⟩, ⟨2, 1, 10⟩,
    ⟨2, 2, 16⟩]], [[⟨0, 0, 0⟩, ⟨0, 1, 6⟩, ⟨1, 1, 7⟩], [⟨0, 2, 12⟩, ⟨1, 0, 1⟩, ⟨1, 2, 13⟩]]⟩⟩,
    ⟨7224910384744461, ⟨168, 42, 4, [[0, 1, 2], [3, 4, 1], [1, 5, 5], [1, 6, 4], [0, 7, 6], [5,
    5, 5], [1, 5, 4], [8, 4, 9], [8, 10, 9], [10, 11, 7], [12, 7, 10], [11, 11, 11], [10, 9, 13],
    [8, 4, 1]], [[0, 1, 2], [0, 1, 3], [0, 1, 3], [0, 1, 2]], [[⟨0, 0, 0⟩, ⟨4, 0, 16⟩], [⟨0, 1,
    56⟩, ⟨1, 2, 116⟩, ⟨2, 0, 8⟩, ⟨3, 0, 12⟩, ⟨6, 0, 24⟩, ⟨13, 2, 164⟩], [⟨0, 2, 112⟩], [⟨1, 0,
    4⟩], [⟨1, 1, 60⟩, ⟨3, 2, 124⟩, ⟨6, 2, 136⟩, ⟨7, 1, 84⟩, ⟨13, 1, 108⟩], [⟨2, 1, 64⟩, ⟨2, 2,
    120⟩, ⟨5, 0, 20⟩, ⟨5, 1, 76⟩, ⟨5, 2, 132⟩, ⟨6, 1, 80⟩], [⟨3, 1, 68⟩, ⟨4, 2, 128⟩], [⟨4, 1,
    72⟩, ⟨9, 2, 148⟩, ⟨10, 1, 96⟩], [⟨7, 0, 28⟩, ⟨8, 0, 32⟩, ⟨13, 0, 52⟩], [⟨7, 2, 140⟩, ⟨8, 2,
    144⟩, ⟨12, 1, 104⟩], [⟨8, 1, 88⟩, ⟨9, 0, 36⟩, ⟨10, 2, 152⟩, ⟨12, 0, 48⟩], [⟨9, 1, 92⟩, ⟨11,
    0, 44⟩, ⟨11, 1, 100⟩, ⟨11, 2, 156⟩], [⟨10, 0, 40⟩], [⟨12, 2, 160⟩]], [[⟨0, 0, 0⟩, ⟨1, 0, 1⟩,
    ⟨2, 0, 2⟩, ⟨3, 0, 3⟩], [⟨0, 1, 56⟩, ⟨1, 1, 57⟩, ⟨2, 1, 58⟩, ⟨3, 1, 59⟩], [⟨0, 2, 112⟩, ⟨3, 2,
    115⟩], [⟨1, 2, 113⟩, ⟨2, 2, 114⟩]]⟩⟩,
    ⟨7224910388938765, ⟨48, 12, 4, [[0, 1, 2], [2, 0, 0], [1, 3, 3], [3, 3, 3]], [[0, 1, 2], [1,
    1, 1], [1, 2, 3], [0, 1, 2]], [[⟨0, 0, 0⟩, ⟨1, 1, 20⟩, ⟨1, 2, 36⟩], [⟨0, 1, 16⟩, ⟨2, 0, 8⟩],
    [⟨0, 2, 32⟩, ⟨1, 0, 4⟩], [⟨2, 1, 24⟩, ⟨2, 2, 40⟩, ⟨3, 0, 12⟩, ⟨3, 1, 28⟩, ⟨3, 2, 44⟩]], [[⟨0,
    0, 0⟩, ⟨3, 0, 3⟩], [⟨0, 1, 16⟩, ⟨1, 0, 1⟩, ⟨1, 1, 17⟩, ⟨1, 2, 33⟩, ⟨2, 0, 2⟩, ⟨3, 1, 19⟩],
    [⟨0, 2, 32⟩, ⟨2, 1, 18⟩, ⟨3, 2, 35⟩], [⟨2, 2, 34⟩]]⟩⟩,
    ⟨7224910388942861, ⟨24, 12, 2, [[0, 1, 2], [1, 1, 1], [2, 3, 0], [3, 3, 3]], [[0, 0, 1], [0,
    0, 1]], [[⟨0, 0, 0⟩, ⟨2, 2, 20⟩], [⟨0, 1, 8⟩, ⟨1, 0, 2⟩, ⟨1, 1, 10⟩, ⟨1, 2, 18⟩], [⟨0, 2,
    16⟩, ⟨2, 0, 4⟩], [⟨2, 1, 12⟩, ⟨3, 0, 6⟩, ⟨3, 1, 14⟩, ⟨3, 2, 22⟩]], [[⟨0, 0, 0⟩, ⟨0, 1, 8⟩,
    ⟨1, 0, 1⟩, ⟨1, 1, 9⟩], [⟨0, 2, 16⟩, ⟨1, 2, 17⟩]]⟩⟩,
    ⟨14111153086477, ⟨18, 9, 2, [[0, 1, 2], [1, 1, 2], [2, 2, 2]], [[0, 0, 1], [0, 0, 1]], [[⟨0,
    0, 0⟩], [⟨0, 1, 6⟩, ⟨1, 0, 2⟩, ⟨1, 1, 8⟩], [⟨0, 2, 12⟩, ⟨1, 2, 14⟩, ⟨2, 0, 4⟩, ⟨2, 1, 10⟩,
    ⟨2, 2, 16⟩]], [[⟨0, 0, 0⟩, ⟨0, 1, 6⟩, ⟨1, 0, 1⟩, ⟨1, 1, 7⟩], [⟨0, 2, 12⟩, ⟨1, 2, 13⟩]]⟩⟩,
    ⟨14111153086989, ⟨36, 9, 4, [[0, 1, 2], [2, 0, 1], [2, 2, 2]], [[0, 1, 2], [1, 1, 1], [1, 2,
    3], [0, 1, 2]], [[⟨0, 0, 0⟩, ⟨1, 1, 16⟩], [⟨0, 1, 12⟩, ⟨1, 2, 28⟩], [⟨0, 2, 24⟩, ⟨1, 0, 4⟩,
    ⟨2, 0, 8⟩, ⟨2, 1, 20⟩, ⟨2, 2, 32⟩]], [[⟨0, 0, 0⟩, ⟨3, 0, 3⟩], [⟨0, 1, 12⟩, ⟨1, 0, 1⟩, ⟨1, 1,
    13⟩, ⟨1, 2, 25⟩, ⟨2, 0, 2⟩, ⟨3, 1, 15⟩], [⟨0, 2, 24⟩, ⟨2, 1, 14⟩, ⟨3, 2, 27⟩], [⟨2, 2,
    26⟩]]⟩⟩,
    ⟨7224910384752653, ⟨24, 12, 2, [[0, 1, 2], [1, 1, 1], [2, 3, 0], [3, 3, 3]], [[0, 0, 1], [0,
    0, 1]], [[⟨0, 0, 0⟩, ⟨2, 2, 20⟩], [⟨0, 1, 8⟩, ⟨1, 0, 2⟩, ⟨1, 1, 10⟩, ⟨1, 2, 18⟩], [⟨0, 2,
    16⟩, ⟨2, 0, 4⟩], [⟨2, 1, 12⟩, ⟨3, 0, 6⟩, ⟨3, 1, 14⟩, ⟨3, 2, 22⟩]], [[⟨0, 0, 0⟩, ⟨0, 1, 8⟩,
    ⟨1, 0, 1⟩, ⟨1, 1, 9⟩], [⟨0, 2, 16⟩, ⟨1, 2, 17⟩]]⟩⟩,
    ⟨14592189432333, ⟨54, 18, 3, [[0, 1, 2], [3, 2, 4], [2, 2, 2], [1, 2, 2], [4, 5, 4], [5, 2,
    4]], [[0, 1, 2], [1, 1, 1], [0, 1, 0]], [[⟨0, 0, 0⟩], [⟨0, 1, 18⟩, ⟨3, 0, 9⟩], [⟨0, 2, 36⟩,
    ⟨1, 1, 21⟩, ⟨2, 0, 6⟩, ⟨2, 1, 24⟩, ⟨2, 2, 42⟩, ⟨3, 1, 27⟩, ⟨3, 2, 45⟩, ⟨5, 1, 33⟩], [⟨1, 0,
    3⟩], [⟨1, 2, 39⟩, ⟨4, 0, 12⟩, ⟨4, 2, 48⟩, ⟨5, 2, 51⟩], [⟨4, 1, 30⟩, ⟨5, 0, 15⟩]], [[⟨0, 0,
    0⟩, ⟨2, 0, 2⟩, ⟨2, 2, 38⟩], [⟨0, 1, 18⟩, ⟨1, 0, 1⟩, ⟨1, 1, 19⟩, ⟨1, 2, 37⟩, ⟨2, 1, 20⟩], [⟨0,
    2, 36⟩]]⟩⟩,
    ⟨7471200991461901, ⟨42, 21, 2, [[0, 1, 2], [3, 4, 5], [2, 2, 2], [1, 2, 2], [0, 6, 2], [5, 5,
    5], [6, 4, 5]], [[0, 0, 1], [0, 0, 0]], [[⟨0, 0, 0⟩, ⟨4, 0, 8⟩], [⟨0, 1, 14⟩, ⟨3, 0, 6⟩],
    [⟨0, 2, 28⟩, ⟨2, 0, 4⟩, ⟨2, 1, 18⟩, ⟨2, 2, 32⟩, ⟨3, 1, 20⟩, ⟨3, 2, 34⟩, ⟨4, 2, 36⟩], [⟨1, 0,
    2⟩], [⟨1, 1, 16⟩, ⟨6, 1, 26⟩], [⟨1, 2, 30⟩, ⟨5, 0, 10⟩, ⟨5, 1, 24⟩, ⟨5, 2, 38⟩, ⟨6, 2, 40⟩],
    [⟨4, 1, 22⟩, ⟨6, 0, 12⟩]], [[⟨0, 0, 0⟩, ⟨0, 1, 14⟩, ⟨1, 0, 1⟩, ⟨1, 1, 15⟩, ⟨1, 2, 29⟩], [⟨0,
    2, 28⟩]]⟩⟩,
    ⟨7471200991463949, ⟨30, 15, 2, [[0, 1, 2], [3, 2, 4], [2, 2, 2], [1, 0, 2], [4, 4, 4]], [[0,
    0, 1], [0, 0, 0]], [[⟨0, 0, 0⟩, ⟨3, 1, 16⟩], [⟨0, 1, 10⟩, ⟨3, 0, 6⟩], [⟨0, 2, 20⟩, ⟨1, 1,
    12⟩, ⟨2, 0, 4⟩, ⟨2, 1, 14⟩, ⟨2, 2, 24⟩, ⟨3, 2, 26⟩], [⟨1, 0, 2⟩], [⟨1, 2, 22⟩, ⟨4, 0, 8⟩, ⟨4,
    1, 18⟩, ⟨4, 2, 28⟩]], [[⟨0, 0, 0⟩, ⟨0, 1, 10⟩, ⟨1, 0, 1⟩, ⟨1, 1, 11⟩, ⟨1, 2, 21⟩], [⟨0, 2,
    20⟩]]⟩⟩,
    ⟨7471200991467533, ⟨30, 15, 2, [[0, 1, 2], [3, 4, 4], [2, 2, 2], [1, 4, 2], [4, 4, 4]], [[0,
    0, 1], [0, 0, 0]], [[⟨0, 0, 0⟩], [⟨0, 1, 10⟩, ⟨3, 0, 6⟩], [⟨0, 2, 20⟩, ⟨2, 0, 4⟩, ⟨2, 1, 14⟩,
    ⟨2, 2, 24⟩, ⟨3, 2, 26⟩], [⟨1, 0, 2⟩], [⟨1, 1, 12⟩, ⟨1, 2, 22⟩, ⟨3, 1, 16⟩, ⟨4, 0, 8⟩, ⟨4, 1,
    18⟩, ⟨4, 2, 28⟩]], [[⟨0, 0, 0⟩, ⟨0, 1, 10⟩, ⟨1, 0, 1⟩, ⟨1, 1, 11⟩, ⟨1, 2, 21⟩], [⟨0, 2,
    20⟩]]⟩⟩,
    ⟨7471200991468045, ⟨30, 15, 2, [[0, 1, 2], [3, 1, 4], [2, 2, 2], [1, 1, 2], [4, 4, 4]], [[0,
    0, 1], [0, 0, 0]], [[⟨0, 0, 0⟩], [⟨0, 1, 10⟩, ⟨1, 1, 12⟩, ⟨3, 0, 6⟩, ⟨3, 1, 16⟩], [⟨0, 2,
    20⟩, ⟨2, 0, 4⟩, ⟨2, 1, 14⟩, ⟨2, 2, 24⟩, ⟨3, 2, 26⟩], [⟨1, 0, 2⟩], [⟨1, 2, 22⟩, ⟨4, 0, 8⟩, ⟨4,
    1, 18⟩, ⟨4, 2, 28⟩]], [[⟨0, 0, 0⟩, ⟨0, 1, 10⟩, ⟨1, 0, 1⟩, ⟨1, 1, 11⟩, ⟨1, 2, 21⟩], [⟨0, 2,
    20⟩]]⟩⟩,
    ⟨7471200991471629, ⟨42, 21, 2, [[0, 1, 2], [3, 4, 5], [2, 2, 2], [1, 2, 2], [0, 6, 2], [5, 5,
    5], [6, 4, 5]], [[0, 0, 1], [0, 0, 0]], [[⟨0, 0, 0⟩, ⟨4, 0, 8⟩], [⟨0, 1, 14⟩, ⟨3, 0, 6⟩],
    [⟨0, 2, 28⟩, ⟨2, 0, 4⟩, ⟨2, 1, 18⟩, ⟨2, 2, 32⟩, ⟨3, 1, 20⟩, ⟨3, 2, 34⟩, ⟨4, 2, 36⟩], [⟨1, 0,
    2⟩], [⟨1, 1, 16⟩, ⟨6, 1, 26⟩], [⟨1, 2, 30⟩, ⟨5, 0, 10⟩, ⟨5, 1, 24⟩, ⟨5, 2, 38⟩, ⟨6, 2, 40⟩],
    [⟨4, 1, 22⟩, ⟨6, 0, 12⟩]], [[⟨0, 0, 0⟩, ⟨0, 1, 14⟩, ⟨1, 0, 1⟩, ⟨1, 1, 15⟩, ⟨1, 2, 29⟩], [⟨0,
    2, 28⟩]]⟩⟩,
    ⟨7471200992247821, ⟨18, 6, 3, [[0, 1, 1], [1, 1, 1]], [[0, 1, 2], [1, 1, 1], [2, 0, 2]],
    [[⟨0, 0, 0⟩], [⟨0, 1, 6⟩, ⟨0, 2, 12⟩, ⟨1, 0, 3⟩, ⟨1, 1, 9⟩, ⟨1, 2, 15⟩]], [[⟨0, 0, 0⟩, ⟨2, 1,
    8⟩], [⟨0, 1, 6⟩, ⟨1, 0, 1⟩, ⟨1, 1, 7⟩, ⟨1, 2, 13⟩], [⟨0, 2, 12⟩, ⟨2, 0, 2⟩, ⟨2, 2, 14⟩]]⟩⟩,
    ⟨7471200992248333, ⟨180, 9, 20, [[0, 0, 1], [0, 2, 0], [0, 1, 1]], [[0, 1, 2], [1, 1, 1], [1,
    3, 4], [2, 2, 1], [5, 2, 2], [6, 3, 7], [8, 1, 2], [9, 10, 5], [6, 1, 1], [11, 12, 13], [8,
    3, 14], [15, 2, 2], [10, 2, 1], [16, 17, 13], [5, 18, 14], [0, 3, 14], [17, 19, 13], [15, 18,
    14], [2, 18, 4], [10, 18, 4]], [[⟨0, 0, 0⟩, ⟨0, 1, 60⟩, ⟨1, 0, 20⟩, ⟨1, 2, 140⟩, ⟨2, 0, 40⟩],
    [⟨0, 2, 120⟩, ⟨2, 1, 100⟩, ⟨2, 2, 160⟩], [⟨1, 1, 80⟩]], [[⟨0, 0, 0⟩, ⟨15, 0, 15⟩], [⟨0, 1,
    60⟩, ⟨1, 0, 1⟩, ⟨1, 1, 61⟩, ⟨1, 2, 121⟩, ⟨2, 0, 2⟩, ⟨3, 2, 123⟩, ⟨6, 1, 66⟩, ⟨8, 1, 68⟩, ⟨8,
    2, 128⟩, ⟨12, 2, 132⟩], [⟨0, 2, 120⟩, ⟨3, 0, 3⟩, ⟨3, 1, 63⟩, ⟨4, 1, 64⟩, ⟨4, 2, 124⟩, ⟨6, 2,
    126⟩, ⟨11, 1, 71⟩, ⟨11, 2, 131⟩, ⟨12, 1, 72⟩, ⟨18, 0, 18⟩], [⟨2, 1, 62⟩, ⟨5, 1, 65⟩, ⟨10, 1,
    70⟩, ⟨15, 1, 75⟩], [⟨2, 2, 122⟩, ⟨18, 2, 138⟩, ⟨19, 2, 139⟩], [⟨4, 0, 4⟩, ⟨7, 2, 127⟩, ⟨14,
    0, 14⟩], [⟨5, 0, 5⟩, ⟨8, 0, 8⟩], [⟨5, 2, 125⟩], [⟨6, 0, 6⟩, ⟨10, 0, 10⟩], [⟨7, 0, 7⟩], [⟨7,
    1, 67⟩, ⟨12, 0, 12⟩, ⟨19, 0, 19⟩], [⟨9, 0, 9⟩], [⟨9, 1, 69⟩], [⟨9, 2, 129⟩, ⟨13, 2, 133⟩,
    ⟨16, 2, 136⟩], [⟨10, 2, 130⟩, ⟨14, 2, 134⟩, ⟨15, 2, 135⟩, ⟨17, 2, 137⟩], [⟨11, 0, 11⟩, ⟨17,
    0, 17⟩], [⟨13, 0, 13⟩], [⟨13, 1, 73⟩, ⟨16, 0, 16⟩], [⟨14, 1, 74⟩, ⟨17, 1, 77⟩, ⟨18, 1, 78⟩,
    ⟨19, 1, 79⟩], [⟨16, 1, 76⟩]]⟩⟩],
    by decide +kernel, by decide +kernel⟩

def list23_2l1_2l0_2 : List Listed := [
  ⟨7471200992256525, [((0, 0), (1, true, 1)), ((0, 1), (2, false, 1)), ((0, 2), (1, true, 0)),
  ((1, 0), (2, false, 1)), ((1, 1), (2, false, 0)), ((1, 2), (2, true, 0))]⟩]

theorem done23_2l1_2l0_2 : ∃ h, Done list23_2l1_2l0_2 h :=
  ⟨[
    ⟨7471200992256525, ⟨126, 9, 14, [[0, 0, 1], [0, 2, 0], [0, 1, 0]], [[0, 1, 1], [2, 3, 4], [2,
    2, 2], [1, 2, 2], [5, 1, 1], [6, 0, 7], [8, 1, 1], [9, 0, 7], [10, 3, 4], [8, 11, 12], [13,
    1, 1], [1, 3, 4], [5, 11, 12], [10, 2, 2]], [[⟨0, 0, 0⟩, ⟨0, 1, 42⟩, ⟨1, 0, 14⟩, ⟨1, 2, 98⟩,
    ⟨2, 0, 28⟩, ⟨2, 2, 112⟩], [⟨0, 2, 84⟩, ⟨2, 1, 70⟩], [⟨1, 1, 56⟩]], [[⟨0, 0, 0⟩, ⟨5, 1, 47⟩,
    ⟨7, 1, 49⟩], [⟨0, 1, 42⟩, ⟨0, 2, 84⟩, ⟨3, 0, 3⟩, ⟨4, 1, 46⟩, ⟨4, 2, 88⟩, ⟨6, 1, 48⟩, ⟨6, 2,
    90⟩, ⟨10, 1, 52⟩, ⟨10, 2, 94⟩, ⟨11, 0, 11⟩], [⟨1, 0, 1⟩, ⟨2, 0, 2⟩, ⟨2, 1, 44⟩, ⟨2, 2, 86⟩,
    ⟨3, 1, 45⟩, ⟨3, 2, 87⟩, ⟨13, 1, 55⟩, ⟨13, 2, 97⟩], [⟨1, 1, 43⟩, ⟨8, 1, 50⟩, ⟨11, 1, 53⟩],
    [⟨1, 2, 85⟩, ⟨8, 2, 92⟩, ⟨11, 2, 95⟩], [⟨4, 0, 4⟩, ⟨12, 0, 12⟩], [⟨5, 0, 5⟩], [⟨5, 2, 89⟩,
    ⟨7, 2, 91⟩], [⟨6, 0, 6⟩, ⟨9, 0, 9⟩], [⟨7, 0, 7⟩], [⟨8, 0, 8⟩, ⟨13, 0, 13⟩], [⟨9, 1, 51⟩, ⟨12,
    1, 54⟩], [⟨9, 2, 93⟩, ⟨12, 2, 96⟩], [⟨10, 0, 10⟩]]⟩⟩],
    by decide +kernel, by decide +kernel⟩

theorem child23_2l1_2l0 : AllDone (child (2, false, 1) (2, false, 0)) := by
  refine allDone_of [list23_2l1_2l0_0, list23_2l1_2l0_1, list23_2l1_2l0_2] ?_ (by decide +kernel)
  simp only [List.forall_mem_cons, List.not_mem_nil, false_imp_iff, implies_true, and_true]
  exact ⟨done23_2l1_2l0_0, done23_2l1_2l0_1, done23_2l1_2l0_2⟩

theorem child23_2l1_2l1 : AllDone (child (2, false, 1) (2, false, 1)) :=
  allDone_of [] (by simp) (by decide +kernel)

end BB.Records
