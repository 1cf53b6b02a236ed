import Verif.Props.RecordsTwoThreeB

/-!
# C79 for two states and three colours: programs with some instructions at B0
-/

namespace BB.Records

open Watch

def list23_1l0_0r1_0 : List Listed := [
  ⟨12456495696397, [((0, 0), (1, true, 1)), ((0, 1), (0, true, 1)), ((0, 2), (0, false, 0)), ((1,
  0), (1, false, 0)), ((1, 1), (2, true, 1))]⟩,
  ⟨12456497793549, [((0, 0), (1, true, 1)), ((0, 1), (0, true, 1)), ((0, 2), (1, false, 0)), ((1,
  0), (1, false, 0)), ((1, 1), (2, true, 1))]⟩,
  ⟨6803040311200269, [((0, 0), (1, true, 1)), ((0, 1), (0, true, 1)), ((0, 2), (1, false, 1)),
  ((1, 0), (1, false, 0)), ((1, 1), (2, true, 1)), ((1, 2), (0, false, 1))]⟩,
  ⟨6767855940946445, [((0, 0), (1, true, 1)), ((0, 1), (0, true, 1)), ((0, 2), (2, false, 0)),
  ((1, 0), (1, false, 0)), ((1, 1), (2, true, 1)), ((1, 2), (0, false, 0))]⟩]

theorem done23_1l0_0r1_0 : ∃ h, Done list23_1l0_0r1_0 h :=
  ⟨[
    ⟨12456495696397, ⟨18, 6, 3, [[0, 0, 1], [0, 0, 1]], [[0, 1, 2], [1, 1, 2], [2, 2, 2]], [[⟨0,
    0, 0⟩, ⟨0, 1, 6⟩, ⟨1, 0, 3⟩, ⟨1, 1, 9⟩], [⟨0, 2, 12⟩, ⟨1, 2, 15⟩]], [[⟨0, 0, 0⟩], [⟨0, 1, 6⟩,
    ⟨1, 0, 1⟩, ⟨1, 1, 7⟩], [⟨0, 2, 12⟩, ⟨1, 2, 13⟩, ⟨2, 0, 2⟩, ⟨2, 1, 8⟩, ⟨2, 2, 14⟩]]⟩⟩,
    ⟨12456497793549, ⟨18, 6, 3, [[0, 0, 1], [0, 0, 1]], [[0, 1, 2], [1, 1, 2], [2, 2, 2]], [[⟨0,
    0, 0⟩, ⟨0, 1, 6⟩, ⟨1, 0, 3⟩, ⟨1, 1, 9⟩], [⟨0, 2, 12⟩, ⟨1, 2, 15⟩]], [[⟨0, 0, 0⟩], [⟨0, 1, 6⟩,
    ⟨1, 0, 1⟩, ⟨1, 1, 7⟩], [⟨0, 2, 12⟩, ⟨1, 2, 13⟩, ⟨2, 0, 2⟩, ⟨2, 1, 8⟩, ⟨2, 2, 14⟩]]⟩⟩,
    ⟨6803040311200269, ⟨36, 9, 4, [[0, 0, 1], [0, 2, 1], [0, 0, 0]], [[0, 1, 2], [3, 3, 3], [2,
    2, 2], [3, 3, 3]], [[⟨0, 0, 0⟩, ⟨0, 1, 12⟩, ⟨1, 0, 4⟩, ⟨2, 0, 8⟩, ⟨2, 1, 20⟩, ⟨2, 2, 32⟩],
    [⟨0, 2, 24⟩, ⟨1, 2, 28⟩], [⟨1, 1, 16⟩]], [[⟨0, 0, 0⟩], [⟨0, 1, 12⟩], [⟨0, 2, 24⟩, ⟨2, 0, 2⟩,
    ⟨2, 1, 14⟩, ⟨2, 2, 26⟩], [⟨1, 0, 1⟩, ⟨1, 1, 13⟩, ⟨1, 2, 25⟩, ⟨3, 0, 3⟩, ⟨3, 1, 15⟩, ⟨3, 2,
    27⟩]]⟩⟩,
    ⟨6767855940946445, ⟨36, 9, 4, [[0, 0, 1], [0, 2, 1], [0, 0, 0]], [[0, 1, 2], [3, 3, 3], [2,
    2, 2], [3, 3, 3]], [[⟨0, 0, 0⟩, ⟨0, 1, 12⟩, ⟨1, 0, 4⟩, ⟨2, 0, 8⟩, ⟨2, 1, 20⟩, ⟨2, 2, 32⟩],
    [⟨0, 2, 24⟩, ⟨1, 2, 28⟩], [⟨1, 1, 16⟩]], [[⟨0, 0, 0⟩], [⟨0, 1, 12⟩], [⟨0, 2, 24⟩, ⟨2, 0, 2⟩,
    ⟨2, 1, 14⟩, ⟨2, 2, 26⟩], [⟨1, 0, 1⟩, ⟨1, 1, 13⟩, ⟨1, 2, 25⟩, ⟨3, 0, 3⟩, ⟨3, 1, 15⟩, ⟨3, 2,
    27⟩]]⟩⟩],
    by decide +kernel, by decide +kernel⟩

theorem child23_1l0_0r1 : AllDone (child (1, false, 0) (0, true, 1)) := by
  refine allDone_of [list23_1l0_0r1_0] ?_ (by decide +kernel)
  simp only [List.forall_mem_cons, List.not_mem_nil, false_imp_iff, implies_true, and_true]
  exact done23_1l0_0r1_0

def list23_1l0_1l0_0 : List Listed := [
  ⟨12387776221197, [((0, 0), (1, true, 1)), ((0, 1), (1, false, 0)), ((0, 2), (0, false, 0)),
  ((1, 0), (1, false, 0)), ((1, 1), (2, true, 0))]⟩,
  ⟨12387776483341, [((0, 0), (1, true, 1)), ((0, 1), (1, false, 0)), ((0, 2), (0, false, 1)),
  ((1, 0), (1, false, 0)), ((1, 1), (2, true, 0))]⟩,
  ⟨6943709082177549, [((0, 0), (1, true, 1)), ((0, 1), (1, false, 0)), ((0, 2), (2, false, 1)),
  ((1, 0), (1, false, 0)), ((1, 1), (2, true, 0)), ((1, 2), (0, true, 1))]⟩,
  ⟨12456497795085, [((0, 0), (1, true, 1)), ((0, 1), (1, false, 0)), ((0, 2), (1, false, 0)),
  ((1, 0), (1, false, 0)), ((1, 1), (2, true, 1))]⟩,
  ⟨6803040311201805, [((0, 0), (1, true, 1)), ((0, 1), (1, false, 0)), ((0, 2), (1, false, 1)),
  ((1, 0), (1, false, 0)), ((1, 1), (2, true, 1)), ((1, 2), (0, false, 1))]⟩,
  ⟨12456498843661, [((0, 0), (1, true, 1)), ((0, 1), (1, false, 0)), ((0, 2), (1, true, 0)), ((1,
  0), (1, false, 0)), ((1, 1), (2, true, 1))]⟩]

theorem done23_1l0_1l0_0 : ∃ h, Done list23_1l0_1l0_0 h :=
  ⟨[
    ⟨12387776221197, ⟨30, 6, 5, [[0, 1, 0], [0, 1, 1]], [[0, 1, 2], [1, 1, 2], [3, 1, 4], [2, 4,
    4], [4, 4, 4]], [[⟨0, 0, 0⟩, ⟨0, 2, 20⟩, ⟨1, 0, 5⟩], [⟨0, 1, 10⟩, ⟨1, 1, 15⟩, ⟨1, 2, 25⟩]],
    [[⟨0, 0, 0⟩], [⟨0, 1, 10⟩, ⟨1, 0, 1⟩, ⟨1, 1, 11⟩, ⟨2, 1, 12⟩], [⟨0, 2, 20⟩, ⟨1, 2, 21⟩, ⟨3,
    0, 3⟩], [⟨2, 0, 2⟩], [⟨2, 2, 22⟩, ⟨3, 1, 13⟩, ⟨3, 2, 23⟩, ⟨4, 0, 4⟩, ⟨4, 1, 14⟩, ⟨4, 2,
    24⟩]]⟩⟩,
    ⟨12387776483341, ⟨54, 9, 6, [[0, 1, 0], [0, 0, 2], [0, 2, 0]], [[0, 1, 2], [3, 1, 2], [2, 2,
    2], [4, 5, 2], [5, 1, 2], [4, 2, 2]], [[⟨0, 0, 0⟩, ⟨0, 2, 36⟩, ⟨1, 0, 6⟩, ⟨1, 1, 24⟩, ⟨2, 0,
    12⟩, ⟨2, 2, 48⟩], [⟨0, 1, 18⟩], [⟨1, 2, 42⟩, ⟨2, 1, 30⟩]], [[⟨0, 0, 0⟩], [⟨0, 1, 18⟩, ⟨1, 1,
    19⟩, ⟨4, 1, 22⟩], [⟨0, 2, 36⟩, ⟨1, 2, 37⟩, ⟨2, 0, 2⟩, ⟨2, 1, 20⟩, ⟨2, 2, 38⟩, ⟨3, 2, 39⟩, ⟨4,
    2, 40⟩, ⟨5, 1, 23⟩, ⟨5, 2, 41⟩], [⟨1, 0, 1⟩], [⟨3, 0, 3⟩, ⟨5, 0, 5⟩], [⟨3, 1, 21⟩, ⟨4, 0,
    4⟩]]⟩⟩,
    ⟨6943709082177549, ⟨42, 6, 7, [[0, 0, 1], [0, 1, 0]], [[0, 1, 2], [3, 1, 4], [2, 2, 2], [5,
    6, 2], [4, 4, 4], [6, 1, 2], [5, 2, 2]], [[⟨0, 0, 0⟩, ⟨0, 1, 14⟩, ⟨1, 0, 7⟩, ⟨1, 2, 35⟩],
    [⟨0, 2, 28⟩, ⟨1, 1, 21⟩]], [[⟨0, 0, 0⟩], [⟨0, 1, 14⟩, ⟨1, 1, 15⟩, ⟨5, 1, 19⟩], [⟨0, 2, 28⟩,
    ⟨2, 0, 2⟩, ⟨2, 1, 16⟩, ⟨2, 2, 30⟩, ⟨3, 2, 31⟩, ⟨5, 2, 33⟩, ⟨6, 1, 20⟩, ⟨6, 2, 34⟩], [⟨1, 0,
    1⟩], [⟨1, 2, 29⟩, ⟨4, 0, 4⟩, ⟨4, 1, 18⟩, ⟨4, 2, 32⟩], [⟨3, 0, 3⟩, ⟨6, 0, 6⟩], [⟨3, 1, 17⟩,
    ⟨5, 0, 5⟩]]⟩⟩,
    ⟨12456497795085, ⟨18, 6, 3, [[0, 0, 1], [0, 0, 1]], [[0, 1, 2], [1, 1, 2], [2, 2, 2]], [[⟨0,
    0, 0⟩, ⟨0, 1, 6⟩, ⟨1, 0, 3⟩, ⟨1, 1, 9⟩], [⟨0, 2, 12⟩, ⟨1, 2, 15⟩]], [[⟨0, 0, 0⟩], [⟨0, 1, 6⟩,
    ⟨1, 0, 1⟩, ⟨1, 1, 7⟩], [⟨0, 2, 12⟩, ⟨1, 2, 13⟩, ⟨2, 0, 2⟩, ⟨2, 1, 8⟩, ⟨2, 2, 14⟩]]⟩⟩,
    ⟨6803040311201805, ⟨36, 9, 4, [[0, 0, 1], [0, 2, 1], [0, 0, 0]], [[0, 1, 2], [3, 3, 3], [2,
    2, 2], [3, 3, 3]], [[⟨0, 0, 0⟩, ⟨0, 1, 12⟩, ⟨1, 0, 4⟩, ⟨2, 0, 8⟩, ⟨2, 1, 20⟩, ⟨2, 2, 32⟩],
    [⟨0, 2, 24⟩, ⟨1, 2, 28⟩], [⟨1, 1, 16⟩]], [[⟨0, 0, 0⟩], [⟨0, 1, 12⟩], [⟨0, 2, 24⟩, ⟨2, 0, 2⟩,
    ⟨2, 1, 14⟩, ⟨2, 2, 26⟩], [⟨1, 0, 1⟩, ⟨1, 1, 13⟩, ⟨1, 2, 25⟩, ⟨3, 0, 3⟩, ⟨3, 1, 15⟩, ⟨3, 2,
    27⟩]]⟩⟩,
    ⟨12456498843661, ⟨18, 6, 3, [[0, 0, 1], [0, 0, 1]], [[0, 1, 2], [1, 1, 2], [2, 2, 2]], [[⟨0,
    0, 0⟩, ⟨0, 1, 6⟩, ⟨1, 0, 3⟩, ⟨1, 1, 9⟩], [⟨0, 2, 12⟩, ⟨1, 2, 15⟩]], [[⟨0, 0, 0⟩], [⟨0, 1, 6⟩,
    ⟨1, 0, 1⟩, ⟨1, 1, 7⟩], [⟨0, 2, 12⟩, ⟨1, 2, 13⟩, ⟨2, 0, 2⟩, ⟨2, 1, 8⟩, ⟨2, 2, 14⟩]]⟩⟩],
    by decide +kernel, by decide +kernel⟩

theorem child23_1l0_1l0 : AllDone (child (1, false, 0) (1, false, 0)) := by
  refine allDone_of [list23_1l0_1l0_0] ?_ (by decide +kernel)
  simp only [List.forall_mem_cons, List.not_mem_nil, false_imp_iff, implies_true, and_true]
  exact done23_1l0_1l0_0

def list23_1l0_1l1_0 : List Listed := [
  ⟨13287053873677, [((0, 0), (1, true, 1)), ((0, 1), (1, false, 1)), ((1, 0), (1, false, 0)),
  ((1, 1), (2, true, 0)), ((1, 2), (0, false, 1))]⟩,
  ⟨12456495698445, [((0, 0), (1, true, 1)), ((0, 1), (1, false, 1)), ((0, 2), (0, false, 0)),
  ((1, 0), (1, false, 0)), ((1, 1), (2, true, 1))]⟩,
  ⟨12456496747021, [((0, 0), (1, true, 1)), ((0, 1), (1, false, 1)), ((0, 2), (0, true, 0)), ((1,
  0), (1, false, 0)), ((1, 1), (2, true, 1))]⟩,
  ⟨12456497795597, [((0, 0), (1, true, 1)), ((0, 1), (1, false, 1)), ((0, 2), (1, false, 0)),
  ((1, 0), (1, false, 0)), ((1, 1), (2, true, 1))]⟩,
  ⟨6803040311202317, [((0, 0), (1, true, 1)), ((0, 1), (1, false, 1)), ((0, 2), (1, false, 1)),
  ((1, 0), (1, false, 0)), ((1, 1), (2, true, 1)), ((1, 2), (0, false, 1))]⟩]

theorem done23_1l0_1l1_0 : ∃ h, Done list23_1l0_1l1_0 h :=
  ⟨[
    ⟨13287053873677, ⟨45, 15, 3, [[0, 1, 2], [1, 1, 2], [3, 1, 2], [2, 4, 4], [4, 4, 4]], [[0, 1,
    2], [1, 1, 2], [2, 2, 2]], [[⟨0, 0, 0⟩], [⟨0, 1, 15⟩, ⟨1, 0, 3⟩, ⟨1, 1, 18⟩, ⟨2, 1, 21⟩],
    [⟨0, 2, 30⟩, ⟨1, 2, 33⟩, ⟨2, 2, 36⟩, ⟨3, 0, 9⟩], [⟨2, 0, 6⟩], [⟨3, 1, 24⟩, ⟨3, 2, 39⟩, ⟨4, 0,
    12⟩, ⟨4, 1, 27⟩, ⟨4, 2, 42⟩]], [[⟨0, 0, 0⟩], [⟨0, 1, 15⟩, ⟨1, 0, 1⟩, ⟨1, 1, 16⟩], [⟨0, 2,
    30⟩, ⟨1, 2, 31⟩, ⟨2, 0, 2⟩, ⟨2, 1, 17⟩, ⟨2, 2, 32⟩]]⟩⟩,
    ⟨12456495698445, ⟨27, 9, 3, [[0, 0, 1], [2, 2, 1], [2, 2, 2]], [[0, 1, 2], [1, 1, 2], [2, 2,
    2]], [[⟨0, 0, 0⟩, ⟨0, 1, 9⟩], [⟨0, 2, 18⟩, ⟨1, 2, 21⟩], [⟨1, 0, 3⟩, ⟨1, 1, 12⟩, ⟨2, 0, 6⟩,
    ⟨2, 1, 15⟩, ⟨2, 2, 24⟩]], [[⟨0, 0, 0⟩], [⟨0, 1, 9⟩, ⟨1, 0, 1⟩, ⟨1, 1, 10⟩], [⟨0, 2, 18⟩, ⟨1,
    2, 19⟩, ⟨2, 0, 2⟩, ⟨2, 1, 11⟩, ⟨2, 2, 20⟩]]⟩⟩,
    ⟨12456496747021, ⟨36, 12, 3, [[0, 0, 1], [2, 2, 1], [1, 1, 3], [3, 3, 3]], [[0, 1, 2], [0, 1,
    2], [2, 2, 2]], [[⟨0, 0, 0⟩, ⟨0, 1, 12⟩], [⟨0, 2, 24⟩, ⟨1, 2, 27⟩, ⟨2, 0, 6⟩, ⟨2, 1, 18⟩],
    [⟨1, 0, 3⟩, ⟨1, 1, 15⟩], [⟨2, 2, 30⟩, ⟨3, 0, 9⟩, ⟨3, 1, 21⟩, ⟨3, 2, 33⟩]], [[⟨0, 0, 0⟩, ⟨1,
    0, 1⟩], [⟨0, 1, 12⟩, ⟨1, 1, 13⟩], [⟨0, 2, 24⟩, ⟨1, 2, 25⟩, ⟨2, 0, 2⟩, ⟨2, 1, 14⟩, ⟨2, 2,
    26⟩]]⟩⟩,
    ⟨12456497795597, ⟨27, 9, 3, [[0, 0, 1], [2, 2, 1], [2, 2, 2]], [[0, 1, 2], [1, 1, 2], [2, 2,
    2]], [[⟨0, 0, 0⟩, ⟨0, 1, 9⟩], [⟨0, 2, 18⟩, ⟨1, 2, 21⟩], [⟨1, 0, 3⟩, ⟨1, 1, 12⟩, ⟨2, 0, 6⟩,
    ⟨2, 1, 15⟩, ⟨2, 2, 24⟩]], [[⟨0, 0, 0⟩], [⟨0, 1, 9⟩, ⟨1, 0, 1⟩, ⟨1, 1, 10⟩], [⟨0, 2, 18⟩, ⟨1,
    2, 19⟩, ⟨2, 0, 2⟩, ⟨2, 1, 11⟩, ⟨2, 2, 20⟩]]⟩⟩,
    ⟨6803040311202317, ⟨36, 9, 4, [[0, 0, 1], [0, 2, 1], [0, 0, 0]], [[0, 1, 2], [3, 3, 3], [2,
    2, 2], [3, 3, 3]], [[⟨0, 0, 0⟩, ⟨0, 1, 12⟩, ⟨1, 0, 4⟩, ⟨2, 0, 8⟩, ⟨2, 1, 20⟩, ⟨2, 2, 32⟩],
    [⟨0, 2, 24⟩, ⟨1, 2, 28⟩], [⟨1, 1, 16⟩]], [[⟨0, 0, 0⟩], [⟨0, 1, 12⟩], [⟨0, 2, 24⟩, ⟨2, 0, 2⟩,
    ⟨2, 1, 14⟩, ⟨2, 2, 26⟩], [⟨1, 0, 1⟩, ⟨1, 1, 13⟩, ⟨1, 2, 25⟩, ⟨3, 0, 3⟩, ⟨3, 1, 15⟩, ⟨3, 2,
    27⟩]]⟩⟩],
    by decide +kernel, by decide +kernel⟩

theorem child23_1l0_1l1 : AllDone (child (1, false, 0) (1, false, 1)) := by
  refine allDone_of [list23_1l0_1l1_0] ?_ (by decide +kernel)
  simp only [List.forall_mem_cons, List.not_mem_nil, false_imp_iff, implies_true, and_true]
  exact done23_1l0_1l1_0

theorem child23_1l0_1r0 : AllDone (child (1, false, 0) (1, true, 0)) :=
  allDone_of [] (by simp) (by decide +kernel)

def list23_1l0_1r1_0 : List Listed := [
  ⟨12456495700493, [((0, 0), (1, true, 1)), ((0, 1), (1, true, 1)), ((0, 2), (0, false, 0)), ((1,
  0), (1, false, 0)), ((1, 1), (2, true, 1))]⟩,
  ⟨12456497797645, [((0, 0), (1, true, 1)), ((0, 1), (1, true, 1)), ((0, 2), (1, false, 0)), ((1,
  0), (1, false, 0)), ((1, 1), (2, true, 1))]⟩,
  ⟨6803040311204365, [((0, 0), (1, true, 1)), ((0, 1), (1, true, 1)), ((0, 2), (1, false, 1)),
  ((1, 0), (1, false, 0)), ((1, 1), (2, true, 1)), ((1, 2), (0, false, 1))]⟩]

theorem done23_1l0_1r1_0 : ∃ h, Done list23_1l0_1r1_0 h :=
  ⟨[
    ⟨12456495700493, ⟨18, 6, 3, [[0, 0, 1], [0, 0, 1]], [[0, 1, 2], [1, 1, 2], [2, 2, 2]], [[⟨0,
    0, 0⟩, ⟨0, 1, 6⟩, ⟨1, 0, 3⟩, ⟨1, 1, 9⟩], [⟨0, 2, 12⟩, ⟨1, 2, 15⟩]], [[⟨0, 0, 0⟩], [⟨0, 1, 6⟩,
    ⟨1, 0, 1⟩, ⟨1, 1, 7⟩], [⟨0, 2, 12⟩, ⟨1, 2, 13⟩, ⟨2, 0, 2⟩, ⟨2, 1, 8⟩, ⟨2, 2, 14⟩]]⟩⟩,
    ⟨12456497797645, ⟨18, 6, 3, [[0, 0, 1], [0, 0, 1]], [[0, 1, 2], [1, 1, 2], [2, 2, 2]], [[⟨0,
    0, 0⟩, ⟨0, 1, 6⟩, ⟨1, 0, 3⟩, ⟨1, 1, 9⟩], [⟨0, 2, 12⟩, ⟨1, 2, 15⟩]], [[⟨0, 0, 0⟩], [⟨0, 1, 6⟩,
    ⟨1, 0, 1⟩, ⟨1, 1, 7⟩], [⟨0, 2, 12⟩, ⟨1, 2, 13⟩, ⟨2, 0, 2⟩, ⟨2, 1, 8⟩, ⟨2, 2, 14⟩]]⟩⟩,
    ⟨6803040311204365, ⟨36, 9, 4, [[0, 0, 1], [0, 2, 1], [0, 0, 0]], [[0, 1, 2], [3, 3, 3], [2,
    2, 2], [3, 3, 3]], [[⟨0, 0, 0⟩, ⟨0, 1, 12⟩, ⟨1, 0, 4⟩, ⟨2, 0, 8⟩, ⟨2, 1, 20⟩, ⟨2, 2, 32⟩],
    [⟨0, 2, 24⟩, ⟨1, 2, 28⟩], [⟨1, 1, 16⟩]], [[⟨0, 0, 0⟩], [⟨0, 1, 12⟩], [⟨0, 2, 24⟩, ⟨2, 0, 2⟩,
    ⟨2, 1, 14⟩, ⟨2, 2, 26⟩], [⟨1, 0, 1⟩, ⟨1, 1, 13⟩, ⟨1, 2, 25⟩, ⟨3, 0, 3⟩, ⟨3, 1, 15⟩, ⟨3, 2,
    27⟩]]⟩⟩],
    by decide +kernel, by decide +kernel⟩

theorem child23_1l0_1r1 : AllDone (child (1, false, 0) (1, true, 1)) := by
  refine allDone_of [list23_1l0_1r1_0] ?_ (by decide +kernel)
  simp only [List.forall_mem_cons, List.not_mem_nil, false_imp_iff, implies_true, and_true]
  exact done23_1l0_1r1_0

def list23_1l0_2l0_0 : List Listed := [
  ⟨13285980135437, [((0, 0), (1, true, 1)), ((0, 1), (2, false, 0)), ((1, 0), (1, false, 0)),
  ((1, 1), (1, true, 0)), ((1, 2), (0, false, 1))]⟩,
  ⟨6802971594874893, [((0, 0), (1, true, 1)), ((0, 1), (2, false, 0)), ((0, 2), (2, true, 1)),
  ((1, 0), (1, false, 0)), ((1, 1), (2, true, 0)), ((1, 2), (0, false, 1))]⟩,
  ⟨6803040310943757, [((0, 0), (1, true, 1)), ((0, 1), (2, false, 0)), ((0, 2), (1, false, 0)),
  ((1, 0), (1, false, 0)), ((1, 1), (2, true, 1)), ((1, 2), (0, false, 1))]⟩,
  ⟨6803040311205901, [((0, 0), (1, true, 1)), ((0, 1), (2, false, 0)), ((0, 2), (1, false, 1)),
  ((1, 0), (1, false, 0)), ((1, 1), (2, true, 1)), ((1, 2), (0, false, 1))]⟩,
  ⟨13559247429645, [((0, 0), (1, true, 1)), ((0, 1), (2, false, 0)), ((1, 0), (1, false, 0)),
  ((1, 1), (0, false, 0)), ((1, 2), (0, true, 1))]⟩,
  ⟨13560321171469, [((0, 0), (1, true, 1)), ((0, 1), (2, false, 0)), ((1, 0), (1, false, 0)),
  ((1, 1), (1, false, 0)), ((1, 2), (0, true, 1))]⟩,
  ⟨13560858042381, [((0, 0), (1, true, 1)), ((0, 1), (2, false, 0)), ((1, 0), (1, false, 0)),
  ((1, 1), (1, true, 0)), ((1, 2), (0, true, 1))]⟩,
  ⟨6943709077725197, [((0, 0), (1, true, 1)), ((0, 1), (2, false, 0)), ((0, 2), (0, false, 0)),
  ((1, 0), (1, false, 0)), ((1, 1), (2, true, 0)), ((1, 2), (0, true, 1))]⟩,
  ⟨6943709082181645, [((0, 0), (1, true, 1)), ((0, 1), (2, false, 0)), ((0, 2), (2, false, 1)),
  ((1, 0), (1, false, 0)), ((1, 1), (2, true, 0)), ((1, 2), (0, true, 1))]⟩,
  ⟨6943777801658381, [((0, 0), (1, true, 1)), ((0, 1), (2, false, 0)), ((0, 2), (2, false, 1)),
  ((1, 0), (1, false, 0)), ((1, 1), (2, true, 1)), ((1, 2), (0, true, 1))]⟩,
  ⟨13835870167053, [((0, 0), (1, true, 1)), ((0, 1), (2, false, 0)), ((1, 0), (1, false, 0)),
  ((1, 1), (1, true, 1)), ((1, 2), (1, false, 1))]⟩,
  ⟨14037044715533, [((0, 0), (1, true, 1)), ((0, 1), (2, false, 0)), ((0, 2), (0, true, 0)), ((1,
  0), (1, false, 0)), ((1, 2), (1, true, 0))]⟩,
  ⟨14037046812685, [((0, 0), (1, true, 1)), ((0, 1), (2, false, 0)), ((0, 2), (1, true, 0)), ((1,
  0), (1, false, 0)), ((1, 2), (1, true, 0))]⟩,
  ⟨14037047074829, [((0, 0), (1, true, 1)), ((0, 1), (2, false, 0)), ((0, 2), (1, true, 1)), ((1,
  0), (1, false, 0)), ((1, 2), (1, true, 0))]⟩,
  ⟨7188694017794061, [((0, 0), (1, true, 1)), ((0, 1), (2, false, 0)), ((0, 2), (2, true, 1)),
  ((1, 0), (1, false, 0)), ((1, 1), (0, false, 1)), ((1, 2), (1, true, 0))]⟩,
  ⟨14109003243533, [((0, 0), (1, true, 1)), ((0, 1), (2, false, 0)), ((1, 0), (1, false, 0)),
  ((1, 1), (0, false, 0)), ((1, 2), (1, true, 1))]⟩,
  ⟨14110076985357, [((0, 0), (1, true, 1)), ((0, 1), (2, false, 0)), ((1, 0), (1, false, 0)),
  ((1, 1), (1, false, 0)), ((1, 2), (1, true, 1))]⟩,
  ⟨14110613856269, [((0, 0), (1, true, 1)), ((0, 1), (2, false, 0)), ((1, 0), (1, false, 0)),
  ((1, 1), (1, true, 0)), ((1, 2), (1, true, 1))]⟩,
  ⟨14110748073997, [((0, 0), (1, true, 1)), ((0, 1), (2, false, 0)), ((1, 0), (1, false, 0)),
  ((1, 1), (1, true, 1)), ((1, 2), (1, true, 1))]⟩,
  ⟨14111150727181, [((0, 0), (1, true, 1)), ((0, 1), (2, false, 0)), ((1, 0), (1, false, 0)),
  ((1, 1), (2, false, 0)), ((1, 2), (1, true, 1))]⟩]

theorem done23_1l0_2l0_0 : ∃ h, Done list23_1l0_2l0_0 h :=
  ⟨[
    ⟨13285980135437, ⟨36, 9, 4, [[0, 1, 2], [0, 1, 2], [2, 2, 2]], [[0, 0, 1], [2, 2, 1], [1, 1,
    3], [3, 3, 3]], [[⟨0, 0, 0⟩, ⟨1, 0, 4⟩], [⟨0, 1, 12⟩, ⟨1, 1, 16⟩], [⟨0, 2, 24⟩, ⟨1, 2, 28⟩,
    ⟨2, 0, 8⟩, ⟨2, 1, 20⟩, ⟨2, 2, 32⟩]], [[⟨0, 0, 0⟩, ⟨0, 1, 12⟩], [⟨0, 2, 24⟩, ⟨1, 2, 25⟩, ⟨2,
    0, 2⟩, ⟨2, 1, 14⟩], [⟨1, 0, 1⟩, ⟨1, 1, 13⟩], [⟨2, 2, 26⟩, ⟨3, 0, 3⟩, ⟨3, 1, 15⟩, ⟨3, 2,
    27⟩]]⟩⟩,
    ⟨6802971594874893, ⟨153, 51, 3, [[0, 1, 2], [3, 4, 5], [5, 6, 2], [7, 8, 9], [10, 11, 5], [5,
    5, 5], [11, 12, 5], [3, 7, 5], [9, 13, 9], [9, 9, 9], [7, 14, 9], [11, 1, 5], [10, 15, 5],
    [9, 3, 9], [7, 16, 9], [5, 6, 5], [9, 10, 9]], [[0, 1, 2], [2, 2, 0], [2, 1, 1]], [[⟨0, 0,
    0⟩], [⟨0, 1, 51⟩, ⟨11, 1, 84⟩], [⟨0, 2, 102⟩, ⟨2, 2, 108⟩], [⟨1, 0, 3⟩, ⟨7, 0, 21⟩, ⟨13, 1,
    90⟩], [⟨1, 1, 54⟩], [⟨1, 2, 105⟩, ⟨2, 0, 6⟩, ⟨4, 2, 114⟩, ⟨5, 0, 15⟩, ⟨5, 1, 66⟩, ⟨5, 2,
    117⟩, ⟨6, 2, 120⟩, ⟨7, 2, 123⟩, ⟨11, 2, 135⟩, ⟨12, 2, 138⟩, ⟨15, 0, 45⟩, ⟨15, 2, 147⟩], [⟨2,
    1, 57⟩, ⟨15, 1, 96⟩], [⟨3, 0, 9⟩, ⟨7, 1, 72⟩, ⟨10, 0, 30⟩, ⟨14, 0, 42⟩], [⟨3, 1, 60⟩], [⟨3,
    2, 111⟩, ⟨8, 0, 24⟩, ⟨8, 2, 126⟩, ⟨9, 0, 27⟩, ⟨9, 1, 78⟩, ⟨9, 2, 129⟩, ⟨10, 2, 132⟩, ⟨13, 0,
    39⟩, ⟨13, 2, 141⟩, ⟨14, 2, 144⟩, ⟨16, 0, 48⟩, ⟨16, 2, 150⟩], [⟨4, 0, 12⟩, ⟨12, 0, 36⟩, ⟨16,
    1, 99⟩], [⟨4, 1, 63⟩, ⟨6, 0, 18⟩, ⟨11, 0, 33⟩], [⟨6, 1, 69⟩], [⟨8, 1, 75⟩], [⟨10, 1, 81⟩],
    [⟨12, 1, 87⟩], [⟨14, 1, 93⟩]], [[⟨0, 0, 0⟩, ⟨1, 2, 103⟩], [⟨0, 1, 51⟩, ⟨2, 1, 53⟩, ⟨2, 2,
    104⟩], [⟨0, 2, 102⟩, ⟨1, 0, 1⟩, ⟨1, 1, 52⟩, ⟨2, 0, 2⟩]]⟩⟩,
    ⟨6803040310943757, ⟨18, 9, 2, [[0, 1, 2], [1, 1, 1], [1, 1, 2]], [[0, 1, 1], [0, 1, 1]],
    [[⟨0, 0, 0⟩], [⟨0, 1, 6⟩, ⟨1, 0, 2⟩, ⟨1, 1, 8⟩, ⟨1, 2, 14⟩, ⟨2, 0, 4⟩, ⟨2, 1, 10⟩], [⟨0, 2,
    12⟩, ⟨2, 2, 16⟩]], [[⟨0, 0, 0⟩, ⟨1, 0, 1⟩], [⟨0, 1, 6⟩, ⟨0, 2, 12⟩, ⟨1, 1, 7⟩, ⟨1, 2, 13⟩]]⟩⟩,
    ⟨6803040311205901, ⟨36, 9, 4, [[0, 0, 1], [0, 2, 1], [0, 0, 0]], [[0, 1, 2], [3, 3, 3], [2,
    2, 2], [3, 3, 3]], [[⟨0, 0, 0⟩, ⟨0, 1, 12⟩, ⟨1, 0, 4⟩, ⟨2, 0, 8⟩, ⟨2, 1, 20⟩, ⟨2, 2, 32⟩],
    [⟨0, 2, 24⟩, ⟨1, 2, 28⟩], [⟨1, 1, 16⟩]], [[⟨0, 0, 0⟩], [⟨0, 1, 12⟩], [⟨0, 2, 24⟩, ⟨2, 0, 2⟩,
    ⟨2, 1, 14⟩, ⟨2, 2, 26⟩], [⟨1, 0, 1⟩, ⟨1, 1, 13⟩, ⟨1, 2, 25⟩, ⟨3, 0, 3⟩, ⟨3, 1, 15⟩, ⟨3, 2,
    27⟩]]⟩⟩,
    ⟨13559247429645, ⟨18, 9, 2, [[0, 1, 2], [1, 1, 2], [2, 2, 2]], [[0, 0, 1], [0, 0, 1]], [[⟨0,
    0, 0⟩], [⟨0, 1, 6⟩, ⟨1, 0, 2⟩, ⟨1, 1, 8⟩], [⟨0, 2, 12⟩, ⟨1, 2, 14⟩, ⟨2, 0, 4⟩, ⟨2, 1, 10⟩,
    ⟨2, 2, 16⟩]], [[⟨0, 0, 0⟩, ⟨0, 1, 6⟩, ⟨1, 0, 1⟩, ⟨1, 1, 7⟩], [⟨0, 2, 12⟩, ⟨1, 2, 13⟩]]⟩⟩,
    ⟨13560321171469, ⟨18, 6, 3, [[0, 0, 1], [1, 1, 1]], [[0, 1, 2], [1, 1, 1], [1, 1, 2]], [[⟨0,
    0, 0⟩, ⟨0, 1, 6⟩], [⟨0, 2, 12⟩, ⟨1, 0, 3⟩, ⟨1, 1, 9⟩, ⟨1, 2, 15⟩]], [[⟨0, 0, 0⟩], [⟨0, 1, 6⟩,
    ⟨1, 0, 1⟩, ⟨1, 1, 7⟩, ⟨1, 2, 13⟩, ⟨2, 0, 2⟩, ⟨2, 1, 8⟩], [⟨0, 2, 12⟩, ⟨2, 2, 14⟩]]⟩⟩,
    ⟨13560858042381, ⟨63, 9, 7, [[0, 1, 2], [0, 1, 2], [0, 2, 2]], [[0, 1, 2], [3, 3, 4], [2, 2,
    2], [5, 1, 2], [6, 3, 4], [3, 2, 2], [1, 4, 2]], [[⟨0, 0, 0⟩, ⟨1, 0, 7⟩, ⟨2, 0, 14⟩], [⟨0, 1,
    21⟩, ⟨1, 1, 28⟩], [⟨0, 2, 42⟩, ⟨1, 2, 49⟩, ⟨2, 1, 35⟩, ⟨2, 2, 56⟩]], [[⟨0, 0, 0⟩], [⟨0, 1,
    21⟩, ⟨3, 1, 24⟩, ⟨6, 0, 6⟩], [⟨0, 2, 42⟩, ⟨2, 0, 2⟩, ⟨2, 1, 23⟩, ⟨2, 2, 44⟩, ⟨3, 2, 45⟩, ⟨5,
    1, 26⟩, ⟨5, 2, 47⟩, ⟨6, 2, 48⟩], [⟨1, 0, 1⟩, ⟨1, 1, 22⟩, ⟨4, 1, 25⟩, ⟨5, 0, 5⟩], [⟨1, 2, 43⟩,
    ⟨4, 2, 46⟩, ⟨6, 1, 27⟩], [⟨3, 0, 3⟩], [⟨4, 0, 4⟩]]⟩⟩,
    ⟨6943709077725197, ⟨12, 6, 2, [[0, 1, 0], [1, 1, 1]], [[0, 1, 1], [1, 1, 1]], [[⟨0, 0, 0⟩,
    ⟨0, 2, 8⟩], [⟨0, 1, 4⟩, ⟨1, 0, 2⟩, ⟨1, 1, 6⟩, ⟨1, 2, 10⟩]], [[⟨0, 0, 0⟩], [⟨0, 1, 4⟩, ⟨0, 2,
    8⟩, ⟨1, 0, 1⟩, ⟨1, 1, 5⟩, ⟨1, 2, 9⟩]]⟩⟩,
    ⟨6943709082181645, ⟨54, 6, 9, [[0, 0, 1], [0, 1, 0]], [[0, 1, 2], [3, 4, 5], [2, 2, 2], [2,
    6, 2], [7, 7, 2], [5, 5, 5], [8, 2, 2], [4, 4, 5], [6, 1, 2]], [[⟨0, 0, 0⟩, ⟨0, 1, 18⟩, ⟨1,
    0, 9⟩, ⟨1, 2, 45⟩], [⟨0, 2, 36⟩, ⟨1, 1, 27⟩]], [[⟨0, 0, 0⟩], [⟨0, 1, 18⟩, ⟨8, 1, 26⟩], [⟨0,
    2, 36⟩, ⟨2, 0, 2⟩, ⟨2, 1, 20⟩, ⟨2, 2, 38⟩, ⟨3, 0, 3⟩, ⟨3, 2, 39⟩, ⟨4, 2, 40⟩, ⟨6, 1, 24⟩, ⟨6,
    2, 42⟩, ⟨8, 2, 44⟩], [⟨1, 0, 1⟩], [⟨1, 1, 19⟩, ⟨7, 0, 7⟩, ⟨7, 1, 25⟩], [⟨1, 2, 37⟩, ⟨5, 0,
    5⟩, ⟨5, 1, 23⟩, ⟨5, 2, 41⟩, ⟨7, 2, 43⟩], [⟨3, 1, 21⟩, ⟨8, 0, 8⟩], [⟨4, 0, 4⟩, ⟨4, 1, 22⟩],
    [⟨6, 0, 6⟩]]⟩⟩,
    ⟨6943777801658381, ⟨30, 6, 5, [[0, 0, 1], [0, 0, 0]], [[0, 1, 2], [2, 3, 4], [2, 2, 2], [4,
    1, 2], [4, 4, 4]], [[⟨0, 0, 0⟩, ⟨0, 1, 10⟩, ⟨1, 0, 5⟩, ⟨1, 1, 15⟩, ⟨1, 2, 25⟩], [⟨0, 2,
    20⟩]], [[⟨0, 0, 0⟩], [⟨0, 1, 10⟩, ⟨3, 1, 13⟩], [⟨0, 2, 20⟩, ⟨1, 0, 1⟩, ⟨2, 0, 2⟩, ⟨2, 1, 12⟩,
    ⟨2, 2, 22⟩, ⟨3, 2, 23⟩], [⟨1, 1, 11⟩], [⟨1, 2, 21⟩, ⟨3, 0, 3⟩, ⟨4, 0, 4⟩, ⟨4, 1, 14⟩, ⟨4, 2,
    24⟩]]⟩⟩,
    ⟨13835870167053, ⟨18, 9, 2, [[0, 1, 2], [1, 1, 2], [2, 2, 2]], [[0, 0, 1], [0, 0, 1]], [[⟨0,
    0, 0⟩], [⟨0, 1, 6⟩, ⟨1, 0, 2⟩, ⟨1, 1, 8⟩], [⟨0, 2, 12⟩, ⟨1, 2, 14⟩, ⟨2, 0, 4⟩, ⟨2, 1, 10⟩,
    ⟨2, 2, 16⟩]], [[⟨0, 0, 0⟩, ⟨0, 1, 6⟩, ⟨1, 0, 1⟩, ⟨1, 1, 7⟩], [⟨0, 2, 12⟩, ⟨1, 2, 13⟩]]⟩⟩,
    ⟨14037044715533, ⟨60, 12, 5, [[0, 1, 2], [1, 3, 0], [2, 2, 2], [1, 3, 0]], [[0, 1, 2], [3, 1,
    2], [0, 1, 2], [1, 4, 4], [4, 4, 4]], [[⟨0, 0, 0⟩, ⟨1, 2, 45⟩, ⟨3, 2, 55⟩], [⟨0, 1, 20⟩, ⟨1,
    0, 5⟩, ⟨3, 0, 15⟩], [⟨0, 2, 40⟩, ⟨2, 0, 10⟩, ⟨2, 1, 30⟩, ⟨2, 2, 50⟩], [⟨1, 1, 25⟩, ⟨3, 1,
    35⟩]], [[⟨0, 0, 0⟩, ⟨2, 0, 2⟩], [⟨0, 1, 20⟩, ⟨1, 1, 21⟩, ⟨2, 1, 22⟩, ⟨3, 0, 3⟩], [⟨0, 2, 40⟩,
    ⟨1, 2, 41⟩, ⟨2, 2, 42⟩], [⟨1, 0, 1⟩], [⟨3, 1, 23⟩, ⟨3, 2, 43⟩, ⟨4, 0, 4⟩, ⟨4, 1, 24⟩, ⟨4, 2,
    44⟩]]⟩⟩,
    ⟨14037046812685, ⟨30, 6, 5, [[0, 1, 0], [0, 1, 0]], [[0, 1, 2], [3, 1, 2], [0, 1, 2], [1, 4,
    4], [4, 4, 4]], [[⟨0, 0, 0⟩, ⟨0, 2, 20⟩, ⟨1, 0, 5⟩, ⟨1, 2, 25⟩], [⟨0, 1, 10⟩, ⟨1, 1, 15⟩]],
    [[⟨0, 0, 0⟩, ⟨2, 0, 2⟩], [⟨0, 1, 10⟩, ⟨1, 1, 11⟩, ⟨2, 1, 12⟩, ⟨3, 0, 3⟩], [⟨0, 2, 20⟩, ⟨1, 2,
    21⟩, ⟨2, 2, 22⟩], [⟨1, 0, 1⟩], [⟨3, 1, 13⟩, ⟨3, 2, 23⟩, ⟨4, 0, 4⟩, ⟨4, 1, 14⟩, ⟨4, 2, 24⟩]]⟩⟩,
    ⟨14037047074829, ⟨60, 12, 5, [[0, 1, 0], [2, 3, 2], [2, 2, 2], [0, 1, 0]], [[0, 1, 2], [3, 1,
    3], [2, 1, 2], [1, 4, 1], [4, 4, 4]], [[⟨0, 0, 0⟩, ⟨0, 2, 40⟩, ⟨3, 0, 15⟩, ⟨3, 2, 55⟩], [⟨0,
    1, 20⟩, ⟨3, 1, 35⟩], [⟨1, 0, 5⟩, ⟨1, 2, 45⟩, ⟨2, 0, 10⟩, ⟨2, 1, 30⟩, ⟨2, 2, 50⟩], [⟨1, 1,
    25⟩]], [[⟨0, 0, 0⟩], [⟨0, 1, 20⟩, ⟨1, 1, 21⟩, ⟨2, 1, 22⟩, ⟨3, 0, 3⟩, ⟨3, 2, 43⟩], [⟨0, 2,
    40⟩, ⟨2, 0, 2⟩, ⟨2, 2, 42⟩], [⟨1, 0, 1⟩, ⟨1, 2, 41⟩], [⟨3, 1, 23⟩, ⟨4, 0, 4⟩, ⟨4, 1, 24⟩, ⟨4,
    2, 44⟩]]⟩⟩,
    ⟨7188694017794061, ⟨348, 12, 29, [[0, 0, 1], [0, 2, 0], [0, 1, 3], [0, 2, 0]], [[0, 1, 2],
    [3, 4, 5], [6, 6, 7], [6, 8, 9], [9, 10, 11], [2, 4, 12], [3, 13, 2], [2, 13, 14], [3, 13,
    13], [9, 9, 9], [9, 9, 3], [15, 1, 14], [2, 4, 16], [9, 10, 7], [9, 10, 17], [0, 18, 19],
    [20, 4, 21], [20, 13, 22], [3, 4, 19], [15, 18, 12], [6, 6, 17], [20, 22, 23], [9, 10, 24],
    [23, 23, 23], [25, 1, 22], [0, 18, 26], [25, 18, 27], [2, 4, 28], [25, 18, 21]], [[⟨0, 0, 0⟩,
    ⟨0, 1, 116⟩, ⟨1, 0, 29⟩, ⟨1, 2, 261⟩, ⟨2, 0, 58⟩, ⟨3, 0, 87⟩, ⟨3, 2, 319⟩], [⟨0, 2, 232⟩, ⟨2,
    1, 174⟩], [⟨1, 1, 145⟩, ⟨3, 1, 203⟩], [⟨2, 2, 290⟩]], [[⟨0, 0, 0⟩, ⟨15, 0, 15⟩, ⟨25, 0, 25⟩],
    [⟨0, 1, 116⟩, ⟨11, 1, 127⟩, ⟨24, 1, 140⟩], [⟨0, 2, 232⟩, ⟨5, 0, 5⟩, ⟨6, 2, 238⟩, ⟨7, 0, 7⟩,
    ⟨12, 0, 12⟩, ⟨27, 0, 27⟩], [⟨1, 0, 1⟩, ⟨6, 0, 6⟩, ⟨8, 0, 8⟩, ⟨10, 2, 242⟩, ⟨18, 0, 18⟩], [⟨1,
    1, 117⟩, ⟨5, 1, 121⟩, ⟨12, 1, 128⟩, ⟨16, 1, 132⟩, ⟨18, 1, 134⟩, ⟨27, 1, 143⟩], [⟨1, 2, 233⟩],
    [⟨2, 0, 2⟩, ⟨2, 1, 118⟩, ⟨3, 0, 3⟩, ⟨20, 0, 20⟩, ⟨20, 1, 136⟩], [⟨2, 2, 234⟩, ⟨13, 2, 245⟩],
    [⟨3, 1, 119⟩], [⟨3, 2, 235⟩, ⟨4, 0, 4⟩, ⟨9, 0, 9⟩, ⟨9, 1, 125⟩, ⟨9, 2, 241⟩, ⟨10, 0, 10⟩,
    ⟨10, 1, 126⟩, ⟨13, 0, 13⟩, ⟨14, 0, 14⟩, ⟨22, 0, 22⟩], [⟨4, 1, 120⟩, ⟨13, 1, 129⟩, ⟨14, 1,
    130⟩, ⟨22, 1, 138⟩], [⟨4, 2, 236⟩], [⟨5, 2, 237⟩, ⟨19, 2, 251⟩], [⟨6, 1, 122⟩, ⟨7, 1, 123⟩,
    ⟨8, 1, 124⟩, ⟨8, 2, 240⟩, ⟨17, 1, 133⟩], [⟨7, 2, 239⟩, ⟨11, 2, 243⟩], [⟨11, 0, 11⟩, ⟨19, 0,
    19⟩], [⟨12, 2, 244⟩], [⟨14, 2, 246⟩, ⟨20, 2, 252⟩], [⟨15, 1, 131⟩, ⟨19, 1, 135⟩, ⟨25, 1,
    141⟩, ⟨26, 1, 142⟩, ⟨28, 1, 144⟩], [⟨15, 2, 247⟩, ⟨18, 2, 250⟩], [⟨16, 0, 16⟩, ⟨17, 0, 17⟩,
    ⟨21, 0, 21⟩], [⟨16, 2, 248⟩, ⟨28, 2, 260⟩], [⟨17, 2, 249⟩, ⟨21, 1, 137⟩, ⟨24, 2, 256⟩], [⟨21,
    2, 253⟩, ⟨23, 0, 23⟩, ⟨23, 1, 139⟩, ⟨23, 2, 255⟩], [⟨22, 2, 254⟩], [⟨24, 0, 24⟩, ⟨26, 0, 26⟩,
    ⟨28, 0, 28⟩], [⟨25, 2, 257⟩], [⟨26, 2, 258⟩], [⟨27, 2, 259⟩]]⟩⟩,
    ⟨14109003243533, ⟨18, 9, 2, [[0, 1, 2], [1, 1, 2], [2, 2, 2]], [[0, 0, 1], [0, 0, 1]], [[⟨0,
    0, 0⟩], [⟨0, 1, 6⟩, ⟨1, 0, 2⟩, ⟨1, 1, 8⟩], [⟨0, 2, 12⟩, ⟨1, 2, 14⟩, ⟨2, 0, 4⟩, ⟨2, 1, 10⟩,
    ⟨2, 2, 16⟩]], [[⟨0, 0, 0⟩, ⟨0, 1, 6⟩, ⟨1, 0, 1⟩, ⟨1, 1, 7⟩], [⟨0, 2, 12⟩, ⟨1, 2, 13⟩]]⟩⟩,
    ⟨14110076985357, ⟨18, 6, 3, [[0, 0, 1], [1, 1, 1]], [[0, 1, 2], [1, 1, 1], [1, 1, 2]], [[⟨0,
    0, 0⟩, ⟨0, 1, 6⟩], [⟨0, 2, 12⟩, ⟨1, 0, 3⟩, ⟨1, 1, 9⟩, ⟨1, 2, 15⟩]], [[⟨0, 0, 0⟩], [⟨0, 1, 6⟩,
    ⟨1, 0, 1⟩, ⟨1, 1, 7⟩, ⟨1, 2, 13⟩, ⟨2, 0, 2⟩, ⟨2, 1, 8⟩], [⟨0, 2, 12⟩, ⟨2, 2, 14⟩]]⟩⟩,
    ⟨14110613856269, ⟨36, 9, 4, [[0, 1, 2], [0, 1, 2], [2, 2, 2]], [[0, 0, 1], [2, 2, 1], [1, 1,
    3], [3, 3, 3]], [[⟨0, 0, 0⟩, ⟨1, 0, 4⟩], [⟨0, 1, 12⟩, ⟨1, 1, 16⟩], [⟨0, 2, 24⟩, ⟨1, 2, 28⟩,
    ⟨2, 0, 8⟩, ⟨2, 1, 20⟩, ⟨2, 2, 32⟩]], [[⟨0, 0, 0⟩, ⟨0, 1, 12⟩], [⟨0, 2, 24⟩, ⟨1, 2, 25⟩, ⟨2,
    0, 2⟩, ⟨2, 1, 14⟩], [⟨1, 0, 1⟩, ⟨1, 1, 13⟩], [⟨2, 2, 26⟩, ⟨3, 0, 3⟩, ⟨3, 1, 15⟩, ⟨3, 2,
    27⟩]]⟩⟩,
    ⟨14110748073997, ⟨18, 9, 2, [[0, 1, 2], [1, 1, 2], [2, 2, 2]], [[0, 0, 1], [0, 0, 1]], [[⟨0,
    0, 0⟩], [⟨0, 1, 6⟩, ⟨1, 0, 2⟩, ⟨1, 1, 8⟩], [⟨0, 2, 12⟩, ⟨1, 2, 14⟩, ⟨2, 0, 4⟩, ⟨2, 1, 10⟩,
    ⟨2, 2, 16⟩]], [[⟨0, 0, 0⟩, ⟨0, 1, 6⟩, ⟨1, 0, 1⟩, ⟨1, 1, 7⟩], [⟨0, 2, 12⟩, ⟨1, 2, 13⟩]]⟩⟩,
    ⟨14111150727181, ⟨18, 9, 2, [[0, 1, 2], [1, 1, 2], [2, 2, 2]], [[0, 0, 1], [0, 0, 1]], [[⟨0,
    0, 0⟩], [⟨0, 1, 6⟩, ⟨1, 0, 2⟩, ⟨1, 1, 8⟩], [⟨0, 2, 12⟩, ⟨1, 2, 14⟩, ⟨2, 0, 4⟩, ⟨2, 1, 10⟩,
    ⟨2, 2, 16⟩]], [[⟨0, 0, 0⟩, ⟨0, 1, 6⟩, ⟨1, 0, 1⟩, ⟨1, 1, 7⟩], [⟨0, 2, 12⟩, ⟨1, 2, 13⟩]]⟩⟩],
    by decide +kernel, by decide +kernel⟩

def list23_1l0_2l0_1 : List Listed := [
  ⟨7225184055484429, [((0, 0), (1, true, 1)), ((0, 1), (2, false, 0)), ((0, 2), (0, true, 0)),
  ((1, 0), (1, false, 0)), ((1, 1), (2, true, 0)), ((1, 2), (1, true, 1))]⟩,
  ⟨7225252774961165, [((0, 0), (1, true, 1)), ((0, 1), (2, false, 0)), ((0, 2), (0, true, 0)),
  ((1, 0), (1, false, 0)), ((1, 1), (2, true, 1)), ((1, 2), (1, true, 1))]⟩,
  ⟨14586799480845, [((0, 0), (1, true, 1)), ((0, 1), (2, false, 0)), ((0, 2), (0, false, 0)),
  ((1, 0), (1, false, 0)), ((1, 2), (2, true, 0))]⟩,
  ⟨7470443869265933, [((0, 0), (1, true, 1)), ((0, 1), (2, false, 0)), ((0, 2), (1, false, 1)),
  ((1, 0), (1, false, 0)), ((1, 1), (0, true, 1)), ((1, 2), (2, true, 0))]⟩,
  ⟨14586802626573, [((0, 0), (1, true, 1)), ((0, 1), (2, false, 0)), ((0, 2), (1, true, 0)), ((1,
  0), (1, false, 0)), ((1, 2), (2, true, 0))]⟩,
  ⟨7505284642922509, [((0, 0), (1, true, 1)), ((0, 1), (2, false, 0)), ((0, 2), (0, true, 1)),
  ((1, 0), (1, false, 0)), ((1, 1), (0, false, 0)), ((1, 2), (2, true, 1))]⟩,
  ⟨7505353364234253, [((0, 0), (1, true, 1)), ((0, 1), (2, false, 0)), ((0, 2), (1, true, 0)),
  ((1, 0), (1, false, 0)), ((1, 1), (0, false, 1)), ((1, 2), (2, true, 1))]⟩]

theorem done23_1l0_2l0_1 : ∃ h, Done list23_1l0_2l0_1 h :=
  ⟨[
    ⟨7225184055484429, ⟨42, 6, 7, [[0, 1, 1], [0, 1, 1]], [[0, 1, 2], [3, 3, 4], [3, 5, 2], [6,
    2, 3], [4, 4, 4], [6, 6, 3], [6, 6, 6]], [[⟨0, 0, 0⟩, ⟨1, 0, 7⟩], [⟨0, 1, 14⟩, ⟨0, 2, 28⟩,
    ⟨1, 1, 21⟩, ⟨1, 2, 35⟩]], [[⟨0, 0, 0⟩], [⟨0, 1, 14⟩], [⟨0, 2, 28⟩, ⟨2, 2, 30⟩, ⟨3, 1, 17⟩],
    [⟨1, 0, 1⟩, ⟨1, 1, 15⟩, ⟨2, 0, 2⟩, ⟨3, 2, 31⟩, ⟨5, 2, 33⟩], [⟨1, 2, 29⟩, ⟨4, 0, 4⟩, ⟨4, 1,
    18⟩, ⟨4, 2, 32⟩], [⟨2, 1, 16⟩], [⟨3, 0, 3⟩, ⟨5, 0, 5⟩, ⟨5, 1, 19⟩, ⟨6, 0, 6⟩, ⟨6, 1, 20⟩, ⟨6,
    2, 34⟩]]⟩⟩,
    ⟨7225252774961165, ⟨18, 6, 3, [[0, 1, 1], [0, 1, 1]], [[0, 1, 2], [1, 1, 1], [1, 1, 2]],
    [[⟨0, 0, 0⟩, ⟨1, 0, 3⟩], [⟨0, 1, 6⟩, ⟨0, 2, 12⟩, ⟨1, 1, 9⟩, ⟨1, 2, 15⟩]], [[⟨0, 0, 0⟩], [⟨0,
    1, 6⟩, ⟨1, 0, 1⟩, ⟨1, 1, 7⟩, ⟨1, 2, 13⟩, ⟨2, 0, 2⟩, ⟨2, 1, 8⟩], [⟨0, 2, 12⟩, ⟨2, 2, 14⟩]]⟩⟩,
    ⟨14586799480845, ⟨45, 9, 5, [[0, 1, 0], [0, 1, 2], [0, 1, 0]], [[0, 1, 2], [3, 1, 2], [2, 1,
    2], [1, 4, 4], [4, 4, 4]], [[⟨0, 0, 0⟩, ⟨0, 2, 30⟩, ⟨1, 0, 5⟩, ⟨2, 0, 10⟩, ⟨2, 2, 40⟩], [⟨0,
    1, 15⟩, ⟨1, 1, 20⟩, ⟨2, 1, 25⟩], [⟨1, 2, 35⟩]], [[⟨0, 0, 0⟩], [⟨0, 1, 15⟩, ⟨1, 1, 16⟩, ⟨2, 1,
    17⟩, ⟨3, 0, 3⟩], [⟨0, 2, 30⟩, ⟨1, 2, 31⟩, ⟨2, 0, 2⟩, ⟨2, 2, 32⟩], [⟨1, 0, 1⟩], [⟨3, 1, 18⟩,
    ⟨3, 2, 33⟩, ⟨4, 0, 4⟩, ⟨4, 1, 19⟩, ⟨4, 2, 34⟩]]⟩⟩,
    ⟨7470443869265933, ⟨54, 9, 6, [[0, 0, 1], [0, 2, 0], [0, 0, 1]], [[0, 1, 2], [3, 1, 2], [4,
    4, 4], [1, 5, 5], [4, 4, 4], [5, 5, 5]], [[⟨0, 0, 0⟩, ⟨0, 1, 18⟩, ⟨1, 0, 6⟩, ⟨1, 2, 42⟩, ⟨2,
    0, 12⟩, ⟨2, 1, 30⟩], [⟨0, 2, 36⟩, ⟨2, 2, 48⟩], [⟨1, 1, 24⟩]], [[⟨0, 0, 0⟩], [⟨0, 1, 18⟩, ⟨1,
    1, 19⟩, ⟨3, 0, 3⟩], [⟨0, 2, 36⟩, ⟨1, 2, 37⟩], [⟨1, 0, 1⟩], [⟨2, 0, 2⟩, ⟨2, 1, 20⟩, ⟨2, 2,
    38⟩, ⟨4, 0, 4⟩, ⟨4, 1, 22⟩, ⟨4, 2, 40⟩], [⟨3, 1, 21⟩, ⟨3, 2, 39⟩, ⟨5, 0, 5⟩, ⟨5, 1, 23⟩, ⟨5,
    2, 41⟩]]⟩⟩,
    ⟨14586802626573, ⟨30, 6, 5, [[0, 1, 0], [0, 1, 1]], [[0, 1, 2], [3, 1, 2], [2, 1, 2], [1, 4,
    4], [4, 4, 4]], [[⟨0, 0, 0⟩, ⟨0, 2, 20⟩, ⟨1, 0, 5⟩], [⟨0, 1, 10⟩, ⟨1, 1, 15⟩, ⟨1, 2, 25⟩]],
    [[⟨0, 0, 0⟩], [⟨0, 1, 10⟩, ⟨1, 1, 11⟩, ⟨2, 1, 12⟩, ⟨3, 0, 3⟩], [⟨0, 2, 20⟩, ⟨1, 2, 21⟩, ⟨2,
    0, 2⟩, ⟨2, 2, 22⟩], [⟨1, 0, 1⟩], [⟨3, 1, 13⟩, ⟨3, 2, 23⟩, ⟨4, 0, 4⟩, ⟨4, 1, 14⟩, ⟨4, 2,
    24⟩]]⟩⟩,
    ⟨7505284642922509, ⟨18, 9, 2, [[0, 1, 2], [1, 1, 1], [2, 2, 2]], [[0, 1, 1], [1, 1, 1]],
    [[⟨0, 0, 0⟩], [⟨0, 1, 6⟩, ⟨1, 0, 2⟩, ⟨1, 1, 8⟩, ⟨1, 2, 14⟩], [⟨0, 2, 12⟩, ⟨2, 0, 4⟩, ⟨2, 1,
    10⟩, ⟨2, 2, 16⟩]], [[⟨0, 0, 0⟩], [⟨0, 1, 6⟩, ⟨0, 2, 12⟩, ⟨1, 0, 1⟩, ⟨1, 1, 7⟩, ⟨1, 2, 13⟩]]⟩⟩,
    ⟨7505353364234253, ⟨48, 12, 4, [[0, 1, 2], [3, 1, 2], [2, 2, 2], [1, 2, 2]], [[0, 1, 1], [2,
    2, 3], [2, 2, 2], [0, 1, 3]], [[⟨0, 0, 0⟩], [⟨0, 1, 16⟩, ⟨1, 1, 20⟩, ⟨3, 0, 12⟩], [⟨0, 2,
    32⟩, ⟨1, 2, 36⟩, ⟨2, 0, 8⟩, ⟨2, 1, 24⟩, ⟨2, 2, 40⟩, ⟨3, 1, 28⟩, ⟨3, 2, 44⟩], [⟨1, 0, 4⟩]],
    [[⟨0, 0, 0⟩, ⟨3, 0, 3⟩], [⟨0, 1, 16⟩, ⟨0, 2, 32⟩, ⟨3, 1, 19⟩], [⟨1, 0, 1⟩, ⟨1, 1, 17⟩, ⟨2, 0,
    2⟩, ⟨2, 1, 18⟩, ⟨2, 2, 34⟩], [⟨1, 2, 33⟩, ⟨3, 2, 35⟩]]⟩⟩],
    by decide +kernel, by decide +kernel⟩

theorem child23_1l0_2l0 : AllDone (child (1, false, 0) (2, false, 0)) := by
  refine allDone_of [list23_1l0_2l0_0, list23_1l0_2l0_1] ?_ (by decide +kernel)
  simp only [List.forall_mem_cons, List.not_mem_nil, false_imp_iff, implies_true, and_true]
  exact ⟨done23_1l0_2l0_0, done23_1l0_2l0_1⟩

def list23_1l0_2l1_0 : List Listed := [
  ⟨11288265646605, [((0, 0), (1, true, 1)), ((0, 1), (2, false, 1)), ((0, 2), (0, true, 0)), ((1,
  0), (1, false, 0)), ((1, 1), (0, true, 0))]⟩,
  ⟨11288265908749, [((0, 0), (1, true, 1)), ((0, 1), (2, false, 1)), ((0, 2), (0, true, 1)), ((1,
  0), (1, false, 0)), ((1, 1), (0, true, 0))]⟩,
  ⟨11288266695181, [((0, 0), (1, true, 1)), ((0, 1), (2, false, 1)), ((0, 2), (1, false, 0)),
  ((1, 0), (1, false, 0)), ((1, 1), (0, true, 0))]⟩,
  ⟨11288268005901, [((0, 0), (1, true, 1)), ((0, 1), (2, false, 1)), ((0, 2), (1, true, 1)), ((1,
  0), (1, false, 0)), ((1, 1), (0, true, 0))]⟩,
  ⟨6801872081936909, [((0, 0), (1, true, 1)), ((0, 1), (2, false, 1)), ((0, 2), (2, false, 0)),
  ((1, 0), (1, false, 0)), ((1, 1), (0, true, 0)), ((1, 2), (0, false, 1))]⟩,
  ⟨6942609570292237, [((0, 0), (1, true, 1)), ((0, 1), (2, false, 1)), ((0, 2), (2, false, 0)),
  ((1, 0), (1, false, 0)), ((1, 1), (0, true, 0)), ((1, 2), (0, true, 1))]⟩,
  ⟨6801872082985485, [((0, 0), (1, true, 1)), ((0, 1), (2, false, 1)), ((0, 2), (2, true, 0)),
  ((1, 0), (1, false, 0)), ((1, 1), (0, true, 0)), ((1, 2), (0, false, 1))]⟩,
  ⟨6942609571340813, [((0, 0), (1, true, 1)), ((0, 1), (2, false, 1)), ((0, 2), (2, true, 0)),
  ((1, 0), (1, false, 0)), ((1, 1), (0, true, 0)), ((1, 2), (0, true, 1))]⟩,
  ⟨11288270103053, [((0, 0), (1, true, 1)), ((0, 1), (2, false, 1)), ((0, 2), (2, true, 1)), ((1,
  0), (1, false, 0)), ((1, 1), (0, true, 0))]⟩,
  ⟨13491199042061, [((0, 0), (1, true, 1)), ((0, 1), (2, false, 1)), ((1, 0), (1, false, 0)),
  ((1, 1), (0, true, 1)), ((1, 2), (0, true, 0))]⟩,
  ⟨11838021460493, [((0, 0), (1, true, 1)), ((0, 1), (2, false, 1)), ((0, 2), (0, true, 0)), ((1,
  0), (1, false, 0)), ((1, 1), (1, true, 0))]⟩,
  ⟨13492272783885, [((0, 0), (1, true, 1)), ((0, 1), (2, false, 1)), ((1, 0), (1, false, 0)),
  ((1, 1), (1, true, 1)), ((1, 2), (0, true, 0))]⟩,
  ⟨13560992260621, [((0, 0), (1, true, 1)), ((0, 1), (2, false, 1)), ((1, 0), (1, false, 0)),
  ((1, 1), (1, true, 1)), ((1, 2), (0, true, 1))]⟩,
  ⟨7470993622721037, [((0, 0), (1, true, 1)), ((0, 1), (2, false, 1)), ((0, 2), (0, false, 0)),
  ((1, 0), (1, false, 0)), ((1, 1), (1, true, 1)), ((1, 2), (2, true, 0))]⟩,
  ⟨12387777274381, [((0, 0), (1, true, 1)), ((0, 1), (2, false, 1)), ((0, 2), (0, true, 0)), ((1,
  0), (1, false, 0)), ((1, 1), (2, true, 0))]⟩,
  ⟨6802971594875405, [((0, 0), (1, true, 1)), ((0, 1), (2, false, 1)), ((0, 2), (2, true, 1)),
  ((1, 0), (1, false, 0)), ((1, 1), (2, true, 0)), ((1, 2), (0, false, 1))]⟩,
  ⟨6803040310944269, [((0, 0), (1, true, 1)), ((0, 1), (2, false, 1)), ((0, 2), (1, false, 0)),
  ((1, 0), (1, false, 0)), ((1, 1), (2, true, 1)), ((1, 2), (0, false, 1))]⟩,
  ⟨6803040311206413, [((0, 0), (1, true, 1)), ((0, 1), (2, false, 1)), ((0, 2), (1, false, 1)),
  ((1, 0), (1, false, 0)), ((1, 1), (2, true, 1)), ((1, 2), (0, false, 1))]⟩,
  ⟨6943777797202445, [((0, 0), (1, true, 1)), ((0, 1), (2, false, 1)), ((0, 2), (0, false, 0)),
  ((1, 0), (1, false, 0)), ((1, 1), (2, true, 1)), ((1, 2), (0, true, 1))]⟩,
  ⟨7330805891228173, [((0, 0), (1, true, 1)), ((0, 1), (2, false, 1)), ((0, 2), (0, true, 0)),
  ((1, 0), (1, false, 0)), ((1, 1), (2, true, 1)), ((1, 2), (2, false, 0))]⟩]

theorem done23_1l0_2l1_0 : ∃ h, Done list23_1l0_2l1_0 h :=
  ⟨[
    ⟨11288265646605, ⟨72, 12, 6, [[0, 1, 2], [3, 1, 2], [2, 2, 2], [3, 1, 2]], [[0, 1, 2], [1, 1,
    3], [4, 1, 2], [4, 1, 3], [3, 5, 5], [5, 5, 5]], [[⟨0, 0, 0⟩], [⟨0, 1, 24⟩, ⟨1, 1, 30⟩, ⟨3,
    1, 42⟩], [⟨0, 2, 48⟩, ⟨1, 2, 54⟩, ⟨2, 0, 12⟩, ⟨2, 1, 36⟩, ⟨2, 2, 60⟩, ⟨3, 2, 66⟩], [⟨1, 0,
    6⟩, ⟨3, 0, 18⟩]], [[⟨0, 0, 0⟩], [⟨0, 1, 24⟩, ⟨1, 0, 1⟩, ⟨1, 1, 25⟩, ⟨2, 1, 26⟩, ⟨3, 1, 27⟩],
    [⟨0, 2, 48⟩, ⟨2, 2, 50⟩], [⟨1, 2, 49⟩, ⟨3, 2, 51⟩, ⟨4, 0, 4⟩], [⟨2, 0, 2⟩, ⟨3, 0, 3⟩], [⟨4,
    1, 28⟩, ⟨4, 2, 52⟩, ⟨5, 0, 5⟩, ⟨5, 1, 29⟩, ⟨5, 2, 53⟩]]⟩⟩,
    ⟨11288265908749, ⟨48, 12, 4, [[0, 1, 2], [3, 2, 2], [2, 2, 2], [1, 1, 1]], [[0, 0, 1], [2, 2,
    3], [1, 1, 1], [3, 3, 3]], [[⟨0, 0, 0⟩], [⟨0, 1, 16⟩, ⟨3, 0, 12⟩, ⟨3, 1, 28⟩, ⟨3, 2, 44⟩],
    [⟨0, 2, 32⟩, ⟨1, 1, 20⟩, ⟨1, 2, 36⟩, ⟨2, 0, 8⟩, ⟨2, 1, 24⟩, ⟨2, 2, 40⟩], [⟨1, 0, 4⟩]], [[⟨0,
    0, 0⟩, ⟨0, 1, 16⟩], [⟨0, 2, 32⟩, ⟨2, 0, 2⟩, ⟨2, 1, 18⟩, ⟨2, 2, 34⟩], [⟨1, 0, 1⟩, ⟨1, 1, 17⟩],
    [⟨1, 2, 33⟩, ⟨3, 0, 3⟩, ⟨3, 1, 19⟩, ⟨3, 2, 35⟩]]⟩⟩,
    ⟨11288266695181, ⟨45, 9, 5, [[0, 1, 2], [1, 1, 2], [2, 2, 2]], [[0, 1, 2], [1, 1, 2], [3, 1,
    2], [2, 4, 4], [4, 4, 4]], [[⟨0, 0, 0⟩], [⟨0, 1, 15⟩, ⟨1, 0, 5⟩, ⟨1, 1, 20⟩], [⟨0, 2, 30⟩,
    ⟨1, 2, 35⟩, ⟨2, 0, 10⟩, ⟨2, 1, 25⟩, ⟨2, 2, 40⟩]], [[⟨0, 0, 0⟩], [⟨0, 1, 15⟩, ⟨1, 0, 1⟩, ⟨1,
    1, 16⟩, ⟨2, 1, 17⟩], [⟨0, 2, 30⟩, ⟨1, 2, 31⟩, ⟨2, 2, 32⟩, ⟨3, 0, 3⟩], [⟨2, 0, 2⟩], [⟨3, 1,
    18⟩, ⟨3, 2, 33⟩, ⟨4, 0, 4⟩, ⟨4, 1, 19⟩, ⟨4, 2, 34⟩]]⟩⟩,
    ⟨11288268005901, ⟨36, 9, 4, [[0, 1, 2], [1, 1, 2], [2, 2, 2]], [[0, 0, 1], [2, 2, 3], [1, 1,
    1], [3, 3, 3]], [[⟨0, 0, 0⟩], [⟨0, 1, 12⟩, ⟨1, 0, 4⟩, ⟨1, 1, 16⟩], [⟨0, 2, 24⟩, ⟨1, 2, 28⟩,
    ⟨2, 0, 8⟩, ⟨2, 1, 20⟩, ⟨2, 2, 32⟩]], [[⟨0, 0, 0⟩, ⟨0, 1, 12⟩], [⟨0, 2, 24⟩, ⟨2, 0, 2⟩, ⟨2, 1,
    14⟩, ⟨2, 2, 26⟩], [⟨1, 0, 1⟩, ⟨1, 1, 13⟩], [⟨1, 2, 25⟩, ⟨3, 0, 3⟩, ⟨3, 1, 15⟩, ⟨3, 2, 27⟩]]⟩⟩,
    ⟨6801872081936909, ⟨96, 12, 8, [[0, 1, 0], [1, 2, 0], [1, 3, 0], [0, 1, 0]], [[0, 1, 2], [3,
    3, 4], [5, 6, 2], [7, 7, 6], [4, 4, 4], [2, 1, 6], [6, 6, 6], [3, 3, 4]], [[⟨0, 0, 0⟩, ⟨0, 2,
    64⟩, ⟨1, 2, 72⟩, ⟨2, 2, 80⟩, ⟨3, 0, 24⟩, ⟨3, 2, 88⟩], [⟨0, 1, 32⟩, ⟨1, 0, 8⟩, ⟨2, 0, 16⟩, ⟨3,
    1, 56⟩], [⟨1, 1, 40⟩], [⟨2, 1, 48⟩]], [[⟨0, 0, 0⟩], [⟨0, 1, 32⟩, ⟨5, 1, 37⟩], [⟨0, 2, 64⟩,
    ⟨2, 2, 66⟩, ⟨5, 0, 5⟩], [⟨1, 0, 1⟩, ⟨1, 1, 33⟩, ⟨7, 0, 7⟩, ⟨7, 1, 39⟩], [⟨1, 2, 65⟩, ⟨4, 0,
    4⟩, ⟨4, 1, 36⟩, ⟨4, 2, 68⟩, ⟨7, 2, 71⟩], [⟨2, 0, 2⟩], [⟨2, 1, 34⟩, ⟨3, 2, 67⟩, ⟨5, 2, 69⟩,
    ⟨6, 0, 6⟩, ⟨6, 1, 38⟩, ⟨6, 2, 70⟩], [⟨3, 0, 3⟩, ⟨3, 1, 35⟩]]⟩⟩,
    ⟨6942609570292237, ⟨54, 9, 6, [[0, 1, 0], [2, 1, 1], [2, 2, 0]], [[0, 1, 2], [3, 1, 2], [4,
    5, 2], [5, 4, 4], [4, 4, 4], [3, 2, 4]], [[⟨0, 0, 0⟩, ⟨0, 2, 36⟩, ⟨2, 2, 48⟩], [⟨0, 1, 18⟩,
    ⟨1, 1, 24⟩, ⟨1, 2, 42⟩], [⟨1, 0, 6⟩, ⟨2, 0, 12⟩, ⟨2, 1, 30⟩]], [[⟨0, 0, 0⟩], [⟨0, 1, 18⟩, ⟨1,
    1, 19⟩], [⟨0, 2, 36⟩, ⟨1, 2, 37⟩, ⟨2, 2, 38⟩, ⟨5, 1, 23⟩], [⟨1, 0, 1⟩, ⟨5, 0, 5⟩], [⟨2, 0,
    2⟩, ⟨3, 1, 21⟩, ⟨3, 2, 39⟩, ⟨4, 0, 4⟩, ⟨4, 1, 22⟩, ⟨4, 2, 40⟩, ⟨5, 2, 41⟩], [⟨2, 1, 20⟩, ⟨3,
    0, 3⟩]]⟩⟩,
    ⟨6801872082985485, ⟨63, 21, 3, [[0, 1, 2], [3, 4, 2], [2, 2, 2], [2, 5, 6], [5, 1, 2], [4, 2,
    2], [6, 6, 6]], [[0, 0, 1], [0, 2, 0], [0, 0, 0]], [[⟨0, 0, 0⟩], [⟨0, 1, 21⟩, ⟨4, 1, 33⟩],
    [⟨0, 2, 42⟩, ⟨1, 2, 45⟩, ⟨2, 0, 6⟩, ⟨2, 1, 27⟩, ⟨2, 2, 48⟩, ⟨3, 0, 9⟩, ⟨4, 2, 54⟩, ⟨5, 1,
    36⟩, ⟨5, 2, 57⟩], [⟨1, 0, 3⟩], [⟨1, 1, 24⟩, ⟨5, 0, 15⟩], [⟨3, 1, 30⟩, ⟨4, 0, 12⟩], [⟨3, 2,
    51⟩, ⟨6, 0, 18⟩, ⟨6, 1, 39⟩, ⟨6, 2, 60⟩]], [[⟨0, 0, 0⟩, ⟨0, 1, 21⟩, ⟨1, 0, 1⟩, ⟨1, 2, 43⟩,
    ⟨2, 0, 2⟩, ⟨2, 1, 23⟩, ⟨2, 2, 44⟩], [⟨0, 2, 42⟩], [⟨1, 1, 22⟩]]⟩⟩,
    ⟨6942609571340813, ⟨255, 15, 17, [[0, 1, 0], [2, 1, 0], [3, 1, 3], [4, 4, 3], [4, 4, 3]],
    [[0, 1, 2], [0, 1, 3], [1, 4, 5], [6, 4, 3], [7, 1, 3], [1, 4, 3], [1, 8, 9], [1, 8, 10], [7,
    11, 12], [6, 8, 9], [1, 8, 6], [0, 13, 9], [14, 15, 12], [0, 11, 12], [8, 16, 16], [7, 13,
    9], [16, 16, 16]], [[⟨0, 0, 0⟩, ⟨0, 2, 170⟩, ⟨1, 2, 187⟩], [⟨0, 1, 85⟩, ⟨1, 1, 102⟩, ⟨2, 1,
    119⟩], [⟨1, 0, 17⟩], [⟨2, 0, 34⟩, ⟨2, 2, 204⟩, ⟨3, 2, 221⟩, ⟨4, 2, 238⟩], [⟨3, 0, 51⟩, ⟨3, 1,
    136⟩, ⟨4, 0, 68⟩, ⟨4, 1, 153⟩]], [[⟨0, 0, 0⟩, ⟨1, 0, 1⟩, ⟨11, 0, 11⟩, ⟨13, 0, 13⟩], [⟨0, 1,
    85⟩, ⟨1, 1, 86⟩, ⟨2, 0, 2⟩, ⟨4, 1, 89⟩, ⟨5, 0, 5⟩, ⟨6, 0, 6⟩, ⟨7, 0, 7⟩, ⟨10, 0, 10⟩], [⟨0,
    2, 170⟩], [⟨1, 2, 171⟩, ⟨3, 2, 173⟩, ⟨4, 2, 174⟩, ⟨5, 2, 175⟩], [⟨2, 1, 87⟩, ⟨3, 1, 88⟩, ⟨5,
    1, 90⟩], [⟨2, 2, 172⟩], [⟨3, 0, 3⟩, ⟨9, 0, 9⟩, ⟨10, 2, 180⟩], [⟨4, 0, 4⟩, ⟨8, 0, 8⟩, ⟨15, 0,
    15⟩], [⟨6, 1, 91⟩, ⟨7, 1, 92⟩, ⟨9, 1, 94⟩, ⟨10, 1, 95⟩, ⟨14, 0, 14⟩], [⟨6, 2, 176⟩, ⟨9, 2,
    179⟩, ⟨11, 2, 181⟩, ⟨15, 2, 185⟩], [⟨7, 2, 177⟩], [⟨8, 1, 93⟩, ⟨13, 1, 98⟩], [⟨8, 2, 178⟩,
    ⟨12, 2, 182⟩, ⟨13, 2, 183⟩], [⟨11, 1, 96⟩, ⟨15, 1, 100⟩], [⟨12, 0, 12⟩], [⟨12, 1, 97⟩], [⟨14,
    1, 99⟩, ⟨14, 2, 184⟩, ⟨16, 0, 16⟩, ⟨16, 1, 101⟩, ⟨16, 2, 186⟩]]⟩⟩,
    ⟨11288270103053, ⟨36, 9, 4, [[0, 0, 1], [2, 0, 0], [0, 1, 1]], [[0, 0, 1], [2, 2, 3], [1, 1,
    1], [3, 3, 3]], [[⟨0, 0, 0⟩, ⟨0, 1, 12⟩, ⟨1, 1, 16⟩, ⟨1, 2, 28⟩, ⟨2, 0, 8⟩], [⟨0, 2, 24⟩, ⟨2,
    1, 20⟩, ⟨2, 2, 32⟩], [⟨1, 0, 4⟩]], [[⟨0, 0, 0⟩, ⟨0, 1, 12⟩], [⟨0, 2, 24⟩, ⟨2, 0, 2⟩, ⟨2, 1,
    14⟩, ⟨2, 2, 26⟩], [⟨1, 0, 1⟩, ⟨1, 1, 13⟩], [⟨1, 2, 25⟩, ⟨3, 0, 3⟩, ⟨3, 1, 15⟩, ⟨3, 2, 27⟩]]⟩⟩,
    ⟨13491199042061, ⟨156, 12, 13, [[0, 1, 0], [2, 1, 0], [3, 1, 0], [2, 3, 0]], [[0, 1, 2], [3,
    1, 2], [2, 4, 5], [0, 1, 6], [7, 2, 5], [5, 5, 5], [8, 6, 5], [5, 9, 6], [10, 11, 6], [5, 9,
    2], [12, 6, 5], [7, 12, 2], [10, 11, 2]], [[⟨0, 0, 0⟩, ⟨0, 2, 104⟩, ⟨1, 2, 117⟩, ⟨2, 2, 130⟩,
    ⟨3, 2, 143⟩], [⟨0, 1, 52⟩, ⟨1, 1, 65⟩, ⟨2, 1, 78⟩], [⟨1, 0, 13⟩, ⟨3, 0, 39⟩], [⟨2, 0, 26⟩,
    ⟨3, 1, 91⟩]], [[⟨0, 0, 0⟩, ⟨3, 0, 3⟩], [⟨0, 1, 52⟩, ⟨1, 1, 53⟩, ⟨3, 1, 55⟩], [⟨0, 2, 104⟩,
    ⟨1, 2, 105⟩, ⟨2, 0, 2⟩, ⟨4, 1, 56⟩, ⟨9, 2, 113⟩, ⟨11, 2, 115⟩, ⟨12, 2, 116⟩], [⟨1, 0, 1⟩],
    [⟨2, 1, 54⟩], [⟨2, 2, 106⟩, ⟨4, 2, 108⟩, ⟨5, 0, 5⟩, ⟨5, 1, 57⟩, ⟨5, 2, 109⟩, ⟨6, 2, 110⟩, ⟨7,
    0, 7⟩, ⟨9, 0, 9⟩, ⟨10, 2, 114⟩], [⟨3, 2, 107⟩, ⟨6, 1, 58⟩, ⟨7, 2, 111⟩, ⟨8, 2, 112⟩, ⟨10, 1,
    62⟩], [⟨4, 0, 4⟩, ⟨11, 0, 11⟩], [⟨6, 0, 6⟩], [⟨7, 1, 59⟩, ⟨9, 1, 61⟩], [⟨8, 0, 8⟩, ⟨12, 0,
    12⟩], [⟨8, 1, 60⟩, ⟨12, 1, 64⟩], [⟨10, 0, 10⟩, ⟨11, 1, 63⟩]]⟩⟩,
    ⟨11838021460493, ⟨45, 9, 5, [[0, 1, 2], [1, 1, 2], [2, 2, 2]], [[0, 1, 2], [1, 1, 2], [3, 1,
    2], [2, 4, 4], [4, 4, 4]], [[⟨0, 0, 0⟩], [⟨0, 1, 15⟩, ⟨1, 0, 5⟩, ⟨1, 1, 20⟩], [⟨0, 2, 30⟩,
    ⟨1, 2, 35⟩, ⟨2, 0, 10⟩, ⟨2, 1, 25⟩, ⟨2, 2, 40⟩]], [[⟨0, 0, 0⟩], [⟨0, 1, 15⟩, ⟨1, 0, 1⟩, ⟨1,
    1, 16⟩, ⟨2, 1, 17⟩], [⟨0, 2, 30⟩, ⟨1, 2, 31⟩, ⟨2, 2, 32⟩, ⟨3, 0, 3⟩], [⟨2, 0, 2⟩], [⟨3, 1,
    18⟩, ⟨3, 2, 33⟩, ⟨4, 0, 4⟩, ⟨4, 1, 19⟩, ⟨4, 2, 34⟩]]⟩⟩,
    ⟨13492272783885, ⟨54, 18, 3, [[0, 1, 2], [3, 1, 2], [2, 2, 2], [4, 5, 2], [5, 1, 2], [4, 2,
    2]], [[0, 1, 0], [0, 0, 2], [0, 2, 0]], [[⟨0, 0, 0⟩], [⟨0, 1, 18⟩, ⟨1, 1, 21⟩, ⟨4, 1, 30⟩],
    [⟨0, 2, 36⟩, ⟨1, 2, 39⟩, ⟨2, 0, 6⟩, ⟨2, 1, 24⟩, ⟨2, 2, 42⟩, ⟨3, 2, 45⟩, ⟨4, 2, 48⟩, ⟨5, 1,
    33⟩, ⟨5, 2, 51⟩], [⟨1, 0, 3⟩], [⟨3, 0, 9⟩, ⟨5, 0, 15⟩], [⟨3, 1, 27⟩, ⟨4, 0, 12⟩]], [[⟨0, 0,
    0⟩, ⟨0, 2, 36⟩, ⟨1, 0, 1⟩, ⟨1, 1, 19⟩, ⟨2, 0, 2⟩, ⟨2, 2, 38⟩], [⟨0, 1, 18⟩], [⟨1, 2, 37⟩, ⟨2,
    1, 20⟩]]⟩⟩,
    ⟨13560992260621, ⟨30, 15, 2, [[0, 1, 2], [1, 1, 2], [3, 1, 4], [2, 4, 4], [4, 4, 4]], [[0, 1,
    0], [0, 1, 1]], [[⟨0, 0, 0⟩], [⟨0, 1, 10⟩, ⟨1, 0, 2⟩, ⟨1, 1, 12⟩, ⟨2, 1, 14⟩], [⟨0, 2, 20⟩,
    ⟨1, 2, 22⟩, ⟨3, 0, 6⟩], [⟨2, 0, 4⟩], [⟨2, 2, 24⟩, ⟨3, 1, 16⟩, ⟨3, 2, 26⟩, ⟨4, 0, 8⟩, ⟨4, 1,
    18⟩, ⟨4, 2, 28⟩]], [[⟨0, 0, 0⟩, ⟨0, 2, 20⟩, ⟨1, 0, 1⟩], [⟨0, 1, 10⟩, ⟨1, 1, 11⟩, ⟨1, 2,
    21⟩]]⟩⟩,
    ⟨7470993622721037, ⟨42, 21, 2, [[0, 1, 2], [3, 1, 4], [2, 2, 2], [5, 6, 2], [4, 4, 4], [6, 1,
    2], [5, 2, 2]], [[0, 0, 1], [0, 1, 0]], [[⟨0, 0, 0⟩], [⟨0, 1, 14⟩, ⟨1, 1, 16⟩, ⟨5, 1, 24⟩],
    [⟨0, 2, 28⟩, ⟨2, 0, 4⟩, ⟨2, 1, 18⟩, ⟨2, 2, 32⟩, ⟨3, 2, 34⟩, ⟨5, 2, 38⟩, ⟨6, 1, 26⟩, ⟨6, 2,
    40⟩], [⟨1, 0, 2⟩], [⟨1, 2, 30⟩, ⟨4, 0, 8⟩, ⟨4, 1, 22⟩, ⟨4, 2, 36⟩], [⟨3, 0, 6⟩, ⟨6, 0, 12⟩],
    [⟨3, 1, 20⟩, ⟨5, 0, 10⟩]], [[⟨0, 0, 0⟩, ⟨0, 1, 14⟩, ⟨1, 0, 1⟩, ⟨1, 2, 29⟩], [⟨0, 2, 28⟩, ⟨1,
    1, 15⟩]]⟩⟩,
    ⟨12387777274381, ⟨72, 12, 6, [[0, 1, 2], [3, 2, 1], [2, 2, 2], [2, 1, 2]], [[0, 1, 2], [3, 1,
    2], [3, 4, 5], [0, 1, 5], [0, 1, 2], [3, 1, 5]], [[⟨0, 0, 0⟩], [⟨0, 1, 24⟩, ⟨1, 2, 54⟩, ⟨3,
    1, 42⟩], [⟨0, 2, 48⟩, ⟨1, 1, 30⟩, ⟨2, 0, 12⟩, ⟨2, 1, 36⟩, ⟨2, 2, 60⟩, ⟨3, 0, 18⟩, ⟨3, 2,
    66⟩], [⟨1, 0, 6⟩]], [[⟨0, 0, 0⟩, ⟨3, 0, 3⟩, ⟨4, 0, 4⟩], [⟨0, 1, 24⟩, ⟨1, 1, 25⟩, ⟨3, 1, 27⟩,
    ⟨4, 1, 28⟩, ⟨5, 1, 29⟩], [⟨0, 2, 48⟩, ⟨1, 2, 49⟩, ⟨4, 2, 52⟩], [⟨1, 0, 1⟩, ⟨2, 0, 2⟩, ⟨5, 0,
    5⟩], [⟨2, 1, 26⟩], [⟨2, 2, 50⟩, ⟨3, 2, 51⟩, ⟨5, 2, 53⟩]]⟩⟩,
    ⟨6802971594875405, ⟨108, 9, 12, [[0, 0, 1], [0, 2, 0], [0, 0, 1]], [[0, 1, 2], [3, 4, 5], [2,
    2, 2], [6, 6, 2], [7, 1, 2], [8, 5, 5], [3, 3, 9], [4, 2, 2], [10, 6, 2], [11, 10, 10], [8,
    9, 9], [11, 11, 11]], [[⟨0, 0, 0⟩, ⟨0, 1, 36⟩, ⟨1, 0, 12⟩, ⟨1, 2, 84⟩, ⟨2, 0, 24⟩, ⟨2, 1,
    60⟩], [⟨0, 2, 72⟩, ⟨2, 2, 96⟩], [⟨1, 1, 48⟩]], [[⟨0, 0, 0⟩], [⟨0, 1, 36⟩, ⟨4, 1, 40⟩], [⟨0,
    2, 72⟩, ⟨2, 0, 2⟩, ⟨2, 1, 38⟩, ⟨2, 2, 74⟩, ⟨3, 2, 75⟩, ⟨4, 2, 76⟩, ⟨7, 1, 43⟩, ⟨7, 2, 79⟩,
    ⟨8, 2, 80⟩], [⟨1, 0, 1⟩, ⟨6, 0, 6⟩, ⟨6, 1, 42⟩], [⟨1, 1, 37⟩, ⟨7, 0, 7⟩], [⟨1, 2, 73⟩, ⟨5, 1,
    41⟩, ⟨5, 2, 77⟩], [⟨3, 0, 3⟩, ⟨3, 1, 39⟩, ⟨8, 1, 44⟩], [⟨4, 0, 4⟩], [⟨5, 0, 5⟩, ⟨10, 0, 10⟩],
    [⟨6, 2, 78⟩, ⟨10, 1, 46⟩, ⟨10, 2, 82⟩], [⟨8, 0, 8⟩, ⟨9, 1, 45⟩, ⟨9, 2, 81⟩], [⟨9, 0, 9⟩, ⟨11,
    0, 11⟩, ⟨11, 1, 47⟩, ⟨11, 2, 83⟩]]⟩⟩,
    ⟨6803040310944269, ⟨42, 21, 2, [[0, 1, 2], [3, 3, 4], [3, 5, 2], [6, 2, 3], [4, 4, 4], [6, 6,
    3], [6, 6, 6]], [[0, 1, 1], [0, 1, 1]], [[⟨0, 0, 0⟩], [⟨0, 1, 14⟩], [⟨0, 2, 28⟩, ⟨2, 2, 32⟩,
    ⟨3, 1, 20⟩], [⟨1, 0, 2⟩, ⟨1, 1, 16⟩, ⟨2, 0, 4⟩, ⟨3, 2, 34⟩, ⟨5, 2, 38⟩], [⟨1, 2, 30⟩, ⟨4, 0,
    8⟩, ⟨4, 1, 22⟩, ⟨4, 2, 36⟩], [⟨2, 1, 18⟩], [⟨3, 0, 6⟩, ⟨5, 0, 10⟩, ⟨5, 1, 24⟩, ⟨6, 0, 12⟩,
    ⟨6, 1, 26⟩, ⟨6, 2, 40⟩]], [[⟨0, 0, 0⟩, ⟨1, 0, 1⟩], [⟨0, 1, 14⟩, ⟨0, 2, 28⟩, ⟨1, 1, 15⟩, ⟨1,
    2, 29⟩]]⟩⟩,
    ⟨6803040311206413, ⟨36, 9, 4, [[0, 0, 1], [0, 2, 1], [0, 0, 0]], [[0, 1, 2], [3, 3, 3], [2,
    2, 2], [3, 3, 3]], [[⟨0, 0, 0⟩, ⟨0, 1, 12⟩, ⟨1, 0, 4⟩, ⟨2, 0, 8⟩, ⟨2, 1, 20⟩, ⟨2, 2, 32⟩],
    [⟨0, 2, 24⟩, ⟨1, 2, 28⟩], [⟨1, 1, 16⟩]], [[⟨0, 0, 0⟩], [⟨0, 1, 12⟩], [⟨0, 2, 24⟩, ⟨2, 0, 2⟩,
    ⟨2, 1, 14⟩, ⟨2, 2, 26⟩], [⟨1, 0, 1⟩, ⟨1, 1, 13⟩, ⟨1, 2, 25⟩, ⟨3, 0, 3⟩, ⟨3, 1, 15⟩, ⟨3, 2,
    27⟩]]⟩⟩,
    ⟨6943777797202445, ⟨18, 6, 3, [[0, 0, 1], [0, 0, 1]], [[0, 1, 2], [1, 1, 1], [2, 2, 2]],
    [[⟨0, 0, 0⟩, ⟨0, 1, 6⟩, ⟨1, 0, 3⟩, ⟨1, 1, 9⟩], [⟨0, 2, 12⟩, ⟨1, 2, 15⟩]], [[⟨0, 0, 0⟩], [⟨0,
    1, 6⟩, ⟨1, 0, 1⟩, ⟨1, 1, 7⟩, ⟨1, 2, 13⟩], [⟨0, 2, 12⟩, ⟨2, 0, 2⟩, ⟨2, 1, 8⟩, ⟨2, 2, 14⟩]]⟩⟩,
    ⟨7330805891228173, ⟨153, 9, 17, [[0, 1, 2], [2, 2, 0], [2, 1, 1]], [[0, 1, 2], [3, 4, 5], [5,
    6, 2], [7, 8, 9], [10, 11, 5], [5, 5, 5], [11, 12, 5], [3, 7, 5], [9, 13, 9], [9, 9, 9], [7,
    14, 9], [11, 1, 5], [10, 15, 5], [9, 3, 9], [7, 16, 9], [5, 6, 5], [9, 10, 9]], [[⟨0, 0, 0⟩,
    ⟨1, 2, 119⟩], [⟨0, 1, 51⟩, ⟨2, 1, 85⟩, ⟨2, 2, 136⟩], [⟨0, 2, 102⟩, ⟨1, 0, 17⟩, ⟨1, 1, 68⟩,
    ⟨2, 0, 34⟩]], [[⟨0, 0, 0⟩], [⟨0, 1, 51⟩, ⟨11, 1, 62⟩], [⟨0, 2, 102⟩, ⟨2, 2, 104⟩], [⟨1, 0,
    1⟩, ⟨7, 0, 7⟩, ⟨13, 1, 64⟩], [⟨1, 1, 52⟩], [⟨1, 2, 103⟩, ⟨2, 0, 2⟩, ⟨4, 2, 106⟩, ⟨5, 0, 5⟩,
    ⟨5, 1, 56⟩, ⟨5, 2, 107⟩, ⟨6, 2, 108⟩, ⟨7, 2, 109⟩, ⟨11, 2, 113⟩, ⟨12, 2, 114⟩, ⟨15, 0, 15⟩,
    ⟨15, 2, 117⟩], [⟨2, 1, 53⟩, ⟨15, 1, 66⟩], [⟨3, 0, 3⟩, ⟨7, 1, 58⟩, ⟨10, 0, 10⟩, ⟨14, 0, 14⟩],
    [⟨3, 1, 54⟩], [⟨3, 2, 105⟩, ⟨8, 0, 8⟩, ⟨8, 2, 110⟩, ⟨9, 0, 9⟩, ⟨9, 1, 60⟩, ⟨9, 2, 111⟩, ⟨10,
    2, 112⟩, ⟨13, 0, 13⟩, ⟨13, 2, 115⟩, ⟨14, 2, 116⟩, ⟨16, 0, 16⟩, ⟨16, 2, 118⟩], [⟨4, 0, 4⟩,
    ⟨12, 0, 12⟩, ⟨16, 1, 67⟩], [⟨4, 1, 55⟩, ⟨6, 0, 6⟩, ⟨11, 0, 11⟩], [⟨6, 1, 57⟩], [⟨8, 1, 59⟩],
    [⟨10, 1, 61⟩], [⟨12, 1, 63⟩], [⟨14, 1, 65⟩]]⟩⟩],
    by decide +kernel, by decide +kernel⟩

def list23_1l0_2l1_1 : List Listed := [
  ⟨7471543378534925, [((0, 0), (1, true, 1)), ((0, 1), (2, false, 1)), ((0, 2), (0, false, 0)),
  ((1, 0), (1, false, 0)), ((1, 1), (2, true, 1)), ((1, 2), (2, true, 0))]⟩]

theorem done23_1l0_2l1_1 : ∃ h, Done list23_1l0_2l1_1 h :=
  ⟨[
    ⟨7471543378534925, ⟨54, 27, 2, [[0, 1, 2], [3, 4, 5], [2, 2, 2], [2, 6, 2], [7, 7, 2], [5, 5,
    5], [8, 2, 2], [4, 4, 5], [6, 1, 2]], [[0, 0, 1], [0, 1, 0]], [[⟨0, 0, 0⟩], [⟨0, 1, 18⟩, ⟨8,
    1, 34⟩], [⟨0, 2, 36⟩, ⟨2, 0, 4⟩, ⟨2, 1, 22⟩, ⟨2, 2, 40⟩, ⟨3, 0, 6⟩, ⟨3, 2, 42⟩, ⟨4, 2, 44⟩,
    ⟨6, 1, 30⟩, ⟨6, 2, 48⟩, ⟨8, 2, 52⟩], [⟨1, 0, 2⟩], [⟨1, 1, 20⟩, ⟨7, 0, 14⟩, ⟨7, 1, 32⟩], [⟨1,
    2, 38⟩, ⟨5, 0, 10⟩, ⟨5, 1, 28⟩, ⟨5, 2, 46⟩, ⟨7, 2, 50⟩], [⟨3, 1, 24⟩, ⟨8, 0, 16⟩], [⟨4, 0,
    8⟩, ⟨4, 1, 26⟩], [⟨6, 0, 12⟩]], [[⟨0, 0, 0⟩, ⟨0, 1, 18⟩, ⟨1, 0, 1⟩, ⟨1, 2, 37⟩], [⟨0, 2, 36⟩,
    ⟨1, 1, 19⟩]]⟩⟩],
    by decide +kernel, by decide +kernel⟩

theorem child23_1l0_2l1 : AllDone (child (1, false, 0) (2, false, 1)) := by
  refine allDone_of [list23_1l0_2l1_0, list23_1l0_2l1_1] ?_ (by decide +kernel)
  simp only [List.forall_mem_cons, List.not_mem_nil, false_imp_iff, implies_true, and_true]
  exact ⟨done23_1l0_2l1_0, done23_1l0_2l1_1⟩

theorem child23_1l0_2r0 : AllDone (child (1, false, 0) (2, true, 0)) :=
  allDone_of [] (by simp) (by decide +kernel)

end BB.Records
