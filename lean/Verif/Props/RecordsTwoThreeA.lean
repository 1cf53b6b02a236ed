import Verif.Props.Records
import Verif.Props.RecordsThree

/-!
# C79 for two states and three colours: the plan

Pairs that remember the nearest 0 to 2 cells and whether all others are blank.  The programs for which
these do not do are listed, and each is dealt with by a pair of its own.
-/

namespace BB.Records

open Watch

def gram30 : Try :=
  ⟨1000, ⟨12, 6, 2, [[0, 1, 1], [1, 1, 1]], [[0, 1, 1], [1, 1, 1]], [[⟨0, 0, 0⟩], [⟨0, 1, 4⟩, ⟨0,
  2, 8⟩, ⟨1, 0, 2⟩, ⟨1, 1, 6⟩, ⟨1, 2, 10⟩]], [[⟨0, 0, 0⟩], [⟨0, 1, 4⟩, ⟨0, 2, 8⟩, ⟨1, 0, 1⟩, ⟨1,
  1, 5⟩, ⟨1, 2, 9⟩]]⟩⟩

def gram31 : Try :=
  ⟨1000, ⟨108, 18, 6, [[0, 1, 2], [3, 4, 5], [3, 4, 5], [3, 4, 5], [3, 4, 5], [3, 4, 5]], [[0, 1,
  2], [3, 4, 5], [3, 4, 5], [3, 4, 5], [3, 4, 5], [3, 4, 5]], [[⟨0, 0, 0⟩], [⟨0, 1, 36⟩], [⟨0, 2,
  72⟩], [⟨1, 0, 6⟩, ⟨2, 0, 12⟩, ⟨3, 0, 18⟩, ⟨4, 0, 24⟩, ⟨5, 0, 30⟩], [⟨1, 1, 42⟩, ⟨2, 1, 48⟩, ⟨3,
  1, 54⟩, ⟨4, 1, 60⟩, ⟨5, 1, 66⟩], [⟨1, 2, 78⟩, ⟨2, 2, 84⟩, ⟨3, 2, 90⟩, ⟨4, 2, 96⟩, ⟨5, 2,
  102⟩]], [[⟨0, 0, 0⟩], [⟨0, 1, 36⟩], [⟨0, 2, 72⟩], [⟨1, 0, 1⟩, ⟨2, 0, 2⟩, ⟨3, 0, 3⟩, ⟨4, 0, 4⟩,
  ⟨5, 0, 5⟩], [⟨1, 1, 37⟩, ⟨2, 1, 38⟩, ⟨3, 1, 39⟩, ⟨4, 1, 40⟩, ⟨5, 1, 41⟩], [⟨1, 2, 73⟩, ⟨2, 2,
  74⟩, ⟨3, 2, 75⟩, ⟨4, 2, 76⟩, ⟨5, 2, 77⟩]]⟩⟩

def gram32 : Try :=
  ⟨1000, ⟨972, 54, 18, [[0, 1, 2], [3, 4, 5], [6, 7, 8], [9, 10, 11], [12, 13, 14], [15, 16, 17],
  [9, 10, 11], [12, 13, 14], [15, 16, 17], [9, 10, 11], [12, 13, 14], [15, 16, 17], [9, 10, 11],
  [12, 13, 14], [15, 16, 17], [9, 10, 11], [12, 13, 14], [15, 16, 17]], [[0, 1, 2], [3, 4, 5],
  [6, 7, 8], [9, 10, 11], [12, 13, 14], [15, 16, 17], [9, 10, 11], [12, 13, 14], [15, 16, 17],
  [9, 10, 11], [12, 13, 14], [15, 16, 17], [9, 10, 11], [12, 13, 14], [15, 16, 17], [9, 10, 11],
  [12, 13, 14], [15, 16, 17]], [[⟨0, 0, 0⟩], [⟨0, 1, 324⟩], [⟨0, 2, 648⟩], [⟨1, 0, 18⟩], [⟨1, 1,
  342⟩], [⟨1, 2, 666⟩], [⟨2, 0, 36⟩], [⟨2, 1, 360⟩], [⟨2, 2, 684⟩], [⟨3, 0, 54⟩, ⟨6, 0, 108⟩, ⟨9,
  0, 162⟩, ⟨12, 0, 216⟩, ⟨15, 0, 270⟩], [⟨3, 1, 378⟩, ⟨6, 1, 432⟩, ⟨9, 1, 486⟩, ⟨12, 1, 540⟩,
  ⟨15, 1, 594⟩], [⟨3, 2, 702⟩, ⟨6, 2, 756⟩, ⟨9, 2, 810⟩, ⟨12, 2, 864⟩, ⟨15, 2, 918⟩], [⟨4, 0,
  72⟩, ⟨7, 0, 126⟩, ⟨10, 0, 180⟩, ⟨13, 0, 234⟩, ⟨16, 0, 288⟩], [⟨4, 1, 396⟩, ⟨7, 1, 450⟩, ⟨10, 1,
  504⟩, ⟨13, 1, 558⟩, ⟨16, 1, 612⟩], [⟨4, 2, 720⟩, ⟨7, 2, 774⟩, ⟨10, 2, 828⟩, ⟨13, 2, 882⟩, ⟨16,
  2, 936⟩], [⟨5, 0, 90⟩, ⟨8, 0, 144⟩, ⟨11, 0, 198⟩, ⟨14, 0, 252⟩, ⟨17, 0, 306⟩], [⟨5, 1, 414⟩,
  ⟨8, 1, 468⟩, ⟨11, 1, 522⟩, ⟨14, 1, 576⟩, ⟨17, 1, 630⟩], [⟨5, 2, 738⟩, ⟨8, 2, 792⟩, ⟨11, 2,
  846⟩, ⟨14, 2, 900⟩, ⟨17, 2, 954⟩]], [[⟨0, 0, 0⟩], [⟨0, 1, 324⟩], [⟨0, 2, 648⟩], [⟨1, 0, 1⟩],
  [⟨1, 1, 325⟩], [⟨1, 2, 649⟩], [⟨2, 0, 2⟩], [⟨2, 1, 326⟩], [⟨2, 2, 650⟩], [⟨3, 0, 3⟩, ⟨6, 0, 6⟩,
  ⟨9, 0, 9⟩, ⟨12, 0, 12⟩, ⟨15, 0, 15⟩], [⟨3, 1, 327⟩, ⟨6, 1, 330⟩, ⟨9, 1, 333⟩, ⟨12, 1, 336⟩,
  ⟨15, 1, 339⟩], [⟨3, 2, 651⟩, ⟨6, 2, 654⟩, ⟨9, 2, 657⟩, ⟨12, 2, 660⟩, ⟨15, 2, 663⟩], [⟨4, 0, 4⟩,
  ⟨7, 0, 7⟩, ⟨10, 0, 10⟩, ⟨13, 0, 13⟩, ⟨16, 0, 16⟩], [⟨4, 1, 328⟩, ⟨7, 1, 331⟩, ⟨10, 1, 334⟩,
  ⟨13, 1, 337⟩, ⟨16, 1, 340⟩], [⟨4, 2, 652⟩, ⟨7, 2, 655⟩, ⟨10, 2, 658⟩, ⟨13, 2, 661⟩, ⟨16, 2,
  664⟩], [⟨5, 0, 5⟩, ⟨8, 0, 8⟩, ⟨11, 0, 11⟩, ⟨14, 0, 14⟩, ⟨17, 0, 17⟩], [⟨5, 1, 329⟩, ⟨8, 1,
  332⟩, ⟨11, 1, 335⟩, ⟨14, 1, 338⟩, ⟨17, 1, 341⟩], [⟨5, 2, 653⟩, ⟨8, 2, 656⟩, ⟨11, 2, 659⟩, ⟨14,
  2, 662⟩, ⟨17, 2, 665⟩]]⟩⟩

def plan23 : Plan := ⟨3, 77, 59, 15, 64, [gram30, gram31], [gram32], []⟩

/-- For the listed programs. -/
def hard23' (h : List Hard) : Plan := ⟨3, 77, 59, 15, 64, [], [], h⟩

/-- A listed program. -/
structure Listed where
  key : Nat
  prog : Table

noncomputable def known (key : Nat) (t : Table) (ps : List Listed) : Bool :=
  @List.rec Listed (fun _ => Bool) false
    (fun x _ ih => pick (Nat.beq x.1 key) (decide (x.2 = t)) ih) ps

theorem known_spec {key : Nat} {t : Table} {ps : List Listed} (h : known key t ps = true) :
    ∃ x ∈ ps, x.prog = t := by
  induction ps with
  | nil => cases h
  | cons x ps ih =>
    have h' : pick (Nat.beq x.1 key) (decide (x.2 = t)) (known key t ps) = true := h
    cases hk : Nat.beq x.1 key with
    | true =>
      rw [hk] at h'
      exact ⟨x, List.mem_cons_self .., of_decide_eq_true h'⟩
    | false =>
      rw [hk] at h'
      obtain ⟨y, hy, hyt⟩ := ih h'
      exact ⟨y, List.mem_cons_of_mem _ hy, hyt⟩

/-- Listed, or dealt with. -/
noncomputable def easy (ps : List Listed) (t : Table) : Bool :=
  pick (known (keyOf t) t ps) true (checkAs plan23 rows23 t)

/-- The listed programs are dealt with by the pairs. -/
def Done (ps : List Listed) (h : List Hard) : Prop :=
  (hard23' h).ok = true ∧ (ps.all fun x => checkAs (hard23' h) rows23 x.prog) = true

theorem plan23_ok : plan23.ok = true := by decide +kernel

/-- The programs of a list are dealt with. -/
def AllDone (l : List Table) : Prop :=
  ∀ t ∈ l, ∃ P : Plan, P.k = 3 ∧ P.blanks = 77 ∧ P.spins = 59 ∧ P.ok = true ∧
    checkAs P rows23 t = true

theorem allDone_of {l : List Table} (cs : List (List Listed)) (hc : ∀ c ∈ cs, ∃ h, Done c h)
    (he : l.all (easy cs.flatten) = true) : AllDone l := by
  intro t ht
  have h := List.all_eq_true.1 he t ht
  rw [easy] at h
  cases hk : known (keyOf t) t cs.flatten with
  | true =>
    obtain ⟨x, hx, rfl⟩ := known_spec hk
    obtain ⟨c, hc', hxc⟩ := List.mem_flatten.1 hx
    obtain ⟨hs, hok, hall⟩ := hc c hc'
    exact ⟨_, rfl, rfl, rfl, hok, List.all_eq_true.1 hall x hxc⟩
  | false =>
    rw [hk] at h
    exact ⟨_, rfl, rfl, rfl, plan23_ok, h⟩

/-- The part of the tree with one more instruction given. -/
def child (i j : Instr) : List Table :=
  match rsRunUndef (twoInstrs i).get? 38 1 Tape.initStepped with
  | (.undef slot, tape) => branch 38 2 3 3 j ((twoInstrs i).insert slot j) slot.1 tape 2 3
  | _ => []

def open' (i : Instr) : Bool :=
  match rsRunUndef (twoInstrs i).get? 38 1 Tape.initStepped with
  | (.undef _, _) => true
  | _ => false

theorem allDone_full {i : Instr} (ho : open' i = true)
    (h : ∀ j ∈ makeInstrs 2 3, AllDone (child i j)) : AllDone (fullPart 2 3 38 i) := by
  intro t ht
  have e : fullPart 2 3 38 i = branch 38 2 3 (3 + 1) i (twoInstrs i) 1 Tape.initStepped 2 3 := rfl
  rw [e, branch] at ht
  simp only [open'] at ho
  simp only [child] at h
  split at ht
  · next slot tape hr =>
    simp only [hr] at h
    simp only [Nat.lt_irrefl, false_and, if_false, List.mem_flatMap,
      show (3 = 0) = False by simp] at ht
    obtain ⟨j, hj, ht⟩ := ht
    exact h j hj t ht
  · next hr =>
    split at ho
    · next h1 => exact absurd h1 (hr _ _)
    · cases ho

theorem kids : makeInstrs 2 3 = [(0, false, 0), (0, false, 1), (0, true, 0), (0, true, 1), (1, false, 0), (1, false, 1), (1, true, 0), (1, true, 1), (2, false, 0), (2, false, 1), (2, true, 0), (2, true, 1)] := rfl

end BB.Records
