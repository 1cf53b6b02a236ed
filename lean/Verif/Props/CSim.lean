import Verif.Lemmas.CSimText
import Verif.Lemmas.IdrisRun
import Verif.Lemmas.SpinSettle

/-!
# C67: the C simulators report the programs that stop

`/repo/machines/2-2.c`, `2-3.c`, `2-4.c`, `3-2.c`, `4-2.c`, `5-2.c`.  The statements are about
`RunsRight`, `Reports`, `reportLines` and `simText` of `Spec/Sim`; `session` is what the program does
with its input, `n` and `k` bound the numbers of instructions per program and of programs.
-/

namespace BB
namespace CSim

/-- The six programs. -/
def files : List File := [f22, f23, f24, f32, f42, f52]

theorem files_ok : ∀ F ∈ files, F.Ok := by
  intro F hF
  simp only [files, List.mem_cons, List.not_mem_nil, or_false] at hF
  rcases hF with rfl | rfl | rfl | rfl | rfl | rfl <;>
    exact ⟨by decide, by decide, by decide⟩

/-- C67, for programs of which the head does not just go right until the limit: each line is read as
the program it is the text of, the lines printed are those of the programs with something to report
before the limit, with their numbers, and the session ends.  Missing: programs that go right all the
time (`C67_overrun`), and that the number of steps is the number of moves (`C67_late`). -/
theorem C67_session_partial (F : File) (hF : F ∈ files) (Ps : List (Nat → Nat → Instr))
    (hfit : ∀ P ∈ Ps, ProgFits F.states F.colors P)
    (hright : ∀ P ∈ Ps, ¬ RunsRight (machine F.states F.colors P) F.limit)
    (hlen : Ps.length < 4294967296) (n k : Nat) (hn : F.limit < n) (hk : Ps.length < k) :
    ∃ rs : List (Option (Nat × Nat)),
      List.Forall₂ (fun P r => ∀ s m, r = some (s, m) ↔
        Reports (fun q => if F.colors = 4 ∧ q = 1 then 0 else 1) (machine F.states F.colors P) s m ∧
          s < F.limit) Ps rs ∧
      session F n k (sed (Ps.map (simText F.states F.colors))) =
        (reportLines F.states F.colors 0 Ps rs ++ ["done".toList], .done) := by
  have hok := files_ok F hF
  have hextra : F.extra = fun q => if F.colors = 4 ∧ q = 1 then 0 else 1 := by
    funext q
    simp only [files, List.mem_cons, List.not_mem_nil, or_false] at hF
    rcases hF with rfl | rfl | rfl | rfl | rfl | rfl <;> simp [File.extra, f22, f23, f24, f32, f42, f52]
  obtain ⟨j, rfl⟩ : ∃ j, k = Ps.length + (j + 1) := ⟨k - Ps.length - 1, by omega⟩
  obtain ⟨rs, w, h1, -, h2⟩ := main_spec hok hn [] Ps (j + 1) 0 (start F) hfit hright (by omega)
    start_clean
  refine ⟨rs, ?_, ?_⟩
  · have := h1
    unfold IsReport at this
    rw [hextra] at this
    exact this
  · rw [List.append_nil, main_end] at h2
    exact h2

/-- If the head of one of the programs just goes right until the limit, the session is undefined: the
programs before it are as they should be, then memory after `TAPE` is written (or read). -/
theorem C67_overrun (F : File) (hF : F ∈ files) (Ps Qs : List (Nat → Nat → Instr))
    (P : Nat → Nat → Instr) (hfit : ∀ Q ∈ Ps ++ P :: Qs, ProgFits F.states F.colors Q)
    (hright : ∀ Q ∈ Ps, ¬ RunsRight (machine F.states F.colors Q) F.limit)
    (hP : RunsRight (machine F.states F.colors P) F.limit)
    (hlen : Ps.length < 4294967296) (n k : Nat) (hn : F.limit < n) (hk : Ps.length < k) :
    (session F n k (sed ((Ps ++ P :: Qs).map (simText F.states F.colors)))).2 = .ub := by
  have hok := files_ok F hF
  obtain ⟨j, rfl⟩ : ∃ j, k = Ps.length + (j + 1) := ⟨k - Ps.length - 1, by omega⟩
  obtain ⟨rs, w, -, hw, h2⟩ := main_spec hok hn (sed (texts F (P :: Qs))) Ps (j + 1) 0 (start F)
    (fun Q hQ => hfit Q (by simp [hQ])) hright (by omega) start_clean
  have hsplit : sed ((Ps ++ P :: Qs).map (simText F.states F.colors)) =
      sed (texts F Ps) ++ sed (texts F (P :: Qs)) := by
    simp [sed, texts]
  have hbad := main_bad hok (hfit P (by simp)) hP hn hw j (0 + Ps.length) Qs []
  rw [List.append_nil] at hbad
  unfold session
  rw [hsplit, h2, hbad]

/-- A last line that does not end is not looked at. -/
theorem C67_last_line (F : File) (hF : F ∈ files) (P : Nat → Nat → Instr)
    (hP : ProgFits F.states F.colors P) (n k : Nat) :
    session F n (k + 1) (sedLine (simText F.states F.colors P)) = (["done".toList], .done) :=
  main_last (files_ok F hF) hP n k 0 _

/-! ## What a report means -/

/-- Cells where the head has not been are blank. -/
theorem unvisited_blank {p : Prog} {n : Nat} {d : Cfg} (h : runFor p n initCfg = some d) (x : Int)
    (hx : ∀ m e, m ≤ n → runFor p m initCfg = some e → e.pos ≠ x) : d.tape x = 0 := by
  induction n generalizing d with
  | zero => cases h; rfl
  | succ n ih =>
    rw [runFor_succ'] at h
    obtain ⟨c, hc, h⟩ := Option.bind_eq_some_iff.1 h
    simp only [step] at h
    obtain ⟨i, -, rfl⟩ := Option.map_eq_some_iff.1 h
    simp only [Cfg.exec]
    rw [if_neg fun e => hx n c (by omega) hc e.symm]
    exact ih hc fun m e hm => hx m e (by omega)

/-- The head stays on its side of a cell where it is not. -/
theorem same_side {p : Prog} {n : Nat} {d : Cfg} (h : runFor p n initCfg = some d) {y : Int}
    (hy : ∀ m e, m ≤ n → runFor p m initCfg = some e → e.pos ≠ y) :
    (d.pos < y → ∀ m e, m ≤ n → runFor p m initCfg = some e → e.pos < y) ∧
    (y < d.pos → ∀ m e, m ≤ n → runFor p m initCfg = some e → y < e.pos) := by
  induction n generalizing d with
  | zero =>
    cases h
    constructor
    · intro h0 m e hm he
      obtain rfl : m = 0 := by omega
      cases he; exact h0
    · intro h0 m e hm he
      obtain rfl : m = 0 := by omega
      cases he; exact h0
  | succ n ih =>
    have hd := h
    rw [runFor_succ'] at h
    obtain ⟨c, hc, h⟩ := Option.bind_eq_some_iff.1 h
    obtain ⟨ih1, ih2⟩ := ih hc fun m e hm => hy m e (by omega)
    have hcy := hy n c (by omega) hc
    have hstep : d.pos = c.pos + 1 ∨ d.pos = c.pos - 1 := by
      simp only [step] at h
      obtain ⟨i, -, rfl⟩ := Option.map_eq_some_iff.1 h
      simp only [Cfg.exec]
      cases i.2.1 <;> simp
    have hdy := hy (n + 1) d (by omega) hd
    constructor
    · intro h0 m e hm he
      rcases Nat.lt_or_ge n m with hlt | hle
      · obtain rfl : m = n + 1 := by omega
        rw [hd] at he; cases he; exact h0
      · exact ih1 (by omega) m e hle he
    · intro h0 m e hm he
      rcases Nat.lt_or_ge n m with hlt | hle
      · obtain rfl : m = n + 1 := by omega
        rw [hd] at he; cases he; exact h0
      · exact ih2 (by omega) m e hle he

/-- A machine about to leave goes on in the same direction forever. -/
theorem leaves_spins {p : Prog} {n : Nat} (h : LeavesAt p n) :
    ∃ d, runFor p n initCfg = some d ∧ SpinsFrom p d := by
  obtain ⟨d, pr, dir, hd, ht, hi, hv⟩ := h
  refine ⟨d, hd, pr, dir, hi, fun k => ?_⟩
  rcases Nat.eq_zero_or_pos k with rfl | hk
  · cases dir <;> simpa using ht
  · apply unvisited_blank hd
    obtain ⟨h1, h2⟩ := same_side hd hv
    intro m e hm he
    cases dir
    · simp only [Bool.false_eq_true, if_false] at h2 ⊢
      have := h2 (by omega) m e hm he
      omega
    · simp only [if_true] at h1 ⊢
      have := h1 (by omega) m e hm he
      omega

/-- A reported program: with 0 marks the tape is blank after `s` moves, for the first time; otherwise
the machine halts after exactly `s` moves, with `m` marks on the tape, or it never halts, and after
`s` moves or one less there are `m` marks on the tape and one instruction moves the head on forever. -/
theorem C67_meaning (extra : State → Nat) (hex : ∀ q, extra q ≤ 1) (p : Prog)
    (hp : p (0, 0) = some (1, true, 1)) (s m : Nat) (h : Reports extra p s m) :
    (m = 0 → ErasesAt p s ∧ ∀ k, k < s → ¬ ErasesAt p k) ∧
    (m ≠ 0 →
      (∃ t d, HaltsAt p initCfg s t ∧ runFor p s initCfg = some d ∧ MarksAre d m) ∨
      NeverHalts p initCfg ∧ ∃ n d, n ≤ s ∧ s ≤ n + 1 ∧ runFor p n initCfg = some d ∧
        MarksAre d m ∧ SpinsFrom p d) := by
  obtain ⟨n, d, ⟨h1, h2, h3⟩, h4, h5⟩ := h
  have hx := hex d.state
  constructor
  · intro h0
    have hb : d.Blank := (marks_zero_iff h4).1 h0
    have hn0 : n ≠ 0 := by
      rintro rfl
      rcases h2 with ⟨h, -⟩ | ⟨t, d', hd', rfl, ht⟩ | ⟨d', pr, dir, hd', -, hi, -⟩
      · omega
      · cases hd'
        rw [show initCfg.slot = (0, 0) from rfl, hp] at ht
        cases ht
      · cases hd'
        rw [show initCfg.state = 0 from rfl, hp] at hi
        cases hi
    have hn : ErasesAt p n := ⟨by omega, d, h3, hb⟩
    have hns : s = n := by
      rcases h5 with ⟨-, e⟩ | ⟨e1, -, e⟩
      · exact e
      · exact absurd hn e1
    subst hns
    exact ⟨hn, fun k hk hk' => h1 k hk (.inl hk')⟩
  · intro hm
    rcases h5 with ⟨he | ⟨t, ht⟩, rfl⟩ | ⟨e1, e2, rfl⟩
    · obtain ⟨-, d', hd', hb⟩ := he
      rw [h3] at hd'
      cases hd'
      exact absurd ((marks_zero_iff h4).2 hb) hm
    · exact .inl ⟨t, d, ht, h3, h4⟩
    · right
      have hl : LeavesAt p n := by
        rcases h2 with h | h | h
        · exact absurd h e1
        · exact absurd h e2
        · exact h
      obtain ⟨d', hd', hsp⟩ := leaves_spins hl
      rw [h3] at hd'
      cases hd'
      exact ⟨NeverHalts.of_later h3 (Idris.spins_neverHalts hsp), n, d, by omega, by omega, h3, h4, hsp⟩

/-! ## Cases -/

/-- A program from its rows. -/
def ofRows (rows : List (List Instr)) (q c : Nat) : Instr := (rows.getD q []).getD c (0, true, 0)

/-- Output as strings. -/
def shown (r : List (List Char) × End) : List String × End := (r.1.map String.ofList, r.2)

/-- The first lines of `2-2.test`. -/
theorem C67_example :
    shown (session f22 41 5 (sed (["1RB 1LB  1LA 1RH", "1RB 1RH  1LB 1LA", "1RB 0LB  1LA 1RH",
      "1RB 0RA  1LB 1LA"].map String.toList))) =
    (["1 | 1RB 1LB  1LA 1RH | 6 | 4", "2 | 1RB 1RH  1LB 1LA | 6 | 3", "3 | 1RB 0LB  1LA 1RH | 6 | 3",
      "4 | 1RB 0RA  1LB 1LA | 8 | 0", "done"], .done) := by
  decide +kernel

/-- The hypotheses of `C67_session_partial` hold of a program that halts after 6 moves. -/
theorem C67_applies :
    ∃ r : Option (Nat × Nat), session f22 41 2 (sed ["1RB 1LB  1LA 1RH".toList]) =
      (reportLines 2 2 0 [ofRows [[(1, true, 1), (1, false, 1)], [(1, false, 0), (1, true, 7)]]] [r] ++
        ["done".toList], .done) := by
  have hfit : ProgFits 2 2 (ofRows [[(1, true, 1), (1, false, 1)], [(1, false, 0), (1, true, 7)]]) := by
    refine ⟨rfl, ?_, ?_⟩ <;> intro q c hq hc <;> obtain rfl | rfl : q = 0 ∨ q = 1 := (by omega) <;>
      obtain rfl | rfl : c = 0 ∨ c = 1 := (by omega) <;> decide
  obtain ⟨rs, h1, h2⟩ := C67_session_partial f22 (by simp [files])
    [ofRows [[(1, true, 1), (1, false, 1)], [(1, false, 0), (1, true, 7)]]]
    (fun P hP => by obtain rfl := List.mem_singleton.1 hP; exact hfit) (by
      rintro P hP ⟨⟨d, hd, -⟩, -⟩
      obtain rfl := List.mem_singleton.1 hP
      have : runFor (machine 2 2 (ofRows [[(1, true, 1), (1, false, 1)],
        [(1, false, 0), (1, true, 7)]])) 40 initCfg = none := by decide +kernel
      have hd : runFor (machine 2 2 (ofRows [[(1, true, 1), (1, false, 1)],
        [(1, false, 0), (1, true, 7)]])) 40 initCfg = some d := hd
      rw [this] at hd
      cases hd) (by decide) 41 2 (by decide) (by decide)
  cases h1 with
  | cons h1 h3 =>
    cases h3
    exact ⟨_, h2⟩

/-- The head of a program of `2-2.c` that goes right all the time: memory after `TAPE` is written. -/
theorem C67_overrun_violation :
    session f22 41 2 (sed ["1RB 1RB  1RA 1RA".toList]) = ([], .ub) := by
  decide +kernel

/-- The first program of `3-2.test`. -/
def first32 : Nat → Nat → Instr :=
  ofRows [[(1, true, 1), (0, false, 1)], [(1, false, 0), (0, true, 2)], [(1, false, 2), (1, false, 0)]]

/-- It spins out after 55 moves, with 6 marks on the tape; `3-2.c` prints 57 and 7. -/
theorem C67_late :
    (∃ d, runFor (machine 3 2 first32) 55 initCfg = some d ∧ SpinsFrom (machine 3 2 first32) d ∧
      MarksAre d 6) ∧
    simText 3 2 first32 = "1RB 0LB  1LA 0RC  1LC 1LA".toList ∧
    shown (session f32 65537 2 (sed [simText 3 2 first32])) =
      (["1 | 1RB 0LB  1LA 0RC  1LC 1LA | 57 | 7", "done"], .done) := by
  refine ⟨?_, by decide +kernel, by decide +kernel⟩
  have hrun : (runFor (machine 3 2 first32) 55 initCfg).map (fun d => (d.state, d.pos,
      (List.range 120).map fun k : Nat => d.tape ((k : Int) - 60))) =
      some (2, -3, (List.range 120).map fun k => if 58 ≤ k ∧ k ≤ 63 then 1 else 0) := by
    decide +kernel
  obtain ⟨d, hd, he⟩ := Option.map_eq_some_iff.1 hrun
  obtain ⟨h1, he⟩ := Prod.mk.inj he
  obtain ⟨h2, he⟩ := Prod.mk.inj he
  have hcell : ∀ x : Int, d.tape x = if -2 ≤ x ∧ x ≤ 3 then 1 else 0 := by
    intro x
    by_cases hx : -60 ≤ x ∧ x < 60
    · have := List.map_inj_left.1 he (x + 60).toNat (List.mem_range.2 (by omega))
      rw [show ((x + 60).toNat : Int) - 60 = x by omega] at this
      rw [this]
      split <;> split <;> first | rfl | omega
    · rw [if_neg (by omega)]
      exact (runFor_far 55 d hd).2 x (by omega)
  refine ⟨d, hd, ⟨1, false, by rw [h1]; decide +kernel, fun k => ?_⟩, ?_⟩
  · rw [hcell, h2]
    simp only [Bool.false_eq_true, if_false]
    rw [if_neg (by omega)]
  · refine ⟨[-2, -1, 0, 1, 2, 3], by decide, fun x => ?_, rfl⟩
    rw [hcell]
    simp only [List.mem_cons, List.not_mem_nil, or_false]
    split
    · exact ⟨fun _ => by decide, fun _ => by omega⟩
    · exact ⟨fun _ => by omega, fun h => absurd rfl h⟩

/-- When the machine leaves, `2-4.c` prints the number of moves and the others one more. -/
theorem C67_one_more :
    shown (session f24 9 2 (sed ["1RB 1LA 1LA 1LA  1RB 1LA 1LA 1LA".toList])) =
      (["1 | 1RB 1LA 1LA 1LA  1RB 1LA 1LA 1LA | 1 | 1", "done"], .done) ∧
    shown (session f23 9 2 (sed ["1RB 1LA 1LA  1RB 1LA 1LA".toList])) =
      (["1 | 1RB 1LA 1LA  1RB 1LA 1LA | 2 | 1", "done"], .done) := by
  decide +kernel

/-- The way the project writes a halt leads outside of the table of labels, and a state that the file
has no label for ends the session. -/
theorem C67_other_texts :
    session f22 41 2 (sed ["1RB 1LB  1LA 1R_".toList]) = ([], .ub) ∧
    session f22 41 2 (sed ["1RB 1LB  1LA ...".toList]) = ([], .ub) ∧
    session f22 41 3 (sed (["1RB 1LB  1LA 1RC", "1RB 1LB  1LA 1RH"].map String.toList)) =
      (["done".toList], .done) := by
  decide +kernel

/-- **C67, `sed`.**  A line with another beginning only loses its blanks. -/
theorem C67_sed (l : List Char) (h : l.take 3 ≠ ['1', 'R', 'B']) : sedLine l = l.filter (· != ' ') := by
  unfold sedLine
  rw [if_neg]
  intro hp
  obtain ⟨r, rfl⟩ := List.isPrefixOf_iff_prefix.1 hp
  exact h rfl

end CSim
end BB
