import Verif.Lemmas.CStmtSim
import Verif.Lemmas.StructuredText

/-!
# C68: the structured programs follow their machines

`/repo/machines/structured/*.c`.  The statements are about `parse`, `start` and `run` of `Spec/CStmt`
(C with loops) and about the machine of the table of a file.
-/

namespace BB
namespace CS

/-! ### The files -/

/-- The files that follow the machine of their table. -/
def plain : List File :=
  [f1434, f15721562, f21, f2315619, f2333909, f2819, f31315, f32779477, f34, f47176870, f66345, f9340]

/-- The files that return at once. -/
def skipped : List File := [f455790469742, f455790469746, f7021292621]

/-- `  return 0;  // takes too long` -/
def returnLine : List Char :=
  [' ', ' ', 'r', 'e', 't', 'u', 'r', 'n', ' ', '0', ';', ' ', ' ', '/', '/', ' ', 't', 'a', 'k', 'e',
   's', ' ', 't', 'o', 'o', ' ', 'l', 'o', 'n', 'g']

/-- A text without the lines like that. -/
def withoutReturn (text : List Char) : List Char :=
  ((C.lines text).filter (· ≠ returnLine)).flatMap (· ++ ['\n'])

/-- What `3932964.c` does at B3: it does not write. -/
def tab3932964 : List (List (Option Instr)) :=
  [[some (1, true, 1), some (2, false, 0), some (1, true, 0), some (1, true, 0)],
    [some (1, false, 1), some (1, false, 0), some (3, true, 1), some (3, true, 7)]]

/-- The files that follow a machine: the first twelve, three without the line `return 0`, and one with
another entry in the table. -/
def followers : List File :=
  plain ++ skipped.map (fun F => { F with text := withoutReturn F.text }) ++
    [{ f3932964 with tab := tab3932964 }]

/-- The whole list of files is covered. -/
example : ∀ F ∈ files, F.limit ∈ followers.map File.limit := by
  decide

def File.follows (F : File) : Bool := (parse F.text).any fun r => CS.follows r.2 F.tab F.checks 2

theorem follows1434 : f1434.follows = true := by
  unfold File.follows
  rw [f1434_text]
  decide +kernel

theorem follows15721562 : f15721562.follows = true := by
  unfold File.follows
  rw [f15721562_text]
  decide +kernel

theorem follows21 : f21.follows = true := by
  unfold File.follows
  rw [f21_text]
  decide +kernel

theorem follows2315619 : f2315619.follows = true := by
  unfold File.follows
  rw [f2315619_text]
  decide +kernel

theorem follows2333909 : f2333909.follows = true := by
  unfold File.follows
  rw [f2333909_text]
  decide +kernel

theorem follows2819 : f2819.follows = true := by
  unfold File.follows
  rw [f2819_text]
  decide +kernel

theorem follows31315 : f31315.follows = true := by
  unfold File.follows
  rw [f31315_text]
  decide +kernel

theorem follows32779477 : f32779477.follows = true := by
  unfold File.follows
  rw [f32779477_text]
  decide +kernel

theorem follows34 : f34.follows = true := by
  unfold File.follows
  rw [f34_text]
  decide +kernel

theorem follows47176870 : f47176870.follows = true := by
  unfold File.follows
  rw [f47176870_text]
  decide +kernel

theorem follows66345 : f66345.follows = true := by
  unfold File.follows
  rw [f66345_text]
  decide +kernel

theorem follows9340 : f9340.follows = true := by
  unfold File.follows
  rw [f9340_text]
  decide +kernel

theorem follows455790469742 : File.follows { f455790469742 with text := withoutReturn f455790469742.text } = true := by
  unfold File.follows
  rw [f455790469742_text]
  decide +kernel

theorem follows455790469746 : File.follows { f455790469746 with text := withoutReturn f455790469746.text } = true := by
  unfold File.follows
  rw [f455790469746_text]
  decide +kernel

theorem follows7021292621 : File.follows { f7021292621 with text := withoutReturn f7021292621.text } = true := by
  unfold File.follows
  rw [f7021292621_text]
  decide +kernel

theorem follows3932964 : File.follows { f3932964 with tab := tab3932964 } = true := by
  unfold File.follows
  rw [f3932964_text]
  decide +kernel

theorem followers_follow : ∀ F ∈ followers, F.follows = true := by
  intro F hF
  simp only [followers, plain, skipped, List.map_cons, List.map_nil, List.cons_append, List.nil_append,
    List.mem_cons, List.not_mem_nil, or_false] at hF
  rcases hF with rfl | rfl | rfl | rfl | rfl | rfl | rfl | rfl | rfl | rfl | rfl | rfl | rfl | rfl | rfl | rfl
  · exact follows1434
  · exact follows15721562
  · exact follows21
  · exact follows2315619
  · exact follows2333909
  · exact follows2819
  · exact follows31315
  · exact follows32779477
  · exact follows34
  · exact follows47176870
  · exact follows66345
  · exact follows9340
  · exact follows455790469742
  · exact follows455790469746
  · exact follows7021292621
  · exact follows3932964

theorem File.follows_parse {F : File} (h : F.follows = true) :
    ∃ len main, parse F.text = some (len, main) ∧ CS.follows main F.tab F.checks 2 = true := by
  unfold File.follows at h
  rw [Option.any_eq_true_iff_get] at h
  obtain ⟨h1, h2⟩ := h
  exact ⟨_, _, (Option.some_get h1).symm, h2⟩

/-! ### Runs -/

section
variable {main : Stmt} {len limit : Nat}

/-- The program is not running any more. -/
def Res.final : Res → Prop
  | .next _ => False
  | _ => True

theorem run_final {s : St} : ∀ {j : Nat} (i : Nat), (run main len limit j s).final →
    run main len limit (j + i) s = run main len limit j s := by
  intro j
  induction j generalizing s with
  | zero => intro i h; exact h.elim
  | succ j ih =>
    intro i h
    rw [Nat.succ_add]
    unfold run at h ⊢
    cases hs : step main len limit s with
    | next s' => rw [hs] at h; exact ih i h
    | exit | abort | ub | stuck => rfl

theorem run_det {s : St} {j j' : Nat} (h : (run main len limit j s).final)
    (h' : (run main len limit j' s).final) : run main len limit j s = run main len limit j' s := by
  rw [← run_final j' h, ← run_final j h', Nat.add_comm]

theorem toH_steps {m : Mem} {s' : St} (h : toH main m = .next s') : s'.mem.steps = m.steps := by
  unfold toH at h
  split at h
  · cases h; rfl
  · cases h

theorem step_steps {s s' : St} (h : step main len limit s = .next s') :
    s'.mem.steps ≤ s.mem.steps + 1 := by
  unfold step at h
  simp only at h
  split at h
  · cases h
  · rename_i a c k _
    cases a with
    | pass => cases h; exact Nat.le_succ _
    | test => simp only at h; split at h <;> cases h; exact Nat.le_succ _
    | write x => simp only at h; split at h <;> cases h; exact Nat.le_succ _
    | shift d =>
      simp only at h
      split at h
      · rw [toH_steps h]; exact Nat.le_refl _
      · cases h; exact Nat.le_refl _
    | recur d =>
      simp only at h
      split at h
      · rw [toH_steps h]; exact Nat.le_succ _
      · cases h; exact Nat.le_succ _
    | check => simp only at h; split at h <;> cases h; exact Nat.le_succ _
    | exit => cases h

theorem run_steps {s s' : St} : ∀ {j : Nat}, run main len limit j s = .next s' →
    s'.mem.steps ≤ s.mem.steps + j := by
  intro j
  induction j generalizing s with
  | zero => intro h; cases h; exact Nat.le_refl _
  | succ j ih =>
    intro h
    unfold run at h
    cases hs : step main len limit s with
    | next s1 =>
      rw [hs] at h
      have h1 := step_steps hs
      have h2 := ih h
      omega
    | exit | abort | ub | stuck => rw [hs] at h; cases h

end

/-! ### The property -/

/-- C68: as long as the machine does not stop and stays on the array, the program is, after as many
steps, where the machine is. -/
theorem C68_follows_partial (F : File) (hF : F ∈ followers) (limit : Nat) :
    ∃ len main, parse F.text = some (len, main) ∧
      ∀ n c, runFor (ofTable F.tab) n initCfg = some c → StaysIn len (ofTable F.tab) n →
        (∀ k, k < n → ¬ Stops F.checks (ofTable F.tab) k) → ¬ ErasesAt (ofTable F.tab) n →
        ∃ j s, run main len limit j (start main len) = .next s ∧ s.mem.steps = n ∧
          s.mem.pos = (len / 2 : Nat) + c.pos ∧ ∀ x, s.mem.tape ((len / 2 : Nat) + x) = c.tape x := by
  obtain ⟨len, main, hp, hf⟩ := File.follows_parse (followers_follow F hF)
  refine ⟨len, main, hp, fun n c hc hin hno her => ?_⟩
  obtain ⟨ht, hK, -, R, h0, hR⟩ := follows_sound hf
  obtain ⟨s, -, m, ⟨j, hj⟩, hsim, -⟩ := at_all (limit := limit) hR ht hK h0 n hc hin hno her
  exact ⟨j, _, hj, hsim.steps, hsim.pos, hsim.tape⟩

/-- C68: if the first stop of the machine is after `n` moves, on the array, the program ends after `n`
steps, and its assertion holds if and only if `n` is `XLIMIT`. -/
theorem C68_ends_partial (F : File) (hF : F ∈ followers) (limit : Nat) :
    ∃ len main, parse F.text = some (len, main) ∧
      ∀ n, Stops F.checks (ofTable F.tab) n → (∀ k, k < n → ¬ Stops F.checks (ofTable F.tab) k) →
        StaysIn len (ofTable F.tab) n →
        (∃ j, run main len limit j (start main len) = if n = limit then .exit n else .abort n) ∧
        ((∃ j k, run main len limit j (start main len) = .exit k) ↔ n = limit) := by
  obtain ⟨len, main, hp, hf⟩ := File.follows_parse (followers_follow F hF)
  refine ⟨len, main, hp, fun n h1 h2 h3 => ?_⟩
  obtain ⟨j, hj⟩ := ends (limit := limit) hf n h1 h2 h3
  refine ⟨⟨j, hj⟩, ?_, ?_⟩
  · rintro ⟨j', k, hk⟩
    by_contra hn
    rw [if_neg hn] at hj
    have := run_det (j := j) (j' := j') (by rw [hj]; trivial) (by rw [hk]; trivial)
    rw [hj, hk] at this
    cases this
  · rintro rfl
    rw [if_pos rfl] at hj
    exact ⟨j, n, hj⟩

/-- C68: if the machine goes on without a stop, on the array, so does the program. -/
theorem C68_runs_on_partial (F : File) (hF : F ∈ followers) (limit : Nat) :
    ∃ len main, parse F.text = some (len, main) ∧
      (NeverHalts (ofTable F.tab) initCfg → (∀ n, ¬ Stops F.checks (ofTable F.tab) n) →
        (∀ n, StaysIn len (ofTable F.tab) n) →
        ∀ j, ∃ s, run main len limit j (start main len) = .next s) := by
  obtain ⟨len, main, hp, hall⟩ := C68_follows_partial F hF limit
  refine ⟨len, main, hp, fun hnev hno hin j => ?_⟩
  obtain ⟨c, hc⟩ := Option.isSome_iff_exists.1 (hnev (j + 1))
  obtain ⟨i, s, hi, hs, -⟩ := hall (j + 1) c hc (hin _) (fun k _ => hno k)
    fun he => hno _ (.inl he)
  have hle := run_steps hi
  rw [hs, show (start main len).mem.steps = 0 from rfl] at hle
  cases hr : run main len limit j (start main len) with
  | next s => exact ⟨s, rfl⟩
  | exit | abort | ub | stuck =>
    exfalso
    have := run_final (j := j) (i - j) (by rw [hr]; trivial)
    rw [show j + (i - j) = i by omega, hi, hr] at this
    cases this

/-- `#define PROGRAM "` -/
def definePrefix : List Char :=
  ['#', 'd', 'e', 'f', 'i', 'n', 'e', ' ', 'P', 'R', 'O', 'G', 'R', 'A', 'M', ' ', '"']

/-- The tables are those of the lines `#define PROGRAM`. -/
theorem C68_tables :
    (∀ F ∈ [f1434, f15721562, f2315619, f2333909, f2819, f3932964, f455790469742, f455790469746,
        f7021292621],
      (C.lines F.text).head? = some (definePrefix ++ tableText (if F.limit = 3932964 then 'H' else '_')
        F.tab ++ ['"'])) ∧
    (C.lines f9340.text).head? = some (definePrefix ++ tableText '_' prog9340 ++ ['"']) ∧
    f9340.tab.drop 5 = prog9340.map (·.map (·.map fun i => (i.1, i.2.1, i.2.2 + 5))) := by
  refine ⟨?_, ?_, rfl⟩
  · intro F hF
    simp only [List.mem_cons, List.not_mem_nil, or_false] at hF
    rcases hF with rfl | rfl | rfl | rfl | rfl | rfl | rfl | rfl | rfl
    · rw [f1434_text]; decide +kernel
    · rw [f15721562_text]; decide +kernel
    · rw [f2315619_text]; decide +kernel
    · rw [f2333909_text]; decide +kernel
    · rw [f2819_text]; decide +kernel
    · rw [f3932964_text]; decide +kernel
    · rw [f455790469742_text]; decide +kernel
    · rw [f455790469746_text]; decide +kernel
    · rw [f7021292621_text]; decide +kernel
  · rw [f9340_text]; decide +kernel

/-! ### Violations -/

/-- Three programs return before the first statement: `make test` says nothing about them. -/
theorem C68_skipped (F : File) (hF : F ∈ skipped) (limit : Nat) :
    ∃ len main j, parse F.text = some (len, main) ∧ run main len limit j (start main len) = .exit 0 := by
  have key : (parse F.text).any (fun r => match r.2 with | .seq .ret _ => true | _ => false) = true := by
    simp only [skipped, List.mem_cons, List.not_mem_nil, or_false] at hF
    rcases hF with rfl | rfl | rfl
    · rw [f455790469742_text]; decide +kernel
    · rw [f455790469746_text]; decide +kernel
    · rw [f7021292621_text]; decide +kernel
  cases hp : parse F.text with
  | none => rw [hp] at key; cases key
  | some r =>
    obtain ⟨len, main⟩ := r
    rw [hp, Option.any_some] at key
    refine ⟨len, main, 2, rfl, ?_⟩
    simp only at key
    split at key
    · rfl
    · cases key

/-- The machines of `3932964.c` and of its table are together up to B3. -/
theorem run3932964 {n : Nat} {c : Cfg} (h : runFor (ofTable f3932964.tab) n initCfg = some c)
    (hs : c.slot = (1, 3)) : ∀ k, k ≤ n →
      runFor (ofTable tab3932964) k initCfg = runFor (ofTable f3932964.tab) k initCfg := by
  have hsame : ∀ s, s ≠ (1, 3) → ofTable tab3932964 s = ofTable f3932964.tab s := by
    rintro ⟨q, x⟩ hne
    rcases q with _ | _ | q
    · rfl
    · rcases x with _ | _ | _ | _ | x
      · rfl
      · rfl
      · rfl
      · exact absurd rfl hne
      · rfl
    · rfl
  intro k
  induction k with
  | zero => intro _; rfl
  | succ k ih =>
    intro hk
    rw [runFor_succ', runFor_succ', ih (by omega)]
    cases hd : runFor (ofTable f3932964.tab) k initCfg with
    | none => rfl
    | some d =>
      simp only [Option.bind_some]
      by_cases hds : d.slot = (1, 3)
      · exfalso
        have h1 : runFor (ofTable f3932964.tab) (k + 1) initCfg = some (d.exec (1, true, 7)) := by
          rw [runFor_succ', hd, Option.bind_some, step_some (by rw [hds]; rfl)]
        have h7 : (d.exec (1, true, 7)).state = 7 := rfl
        rcases Nat.lt_or_ge (k + 1) n with hlt | hge
        · have h2 : runFor (ofTable f3932964.tab) (k + 2) initCfg = none := by
            rw [runFor_succ', h1, Option.bind_some, step_none (by
              rw [Cfg.slot, h7]; exact ofTable_seven (by decide) _)]
          rw [show n = (k + 2) + (n - (k + 2)) by omega, runFor_add, h2] at h
          cases h
        · obtain rfl : n = k + 1 := by omega
          rw [h1] at h
          cases h
          exact absurd (show (7 : Nat) = 1 from congrArg Prod.fst hs) (by decide)
      · unfold BB.step
        rw [hsame _ hds]

/-- `3932964.c` does not write 1 at B3, as its table says: when the machine halts from there, the cell
is 1 for the machine and 3 for the program. -/
theorem C68_b3_violation (limit : Nat) :
    ∃ len main, parse f3932964.text = some (len, main) ∧
      ∀ n c, runFor (ofTable f3932964.tab) n initCfg = some c → c.slot = (1, 3) →
        StaysIn len (ofTable f3932964.tab) (n + 1) →
        (∀ k, k ≤ n → ¬ ErasesAt (ofTable f3932964.tab) k) →
        (∃ e, runFor (ofTable f3932964.tab) (n + 1) initCfg = some e ∧ e.tape c.pos = 1) ∧
        ∃ j s, run main len limit j (start main len) = .next s ∧ s.mem.steps = n + 1 ∧
          s.mem.tape ((len / 2 : Nat) + c.pos) = 3 := by
  obtain ⟨len, main, hp, hall⟩ := C68_follows_partial { f3932964 with tab := tab3932964 }
    (by simp [followers]) limit
  simp only at hp hall
  refine ⟨len, main, hp, fun n c hc hs hin her => ?_⟩
  have heq := run3932964 hc hs
  have hm : runFor (ofTable f3932964.tab) (n + 1) initCfg = some (c.exec (1, true, 7)) := by
    rw [runFor_succ', hc, Option.bind_some, step_some (by rw [hs]; rfl)]
  have hm' : runFor (ofTable tab3932964) (n + 1) initCfg = some (c.exec (3, true, 7)) := by
    rw [runFor_succ', heq n (Nat.le_refl _), hc, Option.bind_some, step_some (by rw [hs]; rfl)]
  refine ⟨⟨_, hm, by simp [Cfg.exec]⟩, ?_⟩
  have hA : StaysIn len (ofTable tab3932964) (n + 1) := by
    intro k d hk hd
    rcases Nat.lt_or_ge n k with hlt | hge
    · obtain rfl : k = n + 1 := by omega
      rw [hm'] at hd
      cases hd
      exact hin (n + 1) (c.exec (1, true, 7)) (Nat.le_refl _) hm
    · rw [heq k hge] at hd
      exact hin k d (by omega) hd
  have hB : ∀ k, k < n + 1 → ¬ Stops f3932964.checks (ofTable tab3932964) k := by
    rintro k hk (⟨h1, d, hd, hb⟩ | ⟨x, d, hd, hsl, -⟩ | ⟨h1, -⟩)
    · rw [heq k (by omega)] at hd
      exact her k (by omega) ⟨h1, d, hd, hb⟩
    · have hd' := hd
      rw [heq k (by omega)] at hd'
      have h7 : ofTable f3932964.tab d.slot = none := by
        rw [hsl]; exact ofTable_seven (by decide) _
      rcases Nat.lt_or_ge k n with hlt | hge
      · have h2 : runFor (ofTable f3932964.tab) (k + 1) initCfg = none := by
          rw [runFor_succ', hd', Option.bind_some, step_none h7]
        rw [show n = (k + 1) + (n - (k + 1)) by omega, runFor_add, h2] at hc
        cases hc
      · obtain rfl : k = n := by omega
        rw [hc] at hd'
        cases hd'
        rw [hs] at hsl
        exact absurd (show (1 : Nat) = 7 from congrArg Prod.fst hsl) (by decide)
    · cases h1
  have hC : ¬ ErasesAt (ofTable tab3932964) (n + 1) := by
    rintro ⟨-, d, hd, hb⟩
    rw [hm'] at hd
    cases hd
    have := hb c.pos
    simp [Cfg.exec] at this
  obtain ⟨j, s, h1, h2, -, h4⟩ := hall (n + 1) _ hm' hA hB hC
  exact ⟨j, s, h1, h2, (h4 c.pos).trans (by simp [Cfg.exec])⟩

end CS
end BB
