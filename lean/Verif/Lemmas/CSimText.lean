import Verif.Lemmas.CSimRun

/-! # The C simulators: reading and printing -/

namespace BB
namespace CSim

/-! ## Joining -/

theorem intercalate_concat {α : Type} (sep : List α) (xs : List (List α)) (x : List α)
    (h : xs ≠ []) : sep.intercalate (xs ++ [x]) = sep.intercalate xs ++ (sep ++ x) := by
  induction xs with
  | nil => exact absurd rfl h
  | cons a xs ih =>
    cases xs with
    | nil => simp [List.intercalate]
    | cons b xs =>
      have := ih (by simp)
      simp only [List.intercalate, List.cons_append, List.intersperse_cons_cons, List.flatten_cons]
        at this ⊢
      rw [this]
      simp

theorem intercalate_range {α : Type} (sep : List α) (g : Nat → List α) (n : Nat) :
    sep.intercalate ((List.range n).map g) =
      (List.range n).flatMap fun k => (if k = 0 then [] else sep) ++ g k := by
  induction n with
  | zero => rfl
  | succ n ih =>
    rw [List.range_succ, List.map_append, List.flatMap_append]
    rcases Nat.eq_zero_or_pos n with rfl | hn
    · simp [List.intercalate]
    · rw [List.map_singleton, intercalate_concat _ _ _ (by simp; omega), ih]
      simp [show n ≠ 0 by omega]

theorem flatMap_range_mul {α : Type} (g : Nat → List α) (N K : Nat) :
    (List.range (N * K)).flatMap g =
      (List.range N).flatMap fun q => (List.range K).flatMap fun c => g (q * K + c) := by
  induction N with
  | zero => simp
  | succ N ih =>
    rw [Nat.succ_mul, List.range_add, List.flatMap_append, ih, List.range_succ, List.flatMap_append]
    simp [List.flatMap_map]

theorem flatMap_congr' {α β : Type} {l : List α} {f g : α → List β} (h : ∀ x ∈ l, f x = g x) :
    l.flatMap f = l.flatMap g := by
  induction l with
  | nil => rfl
  | cons a l ih =>
    rw [List.flatMap_cons, List.flatMap_cons, h a (by simp), ih fun x hx => h x (by simp [hx])]

/-- What stands before instruction number `k`. -/
def sepBefore (K k : Nat) : List Char :=
  if k = 0 then [] else if k % K = 0 then [' ', ' '] else [' ']

/-- The text, instruction by instruction. -/
theorem simText_eq {N K : Nat} (hK : 0 < K) (P : Nat → Nat → Instr) :
    simText N K P =
      (List.range (N * K)).flatMap fun k => sepBefore K k ++ instrText (P (k / K) (k % K)) := by
  unfold simText progText rowText
  rw [List.map_map, flatMap_range_mul, intercalate_range]
  apply flatMap_congr'
  intro q _
  simp only [Function.comp]
  rw [intercalate_range]
  obtain ⟨K, rfl⟩ : ∃ j, K = j + 1 := ⟨K - 1, by omega⟩
  rw [List.range_succ_eq_map, List.flatMap_cons, List.flatMap_cons, List.flatMap_map,
    List.flatMap_map]
  have hrest : ∀ c ∈ List.range K,
      (if Nat.succ c = 0 then [] else [' ']) ++ instrText (P q (Nat.succ c)) =
      sepBefore (K + 1) (q * (K + 1) + Nat.succ c) ++
        instrText (P ((q * (K + 1) + Nat.succ c) / (K + 1)) ((q * (K + 1) + Nat.succ c) % (K + 1))) := by
    intro c hc
    have hc := List.mem_range.1 hc
    have e1 : (q * (K + 1) + Nat.succ c) / (K + 1) = q := by
      rw [Nat.mul_comm, Nat.mul_add_div (by omega), Nat.div_eq_of_lt (by omega), Nat.add_zero]
    have e2 : (q * (K + 1) + Nat.succ c) % (K + 1) = Nat.succ c := by
      rw [Nat.mul_comm, Nat.mul_add_mod, Nat.mod_eq_of_lt (by omega)]
    rw [e1, e2]
    unfold sepBefore
    rw [e2]
    simp
  rw [flatMap_congr' hrest, ← List.append_assoc]
  congr 1
  have e1 : (q * (K + 1) + 0) / (K + 1) = q := by
    rw [Nat.add_zero, Nat.mul_div_cancel _ (by omega)]
  have e2 : (q * (K + 1) + 0) % (K + 1) = 0 := by
    rw [Nat.add_zero, Nat.mul_mod_left]
  rw [e1, e2]
  unfold sepBefore
  rw [e2]
  have e3 : (q * (K + 1) + 0 = 0) ↔ q = 0 := by rw [Nat.add_zero, Nat.mul_eq_zero]; omega
  simp only [e3, if_true]
  simp

/-! ## One instruction -/

theorem toNat_ofNat {n : Nat} (h : n < 55296) : (Char.ofNat n).toNat = n := by
  unfold Char.ofNat
  have hv : n.isValidChar := Or.inl h
  rw [dif_pos hv]
  simp [Char.ofNatAux, Char.toNat]

theorem readAction_text {i : Instr} (h1 : i.1 < 10) (h2 : i.2.2 < 8) (r : List Char) :
    readAction (instrText i ++ r) = (enc i, r) := by
  obtain ⟨c, d, q⟩ := i
  have h1 : c < 10 := h1
  have h2 : q < 8 := h2
  have e1 : (Char.ofNat (48 + c)).toNat = 48 + c := toNat_ofNat (by unfold Color at *; omega)
  have e2 : (Char.ofNat (65 + q)).toNat = 65 + q := toNat_ofNat (by unfold State at *; omega)
  simp only [readAction, instrText, next, List.cons_append, List.nil_append, enc, e1, e2]
  have g1 : ((48 + c : Nat) : Int) - 48 = c := by unfold Color at *; omega
  have g2 : ((65 + q : Nat) : Int) - 65 = q := by unfold State at *; omega
  rw [g1, g2]
  cases d <;> simp [Char.toNat]

theorem formatInstr_enc {i : Instr} (h1 : i.1 < 10) (h2 : i.2.2 < 8) :
    formatInstr (enc i) = instrText i := by
  obtain ⟨c, d, q⟩ := i
  have h1 : c < 10 := h1
  have h2 : q < 8 := h2
  have e1 : ((c : Int) + 48) % 256 = ((48 + c : Nat) : Int) := by
    rw [Int.emod_eq_of_lt] <;> unfold Color at * <;> omega
  have e2 : ((q : Int) + 65) % 256 = ((65 + q : Nat) : Int) := by
    rw [Int.emod_eq_of_lt] <;> unfold State at * <;> omega
  simp only [formatInstr, enc, chr, instrText, e1, e2, Int.toNat_natCast]
  cases d <;> simp

theorem space_not_mem {i : Instr} (h1 : i.1 < 10) (h2 : i.2.2 < 8) :
    (instrText i).filter (· != ' ') = instrText i := by
  obtain ⟨c, d, q⟩ := i
  have h1 : c < 10 := h1
  have h2 : q < 8 := h2
  have e1 : (Char.ofNat (48 + c)).toNat = 48 + c := toNat_ofNat (by unfold Color at *; omega)
  have e2 : (Char.ofNat (65 + q)).toNat = 65 + q := toNat_ofNat (by unfold State at *; omega)
  have g1 : Char.ofNat (48 + c) ≠ ' ' := by
    intro e
    rw [e] at e1
    have : (32 : Nat) = 48 + c := e1
    omega
  have g2 : Char.ofNat (65 + q) ≠ ' ' := by
    intro e
    rw [e] at e2
    have : (32 : Nat) = 65 + q := e2
    omega
  cases d <;> simp [instrText, g1, g2]

/-! ## One program -/

/-- Instruction number `k`. -/
def nth (K : Nat) (P : Nat → Nat → Instr) (k : Nat) : Instr := P (k / K) (k % K)

/-- The instructions that are read. -/
def others (F : File) (P : Nat → Nat → Instr) : List Instr :=
  (List.range F.acts).map fun k => nth F.colors P (k + 1)

section

variable {F : File} {P : Nat → Nat → Instr}

theorem nth_fits (hF : F.Ok) (hP : ProgFits F.states F.colors P) {k : Nat}
    (hk : k < F.states * F.colors) : (nth F.colors P k).1 < 10 ∧ (nth F.colors P k).2.2 < 8 := by
  have hc := hF.colors
  have hs := hF.states
  have h1 : k / F.colors < F.states := Nat.div_lt_of_lt_mul (by rw [Nat.mul_comm]; exact hk)
  have h2 : k % F.colors < F.colors := Nat.mod_lt _ (by omega)
  refine ⟨Nat.lt_of_lt_of_le (hP.color _ _ h1 h2) hc.2, ?_⟩
  rcases hP.state _ _ h1 h2 with h | h
  · exact Nat.lt_of_lt_of_le h (by omega)
  · unfold nth
    rw [h]
    decide

theorem others_fits (hF : F.Ok) (hP : ProgFits F.states F.colors P) :
    ∀ i ∈ others F P, i.1 < 10 ∧ i.2.2 < 8 := by
  intro i hi
  obtain ⟨k, hk, rfl⟩ := List.mem_map.1 hi
  have := List.mem_range.1 hk
  unfold File.acts at this
  exact nth_fits hF hP (by omega)

/-- The text is `1RB` and the other instructions. -/
theorem simText_cons (hF : F.Ok) (hP : ProgFits F.states F.colors P) :
    simText F.states F.colors P = ['1', 'R', 'B'] ++
      (List.range F.acts).flatMap fun k =>
        sepBefore F.colors (k + 1) ++ instrText (nth F.colors P (k + 1)) := by
  have hc := hF.colors
  have hs := hF.states
  have hpos : 0 < F.states * F.colors := Nat.mul_pos (by omega) (by omega)
  rw [simText_eq (by omega)]
  have : F.states * F.colors = F.acts + 1 := by unfold File.acts; omega
  rw [this, List.range_succ_eq_map, List.flatMap_cons, List.flatMap_map]
  congr 1
  rw [Nat.zero_div, Nat.zero_mod, hP.first]
  rfl

theorem filter_flatMap' {α β : Type} (p : β → Bool) (l : List α) (f : α → List β) :
    (l.flatMap f).filter p = l.flatMap fun x => (f x).filter p := by
  induction l with
  | nil => rfl
  | cons a l ih => rw [List.flatMap_cons, List.filter_append, ih, List.flatMap_cons]

/-- What `sed` makes of it. -/
theorem sedLine_text (hF : F.Ok) (hP : ProgFits F.states F.colors P) :
    sedLine (simText F.states F.colors P) = (others F P).flatMap instrText := by
  unfold sedLine
  rw [simText_cons hF hP, if_pos (by simp)]
  simp only [List.cons_append, List.nil_append, List.drop_succ_cons, List.drop_zero]
  rw [filter_flatMap']
  unfold others
  rw [List.flatMap_map]
  apply flatMap_congr'
  intro k hk
  have hk := List.mem_range.1 hk
  unfold File.acts at hk
  obtain ⟨h1, h2⟩ := nth_fits hF hP (k := k + 1) (by omega)
  rw [List.filter_append, space_not_mem h1 h2]
  unfold sepBefore
  rw [if_neg (by omega)]
  split <;> rfl

theorem readActions_text (l : List Instr) (h : ∀ i ∈ l, i.1 < 10 ∧ i.2.2 < 8) (r : List Char) :
    readActions l.length (l.flatMap instrText ++ r) = (l.map enc, r) := by
  induction l with
  | nil => rfl
  | cons i l ih =>
    obtain ⟨h1, h2⟩ := h i (by simp)
    rw [List.length_cons, readActions, List.flatMap_cons, List.append_assoc,
      readAction_text h1 h2]
    simp only
    rw [ih fun j hj => h j (by simp [hj])]
    rfl

theorem others_length : (others F P).length = F.acts := by simp [others]

theorem insOf_others (hF : F.Ok) (hP : ProgFits F.states F.colors P) {q co : Nat}
    (hq : q < F.states) (hco : co < F.colors) :
    insOf F ((others F P).map enc) q co = enc (P q co) := by
  have hc := hF.colors
  have hlt : q * F.colors + co < F.states * F.colors := by
    have : (q + 1) * F.colors ≤ F.states * F.colors := Nat.mul_le_mul_right _ hq
    rw [Nat.succ_mul] at this
    omega
  unfold insOf
  split
  · rename_i h0
    have hco0 : co = 0 := by omega
    have hq0 : q = 0 := by
      rcases Nat.eq_zero_or_pos q with h | h
      · exact h
      · have := Nat.mul_pos h (show 0 < F.colors by omega)
        omega
    subst hco0 hq0
    rw [hP.first]
    rfl
  · rename_i h0
    have hk : q * F.colors + co - 1 < F.acts := by unfold File.acts; omega
    rw [List.getD_eq_getElem?_getD]
    simp only [others, List.map_map, List.getElem?_map, List.getElem?_range hk, Option.map_some,
      Option.getD_some, Function.comp, nth]
    rw [show q * F.colors + co - 1 + 1 = q * F.colors + co by omega]
    rw [Nat.mul_comm q, Nat.mul_add_div (by omega), Nat.div_eq_of_lt hco, Nat.add_zero,
      Nat.mul_add_mod, Nat.mod_eq_of_lt hco]

theorem formatActs_eq (l : List Instr) (h : ∀ i ∈ l, i.1 < 10 ∧ i.2.2 < 8) (k : Nat) (hk : 0 < k) :
    formatActs F k (l.map enc) =
      (List.range l.length).flatMap fun j =>
        sepBefore F.colors (k + j) ++ instrText (l.getD j (0, true, 0)) := by
  induction l generalizing k with
  | nil => rfl
  | cons i l ih =>
    obtain ⟨h1, h2⟩ := h i (by simp)
    rw [List.map_cons, formatActs, ih (fun j hj => h j (by simp [hj])) _ (by omega),
      formatInstr_enc h1 h2, List.length_cons, List.range_succ_eq_map, List.flatMap_cons,
      List.flatMap_map]
    congr 1
    · unfold sepBefore
      rw [Nat.add_zero, if_neg (show ¬ k = 0 by omega)]
      rfl
    · apply flatMap_congr'
      intro j _
      rw [show k + 1 + j = k + Nat.succ j by omega]
      simp

theorem format_text (hF : F.Ok) (hP : ProgFits F.states F.colors P) :
    "1RB".toList ++ formatActs F 1 ((others F P).map enc) = simText F.states F.colors P := by
  rw [formatActs_eq _ (others_fits hF hP) 1 (by omega), simText_cons hF hP, others_length]
  congr 1
  apply flatMap_congr'
  intro k hk
  have hk := List.mem_range.1 hk
  rw [Nat.add_comm 1 k, List.getD_eq_getElem?_getD]
  simp [others, List.getElem?_range hk]

/-! ## A session -/

/-- What the report for a program is. -/
def IsReport (F : File) (P : Nat → Nat → Instr) (r : Option (Nat × Nat)) : Prop :=
  ∀ s m, r = some (s, m) ↔
    Reports F.extra (machine F.states F.colors P) s m ∧ s < F.limit

/-- The programs in the input. -/
def texts (F : File) (Ps : List (Nat → Nat → Instr)) : List (List Char) :=
  Ps.map (simText F.states F.colors)

theorem sed_cons (hF : F.Ok) (hP : ProgFits F.states F.colors P) (Ps : List (Nat → Nat → Instr))
    (tail : List Char) :
    sed (texts F (P :: Ps)) ++ tail =
      (others F P).flatMap instrText ++ ('\n' :: (sed (texts F Ps) ++ tail)) := by
  unfold sed texts
  simp [sedLine_text hF hP]

theorem read_cons (hF : F.Ok) (hP : ProgFits F.states F.colors P) (Ps : List (Nat → Nat → Instr))
    (tail : List Char) :
    readActions F.acts (sed (texts F (P :: Ps)) ++ tail) =
      ((others F P).map enc, '\n' :: (sed (texts F Ps) ++ tail)) := by
  rw [sed_cons hF hP, ← others_length (F := F) (P := P)]
  exact readActions_text _ (others_fits hF hP) _

/-- The run of one program, from clean variables. -/
theorem program_spec (hF : F.Ok) (hP : ProgFits F.states F.colors P) {v : Vars} (hv : Clean F v)
    {n : Nat} (hn : F.limit < n) :
    (¬ RunsRight (machine F.states F.colors P) F.limit →
      ∃ v', run F (insOf F ((others F P).map enc)) n 0 { v with steps := 0, marks := 0 } = .toH v' ∧
        Good F (machine F.states F.colors P) v') ∧
    (RunsRight (machine F.states F.colors P) F.limit →
      Bad F (run F (insOf F ((others F P).map enc)) n 0 { v with steps := 0, marks := 0 })) := by
  have hs := hF.states
  refine run_spec hF hP (fun q co hq hco => insOf_others hF hP hq hco) n
    (Sim.start hF (machine F.states F.colors P) hv) (by omega) (show 0 < F.states by omega)
    (fun k hk => by omega) ?_ (by omega)
  rintro ⟨h, -⟩
  omega

theorem wipe_good {p : Prog} {v : Vars} (h : Good F p v) :
    ∃ w, wipe F v = some w ∧ Clean F w ∧ w.steps = v.steps ∧ w.marks = v.marks := by
  unfold wipe
  rw [if_neg fun e => absurd e.2 (Nat.not_lt.2 h.pmax)]
  refine ⟨_, rfl, ⟨F.center_eq, F.center_eq, by rw [← F.center_eq], fun i => ?_⟩, rfl, rfl⟩
  simp only
  split
  · rfl
  · rename_i hi
    exact h.tape i hi

theorem good_report {v : Vars} (h : Good F (machine F.states F.colors P) v) :
    IsReport F P (if v.steps < F.limit then some (v.steps, v.marks) else none) := by
  intro s m
  rcases h.report with ⟨m', hr, hle, rfl⟩ | ⟨he, hr⟩
  · split
    · rename_i hlt
      simp only [Option.some.injEq, Prod.mk.injEq]
      constructor
      · rintro ⟨rfl, rfl⟩
        exact ⟨hr, hlt⟩
      · rintro ⟨hr', -⟩
        exact Reports.unique hr hr'
    · rename_i hge
      simp only [reduceCtorEq, false_iff, not_and]
      intro hr'
      obtain ⟨rfl, -⟩ := Reports.unique hr hr'
      exact hge
  · rw [if_neg (by omega)]
    simp only [reduceCtorEq, false_iff, not_and]
    intro hr'
    have := hr s m hr'
    omega

/-- The rest of a session after the programs `Ps`. -/
theorem main_spec (hF : F.Ok) {n : Nat} (hn : F.limit < n) (tail : List Char)
    (Ps : List (Nat → Nat → Instr)) :
    ∀ (k num : Nat) (v : Vars), (∀ P ∈ Ps, ProgFits F.states F.colors P) →
      (∀ P ∈ Ps, ¬ RunsRight (machine F.states F.colors P) F.limit) →
      num + Ps.length < 4294967296 → Clean F v →
      ∃ rs w, List.Forall₂ (IsReport F) Ps rs ∧ Clean F w ∧
        main F n (Ps.length + k) num v (sed (texts F Ps) ++ tail) =
          (reportLines F.states F.colors num Ps rs ++ (main F n k (num + Ps.length) w tail).1,
            (main F n k (num + Ps.length) w tail).2) := by
  induction Ps with
  | nil =>
    intro k num v _ _ _ hv
    refine ⟨[], v, .nil, hv, ?_⟩
    simp [texts, sed, reportLines]
  | cons P Ps ih =>
    intro k num v hfit hrr hnum hv
    have hP := hfit P (by simp)
    rw [List.length_cons] at hnum
    obtain ⟨v', hrun, hgood⟩ := (program_spec hF hP hv hn).1 (hrr P (by simp))
    obtain ⟨w, hw, hcw, e1, e2⟩ := wipe_good hgood
    obtain ⟨rs, w', hrs, hcw', hmain⟩ := ih k (num + 1) w (fun Q hQ => hfit Q (by simp [hQ]))
      (fun Q hQ => hrr Q (by simp [hQ])) (by omega) hcw
    refine ⟨(if v'.steps < F.limit then some (v'.steps, v'.marks) else none) :: rs, w',
      .cons (good_report hgood) hrs, hcw', ?_⟩
    have hu : u32 ((num : Int) + 1) = num + 1 := u32_of (by push_cast; rfl) (by omega)
    rw [List.length_cons, show Ps.length + 1 + k = (Ps.length + k) + 1 by omega, main]
    simp only [read_cons hF hP, hu]
    rw [if_neg (by simp [next])]
    simp only [hrun, hw]
    rw [show (next ('\n' :: (sed (texts F Ps) ++ tail))).2 = sed (texts F Ps) ++ tail from rfl, hmain,
      e1, show num + (Ps.length + 1) = num + 1 + Ps.length by omega]
    have hcons : ∀ r, reportLines F.states F.colors num (P :: Ps) (r :: rs) =
        (match r with
          | some (s, m) => [Nat.toDigits 10 (num + 1) ++ " | ".toList ++
              simText F.states F.colors P ++ " | ".toList ++ Nat.toDigits 10 s ++ " | ".toList ++
              Nat.toDigits 10 m]
          | none => []) ++ reportLines F.states F.colors (num + 1) Ps rs := fun r => rfl
    rw [hcons]
    have hline : line F (num + 1) ((others F P).map enc) w =
        Nat.toDigits 10 (num + 1) ++ " | ".toList ++ simText F.states F.colors P ++ " | ".toList ++
          Nat.toDigits 10 v'.steps ++ " | ".toList ++ Nat.toDigits 10 v'.marks := by
      unfold line
      rw [← format_text hF hP, e1, e2, show " | 1RB".toList = " | ".toList ++ "1RB".toList from rfl]
      simp only [List.append_assoc]
    rw [hline]
    by_cases hlt : v'.steps < F.limit
    · rw [if_pos hlt, if_pos hlt]
      rfl
    · rw [if_neg hlt, if_neg hlt]
      rfl

theorem main_bad (hF : F.Ok) (hP : ProgFits F.states F.colors P)
    (hR : RunsRight (machine F.states F.colors P) F.limit) {n : Nat} (hn : F.limit < n) {v : Vars}
    (hv : Clean F v) (k num : Nat) (Ps : List (Nat → Nat → Instr)) (tail : List Char) :
    main F n (k + 1) num v (sed (texts F (P :: Ps)) ++ tail) = ([], .ub) := by
  rw [main]
  simp only [read_cons hF hP]
  rw [if_neg (by simp [next])]
  rcases (program_spec hF hP hv hn).2 hR with h | ⟨v', h, h'⟩
  · rw [h]
  · rw [h]
    simp only [h']

theorem readActions_nil (k : Nat) : (readActions k []).2 = [] := by
  induction k with
  | zero => rfl
  | succ k ih =>
    rw [readActions]
    exact ih

theorem main_end (n k num : Nat) (v : Vars) :
    main F n (k + 1) num v [] = (["done".toList], .done) := by
  rw [main]
  simp only [readActions_nil]
  rw [if_pos (by simp [next])]

theorem main_last (hF : F.Ok) (hP : ProgFits F.states F.colors P) (n k num : Nat) (v : Vars) :
    main F n (k + 1) num v (sedLine (simText F.states F.colors P)) = (["done".toList], .done) := by
  have h : readActions F.acts (sedLine (simText F.states F.colors P)) =
      ((others F P).map enc, []) := by
    rw [sedLine_text hF hP, ← others_length (F := F) (P := P)]
    have := readActions_text _ (others_fits hF hP) []
    rw [List.append_nil] at this
    exact this
  rw [main]
  simp only [h]
  rw [if_pos (by simp [next])]

theorem start_clean : Clean F (start F) :=
  ⟨F.center_eq, F.center_eq, by show F.center + 1 = _; rw [F.center_eq], fun _ => rfl⟩

end

end CSim
end BB
