/-
The prover and the run on integers, with terms for counts: `make_rule`, `try_rule`, the loop.
-/
import Verif.Lemmas.SymInt

namespace BB
namespace Sym

/-! ### `make_rule` -/

/-- The errors that are not the limit on configurations and not a negative count. -/
def Plain (e : BB.Err) : Prop := e ≠ .configLimit ∧ e ≠ .negCount

/-- What a computation with terms answers when the one with integers answers `x`. -/
def Same {α β : Type} (g : α → β) (x : Except BB.Err α) (y : RR β) : Prop :=
  (∃ e, Plain e ∧ x = .error e ∧ y = .error (ofErr e)) ∨ ∃ a, x = .ok a ∧ y = .ok (g a)

theorem calculateDiff_err {a b c d : Int} {e : BB.Err} (h : BB.calculateDiff a b c d = .error e) :
    e = .unknownRule ∨ e = .zeroDivision ∨ ∃ x y, e = .suspectedRule x y := by
  rcases calculateDiff_cases a b c d with ⟨_, _, _, h'⟩ | ⟨_, ⟨_, _, h'⟩ | ⟨_, ⟨_, h'⟩ | ⟨_, _, _,
    ⟨h', _⟩ | ⟨_, _, _, ⟨_, _, _, _, h'⟩ | h' | ⟨_, h'⟩⟩⟩⟩⟩ <;> rw [h'] at h
  · cases h
  · cases h
  · cases h; exact .inl rfl
  · cases h; exact .inr (.inl rfl)
  · cases h
  · cases h; exact .inl rfl
  · unfold calculateDiffTail at h
    simp only at h
    split at h
    · cases h
    · split at h
      · cases h; exact .inr (.inr ⟨_, _, rfl⟩)
      · cases h; exact .inl rfl

theorem calculateDiff_int (flog : Int → Int → Nat) (strict : Bool) (n : Nat) (a b c d : Int) :
    Same (Option.map ofOp) (BB.calculateDiff a b c d)
      (Sym.calculateDiff strict (ops flog strict (n + 1)) (.int a) (.int b) (.int c) (.int d)) := by
  rw [calculateDiff_ints]
  cases h : BB.calculateDiff a b c d with
  | error e =>
    refine .inl ⟨e, ?_, rfl, ?_⟩
    · rcases calculateDiff_err h with rfl | rfl | ⟨x, y, rfl⟩ <;> exact ⟨(by simp), by simp⟩
    · rcases calculateDiff_err h with rfl | rfl | ⟨x, y, rfl⟩ <;> rfl
  | ok r =>
    refine .inr ⟨r, rfl, ?_⟩
    rcases r with _ | _ | _ <;> rfl

section make
variable (flog : Int → Int → Nat) (strict : Bool) (n : Nat)

theorem makeRuleSide_int (side : Bool) : ∀ (as bs cs ds : List Int) (i : Nat),
    Same (Option.map ofRule) (BB.makeRuleSide side i as bs cs ds)
      (Sym.makeRuleSide strict (ops flog strict (n + 1)) side i (as.map Num.int) (bs.map Num.int)
        (cs.map Num.int) (ds.map Num.int)) := by
  intro as
  induction as with
  | nil => intro bs cs ds i; exact .inr ⟨some [], rfl, rfl⟩
  | cons a as ih =>
    intro bs cs ds i
    cases bs with
    | nil => exact .inr ⟨some [], rfl, rfl⟩
    | cons b bs =>
      cases cs with
      | nil => exact .inr ⟨some [], rfl, rfl⟩
      | cons c cs =>
        cases ds with
        | nil => exact .inr ⟨some [], rfl, rfl⟩
        | cons d ds =>
          simp only [List.map_cons, BB.makeRuleSide, Sym.makeRuleSide]
          rcases calculateDiff_int flog strict n a b c d with ⟨e, he, h1, h2⟩ | ⟨r, h1, h2⟩
          · rw [h2]
            rcases calculateDiff_err h1 with rfl | rfl | ⟨x, y, rfl⟩ <;> rw [h1]
            · exact .inr ⟨none, rfl, rfl⟩
            · exact .inl ⟨_, he, rfl, rfl⟩
            · exact .inl ⟨_, he, rfl, rfl⟩
          · rw [h1, h2]
            rcases ih bs cs ds (i + 1) with ⟨e, he, g1, g2⟩ | ⟨rest, g1, g2⟩
            · simp only [g1, g2, bind, Except.bind]
              exact .inl ⟨e, he, rfl, rfl⟩
            · simp only [g1, g2, bind, Except.bind]
              cases rest with
              | none => exact .inr ⟨none, rfl, rfl⟩
              | some rest => cases r <;> exact .inr ⟨_, rfl, rfl⟩

theorem ofRule_noneNegative (rule : Rule) :
    SRule.noneNegative (ofRule rule) = Rule.noneNegative rule := by
  simp only [SRule.noneNegative, Rule.noneNegative, ofRule, List.all_map]
  congr 1
  funext e
  obtain ⟨i, d | ⟨m, a⟩⟩ := e <;> rfl

def ofCounts (k : Counts) : SCounts := (k.1.map Num.int, k.2.map Num.int)

theorem makeRule_int (k1 k2 k3 k4 : Counts) :
    Same (Option.map ofRule) (BB.makeRule k1 k2 k3 k4)
      (Sym.makeRule strict (ops flog strict (n + 1)) (ofCounts k1) (ofCounts k2) (ofCounts k3)
        (ofCounts k4)) := by
  simp only [BB.makeRule, Sym.makeRule, ofCounts]
  rcases makeRuleSide_int flog strict n false k1.1 k2.1 k3.1 k4.1 0 with
    ⟨e, he, h1, h2⟩ | ⟨l, h1, h2⟩
  · simp only [h1, h2, bind, Except.bind]
    exact .inl ⟨e, he, rfl, rfl⟩
  · simp only [h1, h2, bind, Except.bind]
    cases l with
    | none => exact .inr ⟨none, rfl, rfl⟩
    | some l =>
      simp only [Option.map_some]
      rcases makeRuleSide_int flog strict n true k1.2 k2.2 k3.2 k4.2 0 with
        ⟨e, he, h1, h2⟩ | ⟨r, h1, h2⟩
      · simp only [h1, h2]
        exact .inl ⟨e, he, rfl, rfl⟩
      · simp only [h1, h2]
        cases r with
        | none => exact .inr ⟨none, rfl, rfl⟩
        | some r =>
          simp only [Option.map_some]
          have e : ofRule l ++ ofRule r = ofRule (l ++ r) := by simp [ofRule]
          rw [e, ofRule_noneNegative]
          by_cases h : Rule.noneNegative (l ++ r) = true
          · rw [if_pos h, if_pos h]
            exact .inl ⟨.infiniteRule, ⟨(by simp), by simp⟩, rfl, rfl⟩
          · rw [if_neg h, if_neg h]
            exact .inr ⟨some _, rfl, rfl⟩

end make

theorem makeRule_keys {k1 k2 k3 k4 : Counts} {rule : Rule}
    (h : BB.makeRule k1 k2 k3 k4 = .ok (some rule)) : (rule.map Prod.fst).Nodup := by
  unfold BB.makeRule at h
  have s1 := BB.makeRuleSide_spec false 0 k1.1 k2.1 k3.1 k4.1
  have s2 := BB.makeRuleSide_spec true 0 k1.2 k2.2 k3.2 k4.2
  cases h1 : BB.makeRuleSide false 0 k1.1 k2.1 k3.1 k4.1 with
  | error e => simp only [h1, bind, Except.bind] at h; cases h
  | ok l =>
    cases l with
    | none => simp only [h1, bind, Except.bind] at h; cases h
    | some l =>
      simp only [h1, bind, Except.bind] at h
      cases h2 : BB.makeRuleSide true 0 k1.2 k2.2 k3.2 k4.2 with
      | error e => simp only [h2] at h; cases h
      | ok r =>
        cases r with
        | none => simp only [h2] at h; cases h
        | some r =>
          simp only [h2] at h
          split at h
          · cases h
          · cases h
            replace s1 := s1.1 _ h1
            replace s2 := s2.1 _ h2
            rw [List.map_append, List.nodup_append]
            refine ⟨s1.nodup, s2.nodup, ?_⟩
            intro x hx y hy e
            obtain ⟨⟨x1, x2⟩, hx1, rfl⟩ := List.mem_map.mp hx
            obtain ⟨⟨y1, y2⟩, hy1, rfl⟩ := List.mem_map.mp hy
            obtain ⟨_, _, _, _, _, ex, _⟩ := (s1.mem _ _).mp hx1
            obtain ⟨_, _, _, _, _, ey, _⟩ := (s2.mem _ _).mp hy1
            simp only [ex, ey, Prod.mk.injEq, Bool.false_eq_true, false_and] at e

/-! ### `try_rule` -/

theorem ofTape_counts (t : Tape) : (ofTape t).counts = ofCounts t.counts := by
  simp only [STape.counts, ofTape, ofCounts, Tape.counts, List.map_map]
  constructor

theorem spanCompatible_int (s : List Block) (sig : List SigItem) :
    STape.spanCompatible (s.map ofBlock) sig = BB.spanCompatible s sig := by
  simp only [STape.spanCompatible, BB.spanCompatible, List.length_map, ← List.map_take, List.zip_map_left,
    List.all_map]
  rfl

theorem ofTape_sigCompatible (t : Tape) (sig : Sig) :
    (ofTape t).sigCompatible sig = t.sigCompatible sig := by
  simp only [STape.sigCompatible, Tape.sigCompatible, ofTape, spanCompatible_int]

theorem tagSpan_int (sd : Bool) (s : List Block) :
    tagSSpan sd (s.map ofBlock) = (tagSpan sd s).map ofEBlock := by
  apply List.ext_getElem?
  intro i
  simp only [tagSSpan, tagSpan, List.getElem?_mapIdx, List.getElem?_map, Option.map_map]
  rfl

theorem ofTape_toEnum (t : Tape) : (ofTape t).toEnum = ofEnumTape t.toEnum := by
  simp only [STape.toEnum, Tape.toEnum, ofTape, ofEnumTape, tagSpan_int]

theorem epos_tagSpan {s : List Block} (h : Pos s) (sd : Bool) : EPos (tagSpan sd s) := by
  intro b hb
  simp only [tagSpan, List.mem_mapIdx] at hb
  obtain ⟨i, hi, rfl⟩ := hb
  exact h _ (List.getElem_mem hi)

theorem enumPos_toEnum {t : Tape} (h : TPos t) : EnumPos t.toEnum :=
  ⟨epos_tagSpan h.1 _, epos_tagSpan h.2 _⟩

theorem ofRule_tooSimple (rule : Rule) (t : Tape) :
    SProver.tooSimple (ofRule rule) (ofTape t) = Prover.tooSimple rule t := by
  simp only [SProver.tooSimple, Prover.tooSimple, ofRule, ofTape, List.length_map, List.all_map,
    List.map_map]
  congr 2
  · congr 1
    funext e
    obtain ⟨i, d | ⟨m, a⟩⟩ := e <;> rfl
  · congr 2
    funext e
    obtain ⟨i, d | ⟨m, a⟩⟩ := e <;> rfl

section prove
variable {o : Ops} (H : IntOps o) (strict : Bool) (p : Prog) {pr : Prover} (ha : pr.Adds) (hk : Keyed pr)
include H ha hk

theorem round_int (q : State) (sig : Sig) (d : Int) {t : Tape} (hP : TPos t) :
    (∃ e, Plain e ∧ pr.round p q sig d t = .error e ∧
      (ofProver pr).round strict o p q sig d (ofTape t) = .error (ofErr e)) ∨
    ∃ r, pr.round p q sig d t = .ok r ∧
      (ofProver pr).round strict o p q sig d (ofTape t) = .ok (r.map ofTape) ∧
      ∀ t', r = some t' → TPos t' := by
  unfold Prover.round SProver.round
  rcases sim_int (agree_tape H) H strict p ha hk d.toNat q t hP with
    ⟨e, he, h1, h2⟩ | ⟨q', t', h1, h2, h3⟩
  · rw [h1, h2]
    refine .inl ⟨e, ?_, rfl, rfl⟩
    rcases he with rfl | rfl <;> exact ⟨(by simp), by simp⟩
  · rw [h1, h2]
    simp only [ofTape_sigCompatible]
    by_cases h : (q' != some q || !t'.sigCompatible sig) = true
    · rw [if_pos h, if_pos h]
      exact .inr ⟨none, rfl, rfl, fun _ h => by cases h⟩
    · rw [if_neg h, if_neg h]
      exact .inr ⟨some t', rfl, rfl, fun _ h => by cases h; exact h3⟩

theorem getMinSig_int (steps : Nat) (q : State) {t : Tape} (hP : TPos t) (sig : Sig) :
    Same id (pr.getMinSig p steps q t.toEnum sig)
      ((ofProver pr).getMinSig strict o p steps q (ofTape t).toEnum sig) := by
  unfold Prover.getMinSig SProver.getMinSig
  rw [ofTape_toEnum]
  rcases sim_int (agree_enum H) H strict p ha hk steps q t.toEnum (enumPos_toEnum hP) with
    ⟨e, he, h1, h2⟩ | ⟨q', t', h1, h2, h3⟩
  · rw [h1, h2]
    refine .inl ⟨e, ?_, rfl, rfl⟩
    rcases he with rfl | rfl <;> exact ⟨(by simp), by simp⟩
  · rw [h1, h2]
    exact .inr ⟨_, rfl, rfl⟩

end prove

/-- A rule and its signature. -/
def ofFound (x : Rule × MinSig) : SRule × MinSig := (ofRule x.1, x.2)

theorem proveRule_int (flog : Int → Int → Nat) (strict : Bool) (n : Nat) (p : Prog) {pr : Prover}
    (ha : pr.Adds) (hk : Keyed pr) (q : State) {t : Tape} (hP : TPos t) (sig : Sig) (deltas : Deltas) :
    Same (Option.map ofFound) (pr.proveRule p q t sig deltas)
      ((ofProver pr).proveRule strict (ops flog strict (n + 1)) p q (ofTape t) sig deltas) ∧
    ∀ x, pr.proveRule p q t sig deltas = .ok (some x) → (x.1.map Prod.fst).Nodup := by
  have H := intOps flog strict n
  obtain ⟨d1, d2, d3⟩ := deltas
  simp only [Prover.proveRule, SProver.proveRule]
  rcases round_int H strict p ha hk q sig d1 hP with ⟨e, he, h1, h2⟩ | ⟨r1, h1, h2, h3⟩
  · simp only [h1, h2, bind, Except.bind]
    exact ⟨.inl ⟨e, he, rfl, rfl⟩, fun _ h => by cases h⟩
  simp only [h1, h2, bind, Except.bind]
  cases r1 with
  | none => exact ⟨.inr ⟨none, rfl, rfl⟩, fun _ h => by cases h⟩
  | some t1 =>
    simp only [Option.map_some]
    rcases round_int H strict p ha hk q sig d2 (h3 _ rfl) with ⟨e, he, h4, h5⟩ | ⟨r2, h4, h5, h6⟩
    · simp only [h4, h5]
      exact ⟨.inl ⟨e, he, rfl, rfl⟩, fun _ h => by cases h⟩
    simp only [h4, h5]
    cases r2 with
    | none => exact ⟨.inr ⟨none, rfl, rfl⟩, fun _ h => by cases h⟩
    | some t2 =>
      simp only [Option.map_some]
      rcases round_int H strict p ha hk q sig d3 (h6 _ rfl) with
        ⟨e, he, h7, h8⟩ | ⟨r3, h7, h8, h9⟩
      · simp only [h7, h8]
        exact ⟨.inl ⟨e, he, rfl, rfl⟩, fun _ h => by cases h⟩
      simp only [h7, h8]
      cases r3 with
      | none => exact ⟨.inr ⟨none, rfl, rfl⟩, fun _ h => by cases h⟩
      | some t3 =>
        simp only [Option.map_some, ofTape_counts]
        rcases makeRule_int flog strict n t.counts t1.counts t2.counts t3.counts with
          ⟨e, he, g1, g2⟩ | ⟨r, g1, g2⟩
        · simp only [g1, g2]
          exact ⟨.inl ⟨e, he, rfl, rfl⟩, fun _ h => by cases h⟩
        simp only [g1, g2]
        cases r with
        | none => exact ⟨.inr ⟨none, rfl, rfl⟩, fun _ h => by cases h⟩
        | some rule =>
          simp only [Option.map_some, ofRule_tooSimple]
          by_cases hs : Prover.tooSimple rule t = true
          · rw [if_pos hs, if_pos hs]
            exact ⟨.inr ⟨none, rfl, rfl⟩, fun _ h => by cases h⟩
          · rw [if_neg hs, if_neg hs]
            rcases getMinSig_int H strict p ha hk d1.toNat q hP sig with ⟨e, he, g3, g4⟩ | ⟨m, g3, g4⟩
            · simp only [g3, g4]
              exact ⟨.inl ⟨e, he, rfl, rfl⟩, fun _ h => by cases h⟩
            · simp only [g3, g4]
              exact ⟨.inr ⟨some (rule, m), rfl, rfl⟩, fun x h => by cases h; exact makeRule_keys g1⟩

theorem assocInsert_map {κ α β : Type} [BEq κ] (g : α → β) (l : List (κ × α)) (k : κ) (v : α) :
    assocInsert (l.map fun e => (e.1, g e.2)) k (g v) = (assocInsert l k v).map fun e => (e.1, g e.2) := by
  simp only [assocInsert, List.map_cons, List.filter_map]
  rfl

theorem ofProver_setRule (pr : Prover) (rule : Rule) (q : State) (sig : MinSig) :
    (ofProver pr).setRule (ofRule rule) q sig = ofProver (pr.setRule rule q sig) := by
  simp only [SProver.setRule, Prover.setRule, ofProver, lookup_map]
  rw [← assocInsert_map]
  congr 2
  cases pr.rules.lookup (q, sig.1.scan) <;> simp [ofKnown]

theorem setRule_cases {pr : Prover} {rule : Rule} {q : State} {sig : MinSig} {slot : Slot}
    {known : List (MinSig × Rule)} (h : (slot, known) ∈ (pr.setRule rule q sig).rules) :
    ∀ e ∈ known, e = (sig, rule) ∨ ∃ known', (slot, known') ∈ pr.rules ∧ e ∈ known' := by
  intro e he
  simp only [Prover.setRule, assocInsert, List.mem_cons, List.mem_filter, Prod.mk.injEq] at h
  rcases h with ⟨rfl, rfl⟩ | ⟨h, -⟩
  · rcases List.mem_append.mp he with h | h
    · right
      cases hl : pr.rules.lookup (q, sig.1.scan) with
      | none => rw [hl] at h; cases h
      | some k =>
        rw [hl] at h
        rw [List.lookup_eq_some_iff] at hl
        obtain ⟨l1, l2, e', -⟩ := hl
        exact ⟨k, by rw [e']; simp, h⟩
    · left
      simpa using h
  · exact .inr ⟨known, h, he⟩

/-- The answer of the prover. -/
def ofTried : Except BB.Err (Option Rule) → Except (Option RErr) (Option SRule)
  | .ok r => .ok (r.map ofRule)
  | .error .configLimit => .error none
  | .error e => .error (some (ofErr e))

theorem ofTried_error {e : BB.Err} (h : Plain e) : ofTried (.error e) = .error (some (ofErr e)) := by
  cases e <;> first | rfl | exact absurd rfl h.1

structure Tried (strict : Bool) (o : Ops) (p : Prog) (pr : Prover) (cycle : Nat) (q : State)
    (t : Tape) : Prop where
  same : (ofProver pr).tryRule strict o p cycle q (ofTape t) =
    (ofProver (pr.tryRule p cycle q t).1, ofTried (pr.tryRule p cycle q t).2)
  keyed : Keyed (pr.tryRule p cycle q t).1
  known : ∀ rule, (pr.tryRule p cycle q t).2 = .ok (some rule) →
    ∃ slot known sig', (slot, known) ∈ (pr.tryRule p cycle q t).1.rules ∧ (sig', rule) ∈ known
  notNeg : (pr.tryRule p cycle q t).2 ≠ .error .negCount

theorem tryRule_int (flog : Int → Int → Nat) (strict : Bool) (n : Nat) (p : Prog) {pr : Prover}
    (ha : pr.Adds) (hk : Keyed pr) (cycle : Nat) (q : State) {t : Tape} (hP : TPos t) :
    Tried strict (ops flog strict (n + 1)) p pr cycle q t := by
  have key : ∀ r : Prover × Except BB.Err (Option Rule), pr.tryRule p cycle q t = r →
      (ofProver pr).tryRule strict (ops flog strict (n + 1)) p cycle q (ofTape t) =
        (ofProver r.1, ofTried r.2) →
      Keyed r.1 → (∀ rule, r.2 = .ok (some rule) →
        ∃ slot known sig', (slot, known) ∈ r.1.rules ∧ (sig', rule) ∈ known) →
      r.2 ≠ .error .negCount → Tried strict (ops flog strict (n + 1)) p pr cycle q t := by
    intro r e h1 h2 h3 h4
    subst e
    exact ⟨h1, h2, h3, h4⟩
  have hs : (ofTape t).signature = t.signature := signature_int t
  have hg := ofProver_getRule pr q t.signature
  cases h0 : pr.getRule q t.signature with
  | some known =>
    rw [h0] at hg
    refine key (pr, .ok (some known)) ?_ ?_ hk ?_ (by simp)
    · simp only [Prover.tryRule, h0]
    · simp only [SProver.tryRule, hs, hg, Option.map_some]
      rfl
    · intro rule h
      cases h
      exact getRule_mem h0
  | none =>
    rw [h0] at hg
    cases hl : pr.configs.lookup t.signature with
    | none =>
      have hl' : (ofProver pr).configs.lookup t.signature = none := hl
      by_cases hc : pr.configs.length > 100000
      · refine key (pr, .error .configLimit) ?_ ?_ hk (fun _ h => by cases h) (by simp)
        · simp only [Prover.tryRule, h0, hl, if_pos hc]
        · simp only [SProver.tryRule, hs, hg, Option.map_none, hl']
          rw [if_pos (show (ofProver pr).configs.length > 100000 from hc)]
          rfl
      · refine key
          (⟨pr.rules, assocInsert pr.configs t.signature (PastConfigs.new q cycle)⟩, .ok none) ?_ ?_ hk
          (fun _ h => by cases h) (by simp)
        · simp only [Prover.tryRule, h0, hl, if_neg hc]
        · simp only [SProver.tryRule, hs, hg, Option.map_none, hl']
          rw [if_neg (show ¬ (ofProver pr).configs.length > 100000 from hc)]
          rfl
    | some past =>
      have hl' : (ofProver pr).configs.lookup t.signature = some past := hl
      cases hd : past.nextDeltas q cycle with
      | error e =>
        refine key (pr, .error .assertion) ?_ ?_ hk (fun _ h => by cases h) (by simp)
        · simp only [Prover.tryRule, h0, hl, hd]
        · simp only [SProver.tryRule, hs, hg, Option.map_none, hl', hd]
          rfl
      | ok r =>
        obtain ⟨deltas, past'⟩ := r
        cases deltas with
        | none =>
          refine key ({ pr with configs := assocInsert pr.configs t.signature past' }, .ok none)
            ?_ ?_ hk (fun _ h => by cases h) (by simp)
          · simp only [Prover.tryRule, h0, hl, hd]
          · simp only [SProver.tryRule, hs, hg, Option.map_none, hl', hd]
            rfl
        | some deltas =>
          have ha' : Prover.Adds { pr with configs := assocInsert pr.configs t.signature past' } := ha
          have hk' : Keyed { pr with configs := assocInsert pr.configs t.signature past' } := hk
          obtain ⟨hp, hn⟩ := proveRule_int flog strict n p ha' hk' q hP t.signature deltas
          rcases hp with ⟨e, he, g1, g2⟩ | ⟨x, g1, g2⟩
          · refine key ({ pr with configs := assocInsert pr.configs t.signature past' }, .error e)
              ?_ ?_ hk (fun _ h => by cases h) (by simp only [ne_eq, Except.error.injEq]; exact he.2)
            · simp only [Prover.tryRule, h0, hl, hd, g1]
            · have g2' : SProver.proveRule strict (ops flog strict (n + 1)) p
                  { ofProver pr with configs := assocInsert (ofProver pr).configs t.signature past' }
                  q (ofTape t) t.signature deltas = .error (ofErr e) := g2
              simp only [SProver.tryRule, hs, hg, Option.map_none, hl', hd, g2', ofTried_error he]
              rfl
          · have g2' : SProver.proveRule strict (ops flog strict (n + 1)) p
                { ofProver pr with configs := assocInsert (ofProver pr).configs t.signature past' }
                q (ofTape t) t.signature deltas = .ok (x.map ofFound) := g2
            cases x with
            | none =>
              refine key ({ pr with configs := assocInsert pr.configs t.signature past' }, .ok none)
                ?_ ?_ hk (fun _ h => by cases h) (by simp)
              · simp only [Prover.tryRule, h0, hl, hd, g1]
              · simp only [SProver.tryRule, hs, hg, Option.map_none, hl', hd, g2']
                rfl
            | some x =>
              obtain ⟨rule, m⟩ := x
              refine key (Prover.setRule ⟨pr.rules, assocInsert
                (assocInsert pr.configs t.signature past') t.signature (past'.delete q)⟩ rule q m,
                .ok (some rule)) ?_ ?_ ?_ ?_ (by simp)
              · simp only [Prover.tryRule, h0, hl, hd, g1]
              · simp only [SProver.tryRule, hs, hg, Option.map_none, hl', hd, g2', Option.map_some,
                  ofFound, ofTried, ← ofProver_setRule]
                rfl
              · intro slot known hm e he
                rcases setRule_cases hm e he with rfl | ⟨known', h1, h2⟩
                · exact hn _ g1
                · exact hk slot known' h1 e h2
              · intro rule' h
                cases h
                exact ⟨(q, m.1.scan), _, m, List.mem_cons_self, by simp⟩

end Sym
end BB
