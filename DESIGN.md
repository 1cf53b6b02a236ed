# Design: a Lean 4 model of busy-beaver-stuff

The code under study is a Turing-machine simulator and analyser, written partly in Python
(`/repo/tm`, `/repo/tools`) and partly in Rust (`/repo/src`).  Nothing was built or run; the Lean model
was written by reading the text.

## Layout

* `lean/Verif/Spec/`   small, independent specifications: an ordinary Turing machine (`TM`), what it
  means to iterate a rule (`Rules`), what a symbolic number denotes (`Num`), a reader and interpreter
  for the C programs (`CLang`), readers for drawings (`Dot`), printed tapes (`TapeText`) and Python
  expressions (`PyExpr`).  No model helper is used here.
* `lean/Verif/Model/`  shallow models, function by function, each definition citing the file and lines
  it models.  Exceptions and panics are values (`none` or an error).
* `lean/Verif/Lemmas/` helper lemmas.
* `lean/Verif/Props/`  the property theorems, named after the property (`C04_...`), each with a concrete
  case beside it.

Names: `Cxx_..._partial` proves a weaker or conditional form, and says in its doc comment what is
missing; `Cxx_..._violation` proves, with a concrete witness, that the code does not have the property
as stated.  A property with a violation theorem stays `partial` in the manifest.

## The specification machine (`Spec/TM.lean`)

A program is a partial function from (state, colour) to (colour, direction, state).  A configuration is
a state, a head position in ℤ and a total function ℤ → colour.  `step` writes, moves one cell, changes
state; it is undefined when the slot has no instruction.  `runFor n` iterates it.  The initial
configuration is state 0, head 0, all cells 0.  `HaltsAt p c n s`: after `n` steps the machine is at the
undefined slot `s`.  This is the yardstick for every property about running machines.

## Per property

Status as in MANIFEST.json.  *Model* names the Lean modules; *how* is the idea of the proof.

### C01 Run-length tape step is exactly that many single-cell moves — proved

*Model:* `Model/Tape`: Python `Tape.step` (with the reuse of the scanned block) and Rust `pull`/`push`, on lists of blocks.

*How:* A relation says which tape over ℤ a block tape denotes. One model step is `stepped` specification steps, by induction on the skipped run.

*Theorems:* `C01_py_step`, `C01_rs_step`, `C01_stepped`.

### C02 Tape stays canonical, so blank / at_edge / marks tell the truth — proved

*Model:* `Model/Tape`.

*How:* Canonical form (neighbouring blocks differ, last block not blank, counts positive) is preserved by a step, by cases; from it `blank`, `at_edge`, `marks` and equality are exact, by induction on the blocks.

*Theorems:* `C02_canonical`.

### C03 Python tape and Rust tape step identically — proved

*Model:* `Model/Tape`.

*How:* The two step functions are equal, by cases, when all counts are positive (which C02 keeps).

*Theorems:* `C03_py_eq_rs`.

### C04 quick run: 'undfnd' is exactly where and when the machine stops — proved

*Model:* `Model/Quick`: `run_quick_machine` of machine.rs.

*How:* Loop invariant: the model's configuration denotes `runFor steps init`. `C04_complete` is the converse: a machine that halts within the limit is reported.

*Theorems:* `C04_undfnd`, `C04_complete`, `C04_xlimit`.

### C05 quick run: 'spnout' and 'infrul' mean the machine never stops — proved

*Model:* `Model/Quick`.

*How:* Spin-out: invariant of the infinite sweep over blanks. Repeated blank tape: translation invariance and determinism.

*Theorems:* `C05_never`.

### C06 quick run: the `blanks` table is exact — proved

*Model:* `Model/Quick`.

*How:* The table is compared with the specification's first-blank times by the loop invariant of C04.

*Theorems:* `C06_blanks`.

### C07 quick_term_or_rec never calls a halting machine recurrent — proved

*Model:* `Model/LinRec`: `quick_term_or_rec`, `HeadTape`, `Alignment::aligns_with`, with the nested reset.

*How:* The invariant ties reference tape, leftmost and rightmost cell to the specification run; equality on the visited window gives a translated cycle, hence an infinite run.

*Gap / disagreement:* The function starts after a first step `1RB`; without that instruction the answer is wrong (`C07_needs_1RB`).

*Theorems:* `C07_sound`, `C07_drop_halt`, `C07_needs_1RB`.

### C08 cant_halt is sound — partial

*Model:* `Model/Reason`: all of reason.rs (entry points, back-stepping, pattern tapes with blank or unknown ends).

*How:* A pattern denotes a set of configurations. Each level of the search contains a pattern for the configuration that many steps before the target, for any run to the target; an empty level refutes it. The pruning of blank patterns by state needs a minimality argument on the run.

*Gap / disagreement:* Wrong when state A is not entered from a cycle of instructions, when A0 is undefined, or when printed colours or states exceed the table's keys: three witnesses.

*Theorems:* `C08_cant_halt_partial`, `C08_cycle_violation`, `C08_range_violation`, `C08_start_violation`.

### C09 cant_blank is sound — partial

*Model:* `Model/Reason`.

*How:* As C08 with the erasing instructions as targets.

*Gap / disagreement:* Wrong when state A is not entered from a cycle: witness.

*Theorems:* `C09_cant_blank_partial`, `C09_violation`.

### C10 cant_spin_out is sound — partial

*Model:* `Model/Reason`.

*How:* As C08 with the zero-reflexive instructions as targets.

*Gap / disagreement:* Wrong when state A is not entered from a cycle: witness.

*Theorems:* `C10_cant_spin_out_partial`, `SpinsOut.forever`, `C10_violation`.

### C11 segment_cant_halt is sound — proved

*Model:* `Model/Segment`: all of segment.rs.

*How:* Windows of the run at every offset are kept inside the set of segment configurations, which is closed under moves inside, leaving and entering; no halting configuration in the set means none in the run.

*Theorems:* `C11_segment_cant_halt`.

### C12 Block macro machine simulates its base machine — proved

*Model:* `Model/Macro`: macro.py `MacroProg`, `BlockLogic`, converter and caches; macros.rs.

*How:* In-window simulation is related to base steps; the caches are kept consistent under interference of other users of the shared converter.

*Theorems:* `C12_instruction`, `C12_run`, `C12_undefined_iff`, `C12_rust_simulator`.

### C13 Backsymbol macro machine simulates its base machine — partial

*Model:* `Model/Macro`: `BacksymbolLogic`.

*How:* As C12 with the head one cell beside the window.

*Gap / disagreement:* Rust `reconstruct_outputs` splits one cell too early: witness.

*Theorems:* `C13_instruction_partial`, `C13_run_partial`, `C13_undefined_partial`, `C13_rust_violation`.

### C14 A macro 'infinite loop' is a real infinite loop — partial

*Model:* `Model/Macro`: `sim_lim` and `MacroInfLoop`.

*How:* Block macros: pigeonhole on window configurations. Backsymbol macros: the limit is smaller than the number of window configurations when two or more cells are remembered. Close the window to a ring (`Lemmas/Ring`): up to rotation there are `S * C ^ (k + 1)` configurations, so within half of the limit one comes back, perhaps rotated by some `d`. If `d = 0` the machine loops. Otherwise it drifts by `d` in each period; the more periods fit into the limit, the fewer cells one period can use, on a ring of only these cells the configuration comes back too, and its period is at most `d` times the number of configurations of that ring. This contradicts the limit if there are two colours.

*Gap / disagreement:* With one colour and three or more remembered cells the head may leave the window after the report (`C14_one_colour_violation`); the machine still never halts. With the parameters that `make_macro` computes itself (`prog_params` of a text whose colours exceed its columns) it is false: witness.

*Theorems:* `C14_block_partial`, `C14_block_run_partial`, `C14_backsym_one_partial`, `C14_backsym_partial`, `C14_backsym_run_partial`, `C14_one_colour_violation`, `C14_params_violation`.

### C15 Macro colour coding is injective and independent of history — proved

*Model:* `Model/Macro`: `TapeColorConverter`, `make_converter` and its cache.

*How:* Invariant over all histories of requests: the two dictionaries are inverse to each other and extend the positional code.

*Theorems:* `C15_injective`, `C15_round_trip`, `C15_run`.

### C16 Applying a counting rule in bulk equals applying it one round at a time — proved

*Model:* `Model/Rules`.

*How:* Closed forms of the n-fold application by induction on the number of rounds, against `Spec/Rules`.

*Theorems:* `C16_apply_rule`, `C16_tape`.

### C17 Rust and Python apply the same additive rule to the same effect — partial

*Model:* `Model/Rules` (rules.rs `apply_rule`, `apply_plus`).

*How:* Equal when one count decreases.

*Gap / disagreement:* Rust adds the absolute value of a second negative difference: witness.

*Theorems:* `C17_violation`, `C17_rs_apply_partial`.

### C18 A rule inferred from four counts reproduces those counts — partial

*Model:* `Model/Rules` (`calculate_diff`).

*How:* Cases of the difference and quotient tests.

*Gap / disagreement:* Python accepts (2, 3, 5, 14) as x → 2x − 1; Rust truncates counts to 32 bits: witnesses.

*Theorems:* `C18_violation`, `C18_calculate_diff_partial`, `C18_rs`, `C18_rs_truncation_violation`.

### C19 make_rule declares an infinite rule only when no count decreases — proved

*Model:* `Model/Rules` (`make_rule`).

*How:* By definition unfolding and C18.

*Theorems:* `C19_rule`, `C19_infinite`.

### C20 Runs accelerated by rules report what a plain run would — partial

*Model:* `Model/Prover`: prover.py and `Machine.run`.

*How:* Simulation: correct for any prover whose rules are right, and for the code's prover if its answers in the run at hand are right (`asked` lists where it is asked; `answerReplays` confirms each application by replaying it); unconditionally correct until a rule is applied.

*Gap / disagreement:* Four programs for which the report is wrong: rules are guessed from four observations.

*Theorems:* `C20_infrul_violation`, `C20_undfnd_violation`, `C20_undfnd_never_violation`, `C20_spnout_violation`, `C20_right_prover_partial`, `C20_no_rule_partial`, `C20_asked_partial`, `C20_checked_partial`.

### C21 Past-configuration bookkeeping never fails and predicts the next occurrence — partial

*Model:* `Model/PastConfigs`.

*How:* Invariant over sequences of calls.

*Gap / disagreement:* Fewer than five sightings suffice in one case: witness.

*Theorems:* `C21_no_panic`, `C21_deltas`, `C21_complete`, `C21_sightings_violation`, `C21_recorded_partial`.

### C22 Symbolic numbers: sums, differences, products and powers have the right value — partial

*Model:* `Model/Num`, `Spec/Num`: the operators as a record stepped by recursion depth; values in ℝ (`b ^ e` with real exponent).

*How:* `Sound`: every operator returns a number with the right value, by induction on depth, for all terms without `//` and any answers of the comparisons; with `//` through a strict evaluation that the program refines (`Ref`).

*Gap / disagreement:* 9 + 13 = 17 for two `Div`s; `2**100 + 2**(2**3)` becomes a float: witnesses.

*Theorems:* `C22_unique`, `C22_values_partial`, `C22_int_partial`, `C22_with_div_partial`, `C22_violation`, `C22_violation_float`.

### C23 Symbolic numbers: exact division has the right value — partial

*Model:* `Model/Num` (`__floordiv__`).

*How:* As C22.

*Gap / disagreement:* Inexact inner quotients: witness.

*Theorems:* `C23_fdiv_partial`, `C23_int_partial`, `C23_violation`.

### C24 Symbolic numbers: remainder is correct — partial

*Model:* `Model/NumMod`: `__mod__`, `find_period` and every table of `exp_mod_special_cases`.

*How:* Periods of powers; each table checked against modular powers by `decide +kernel` for the whole period, which settles every exponent.

*Gap / disagreement:* 2**4 % 30 = 15, 3**3 % 4 = 1, 2**(-1+2**1) % 4 = 0: witnesses.

*Theorems:* `C24_mod_partial`, `C24_tables`, `C24_period`, `C24_violation_thirty`, `C24_violation_four`, `C24_violation_small`.

### C25 Symbolic gcd divides both arguments — partial

*Model:* `Model/Num` (`gcd`), with an arbitrary function for the floating-point logarithm.

*How:* Induction on the term; divisors of a prime power form a chain.

*Gap / disagreement:* gcd(12, 4+6*7**2) = 4, gcd(8, 2**2) = 8: witnesses.

*Theorems:* `C25_gcd_partial`, `C25_prime_power_partial`, `C25_violation_add`, `C25_violation_exp`.

### C26 Symbolic comparisons agree with integer comparisons — partial

*Model:* `Model/Num` (`__lt__` and the derived comparisons).

*How:* `LtSound` by depth for integers; `LtRight` and its closure under shifts and positive scaling; multiples of powers over ℚ.

*Gap / disagreement:* 2**3 < 100 is false; (-1-2**j)*2**k < 0 is false and -(2**j) < -(2**k) is true for all j < k: proved.

*Theorems:* `C26_int_partial`, `C26_tower_partial`, `C26_shift_partial`, `C26_scale_partial`, `C26_offset_partial`, `C26_sign_partial`, `C26_multiple_partial`, `C26_violation`, `C26_violation_neg`, `C26_violation_negated`.

### C27 Programs survive a parse / show round trip — proved

*Model:* `Model/Parse`: instrs.rs and tools/__init__.py on lists of characters, with u8 wrap-around.

*How:* Induction on rows and columns; the two limits are shown to be exact.

*Theorems:* `C27_compile_show`, `C27_compile_show_default`, `C27_show_compile`, `C27_python_rows`, `C27_slot`, `C27_color_limit`, `C27_state_limit`.

### C28 is_connected decides reachability, whatever the iteration order — proved

*Model:* `Model/Graph`: `set.pop` is an arbitrary choice function.

*How:* Loop invariant against inductive reachability.

*Theorems:* `C28_rust`, `C28_python`.

### C29 Entry points and exit points are converse — proved

*Model:* `Model/Graph`.

*How:* Membership by induction over the table.

*Gap / disagreement:* The target has to be a state of the program (`C29_target_needed`).

*Theorems:* `C29_converse`, `C29_rust`, `C29_target_needed`.

### C30 Swapping states or colours and mirroring preserve behaviour — proved

*Model:* `Model/Normalize`.

*How:* Bisimulation of the specification machine under a permutation of states, colours or a reflection.

*Theorems:* `C30_swap_states`, `C30_swap_colors`, `C30_directions`, `C30_swap_states_table`, `C30_dense`.

### C31 normalize(prog) describes the same machine — partial

*Model:* `Model/Normalize`.

*How:* Composition of C30 steps when nothing is unused.

*Gap / disagreement:* `cut_unused_states` and `cinch` change halting of concrete programs; `normalize` raises when A0 is undefined: witnesses.

*Theorems:* `C31_normalize_partial`, `C31_violation_cut`, `C31_violation_cinch`, `C31_raises`, `C31_example`.

### C32 run_for_undefined finds the first undefined slot — proved

*Model:* `Model/Normalize`, `Model/Tree` (`run_for_undefined`).

*How:* As C04.

*Theorems:* `C32_python`, `C32_python_complete`, `C32_rust`, `C32_rust_complete`, `C32_example`.

### C33 instr_seq really replays the program — proved

*Model:* `Model/Normalize` (`instr_seq`).

*How:* Each prefix of the sequence is run by the partial program it lists.

*Theorems:* `C33_instr_seq`, `C33_first_use`, `C33_end`, `C33_example`.

### C34 Tree search yields only well-formed, distinct programs — proved

*Model:* `Model/Tree`: tree.rs, the harvested programs as a list.

*How:* Invariant of the tree walk: sub-tables, distinct branches differ in the slot where they split.

*Theorems:* `C34_tree`, `C34_texts`, `C34_example`.

### C35 Tree search misses no program — proved

*Model:* `Model/Tree`.

*How:* Follow a given normalised program down the tree.

*Theorems:* `C35_complete`, `C35_full`, `C35_halting`, `C35_example`.

### C36 opt_block returns a usable block size and never fails — proved

*Model:* `Model/Blocks`.

*How:* No branch that stands for a panic is reachable (counts, lengths, keys); the fold is the minimum.

*Theorems:* `C36_opt_block_total`, `C36_opt_block_best`.

### C37 Recorded offsets cover everything a stretch of steps depends on — proved

*Model:* `Model/EnumTape`: `EnumTape` with tags for block identity.

*How:* Frame theorem: the run on a tape that agrees on the recorded blocks, by simulation on the common part. `C37_stored` and `C37_rs_stored`: the signature `try_rule` stores with a new rule is that of the first of the three stretches the rule was made from.

*Theorems:* `C37_frame`, `C37_rs_same`, `C37_min_sig`, `Rs.C37_rs_min_sig`, `C37_stored`, `Rs.C37_rs_stored`.

### C38 Signatures forget only counts — proved

*Model:* `Model/EnumTape`, `Model/Prover` (`get_rule`).

*How:* Signature equality is equality up to counts, by induction.

*Theorems:* `C38_signature`, `C38_compatible`, `C38_lookup`.

### C39 Generated C code runs the same machine — partial

*Model:* `Model/CGen`: tools/c.py character by character (equal to the five golden files); `Spec/CLang`: reader and interpreter for the C text with the macros of machine.h, written without the generator.

*How:* The text is shown to lex and parse to the expected statements (also through `str.replace`), then one machine step is a few statements.

*Gap / disagreement:* Eight states: two labels `H` (`C39_violation`). The array has 100 cells; the macros stop on a blank tape.

*Theorems:* `C39_text_partial`, `C39_steps_partial`, `C39_halt_partial`, `C39_halt_state_partial`, `C39_blank_partial`, `C39_forever_partial`, `C39_violation`.

### C40 Applying a rule never leaves a count below 1 — partial

*Model:* `Model/Rules`.

*How:* Induction on rounds.

*Gap / disagreement:* A negative constant drives a count negative: witness.

*Theorems:* `C40_violation`, `C40_positive_partial`.

### C41 In Rust, a macro slot without instruction is a halt of the base machine — partial

*Model:* `Model/Macro` (macros.rs).

*How:* Refuted only.

*Gap / disagreement:* An exhausted limit also gives `None`: witness.

*Theorems:* `C41_violation`.

### C42 tree_norm keeps the machine — proved

*Model:* `Model/Normalize` (`tree_norm`).

*How:* Composition of C30 and C33.

*Theorems:* `C42_tree_norm`, `C42_example`.

### C43 py_segment_cant_halt is sound — partial

*Model:* `Model/Segment` (wrapper in lib.rs).

*How:* C11 with the parameters computed by the wrapper.

*Gap / disagreement:* Wrong when a printed colour or entered state exceeds all keys: witness.

*Theorems:* `C43_py_segment_cant_halt_partial`, `C43_violation`.

### C44 segment_cant_halt always returns — proved

*Model:* `Model/Segment`.

*How:* Cycle finding inside a window terminates; finitely many windows; panics unreachable.

*Theorems:* `C44_segment_ends`, `C44_segment_result`.

### C45 run_prover reports what the machine does — partial

*Model:* `Model/RsProver`: prover.rs, rules.rs on tapes, `run_prover`; the plain part of the loop is `Model/Quick`.

*How:* Invariant as for C20 for a prover whose answers are right. While no rule is applied the loop is that of `run_quick_machine`: rules handed out have 32-bit differences, counts are bounded by the cycles, so a refused rule leaves the tape alone.

*Gap / disagreement:* Six programs for which verdict, steps or marks are wrong.

*Theorems:* `C45_right_prover_partial`, `C45_no_rule_partial`, `C45_no_rule_meaning_partial`, `C45_infrul_violation`, `C45_undfnd_violation`, `C45_undfnd_never_violation`, `C45_spnout_violation`, `C45_steps_violation`, `C45_marks_violation`.

### C46 A rule application that fails leaves the tape unchanged — partial

*Model:* `Model/RsProver`, `Model/Rules`.

*How:* The number of applications is at most a count of the tape; no product overflows, so the loop is not left early.

*Gap / disagreement:* A rule whose second product overflows: witness.

*Theorems:* `C46_violation`, `C46_no_overflow_partial`, `C46_py`.

### C47 A rule has been seen at work three times before it is used — proved

*Model:* `Model/Prover`, `Model/RsProver`, `Model/PastConfigs`.

*How:* A replay is a run of the machine (C01 step by step, right rules assumed); signature compatibility gives the colours (C38), `make_rule` the counts (C18, C19); the first predicted gap is positive because recorded cycles lie in the past, an invariant of `try_rule` (`C47_before`).

*Gap / disagreement:* What was seen three times need not go on: see C20 and C45.

*Theorems:* `C47_rule`, `C47_infinite`, `C47_before`, `Rs.C47_rs_rule`, `Rs.C47_rs_infinite`.

### C48 Runs of macro machines report about the machine in the program string — proved

*Model:* `Model/MacroMachine`: the fetch of a program object threads the caches of its levels; prover.py and `Machine.run` again on top of it. Base model: `Model/Macro`, `Model/Prover`.

*How:* Caches and converters only affect which number a colour has been given, and that is fixed by the converter invariant of C13: the run with caches equals the run on a function (`runM_sync`), and that is the run of C20 on the table of macro instructions (`runM_calm`; the simulation for the minimal signature repeats the first one, `runSimulator_toEnum`). Levels compose (`Level`): each macro program simulates the one below (C12), so C20's invariant for the top carries to the bottom.

*Gap / disagreement:* None beyond C14 (parameters) and C20.

*Theorems:* `C48_caches`, `C48_plain`, `C48_no_rule`, `C48_right`, `C48_checked`.

### C49 normalize returns one normal form — partial

*Model:* `Model/Normalize`, `Model/Parse`, and `Model/Reduce` for `is_normal`.

*How:* A program whose states are in order of mention and whose colours are in order is determined by its class: walking the grid, the k-th new name met must be k on both sides (`names_eq`, `Canonical.unique`). `normalize_states` reaches that order within its rounds when all states are reached (`statesLoop_order`: each pass fixes one more position); for at most three colours the colour pass has nothing left to misorder.

*Gap / disagreement:* Four colours: two normal forms of one program, and a result not in order of mention; unreached state: the result is not a fixed point; a colour without instructions: `KeyError`. Witnesses `C49_violation_*`, `C49_raises`.

*Theorems:* `C49_canonical_partial`, `C49_normal_partial`, `C49_states`, `C49_whole_case`, `C49_case`, `C49_violation_colors`, `C49_violation_order`, `C49_violation_unreached`, `C49_raises`.

### C50 The reduced graph is the kernel of the program's graph — proved

*Model:* `Model/Reduce`: graph.py L168-258; a dict is the list of its items, a set a `Finset`, `set.pop` and iteration order arbitrary functions, `KeyError` is `none`.

*How:* Each operation is a change of the sets key by key or a deletion and satisfies `Follows` (paths of the new graph are paths of the old one; no path between surviving states is lost). Every pass loses an arrow or leaves a graph with nothing to do (`pass_spec`), and there are at most states times colours arrows. Three mutual states: take a state that reaches fewest.

*Gap / disagreement:* None.

*Theorems:* `C50_reduced`, `C50_not_simple`, `C50_two_states`, `C50_one_way`, `C50_dispersed`, `C50_cases`.

### C51 is_simple does not depend on names or iteration order — partial

*Model:* As C50.

*How:* Only one-element sets are popped (`C51_pop`). Order is irrelevant when C50 forces the answer.

*Gap / disagreement:* The order of `set(graph.keys())` in `inline_single_entry` matters: a state whose only entry is itself is deleted, and its exits with it, unless an exit is merged into it first. `C51_violation_order`: one program, two orders, `is_simple` false and true. `C51_violation_names`: two namings of one program under CPython's order.

*Theorems:* `C51_pop`, `C51_order_partial`, `C51_violation_order`, `C51_violation_names`.

### C52 What the graph of a program says about its runs — proved

*Model:* `Model/Reduce`, `Model/Quick`, `Model/Prover`, `Model/RsProver`, `Model/Reason`.

*How:* Induction over the loops for an arbitrary rule prover: the check before a step is the only place that ends a run with `spnout`, at a blank cell. Without staying instructions no step skips a block.

*Gap / disagreement:* None.

*Theorems:* `C52_states`, `C52_spinout`, `C52_cant`, `C52_steps`, `C52_dispersed`, `C52_cases`.

### C53 Applying a rule to symbolic counts gives what the rounds would give — partial

*Model:* `Model/SymRules` (rules.py with symbolic counts) over `Model/Num`, with `strict` as in C22.

*How:* The operations of `Num` are sound where strict evaluation does not stop; `divmod` by C25; the geometric sum of `apply_mult` by induction on the number of rounds; sequences one operation at a time.

*Gap / disagreement:* `C53_violation`: `count_apps` compares `99 < -1 + 2 ** 3` wrongly (C24), so a rule that takes one from `2 ** 3` and from `100` is applied 99 times and leaves `-91`. `C53_violation_base`: `('~', b)` takes the exponent of a power of any base.

*Theorems:* `C53_apply_partial`, `C53_positive_partial`, `C53_none`, `C53_violation`, `C53_violation_base`.

### C54 A rule found for symbolic counts reproduces them — partial

*Model:* `Model/SymRules`.

*How:* `descend`/`ascend` invert one another on what is denoted; the sequence is checked on the second and third count by `apply_ops`, which gives that no operation was inapplicable, hence it also holds from the first to the second. On integers it is the function of C18 (`C54_ints`).

*Gap / disagreement:* `C54_violation_infinite`: counts 16, 8, 2, 1 (powers with quotients in the exponent) cannot be compared, and `make_rule` raises `InfiniteRule`. `C54_violation_assertion`, `C54_violation_mixed`: `AssertionError`. The first needs quotients with a remainder; none was found without.

*Theorems:* `C54_seq_partial`, `C54_checked`, `C54_diff_partial`, `C54_ints`, `C54_symbolic`, `C54_rule`, `C54_violation_infinite`, `C54_violation_assertion`, `C54_violation_mixed`.

### C55 Runs with symbolic counts describe the machine — partial

*Model:* `Model/SymRun` (tape.py, prover.py, machine.py and the tape access of rules.py, with counts in `Num`).

*How:* `STape.Den` relates a tape with symbolic counts to an ordinary one; a step keeps the relation (C01 says what the step is for the machine), the application of a rule is C53 followed by an induction on the rounds, and the loop keeps the invariant of C20. `C55_checked_partial` replays the applications of a run; `twiceCut_halts` is a run with symbolic counts for which it succeeds.

*Gap / disagreement:* `C55_violation`: `step` compares the count with the integer 1 (tape.py L177), so a block whose symbolic count denotes 1 stays on the tape with a count that denotes 0, and a machine that halts is reported as spinning out (94 states, 7 colours).

*Theorems:* `C55_step_partial`, `C55_marks_partial`, `C55_apply_partial`, `C55_run_partial`, `C55_checked_partial`, `C55_no_rule`, `C55_violation`.

### C56 Symbolic counts do not change a run — partial

*Model:* `Model/SymRun` against `Model/Prover`, `Model/EnumTape`, `Model/Rules`; `Spec/SymInt` writes the integers of the one as terms of the other.

*How:* Function by function: a step on a tape of non-empty blocks, `count_apps` and `apply_rule` with rules that add (the counts stay positive), `run_simulator` on both kinds of tape, `make_rule` (`C54_ints`), `get_min_sig`, `try_rule`, the loop. The hypothesis, that the prover knows only rules that add, is a computation on the run with integers (`C56_checked_partial`); the case is the run of the two-state, four-colour champion with 987 applications.

*Gap / disagreement:* `C56_violation`: with the program of `C55_violation` the run with integers reports the slot at which the machine halts, the run with symbolic counts a spin-out. Missing: runs with a rule that multiplies.

*Theorems:* `C56_partial`, `C56_checked_partial`, `C56_violation`.

### C57 The strict recurrence search finds the recurrence, its least period and quasihalting — partial

*Model:* `Model/LinRecPy` (test/lin_rec.py); `Spec/Recur` says what recurring and quasihalting are.

*How:* The tape with a position is the machine's tape; a snapshot is a list of cells, so `aligns_with_optional_offsets` compares cells. The history records every move at which the slot can change (`skip` passes over moves within a run of one state in one direction), and the extremes of the head between two records are at the records (`Cov`). From equal windows the recurrence follows by determinism (`recursFrom_of_cells`). Conversely a recurrence shows in the windows (`verify_complete`), so the first match has the least period and is found by the bound.

*Gap / disagreement:* `C57_violated`: with `check_rec` = 1 the machine `1RB ...  1RC ...  1RB ...` is said not to quasihalt, since state A was used before move 1 only.

*Theorems:* `C57_sound`, `C57_complete`, `C57_blanks`, `C57_qsihlt_partial`, `C57_violated`.

### C58 A recurrence confirmed by sampling is one — partial

*Model:* `Model/LinRecPy` (`LinRecSampler.run` and `verify_lin_rec` of test/test_turing.py).

*How:* The sampled history satisfies the invariant of C57 except that the positions between samples are copies of the next sample; `verify_lin_rec` is right if they cover the head's range, and a refusal to match is right in any case.

*Gap / disagreement:* `C58_violated`: `1RB ...  0LD 1RB  0RC 1LA  1LD 1LC` is accepted with start 1 and period 6 and halts after 16 moves. `C58_not_least`: the third denial compares moves `steps - 1` and `recur`, an interval of `period + 1` moves, so a start that is too late is accepted, and so is a doubled period.

*Theorems:* `C58_partial`, `C58_denied`, `C58_states`, `C58_violated`, `C58_not_least`.

### C59 The loose recurrence run reports what the machine does, and misses no recurrence — proved

*Model:* `Model/LinRecPy` (`run_loose_linrec_machine`); `Lemmas/LinRecWindow` for the stretch of the run between the reference and now.

*How:* `aligns_with` on canonical spans compares cells (`pyAligns_iff`); equal cells within the extremes give a recurrence, and a recurrence gives equal cells, since every cell beyond the extreme is visited later for the first time by the same slots. The loop sees every move at which the slot changes, so from a reference after the start of the recurrence it sees the move one period later; references double their distance, which gives the bound.

*Gap / disagreement:* `C59_needs_1RB`: the run assumes A0 = 1RB.

*Theorems:* `C59_sound`, `C59_blanks`, `C59_complete`, `C59_needs_1RB`.

### C60 quick_term_or_rec recognises exactly the programs that recur — proved

*Model:* `Model/LinRec` (`quick_term_or_rec`).

*How:* As C59; the reference is renewed by cycles instead of moves. The comparisons of numbers of blocks in `aligns_with` lose nothing: on the far side the later tape is the earlier one with cells inserted, which does not lessen the number of changes of colour (`length_insert`).

*Theorems:* `C60_sound`, `C60_complete`, `C60_exact`.

### C61 The Idris machines report the run of the program, and all agree — proved

*Model:* `Model/Idris`: the interfaces of Tape.idr as structures, the spans and skips of each tape, `exec`, `run` and `runOnBlankTape` of Machine.idr; `Spec/Total` for machines with a halting state.

*How:* Each span has a meaning as cells going outward (`SpanLaws`), each skip is a sweep over cells of one colour (`SkipLaws`); `scan_exact` turns both into laws of the tape. `Exact` says that edges are always noticed and skips go all the way, which determines the outcome, so any two tapes run in step (`run_agree`). Blank tapes inside a sweep are excluded by hand (`exec_spec`).

*Theorems:* `Idris.C61_right`, `Idris.C61_agree`, `Idris.C61_halts`.

### C62 The Idris pointer machine reports the same as the others — partial

*Model:* `Model/Idris` (`PtrTape`, a position in a list). `skip` to the right takes a bound on its calls; the theorems hold for every bound.

*How:* The same laws (`Laws`) without exactness (`Lemmas/IdrisPtr`).

*Gap / disagreement:* `C62_violated`: with A0 = `0RA` the call `skip R` on the blank tape never returns (`read` of a cell with only blank cells before it says `Just L`, so it stays equal to the scanned one); the other tapes return with one step. `C62_late`: `1RB 0RA  0LC 0RB  1RC 1LA` is 6 steps and 7 cycles on the other tapes, 7 and 8 on this one; Test.idr does not compare cycles of Ptr, but does compare steps.

*Theorems:* `Idris.C62_partial`, `Idris.C62_halts`, `Idris.C62_violated`, `Idris.C62_late`.

### C63 The Idris double run reports recurrences — partial

*Model:* `Model/Idris` (`runDouble`, `runDoubleOnBlank`).

*How:* The fast configuration is reached from the slow one by rounds (`Reach`); equal tapes denote tapes equal up to a shift, so the machine repeats, or it spins out and repeats with period 1. For finding: the slow machine moves when the number of moves of the fast one is odd, so the distance grows by 0 or 1 each round; a change of state flips the parity, so the distance takes all values and becomes a multiple of the period while the slow machine is in the cycle.

*Gap / disagreement:* `C63_violated`: the halting state is not looked for; a parsed program does in state 0 what it does in state A (`pred 0 = 0`). The reported step is that of the slow machine before its last round, so the recurrence may begin one round later.

*Theorems:* `Idris.C63_partial`, `Idris.C63_recurs`, `Idris.C63_violated`.

### C64 The Idris parser reads the program texts of the project — partial

*Model:* `Model/IdrisParse`: the parsers as functions on lists of characters, `parse`.

*How:* Induction over rows and entries in both directions (`program_rows`, `program_some`); for the text shown by the Rust code the tables match (`Matches`) and so do the runs.

*Gap / disagreement:* `C64_violated`: states after L have no case in `CastState` and are read as the halting state, with no error.

*Theorems:* `Idris.C64_partial`, `Idris.C64_accepts`, `Idris.C64_table`, `Idris.C64_violated`.

### C65 The number of cells the Idris implementation shows is the number of cells visited — partial

*Model:* `Model/Idris`: `cells` and `spanCells` of the seven tapes.

*How:* Each tape has a number of cells left and right of the head which a move changes by its length (`Sized`); the positions visited are an interval that grows with it (`visited_next`, `run_cells`).

*Gap / disagreement:* `C65_violated`, `C65_loses`: `NumTape` counts digits, so an empty span is one cell and blank cells at the far end are none.

*Theorems:* `Idris.C65_partial`, `Idris.C65_example`, `Idris.C65_violated`, `Idris.C65_loses`.

### C66 The tree search drops only programs that cannot become holdouts — partial

*Model:* `Model/SkipAll`: `incomplete`, `check_inf`, `skip_all` of tree.rs and `run_for_infrul` of machine.rs; the prover of `Model/RsProver` once more with the macro caches passed along (`Fetch`).

*How:* A sweep is a longest stretch of moves from one slot (`Spec/Sweep`). One turn of `quick_term_or_rec` is one sweep (`RInv.advance_sweep`), so its answers are about the first 301 sweeps. A complete program enters every state, so going back from A one runs into a cycle, which gives the condition of C08 and C10; C11, C28 and C36 do the rest. A machine that repeats with period 1 has spun out (`spinsOut_of_recurs`). For a plain program `run_for_infrul` follows `run_prover` (`infrulLoop_prover`).

*Gap / disagreement:* `C66_spinning_violation`, `C66_halting_violation`: two complete programs that spin out after 2501 moves and halt after 399 moves are dropped, because the run of the backsymbol macro in `check_inf` ends with an infinite rule. Such programs are common among random ones that run for more than 301 sweeps.

*Theorems:* `C66_incomplete`, `C66_reasons_partial`, `C66_keeps_halting_partial`, `C66_keeps_spinning_partial`, `C66_check_inf_plain`, `C66_right_prover_partial`, `C66_drops`, `C66_kept`, `C66_answers`, `C66_spinning_violation`, `C66_halting_violation`, `C66_kept_example`, `C66_block_example`.

### C67 The C simulators report exactly the programs that stop — partial

*Model:* `Model/CSim`: the macros of machines/machine.h, the six files N-K.c (`File`: states, colours, limit, the early `CHECK_RECUR` of 2-4.c), reading with `getc`, `printf`, and the sed command of the Makefile. The array `TAPE` is a function with bounds `2 * XLIMIT`; an access outside is `.ub`, as is a jump outside of `dispatch`.

*How:* `Spec/Sim` says what stops a machine and what is to be reported, without mentioning the simulator. The relation `Sim` ties the variables to the run: cell `POS` of the array is the cell of the head, `PMIN` and `PMAX` bound the visited cells, `MARKS` counts the cells that are not blank. `run_spec`: one instruction is one move until the first stop. `Clean`: after `WIPE_AND_SCORE` the whole array is blank, so the next program starts afresh. `C67_meaning` says what a report means for halting.

*Gap / disagreement:* `C67_overrun` (all such programs) and `C67_overrun_violation`: if the head just goes right until the limit, `WIPE_AND_SCORE` clears one cell after the end of `TAPE`. `C67_late`: for machines that spin out the simulators report the moment where the head leaves the visited cells, not the one where the spin-out starts (57 steps and 7 marks for a spin-out after 55 moves with 6 marks). `C67_one_more`: 2-4.c counts one step less than the others. `C67_last_line`: a last line without a newline is not run.

*Theorems:* `CSim.C67_session_partial`, `CSim.C67_overrun`, `CSim.C67_last_line`, `CSim.C67_meaning`, `CSim.C67_example`, `CSim.C67_applies`, `CSim.C67_overrun_violation`, `CSim.C67_late`, `CSim.C67_one_more`, `CSim.C67_other_texts`, `CSim.C67_sed`.

### C68 The structured C programs follow the machines they are written for — partial

*Model:* `Spec/CStmt` reads the C of machines/structured (statements, conditions, labels, the macros of machine.h as primitive statements) and runs it with a continuation; `Model/Structured` holds the texts of the 16 files letter for letter and the tables. An access outside of TAPE is `.ub`.

*How:* `Lemmas/CStmtCheck` follows the statements of a program from move to move, for every colour the scanned cell can have, keeping the last two cells written on either side (enough to see that a `while` or a `switch` cannot be reached with another colour); `CStmtRun`, `CStmtSim` show by induction on the moves that a program that passes is where the machine is. The check is evaluated by the kernel on the text of each file, and quantifies over all tapes. `CStmtEval` runs a table with lists for the tape, for C68_tests.

*Gap / disagreement:* 3932964.c does not write 1 at B3, so its tape ends with a 3 where the machine has a 1 (the number of marks is the same, and so is the number of steps). 455790469742.c, 455790469746.c and 7021292621.c return at once: `make test` passes without a move. 9340.c starts with five moves that are not of its PROGRAM line (its table here has five more states). Undefined entries (`...`) are done in any way by the code and are excluded. C68_tests is a test of six files, not a proof about the limits of the others.

*Theorems:* `CS.C68_follows_partial`, `CS.C68_ends_partial`, `CS.C68_runs_on_partial`, `CS.C68_tables`, `CS.C68_tests`, `CS.C68_skipped`, `CS.C68_b3_violation`.

### C69 The graph drawing of a program has exactly its transitions — partial

*Model:* `Model/Dot` (`make_dot`), `Spec/Dot` (a lexer and parser for the part of DOT that is needed, written from the grammar).

*How:* The lexer on a piece of text is a function of the mode it is in (`run`, `lex_append`); every line, with arbitrary identifier characters in it, takes the lexer from idle to idle with known tokens; induction over the lines.

*Gap / disagreement:* `C69_colors_violation`: COLORS has eight entries, an instruction in the ninth column raises IndexError. `C69_states_violation`: the 27th state is `[`, and the text is not DOT.

*Theorems:* `Dot.C69_text_partial`, `Dot.C69_arrows_partial`, `Dot.C69_seen_partial`, `Dot.C69_example`, `Dot.C69_colors_violation`, `Dot.C69_states_violation`.

### C70 expand reads the compact notation — partial

*Model:* `Model/Expand` (`expand`; `str.strip`, `split`, slices).

*How:* Splitting undoes joining, since entries have three characters and no underscore.

*Gap / disagreement:* `C70_z_violation`: with 26 states a move to the last one, `Z`, becomes `...`.

*Theorems:* `Expand.C70_expand_partial`, `Expand.C70_machine_partial`, `Expand.C70_example`, `Expand.C70_z_violation`, `Expand.C70_rest`.

### C71 A printed tape tells the tape — partial

*Model:* `Model/TapeShow` (both printers; the rounded `log10` is a parameter), `Spec/TapeText` (a reader).

*How:* Words, brackets and decimal numbers are read back one after the other.

*Gap / disagreement:* `C71_python_violation`: for counts from 10^12 on Python prints the rounded logarithm, so that, however it is rounded, there are two tapes with the same text.

*Theorems:* `TapeText.C71_rust`, `TapeText.C71_head`, `TapeText.C71_same_partial`, `TapeText.C71_python_partial`, `TapeText.C71_injective`, `TapeText.C71_example`, `TapeText.C71_python_violation`.

### C72 The Lin-Rado test tries every program once, and its patterns leave out only programs that never halt — proved

*Model:* `Model/LinRado` (`yield_actions`, `yield_programs`, the patterns as lists of character classes, `replace`).

*How:* `product` gives the sequences of given length (`mem_seqs`, `seqs_nodup`); texts correspond to grids of actions, these to tables, and `replaceHalt` turns the one notation into the other (`replace_text`). A pattern that matches says of certain entries which states they go to, so two states are never left, and they have all their instructions (`stays`); and conversely (`C72_open`).

*Gap / disagreement:* None. (The `lambda` in `yield_actions` is one function with a conditional body, not a choice of two functions; without `halt` it returns a function, which counts as true, so the result is the intended one.)

*Theorems:* `LinRado.C72_programs`, `LinRado.C72_once`, `LinRado.C72_machine`, `LinRado.C72_rejects`, `LinRado.C72_kept`, `LinRado.C72_example`, `LinRado.C72_open`.

### C73 lr_convert decodes the serial numbers of Lin and Rado — partial

*Model:* `Model/LinRado` (`lr_convert`, `LR_HOLDOUTS`).

*How:* The binary digits of a number of 24 bits are those of its six hexadecimal digits (`toDigits_serial`); the rest is a table of 16 rows.

*Gap / disagreement:* `C73_zero_violation`: `f'{n:b}'` drops leading zeros, so a number with 23 bits is read one bit too early. `C73_stop_violation`: only `1R_` is replaced. Neither happens in the list (`C73_list`).

*Theorems:* `LinRado.C73_text_partial`, `LinRado.C73_machine_partial`, `LinRado.C73_injective_partial`, `LinRado.C73_list`, `LinRado.C73_example`, `LinRado.C73_zero_violation`, `LinRado.C73_stop_violation`, `LinRado.C73_domain`.

### C74 branch_last gives all completions of a program with one open slot — proved

*Model:* `Model/BranchLast` (`branch_last`; the set difference as a filtered list).

*How:* The open slots are one (`filter_open`), the parameters that `show_comp` takes are those of the program since every slot is filled (`defaultParams_eq`), and C27 does the rest. `C74_fails`: any other number of open slots.

*Theorems:* `Branch.C74_branches`, `Branch.C74_fails`, `Branch.C74_example`, `Branch.C74_assert`.

### C75 Equal symbolic numbers are the same object — partial

*Model:* `Model/Cons`: objects with identities, the four dictionaries, `make_add`, `make_mul`, `make_div`, the end of `make_exp`. The construction of a product is two events, since `Mul.__init__` compares its operands and the comparisons make other numbers. `Model/Num`, used in C22 to C26 and C53 to C56, takes equal terms for the same object; this claim justifies it.

*How:* Invariant: the dictionaries have exactly the objects made, each under the key of its fields, fields come before their object, `depth` is that of the expression. Two objects with the same fields would be two entries with one key. Assumption: a call of `make_mul` for operands whose product is under way raises `RecursionError` (it does the same comparisons again).

*Gap / disagreement:* `C75_tet_violation`: `Tet` has its own `__eq__` but hashes by identity and is in no dictionary.

*Theorems:* `Cons.C75_same_partial`, `Cons.C75_stands_partial`, `Cons.C75_eq_partial`, `Cons.C75_keeps`, `Cons.C75_add`, `Cons.C75_div`, `Cons.C75_exp`, `Cons.C75_mul`, `Cons.C75_mul_done`, `Cons.C75_example`, `Cons.C75_tet_violation`, `Cons.C75_fields`, `Cons.C75_tet_eq`.

### C76 The text of a symbolic number is a Python expression for it — partial

*Model:* `Model/NumShow` (`__repr__`, `show_number`, `leaves`; the rounded logarithm is a parameter), `Spec/PyExpr` (lexer, parser with Python's precedence, evaluation).

*How:* The lexer reads the text as the expected tokens (`lex_repr`), the parser these as the expected tree (`parse_toks`: every text is an atom or a minus before an atom, so it can be an operand of anything but a base), and the tree evaluates to the number.

*Gap / disagreement:* `C76_base_violation`, `C76_round_violation`, `C76_hidden_violation`.

*Theorems:* `NumShow.C76_value_partial`, `NumShow.C76_show_partial`, `NumShow.C76_same_partial`, `NumShow.C76_example`, `NumShow.C76_base_violation`, `NumShow.C76_round_violation`, `NumShow.C76_hidden_violation`, `NumShow.C76_hidden_when`.

### C77 Dealing with every program of the tree settles the size — proved

*Model:* `Model/Tree` (see C35), `Model/LinRec`, `Model/SkipAll`.

*How:* A program is filled up, renamed, and followed by its program `Q` of the tree (`buildTree_complete`); both are parts of one program, so they run alike while both run (`runFor_agree`). If `Q` was handed out, the missing slots (`length_le_of_avoid`) or its end contradict a longer run; if `Q` was left out, the part of the program without the last state (colour) is settled by the smaller size. Other first instructions: blank after one move, a spin-out, or renaming and mirroring. The sizes 3-2 and 2-3: the whole trees are checked by the kernel, in 12 parts each; `Lemmas/HalfTapes` proves the automata method right.

*Gap / disagreement:* `C77_zero_holdouts`: `skip_all` drops programs cut off by the limit, so no holdouts does not mean settled.

*Theorems:* `C77_settled`, `C77_two_two`, `C77_two_two_tight`, `C77_three_two`, `C77_three_two_tight`, `C77_two_three`, `C77_two_three_tight`, `C77_zero_holdouts`.

### C78 The estimate of a symbolic number says how large it is — partial

*Model:* `Model/Estimate` (`digits`, `tower_est`, `estimate`); `round(log10(b) * k)` is a parameter `lg`, which may overflow. What a size is: `Spec/Estimate`.

*How:* Induction over the expression: a logarithm of a sum lies within log10 2 < 1/2 above the larger one (`logb_add`), products and quotients add up the errors. Towers: a product of two towers of the same height fits below the tower with the tops added (`tower_mul`), so the digits of all integers together bound the top.

*Gap / disagreement:* `C78_tall_violation` (65536 estimated as 10 ↑↑ 4), `C78_negative_violation` (the tests have 103885 and 103887 digits for a number and its negative), `C78_added_violation`, `C78_small_violation`, `C78_negative_tower_violation` (both raise).

*Theorems:* `Estimate.C78_digits_partial`, `Estimate.C78_power_partial`, `Estimate.C78_tower_above_partial`, `Estimate.C78_tower_below_partial`, `Estimate.C78_example`, `Estimate.C78_tall_violation`, `Estimate.C78_negative_tower_violation`, `Estimate.C78_small_violation`, `Estimate.C78_negative_violation`, `Estimate.C78_added_violation`, `Estimate.C78_sign`, `Estimate.C78_when_tower`, `Estimate.C78_huge_exponent`.

### C79 The records of the tree search are records of all programs of the size — proved

*Model:* `Model/Tree` (see C35). The events: `Spec/Events`, over the plain machine.

*How:* `within_of_tree`: an event that happens during the run, carries over between a program and a part of it as long as the part runs, does not come after a blank tape and is kept by renaming and mirroring, is bounded for all programs if it is for those of the tree (the argument of C77). `Lemmas/Watch` is a checker proved sound: a program is run for a while (`race`), then a pair of finite automata reading the two halves of the tape must be closed under its moves and never allow a blank tape, a spin-out or an undefined slot (`sweep`). Most programs are dealt with by automata that remember the nearest 0 to 3 cells; 91 of the 13128 programs of 3-2 and some hundreds of the 9168 of 2-3 by automata found by a search. The kernel runs the checker over the whole trees; that of 2-3 is split by one more instruction, and the programs that need their own automata are checked in groups of 20.

*Theorems:* `Records.C79_blank`, `Records.C79_spin`, `Records.C79_two_two`, `Records.C79_two_two_tight`, `Records.C79_three_two`, `Records.C79_three_two_tight`, `Records.C79_two_three`, `Records.C79_two_three_tight`.

### C80 Towers of powers compare and combine as what they stand for — partial

*Model:* `Model/Tet`; what a tower is: `Spec/Tet`.

*How:* Towers of a base from 2 grow strictly with the height (`tetr_strictMono`), so comparing heights is comparing towers.

*Gap / disagreement:* `C80_integer_violation`, `C80_exponent_violation` (towers are above everything), `C80_difference_violation`, `C80_product_violation`, `C80_base_violation`.

*Theorems:* `Tetra.C80_order`, `Tetra.C80_power`, `Tetra.C80_integer_partial`, `Tetra.C80_exponent_partial`, `Tetra.C80_exponent_below`, `Tetra.C80_low`, `Tetra.C80_refused`, `Tetra.C80_sum_partial`, `Tetra.C80_difference_partial`, `Tetra.C80_example`, `Tetra.C80_integer_violation`, `Tetra.C80_exponent_violation`, `Tetra.C80_difference_violation`, `Tetra.C80_product_violation`, `Tetra.C80_base_violation`.

## Disagreements between code and property

Each is proved by evaluating the model on a concrete program or number and comparing it with the
specification; see the `violation` theorems.  They are findings about the code as read, and worth a
look by its author:

* reasoner: C08, C09, C10 (start state outside every cycle), C43 (wrapper's parameters);
* macros: C13, C41 (Rust), C14 (parameters, one colour);
* rules and prover: C17 (Rust sign), C18, C20, C21, C40, C45 and C46 (Rust);
* symbolic numbers: C22–C26, C53, C54, C55 and C56 (counts that denote 1);
* filter of the tree search: C66 (`check_inf`);
* recurrence checks in test/lin_rec.py: C57 (`check_rec`), C58 (sampling);
* Idris: C62 (pointer tape), C63 (halting programs), C64 (thirteenth state),
  C65 (cells of `NumTape`);
* normaliser: C31, C49;  graph: C51;  C generator: C39;  C simulators: C67;  structured C programs: C68;
* drawings and texts: C69 (ninth colour, 27th state), C70 (state Z), C71 (large counts in Python),
  C73 (serial numbers), C76 (texts of symbolic numbers), C78 (estimates);
* `Tet`: C75 (identity), C80 (comparisons and arithmetic).

## Code that is modelled

Python: tm/tape.py (`Tape`, `EnumTape`), tm/machine.py (`Machine.run`), tm/macro.py, tm/num.py
L1–1349 and the remainder code, tm/prover.py, tm/rules.py, tools/c.py,
tools/graph.py (except printing), tools/instr_seq.py, tools/normalize.py, tools/tree_norm.py,
tools/dot.py, tools/__init__.py, tm/parse.py, tm/show.py, test/lin_rec.py, `verify_lin_rec` and `branch_last` of
test/test_turing.py, and of test/test_lin_rado.py the enumeration and `lr_convert`.
Rust: src/blocks.rs, graph.rs (L7–62), instrs.rs, machine.rs (`run_quick_machine`, `run_prover`,
`quick_term_or_rec`, `run_for_infrul`), macros.rs, prover.rs, reason.rs, rules.rs,
segment.rs, tape.rs (tapes used by these), tree.rs (with `skip_all`).
Idris: Program.idr, Tape.idr, Machine.idr, Parse.idr.
C: machines/machine.h, the six files machines/N-K.c, the sed command of machines/Makefile.

## Code that is not modelled

Printing of results; powers with a `Tet` in the exponent;
the command-line scripts; idris/Run.idr and Test.idr; perf/.

## Trusted base

* Lean's kernel and the axioms `propext`, `Classical.choice`, `Quot.sound`.  `#print axioms` on every
  theorem of the manifest lists only these; `vcheck` replays all modules through the kernel.
  `decide +kernel` uses the kernel's own evaluation, not compiled code.
* That the model matches the code: by reading, with line citations in the doc comments.  Machine
  integers (u64, i32, usize) are unbounded unless a module says otherwise; Python and Rust containers are
  lists and association lists; iteration order of sets is arbitrary where it matters.
* Floating point: `int(log(l, base))` in `gcd` is an arbitrary function; other uses of floats in num.py
  are taken exact, which is stated in `Model/Num` and `Model/NumMod`.
* That the specifications say what is meant: `Spec/*.lean`, short and free of model code.

## Wrong programs tried

`seeded/LOG.jsonl` lists single edits of model definitions (made in a copy), the claim each breaks and
the theorems that then fail to build.  Where an edit survived, the theorem that was added or
strengthened is named in `tightened`.
