{
 "claims": [
  {
   "property": "C01",
   "status": "proved",
   "theorems": [
    "BB.C01_py_step",
    "BB.C01_rs_step",
    "BB.C01_stepped"
   ],
   "note": "One tape.step equals the reported number of single moves of the abstract machine; Python and Rust versions."
  },
  {
   "property": "C02",
   "status": "proved",
   "theorems": [
    "BB.C02_canonical"
   ],
   "note": "Every reachable tape stays in canonical run-length form."
  },
  {
   "property": "C03",
   "status": "proved",
   "theorems": [
    "BB.C03_py_eq_rs"
   ],
   "note": "Python and Rust steps return the same tape and count."
  },
  {
   "property": "C04",
   "status": "proved",
   "theorems": [
    "BB.C04_undfnd",
    "BB.C04_complete",
    "BB.C04_xlimit"
   ],
   "note": "run_quick_machine reports undfnd exactly when and where the machine stops."
  },
  {
   "property": "C05",
   "status": "proved",
   "theorems": [
    "BB.C05_never"
   ],
   "note": "spnout / infrul imply the machine never stops."
  },
  {
   "property": "C06",
   "status": "proved",
   "theorems": [
    "BB.C06_blanks"
   ],
   "note": "blanks table is exactly the first-blank table up to the steps covered."
  },
  {
   "property": "C07",
   "status": "proved",
   "theorems": [
    "BB.C07_sound",
    "BB.C07_drop_halt",
    "BB.C07_needs_1RB"
   ],
   "note": "True implies never halting, for A0 = 1RB (the documented start); the hypothesis is shown necessary."
  },
  {
   "property": "C08",
   "status": "partial",
   "theorems": [
    "BB.C08_cant_halt_partial",
    "BB.C08_cycle_violation",
    "BB.C08_range_violation",
    "BB.C08_start_violation"
   ],
   "note": "Proved when state A is entered from a cycle of instructions, A0 is defined and every printed colour and entered state is within the range of the table's keys. Each condition is needed: three witnesses are proved where cant_halt returns a number for a machine that halts."
  },
  {
   "property": "C09",
   "status": "partial",
   "theorems": [
    "BB.C09_cant_blank_partial",
    "BB.C09_violation"
   ],
   "note": "Proved when state A is entered from a cycle of instructions; without that a witness is proved where cant_blank returns a number and the machine erases its tape."
  },
  {
   "property": "C10",
   "status": "partial",
   "theorems": [
    "BB.C10_cant_spin_out_partial",
    "BB.SpinsOut.forever",
    "BB.C10_violation"
   ],
   "note": "Proved when state A is entered from a cycle of instructions; without that a witness is proved where cant_spin_out returns a number and the machine spins out."
  },
  {
   "property": "C11",
   "status": "proved",
   "theorems": [
    "BB.C11_segment_cant_halt"
   ],
   "note": "For every program whose printed colours and target states lie within params, and every fuel: a returned segment size implies that the machine never halts."
  },
  {
   "property": "C12",
   "status": "proved",
   "theorems": [
    "BB.C12_instruction",
    "BB.C12_run",
    "BB.C12_undefined_iff",
    "BB.C12_rust_simulator"
   ],
   "note": "Python block macros, through the caches and with other users of the shared converter interfering; base program a table whose colours and states are below the parameters. Nested macros are covered by the general lemmas (Lemmas/MacroRun) but not restated."
  },
  {
   "property": "C13",
   "status": "partial",
   "theorems": [
    "BB.C13_instruction_partial",
    "BB.C13_run_partial",
    "BB.C13_undefined_partial",
    "BB.C13_rust_violation"
   ],
   "note": "Proved for Python. False for Rust: BacksymbolLogic::reconstruct_outputs splits one cell too early; witness proved."
  },
  {
   "property": "C14",
   "status": "partial",
   "theorems": [
    "BB.C14_block_partial",
    "BB.C14_block_run_partial",
    "BB.C14_backsym_one_partial",
    "BB.C14_backsym_partial",
    "BB.C14_backsym_run_partial",
    "BB.C14_one_colour_violation",
    "BB.C14_params_violation"
   ],
   "note": "Proved when colours and states are below the parameters: block macros of any size; backsymbol macros with any number of remembered cells for programs of two or more colours; that the machine never halts for any number of colours. With one colour and three remembered cells the head can leave the window after the report; witness proved. With the parameters make_macro computes itself the property fails; witness proved."
  },
  {
   "property": "C15",
   "status": "proved",
   "theorems": [
    "BB.C15_injective",
    "BB.C15_round_trip",
    "BB.C15_run"
   ],
   "note": "For all histories of requests on the shared converter."
  },
  {
   "property": "C16",
   "status": "proved",
   "theorems": [
    "BB.C16_apply_rule",
    "BB.C16_tape"
   ],
   "note": "Python apply_rule over integer counts, on abstract counts and on run-length tapes. Symbolic (Num) counts are covered by C22-C26 separately."
  },
  {
   "property": "C17",
   "status": "partial",
   "theorems": [
    "BB.C17_violation",
    "BB.C17_rs_apply_partial"
   ],
   "note": "False as stated: Rust apply_plus adds the absolute value of a second negative difference. Proved equal when only one count decreases."
  },
  {
   "property": "C18",
   "status": "partial",
   "theorems": [
    "BB.C18_violation",
    "BB.C18_calculate_diff_partial",
    "BB.C18_rs",
    "BB.C18_rs_truncation_violation"
   ],
   "note": "False as stated for Python: the break out of the quotient check lets (2,3,5,14) through as x->2x-1. Proved: additive operations, first round of affine ones, and exactly when the other rounds fit. Rust version exact on the i32 differences; truncation of u64 counts shown."
  },
  {
   "property": "C19",
   "status": "proved",
   "theorems": [
    "BB.C19_rule",
    "BB.C19_infinite"
   ],
   "note": "make_rule over four rounds of counts."
  },
  {
   "property": "C20",
   "status": "partial",
   "theorems": [
    "BB.C20_infrul_violation",
    "BB.C20_undfnd_violation",
    "BB.C20_undfnd_never_violation",
    "BB.C20_spnout_violation",
    "BB.C20_right_prover_partial",
    "BB.C20_no_rule_partial",
    "BB.C20_asked_partial",
    "BB.C20_checked_partial"
   ],
   "note": "False as stated: four witnesses on which Machine.run gives a wrong infrul, undfnd or spnout report. Proved: right for every prover whose answers are right; right for the code's prover if its answers in the run are right, which replaying each application checks (C20_checked_partial); and unconditionally right as long as no rule was applied (steps not -1)."
  },
  {
   "property": "C21",
   "status": "partial",
   "theorems": [
    "BB.C21_no_panic",
    "BB.C21_deltas",
    "BB.C21_complete",
    "BB.C21_sightings_violation",
    "BB.C21_recorded_partial"
   ],
   "note": "The failure branch is unreachable and deltas fit the recurrence; five sightings is false: a state first seen after the table exists has its first cycle recorded twice, so four suffice."
  },
  {
   "property": "C22",
   "status": "partial",
   "theorems": [
    "BB.C22_unique",
    "BB.C22_values_partial",
    "BB.C22_int_partial",
    "BB.C22_with_div_partial",
    "BB.C22_violation",
    "BB.C22_violation_float"
   ],
   "note": "Proved for all terms without // (any depth, any answers of the comparisons) and for all terms with // whose evaluation avoids two named branches. The code violates the property: 9 + 13 = 17 for two Divs with denominators 6 and 4, and 2**100 + 2**(2**3) has no int()."
  },
  {
   "property": "C23",
   "status": "partial",
   "theorems": [
    "BB.C23_fdiv_partial",
    "BB.C23_int_partial",
    "BB.C23_violation"
   ],
   "note": "a // d denotes the quotient when the evaluation avoids Div.__add__ with denominators that do not divide and inexact integer quotients. The sum of two exact quotients is wrong in the code: witness proved."
  },
  {
   "property": "C24",
   "status": "partial",
   "theorems": [
    "BB.C24_mod_partial",
    "BB.C24_tables",
    "BB.C24_period",
    "BB.C24_violation_thirty",
    "BB.C24_violation_four",
    "BB.C24_violation_small"
   ],
   "note": "Remainder right for all terms whose exponents exceed one, outside two wrong special cases; every table entry right for every exponent. The code violates the property: 2**4 % 30, 3**3 % 4, 2**(-1+2**1) % 4."
  },
  {
   "property": "C25",
   "status": "partial",
   "theorems": [
    "BB.C25_gcd_partial",
    "BB.C25_prime_power_partial",
    "BB.C25_violation_add",
    "BB.C25_violation_exp"
   ],
   "note": "Always a positive divisor of k; a common divisor when k is a prime power and exponents are large enough. The code violates the property: gcd(12, 4+6*7**2) = 4 and gcd(8, 2**2) = 8."
  },
  {
   "property": "C26",
   "status": "partial",
   "theorems": [
    "BB.C26_int_partial",
    "BB.C26_tower_partial",
    "BB.C26_shift_partial",
    "BB.C26_scale_partial",
    "BB.C26_offset_partial",
    "BB.C26_sign_partial",
    "BB.C26_multiple_partial",
    "BB.C26_violation",
    "BB.C26_violation_neg",
    "BB.C26_violation_negated"
   ],
   "note": "Comparison with an integer right for numbers whose parts are all larger than it; between towers of equal height; kept right by adding an integer or multiplying by a positive one on both sides; right for sums whose integers differ by less than the rest, for a negative multiple against a power and for positive multiples of powers. The code violates the property: 2**3 < 100 is false, (-1 - 2**j) * 2**k < 0 is false for all j, k, and -(2**j) < -(2**k) is true for all j < k."
  },
  {
   "property": "C27",
   "status": "proved",
   "theorems": [
    "BB.C27_compile_show",
    "BB.C27_compile_show_default",
    "BB.C27_show_compile",
    "BB.C27_python_rows",
    "BB.C27_slot",
    "BB.C27_color_limit",
    "BB.C27_state_limit"
   ],
   "note": "Strings as character lists, u8 wrapping as in the release build. The two *_limit theorems show the stated bounds are the largest possible."
  },
  {
   "property": "C28",
   "status": "proved",
   "theorems": [
    "BB.C28_rust",
    "BB.C28_python"
   ],
   "note": "set.pop is an arbitrary choice function."
  },
  {
   "property": "C29",
   "status": "proved",
   "theorems": [
    "BB.C29_converse",
    "BB.C29_rust",
    "BB.C29_target_needed"
   ],
   "note": "Iteration order of the sets is arbitrary."
  },
  {
   "property": "C30",
   "status": "proved",
   "theorems": [
    "BB.C30_swap_states",
    "BB.C30_swap_colors",
    "BB.C30_directions",
    "BB.C30_swap_states_table",
    "BB.C30_dense"
   ],
   "note": "Every rectangular table, all runs from every configuration; halting from blank tape for pairs other than A / colour 0."
  },
  {
   "property": "C31",
   "status": "partial",
   "theorems": [
    "BB.C31_normalize_partial",
    "BB.C31_violation_cut",
    "BB.C31_violation_cinch",
    "BB.C31_raises",
    "BB.C31_example"
   ],
   "note": "Holds when every state and colour is used; the code violates it otherwise: cut_unused_states and cinch change halting behaviour of concrete programs (proved), and normalize raises when A0 is undefined."
  },
  {
   "property": "C32",
   "status": "proved",
   "theorems": [
    "BB.C32_python",
    "BB.C32_python_complete",
    "BB.C32_rust",
    "BB.C32_rust_complete",
    "BB.C32_example"
   ],
   "note": "Python and Rust loops."
  },
  {
   "property": "C33",
   "status": "proved",
   "theorems": [
    "BB.C33_instr_seq",
    "BB.C33_first_use",
    "BB.C33_end",
    "BB.C33_example"
   ],
   "note": "Program tables with A0 = 1RB."
  },
  {
   "property": "C34",
   "status": "proved",
   "theorems": [
    "BB.C34_tree",
    "BB.C34_texts",
    "BB.C34_example"
   ],
   "note": "At least two states and two colours (with fewer the slot count underflows); text statement up to 68 states and 10 colours."
  },
  {
   "property": "C35",
   "status": "proved",
   "theorems": [
    "BB.C35_complete",
    "BB.C35_full",
    "BB.C35_halting",
    "BB.C35_example"
   ],
   "note": "C35_complete is the property; C35_full and C35_halting say which programs are in the tree outright."
  },
  {
   "property": "C36",
   "status": "proved",
   "theorems": [
    "BB.C36_opt_block_total",
    "BB.C36_opt_block_best"
   ],
   "note": "No branch of the model that stands for a panic is reachable; moreover the result is the least of the best sizes for a tape that the machine passes through."
  },
  {
   "property": "C37",
   "status": "proved",
   "theorems": [
    "BB.C37_frame",
    "BB.C37_rs_same",
    "BB.C37_min_sig",
    "BB.Rs.C37_rs_min_sig",
    "BB.C37_stored",
    "BB.Rs.C37_rs_stored"
   ],
   "note": "Frame theorem for sequences of steps on the tracking tape (cell level: the replacement may merge with neighbouring blocks without changing what is seen), and its consequence for the minimal signature computed while no rule is known, in Python and in Rust. Counts read by rules applied inside get_min_sig are outside this statement."
  },
  {
   "property": "C38",
   "status": "proved",
   "theorems": [
    "BB.C38_signature",
    "BB.C38_compatible",
    "BB.C38_lookup"
   ],
   "note": ""
  },
  {
   "property": "C39",
   "status": "partial",
   "theorems": [
    "BB.C39_text_partial",
    "BB.C39_steps_partial",
    "BB.C39_halt_partial",
    "BB.C39_halt_state_partial",
    "BB.C39_blank_partial",
    "BB.C39_forever_partial",
    "BB.C39_violation"
   ],
   "note": "Text of tools/c.py modelled character by character (compared with the five golden files) and read by an independent C reader with the macros of machine.h. For up to 7 states and 10 colours the text is a C program that makes the machine's steps one by one (same tape, position, STEPS), ends where the machine halts (STEPS one more at an undefined instruction), ends at the first blank tape, and runs on otherwise. Missing: with 8 states the text has the label H twice (C39_violation); the array has 100 cells, so runs that leave it are excluded."
  },
  {
   "property": "C40",
   "status": "partial",
   "theorems": [
    "BB.C40_violation",
    "BB.C40_positive_partial"
   ],
   "note": "False as stated: an affine rule with a negative constant drives a count negative. Proved for multiplier >= 2 and constant >= 0 (and additive operations)."
  },
  {
   "property": "C41",
   "status": "partial",
   "theorems": [
    "BB.C41_violation"
   ],
   "note": "False: witness proved (an exhausted limit gives None too)."
  },
  {
   "property": "C42",
   "status": "proved",
   "theorems": [
    "BB.C42_tree_norm",
    "BB.C42_example"
   ],
   "note": ""
  },
  {
   "property": "C43",
   "status": "partial",
   "theorems": [
    "BB.C43_py_segment_cant_halt_partial",
    "BB.C43_violation"
   ],
   "note": "Proved for programs in which every printed colour and entered state is at most that of some defined slot. False in general: C43_violation gives a machine that halts after four moves and is reported as never halting."
  },
  {
   "property": "C44",
   "status": "proved",
   "theorems": [
    "BB.C44_segment_ends",
    "BB.C44_segment_result"
   ],
   "note": "The loops end by a cycle-finding argument and finiteness of the windows; every branch of the model that stands for a panic is shown unreachable."
  },
  {
   "property": "C45",
   "status": "partial",
   "theorems": [
    "BB.C45_right_prover_partial",
    "BB.C45_no_rule_partial",
    "BB.C45_no_rule_meaning_partial",
    "BB.C45_infrul_violation",
    "BB.C45_undfnd_violation",
    "BB.C45_undfnd_never_violation",
    "BB.C45_spnout_violation",
    "BB.C45_steps_violation",
    "BB.C45_marks_violation"
   ],
   "note": "False as stated: guessed rules give wrong infrul, undfnd and spnout; moves made by rules are not counted in steps; a rule with two decreasing counts is applied wrongly and gives a wrong number of marks. Proved for any rule prover whose answers are right, and, while no rule has been applied, that the report is that of run_quick_machine (limit up to 2^32)."
  },
  {
   "property": "C46",
   "status": "partial",
   "theorems": [
    "BB.C46_violation",
    "BB.C46_no_overflow_partial",
    "BB.C46_py"
   ],
   "note": "False in Rust: when the second product overflows 64 bits, counts already set stay changed. Proved in Rust when no product can overflow, and in Python for every rule and tape."
  },
  {
   "property": "C47",
   "status": "proved",
   "theorems": [
    "BB.C47_rule",
    "BB.C47_infinite",
    "BB.C47_before",
    "BB.Rs.C47_rs_rule",
    "BB.Rs.C47_rs_infinite"
   ],
   "note": "Python and Rust. Known rules are assumed right (true of a fresh prover); a multiplicative Python entry is only shown to tell the first change (see C18). For Rust the statements about counts need counts below 2^31, to which the code truncates (see C18)."
  },
  {
   "property": "C48",
   "status": "proved",
   "theorems": [
    "BB.C48_caches",
    "BB.C48_plain",
    "BB.C48_no_rule",
    "BB.C48_right",
    "BB.C48_checked"
   ],
   "note": "Block macros, backsymbol macros and backsymbol macros of block macros, with given or computed parameters. C48_caches: the run with caches equals the run of Machine.run (C20's model, so C37 and C47 apply to its prover) on the table of macro instructions. That applied rules are right is a hypothesis (of C48_right; C48_checked replaces it by a replay of each application): by C20 the prover can be wrong."
  },
  {
   "property": "C49",
   "status": "partial",
   "theorems": [
    "BB.C49_canonical_partial",
    "BB.C49_normal_partial",
    "BB.C49_states",
    "BB.C49_whole_case",
    "BB.C49_case",
    "BB.C49_violation_colors",
    "BB.C49_violation_order",
    "BB.C49_violation_unreached",
    "BB.C49_raises"
   ],
   "note": "Proved for at most three colours when all states can be reached along instructions; normalize_states for any number of colours. Fails for four colours and with unreached states (witnesses); raises when a colour other than the last has no instruction."
  },
  {
   "property": "C50",
   "status": "proved",
   "theorems": [
    "BB.C50_reduced",
    "BB.C50_not_simple",
    "BB.C50_two_states",
    "BB.C50_one_way",
    "BB.C50_dispersed",
    "BB.C50_cases"
   ],
   "note": "Every order of iteration, every choice of set.pop."
  },
  {
   "property": "C51",
   "status": "partial",
   "theorems": [
    "BB.C51_pop",
    "BB.C51_order_partial",
    "BB.C51_violation_order",
    "BB.C51_violation_names"
   ],
   "note": "set.pop does not matter; order does not matter where C50 forces the answer. In general iteration order and names of states do matter for is_simple (witnesses)."
  },
  {
   "property": "C52",
   "status": "proved",
   "theorems": [
    "BB.C52_states",
    "BB.C52_spinout",
    "BB.C52_cant",
    "BB.C52_steps",
    "BB.C52_dispersed",
    "BB.C52_cases"
   ],
   "note": "Whatever rule prover, right or wrong."
  },
  {
   "property": "C53",
   "status": "partial",
   "theorems": [
    "BB.C53_apply_partial",
    "BB.C53_positive_partial",
    "BB.C53_none",
    "BB.C53_violation",
    "BB.C53_violation_base"
   ],
   "note": "Where strict evaluation does not stop and integer values are small enough for the remainder code. Positivity of the other counts assumes right comparisons; it fails otherwise, see C53_violation."
  },
  {
   "property": "C54",
   "status": "partial",
   "theorems": [
    "BB.C54_seq_partial",
    "BB.C54_checked",
    "BB.C54_diff_partial",
    "BB.C54_ints",
    "BB.C54_symbolic",
    "BB.C54_rule",
    "BB.C54_violation_infinite",
    "BB.C54_violation_assertion",
    "BB.C54_violation_mixed"
   ],
   "note": "Where strict evaluation does not stop. InfiniteRule and AssertionError do occur wrongly."
  },
  {
   "property": "C55",
   "status": "partial",
   "theorems": [
    "BB.C55_step_partial",
    "BB.C55_marks_partial",
    "BB.C55_apply_partial",
    "BB.C55_run_partial",
    "BB.C55_checked_partial",
    "BB.C55_no_rule",
    "BB.C55_violation"
   ],
   "note": "The property fails: a block whose symbolic count denotes 1 is not finished when its last cell is read, because step compares the count with the integer 1 (tape.py L177); a count that denotes 0 stays on the tape and a run can report a spin-out of a machine that halts (C55_violation). Proved when the counts that denote 1 are the integer 1 and the strict evaluation of the arithmetic does not stop: a step, marks, the application of a rule whose single round the machine does, and runs whose points are right; a check that decides this for a run; runs without rules unconditionally. Missing: that the points of a run are right."
  },
  {
   "property": "C56",
   "status": "partial",
   "theorems": [
    "BB.C56_partial",
    "BB.C56_checked_partial",
    "BB.C56_violation"
   ],
   "note": "The run with symbolic counts equals the run with integers as long as the prover knows only rules that add; with a rule that multiplies the reports can differ (C56_violation). Missing: a condition under which they agree for rules that multiply."
  },
  {
   "property": "C57",
   "status": "partial",
   "theorems": [
    "BB.C57_sound",
    "BB.C57_complete",
    "BB.C57_blanks",
    "BB.C57_qsihlt_partial",
    "BB.C57_violated"
   ],
   "note": "All of it for every program and limit, except qsihlt with a positive check_rec: then only states entered at check_rec or later are looked at, and False may be wrong (C57_violated)."
  },
  {
   "property": "C58",
   "status": "partial",
   "theorems": [
    "BB.C58_partial",
    "BB.C58_denied",
    "BB.C58_states",
    "BB.C58_violated",
    "BB.C58_not_least"
   ],
   "note": "The check takes the extremes of the head over the sampled moves for the extremes over all moves, and accepts a machine that halts (C58_violated). Proved: it is right when the head stays within the sampled extremes; its denials are always right. Start and period need not be least (C58_not_least)."
  },
  {
   "property": "C59",
   "status": "proved",
   "theorems": [
    "BB.C59_sound",
    "BB.C59_blanks",
    "BB.C59_complete",
    "BB.C59_needs_1RB"
   ],
   "note": "For programs with A0 = 1RB, as the statement says; the hypothesis is shown necessary."
  },
  {
   "property": "C60",
   "status": "proved",
   "theorems": [
    "BB.C60_sound",
    "BB.C60_complete",
    "BB.C60_exact"
   ],
   "note": "For programs with A0 = 1RB; machine integers unbounded."
  },
  {
   "property": "C61",
   "status": "proved",
   "theorems": [
    "BB.Idris.C61_right",
    "BB.Idris.C61_agree",
    "BB.Idris.C61_halts"
   ],
   "note": "All six span tapes: reports right, always returns, no run past a spin-out, same outcome. NumTape for programs printing colours below 10, which parse guarantees (digits)."
  },
  {
   "property": "C62",
   "status": "partial",
   "theorems": [
    "BB.Idris.C62_partial",
    "BB.Idris.C62_halts",
    "BB.Idris.C62_violated",
    "BB.Idris.C62_late"
   ],
   "note": "Reports of the pointer machine are right, and exact for halting programs. Violated: with A0 = 0RA its skip never returns where the others return after one step; a spin-out can be reported a step and a cycle later."
  },
  {
   "property": "C63",
   "status": "partial",
   "theorems": [
    "BB.Idris.C63_partial",
    "BB.Idris.C63_recurs",
    "BB.Idris.C63_violated"
   ],
   "note": "A report is a recurrence (from the reported step or one round later) or the program halts; repetitions of state and tape with a change of state are found. Violated: the program 1RB 0RB  0L_ 1LA halts after 2 moves and is reported as a recurrence."
  },
  {
   "property": "C64",
   "status": "partial",
   "theorems": [
    "BB.Idris.C64_partial",
    "BB.Idris.C64_accepts",
    "BB.Idris.C64_table",
    "BB.Idris.C64_violated"
   ],
   "note": "Right for at most 12 states and 10 colours, with the moves of the Rust table and one more move to the halting state. Violated: the letter M is read as the halting state."
  },
  {
   "property": "C65",
   "status": "partial",
   "theorems": [
    "BB.Idris.C65_partial",
    "BB.Idris.C65_example",
    "BB.Idris.C65_violated",
    "BB.Idris.C65_loses"
   ],
   "note": "Proved for the Cell, Block, Split, CellVect, BlockVect and Ptr tapes. NumTape violates it: an empty span is counted as one cell (C65_violated), and blank cells at the end of a span are lost (C65_loses)."
  },
  {
   "property": "C66",
   "status": "partial",
   "theorems": [
    "BB.C66_incomplete",
    "BB.C66_reasons_partial",
    "BB.C66_keeps_halting_partial",
    "BB.C66_keeps_spinning_partial",
    "BB.C66_check_inf_plain",
    "BB.C66_right_prover_partial",
    "BB.C66_drops",
    "BB.C66_kept",
    "BB.C66_answers",
    "BB.C66_spinning_violation",
    "BB.C66_halting_violation",
    "BB.C66_kept_example",
    "BB.C66_block_example"
   ],
   "note": "The property is false of the code: check_inf runs the prover on the backsymbol macro, which is wrong (C13), so skip_all drops programs that spin out or halt later (two witnesses). Proved: every other reason for dropping is a good one, what is always dropped, what a kept program is like, and that an answer comes unless check_inf panics."
  },
  {
   "property": "C67",
   "status": "partial",
   "theorems": [
    "BB.CSim.C67_session_partial",
    "BB.CSim.C67_overrun",
    "BB.CSim.C67_last_line",
    "BB.CSim.C67_meaning",
    "BB.CSim.C67_example",
    "BB.CSim.C67_applies",
    "BB.CSim.C67_overrun_violation",
    "BB.CSim.C67_late",
    "BB.CSim.C67_one_more",
    "BB.CSim.C67_other_texts",
    "BB.CSim.C67_sed"
   ],
   "note": "Lines printed proved for all lists of programs whose head does not just go right until the limit; for those the array is overrun (C67_overrun). The step count of a machine that leaves is one more than its moves, except at B of 2-4.c. Witnesses: C67_overrun_violation, C67_late."
  },
  {
   "property": "C68",
   "status": "partial",
   "theorems": [
    "BB.CS.C68_follows_partial",
    "BB.CS.C68_ends_partial",
    "BB.CS.C68_runs_on_partial",
    "BB.CS.C68_tables",
    "BB.CS.C68_tests",
    "BB.CS.C68_skipped",
    "BB.CS.C68_b3_violation"
   ],
   "note": "Proved for twelve files as they are, for three without their line 'return 0;  // takes too long', and for 3932964.c with its B3 entry changed to what the code does. Violations: 3932964.c does not write 1 at B3 (C68_b3_violation); the three files return 0 before the first statement, so their assertion is never checked (C68_skipped). Nothing is said about the undefined entries '...' of a table, nor when the head leaves the array. C68_tests: six of the files do end at their limit."
  },
  {
   "property": "C69",
   "status": "partial",
   "theorems": [
    "BB.Dot.C69_text_partial",
    "BB.Dot.C69_arrows_partial",
    "BB.Dot.C69_seen_partial",
    "BB.Dot.C69_example",
    "BB.Dot.C69_colors_violation",
    "BB.Dot.C69_states_violation"
   ],
   "note": "Proved for programs with instructions in the first eight columns only and at most 26 states (targets A to Z or the underscore). Outside of that the code fails: C69_colors_violation (IndexError), C69_states_violation (the text is not DOT)."
  },
  {
   "property": "C70",
   "status": "partial",
   "theorems": [
    "BB.Expand.C70_expand_partial",
    "BB.Expand.C70_machine_partial",
    "BB.Expand.C70_example",
    "BB.Expand.C70_z_violation",
    "BB.Expand.C70_rest"
   ],
   "note": "Proved for programs that do not go to the 26th state. C70_z_violation: a move to state Z of a program with 26 states is taken for a missing instruction."
  },
  {
   "property": "C71",
   "status": "partial",
   "theorems": [
    "BB.TapeText.C71_rust",
    "BB.TapeText.C71_head",
    "BB.TapeText.C71_same_partial",
    "BB.TapeText.C71_python_partial",
    "BB.TapeText.C71_injective",
    "BB.TapeText.C71_example",
    "BB.TapeText.C71_python_violation"
   ],
   "note": "Rust: every tape. Python: tapes whose counts are int below 10^12; from there on show_number prints a rounded logarithm and different tapes have the same text (C71_python_violation). Symbolic counts (Num) are not modelled here."
  },
  {
   "property": "C72",
   "status": "proved",
   "theorems": [
    "BB.LinRado.C72_programs",
    "BB.LinRado.C72_once",
    "BB.LinRado.C72_machine",
    "BB.LinRado.C72_rejects",
    "BB.LinRado.C72_kept",
    "BB.LinRado.C72_example",
    "BB.LinRado.C72_open"
   ],
   "note": ""
  },
  {
   "property": "C73",
   "status": "partial",
   "theorems": [
    "BB.LinRado.C73_text_partial",
    "BB.LinRado.C73_machine_partial",
    "BB.LinRado.C73_injective_partial",
    "BB.LinRado.C73_list",
    "BB.LinRado.C73_example",
    "BB.LinRado.C73_zero_violation",
    "BB.LinRado.C73_stop_violation",
    "BB.LinRado.C73_domain"
   ],
   "note": "Proved for numbers of exactly 24 bits, and for the machine if stops are 1R; C73_list: this covers the list of the test. Violations: C73_zero_violation (leading zero bits are lost), C73_stop_violation (a stop that is not 1R is read as a move to a 31st state)."
  },
  {
   "property": "C74",
   "status": "proved",
   "theorems": [
    "BB.Branch.C74_branches",
    "BB.Branch.C74_fails",
    "BB.Branch.C74_example",
    "BB.Branch.C74_assert"
   ],
   "note": ""
  },
  {
   "property": "C75",
   "status": "partial",
   "theorems": [
    "BB.Cons.C75_same_partial",
    "BB.Cons.C75_stands_partial",
    "BB.Cons.C75_eq_partial",
    "BB.Cons.C75_keeps",
    "BB.Cons.C75_add",
    "BB.Cons.C75_div",
    "BB.Cons.C75_exp",
    "BB.Cons.C75_mul",
    "BB.Cons.C75_mul_done",
    "BB.Cons.C75_example",
    "BB.Cons.C75_tet_violation",
    "BB.Cons.C75_fields",
    "BB.Cons.C75_tet_eq"
   ],
   "note": "For numbers made of integers, sums, products, quotients and powers: one object for each expression, == is sameness of expressions, what an object stands for never changes, and each of the four constructors returns the object of the expression that the model of the arithmetic (Model/Num) has. Not for Tet: two equal Tets have different hashes, so powers of them that should be equal are not (C75_tet_violation). A product whose construction calls make_mul for the same operands again is taken to raise RecursionError. Direct calls of the classes and clear_caches (both only in tests) are outside."
  },
  {
   "property": "C76",
   "status": "partial",
   "theorems": [
    "BB.NumShow.C76_value_partial",
    "BB.NumShow.C76_show_partial",
    "BB.NumShow.C76_same_partial",
    "BB.NumShow.C76_example",
    "BB.NumShow.C76_base_violation",
    "BB.NumShow.C76_round_violation",
    "BB.NumShow.C76_hidden_violation",
    "BB.NumShow.C76_hidden_when"
   ],
   "note": "For numbers in which show_number shortens nothing and no base is negative: the text is read as an expression with the value of the number. Violations: a negative base is shown without parentheses, so the text of (-2) ** (2 ** 3), which is 256, is an expression for -256; integers from 10^12 on are shown by their rounded logarithm, so different numbers share a text however it is rounded; numbers with more than 120 leaves are shown as (???), and a text with it is no expression."
  },
  {
   "property": "C77",
   "status": "proved",
   "theorems": [
    "BB.C77_settled",
    "BB.C77_two_two",
    "BB.C77_two_two_tight",
    "BB.C77_three_two",
    "BB.C77_three_two_tight",
    "BB.C77_two_three",
    "BB.C77_two_three_tight",
    "BB.C77_zero_holdouts"
   ],
   "note": "Proved for all sizes; carried out for 2-2 (5 moves), 3-2 (20) and 2-3 (37), where the bounds are attained. The programs that quick_term_or_rec with a small limit leaves open (58 of 3-2, 135 of 2-3) are dealt with by pairs of automata that are not in the code. C77_zero_holdouts: being dropped by skip_all is not being dealt with."
  },
  {
   "property": "C78",
   "status": "partial",
   "theorems": [
    "BB.Estimate.C78_digits_partial",
    "BB.Estimate.C78_power_partial",
    "BB.Estimate.C78_tower_above_partial",
    "BB.Estimate.C78_tower_below_partial",
    "BB.Estimate.C78_example",
    "BB.Estimate.C78_tall_violation",
    "BB.Estimate.C78_negative_tower_violation",
    "BB.Estimate.C78_small_violation",
    "BB.Estimate.C78_negative_violation",
    "BB.Estimate.C78_added_violation",
    "BB.Estimate.C78_sign",
    "BB.Estimate.C78_when_tower",
    "BB.Estimate.C78_huge_exponent"
   ],
   "note": "Proved for numbers whose parts are positive, where an added integer at most doubles or halves the sum. Violations: 65536 written as a tower of twos is estimated as 10 ↑↑ 4; the digits of a negative factor are subtracted; an added integer is ignored however large; Exp(2, 1).estimate() and estimates of negative towers raise."
  },
  {
   "property": "C79",
   "status": "proved",
   "theorems": [
    "BB.Records.C79_blank",
    "BB.Records.C79_spin",
    "BB.Records.C79_two_two",
    "BB.Records.C79_two_two_tight",
    "BB.Records.C79_three_two",
    "BB.Records.C79_three_two_tight",
    "BB.Records.C79_two_three",
    "BB.Records.C79_two_three_tight"
   ],
   "note": "General transfer from the tree to all programs for every size; the three sizes 2-2, 3-2 and 2-3 with the whole trees (106, 13128 and 9168 programs) checked by the kernel against automata proved sound. A spin-out after a blank tape is not covered: the tree may leave slots unfilled once the tape is blank. The records of 4-2 are not proved."
  },
  {
   "property": "C80",
   "status": "partial",
   "theorems": [
    "BB.Tetra.C80_order",
    "BB.Tetra.C80_power",
    "BB.Tetra.C80_integer_partial",
    "BB.Tetra.C80_exponent_partial",
    "BB.Tetra.C80_exponent_below",
    "BB.Tetra.C80_low",
    "BB.Tetra.C80_refused",
    "BB.Tetra.C80_sum_partial",
    "BB.Tetra.C80_difference_partial",
    "BB.Tetra.C80_example",
    "BB.Tetra.C80_integer_violation",
    "BB.Tetra.C80_exponent_violation",
    "BB.Tetra.C80_difference_violation",
    "BB.Tetra.C80_product_violation",
    "BB.Tetra.C80_base_violation"
   ],
   "note": "Exact for towers with the same base and for powers of the base. With integers and powers, comparisons are right if the tower is the larger one, sums and products up to a factor if the other operand is positive and not larger. Violations: a tower is found to be above every integer and every power with an integer exponent, however large; 10 ↑↑ 2 - 10 ↑↑ 3 is 10 ↑↑ 2; a tower times 0 or -1 is the tower; 2 ↑↑ 3 and 16 ↑↑ 1 are not equal. Comparisons that are refused are listed (C80_refused); `-t`, `t % m`, `n * t`, `t // n`, which always raise, and powers of another base are not modelled."
  }
 ]
}