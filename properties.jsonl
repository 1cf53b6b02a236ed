{"id": "C01", "title": "Run-length tape step is exactly that many single-cell moves", "statement": "Calling Tape.step(shift, color, skip) on a run-length tape changes the tape it denotes exactly as `stepped` ordinary Turing-machine moves do: with skip=False one write-and-move; with skip=True one write-and-move repeated over the whole maximal run of cells equal to the scanned colour, and the value returned is the number of moves made. The same holds for the Rust tape.", "quantifier": "for every tape with arbitrarily many blocks and arbitrarily large counts, both directions, every colour, both skip values", "why_tests_cant": "tests step a handful of literal tapes; block lists and counts are unbounded and the code has a branch for each of pop/decrement/merge/insert/reuse", "anchors": ["tm/tape.py:Tape.step", "src/tape.rs:Tape.step", "src/tape.rs:Span.pull", "src/tape.rs:Span.push"]}
{"id": "C02", "title": "Tape stays canonical, so blank / at_edge / marks tell the truth", "statement": "Starting from the blank tape, after any sequence of steps no block has count 0, neighbouring blocks on a side differ in colour, and the outermost block is not colour 0. Consequently tape.blank is true iff every cell is 0, tape.at_edge(dir) is true iff the scanned cell and every cell beyond it in that direction are 0, tape.marks is the number of nonzero cells, and two reachable tapes compare equal iff they denote the same cells.", "quantifier": "for every finite sequence of step calls from the blank tape", "why_tests_cant": "an invariant over all histories; a test can only look at the tapes it happens to reach", "anchors": ["tm/tape.py:Tape.step", "tm/tape.py:Tape.blank", "tm/tape.py:Tape.at_edge", "tm/tape.py:Tape.marks", "src/tape.rs:BasicTape"]}
{"id": "C03", "title": "Python tape and Rust tape step identically", "statement": "The Python Tape.step and the Rust Tape::step return the same step count and leave the same blocks and scanned colour, for any tape on which both are defined.", "quantifier": "for every tape whose counts are at least 1, both directions, every colour, both skip values", "why_tests_cant": "the two are written with different control flow (block reuse versus pull/push), so agreement on samples does not give agreement everywhere", "anchors": ["tm/tape.py:Tape.step", "src/tape.rs:Tape.step"]}
{"id": "C04", "title": "quick run: 'undfnd' is exactly where and when the machine stops", "statement": "If run_quick_machine(prog, sim_lim) reports undfnd with `steps` n, slot s and `marks` m then the ordinary single-step machine started in state A on the blank tape makes exactly n moves, is then at slot s which has no instruction, and has m nonzero cells. If it reports xlimit with steps n, the machine has made n moves without stopping.", "quantifier": "for every program and every sim_lim", "why_tests_cant": "the runner skips whole runs at a time; step counts and final slot must agree with a machine that never skips, for unboundedly long runs", "anchors": ["src/machine.rs:run_quick_machine", "tm/machine.py:run_quick_machine"]}
{"id": "C05", "title": "quick run: 'spnout' and 'infrul' mean the machine never stops", "statement": "If run_quick_machine reports spnout or infrul, the ordinary machine started on the blank tape never reaches an undefined slot.", "quantifier": "for every program and every sim_lim", "why_tests_cant": "non-halting is a statement about infinitely many future steps", "anchors": ["src/machine.rs:run_quick_machine", "tm/machine.py:Machine.run"]}
{"id": "C06", "title": "quick run: the `blanks` table is exact", "statement": "In the result of run_quick_machine, blanks[q] = n holds iff n >= 1 is the first step at which the ordinary machine, started on the blank tape, is in state q with an all-zero tape, among the steps the run covered.", "quantifier": "for every program, sim_lim, state and step", "why_tests_cant": "the runner only looks at the tape after a whole skip; that no blank tape is missed in between is an argument over all runs", "anchors": ["src/machine.rs:run_quick_machine", "tm/machine.py:Machine.run"]}
{"id": "C07", "title": "quick_term_or_rec never calls a halting machine recurrent", "statement": "If quick_term_or_rec(prog, sim_lim) returns True for a program whose A0 instruction is 1RB, the ordinary machine from blank tape never reaches an undefined slot.", "quantifier": "for every program with A0 = 1RB and every sim_lim", "why_tests_cant": "True asserts non-termination, i.e. infinitely many steps; the argument is Lin's translated-cycle theorem, not a finite check", "anchors": ["src/machine.rs:quick_term_or_rec", "src/tape.rs:HeadTape", "src/tape.rs:Alignment.aligns_with", "tm/machine.py:quick_term_or_rec"]}
{"id": "C08", "title": "cant_halt is sound", "statement": "If cant_halt(prog, depth) returns a number (rather than None), the machine started on the blank tape never reaches an undefined slot.", "quantifier": "for every program and every depth", "why_tests_cant": "a refutation quantifies over all runs of the machine", "anchors": ["src/reason.rs:cant_halt", "src/reason.rs:cant_reach", "src/reason.rs:get_entrypoints", "src/reason.rs:Backstepper", "tm/reason.py"]}
{"id": "C09", "title": "cant_blank is sound", "statement": "If cant_blank(prog, depth) returns a number, the machine started on the blank tape never turns a non-blank tape into a blank one.", "quantifier": "for every program and every depth", "why_tests_cant": "a refutation quantifies over all runs of the machine", "anchors": ["src/reason.rs:cant_blank", "src/reason.rs:erase_configs", "src/reason.rs:cant_reach"]}
{"id": "C10", "title": "cant_spin_out is sound", "statement": "If cant_spin_out(prog, depth) returns a number, the machine started on the blank tape never reaches a configuration in which it repeats one instruction forever towards an all-blank side of the tape.", "quantifier": "for every program and every depth", "why_tests_cant": "a refutation quantifies over all runs of the machine", "anchors": ["src/reason.rs:cant_spin_out", "src/reason.rs:zero_reflexive_configs", "src/reason.rs:cant_reach"]}
{"id": "C11", "title": "segment_cant_halt is sound", "statement": "If segment_cant_halt(prog, params, segs) returns a segment size (rather than None), the machine started on the blank tape never reaches an undefined slot.", "quantifier": "for every program whose states and colours lie within params and every segment bound", "why_tests_cant": "the refutation covers all infinitely many positions of a finite window along an unbounded run", "anchors": ["src/segment.rs:segment_cant_halt", "src/segment.rs:all_segments_reached", "src/segment.rs:Configs", "src/segment.rs:Tape", "src/segment.rs:AnalyzedProg"]}
{"id": "C12", "title": "Block macro machine simulates its base machine", "statement": "For the Python macro program made with blocks=k, each macro instruction corresponds to a positive number of base-machine steps on the k-cell block leading from the macro configuration to the next one; so the macro run from blank visits only configurations the base machine visits, and it raises KeyError with a slot iff the base machine halts at that slot. The Rust in-block simulation gives the same result whenever the Python one gives one.", "quantifier": "for every base program with colours below base_colors, every k >= 1, every macro configuration", "why_tests_cant": "macro colours are k-digit numbers and the in-block simulation has unbounded length; tests cover specific programs", "anchors": ["tm/macro.py:MacroProg.run_simulator", "tm/macro.py:BlockLogic", "src/macros.rs:MacroProg::run_simulator"]}
{"id": "C13", "title": "Backsymbol macro machine simulates its base machine", "statement": "For the macro program made with backsym=k, each macro instruction corresponds to a positive number of base-machine steps on the window made of the scanned cell and the k remembered cells, leading from the macro configuration to the next one. This holds in the Python implementation and in the Rust implementation.", "quantifier": "for every base program with colours below base_colors, every k >= 1, every macro configuration", "why_tests_cant": "the remembered cells live in the state number and the macro tape is mirrored; only an argument over all configurations shows that the encoding is consistent", "anchors": ["tm/macro.py:BacksymbolLogic", "tm/macro.py:MacroProg.run_simulator", "src/macros.rs:BacksymbolLogic"]}
{"id": "C14", "title": "A macro 'infinite loop' is a real infinite loop", "statement": "If fetching a macro instruction raises MacroInfLoop, the base machine started on that block (or window) never leaves it and never stops.", "quantifier": "for every base program, every k, every macro slot, block and backsymbol macros", "why_tests_cant": "the loop is declared after a step bound; whether the bound is large enough is a counting argument over all programs", "anchors": ["tm/macro.py:MacroProg.run_simulator", "tm/macro.py:BlockLogic.sim_lim", "tm/macro.py:BacksymbolLogic.sim_lim", "tm/macro.py:MacroInfLoop"]}
{"id": "C15", "title": "Macro colour coding is injective and independent of history", "statement": "However many tape_to_color / color_to_tape calls were made before (including by other machines sharing the converter), tape_to_color gives different numbers to different blocks, and color_to_tape returns the block that was encoded.", "quantifier": "for every sequence of calls on a shared converter, every block of colours below base_colors", "why_tests_cant": "the converter is a global mutable cache; correctness is over all call histories", "anchors": ["tm/macro.py:TapeColorConverter", "tm/macro.py:make_converter", "src/macros.rs:TapeColorConverter"]}
{"id": "C16", "title": "Applying a counting rule in bulk equals applying it one round at a time", "statement": "apply_rule(rule, tape) either returns None and leaves the tape unchanged, or returns times >= 1 and leaves every count as it would be after applying the rule's operations `times` times in sequence, no additively decreasing count having dropped below 1 on the way; and one more round would bring such a count to 0 or below.", "quantifier": "for every rule made of additive and multiplicative operations with at least one decreasing count, and every tape of integer counts", "why_tests_cant": "counts and `times` are unbounded and closed forms replace loops", "anchors": ["tm/rules.py:apply_rule", "tm/rules.py:count_apps", "tm/rules.py:apply_mult"]}
{"id": "C17", "title": "Rust and Python apply the same additive rule to the same effect", "statement": "For a rule with only additive operations, the Rust apply_rule leaves the same counts as the Python apply_rule.", "quantifier": "for every additive rule with a decreasing count and every tape of integer counts", "why_tests_cant": "the two implementations differ in how they treat the sign of a difference; only a general argument or a witness settles it", "anchors": ["src/rules.rs:apply_rule", "src/rules.rs:apply_plus", "tm/rules.py:apply_rule"]}
{"id": "C18", "title": "A rule inferred from four counts reproduces those counts", "statement": "If calculate_diff(a, b, c, d) returns an operation, applying it to a gives b, to b gives c and to c gives d (no operation meaning a=b=c=d).", "quantifier": "for every four integer counts", "why_tests_cant": "four unbounded integers; the code has several early exits", "anchors": ["tm/rules.py:calculate_diff", "src/rules.rs:calculate_diff"]}
{"id": "C19", "title": "make_rule declares an infinite rule only when no count decreases", "statement": "make_rule over four rounds of counts raises InfiniteRule iff every additive difference found is non-negative; otherwise the rule it returns lists exactly the positions whose counts changed, and at least one of them strictly decreases, so every application of the rule terminates.", "quantifier": "for every four rows of counts", "why_tests_cant": "unbounded integers and block lists", "anchors": ["tm/rules.py:make_rule", "src/rules.rs:make_rule"]}
{"id": "C20", "title": "Runs accelerated by rules report what a plain run would", "statement": "If Machine(prog).run() (with rules) reports undfnd, spnout or infrul, the ordinary machine started on the blank tape respectively stops at that slot, or never stops.", "quantifier": "for every program", "why_tests_cant": "rules are guessed from four observations and then applied arbitrarily many times; only a proof (or a counterexample) says whether that is safe", "anchors": ["tm/machine.py:Machine.run", "tm/prover.py:Prover", "tm/rules.py", "src/machine.rs:run_prover", "src/prover.rs:Prover"]}
{"id": "C21", "title": "Past-configuration bookkeeping never fails and predicts the next occurrence", "statement": "For any sequence of calls check/next_deltas the past-configuration table never hits its failure branch; deltas are only returned after five sightings of a state whose sighting cycles fit one linear recurrence, are non-negative, and are exactly the gaps that recurrence predicts.", "quantifier": "for every sequence of (state, cycle) sightings", "why_tests_cant": "a property of all call histories", "anchors": ["tm/prover.py:PastConfig", "src/prover.rs:PastConfig.next_deltas", "src/prover.rs:PastConfigs"]}
{"id": "C22", "title": "Symbolic numbers: sums, differences, products and powers have the right value", "statement": "For symbolic numbers built by the package (integers, Add, Mul, Div with exact quotient, Exp), int(a + b) = int(a) + int(b), and likewise for negation, subtraction, multiplication and make_exp.", "quantifier": "for every pair of well-formed symbolic numbers of any depth", "why_tests_cant": "expression trees are unbounded and the operators rewrite them by dozens of mutually recursive cases", "anchors": ["tm/num.py:Num", "tm/num.py:Add", "tm/num.py:Mul", "tm/num.py:Div", "tm/num.py:Exp", "tm/num.py:make_exp"]}
{"id": "C23", "title": "Symbolic numbers: exact division has the right value", "statement": "When den divides the value of a symbolic number n, int(n // den) = int(n) / den, and adding two exact quotients gives their sum.", "quantifier": "for every well-formed symbolic number and every positive den dividing its value", "why_tests_cant": "division cancels common factors through a symbolic gcd in unboundedly many shapes", "anchors": ["tm/num.py:Add.__floordiv__", "tm/num.py:Mul.__floordiv__", "tm/num.py:Exp.__floordiv__", "tm/num.py:Div.__add__", "tm/num.py:gcd"]}
{"id": "C24", "title": "Symbolic numbers: remainder is correct", "statement": "For a symbolic number n and modulus m >= 1, n % m equals int(n) modulo m.", "quantifier": "for every well-formed symbolic number and every modulus", "why_tests_cant": "powers are reduced through period shortcuts and hand-made tables for many moduli; each entry must be right for all exponents", "anchors": ["tm/num.py:Exp.__mod__", "tm/num.py:Add.__mod__", "tm/num.py:Mul.__mod__", "tm/num.py:Div.__mod__", "tm/num.py:exp_mod_special_cases", "tm/num.py:find_period"]}
{"id": "C25", "title": "Symbolic gcd divides both arguments", "statement": "gcd(k, n) for an integer k and a symbolic number n returns a positive common divisor of k and int(n).", "quantifier": "for every k >= 1 and every well-formed symbolic number", "why_tests_cant": "recursion over unbounded expression trees", "anchors": ["tm/num.py:gcd"]}
{"id": "C26", "title": "Symbolic comparisons agree with integer comparisons", "statement": "For symbolic numbers and integers, a < b evaluates to int(a) < int(b).", "quantifier": "for every symbolic number and every integer", "why_tests_cant": "unbounded values; the code uses shortcuts that assume the symbolic side is huge", "anchors": ["tm/num.py:Add.__lt__", "tm/num.py:Mul.__lt__", "tm/num.py:Exp.__lt__", "tm/num.py:Div.__lt__"]}
{"id": "C27", "title": "Programs survive a parse / show round trip", "statement": "Parsing the string shown for a compiled program gives the same program back, and showing a parsed well-formed string gives that string back.", "quantifier": "for every program printing colours up to 9 and going to states up to 67 (the text format has one character for each); for every well-formed text", "why_tests_cant": "the number of states and colours is a parameter; tests use a fixed list of programs", "anchors": ["tm/parse.py:tcompile", "tm/show.py:show_comp", "src/parse.rs", "src/instrs.rs"]}
{"id": "C28", "title": "is_connected decides reachability, whatever the iteration order", "statement": "is_connected(prog, states) returns true iff every state has an exit to another state and state A can be reached from the last state by following transitions. The Python version gives the same answer for every order in which its set is iterated.", "quantifier": "for every program whose states lie below the given number; for the Python version every choice set.pop may make", "why_tests_cant": "a bounded loop must be shown long enough for every graph and every order", "anchors": ["src/graph.rs:is_connected", "tools/graph.py:Graph.is_connected"]}
{"id": "C29", "title": "Entry points and exit points are converse", "statement": "For Graph(prog), t is in exit_points[s] iff s is in entry_points[t] iff some instruction of s goes to t.", "quantifier": "for every program whose targets are states it has a row for; for every iteration order of the sets", "why_tests_cant": "quantifies over all programs", "anchors": ["tools/graph.py:Graph.entry_points", "tools/graph.py:Graph.exit_points", "src/graph.rs:get_exitpoints"]}
{"id": "C30", "title": "Swapping states or colours and mirroring preserve behaviour", "statement": "The program obtained by the normaliser's swap_states, swap_colors or direction flip runs in lock-step with the original: same number of steps until it stops, with states / colours renamed or the tape mirrored.", "quantifier": "for every rectangular program (one instruction slot per state and colour), every pair of states other than A swapped, every pair of nonzero colours", "why_tests_cant": "behavioural equivalence over runs of any length", "anchors": ["tools/normalize.py:Normalizer.swap_states", "tools/normalize.py:Normalizer.swap_colors", "tools/normalize.py:Normalizer.normalize_directions"]}
{"id": "C31", "title": "normalize(prog) describes the same machine", "statement": "normalize(prog) returns a program that halts from blank tape iff prog does, after the same number of steps.", "quantifier": "for every program", "why_tests_cant": "behavioural equivalence over all programs; one unusual program is enough to break it", "anchors": ["tools/normalize.py:normalize", "tools/normalize.py:Normalizer.cut_unused_states", "tools/normalize.py:Normalizer.cinch"]}
{"id": "C32", "title": "run_for_undefined finds the first undefined slot", "statement": "run_for_undefined(prog, sim_lim) returns the step and slot at which the ordinary machine first needs a missing instruction, or None when the machine spins out or needs none within the limit.", "quantifier": "for every partial program and limit", "why_tests_cant": "skipping sweeps; unbounded runs", "anchors": ["tools/instr_seq.py:run_for_undefined", "src/tree.rs:run_for_undefined"]}
{"id": "C33", "title": "instr_seq really replays the program", "statement": "Each entry of instr_seq(prog) is a sub-program of prog together with the step and slot at which that sub-program stops from blank tape; each sub-program extends the previous one by exactly the instruction prog has for the previous slot; the slots come in the order in which prog first uses them.", "quantifier": "for every program with A0 = 1RB", "why_tests_cant": "chains of unbounded runs", "anchors": ["tools/instr_seq.py:instr_seq"]}
{"id": "C34", "title": "Tree search yields only well-formed, distinct programs", "statement": "Every program produced by tree_progs(states, colors, ...) starts with A0 = 1RB, uses only states and colours in range, and no program is produced twice.", "quantifier": "for every number of states and colours (at least two of each), every simulation limit", "why_tests_cant": "the tree is infinite as the parameters grow", "anchors": ["src/tree.rs:tree_progs", "src/tree.rs:branch", "src/tree.rs:leaf", "src/tree.rs:build_tree"]}
{"id": "C35", "title": "Tree search misses no program", "statement": "Every complete program in the search space agrees, up to renaming of states and colours, with the instructions of some program the tree produces (or the branch was dropped because the partial machine already spun out, exceeded the limit or blanked).", "quantifier": "for every number of states and colours (at least two of each) and every complete program", "why_tests_cant": "completeness over exponentially many programs for every parameter", "anchors": ["src/tree.rs:branch", "src/tree.rs:make_instrs"]}
{"id": "C36", "title": "opt_block returns a usable block size and never fails", "statement": "opt_block(prog, steps) returns a number of at least 1 for every program, never indexing out of range or underflowing on the way.", "quantifier": "for every program and step count", "why_tests_cant": "every program and step count", "anchors": ["src/blocks.rs:opt_block", "src/blocks.rs:measure_blocks", "src/blocks.rs:unroll_tape", "src/blocks.rs:compr_eff"]}
{"id": "C37", "title": "Recorded offsets cover everything a stretch of steps depends on", "statement": "After a sequence of steps on an offset-tracking tape (to_enum), the blocks beyond the recorded offsets were never used: replacing them by anything gives the same sequence of steps and leaves the replacement untouched.", "quantifier": "for every tape and every sequence of steps", "why_tests_cant": "a frame property over all tapes and all step sequences", "anchors": ["tm/tape.py:EnumTape", "src/tape.rs:EnumTape", "tm/prover.py:Prover.get_min_sig"]}
{"id": "C38", "title": "Signatures forget only counts", "statement": "Two tapes have the same signature iff they have the same scanned colour and the same block colours in order with blocks of count one in the same places; sig_compatible(sig) is true iff the scanned colours agree and each side of the tape starts with blocks of the signature's colours; a stored rule is found for a tape iff it is the first, for that state and colour, whose minimal signature is a prefix of the tape's signature on each side (the whole side where its edge flag is set).", "quantifier": "for every pair of tapes", "why_tests_cant": "tapes are unbounded", "anchors": ["tm/tape.py:Tape.signature", "tm/tape.py:Tape.sig_compatible", "src/tape.rs:Tape.signature", "tm/prover.py:Prover.get_rule"]}
{"id": "C39", "title": "Generated C code runs the same machine", "statement": "The C program text built by make_c encodes, for each (state, colour), a write, a move and a jump that equal the program's instruction, so executing its labels step by step is executing the Turing machine.", "quantifier": "for every program", "why_tests_cant": "every program and unbounded runs", "anchors": ["tools/c.py:make_c"]}
{"id": "C40", "title": "Applying a rule never leaves a count below 1", "statement": "If every count on the tape is at least 1 and apply_rule applies a rule that the prover inferred from positive counts, every count on the resulting tape is at least 1.", "quantifier": "for every inferred rule and every tape of positive counts", "why_tests_cant": "the rule's constants and the number of applications are unbounded; the bad case needs an unusual affine rule", "anchors": ["tm/rules.py:apply_rule", "tm/rules.py:apply_mult", "tm/rules.py:calculate_diff"]}
{"id": "C41", "title": "In Rust, a macro slot without instruction is a halt of the base machine", "statement": "When the Rust MacroProg::get_instr returns None for a slot (which the runner reports as `undfnd`, a halt), the base machine started on that block stops at an undefined slot.", "quantifier": "for every base program, every block size, every macro slot", "why_tests_cant": "None is also what an exhausted simulation limit gives; only reasoning about all blocks tells the two apart", "anchors": ["src/macros.rs:MacroProg::get_instr", "src/macros.rs:MacroProg::run_simulator"]}
{"id": "C42", "title": "tree_norm keeps the machine", "statement": "tree_norm(prog) returns a program that runs in lock-step with prog from blank tape up to a renaming of states and nonzero colours, so it halts iff prog does, after the same number of steps.", "quantifier": "for every rectangular program on which tree_norm returns", "why_tests_cant": "a loop of swaps whose number depends on the program, and equivalence of unbounded runs", "anchors": ["tools/tree_norm.py:tree_norm", "tools/instr_seq.py:instr_seq", "tools/normalize.py:Normalizer.swap_states", "tools/normalize.py:Normalizer.swap_colors"]}
{"id": "C43", "title": "py_segment_cant_halt is sound", "statement": "If py_segment_cant_halt(prog, segs), which computes the numbers of states and colours from the program itself, returns a segment size, the machine started on the blank tape never reaches an undefined slot.", "quantifier": "for every program string and every segment bound", "why_tests_cant": "the refutation quantifies over an unbounded run; the tests only use programs of which every colour has an instruction", "anchors": ["src/lib.rs:py_segment_cant_halt", "src/segment.rs:segment_cant_halt", "src/segment.rs:AnalyzedProg"]}
{"id": "C44", "title": "segment_cant_halt always returns", "statement": "segment_cant_halt(prog, params, segs) with segs >= 2 returns a result for every program whose states and colours lie within params: the search ends and no assertion, index or unwrap in it fails.", "quantifier": "for every program within params and every segment bound", "why_tests_cant": "an infinite loop or a panic could need an unusual program; ending rests on a cycle-finding argument and on the finiteness of the windows", "anchors": ["src/segment.rs:segment_cant_halt", "src/segment.rs:all_segments_reached", "src/segment.rs:Config::run_to_edge", "src/segment.rs:Configs"]}
{"id": "C45", "title": "run_prover reports what the machine does", "statement": "When run_prover(prog, sim_lim) returns undfnd with a slot, the machine started on the blank tape stops at that slot after `steps` moves; when it returns spnout or infrul, the machine never stops; `marks` is the number of nonzero cells, and `blanks` the first blank tapes, of the run it reports on.", "quantifier": "for every program and every limit", "why_tests_cant": "run_prover replaces moves by rules guessed from four observations; the tests compare with recorded results of selected programs only", "anchors": ["src/machine.rs:run_prover", "src/prover.rs:Prover::try_rule", "src/rules.rs:apply_rule"]}
{"id": "C46", "title": "A rule application that fails leaves the tape unchanged", "statement": "When apply_rule(rule, tape) returns None, the counts on the tape are what they were before the call, so that the run can go on by plain steps.", "quantifier": "for every rule and every tape", "why_tests_cant": "the failure in the middle of an application needs a product of more than 64 bits, which no test run comes near", "anchors": ["src/rules.rs:apply_rule", "src/rules.rs:apply_plus", "tm/rules.py:apply_rule"]}
{"id": "C47", "title": "A rule has been seen at work three times before it is used", "statement": "When Prover.try_rule returns a rule it did not know before, or raises InfiniteRule, then the machine itself, started from the given state and tape, comes back three times in a row to that state and scanned colour with the tape's block colours in place next to the head. The returned rule has exactly one entry for each block whose count changed, and an additive entry is the change in each of the three stretches; with InfiniteRule, no count of the tape decreased in any of them.", "quantifier": "for every program, state, tape and history of earlier calls (whose rules are themselves right)", "why_tests_cant": "the guess is made from predicted numbers of cycles and replayed with the rules known so far; tests only see whether final results agree", "anchors": ["tm/prover.py:Prover.try_rule", "tm/rules.py:make_rule", "src/prover.rs:Prover::try_rule", "src/rules.rs:make_rule"]}
{"id": "C48", "title": "Runs of macro machines report about the machine in the program string", "statement": "Machine(prog, blocks=k, backsym=b).run() does not depend on which macro machines the process has run before (the colour converters are shared) and never raises AssertionError from the macro program. As long as the rules it applied were right, in particular if it applied none: a report of an undefined slot names the slot at which the machine in the program string halts on the blank tape; after a report of a spin-out or of an infinite loop that machine never halts. If no rule was applied, the tape left behind stands for a configuration that machine reaches, after at least the reported number of steps.", "quantifier": "for every program, every number of cells per block, every length of backsymbol, every step limit and every state of the shared converters", "why_tests_cant": "a macro instruction stands for unboundedly many steps of the machine, colours are numbered in order of appearance across all runs of a process, and reports of not halting cannot be checked by running", "anchors": ["tm/machine.py:Machine.run", "tm/macro.py:make_macro", "tm/macro.py:MacroProg", "tm/macro.py:BlockLogic", "tm/macro.py:BacksymbolLogic", "tm/macro.py:TapeColorConverter"]}
{"id": "C49", "title": "normalize returns one normal form", "statement": "normalize gives the same text for two programs that differ only by the names of states other than A, of colours other than the blank, or by mirroring; the text is a fixed point of normalize, its states are first mentioned in their order (Graph(text).is_normal) and its first instruction prints 1 and moves right.", "quantifier": "for every program whose first instruction prints a mark and in which every state and every colour occurs", "why_tests_cant": "tests compare listed programs with their own normal form; they do not range over renamings, and the number of rounds needed is not known in advance", "anchors": ["tools/normalize.py:Normalizer", "tools/normalize.py:normalize", "tools/graph.py:Graph.is_normal"]}
{"id": "C50", "title": "The reduced graph is the kernel of the program's graph", "statement": "Graph.reduced and Graph.is_simple raise nothing and stop having nothing left to do: in the reduced graph every state has at least two exits, none of them itself, all of them left, and never exactly one entry. Its arrows are paths of instructions of the program, and states left keep reaching each other. If is_simple is false then three different states lead to each other; programs with two states, and programs without round trips between different states, are simple; with two or more colours, dispersed irreflexive programs keep all their states.", "quantifier": "for every rectangular program, every element set.pop may take and every order in which sets may be iterated", "why_tests_cant": "the number of passes is a fixed bound (states times colours) that must suffice for every program, and sets are iterated in an order Python does not promise", "anchors": ["tools/graph.py:reduce_graph", "tools/graph.py:inline_single_exit", "tools/graph.py:inline_single_entry", "tools/graph.py:purge_dead_ends", "tools/graph.py:cut_reflexive_arrows", "tools/graph.py:Graph.reduced", "tools/graph.py:Graph.is_simple"]}
{"id": "C51", "title": "is_simple does not depend on names or iteration order", "statement": "Graph.reduced and Graph.is_simple do not depend on the element taken by set.pop, on the order in which sets are iterated, or on the names of the states other than A.", "quantifier": "for every rectangular program", "why_tests_cant": "CPython iterates small sets of numbers in one particular order, and the listed programs have one naming each", "anchors": ["tools/graph.py:inline_single_entry", "tools/graph.py:inline_single_exit", "tools/graph.py:Graph.is_simple"]}
{"id": "C52", "title": "What the graph of a program says about its runs", "statement": "zero_reflexive_states are the states whose instruction for the blank stays in the state, and are among reflexive_states. A run reports a spin-out only if the program is_zero_reflexive and not is_irreflexive, whatever rules it used; if not is_zero_reflexive, cant_spin_out answers 0 at once. If is_irreflexive, a run that ends at an undefined slot without rules makes as many steps as cycles. A program with exits_dispersed that prints only its own colours never halts.", "quantifier": "for every program, every rule prover, every limit", "why_tests_cant": "tests check the agreement for the programs that were run; it is about all programs and all runs", "anchors": ["tools/graph.py:Graph.zero_reflexive_states", "tools/graph.py:Graph.is_irreflexive", "tools/graph.py:Graph.exits_dispersed", "tm/machine.py:Machine.run", "src/machine.rs:run_quick_machine", "src/machine.rs:run_prover", "src/reason.rs:cant_spin_out"]}
{"id": "C53", "title": "Applying a rule to symbolic counts gives what the rounds would give", "statement": "If apply_rule(rule, tape) returns times, the counts it leaves denote what the numbers become when every position changes by its operation times times (plus, multiply-and-add, or a sequence of operations), and all counts that are taken from stay positive. If it returns None the counts are unchanged, and nothing is taken or an integer count is too small.", "quantifier": "for every rule with multipliers above one, every tape with integer and symbolic counts, every number of rounds", "why_tests_cant": "the counts are towers of exponents, so the rounds can never be carried out to compare; the number of rounds is itself symbolic", "anchors": ["tm/rules.py:apply_rule", "tm/rules.py:count_apps", "tm/rules.py:apply_mult", "tm/rules.py:apply_ops"]}
{"id": "C54", "title": "A rule found for symbolic counts reproduces them", "statement": "If calculate_diff returns an operation for four symbolic counts, it takes the number each denotes to the next; no operation means the counts are the same. make_rule returns exactly these operations, and raises InfiniteRule only if no count becomes smaller. No AssertionError.", "quantifier": "for every four symbolic counts and all lists of them", "why_tests_cant": "the expressions are unbounded and the operation sequence is only checked syntactically and only from the second count on", "anchors": ["tm/rules.py:calculate_diff", "tm/rules.py:calculate_op_seq", "tm/rules.py:make_rule", "tm/num.py:Add.__contains__"]}
{"id": "C55", "title": "Runs with symbolic counts describe the machine", "statement": "Once a multiplicative rule has been applied the counts of the tape are symbolic. Tape.step on such a tape leaves the tape of the machine after as many moves as the returned count denotes, Tape.marks denotes the number of non-blank cells, apply_rule leaves a tape the machine reaches if the machine does one round of the rule, and the reports undfnd, spnout and infrul and the tape left by Machine.run are the machine's.", "quantifier": "for every program, every tape with integer and symbolic counts, every rule, every limit", "why_tests_cant": "the numbers of cells and of moves are towers of exponents, so that the machine cannot be run to compare; tests compare the printed estimate of marks for listed programs", "anchors": ["tm/tape.py:Tape.step", "tm/tape.py:Tape.marks", "tm/rules.py:apply_rule", "tm/prover.py:Prover.try_rule", "tm/machine.py:Machine.run"]}
{"id": "C56", "title": "Symbolic counts do not change a run", "statement": "Machine.run reports the same with counts that may be symbolic as it would with every count kept as an integer: the same result, steps, cycles, applications of rules and blank tapes, and a tape with the same counts.", "quantifier": "for every program, every limit", "why_tests_cant": "a test runs the program once, with symbolic counts, and has no second run with integers to compare; that the two agree concerns every program", "anchors": ["tm/machine.py:Machine.run", "tm/prover.py:Prover.try_rule", "tm/rules.py:make_rule", "tm/rules.py:apply_rule", "tm/tape.py:Tape.step"]}
{"id": "C57", "title": "The strict recurrence search finds the recurrence, its least period and quasihalting", "statement": "StrictLinRecMachine.run never raises. If it sets linrec = (n, per) the machine does from move n on the same at a shifted place every per moves, and no recurrence of the machine has a shorter period; spnout is set exactly for period 1; undfnd is the slot and move at which the machine halts; blanks lists exactly the first move at which the tape is blank in each state; qsihlt says whether the machine quasihalts. A machine that recurs or halts is reported once sim_lim is large enough, with an explicit bound.", "quantifier": "for every program, every sim_lim, every check_rec", "why_tests_cant": "that a recurrence goes on forever, that no shorter period exists and that nothing is missed are statements about infinite runs of every program", "anchors": ["test/lin_rec.py:StrictLinRecMachine.run", "test/lin_rec.py:History.verify_lin_rec", "test/lin_rec.py:History.check_rec", "test/lin_rec.py:BeepHistory.calculate_beeps"]}
{"id": "C58", "title": "A recurrence confirmed by sampling is one", "statement": "If the check verify_lin_rec(prog, steps, period), made on the moves sampled by LinRecSampler, passes, then the machine recurs from move steps with period period, and does not recur with the neighbouring periods that the check denies.", "quantifier": "for every program, every steps, every period", "why_tests_cant": "it is the test itself that is in question: whether passing it implies the recurrence, for every program it may be given", "anchors": ["test/lin_rec.py:LinRecSampler.run", "test/lin_rec.py:History.verify_lin_rec", "test/test_turing.py:Recur.verify_lin_rec"]}
{"id": "C59", "title": "The loose recurrence run reports what the machine does, and misses no recurrence", "statement": "run_loose_linrec_machine on a program with A0 = 1RB: undfnd comes with the slot and move at which the machine halts, spnout and infrul only for machines that recur (from a move before the reported step), blanks lists the first blank tapes. A machine that recurs from move n with period per is reported once sim_lim >= 2*max(n+1, per) + per, and one that halts in fewer than sim_lim moves is reported as undfnd.", "quantifier": "for every program with A0 = 1RB, every sim_lim", "why_tests_cant": "soundness and completeness of the comparison with a single earlier tape concern every program and the whole infinite run; tests run listed programs", "anchors": ["test/lin_rec.py:run_loose_linrec_machine", "test/lin_rec.py:HeadTape.aligns_with", "test/lin_rec.py:HeadTape.get_slice"]}
{"id": "C60", "title": "quick_term_or_rec recognises exactly the programs that recur", "statement": "For a program with A0 = 1RB, quick_term_or_rec with some limit says True (halting programs not dropped) exactly if the machine from some move on repeats itself at a shifted place; sim_lim = 2*max(n+1, per) + per suffices for a recurrence from move n with period per, in spite of the shortcuts of aligns_with that compare numbers of blocks.", "quantifier": "for every program with A0 = 1RB, every limit", "why_tests_cant": "a missed recurrence shows only as a longer list of holdouts; that none is missed is a statement about all programs", "anchors": ["src/machine.rs:quick_term_or_rec", "src/tape.rs:Alignment.aligns_with", "src/tape.rs:Alignment.get_slice"]}
{"id": "C61", "title": "The Idris machines report the run of the program, and all agree", "statement": "runOnBlankTape of the Cell, Block, Split, CellVect, BlockVect and Num machines returns for every program and limit. A report (steps, cycles, tape) gives the configuration after that many moves (scanned colour, number of marks) and the machine has halted there, or blanked its tape for the first time, or spins out; Nothing means no halt, blank tape or spin-out within the limit. All six report the same steps, cycles and marks.", "quantifier": "for every Idris program and every limit (Num: programs printing colours below 10)", "why_tests_cant": "the tests run listed programs on each tape; agreement of six representations of the tape over every run is not a finite check", "anchors": ["idris/Machine.idr:exec", "idris/Machine.idr:run", "idris/Machine.idr:runOnBlankTape", "idris/Tape.idr:ScanNSpan", "idris/Tape.idr:CellTape", "idris/Tape.idr:BlockTape", "idris/Tape.idr:SplitTape", "idris/Tape.idr:NumTape", "idris/Tape.idr:CellVectTape", "idris/Tape.idr:BlockVectTape"]}
{"id": "C62", "title": "The Idris pointer machine reports the same as the others", "statement": "runOnBlankTape of the Ptr machine returns and reports the same steps, cycles and marks as the other machines.", "quantifier": "for every Idris program and every limit", "why_tests_cant": "the listed programs do not move right over blank cells in the starting state; cycles of Ptr are not compared in Test.idr", "anchors": ["idris/Tape.idr:PtrTape", "idris/Machine.idr:PtrMachine"]}
{"id": "C63", "title": "The Idris double run reports recurrences", "statement": "runDoubleOnBlank reports (steps, cycles, tape) only for a program that never halts and repeats itself from the reported step on; the tape is that of the reported step; and a program whose state and tape come back is reported when the limit is high enough.", "quantifier": "for every Idris program, tape and limit", "why_tests_cant": "tests list a few recurrent programs; that no halting program is reported and none is missed concerns all programs", "anchors": ["idris/Machine.idr:runDouble", "idris/Machine.idr:runDoubleOnBlank"]}
{"id": "C64", "title": "The Idris parser reads the program texts of the project", "statement": "parse n k reads a text of n rows with k entries as the program it shows, accepts nothing of another shape, and the program makes the same moves as the one read by the Rust code from the same text.", "quantifier": "for every program text (any number of states and colours the Rust code can show)", "why_tests_cant": "texts are unbounded; the test programs have few states", "anchors": ["idris/Parse.idr:parse", "idris/Parse.idr:program", "idris/Parse.idr:instructions", "idris/Program.idr:CastState"]}
{"id": "C65", "title": "The number of cells the Idris implementation shows is the number of cells visited", "statement": "The tape of a report of runOnBlankTape is shown with the number of cells the head has been on in the reported number of moves.", "quantifier": "for every Idris program, every limit and each of the seven tapes", "why_tests_cant": "the tests print tapes of listed programs; Tape.idr proves for two of the tapes that moving left never loses a cell, which does not give the number", "anchors": ["idris/Tape.idr:cells", "idris/Tape.idr:NonContractingTape", "idris/Machine.idr:runOnBlankTape"]}
{"id": "C66", "title": "The tree search drops only programs that cannot become holdouts", "statement": "skip_all(prog, params, halt) answers true only if the program does not use all its slots, states and colours, is not connected (from four states on), stops or starts to repeat itself within the first 301 sweeps, or can never halt (halt) or spin out (otherwise); and every program that is incomplete, unconnected, or halts or spins out within 301 sweeps is dropped.", "quantifier": "for every program with A0 = 1RB, all numbers of states and colours from 2 on, and both goals", "why_tests_cant": "the test of tree.rs only compares how many programs remain for a few sizes; that a dropped program really cannot reach the goal is a statement about its whole run", "anchors": ["src/tree.rs:skip_all", "src/tree.rs:incomplete", "src/tree.rs:check_inf", "src/machine.rs:run_for_infrul", "src/machine.rs:quick_term_or_rec"]}
{"id": "C67", "title": "The C simulators report exactly the programs that stop", "statement": "A simulator machines/N-K.c, fed with the lines of a file through the sed command of the Makefile, prints one line for each program that within its limit of steps erases its tape, halts, or is about to leave the visited cells in a state that keeps itself on blanks, and no other line but a last `done`: the number of the program, its text, the number of steps and the number of marks on the tape.", "quantifier": "for each of the six simulators, and every list of programs of its size with A0 = 1RB and halting state H", "why_tests_cant": "the .test files hold a few programs that are known to stop; that no program is misread, that the tape left by one program does not disturb the next, that the head stays inside the array for every program, are statements about all inputs", "anchors": ["machines/machine.h:INSTRUCTION", "machines/machine.h:ACTION", "machines/machine.h:WIPE_AND_SCORE", "machines/2-2.c:main", "machines/2-3.c:main", "machines/2-4.c:main", "machines/3-2.c:main", "machines/4-2.c:main", "machines/5-2.c:main", "machines/Makefile"]}
{"id": "C68", "title": "The structured C programs follow the machines they are written for", "statement": "Each program machines/structured/N.c, compiled with XLIMIT = N, makes the moves of the machine of its PROGRAM line (or of its comments): after n moves STEPS is n and the array holds the tape, until the tape is blank, the halting state is reached, or (where CHECK_RECUR is used) the head is about to leave the visited cells in a state that keeps itself on blanks; then it ends, and its assertion holds exactly if that happens after N moves. If the machine does none of these things the program does not end.", "quantifier": "for each of the files, every number of moves and every value of XLIMIT, while the head stays on the array", "why_tests_cant": "the only test is that the assertion holds at the end, which counts the moves but does not look at the tape, takes millions of moves in some files and is skipped in three because it takes too long; that the control flow agrees with the table for every tape is not visible from one run", "anchors": ["machines/structured/machine.h", "machines/structured/Makefile", "machines/structured/1434.c", "machines/structured/15721562.c", "machines/structured/21.c", "machines/structured/2315619.c", "machines/structured/2333909.c", "machines/structured/2819.c", "machines/structured/31315.c", "machines/structured/32779477.c", "machines/structured/34.c", "machines/structured/3932964.c", "machines/structured/455790469742.c", "machines/structured/455790469746.c", "machines/structured/47176870.c", "machines/structured/66345.c", "machines/structured/7021292621.c", "machines/structured/9340.c"]}
{"id": "C69", "title": "The graph drawing of a program has exactly its transitions", "statement": "make_dot(prog) returns a text that a reader of the DOT language accepts, with exactly one arrow for every instruction of the program: from the state of its slot to the state it goes to, in a paint that tells the colour of the slot; the title is the program if it is shorter than 50 characters, and there is none otherwise.", "quantifier": "for every program of at most 26 states and 8 colours (and every text that is read as such a program)", "why_tests_cant": "the tests compare five drawings with stored files made by the same function; whether the text is DOT and shows all arrows of other programs, with more colours or missing instructions, is not compared", "anchors": ["tools/dot.py:make_dot", "tools/graph.py:Graph.__init__", "dump_graphs.py"]}
{"id": "C70", "title": "expand reads the compact notation", "statement": "expand(text), for the compact notation of a program (three characters per slot, rows separated by underscores, dashes or a move to Z for a missing instruction, with or without a line end), is the text of the same program in the project's notation, and tcompile reads the program from it.", "quantifier": "for every program, with every choice of ways to write the missing instructions", "why_tests_cant": "the tests expand three programs", "anchors": ["tools/normalize.py:expand", "normalize.py"]}
{"id": "C71", "title": "A printed tape tells the tape", "statement": "The text printed for a tape, in Python and in Rust, can be read back as the tape: colours, counts, the scanned cell and the order of the blocks (and the position of the head, for HeadTape). Python and Rust print the same text.", "quantifier": "for every tape", "why_tests_cant": "tests compare a few printed tapes; that no two tapes share a text is a statement about all pairs", "anchors": ["tm/tape.py:Block.__str__", "tm/tape.py:Tape.__str__", "tm/num.py:show_number", "src/tape.rs:Tape", "src/tape.rs:HeadTape"]}
{"id": "C72", "title": "The Lin-Rado test tries every program once, and its patterns leave out only programs that never halt", "statement": "yield_programs(states, colors, halt) gives every program that begins with 1RB and has an instruction in each slot (with halt: in each slot but one), each once and no others, as texts that tcompile reads as these programs. The two patterns used for three states and two colours leave out only programs that never halt.", "quantifier": "for every number of states up to 26 and of colours up to 10; for the patterns, every program of three states and two colours", "why_tests_cant": "the test counts the holdouts left at the end; a program that is missing from the enumeration, or wrongly left out by a pattern and not a holdout, does not change that count", "anchors": ["test/test_lin_rado.py:yield_actions", "test/test_lin_rado.py:yield_programs", "test/test_lin_rado.py:run_lin_rado"]}
{"id": "C73", "title": "lr_convert decodes the serial numbers of Lin and Rado", "statement": "lr_convert(n) is the text of the machine with the serial number n: four bits per slot, for the mark, the direction and the next card, where card 0 is the stop; different numbers give different texts.", "quantifier": "for every serial number", "why_tests_cant": "the test compares the forty numbers of the list with two stored lists of programs", "anchors": ["test/test_lin_rado.py:lr_convert"]}
{"id": "C74", "title": "branch_last gives all completions of a program with one open slot", "statement": "For a program with exactly one slot without instruction, branch_last(prog) is a list of 2 * states * colors different texts: those of the programs that have an instruction in every slot and agree with prog elsewhere. Otherwise it fails.", "quantifier": "for every program of 2 to 26 states and 2 to 10 colours whose instructions write these colours and go to these states", "why_tests_cant": "the tests call it for a few programs and check that the results cannot be decided, which a missing completion does not change", "anchors": ["test/test_turing.py:branch_last", "branch.py"]}
{"id": "C75", "title": "Equal symbolic numbers are the same object", "statement": "Symbolic numbers that have been made with the operators are one object for each expression: two of them compare equal with == exactly if they are built in the same way from the same integers, and then they are the same object with the same hash, so that a number found in a dictionary or a set is the one that was put in, whatever was computed in between.", "quantifier": "for every sequence of constructions of sums, products, quotients and powers, including those made while a product is being constructed", "why_tests_cant": "the tests clear the tables between cases and compare a few numbers; that the tables never get two entries for one expression is an invariant of all sequences of calls", "anchors": ["tm/num.py:make_add", "tm/num.py:make_mul", "tm/num.py:make_div", "tm/num.py:make_exp", "tm/num.py:Mul.__init__", "tm/num.py:Num.__eq__", "tm/num.py:Tet"]}
{"id": "C76", "title": "The text of a symbolic number is a Python expression for it", "statement": "str(x), read as a Python expression with the precedence of the language, has the value of x. So two numbers with the same text have the same value.", "quantifier": "for every symbolic number", "why_tests_cant": "the tests compare texts with literals for some numbers; that the parentheses are right for all nestings is about all expressions", "anchors": ["tm/num.py:show_number", "tm/num.py:Add.__repr__", "tm/num.py:Mul.__repr__", "tm/num.py:Div.__repr__", "tm/num.py:Exp.__repr__"]}
{"id": "C77", "title": "Dealing with every program of the tree settles the size", "statement": "If every program that the tree search hands to its harvester for a size is dealt with (known never to halt, known to have a blank tape at some point, or known to stop in its only missing slot within N moves; its slots being reached within N moves), and the sizes with one state or one colour less are settled within the limit of the search, then every program whatsoever of that size that halts does so within N moves or has a blank tape before. So nothing that matters for the longest run is lost by fixing A0 = 1RB, by naming states and colours in the order of use, by filling slots only when they are reached, by leaving out programs that do not use the last state or colour, and by cutting off long runs.", "quantifier": "for every number of states and colours (two or more), every limit and every program of the size, with any first instruction and any set of defined slots", "why_tests_cant": "the tests count the programs visited and the holdouts for a few sizes; that the programs never visited cannot run longer is a statement about all of them", "anchors": ["src/tree.rs:build_tree", "src/tree.rs:branch", "src/tree.rs:leaf", "src/tree.rs:assert_tree"]}
{"id": "C78", "title": "The estimate of a symbolic number says how large it is", "statement": "When estimate() of a symbolic number returns a power of ten, the number is that power up to a factor that depends only on how many integers are written in the expression (each rounding is off by at most a half digit); when it returns a tower of tens, the number lies between towers of that height. estimate() returns for every number.", "quantifier": "for every symbolic number of any depth and any rounding of the logarithms within a given error", "why_tests_cant": "the tests compare the estimates of a handful of numbers with what the code returned; numbers too large to compute cannot be compared with their estimate by running anything", "anchors": ["tm/num.py:Num.estimate", "tm/num.py:Add.digits", "tm/num.py:Mul.digits", "tm/num.py:Exp.digits"]}
{"id": "C79", "title": "The records of the tree search are records of all programs of the size", "statement": "The largest number of moves before the first blank tape, and before spinning out (with no blank tape earlier), among the programs that the tree search hands to its harvester is the largest among all programs of that size, whatever their first instruction, provided each of them is known to run for ever or to have a blank tape and the smaller sizes are dealt with. In particular the records the tests compare with are right for all programs: with two states and two colours, 8 and 6; with three states and two colours, 34 and 55; with two states and three colours, 77 and 59; all attained.", "quantifier": "for every number of states and colours (two or more), every limit of the search and every program of the size, including those the search never visits and those that run for ever", "why_tests_cant": "the tests note the largest values among the programs visited, each run for a bounded number of moves; a program that is not visited, or one that would blank its tape after the bound, is not seen", "anchors": ["src/tree.rs:build_tree", "src/tree.rs:branch", "src/tree.rs:leaf", "test/test_tree.py:assert_records", "test/test_tree.py:add_result"]}
{"id": "C80", "title": "Towers of powers compare and combine as what they stand for", "statement": "Tet(b, h), the estimate of a huge number, behaves as the tower b ^ (b ^ ...) of h powers: comparisons of two towers with the same base, with integers and with powers are those of the numbers, the base to the power of a tower is the next tower, and a sum, difference or product that is returned is the exact one up to a small factor (twice, half, the square).", "quantifier": "for every base from 2 and every height, and every other operand", "why_tests_cant": "the numbers cannot be computed (int of a tower raises), so a test can only repeat what the code returns", "anchors": ["tm/num.py:Tet.__lt__", "tm/num.py:Tet.__eq__", "tm/num.py:Tet.__rpow__", "tm/num.py:Tet.__sub__", "tm/num.py:Num.__gt__"]}
