{"id": "C01", "title": "Literal encoding is a faithful, bit-exact signed variable", "statement": "For every variable number 1..=2^31-1, Literal::new(n) yields a positive literal whose get_number is n; `!` flips is_negated, keeps get_number and is an involution; negate_if_true(b) negates iff b; distinct (number, sign) pairs give distinct literals, and the ordering of literals follows variable numbers first. Outside that range Literal::new panics in a debug build, while a release build silently aliases n with n mod 2^31.", "quantifier": "every u32 number, both signs, both build profiles", "why_tests_cant": "2^32 values times operations; tests use a handful of small numbers", "anchors": ["src/formulas/literal.rs: Literal::new, negate_if_true, get_number, is_negated, Not"]}
{"id": "C02", "title": "Clauses and cubes are order-insensitive canonical multisets of literals", "statement": "Clause::new / Cube::new of two literal slices are equal iff one slice is a permutation of the other; iter() yields exactly the given literals (with multiplicity) in ascending order; len/is_empty agree with the slice; get_highest_variable_number is the maximum variable number occurring (0 for the empty clause).", "quantifier": "every finite slice of literals and every permutation", "why_tests_cant": "unbounded lengths and orders", "anchors": ["src/formulas/clause.rs: Clause::new, len, iter, get_highest_variable_number", "src/formulas/cube.rs: Cube::new"]}
{"id": "C03", "title": "Clause/cube negation is logical complement", "statement": "For every valuation, !clause holds (as a conjunction) iff clause does not hold (as a disjunction), and symmetrically for cubes; negating twice gives back an equal clause/cube.", "quantifier": "every clause, cube and valuation", "why_tests_cant": "infinitely many clauses and valuations", "anchors": ["src/formulas/clause.rs: Not", "src/formulas/cube.rs: Not"]}
{"id": "C04", "title": "A CNF behaves as a set of clauses under any history of add_clause/append", "statement": "After any sequence of add_clause and append operations starting from CNF::new, contains(c) is true iff c was added (directly or through an appended CNF), len() is the number of distinct clauses, is_empty iff none, iter() enumerates each once, get_max_variable_number() is the maximum variable over all clauses, a valuation satisfies the CNF iff it satisfies every added clause, and two CNFs compare equal iff they hold the same clauses regardless of insertion order or repetition.", "quantifier": "every finite history of operations", "why_tests_cant": "unbounded operation sequences and orders", "anchors": ["src/formulas/cnf.rs: CNF::new, add_clause, append, contains, len, iter, get_max_variable_number, PartialEq"]}
{"id": "C05", "title": "to_cnf preserves meaning", "statement": "Cube::to_cnf is satisfied by a valuation iff all literals of the cube are true; Clause::to_cnf iff some literal is true; in particular the empty cube gives a valid CNF and the empty clause an unsatisfiable one.", "quantifier": "every cube/clause and valuation", "why_tests_cant": "infinite domain", "anchors": ["src/formulas/cube.rs: to_cnf", "src/formulas/clause.rs: to_cnf"]}
{"id": "C06", "title": "DIMACS text of a CNF is canonical and lossless", "statement": "to_string of two CNFs is the same text iff the CNFs are equal as clause sets (whatever HashSet iteration order or insertion history), and an independent DIMACS reader applied to the text recovers the variable count, the clause count and exactly the clauses.", "quantifier": "every CNF without variable 0 (debug builds admit no other), every history of calls that built it and every internal iteration order", "why_tests_cant": "hash iteration order is randomised per process; CNFs unbounded", "anchors": ["src/formulas/cnf.rs: Display", "src/formulas/clause.rs: Display", "src/formulas/literal.rs: Display"]}
{"id": "C07", "title": "Assignment stores exactly the DIMACS model it was given", "statement": "For an i32 vector without i32::MIN (and, in debug builds, without 0), from_dimacs_assignment(v).get_value(n) is Some(true) iff n is listed, Some(false) iff -n is listed and n is not, None iff neither is; the list order and repetitions do not matter. Exactly the other vectors make it panic.", "quantifier": "every i32 vector, build profile and variable n > 0", "why_tests_cant": "infinite domain", "anchors": ["src/solvers/sat/assignment.rs: from_dimacs_assignment, get_value"]}
{"id": "C08", "title": "Formula evaluation under an assignment is correct", "statement": "If the assignment gives a value to every variable of the formula, evaluate_assignment_on_literal/clause/cnf return exactly the truth value of the formula under those values, for every iteration order; if they return at all, the value is right for every completion of the assignment.", "quantifier": "every CNF, assignment (also partial) and iteration order", "why_tests_cant": "infinite domain, hash order", "anchors": ["src/algorithms/formula_logic.rs: evaluate_assignment_on_literal, evaluate_assignment_on_clause, evaluate_assignment_on_cnf"]}
{"id": "C09", "title": "does_a_imply_b decides logical implication", "statement": "With any correct SAT solver, does_a_imply_b(a, b) returns true iff every valuation satisfying a satisfies b, for every iteration order of b's clauses and every model the solver may return. It does not matter which variables the solver's models give a value to.", "quantifier": "every pair of CNFs over the variables 1..V for which the solver is correct, every correct solver behaviour, hash order and shuffle", "why_tests_cant": "all formulas and all solver behaviours", "anchors": ["src/algorithms/formula_logic.rs: does_a_imply_b"]}
{"id": "C10", "title": "is_a_and_b_satisfiable decides joint satisfiability", "statement": "With any correct SAT solver, is_a_and_b_satisfiable(a, b) returns, and returns true iff some valuation satisfies both CNFs. It does not matter which variables the solver's models give a value to.", "quantifier": "every pair of CNFs over the variables 1..V for which the solver is correct, every correct solver behaviour, hash order and shuffle", "why_tests_cant": "all formulas", "anchors": ["src/algorithms/formula_logic.rs: is_a_and_b_satisfiable"]}
{"id": "C11", "title": "get_all_variable_numbers_in_cnf returns exactly the variables occurring", "statement": "A number is in the returned set iff some literal of some clause has that number.", "quantifier": "every CNF", "why_tests_cant": "infinite domain", "anchors": ["src/algorithms/formula_logic.rs: get_all_variable_numbers_in_cnf"]}
{"id": "C12", "title": "Stateless solver front-ends translate faithfully", "statement": "For the Varisat, Splr and CaDiCaL front-ends: if the back-end decides the signed-integer clause list it is handed, then solve_cnf answers UnSat only for unsatisfiable CNFs and otherwise returns an assignment all of whose values extend to a satisfying valuation.", "quantifier": "every CNF with variables 1..2^31-1 (CaDiCaL: 1..2^31-2; a debug build panics at the excluded point), every correct back-end answer, build profile", "why_tests_cant": "all formulas and back-end models", "anchors": ["src/solvers/sat/stateless/cadical_solver.rs: solve_cnf", "src/solvers/sat/stateless/splr_solver.rs: solve_cnf", "src/solvers/sat/stateless/varisat_solver.rs: solve_cnf"]}
{"id": "C13", "title": "Stateful MiniSat front-end: every solve is about exactly the CNFs added so far plus its own temporaries", "statement": "After any history of add_cnf and solve calls, solve(cube, clause) answers for (conjunction of all CNFs added so far) AND cube AND clause: UnSat only if that is unsatisfiable, otherwise values extending to a model of it. Temporaries of earlier solve calls never influence later answers, also when temporaries mention variables never seen before.", "quantifier": "every history of add_cnf/solve calls", "why_tests_cant": "unbounded histories; activation-literal leaks only show after particular sequences", "anchors": ["src/solvers/sat/stateful/minisat_solver.rs: add_cnf, solve, handle_temporary_extra_clause"]}
{"id": "C14", "title": "Stateful CaDiCaL front-end: same contract, with its own variable numbering", "statement": "Same statement for the CaDiCaL front-end, where the crate itself allocates back-end variables: translated variables and activation variables never collide in any history that needs fewer than 2^31-1 back-end variables (entries of the literal table plus temporary clauses). A history that needs more panics in a debug build.", "quantifier": "every history of add_cnf/solve calls", "why_tests_cant": "unbounded histories", "anchors": ["src/solvers/sat/stateful/cadical_solver.rs: new_lit, extend_cadical_literals_if_needed, add_cnf, solve, handle_temporary_extra_clause"]}
{"id": "C15", "title": "AIGER delta decoding inverts the standard encoding", "statement": "For every number below 2^38 the decoder applied to its 7-bit little-endian encoding followed by any bytes returns that number and the position just after; every successful decode consumes between 1 and 6 bytes inside the buffer and returns a value below 2^38; codes longer than that, and truncated codes, make it panic.", "quantifier": "every number, suffix and byte string", "why_tests_cant": "2^38 values times suffixes", "anchors": ["src/models/and_inverter_graph/construction.rs: read_delta"]}
{"id": "C16", "title": "Line splitting loses nothing", "statement": "Splitting bytes at newlines and joining with newlines gives back the original bytes up to one trailing newline, and no produced line contains a newline.", "quantifier": "every byte string", "why_tests_cant": "infinite domain", "anchors": ["src/models/and_inverter_graph/construction.rs: split_vector_by_newline"]}
{"id": "C17", "title": "Every accepted .aig file yields a well-formed circuit", "statement": "Whenever from_aig_path accepts a byte string, the resulting AIG has exactly 1+I+L+A nodes laid out constant, inputs, latches, ANDs, node i having literal 2i; every AND has inputs strictly below its output (acyclic); every literal mentioned is within range; every latch reset is 0, 1 or the latch itself; counts match the header. A byte string whose header counts do not add up makes the reader panic, and debug and release builds accept the same byte strings.", "quantifier": "every byte string", "why_tests_cant": "all inputs, including malformed ones", "anchors": ["src/models/and_inverter_graph/construction.rs: from_vector_of_bytes, check_first_line_of_aig_and_load_it, create_*_nodes_of_aig, check_aig"]}
{"id": "C18", "title": "Reading is the inverse of writing binary AIGER", "statement": "Encoding a well-formed circuit (no justice/fairness) in the binary AIGER format and reading it with from_aig_path returns that same circuit: inputs, latches with next and reset, outputs, bad, constraints, ANDs, and the comment text without NUL bytes and one final newline. The reader accepts exactly the byte strings that are a file of some well-formed circuit followed by a valid symbol table and comment section, of exactly one circuit each, and panics on every other byte string.", "quantifier": "every well-formed circuit below the size limits of the reader (2^37 variables, capacity of a Vec), every spelling of its numbers, symbol table and comment; every byte string", "why_tests_cant": "infinite domain", "anchors": ["src/models/and_inverter_graph/construction.rs: from_vector_of_bytes"]}
{"id": "C19", "title": "get_aag_string is a faithful ASCII AIGER rendering", "statement": "An independent ASCII-AIGER reader applied to get_aag_string returns the header counts, inputs, latches (next, reset), outputs, bad, constraints and ANDs of the circuit, for every circuit read from a file.", "quantifier": "every circuit obtainable from a file", "why_tests_cant": "infinite domain", "anchors": ["src/models/and_inverter_graph/conversion.rs: get_aag_string"]}
{"id": "C20", "title": "Symbol names survive the round trip .aig -> get_aag_string", "statement": "The symbol table printed by get_aag_string assigns to every input, latch, output, bad and constraint position the name the file gave it. (False for outputs/bad/constraints that share a node: the later name overwrites the earlier.)", "quantifier": "every accepted file with symbols", "why_tests_cant": "infinite domain", "anchors": ["src/models/and_inverter_graph/construction.rs: add_symbol_to_node", "src/models/and_inverter_graph/conversion.rs: get_aag_string"]}
{"id": "C21", "title": "simulate computes the circuit semantics", "statement": "When simulate returns, the result has one row per clock, each row gives every node its AIG value (constant 0, inputs as supplied, AND = conjunction of its possibly inverted inputs), latches start at their reset value (or the supplied value when uninitialised) and each later row's latches equal the previous row's value of the latch input. The result is the unique such trace.", "quantifier": "every well-formed circuit, input sequence and initial latch map", "why_tests_cant": "all circuits and all input sequences", "anchors": ["src/models/and_inverter_graph/simulation.rs: simulate, get_initial_simulation_state, get_next_simulation_state, get_and_result"]}
{"id": "C22", "title": "simulate accepts every complete stimulus", "statement": "For a well-formed circuit, simulate does not panic when there is at least one clock, every clock supplies exactly the input variables, and initial_latches supplies exactly the uninitialised latches. (False as stated: the pre-check compares a reset literal with a node index, so a circuit without inputs whose first latch resets to 1 is rejected.)", "quantifier": "every circuit and stimulus", "why_tests_cant": "depends on a coincidence between literal and index", "anchors": ["src/models/and_inverter_graph/simulation.rs: simulate"]}
{"id": "C23", "title": "Cone of influence is exact", "statement": "get_and_information_in_cone_of_influence(lits) returns, without repetition, exactly the AND gates reachable from lits through AND inputs, each with its true input literals; it terminates for every well-formed circuit.", "quantifier": "every well-formed circuit and literal list", "why_tests_cant": "all circuits", "anchors": ["src/models/and_inverter_graph/getting.rs: get_and_information_in_cone_of_influence"]}
{"id": "C24", "title": "Circuit getters report the circuit", "statement": "get_input_information, get_latch_information, get_bad/constraints/output_information and get_highest_variable_number never panic on an AIG read from a file and return the input literals 2..2I, one triple (literal, next, reset) per latch in order, and the stored lists.", "quantifier": "every AIG read from a file", "why_tests_cant": "all inputs", "anchors": ["src/models/and_inverter_graph/getting.rs"]}
{"id": "C25", "title": "Initial relation characterises the reset states", "statement": "A valuation satisfies get_initial_relation().to_cnf() iff every latch with reset 0 is false and every latch with reset 1 is true; latches without reset are unconstrained.", "quantifier": "every AIG and valuation", "why_tests_cant": "all circuits, all states", "anchors": ["src/models/finite_state_transition_system/construction.rs: create_initial_cnf", "src/models/finite_state_transition_system/getting.rs: get_initial_relation"]}
{"id": "C26", "title": "Transition relation is exactly one clock step", "statement": "For every latch state and input vector there is a valuation satisfying get_transition_relation() that extends them, and every satisfying valuation gives each latch's next-state variable (number + max) the value that simulating one clock of the AIG gives.", "quantifier": "every AIG, state and input vector", "why_tests_cant": "2^(latches+inputs) per circuit, all circuits", "anchors": ["src/models/finite_state_transition_system/construction.rs: create_transition_cnf, get_cnf_that_describes_wire_values_as_a_function_of_latch_values_for_specific_wires"]}
{"id": "C27", "title": "Safety translation characterises bad states", "statement": "state_to_safety_translation AND unsafety_property is satisfiable together with a given latch state and input vector iff some bad literal (or output, when requested) is 1 in the AIG at that state and input; with the safety property instead, iff none is.", "quantifier": "every AIG with non-constant bad literals, state and input vector", "why_tests_cant": "all circuits and states", "anchors": ["src/models/finite_state_transition_system/construction.rs: create_state_to_safety_translation, create_unsafety_property", "src/models/finite_state_transition_system/getting.rs: get_safety_property, get_unsafety_property"]}
{"id": "C28", "title": "from_aig accepts or rejects exactly as documented", "statement": "from_aig panics when the circuit has constraints or too many variables, and succeeds on every other AIG read from a file whose bad literals (and outputs, when taken as bad) are not constants and whose doubled variable range fits a literal. Debug builds accept exactly these; a constant bad literal makes them panic. Release builds accept every circuit without constraints and with fewer than 2^31-1 variables: a constant bad literal becomes a literal of variable 0, which no formula fixes, and the numbers of next-state variables are reduced modulo 2^31.", "quantifier": "every AIG", "why_tests_cant": "all circuits", "anchors": ["src/models/finite_state_transition_system/construction.rs: from_aig, get_literal_from_aig_literal, create_unsafety_property"]}
{"id": "C29", "title": "Tagging renames variables by frame and nothing else", "statement": "add_tags_to_relation/cube/clause with n tags is satisfied by a valuation iff the original is satisfied by that valuation read at variable+n*max; tagging by 0 is the identity, tags compose additively, and it succeeds as long as the largest shifted variable fits a literal. A debug build succeeds exactly when n*max fits a u32 and all shifted variables are in the range of literals, and panics otherwise. A release build never panics; it reduces the shifted variables modulo 2^31.", "quantifier": "every formula without variable 0, tag count (times the number of variables below 2^32) and valuation", "why_tests_cant": "unbounded tags", "anchors": ["src/models/finite_state_transition_system/features.rs: add_tags_to_relation, add_tags_to_cube, add_tags_to_clause, bump_all_clause_variables_by_some_number"]}
{"id": "C30", "title": "is_cube_initial decides intersection with the initial states", "statement": "For every cube without complementary literals is_cube_initial(c) is true iff some initial state satisfies c. (For contradictory cubes it may answer true.)", "quantifier": "every AIG and cube", "why_tests_cant": "all cubes", "anchors": ["src/models/finite_state_transition_system/features.rs: is_cube_initial"]}
{"id": "C31", "title": "extract_state_from_assignment returns the full latch state", "statement": "If the assignment values every latch, the result is a cube with exactly one literal per latch, satisfied by a valuation iff it agrees with the assignment on all latches; otherwise it panics.", "quantifier": "every FSTS and assignment", "why_tests_cant": "all assignments", "anchors": ["src/models/finite_state_transition_system/features.rs: extract_state_from_assignment"]}
{"id": "C32", "title": "Dropping latches outside the transition cone is harmless", "statement": "Two latch states that agree on the latches kept by intersect_cube_with_cone_of_transition have, under equal inputs, the same successor. What is kept is exactly the literals of latches that the next state reads, directly or through gates.", "quantifier": "every AIG, state and input", "why_tests_cant": "all circuits", "anchors": ["src/models/finite_state_transition_system/features.rs: intersect_cube_with_cone_of_transition", "src/models/finite_state_transition_system/construction.rs: from_aig"]}
{"id": "C33", "title": "Dropping latches outside the safety cone is harmless", "statement": "Two latch states that agree on the latches kept by intersect_cube_with_cone_of_safety agree, under equal inputs, on being bad. (False when a bad literal is itself a latch: the cone is computed from the AND clauses only.) What is kept is exactly the literals of latches that a gate in the cone of the bad literals reads.", "quantifier": "every AIG, state and input", "why_tests_cant": "needs a bad wire that is directly a latch", "anchors": ["src/models/finite_state_transition_system/features.rs: intersect_cube_with_cone_of_safety", "src/models/finite_state_transition_system/construction.rs: from_aig"]}
{"id": "C34", "title": "check_invariant accepts only genuine safety proofs", "statement": "With a correct solver: if check_invariant returns without panicking for a candidate over current-frame variables, the candidate holds at every clock of every execution, is an inductive invariant of the circuit, and no bad state is reachable. No candidate is accepted for an unsafe circuit, whatever variables it mentions: in debug builds without any condition, in release builds if renaming keeps its variables in the range of literals. For a candidate over inputs, latches and the gates the bad literals depend on, it returns if and only if the candidate holds in all reset states, is preserved by every clock and excludes bad states. (Other gates are free variables of the formulas, so a true statement about them may be rejected.) It does not matter which variables the solver's models give a value to.", "quantifier": "every supported AIG and candidate CNF; every solver correct for variables up to 2^31-2 (debug claim about any candidate: up to 2^31-1)", "why_tests_cant": "all circuits and candidates", "anchors": ["src/models/finite_state_transition_system/features.rs: check_invariant"]}
{"id": "C35", "title": "BMC NoCTX is a real bounded guarantee", "statement": "If search returns NoCTX{depth_reached: d} then no execution of the circuit reaches a bad state within d steps, whatever timeouts occurred. It does not matter which variables the solver's models give a value to.", "quantifier": "every AIG accepted by from_aig, depth limit, timeout schedule and correct solver behaviour; release builds within the representable variable range (outside it variable numbers wrap and the guarantee is lost, see C73), debug builds without restriction", "why_tests_cant": "all circuits, depths and timing", "anchors": ["src/algorithms/bmc.rs: search, timed_sat_call"]}
{"id": "C36", "title": "BMC CTX is a real, shortest counterexample", "statement": "If search returns CTX{assignment, depth} then no execution of fewer steps reaches a bad state, and however the variables the assignment leaves open are filled in there is one execution of the circuit of exactly depth steps ending in a bad state whose wires have those values: every input and latch of every frame, every gate the next state depends on (frames before the last) and every gate a bad literal depends on (last frame). If the solver's models need not value every variable, there is one such filling-in, and the depth is still that of a shortest counterexample.", "quantifier": "every AIG accepted by from_aig, depth limit, timeout schedule and correct solver behaviour; release builds within the representable variable range, debug builds without restriction", "why_tests_cant": "all circuits and solver models", "anchors": ["src/algorithms/bmc.rs: search"]}
{"id": "C37", "title": "BMC finds what exists", "statement": "Without timeouts and within the representable range, search with limit d returns CTX iff some bad state is reachable within d steps, otherwise NoCTX{d}. With timeouts it still returns. It does not matter which variables the solver's models give a value to.", "quantifier": "every AIG and depth limit", "why_tests_cant": "all circuits", "anchors": ["src/algorithms/bmc.rs: search"]}
{"id": "C38", "title": "IC3 (stateless) Proof means safe, with a certified invariant", "statement": "If prove returns Proof{invariant} then no bad state is reachable at any depth and check_invariant accepts the invariant.", "quantifier": "every supported AIG whose two-frame variables fit a literal, build profile, correct solver behaviour, shuffle and hash order", "why_tests_cant": "unbounded executions; random choices", "anchors": ["src/algorithms/proof/ic3_stateless_solver.rs: prove"]}
{"id": "C39", "title": "IC3 (stateless) CTX means unsafe", "statement": "If prove returns CTX{depth} then a bad state is reachable. Let e be the length of the shortest counterexample: if e <= 1 then depth = e, otherwise 1 <= depth < e. (So depth is exact up to 1 and too small beyond.)", "quantifier": "every supported AIG whose two-frame variables fit a literal, build profile, correct solver behaviour, shuffle and hash order", "why_tests_cant": "unbounded executions; random choices", "anchors": ["src/algorithms/proof/ic3_stateless_solver.rs: prove, strengthen, push_generalization"]}
{"id": "C40", "title": "IC3 (stateless) always terminates without panicking", "statement": "For every AIG accepted by from_aig whose two-frame variables fit a literal and every correct solver, prove returns, no loop running more than (2^latches+1)(2^latches+2) times, and no index, unwrap, unreachable or debug_assert fails. The one exception: a frame number above 2^32 - 1 would panic in its conversion to u32, which can only happen if a bad state is reachable, but not in fewer than 2^32 steps (so never on a safe circuit, and never with 32 latches or fewer).", "quantifier": "every supported AIG, build profile, correct solver behaviour, shuffle, hash order and tie-breaking", "why_tests_cant": "termination is not testable", "anchors": ["src/algorithms/proof/ic3_stateless_solver.rs"]}
{"id": "C41", "title": "IC3 (stateful) is sound, complete and terminating", "statement": "Same statements for IC3Stateful with any stateful solver meeting its contract: Proof iff no bad state is reachable, CTX iff one is, with depth = e if the shortest counterexample has length e <= 1 and 1 <= depth < e otherwise; always returns, never panics (same exception for shortest counterexamples of 2^32 steps or more).", "quantifier": "every supported AIG, build profile, correct stateful solver behaviour, shuffle, hash order and tie-breaking", "why_tests_cant": "unbounded executions", "anchors": ["src/algorithms/proof/ic3_stateful_solver.rs: prove"]}
{"id": "C42", "title": "PDR Proof means safe", "statement": "If PDR::prove returns Proof{invariant} then no bad state is reachable and check_invariant accepts the invariant. (False in release builds when a bad literal is directly a latch that no gate in the cone of the bad literals reads, e.g. for tests/examples/ours/counter_with_bad_assertion.aig; debug builds panic there. Proved for all circuits in debug builds, and for all other circuits in release builds. A bad initial state is excluded by every Proof, for all circuits in both builds. For all circuits in both builds the invariant is a condition on latches that every clock preserves and that excludes bad states; check_invariant accepts it exactly if it holds initially, and then the circuit is safe.)", "quantifier": "every supported AIG whose two-frame variables fit a literal, build profile, correct stateful solver behaviour, shuffle and hash order", "why_tests_cant": "unbounded executions; needs particular wiring", "anchors": ["src/algorithms/proof/pdr.rs: prove, z_get_bad_cube", "src/models/finite_state_transition_system/features.rs: intersect_cube_with_cone_of_safety"]}
{"id": "C43", "title": "PDR CTX means unsafe", "statement": "If PDR::prove returns CTX{depth} then a bad state is reachable; with e the length of the shortest counterexample, depth <= e, and depth = 0 iff e = 0. (With a latch as bad literal that no gate in the cone reads the first part fails in both build profiles: PDR can report a counterexample of a safe circuit. Debug builds keep the lower bound even then, and depth 0 means a bad initial state for every circuit and profile. Conversely PDR answers CTX{depth: 0} for every circuit with a bad initial state, except that when no bad literal is a gate it may panic instead, at the unwrap in features.rs:107.)", "quantifier": "every supported AIG in which each latch that is a bad literal is read by a gate in the cone of the bad literals (for the lower bound in debug builds: every supported AIG), build profile, correct stateful solver behaviour, shuffle and hash order", "why_tests_cant": "unbounded executions", "anchors": ["src/algorithms/proof/pdr.rs: prove, rec_block_cube"]}
{"id": "C44", "title": "PDR always terminates; its panics are characterised", "statement": "On every supported AIG prove terminates within an explicit number of iterations. Of all index operations, unwraps, unreachable!s and debug_asserts only three can fail: the conversion of a frame number to u32, which needs 32 or more latches and, unless such a latch literal (see the next case) exists, a shortest counterexample of 2^32 steps or more; the assertion pdr.rs:568 in debug builds when a latch is a bad literal that no gate in the cone reads; the unwrap in extract_state_from_assignment when there are bad literals and none is an AND gate. Otherwise it returns, and the verdict decides safety.", "quantifier": "every supported AIG whose two-frame variables fit a literal, build profile, correct stateful solver behaviour, shuffle, hash order and tie-breaking", "why_tests_cant": "termination is not testable", "anchors": ["src/algorithms/proof/pdr.rs"]}
{"id": "C45", "title": "All provers agree", "statement": "On the same circuit, any two returning runs of IC3Stateless, IC3Stateful and (when every latch among the bad literals is read by a gate in their cone) PDR return the same verdict, whichever correct front-end (MiniSat or CaDiCaL) is behind them. BMC never contradicts them: it finds no counterexample after Proof, its depth is at least the one of any CTX and zero exactly if that one is, and after CTX it confirms at some depth limit.", "quantifier": "every supported AIG and all nondeterminism (solvers, schedules, hash orders, build profiles)", "why_tests_cant": "all circuits and all random choices", "anchors": ["tests/compare_provers.rs", "src/algorithms/proof/mod.rs: FiniteStateTransitionSystemProver"]}
{"id": "C46", "title": "File-to-verdict correctness", "statement": "For every accepted .aig byte string without constraints, with non-constant bad literals, variables of two frames that fit a literal and no shortest counterexample of 2^32 steps or more (impossible with 32 latches or fewer): reading it, building the FSTS and running IC3 returns Proof iff no execution of the circuit described by the file reaches a bad state, CTX iff one does. The same holds for IC3Stateful and, with bad literals as PDR needs them, for PDR on the system read from the file. Bounded model checking of the file without timeouts finds a counterexample iff there is one within the limit, and a stimulus read off it, run in the simulator of the same file's graph, shows a bad literal at the last clock and not before.", "quantifier": "every byte string", "why_tests_cant": "all files", "anchors": ["src/models/and_inverter_graph/construction.rs: from_aig_path", "src/models/finite_state_transition_system/construction.rs: from_aig", "src/algorithms/proof/ic3_stateless_solver.rs: prove"]}
{"id": "C47", "title": "The algorithms are right with the crate's own solver front-ends", "statement": "With CaDiCalSolver, SplrSolver or VarisatSolver as the type parameter (front-end code of the crate over a back-end crate that meets its contract), IC3Stateless decides safety (unless the shortest counterexample has 2^32 steps or more), BMC gives real bounded guarantees and real shortest counterexamples and is exact without timeouts, and reading a file, building the FSTS (with the crate's Varisat front-end in the debug assertion) and proving gives the right verdict (for building, Varisat's models need not value every variable). No solver front-end panics on any formula the algorithms build, except that CaDiCaL is limited to variables below 2^31-1 in BMC.", "quantifier": "every supported AIG or accepted file, build profile, back-end behaviour within its contract (possibly different on every call), hash order, shuffle, clock", "why_tests_cant": "all circuits, all models a back-end may choose, variable numbers near 2^31", "anchors": ["src/solvers/sat/stateless/cadical_solver.rs: solve_cnf", "src/solvers/sat/stateless/splr_solver.rs: solve_cnf", "src/solvers/sat/stateless/varisat_solver.rs: solve_cnf", "src/algorithms/proof/ic3_stateless_solver.rs: prove", "src/algorithms/bmc.rs: search", "tests/ic3_stateless.rs", "tests/bmc.rs"]}
{"id": "C48", "title": "IC3Stateful and PDR over the CaDiCaL front-end", "statement": "With the crate's stateful CaDiCaL front-end as the type parameter (as in tests/compare_provers.rs), verdicts of IC3Stateful and PDR mean the same as with MiniSat: Proof only if no bad state is reachable and with an invariant check_invariant accepts, CTX only if one is and with the depths of C41 and C43. Apart from the conversion of a depth above 2^32 to u32, the only possible panic in a debug build is the overflow of the front-end's i32 counter, and a release build returns what the checked run returns whenever that one returns.", "quantifier": "every supported AIG (for PDR: with bad literals as in C43/C44), back-end behaviour within its contract, hash order, shuffle, queue tie-breaks", "why_tests_cant": "all circuits and models; runs with 2^31 temporary clauses", "anchors": ["src/solvers/sat/stateful/cadical_solver.rs: new_lit, add_cnf, solve", "src/algorithms/proof/ic3_stateful_solver.rs: prove", "src/algorithms/proof/pdr.rs: prove", "tests/compare_provers.rs"]}
{"id": "C49", "title": "A release build returns whatever a debug build returns", "statement": "Whenever the debug build of a function returns a value, the release build returns the same value: reading an AIG, building the FSTS, the five solver front-ends, check_invariant, BMC, IC3Stateless, PDR (with MiniSat and with CaDiCaL), and IC3Stateful for back-ends and schedules that react the same way every time (its debug assertions ask the solver). No contract on the solver is assumed. The converse is false: debug builds may panic where release builds go on.", "quantifier": "every input, system, solver behaviour (right or wrong), hash order, shuffle, clock", "why_tests_cant": "tests run one profile; equality is over all inputs and all solver behaviours", "anchors": ["Cargo.toml: profiles", "src/algorithms/proof/ic3_stateless_solver.rs: prove", "src/algorithms/proof/ic3_stateful_solver.rs: prove, is_clause_inductive_relative_to_fi", "src/algorithms/proof/pdr.rs: prove", "src/algorithms/bmc.rs: search", "src/models/and_inverter_graph/construction.rs: from_vector_of_bytes", "src/models/finite_state_transition_system/construction.rs: from_aig"]}
{"id": "C50", "title": "Each prover run has one outcome", "statement": "The loops of the three provers have no bound in the code; the model gives them fuel. A run that ends with less fuel than given ends in the same way with any larger amount, so the outcome (verdict with its invariant or depth, or panic) is a property of the code, not of the model's bound; for supported circuits and correct solvers it is reached within the explicit bounds of C40, C41 and C44.", "quantifier": "every system, every solver behaviour, hash order, shuffle, fuel", "why_tests_cant": "unbounded loops", "anchors": ["src/algorithms/proof/ic3_stateless_solver.rs: prove, push_generalization", "src/algorithms/proof/ic3_stateful_solver.rs: prove, push_generalization", "src/algorithms/proof/pdr.rs: prove, rec_block_cube"]}
{"id": "C51", "title": "Calling prove again on the same prover object", "statement": "prove takes &mut self and does not reset its frames. Release builds of IC3Stateless and IC3Stateful give a correct verdict at every further call, and each call returns (unless the shortest counterexample has 2^32 steps or more). In debug builds every call returns CTX{e} if the shortest counterexample has e <= 1 steps; otherwise the second call panics at the assertion on the number of frames, whatever the first call returned. The second call of PDR panics for every circuit: in debug builds at the assertion on the number of solvers, in release builds at a solver index out of bounds.", "quantifier": "every supported AIG, number of calls, correct solver behaviour, shuffle, hash order", "why_tests_cant": "state left by unbounded earlier runs; tests create one object per run", "anchors": ["src/algorithms/proof/ic3_stateless_solver.rs: prove", "src/algorithms/proof/ic3_stateful_solver.rs: prove", "src/algorithms/proof/pdr.rs: prove, z_new_frame, z_get_bad_cube"]}
{"id": "C52", "title": "BMC counterexamples replay in the simulator", "statement": "Take the assignment of CTX{assignment, depth} and any stimulus of depth+1 clocks for AndInverterGraph::simulate that has the assignment's value for every input of every frame, and for every first-frame latch without reset value, wherever the assignment gives one. If simulate accepts it, a bad literal is true at clock depth and at no earlier clock, and every input and latch has the assignment's value at every clock. The stimulus that fills in false and gives all latches a start value is such a stimulus and is always accepted.", "quantifier": "every AIG accepted by from_aig, depth limit, timeout schedule, correct solver behaviour and stimulus read off the assignment", "why_tests_cant": "relates two independent parts of the crate over all circuits, solver models and choices for unmentioned variables", "anchors": ["src/algorithms/bmc.rs: search", "src/models/and_inverter_graph/simulation.rs: simulate", "src/models/finite_state_transition_system/features.rs: add_tags_to_relation"]}
{"id": "C53", "title": "IC3 clause generalisation", "statement": "get_subclause_of_not_s_that_is_inductive_relative_to_fi, given a cube s of latch literals whose negation holds initially and is inductive relative to F_i, returns a clause made of literals of !s that holds initially and is inductive relative to F_i, changes no frame, and drops literals as far as its order of attempts allows: each literal left was needed, that is, without it some clause between the result and !s is not inductive relative to F_i. The result is never empty. Same for IC3Stateless and IC3Stateful.", "quantifier": "every supported AIG, correct solver behaviour, shuffle, hash order, build profile, and arbitrary frames of clauses over latches", "why_tests_cant": "verdicts do not depend on how far clauses are generalised, and the result depends on a random shuffle", "anchors": ["src/algorithms/proof/ic3_stateless_solver.rs: get_subclause_of_not_s_that_is_inductive_relative_to_fi", "src/algorithms/proof/ic3_stateful_solver.rs: get_subclause_of_not_s_that_is_inductive_relative_to_fi"]}
{"id": "C54", "title": "IC3 inductively_generalize", "statement": "inductively_generalize(s, min, k), for a non-initial cube s of latch literals whose negation is inductive relative to F_min if min >= 0, returns Failure iff min < 0 and s can be entered from an initial state outside s, and then changes nothing. Otherwise it returns Success{n} for the largest n <= k such that s cannot be entered from the part of F_j outside s for any j from min+1 to n, and adds exactly one clause, a generalisation of !s relative to F_n as in C53, to exactly the frames 1 to n+1.", "quantifier": "every supported AIG, correct solver behaviour, shuffle, hash order, build profile, and arbitrary frames of clauses over latches", "why_tests_cant": "quantifies over all frame contents; a wrong level or a missing frame update changes verdicts only in rare circuits", "anchors": ["src/algorithms/proof/ic3_stateless_solver.rs: inductively_generalize, generate_clause", "src/algorithms/proof/ic3_stateful_solver.rs: inductively_generalize, generate_clause"]}
{"id": "C55", "title": "IC3 propagate_clauses", "statement": "After propagate_clauses(k), going up from frame 1 to k, frame i+1 has exactly the clauses it had before and those clauses of frame i that hold one clock after every state of F_i. Frames 0, 1 and above k+1 are unchanged.", "quantifier": "every supported AIG, correct solver behaviour, shuffle, hash order, build profile, and arbitrary frames of clauses over latches", "why_tests_cant": "propagating too little only delays convergence and is invisible in verdicts; the iteration order is random", "anchors": ["src/algorithms/proof/ic3_stateless_solver.rs: propagate_clauses", "src/algorithms/proof/ic3_stateful_solver.rs: propagate_clauses"]}
{"id": "C56", "title": "IC3 solver queries", "statement": "Each query of IC3 decides the question it is named after, on arbitrary frames: whether an initial state is bad, or bad after one clock; whether a state of F_k is followed by a bad one, or by one in a cube, in which case the state extracted from the assignment is such a state of F_k; whether a cube can be entered from F_i outside it; whether a clause holds initially and is inductive relative to F_i. In IC3Stateful the incremental solver objects stay in agreement with the frames.", "quantifier": "every supported AIG, correct solver behaviour, shuffle, hash order, build profile, and arbitrary frames of clauses over latches", "why_tests_cant": "needs all models a solver may return and all frames, in particular after long sequences of incremental updates", "anchors": ["src/algorithms/proof/ic3_stateless_solver.rs: is_bad_reached_in_0_steps, is_bad_reached_in_1_steps, is_fi_and_t_and_not_s_and_s_tag_sat, solve_fi_and_t_and_s_tag, is_clause_inductive_relative_to_fi", "src/algorithms/proof/ic3_stateful_solver.rs: sat_call, is_cube_reachable_in_1_step_from_fi, is_bad_reachable_in_1_step_from_fi, is_fi_and_t_and_clause_and_not_clause_tag_sat"]}
{"id": "C57", "title": "IC3 strengthen and fixpoint search", "statement": "strengthen(k) keeps the invariants of IC3 (clauses of later frames occur in earlier ones, all hold initially, one clock leads from F_i into the clauses of frame i+1, no bad state follows F_i for i < k). It returns Success only with no bad state following F_k, and Failure{depth: k} only if a bad state is reachable. The fixpoint search returns the formula of the first F_i, 1 <= i <= k, with the same clauses as frame i+1, and nothing if there is none.", "quantifier": "every supported AIG, correct solver behaviour, shuffle, hash order, queue order, build profile, and all frames satisfying the invariants", "why_tests_cant": "loop invariants over unboundedly many rounds from states no test constructs", "anchors": ["src/algorithms/proof/ic3_stateless_solver.rs: strengthen, push_generalization, prove", "src/algorithms/proof/ic3_stateful_solver.rs: strengthen, push_generalization, prove"]}
{"id": "C58", "title": "PDR solver queries", "statement": "What each query of PDR answers, on arbitrary blocked cubes. z_get_bad_cube (with at least one AND gate among the bad literals) returns None iff R_d contains no bad state, and otherwise a cube of latch literals around a bad state of R_d, all of whose states are bad under some inputs if every latch that is a bad literal is also read by a gate in the cone. is_blocked(s, i) returns true iff a cube stored at i or above is a subset of s or R_i is empty; it does not, as its comment says, decide whether R_i meets s (a concrete case is proved). z_solve_relative returns the cube itself iff it cannot be entered from the frame below (from outside the cube unless NoInd), and otherwise Null, with, if a model is asked for, a cube around a predecessor from each state of which the same state can be entered. get_r_i returns a formula of exactly the states of R_i. None of them changes a frame.", "quantifier": "every supported AIG, correct solver behaviour, shuffle, queue order, build profile, and arbitrary blocked cubes over latches in the frames", "why_tests_cant": "needs all models a solver may return and all frames, in particular after long sequences of incremental updates", "anchors": ["src/algorithms/proof/pdr.rs: z_get_bad_cube, is_blocked, z_is_blocked, z_solve_relative, get_r_i"]}
{"id": "C59", "title": "PDR generalisation and forward search", "statement": "generalize, on a state cube that contains no initial state and cannot be entered from R_k outside itself, returns a part of it with the same two properties and the same frame, in which each literal left was needed: some cube between the result without that literal and the original contains an initial state or can be entered. The forward loop of rec_block_cube moves the cube up exactly to the first frame from which it can be entered, and no further than depth-1.", "quantifier": "every supported AIG, correct solver behaviour, shuffle, queue order, build profile, and arbitrary blocked cubes over latches in the frames", "why_tests_cant": "verdicts do not depend on how far cubes are generalised or pushed, and the result depends on a random shuffle", "anchors": ["src/algorithms/proof/pdr.rs: generalize, rec_block_cube"]}
{"id": "C60", "title": "PDR frame updates", "statement": "add_blocked_cube(z, k) stores z at the end of frame k, removes exactly the cubes subsumed by z from the frames 1 to k, and changes nothing else but the order in them. On the sets R_i this removes exactly the states in z from R_i for i <= k. new_frame appends an empty frame when the last one is empty. The incremental solvers agree with the frames afterwards.", "quantifier": "every supported AIG, correct solver behaviour, shuffle, queue order, build profile, and arbitrary blocked cubes over latches in the frames", "why_tests_cant": "frames left unsimplified or solvers out of step show only in later queries on rare circuits", "anchors": ["src/algorithms/proof/pdr.rs: add_blocked_cube, z_block_cube_in_solver, new_frame, z_new_frame"]}
{"id": "C61", "title": "PDR propagate_blocked_cubes", "statement": "propagate_blocked_cubes moves cubes only upwards, each past frames from which it cannot be reached in one clock; no cube is lost except to one that subsumes it; the cubes left in the frames looked at can be reached from these frames. It stops at the first frame that becomes empty and returns its index, and None if no frame from 1 to depth-1 becomes empty. No set R_i grows, and the invariants are kept.", "quantifier": "every supported AIG, correct solver behaviour, build profile, and all frames satisfying the invariants of PDR", "why_tests_cant": "propagating too little only delays convergence and is invisible in verdicts", "anchors": ["src/algorithms/proof/pdr.rs: propagate_blocked_cubes"]}
{"id": "C62", "title": "PDR rec_block_cube", "statement": "rec_block_cube on a cube of bad states of R_d, started on frames satisfying the invariants of PDR (no cube contains an initial state, one clock leads from R_i outside the cubes of frame i+1 and above, no bad state in R_i for i < d, no redundant cubes), ends within (d+2)((d+2) d 2^latches + d+1) + 1 rounds without panic, keeps the invariants, and lets no R_i grow. It returns true only with the cube outside R_d, and false only if a bad state is reachable.", "quantifier": "every supported AIG in which every latch that is a bad literal is also read by a gate in the cone, correct solver behaviour, shuffle, queue order, build profile, and all frames satisfying the invariants", "why_tests_cant": "loop invariants over unboundedly many rounds from states no test constructs", "anchors": ["src/algorithms/proof/pdr.rs: rec_block_cube"]}
{"id": "C63", "title": "Comments survive the round trip .aig -> get_aag_string up to NUL bytes and one final empty line", "statement": "For every accepted file, the comment section that an independent ASCII reader finds in the text printed by get_aag_string is the comment section of the file, line by line, with NUL bytes removed and without one final empty line; a file without a comment section prints none. In particular a comment without NUL bytes whose last line is not empty is printed verbatim.", "quantifier": "every accepted file with any comment section", "why_tests_cant": "infinite domain; the example files have no comments ending in an empty line", "anchors": ["src/models/and_inverter_graph/construction.rs: read_symbols_and_comments", "src/models/and_inverter_graph/conversion.rs: get_aag_string"]}
{"id": "C64", "title": "PDR's shortcut past cube reduction never changes a result", "statement": "z_get_bad_cube and z_solve_relative drop from an extracted state the latches that the bad literals / the next state do not read, and set a flag to skip this for good when a reduction removed nothing. For every object reachable from a new one by any sequence of method calls, with any solver answers, a flag is off only if the reduction would remove nothing; so the cube returned by z_get_bad_cube always fixes exactly the latches read by the cone of the bad literals (one literal each), the predecessor returned by z_solve_relative exactly the latches the next state reads, and a flag stays on exactly when there are other latches.", "quantifier": "every supported circuit below 2^30 variables, every sequence of method calls with any arguments, any solver behaviour, both build profiles", "why_tests_cant": "the flags are private, and a stale flag shows up only as a longer or shorter cube deep inside a run; all call sequences and solver answers", "anchors": ["src/algorithms/proof/pdr.rs: z_get_bad_cube", "src/algorithms/proof/pdr.rs: z_solve_relative", "src/models/finite_state_transition_system/features.rs: intersect_cube_with_cone_of_transition, intersect_cube_with_cone_of_safety"]}
{"id": "C65", "title": "Names, comments and the spelling of numbers in a file never matter", "statement": "Two .aig files of the same circuit, whatever their symbol tables, comments and the way their numbers are written, give graphs with the same getters, the same cones of influence and the same simulation of every stimulus (panics included), and from_aig builds the same transition system from them or panics in the same way. With the same solver and the same random choices the whole chain from file to verdict gives the same result, invariant or depth included.", "quantifier": "all pairs of byte strings that are files of one well-formed circuit, all build profiles, solvers, hash orders, schedules, stimuli and amounts of fuel", "why_tests_cant": "The tests compare a few files with their own expected output; no test varies the symbol table or comments of a file, and there are unboundedly many spellings of each circuit.", "anchors": ["src/models/and_inverter_graph/construction.rs:from_aig_path", "src/models/and_inverter_graph/getting.rs", "src/models/and_inverter_graph/simulation.rs:simulate", "src/models/finite_state_transition_system/construction.rs:from_aig"]}
{"id": "C66", "title": "A failing SAT call ends the run and never changes a result", "statement": "Let the SAT calls fail at an arbitrary set of moments (a solver crash, or the u32 counter of SAT calls that each prover increments before the call and that overflows in a debug build). Then each of the three provers and check_invariant either ends with exactly that failure or returns exactly what it returns when no call fails; bounded model checking ends with the panic of joining the solver thread or with the same result. Hence with a solver whose answers are correct, every verdict given in spite of failures is right.", "quantifier": "all systems, solvers, schedules, build profiles, fuel, clocks and all sets of failing moments; the soundness part for all circuits (PDR: covered ones)", "why_tests_cant": "No test injects solver failures, and 2^32 SAT calls are out of reach; the set of failing moments is arbitrary.", "anchors": ["src/algorithms/proof/ic3_stateless_solver.rs:sat_call", "src/algorithms/proof/ic3_stateful_solver.rs:sat_call", "src/algorithms/proof/pdr.rs:z_solve_relative", "src/algorithms/bmc.rs:timed_sat_call"]}
{"id": "C67", "title": "The cells of an AIG node hold what was last stored", "statement": "Any sequence of setter calls on a new AIGNode is accepted exactly if the node's literal is even and every call fits the node: latch setters on latches, gate setters on gates, input, latch and gate names on nodes of their type, output, bad and constraint names on any node, and reset values 0, 1 or the latch's own literal. Every other sequence panics. After an accepted sequence each getter returns what the last call of its own setter stored, whatever other setters were called before or after, and panics if there was no such call.", "quantifier": "all literals, node types and finite sequences of setter calls with arbitrary arguments", "why_tests_cant": "The tests only see nodes made by the reader, where each setter is called once in one order.", "anchors": ["src/models/and_inverter_graph/aig_node.rs:AIGNode"]}
{"id": "C68", "title": "Progress reports change nothing and count the rounds", "statement": "A prover made with verbose = true gives exactly the result, panic or divergence it gives with verbose = false, and without verbose it reports nothing. The two IC3 provers report nothing for a counterexample found by the first two checks; otherwise they report once at the start of each round 1, 2, ..., d, showing an empty new frame, a counterexample of depth d comes in round d, and a proof adds one more report of its last round. A report of round k shows min(10, k+2) lengths. PDR reports the depths 0, 1, 2, ... once each, with depth+2 frame sizes; a counterexample of depth d comes after exactly d reports, a proof after at least one.", "quantifier": "all systems, solvers (no contract assumed), schedules, build profiles and fuel; runs of any length", "why_tests_cant": "Tests never look at the printed lines, and a side effect of printing would need a comparison of two runs with the same random choices.", "anchors": ["src/algorithms/proof/ic3_stateless_solver.rs:print_progress_if_verbose", "src/algorithms/proof/ic3_stateful_solver.rs:print_progress_if_verbose", "src/algorithms/proof/pdr.rs:print_progress_if_verbose"]}
{"id": "C69", "title": "A back-end that gives up is never taken for an answer", "statement": "Let a back-end give up on an arbitrary set of calls: None from CaDiCaL, an error from Splr or Varisat, a missing model from Varisat. Then the front-end panics at the place written for it, or returns exactly what it returns over the back-end that never gives up; the same for whole histories of the stateful CaDiCaL front-end, for IC3Stateless over the three stateless front-ends, and for IC3Stateful and PDR over the stateful one. In particular giving up never becomes 'unsatisfiable'.", "quantifier": "all back-ends (no contract assumed), all sets of calls given up, all formulas, histories, systems, schedules, build profiles and fuel", "why_tests_cant": "The bundled solvers do not give up on the formulas of the tests, so these branches never run.", "anchors": ["src/solvers/sat/stateless/cadical_solver.rs:solve_cnf", "src/solvers/sat/stateless/splr_solver.rs:solve_cnf", "src/solvers/sat/stateless/varisat_solver.rs:solve_cnf", "src/solvers/sat/stateful/cadical_solver.rs:solve"]}
{"id": "C70", "title": "Working off the proof obligations ends and excludes every one of them", "statement": "Call push_generalization for level k on a non-empty queue of distinct states, each leading to a bad state and excluded by the frame of its queue number (between 1 and k+1), on frames with the IC3 invariants. The call does not panic and its loop ends within (2^latches + |queue|)(k+1)+1 rounds; the invariants hold afterwards. If it reports success, every frame has kept its clauses and frame k+1 excludes every state of the queue. If it reports failure, a bad state is reachable from an initial one.", "quantifier": "all circuits IC3 accepts, both IC3 variants, all sound back-ends, schedules and build profiles, all levels, frames and queues as described", "why_tests_cant": "The tests run whole proofs on a few circuits; they never start the loop on a given queue and frames, and a queue that grows for long needs a circuit they do not have.", "anchors": ["src/algorithms/proof/ic3_stateless_solver.rs:push_generalization", "src/algorithms/proof/ic3_stateful_solver.rs:push_generalization"]}
{"id": "C71", "title": "BMC asks one query per depth, and a larger limit only continues the search", "statement": "A BMC run asks exactly one query per depth, from depth 0 on: k+1 queries if it ends at depth k with a counterexample or an unfinished query, k if the clock had expired before depth k, limit+1 if it reaches its limit. For two limits l <= l' on the same system, back-end and clock: a result below l (a counterexample of at most l clocks, or a depth reached below l) is given with l exactly if it is given with l'; if the run with l reaches its limit, the run with l' reports nothing about the depths up to l and asks at least as many queries; a panic with l is met with l' too, unless l itself does not fit the result.", "quantifier": "all systems, all back-ends (no contract assumed), all clocks, all limits below 2^32-1, both build profiles", "why_tests_cant": "Tests run BMC with a few fixed limits and never compare runs or count queries.", "anchors": ["src/algorithms/bmc.rs:search", "src/algorithms/bmc.rs:timed_sat_call"]}
{"id": "C72", "title": "The simulator and the provers see the same circuit", "statement": "The invariant returned with Proof by any prover holds, and no bad literal is 1, at every clock of every simulation of the circuit's graph, whatever the stimulus. If some simulation shows a bad literal at clock s, every prover that returns says CTX with a depth of at most s, and bounded model checking without timeouts finds a counterexample of at most s steps at every limit from s on. The invariant also passes check_invariant of every other transition system built from the circuit.", "quantifier": "every circuit, graph of it, stimulus, prover, solver, schedule, build profile", "why_tests_cant": "tests run a few stimuli and provers on a few files; the relation is over all stimuli of any length and all invariants any run may return", "anchors": ["src/models/and_inverter_graph/simulation.rs: simulate", "src/models/finite_state_transition_system/features.rs: check_invariant", "src/algorithms/proof/*.rs: prove", "src/algorithms/bmc.rs: search"]}
{"id": "C73", "title": "BMC beyond the range of literals", "statement": "When the number of variables times some d is 2^31 and the last gate is in neither the cone of the next states nor that of the bad literals, a release build of BMC without timeouts, with any limit, reports a counterexample exactly if there is one of fewer than d steps within the limit (and then a shortest one), and NoCTX{limit} otherwise: the bounded guarantee of C35 fails there, and a circuit with 2^20 variables whose shortest counterexample has 2048 steps gets NoCTX at every limit. A debug build panics at or before the first depth whose variables leave the range of literals, unless it finds a counterexample before.", "quantifier": "all circuits with these sizes, all back-ends within the solver contract, all limits below 2^31, with and without timeouts", "why_tests_cant": "the smallest such runs unroll a million variables two thousand times", "anchors": ["src/algorithms/bmc.rs: search", "src/models/finite_state_transition_system/features.rs: add_tags_to_relation, add_tags_to_clause, bump_all_clause_variables_by_some_number", "src/formulas/literal.rs: new"]}
{"id": "C74", "title": "The invariants the provers return", "statement": "The formula carried by a Proof verdict is an inductive invariant of the circuit: it holds in all initial states, every clock preserves it from every state (reachable or not), and it excludes bad states. IC3's consists of learned clauses (non-empty, over latches only, true in all initial states) together with exactly the clauses of the property, so in a cycle of the circuit it holds iff the learned clauses do and no bad literal is 1. PDR's consists of learned clauses alone, so it depends on nothing but the latches. Invariants of different provers may be conjoined: check_invariant accepts the conjunction.", "quantifier": "all supported circuits, all back-ends within the solver contract, all schedules, both build profiles (PDR in release builds: covered circuits)", "why_tests_cant": "preservation quantifies over all pairs of consecutive cycles including unreachable ones; tests see the invariants of the few circuits they run", "anchors": ["src/algorithms/proof/ic3_stateless_solver.rs: get_fk, prove", "src/algorithms/proof/ic3_stateful_solver.rs: get_fk, prove", "src/algorithms/proof/pdr.rs: get_r_i, prove", "src/models/finite_state_transition_system/features.rs: check_invariant"]}
{"id": "C75", "title": "Solvers whose models leave variables open", "statement": "Over a solver that is correct but may return models without values for some variables, IC3Stateless, IC3Stateful and PDR either panic at the unwrap of a latch's value in extract_state_from_assignment or end exactly as they do over a solver that fills the values in. So a Proof still means safe with an invariant check_invariant accepts, a CTX still has the depths of C39, C41 and C43, the only additional panic is that unwrap, and the number of iterations is bounded as before; whatever is returned is subject to C45, C72 and C74. If the models value at least the latches, the runs are exactly those over some correct and complete solver, so all three provers decide safety as in C40, C41 and C44. This covers the Splr and Varisat front-ends and the stateful CaDiCaL front-end without the assumption that the back-end values every variable.", "quantifier": "every supported AIG, every correct solver whatever it leaves open (possibly different on every call), schedule, hash order, build profile (PDR: Proof in debug builds or for covered circuits, CTX for covered circuits)", "why_tests_cant": "the test-suite's back-ends happen to value all variables; that no other use of a model can go wrong, on any circuit and any solver behaviour, is a statement about all runs", "anchors": ["src/models/finite_state_transition_system/features.rs: extract_state_from_assignment", "src/solvers/sat/assignment.rs: get_value", "src/algorithms/proof/ic3_stateless_solver.rs: prove", "src/algorithms/proof/ic3_stateful_solver.rs: prove", "src/algorithms/proof/pdr.rs: z_get_bad_cube, z_solve_relative, prove", "src/solvers/sat/stateful/cadical_solver.rs: solve"]}
{"id": "C76", "title": "Constant bad literals in release builds", "statement": "from_aig rejects a constant bad literal by a debug assertion only. When a release build has accepted one (circuit with at least one variable): both IC3 provers panic in their constructors at features.rs:27, with every solver; BMC asks its solver one question, about an initial state, and then reports CTX at depth 0, gives up because of a timeout or limit 0, or panics at depth 1, so it never reports a longer counterexample or the absence of one; PDR, over MiniSat or CaDiCaL, answers CTX{0} whatever the circuit does, or panics in extract_state_from_assignment, the latter only if some latch is uninitialised and no bad literal is a gate. In particular, if all bad literals are the constant 0 and all latches are initialised, the circuit is safe and PDR answers CTX{0}.", "quantifier": "all circuits with a constant among their bad literals whose variables fit a literal, all solvers (IC3, BMC) and all back-ends within their contracts (PDR), all schedules, clocks and limits below 2^32-1", "why_tests_cant": "the suite runs debug builds, where such files are rejected; that no solver behaviour changes the outcome is a statement about all solvers", "anchors": ["src/models/finite_state_transition_system/construction.rs: create_unsafety_property, get_literal_from_aig_literal", "src/models/finite_state_transition_system/features.rs: bump_all_clause_variables_by_some_number, extract_state_from_assignment", "src/algorithms/bmc.rs: search", "src/algorithms/proof/ic3_stateless_solver.rs: new", "src/algorithms/proof/ic3_stateful_solver.rs: new", "src/algorithms/proof/pdr.rs: prove, z_get_bad_cube, rec_block_cube"]}
{"id": "C77", "title": "The counters of SAT calls", "statement": "Each prover increments a u32 before a SAT call: IC3Stateless and IC3Stateful one counter, PDR one of five entries of sat_call_stats. If a run with counters returns, the run without returns the same, and the final counter is the number of SAT calls made, modulo 2^32, and exactly in a debug build; for PDR there is a list of calls with keys such that each entry is the number of calls with its key, z_get_bad_cube and z_is_blocked standing for calls without cube and clause, NoInd for calls with a cube only and the other two for calls with both, and such that z_get_bad_cube and ExtractModel stand for the calls whose answer is read: dropping the assignment from any other answer changes nothing, and at these calls a claim of satisfiability without assignment makes the run panic if there are latches. That a run asks its solver at some moment is stated without counters: the run with a solver that fails at that moment (PDR: on a call of that kind) fails, and at all other moments it ends as before. If a run with counters fails, the run without fails in the same way, or it is a debug build and the counter overflowed after 2^32-1 calls. So in release builds counters change nothing, and in debug builds they can only add that panic.", "quantifier": "every transition system, every solver (right, wrong or failing), schedule, build profile and fuel", "why_tests_cant": "the counters are only printed, no test looks at them; that none is forgotten or counted twice on any path, and when they overflow, concerns all runs, including ones with billions of calls", "anchors": ["src/algorithms/proof/ic3_stateless_solver.rs: sat_call", "src/algorithms/proof/ic3_stateful_solver.rs: sat_call", "src/algorithms/proof/pdr.rs: z_get_bad_cube, z_is_blocked, z_solve_relative, new"]}
{"id": "C78", "title": "How deep the searches go", "statement": "The shortest counterexample of a circuit has fewer than 2^latches steps. So bounded model checking that has ruled out the depths below 2^latches has proved safety, and with a limit of at least 2^latches - 1, no timeouts and representable variables it decides safety. No round of IC3Stateless or IC3Stateful has a number above 2^latches, and none of PDR one above 2^latches + 1 (above 2^latches, in debug builds and for circuits whose bad literals are covered); the depth in a CTX verdict of IC3, and of PDR on covered circuits, is below 2^latches. In particular a circuit whose shortest counterexample has 2^32 steps or more has more than 32 latches.", "quantifier": "every supported AIG, build profile, correct solver behaviour, shuffle, hash order, clock and limit", "why_tests_cant": "a bound on all runs on all circuits; the bound is exponential, so no test comes near it", "anchors": ["src/algorithms/bmc.rs: search", "src/algorithms/proof/ic3_stateless_solver.rs: prove", "src/algorithms/proof/ic3_stateful_solver.rs: prove", "src/algorithms/proof/pdr.rs: prove, propagate_blocked_cubes"]}
{"id": "C79", "title": "What the checks in the project's tests are worth", "statement": "The check that bmc_test makes of a counterexample (tests/bmc.rs) passes for every counterexample found by search that has at least one step (or whose circuit has a bad literal above the latches) and does not change its inputs, in particular on circuits without inputs. Whatever assignment and depth it is given, it passes exactly if the assignment has a value for each input and latch of the first frame and the circuit, started with those latch values where the reset leaves them open and with those inputs held at every clock, is bad at the given depth and not before; so a pass always means a real counterexample of that length. It rejects right counterexamples otherwise: the helper that reads the inputs off the assignment takes those of frame 0 for every clock, and on a circuit that is bad when its input falls no assignment passes. A counterexample of depth 0 may have no value for a latch, and then the test panics. The test of IC3Stateless passes on every circuit whose shortest counterexample has fewer than 2^32 steps. The comparison of provers (tests/compare_provers.rs) passes, whichever of PDR and IC3Stateful it calls, however they shuffle and whichever invariants it checks, on every such circuit whose bad literals are covered and, if there are any, include an AND gate. A Proof of PDR whose invariant it has checked is right on every circuit. A CTX of PDR can be wrong on circuits that are not covered, and the comparison then passes, because it compares PDR with itself; a comparison of PDR with IC3Stateful passes only if PDR's verdict is right.", "quantifier": "every supported AIG, build profile, correct solver behaviour, shuffle, hash order, clock, limit and random choice of checks", "why_tests_cant": "it is about the tests themselves: when they fail on right results and pass on wrong ones", "anchors": ["tests/bmc.rs: extract_inputs_from_assignment, extract_initial_latches_from_assignment, check_that_bad_is_true_only_for_last_cycle, bmc_test", "tests/ic3_stateless.rs: test", "tests/compare_provers.rs: test, call_test_and_make_sure_same_result"]}
{"id": "C80", "title": "The random test of the SAT front-ends", "statement": "With right back-ends that give every variable a value, test_cnf_on_sat_solvers (tests/sat_solving.rs) passes on every CNF with variables below 2^31 - 2, in both builds and for every hash order, and returns whether the CNF is satisfiable. Whatever the back-ends are, the result true means that the assignment of each of the five front-ends satisfies the CNF, and the result false is right if one of the five back-ends is. generate_random_cnf returns, for at least one variable and unless a coin keeps asking for more literals, a CNF over the variables 1 to n with at most the asked number of clauses, without an empty clause if n is above the limit for that; every such CNF is generated for some random choices. With no variables it panics at the first clause if the coin asks for a literal; the test asks for no clauses then. generate_cnf_and_call_it never fails, however often the solvers are asked again, and raises the right counter; it passes only if all repetitions agree. A Splr that is right but leaves a variable without a value makes the test panic.", "quantifier": "every CNF, random choice, number of variables, clauses and repetitions, back-end behaviour, hash order and build profile", "why_tests_cant": "it is about the test itself: which formulas it can generate, what its pass means, and when it fails although the crate is right", "anchors": ["tests/sat_solving.rs: test_cnf_on_sat_solvers, generate_random_cnf, generate_cnf_and_call_it", "src/solvers/sat/stateless/*.rs: solve_cnf", "src/solvers/sat/stateful/*.rs: add_cnf, solve", "src/algorithms/formula_logic.rs: evaluate_assignment_on_cnf"]}
{"id": "C81", "title": "The comparison of long strings in the tests", "statement": "_assert_long_string_eq (tests/common/mod.rs), by which the tests compare the ASCII form of a circuit with the file, passes exactly on equal strings, in both builds. For different strings let d be the first index at which they differ: if d is at least 20 it fails with two excerpts around d, which differ; if d is below 20 it fails before that, in a debug build with an overflow of the subtraction (the max with 0 comes too late) and in a release build with a slice out of range.", "quantifier": "every pair of strings of fewer than 2^63 characters and both build profiles", "why_tests_cant": "the helper is only seen on equal strings when the tests pass", "anchors": ["tests/common/mod.rs: _assert_long_string_eq", "tests/aig_creation.rs: the comparison of aag files"]}
