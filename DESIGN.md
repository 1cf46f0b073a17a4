# Design: a Lean 4 model of rust-formal-verification and its proofs

Code under study: `/repo` (crate `rust_formal_verification`, pinned commit).  All line numbers cited in the
model refer to that checkout.  Proofs live in `lean/Verif`, one Lake library, Lean 4.33.0 + single Mathlib modules.

## Trusted base

* The Lean 4 kernel.  Allowed axioms: `propext`, `Classical.choice`, `Quot.sound` (nothing else; no `sorry`,
  no `native_decide`, no `bv_decide`, no own axioms).  `Verif/Axioms.lean` prints the axioms of every claimed theorem.
* The transcription from Rust to Lean, made by hand; each definition carries the file and lines it transcribes.
* External crates are **not** modelled from their source.  Their documented contracts appear as hypotheses:
  SAT back-ends (`cadical`, `minisat`, `varisat`, `splr`), `rand::shuffle` (a permutation),
  `std::collections::HashSet` iteration (each element once, any order, any order each time),
  `priority_queue` (pop/peek returns an element of extreme priority, any tie break),
  `slice::sort` (sorted permutation).  Everything nondeterministic is an *oracle* (a function of a call counter) and
  theorems quantify over all oracles meeting the contract.  A verified brute-force solver shows every contract is
  satisfiable, so no theorem is vacuous.
* Machine: `usize` is 64 bit, `u32` arithmetic is exact (checked in debug builds = panic, wrapping in release builds),
  memory is unbounded except that `Vec::with_capacity` panics above `isize::MAX` bytes as documented.

## Modelling conventions

* `Res α = Except Err α`, `Err = panic site | fuel`.  Every `unwrap`, `assert!`, `debug_assert!`, `panic!`,
  `unreachable!`, index out of bounds and (debug) arithmetic overflow is an explicit `panic`.  A parameter
  `dbg : Bool` selects the build profile.  `fuel` bounds loops that have no structural measure; termination theorems
  show that enough fuel exists, partial correctness theorems hold for any fuel.
* `&mut self` is state passing.  Literals are the `u32` code (`2*number + sign`) exactly as in `literal.rs`.
* `Clause`/`Cube` hold the sorted vector; `CNF` holds a duplicate-free list standing for the `HashSet` plus
  `max_variable_number`.
* The text of log messages, timers (other than their effect on BMC), colours and file IO are not modelled; when `verbose` reports what is in
  `Model/Verbose`.
* Specs (`Verif/Spec`) are written independently of the model: valuations `Nat → Bool`, an AIG circuit semantics, a DIMACS
  reader, an AIGER encoder, an ASCII-AIGER reader.

## Properties

| id | modelled code | how stated / proved |
|----|---------------|---------------------|
| C01 | `literal.rs` | bit arithmetic over all u32; both profiles |
| C02 | `clause.rs`, `cube.rs` | insertion sort is a sorted permutation; uniqueness of sorted permutations |
| C03 | `Not` impls | semantics over all valuations, De Morgan by induction |
| C04 | `cnf.rs` | invariant over an inductive history of operations |
| C05 | `to_cnf` | semantics equality |
| C06 | `Display` impls | independent DIMACS reader inverts the text; canonical order from a total order on clauses |
| C07 | `assignment.rs` | membership characterisation by induction |
| C08 | `evaluate_*` | all completions agree |
| C09–C11 | `formula_logic.rs` | oracle solver and iteration orders |
| C12 | `stateless/*` | back-end oracle over signed ints, translation lemma |
| C13, C14 | `stateful/*` | simulation invariant: back-end clauses are the translation of added clauses plus dead activation clauses; any history |
| C15 | `read_delta` | round trip by induction on the encoding; bounds for every input |
| C16 | `split_vector_by_newline` | induction on bytes |
| C17 | `construction.rs` (AIG) | invariants through each construction stage |
| C18 | same | execution of the parser on the image of an independent encoder |
| C19, C20, C63 | `conversion.rs` | independent ASCII reader; symbol overwrite is refuted by witness, partial when targets distinct, exact in `C20_exact`; comments |
| C21, C22 | `simulation.rs` | trace semantics; spurious panic refuted by witness, partial with exact condition |
| C23, C24 | `getting.rs` | worklist invariant; reachability as an inductive relation |
| C25–C28 | FSTS `construction.rs` | Tseitin lemmas, canonical valuation; panics characterised |
| C29 | `features.rs` tags | substitution lemma |
| C30–C34 | `features.rs` | semantics; C33 refuted for latch bad literals no gate reads, proved for all others (exact) |
| C35–C37 | `bmc.rs` | unrolling lemma: SAT of the k-frame CNF iff k-step execution |
| C38–C40 | `ic3_stateless_solver.rs` | frame invariants in a Hoare calculus giving partial correctness, panic freedom and termination at once |
| C41 | `ic3_stateful_solver.rs` | same over a stateful solver contract |
| C42–C44 | `pdr.rs` | frame invariants; soundness refuted for latch bad literals no gate reads (release build), proved in debug builds and for all other circuits; termination and panics for all circuits |
| C45, C46 | all | corollaries |
| C48 | `stateful/cadical_solver.rs` with IC3Stateful and PDR | the prover proofs are generic in which solver failures are allowed; the front-end meets the contract up to its counter |
| C49 | both build profiles of everything | relational (two-run) lemmas per function, `Proofs/Follows`, `Proofs/Sim*` |
| C50 | the unbounded loops | the same relational lemmas, comparing two amounts of fuel |
| C51 | several calls of `prove` on one object | frames of earlier calls stay inductive; lengths of the solver vectors |
| C52 | BMC counterexample run through `simulate` | C36 for the completion given by the rows; executions are determined by inputs and start values |
| C53–C57 | single steps of both IC3 provers, on arbitrary frames | spec of frames in `Spec/Frames`, of prover objects in `Spec/Ic3State`; exact versions of the Hoare triples in `Proofs/Ic3Steps` |
| C58–C62 | single steps of PDR, on arbitrary blocked cubes | spec in `Spec/PdrState`, proofs in `Proofs/PdrSteps`; C62 for covered circuits, as C44 |
| C64 | the two skip flags of `pdr.rs` | invariant of the object under all methods, no solver contract (`Proofs/PdrFlags`) |
| C65 | reader, getters, `simulate`, `from_aig` on files of one circuit | every function gives the same on the graph with names, comments and unused fields erased (`Proofs/AigStrip`) |
| C66 | every SAT call of the provers, BMC and `check_invariant` | the run with failing calls is simulated by the run without (`Proofs/Sim*`) |
| C67 | `AIGNode::new`, setters, getters | induction on the sequence of calls; the cells are a function of the calls so far |
| C68 | `print_progress_if_verbose` and the loops calling it | the loops repeated with a list of reports; dropping the list gives the plain loops; frame counts as invariants |
| C69 | the give-up branches of the front-ends | case split per call; the `Follows` congruences of C66 for the provers |
| C70 | `push_generalization` | measure `mu` on queue and states not queued; the obligations as a spec of its own |
| C71 | `search` of BMC | the loop split at the smaller limit, by induction on the rounds |
| C72 | simulation against the provers | C21 makes rows executions; accepted candidates hold in all executions (C34_holds) |
| C73 | BMC and tagging in release builds | wrapped renaming; frames repeat when 2³¹ is a multiple of the number of variables |
| C74 | the invariants of IC3 and PDR | frames hold latch clauses true initially; acceptance by `check_invariant` read as inductiveness on frames of the circuit |
| C75 | the provers over solvers whose models leave variables open | a solver that fills the models in exists by choice; the two runs are related step by step (`Proofs/Complete`, `Proofs/Sim*`) |
| C76 | constant bad literals in release builds | the renaming of a clause with variable 0 panics; PDR's first rounds computed directly (`Proofs/Constant`) |
| C77 | the counters of SAT calls in the three provers | a run with counters compared with runs whose solver fails, or gives no assignment, at one moment (`Spec/Asked`, `Proofs/Counts*`) |
| C78 | no search goes deeper than the number of states | until the first bad state is found every step adds a state; frames are strictly increasing sets of states (`Proofs/Rounds`) |
| C79 | what the checks in the tests accept | the held inputs of `bmc_test` read off the assignment when they are constant, then C52; the provers' verdicts are right (C38–C44), so comparisons agree |
| C80 | the random test of the SAT front-ends | C12, C13 and the CaDiCaL lemmas give five complete answers, C08 their evaluation; the generator by induction over its draws |
| C81 | the comparison of long strings in the tests | the loop finds the first difference; the excerpts differ 20 characters in |
| C47 | `stateless/*` with IC3, BMC and the file chain | front-end theorems of C12 discharge the solver contract |

## Which code is modelled

Every function of the crate is modelled, except what is listed under "not modelled".

| Rust file(s) | Lean model |
|---|---|
| `formulas/literal.rs`, `clause.rs`, `cube.rs`, `cnf.rs` | `Model/Formula.lean` |
| `solvers/sat/assignment.rs`, `sat_response.rs` | `Model/Solver.lean` |
| `algorithms/formula_logic.rs` | `Model/FormulaLogic.lean` |
| `solvers/sat/stateless/*.rs` | `Model/Stateless.lean` |
| `solvers/sat/stateful/*.rs` | `Model/Stateful.lean` |
| `models/and_inverter_graph/aig_node.rs`, `mod.rs`, `getting.rs` | `Model/Aig.lean` |
| `models/and_inverter_graph/construction.rs` | `Model/AigParse.lean` |
| `models/and_inverter_graph/conversion.rs` | `Model/AigPrint.lean` |
| `models/and_inverter_graph/simulation.rs` | `Model/AigSim.lean` |
| `models/finite_state_transition_system/*.rs` | `Model/Fsts.lean` |
| `algorithms/bmc.rs` | `Model/Bmc.lean` |
| `algorithms/proof/ic3_stateless_solver.rs`, `ic3_stateful_solver.rs`, `proof_result.rs` | `Model/Ic3.lean` |
| `algorithms/proof/pdr.rs` | `Model/Pdr.lean` |
| progress reports of the three provers | `Model/Verbose.lean` |
| the provers' `u32` counters of SAT calls | `Model/Counted.lean` |
| the checks that the tests make of a result | `Model/Drivers.lean` |
| the random test of the SAT front-ends | `Model/SatTests.lean` |
| the comparison of long strings in the tests | `Model/LongStrings.lean` |
| shuffles, hash orders, priority queues | `Model/Choice.lean`, contract `Spec/Sched.lean` |

Not modelled: the text and times that are printed (`Model/Verbose` has the round and the frame sizes of each report, `Model/Counted` the SAT-call
counters), timers (for BMC their effect is an arbitrary `Clock`), `fs::read` in `from_aig_path` (the bytes are the
argument), destructors and memory exhaustion, the source of external crates.  A prover object is used once — `new`, then one `prove` — except in C51, where
`prove` is called several times.
The two trait impls (`FiniteStateTransitionSystemProver`, `StatelessSatSolver`, …) only forward and are identified with what they call.

### Solver contracts

* `AnswerOK f r` (`Spec/SatContract`): the answer of a stateless solver is right, and a model it gives satisfies the formula, is consistent,
  and assigns every variable of the formula.  `Env.OK V`: every call with a CNF made by the crate's constructors over variables 1 to `V`
  returns such an answer; on any other CNF the solver may panic or answer anything.  C12 derives this for the CaDiCaL (`V` = 2^31-2),
  Varisat and Splr (`V` = 2^31-1) front-ends from contracts on the raw back-ends, which are only about clauses of non-zero `i32`s.  That
  Varisat and Splr assign *every* variable of the formula is a separate assumption there (`VarisatTotal`, `SplrTotal`).  C47 runs the
  algorithms with these front-ends.
* `StatefulImpl.OK` (`Spec/SolverContract`): the same for a stateful solver, relative to the clauses added so far and the temporary
  clauses and assumptions of the call.  C13 and C14 show it for the MiniSat and CaDiCaL front-ends.  The CaDiCaL front-end takes fresh `i32`
  variables for temporary clauses, so it meets the contract only until its counter overflows (exactly when: C14_exact); MiniSat meets it for
  ever, and C41_minisat and C44_minisat are stated for it.  `StatefulImpl.OK F` is the contract with failures in `F` allowed, used for
  CaDiCaL in C48.
* `Env.Correct V` and `StatefulImpl.Correct F`: the same without completeness, i.e. models may leave variables without a value.  This is all
  that implication and satisfiability checks, `check_invariant`, `from_aig` and BMC verdicts need (C09, C10, C34, C35, C36_some, C36_shortest,
  C37).  The provers need completeness only not to panic at features.rs:107,
  and for that values of the latches are enough (`Env.Values`, `StatefulImpl.Correct.Values`; C75).  Reading a counterexample off the assignment
  (C36_ctx, C46_bmc, C52) needs it, as the code has nothing else to read.
* `Sched.OK` (`Spec/Sched`): hash iteration and shuffling are permutations; ties in priority queues are broken by an arbitrary index.
* `Brute.env`, `Brute.ms`, `Brute.cd`, `Brute.cadical`, `Brute.splr`, `Brute.varisat`: exhaustive solvers and back-ends, proved to meet the contracts, used to run the model in examples.
* `Props/Instances` applies the theorems that have no concrete case beside them to one circuit, file or solver and discharges all their hypotheses, so that none is vacuous.

### Ranges

`Circuit.Small` (twice the highest variable is below 2^31) is what the provers need: IC3 and PDR use two frames.  Circuits between the
limit checked by `from_aig` and that one make the constructors panic (debug) or wrap (release) and are excluded from C38–C46.  BMC uses
`limit + 1` frames, hence `Representable V`; with `V` = 2^31-1 debug builds need no such hypothesis because they panic instead.

### PDR

`Proofs/PdrFrames` describes the frames (delta-encoded cubes, `R_i` = the conjunction of the blocked cubes at `i` and above),
`PdrSolvers` the per-frame solvers, `PdrQuery` the meaning of the queries, `PdrBlock` the obligation queue, `PdrPropagate`
propagation, `PdrVerdict` the main loop.  All are stated in a ghost-state Hoare triple `GTri F I g m Q`: from a state related to ghost
`g`, `m` either ends in `Q` or fails with an error allowed by `F`.  Termination is by a measure on blocked state sets; `pdrBound` is the
explicit bound.

## Validation of the model against the project's tests

- `Props/RepoTests.lean` computes, in the model, every expectation of `/repo/tests` that does not depend on timing or random choices:
  the printed formulas of `formula_creation.rs`, the relations of `fsts_creation.rs`, the counterexamples of `bmc.rs` with their
  assignments and their replay in the simulator, `sat_solving.rs`, `ic3_stateless.rs` with all three front-ends, and the doc-tests in `src`.  All agree.
- `tools/conformance.sh` compiles the model of the reader and the printer, runs it on `.aig` files, and compares the printed text with
  the `.aag` file beside each, as `aig_creation.rs` does with the Rust code.  There are 649 such files.  It agrees on all 534 on which it finished; on 14 larger ones it was stopped after a time limit (the model is not written for speed), and the rest, larger still, were not tried.
- Every definition of the model was compared a second time, line by line, with the Rust lines its comment cites.

## Disagreements found

Each is proved of the model; the theorem or example is named.

1. `from_aig` computes the safety cone from the AND-gate clauses only, so a latch used directly as bad literal is missing from it
   (C33_counterexample).  PDR then reduces a bad cube too far.  For a circuit whose only bad literal is a latch a release build answers
   `Proof` for an unsafe circuit (C42_refuted) and a debug build stops at the assertion pdr.rs:568.  With a latch and a gate as bad
   literals PDR can report a counterexample of a safe circuit, in both build profiles (C43_needs_covered).  `Circuit.Covered` is the exact
   condition under which the cone is right (C33_exact); under it all verdicts are right in both profiles.  Without it a debug build's
   `Proof` is still right (C42_proof_partial), because of the assertion.  A release build's wrong `Proof` is wrong in one
   respect only: its formula may fail initially (C42_closed), which `check_invariant` detects (C42_checked).
2. With an input as only bad literal and an uninitialised latch, PDR panics in `extract_state_from_assignment` because the solver's
   assignment does not mention the latch (C44_needs_some_gate).
3. `AndInverterGraph::simulate` compares a reset literal with a node index (simulation.rs:147) and rejects a legal stimulus
   (C22_refuted).
4. Two outputs/bads/constraints on the same node share one symbol slot (C20_refuted).
5. `CTX.depth` of IC3/PDR is a lower bound, not the length of a counterexample: for `shifter` IC3 says 1, PDR 2, and the shortest
   counterexample has 3 steps (Props/Ic3, Props/Agree).  With `e` the length of the shortest counterexample, IC3's depth is `e` if `e ≤ 1`
   and in `[1, e)` otherwise; PDR's depth is at most `e`, and 0 exactly if `e = 0` (C39_ctx, C41_sound, C43_ctx).
6. A constant bad literal makes `from_aig` panic in debug builds (C28_constant_bad); a release build goes on with variable 0, which no
   formula sets to 0 (C28_release_meaning), so a constant 0 as bad literal looks like a reachable bad state.
   IC3 and BMC then panic when they move that clause to another frame, and PDR answers `CTX{0}` for a safe circuit (C76, C76_refuted).
7. Header fields beyond 9 are rejected, so files with fairness properties are rejected although a fairness count is parsed (C17).
8. `is_cube_initial` may call a contradictory cube initial (example at C30).
9. `Literal::new` aliases numbers above 2^31-1 in release builds (C01).  The range check in `from_aig` is not enough: next-state numbers
   may exceed the range of literals, in which case debug builds panic and release builds wrap (C28_debug, C28_release_meaning).
10. The stateless CaDiCaL front-end computes `max_variable() + 1` in `i32` and overflows on the largest variable (C12_cadical_overflow).
11. `Assignment::from_dimacs_assignment` panics on `i32::MIN` in both build profiles, and on 0 in debug builds (C07).
12. The stateful CaDiCaL front-end's variable counter overflows after enough temporary clauses (C14_counter_overflow); C14_exact says after how many.
13. A final blank comment line is lost by `get_aag_string`, and NUL bytes in comments are dropped (C18, C63).
14. BMC computes `search_depth_limit + 1` in `u32`, so the limit `u32::MAX` always panics (C37_limit_overflow); a release build outside
    `Representable` wraps variable numbers (C29_release), and its verdict means nothing there: for a circuit with 2²⁰ variables whose
    shortest counterexample has 2048 steps it answers `NoCTX` for every limit (C73_refuted).
15. IC3 and PDR convert frame numbers to `u32` and would panic above 2^32 frames.  For IC3, and for PDR on covered circuits, only circuits whose
    shortest counterexample has 2^32 steps or more can get there, so safe circuits and those with at most 32 latches cannot; for PDR on other circuits only
    those with at least 32 latches (C40_no_panic, C44_panics, C78_remote).
16. Harmless (`C58_is_blocked_misses`): PDR's `z_is_blocked` ignores the cube it is given and only asks whether the frame is empty; the frame `F_inf` is never
    filled.

17. `IC3Stateful` calls its SAT solver inside `debug_assert!` (ic3_stateful_solver.rs:277, 280), so debug and release builds run different
    sequences of solver calls; C49_ic3_stateful shows that the verdict is the same for solvers and shuffles that react the same way each time.
18. The provers take `&mut self` but are not reusable: unless the shortest counterexample has at most one step, the second `prove` of a debug
    build of IC3 panics (ic3_stateless_solver.rs:420, ic3_stateful_solver.rs:502); the second `prove` of PDR panics in every build
    (pdr.rs:314, or an index out of bounds).  Release builds of IC3 stay correct, though the reported depth may change (C51).
19. The helper of tests/bmc.rs that replays a counterexample uses the inputs of frame 0 at every clock, so `bmc_test` rejects right counterexamples whose
    inputs change (C79_replay_refuted, C79_replay_never).  Reading the inputs of frame `s` at clock `s` would do (C52).
    It also unwraps the value of every latch, which a counterexample of depth 0 need not have (C79_replay_unvalued).
20. tests/compare_provers.rs passes `is_first = true` twice, so it compares PDR with itself and `IC3Stateful` is never called; it accepts a wrong `CTX` of PDR that
    the intended comparison would reject (C79_compare_blind, C79_compare_intended).  Its wrong `Proof`s are caught, as the invariant is checked (C79_checked).
21. `generate_random_cnf` of tests/sat_solving.rs panics for 0 variables as soon as a literal is drawn; the test stays clear of it only because it asks for no clauses
    then (C80_no_variables).  Its check unwraps a value for every variable it meets, which the `SatResponse` of Splr and Varisat does not promise (C80_needs_values).
22. `_assert_long_string_eq` computes `max(first - 20, 0)` on `usize`, so a difference in the first 20 characters is reported as an overflow or a slice error
    and not as an excerpt (C81_exact).

The reader does not depend on the build profile (C17_profile), although it adds header fields in wrapping arithmetic.  Its UTF-8 check is
transcribed as a byte automaton and proved equal to Lean's own `String` encoding.
