import Verif.Props.Again
import Verif.Props.Agree
import Verif.Props.AigNode
import Verif.Props.AigPrint
import Verif.Props.AigRead
import Verif.Props.AigUse
import Verif.Props.Bmc
import Verif.Props.BmcLimit
import Verif.Props.Builds
import Verif.Props.Constant
import Verif.Props.Counters
import Verif.Props.DriverRuns
import Verif.Props.Drivers
import Verif.Props.Failures
import Verif.Props.Files
import Verif.Props.Formula
import Verif.Props.FormulaLogic
import Verif.Props.FrontEnds
import Verif.Props.Fsts
import Verif.Props.GiveUp
import Verif.Props.Ic3
import Verif.Props.Ic3Push
import Verif.Props.Ic3Steps
import Verif.Props.Instances
import Verif.Props.Invariant
import Verif.Props.LongStrings
import Verif.Props.Partial
import Verif.Props.Pdr
import Verif.Props.PdrFlags
import Verif.Props.PdrSteps
import Verif.Props.Replay
import Verif.Props.RepoTests
import Verif.Props.Rounds
import Verif.Props.SatTestRuns
import Verif.Props.SatTests
import Verif.Props.Simulated
import Verif.Props.Solvers
import Verif.Props.Stateful
import Verif.Props.Verbose
import Verif.Props.Wrap

/-! # Axioms of every claimed theorem (printed at build time) -/

#print axioms Verif.Props.C01_new
#print axioms Verif.Props.C01_not
#print axioms Verif.Props.C01_negate_if_true
#print axioms Verif.Props.C01_injective
#print axioms Verif.Props.C01_order
#print axioms Verif.Props.C01_debug_panics
#print axioms Verif.Props.C01_release_alias
#print axioms Verif.Props.C02_clause_eq
#print axioms Verif.Props.C02_cube_eq
#print axioms Verif.Props.C02_clause_iter
#print axioms Verif.Props.C02_cube_iter
#print axioms Verif.Props.C02_highest
#print axioms Verif.Props.C03_clause_not
#print axioms Verif.Props.C03_cube_not
#print axioms Verif.Props.C03_not_not
#print axioms Verif.Props.C03_not_len
#print axioms Verif.Props.C04_contains
#print axioms Verif.Props.C04_iter
#print axioms Verif.Props.C04_max
#print axioms Verif.Props.C04_holds
#print axioms Verif.Props.C04_eq
#print axioms Verif.Props.C05_cube
#print axioms Verif.Props.C05_clause
#print axioms Verif.Props.C05_empty
#print axioms Verif.Props.C05_wf
#print axioms Verif.Props.C06_reader
#print axioms Verif.Props.C06_int_injective
#print axioms Verif.Props.C06_canonical
#print axioms Verif.Props.C06_order_independent
#print axioms Verif.Props.C07_get_value
#print axioms Verif.Props.C07_order
#print axioms Verif.Props.C07_panics
#print axioms Verif.Props.C08_sound
#print axioms Verif.Props.C08_total
#print axioms Verif.Props.C08_clause_literal
#print axioms Verif.Props.C09_does_a_imply_b
#print axioms Verif.Props.C10_is_a_and_b_satisfiable
#print axioms Verif.Props.C11_all_variable_numbers
#print axioms Verif.Props.C12_cadical
#print axioms Verif.Props.C12_cadical_overflow
#print axioms Verif.Props.C12_splr
#print axioms Verif.Props.C12_varisat
#print axioms Verif.Props.C13_contract_history
#print axioms Verif.Props.C13_minisat
#print axioms Verif.Props.C13_minisat_total
#print axioms Verif.Props.C14_exact
#print axioms Verif.Props.C14_cadical
#print axioms Verif.Props.C14_counter_overflow
#print axioms Verif.Props.C15_roundtrip
#print axioms Verif.Props.C15_sound
#print axioms Verif.Props.C15_rejects
#print axioms Verif.Props.C15_rejects_truncated
#print axioms Verif.Props.C16_lines
#print axioms Verif.Props.C16_unlines
#print axioms Verif.Props.C17_accepted
#print axioms Verif.Props.C17_profile
#print axioms Verif.Props.C17_header_sum
#print axioms Verif.Props.C18_encode
#print axioms Verif.Props.C18_any_file
#print axioms Verif.Props.C18_unique
#print axioms Verif.Props.C18_accepts_iff
#print axioms Verif.Props.C18_rejects
#print axioms Verif.Props.C18_unambiguous
#print axioms Verif.Props.C19_prints
#print axioms Verif.Props.C19_total
#print axioms Verif.Props.C20_inputs_latches
#print axioms Verif.Props.C20_outputs_partial
#print axioms Verif.Props.C20_exact
#print axioms Verif.Props.C20_refuted
#print axioms Verif.Props.C21_trace
#print axioms Verif.Props.C21_unique
#print axioms Verif.Props.C21_exec
#print axioms Verif.Props.C22_accepts_iff
#print axioms Verif.Props.C22_accepts_partial
#print axioms Verif.Props.C22_refuted
#print axioms Verif.Props.C23_cone
#print axioms Verif.Props.C23_out_of_range
#print axioms Verif.Props.C24_inputs
#print axioms Verif.Props.C24_latches
#print axioms Verif.Props.C24_lists
#print axioms Verif.Props.C25_initial
#print axioms Verif.Props.C26_sound
#print axioms Verif.Props.C26_total
#print axioms Verif.Props.C26_complete
#print axioms Verif.Props.C27_bad
#print axioms Verif.Props.C27_good
#print axioms Verif.Props.C27_exclusive
#print axioms Verif.Props.C28_constraints
#print axioms Verif.Props.C28_variables
#print axioms Verif.Props.C28_accepts
#print axioms Verif.Props.C28_debug
#print axioms Verif.Props.C28_constant_bad
#print axioms Verif.Props.C28_release
#print axioms Verif.Props.C28_release_meaning
#print axioms Verif.Props.C29_relation
#print axioms Verif.Props.C29_cube
#print axioms Verif.Props.C29_clause
#print axioms Verif.Props.C29_zero
#print axioms Verif.Props.C29_compose
#print axioms Verif.Props.C29_compose_clause
#print axioms Verif.Props.C29_compose_cube
#print axioms Verif.Props.C29_debug
#print axioms Verif.Props.C29_release
#print axioms Verif.Props.C30_exact
#print axioms Verif.Props.C30_false
#print axioms Verif.Props.C31_extract
#print axioms Verif.Props.C31_panics
#print axioms Verif.Props.C32_successor
#print axioms Verif.Props.C32_kept
#print axioms Verif.Props.C33_partial
#print axioms Verif.Props.C33_exact
#print axioms Verif.Props.C33_counterexample
#print axioms Verif.Props.C33_kept
#print axioms Verif.Props.C34_sound
#print axioms Verif.Props.C34_complete
#print axioms Verif.Props.C34_exact
#print axioms Verif.Props.C34_holds
#print axioms Verif.Props.C34_inductive
#print axioms Verif.Props.C34_unrolled
#print axioms Verif.Props.C34_any
#print axioms Verif.Props.C34_debug
#print axioms Verif.Props.C35_noCtx
#print axioms Verif.Props.C36_ctx
#print axioms Verif.Props.C36_some
#print axioms Verif.Props.C36_shortest
#print axioms Verif.Props.C36_completable
#print axioms Verif.Props.C37_returns
#print axioms Verif.Props.C37_exact
#print axioms Verif.Props.C37_limit_overflow
#print axioms Verif.Props.C38_proof
#print axioms Verif.Props.C39_ctx
#print axioms Verif.Props.C40_no_panic
#print axioms Verif.Props.C40_terminates
#print axioms Verif.Props.C40_returns
#print axioms Verif.Props.C40_decides
#print axioms Verif.Props.C41_sound
#print axioms Verif.Props.C41_terminates
#print axioms Verif.Props.C41_decides
#print axioms Verif.Props.C41_minisat
#print axioms Verif.Props.C42_initially
#print axioms Verif.Props.C42_closed
#print axioms Verif.Props.C42_checked
#print axioms Verif.Props.C42_proof_partial
#print axioms Verif.Props.C42_refuted
#print axioms Verif.Props.C43_ctx
#print axioms Verif.Props.C43_lower_bound
#print axioms Verif.Props.C43_depth_zero
#print axioms Verif.Props.C43_bad_initially
#print axioms Verif.Props.C43_needs_covered
#print axioms Verif.Props.C44_panics
#print axioms Verif.Props.C44_no_panic
#print axioms Verif.Props.C44_terminates
#print axioms Verif.Props.C44_decides
#print axioms Verif.Props.C44_minisat
#print axioms Verif.Props.C44_needs_some_gate
#print axioms Verif.Props.C45_agree
#print axioms Verif.Props.C45_bmc
#print axioms Verif.Props.C45_bmc_confirms
#print axioms Verif.Props.C46_accepted
#print axioms Verif.Props.C46_any_file
#print axioms Verif.Props.C46_stateful_provers
#print axioms Verif.Props.C46_bmc
#print axioms Verif.Props.C47_contract
#print axioms Verif.Props.C47_file_to_verdict
#print axioms Verif.Props.C47_bmc_sound
#print axioms Verif.Props.C47_bmc_exact
#print axioms Verif.Props.C47_ic3
#print axioms Verif.Props.C47_panic_propagates
#print axioms Verif.Props.C48_ic3
#print axioms Verif.Props.C48_pdr
#print axioms Verif.Props.C48_release
#print axioms Verif.Props.C49_read
#print axioms Verif.Props.C49_build
#print axioms Verif.Props.C49_solve_cnf
#print axioms Verif.Props.C49_stateful
#print axioms Verif.Props.C49_check_invariant
#print axioms Verif.Props.C49_bmc
#print axioms Verif.Props.C49_ic3
#print axioms Verif.Props.C49_pdr_minisat
#print axioms Verif.Props.C49_pdr_cadical
#print axioms Verif.Props.C49_ic3_stateful
#print axioms Verif.Props.C49_not_conversely
#print axioms Verif.Props.C50_ic3_stateless
#print axioms Verif.Props.C50_ic3_stateful
#print axioms Verif.Props.C50_pdr
#print axioms Verif.Props.C50_outcome
#print axioms Verif.Props.C51_ic3_stateless
#print axioms Verif.Props.C51_ic3_stateless_returns
#print axioms Verif.Props.C51_ic3_stateful
#print axioms Verif.Props.C51_ic3_stateful_returns
#print axioms Verif.Props.C51_ic3_early
#print axioms Verif.Props.C51_ic3_stateless_debug
#print axioms Verif.Props.C51_ic3_stateful_debug
#print axioms Verif.Props.C51_pdr
#print axioms Verif.Props.C52_replay
#print axioms Verif.Props.C52_stimulus
#print axioms Verif.Props.C53_subclause
#print axioms Verif.Props.C53_nonempty
#print axioms Verif.Props.C54_generalize
#print axioms Verif.Props.C55_propagate
#print axioms Verif.Props.C56_start
#print axioms Verif.Props.C56_bad_from
#print axioms Verif.Props.C56_cube_reach
#print axioms Verif.Props.C56_inductive
#print axioms Verif.Props.C57_strengthen
#print axioms Verif.Props.C57_fixpoint
#print axioms Verif.Props.C58_get_bad_cube
#print axioms Verif.Props.C58_is_blocked
#print axioms Verif.Props.C58_solve_relative
#print axioms Verif.Props.C58_get_r_i
#print axioms Verif.Props.C58_is_blocked_misses
#print axioms Verif.Props.C59_generalize
#print axioms Verif.Props.C59_forward
#print axioms Verif.Props.C60_add_blocked_cube
#print axioms Verif.Props.C60_sets
#print axioms Verif.Props.C60_new_frame
#print axioms Verif.Props.C61_propagate
#print axioms Verif.Props.C61_sets
#print axioms Verif.Props.C62_block
#print axioms Verif.Props.C63_comment
#print axioms Verif.Props.C63_comment_verbatim
#print axioms Verif.Props.C63_loses_empty_line
#print axioms Verif.Props.C64_get_bad_cube
#print axioms Verif.Props.C64_solve_relative
#print axioms Verif.Props.C64_no_model
#print axioms Verif.Props.C64_calls
#print axioms Verif.Props.C65_circuit_only
#print axioms Verif.Props.C65_file_of
#print axioms Verif.Props.C65_files
#print axioms Verif.Props.C66_failing_calls
#print axioms Verif.Props.C66_bmc
#print axioms Verif.Props.C66_sound
#print axioms Verif.Props.C66_sound_stateless
#print axioms Verif.Props.C67_accepts
#print axioms Verif.Props.C67_getters
#print axioms Verif.Props.C68_same
#print axioms Verif.Props.C68_silent
#print axioms Verif.Props.C68_ic3
#print axioms Verif.Props.C68_pdr
#print axioms Verif.Props.C69_cadical
#print axioms Verif.Props.C69_splr
#print axioms Verif.Props.C69_varisat
#print axioms Verif.Props.C69_cadical_solve
#print axioms Verif.Props.C69_cadical_history
#print axioms Verif.Props.C69_ic3_stateless
#print axioms Verif.Props.C69_stateful
#print axioms Verif.Props.C70_push
#print axioms Verif.Props.C71_queries
#print axioms Verif.Props.C71_same
#print axioms Verif.Props.C71_continues
#print axioms Verif.Props.C71_panics
#print axioms Verif.Props.C72_invariant
#print axioms Verif.Props.C72_seen
#print axioms Verif.Props.C72_portable
#print axioms Verif.Props.C73_release
#print axioms Verif.Props.C73_debug
#print axioms Verif.Props.C73_refuted
#print axioms Verif.Props.C74_ic3_stateless
#print axioms Verif.Props.C74_ic3_stateful
#print axioms Verif.Props.C74_pdr
#print axioms Verif.Props.C74_inductive
#print axioms Verif.Props.C74_conjunction
#print axioms Verif.Props.C75_more_values
#print axioms Verif.Props.C75_ic3_stateless
#print axioms Verif.Props.C75_ic3_stateful
#print axioms Verif.Props.C75_pdr
#print axioms Verif.Props.C75_prover_run
#print axioms Verif.Props.C75_front_ends
#print axioms Verif.Props.C75_latches
#print axioms Verif.Props.C75_latches_decides
#print axioms Verif.Props.C76_ic3
#print axioms Verif.Props.C76_bmc
#print axioms Verif.Props.C76_pdr
#print axioms Verif.Props.C76_pdr_cadical
#print axioms Verif.Props.C76_refuted
#print axioms Verif.Props.C77_stateless
#print axioms Verif.Props.C77_stateful
#print axioms Verif.Props.C77_pdr
#print axioms Verif.Props.C77_release
#print axioms Verif.Props.C77_same
#print axioms Verif.Props.C78_shortest
#print axioms Verif.Props.C78_remote
#print axioms Verif.Props.C78_bmc_safe
#print axioms Verif.Props.C78_bmc_decides
#print axioms Verif.Props.C78_ic3
#print axioms Verif.Props.C78_pdr
#print axioms Verif.Props.C79_compare_blind
#print axioms Verif.Props.C79_values
#print axioms Verif.Props.C79_replay
#print axioms Verif.Props.C79_replay_closed
#print axioms Verif.Props.C79_replay_sound
#print axioms Verif.Props.C79_replay_exact
#print axioms Verif.Props.C79_ic3_test
#print axioms Verif.Props.C79_compare
#print axioms Verif.Props.C79_compare_same
#print axioms Verif.Props.C79_checked
#print axioms Verif.Props.C79_compare_intended
#print axioms Verif.Props.C79_replay_refuted
#print axioms Verif.Props.C79_replay_never
#print axioms Verif.Props.C79_replay_unvalued
#print axioms Verif.Props.C80_needs_values
#print axioms Verif.Props.C80_passes
#print axioms Verif.Props.C80_sat
#print axioms Verif.Props.C80_unsat
#print axioms Verif.Props.C80_generates
#print axioms Verif.Props.C80_no_variables
#print axioms Verif.Props.C80_covers
#print axioms Verif.Props.C80_test
#print axioms Verif.Props.C80_repeat
#print axioms Verif.Props.C81_exact
#print axioms Verif.Props.C81_passes
