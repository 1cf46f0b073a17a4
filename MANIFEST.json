{
 "claims": [
  {
   "property": "C01",
   "status": "proved",
   "theorems": [
    "Verif.Props.C01_new",
    "Verif.Props.C01_not",
    "Verif.Props.C01_negate_if_true",
    "Verif.Props.C01_injective",
    "Verif.Props.C01_order",
    "Verif.Props.C01_debug_panics",
    "Verif.Props.C01_release_alias"
   ],
   "note": ""
  },
  {
   "property": "C02",
   "status": "proved",
   "theorems": [
    "Verif.Props.C02_clause_eq",
    "Verif.Props.C02_cube_eq",
    "Verif.Props.C02_clause_iter",
    "Verif.Props.C02_cube_iter",
    "Verif.Props.C02_highest"
   ],
   "note": ""
  },
  {
   "property": "C03",
   "status": "proved",
   "theorems": [
    "Verif.Props.C03_clause_not",
    "Verif.Props.C03_cube_not",
    "Verif.Props.C03_not_not",
    "Verif.Props.C03_not_len"
   ],
   "note": ""
  },
  {
   "property": "C04",
   "status": "proved",
   "theorems": [
    "Verif.Props.C04_contains",
    "Verif.Props.C04_iter",
    "Verif.Props.C04_max",
    "Verif.Props.C04_holds",
    "Verif.Props.C04_eq"
   ],
   "note": ""
  },
  {
   "property": "C05",
   "status": "proved",
   "theorems": [
    "Verif.Props.C05_cube",
    "Verif.Props.C05_clause",
    "Verif.Props.C05_empty",
    "Verif.Props.C05_wf"
   ],
   "note": ""
  },
  {
   "property": "C06",
   "status": "proved",
   "theorems": [
    "Verif.Props.C06_reader",
    "Verif.Props.C06_int_injective",
    "Verif.Props.C06_canonical",
    "Verif.Props.C06_order_independent"
   ],
   "note": ""
  },
  {
   "property": "C07",
   "status": "proved",
   "theorems": [
    "Verif.Props.C07_get_value",
    "Verif.Props.C07_order",
    "Verif.Props.C07_panics"
   ],
   "note": ""
  },
  {
   "property": "C08",
   "status": "proved",
   "theorems": [
    "Verif.Props.C08_sound",
    "Verif.Props.C08_total",
    "Verif.Props.C08_clause_literal"
   ],
   "note": ""
  },
  {
   "property": "C09",
   "status": "proved",
   "theorems": [
    "Verif.Props.C09_does_a_imply_b"
   ],
   "note": ""
  },
  {
   "property": "C10",
   "status": "proved",
   "theorems": [
    "Verif.Props.C10_is_a_and_b_satisfiable"
   ],
   "note": ""
  },
  {
   "property": "C11",
   "status": "proved",
   "theorems": [
    "Verif.Props.C11_all_variable_numbers"
   ],
   "note": ""
  },
  {
   "property": "C12",
   "status": "proved",
   "theorems": [
    "Verif.Props.C12_cadical",
    "Verif.Props.C12_cadical_overflow",
    "Verif.Props.C12_splr",
    "Verif.Props.C12_varisat"
   ],
   "note": ""
  },
  {
   "property": "C13",
   "status": "proved",
   "theorems": [
    "Verif.Props.C13_contract_history",
    "Verif.Props.C13_minisat",
    "Verif.Props.C13_minisat_total"
   ],
   "note": ""
  },
  {
   "property": "C14",
   "status": "proved",
   "theorems": [
    "Verif.Props.C14_exact",
    "Verif.Props.C14_cadical",
    "Verif.Props.C14_counter_overflow"
   ],
   "note": ""
  },
  {
   "property": "C15",
   "status": "proved",
   "theorems": [
    "Verif.Props.C15_roundtrip",
    "Verif.Props.C15_sound",
    "Verif.Props.C15_rejects",
    "Verif.Props.C15_rejects_truncated"
   ],
   "note": ""
  },
  {
   "property": "C16",
   "status": "proved",
   "theorems": [
    "Verif.Props.C16_lines",
    "Verif.Props.C16_unlines"
   ],
   "note": ""
  },
  {
   "property": "C17",
   "status": "proved",
   "theorems": [
    "Verif.Props.C17_accepted",
    "Verif.Props.C17_profile",
    "Verif.Props.C17_header_sum"
   ],
   "note": ""
  },
  {
   "property": "C18",
   "status": "proved",
   "theorems": [
    "Verif.Props.C18_encode",
    "Verif.Props.C18_any_file",
    "Verif.Props.C18_unique",
    "Verif.Props.C18_accepts_iff",
    "Verif.Props.C18_rejects",
    "Verif.Props.C18_unambiguous"
   ],
   "note": ""
  },
  {
   "property": "C19",
   "status": "proved",
   "theorems": [
    "Verif.Props.C19_prints",
    "Verif.Props.C19_total"
   ],
   "note": ""
  },
  {
   "property": "C20",
   "status": "partial",
   "theorems": [
    "Verif.Props.C20_inputs_latches",
    "Verif.Props.C20_outputs_partial",
    "Verif.Props.C20_exact",
    "Verif.Props.C20_refuted"
   ],
   "note": "Proved outright for inputs and latches. For outputs, bad literals and constraints the full claim is false of the code (C20_refuted: two outputs on one node share a name slot); C20_outputs_partial proves it for every position whose node is not shared with another named position of the same section, and C20_exact says what is printed for every position: the last name given to any entry of the section on the same node."
  },
  {
   "property": "C21",
   "status": "proved",
   "theorems": [
    "Verif.Props.C21_trace",
    "Verif.Props.C21_unique",
    "Verif.Props.C21_exec"
   ],
   "note": ""
  },
  {
   "property": "C22",
   "status": "partial",
   "theorems": [
    "Verif.Props.C22_accepts_iff",
    "Verif.Props.C22_accepts_partial",
    "Verif.Props.C22_refuted"
   ],
   "note": "C22_accepts_iff characterises acceptance exactly. The full claim is false of the code (C22_refuted: no inputs and a first latch that resets to 1); C22_accepts_partial proves it for all other circuits."
  },
  {
   "property": "C23",
   "status": "proved",
   "theorems": [
    "Verif.Props.C23_cone",
    "Verif.Props.C23_out_of_range"
   ],
   "note": ""
  },
  {
   "property": "C24",
   "status": "proved",
   "theorems": [
    "Verif.Props.C24_inputs",
    "Verif.Props.C24_latches",
    "Verif.Props.C24_lists"
   ],
   "note": ""
  },
  {
   "property": "C25",
   "status": "proved",
   "theorems": [
    "Verif.Props.C25_initial"
   ],
   "note": ""
  },
  {
   "property": "C26",
   "status": "proved",
   "theorems": [
    "Verif.Props.C26_sound",
    "Verif.Props.C26_total",
    "Verif.Props.C26_complete"
   ],
   "note": ""
  },
  {
   "property": "C27",
   "status": "proved",
   "theorems": [
    "Verif.Props.C27_bad",
    "Verif.Props.C27_good",
    "Verif.Props.C27_exclusive"
   ],
   "note": ""
  },
  {
   "property": "C28",
   "status": "proved",
   "theorems": [
    "Verif.Props.C28_constraints",
    "Verif.Props.C28_variables",
    "Verif.Props.C28_accepts",
    "Verif.Props.C28_debug",
    "Verif.Props.C28_constant_bad",
    "Verif.Props.C28_release",
    "Verif.Props.C28_release_meaning"
   ],
   "note": ""
  },
  {
   "property": "C29",
   "status": "proved",
   "theorems": [
    "Verif.Props.C29_relation",
    "Verif.Props.C29_cube",
    "Verif.Props.C29_clause",
    "Verif.Props.C29_zero",
    "Verif.Props.C29_compose",
    "Verif.Props.C29_compose_clause",
    "Verif.Props.C29_compose_cube",
    "Verif.Props.C29_debug",
    "Verif.Props.C29_release"
   ],
   "note": ""
  },
  {
   "property": "C30",
   "status": "proved",
   "theorems": [
    "Verif.Props.C30_exact",
    "Verif.Props.C30_false"
   ],
   "note": ""
  },
  {
   "property": "C31",
   "status": "proved",
   "theorems": [
    "Verif.Props.C31_extract",
    "Verif.Props.C31_panics"
   ],
   "note": ""
  },
  {
   "property": "C32",
   "status": "proved",
   "theorems": [
    "Verif.Props.C32_successor",
    "Verif.Props.C32_kept"
   ],
   "note": ""
  },
  {
   "property": "C33",
   "status": "partial",
   "theorems": [
    "Verif.Props.C33_partial",
    "Verif.Props.C33_exact",
    "Verif.Props.C33_counterexample",
    "Verif.Props.C33_kept"
   ],
   "note": "The full claim is false of the code (C33_counterexample: a bad literal that is itself a latch). C33_partial proves it for all circuits in which every latch among the bad literals is read by a gate in their cone; C33_exact shows that these are exactly the circuits for which the reduction keeps every bad literal."
  },
  {
   "property": "C34",
   "status": "proved",
   "theorems": [
    "Verif.Props.C34_sound",
    "Verif.Props.C34_complete",
    "Verif.Props.C34_exact",
    "Verif.Props.C34_holds",
    "Verif.Props.C34_inductive",
    "Verif.Props.C34_unrolled",
    "Verif.Props.C34_any",
    "Verif.Props.C34_debug"
   ],
   "note": ""
  },
  {
   "property": "C35",
   "status": "proved",
   "theorems": [
    "Verif.Props.C35_noCtx"
   ],
   "note": ""
  },
  {
   "property": "C36",
   "status": "proved",
   "theorems": [
    "Verif.Props.C36_ctx",
    "Verif.Props.C36_some",
    "Verif.Props.C36_shortest",
    "Verif.Props.C36_completable"
   ],
   "note": ""
  },
  {
   "property": "C37",
   "status": "proved",
   "theorems": [
    "Verif.Props.C37_returns",
    "Verif.Props.C37_exact",
    "Verif.Props.C37_limit_overflow"
   ],
   "note": ""
  },
  {
   "property": "C38",
   "status": "proved",
   "theorems": [
    "Verif.Props.C38_proof"
   ],
   "note": ""
  },
  {
   "property": "C39",
   "status": "proved",
   "theorems": [
    "Verif.Props.C39_ctx"
   ],
   "note": ""
  },
  {
   "property": "C40",
   "status": "proved",
   "theorems": [
    "Verif.Props.C40_no_panic",
    "Verif.Props.C40_terminates",
    "Verif.Props.C40_returns",
    "Verif.Props.C40_decides"
   ],
   "note": ""
  },
  {
   "property": "C41",
   "status": "proved",
   "theorems": [
    "Verif.Props.C41_sound",
    "Verif.Props.C41_terminates",
    "Verif.Props.C41_decides",
    "Verif.Props.C41_minisat"
   ],
   "note": ""
  },
  {
   "property": "C42",
   "status": "partial",
   "theorems": [
    "Verif.Props.C42_initially",
    "Verif.Props.C42_closed",
    "Verif.Props.C42_checked",
    "Verif.Props.C42_proof_partial",
    "Verif.Props.C42_refuted"
   ],
   "note": "The full claim is false of the code (C42_refuted: a bad literal that is itself a latch makes a release build answer Proof for an unsafe circuit). C42_proof_partial proves it for all circuits in debug builds, and in release builds for all circuits in which every latch among the bad literals is read by a gate in their cone."
  },
  {
   "property": "C43",
   "status": "proved",
   "theorems": [
    "Verif.Props.C43_ctx",
    "Verif.Props.C43_lower_bound",
    "Verif.Props.C43_depth_zero",
    "Verif.Props.C43_bad_initially",
    "Verif.Props.C43_needs_covered"
   ],
   "note": ""
  },
  {
   "property": "C44",
   "status": "proved",
   "theorems": [
    "Verif.Props.C44_panics",
    "Verif.Props.C44_no_panic",
    "Verif.Props.C44_terminates",
    "Verif.Props.C44_decides",
    "Verif.Props.C44_minisat",
    "Verif.Props.C44_needs_some_gate"
   ],
   "note": ""
  },
  {
   "property": "C45",
   "status": "proved",
   "theorems": [
    "Verif.Props.C45_agree",
    "Verif.Props.C45_bmc",
    "Verif.Props.C45_bmc_confirms"
   ],
   "note": ""
  },
  {
   "property": "C46",
   "status": "proved",
   "theorems": [
    "Verif.Props.C46_accepted",
    "Verif.Props.C46_any_file",
    "Verif.Props.C46_stateful_provers",
    "Verif.Props.C46_bmc"
   ],
   "note": ""
  },
  {
   "property": "C47",
   "status": "proved",
   "theorems": [
    "Verif.Props.C47_contract",
    "Verif.Props.C47_file_to_verdict",
    "Verif.Props.C47_bmc_sound",
    "Verif.Props.C47_bmc_exact",
    "Verif.Props.C47_ic3",
    "Verif.Props.C47_panic_propagates"
   ],
   "note": ""
  },
  {
   "property": "C48",
   "status": "proved",
   "theorems": [
    "Verif.Props.C48_ic3",
    "Verif.Props.C48_pdr",
    "Verif.Props.C48_release"
   ],
   "note": ""
  },
  {
   "property": "C49",
   "status": "proved",
   "theorems": [
    "Verif.Props.C49_read",
    "Verif.Props.C49_build",
    "Verif.Props.C49_solve_cnf",
    "Verif.Props.C49_stateful",
    "Verif.Props.C49_check_invariant",
    "Verif.Props.C49_bmc",
    "Verif.Props.C49_ic3",
    "Verif.Props.C49_pdr_minisat",
    "Verif.Props.C49_pdr_cadical",
    "Verif.Props.C49_ic3_stateful",
    "Verif.Props.C49_not_conversely"
   ],
   "note": ""
  },
  {
   "property": "C50",
   "status": "proved",
   "theorems": [
    "Verif.Props.C50_ic3_stateless",
    "Verif.Props.C50_ic3_stateful",
    "Verif.Props.C50_pdr",
    "Verif.Props.C50_outcome"
   ],
   "note": ""
  },
  {
   "property": "C51",
   "status": "proved",
   "theorems": [
    "Verif.Props.C51_ic3_stateless",
    "Verif.Props.C51_ic3_stateless_returns",
    "Verif.Props.C51_ic3_stateful",
    "Verif.Props.C51_ic3_stateful_returns",
    "Verif.Props.C51_ic3_early",
    "Verif.Props.C51_ic3_stateless_debug",
    "Verif.Props.C51_ic3_stateful_debug",
    "Verif.Props.C51_pdr"
   ],
   "note": ""
  },
  {
   "property": "C52",
   "status": "proved",
   "theorems": [
    "Verif.Props.C52_replay",
    "Verif.Props.C52_stimulus"
   ],
   "note": ""
  },
  {
   "property": "C53",
   "status": "proved",
   "theorems": [
    "Verif.Props.C53_subclause",
    "Verif.Props.C53_nonempty"
   ],
   "note": ""
  },
  {
   "property": "C54",
   "status": "proved",
   "theorems": [
    "Verif.Props.C54_generalize"
   ],
   "note": ""
  },
  {
   "property": "C55",
   "status": "proved",
   "theorems": [
    "Verif.Props.C55_propagate"
   ],
   "note": ""
  },
  {
   "property": "C56",
   "status": "proved",
   "theorems": [
    "Verif.Props.C56_start",
    "Verif.Props.C56_bad_from",
    "Verif.Props.C56_cube_reach",
    "Verif.Props.C56_inductive"
   ],
   "note": ""
  },
  {
   "property": "C57",
   "status": "proved",
   "theorems": [
    "Verif.Props.C57_strengthen",
    "Verif.Props.C57_fixpoint"
   ],
   "note": ""
  },
  {
   "property": "C58",
   "status": "proved",
   "theorems": [
    "Verif.Props.C58_get_bad_cube",
    "Verif.Props.C58_is_blocked",
    "Verif.Props.C58_solve_relative",
    "Verif.Props.C58_get_r_i",
    "Verif.Props.C58_is_blocked_misses"
   ],
   "note": ""
  },
  {
   "property": "C59",
   "status": "proved",
   "theorems": [
    "Verif.Props.C59_generalize",
    "Verif.Props.C59_forward"
   ],
   "note": ""
  },
  {
   "property": "C60",
   "status": "proved",
   "theorems": [
    "Verif.Props.C60_add_blocked_cube",
    "Verif.Props.C60_sets",
    "Verif.Props.C60_new_frame"
   ],
   "note": ""
  },
  {
   "property": "C61",
   "status": "proved",
   "theorems": [
    "Verif.Props.C61_propagate",
    "Verif.Props.C61_sets"
   ],
   "note": ""
  },
  {
   "property": "C62",
   "status": "proved",
   "theorems": [
    "Verif.Props.C62_block"
   ],
   "note": ""
  },
  {
   "property": "C63",
   "status": "proved",
   "theorems": [
    "Verif.Props.C63_comment",
    "Verif.Props.C63_comment_verbatim",
    "Verif.Props.C63_loses_empty_line"
   ],
   "note": ""
  },
  {
   "property": "C64",
   "status": "proved",
   "theorems": [
    "Verif.Props.C64_get_bad_cube",
    "Verif.Props.C64_solve_relative",
    "Verif.Props.C64_no_model",
    "Verif.Props.C64_calls"
   ],
   "note": ""
  },
  {
   "property": "C65",
   "status": "proved",
   "theorems": [
    "Verif.Props.C65_circuit_only",
    "Verif.Props.C65_file_of",
    "Verif.Props.C65_files"
   ],
   "note": ""
  },
  {
   "property": "C66",
   "status": "proved",
   "theorems": [
    "Verif.Props.C66_failing_calls",
    "Verif.Props.C66_bmc",
    "Verif.Props.C66_sound",
    "Verif.Props.C66_sound_stateless"
   ],
   "note": ""
  },
  {
   "property": "C67",
   "status": "proved",
   "theorems": [
    "Verif.Props.C67_accepts",
    "Verif.Props.C67_getters"
   ],
   "note": ""
  },
  {
   "property": "C68",
   "status": "proved",
   "theorems": [
    "Verif.Props.C68_same",
    "Verif.Props.C68_silent",
    "Verif.Props.C68_ic3",
    "Verif.Props.C68_pdr"
   ],
   "note": ""
  },
  {
   "property": "C69",
   "status": "proved",
   "theorems": [
    "Verif.Props.C69_cadical",
    "Verif.Props.C69_splr",
    "Verif.Props.C69_varisat",
    "Verif.Props.C69_cadical_solve",
    "Verif.Props.C69_cadical_history",
    "Verif.Props.C69_ic3_stateless",
    "Verif.Props.C69_stateful"
   ],
   "note": ""
  },
  {
   "property": "C70",
   "status": "proved",
   "theorems": [
    "Verif.Props.C70_push"
   ],
   "note": ""
  },
  {
   "property": "C71",
   "status": "proved",
   "theorems": [
    "Verif.Props.C71_queries",
    "Verif.Props.C71_same",
    "Verif.Props.C71_continues",
    "Verif.Props.C71_panics"
   ],
   "note": ""
  },
  {
   "property": "C72",
   "status": "proved",
   "theorems": [
    "Verif.Props.C72_invariant",
    "Verif.Props.C72_seen",
    "Verif.Props.C72_portable"
   ],
   "note": ""
  },
  {
   "property": "C73",
   "status": "proved",
   "theorems": [
    "Verif.Props.C73_release",
    "Verif.Props.C73_debug",
    "Verif.Props.C73_refuted"
   ],
   "note": ""
  },
  {
   "property": "C74",
   "status": "proved",
   "theorems": [
    "Verif.Props.C74_ic3_stateless",
    "Verif.Props.C74_ic3_stateful",
    "Verif.Props.C74_pdr",
    "Verif.Props.C74_inductive",
    "Verif.Props.C74_conjunction"
   ],
   "note": ""
  },
  {
   "property": "C75",
   "status": "proved",
   "theorems": [
    "Verif.Props.C75_more_values",
    "Verif.Props.C75_ic3_stateless",
    "Verif.Props.C75_ic3_stateful",
    "Verif.Props.C75_pdr",
    "Verif.Props.C75_prover_run",
    "Verif.Props.C75_front_ends",
    "Verif.Props.C75_latches",
    "Verif.Props.C75_latches_decides"
   ],
   "note": ""
  },
  {
   "property": "C76",
   "status": "proved",
   "theorems": [
    "Verif.Props.C76_ic3",
    "Verif.Props.C76_bmc",
    "Verif.Props.C76_pdr",
    "Verif.Props.C76_pdr_cadical",
    "Verif.Props.C76_refuted"
   ],
   "note": ""
  },
  {
   "property": "C77",
   "status": "proved",
   "theorems": [
    "Verif.Props.C77_stateless",
    "Verif.Props.C77_stateful",
    "Verif.Props.C77_pdr",
    "Verif.Props.C77_release",
    "Verif.Props.C77_same"
   ],
   "note": ""
  },
  {
   "property": "C78",
   "status": "proved",
   "theorems": [
    "Verif.Props.C78_shortest",
    "Verif.Props.C78_remote",
    "Verif.Props.C78_bmc_safe",
    "Verif.Props.C78_bmc_decides",
    "Verif.Props.C78_ic3",
    "Verif.Props.C78_pdr"
   ],
   "note": ""
  },
  {
   "property": "C79",
   "status": "proved",
   "theorems": [
    "Verif.Props.C79_compare_blind",
    "Verif.Props.C79_values",
    "Verif.Props.C79_replay",
    "Verif.Props.C79_replay_closed",
    "Verif.Props.C79_replay_sound",
    "Verif.Props.C79_replay_exact",
    "Verif.Props.C79_ic3_test",
    "Verif.Props.C79_compare",
    "Verif.Props.C79_compare_same",
    "Verif.Props.C79_checked",
    "Verif.Props.C79_compare_intended",
    "Verif.Props.C79_replay_refuted",
    "Verif.Props.C79_replay_never",
    "Verif.Props.C79_replay_unvalued"
   ],
   "note": ""
  },
  {
   "property": "C80",
   "status": "proved",
   "theorems": [
    "Verif.Props.C80_needs_values",
    "Verif.Props.C80_passes",
    "Verif.Props.C80_sat",
    "Verif.Props.C80_unsat",
    "Verif.Props.C80_generates",
    "Verif.Props.C80_no_variables",
    "Verif.Props.C80_covers",
    "Verif.Props.C80_test",
    "Verif.Props.C80_repeat"
   ],
   "note": ""
  },
  {
   "property": "C81",
   "status": "proved",
   "theorems": [
    "Verif.Props.C81_exact",
    "Verif.Props.C81_passes"
   ],
   "note": ""
  }
 ]
}
