{
 "claims": [
  {
   "property": "C01",
   "status": "proved",
   "theorems": [
    "Fossil.C01_found_iff_every_query_unsat",
    "Fossil.C01_success_means_no_violation"
   ],
   "note": "hypotheses: distinct labels; solver refutation-sound for the second theorem"
  },
  {
   "property": "C02",
   "status": "proved",
   "theorems": [
    "Fossil.C02_counterexamples_genuine",
    "Fossil.C02_dreal_counterexamples",
    "Fossil.C02_dreal_missing_variable_raises"
   ],
   "note": " For dReal the counterexample row is read from the box by position (Box.__getitem__): C02_dreal_counterexamples gives the rows exactly, and C02_dreal_missing_variable_raises shows that a box that omits a variable makes reading the counterexample fail."
  },
  {
   "property": "C03",
   "status": "partial",
   "theorems": [
    "Fossil.C03_success_all_unsat_partial",
    "Fossil.C03_repeated_label_hides_unknown"
   ],
   "note": "False as stated: with a repeated label a later answer overwrites an earlier unknown. Proved part: the last answer per label is unsat and none was sat; the negation is proved too."
  },
  {
   "property": "C04",
   "status": "partial",
   "theorems": [
    "Fossil.C04_dreal_success_partial",
    "Fossil.C04_dreal_unbounded_violation_missed",
    "Fossil.C04_dreal_leftover_variable_missed",
    "Fossil.C04_out_of_bounds_box_skips_remaining_groups",
    "Fossil.C04_none_verifier_always_succeeds",
    "Fossil.C04_violation_in_bounds_not_success"
   ],
   "note": "False as stated: violations outside the bound are dropped, and a variable that is not a state variable is checked against the bound but not restricted in the second call. Proved part: success is right when the queries are in the state variables only and confine them to the bound."
  },
  {
   "property": "C21",
   "status": "proved",
   "theorems": [
    "Fossil.C21_domain_formula_denotes_set",
    "Fossil.C21_complement_formula_denotes_complement",
    "Fossil.C21_rectangle_ignores_dim_select",
    "Fossil.C21_cvc5_empty_set_raises"
   ],
   "note": ""
  },
  {
   "property": "C22",
   "status": "partial",
   "theorems": [
    "Fossil.C22_containment_agrees_partial",
    "Fossil.C22_containment_one_sided_partial",
    "Fossil.C22_sphere_containment_wrong_radius",
    "Fossil.C22_dim_select_raises"
   ],
   "note": "False for spheres (radius**2 compared with the norm), proved for radius one, one-sidedly for radii <=1 / >=1; negation proved for every radius other than 1"
  },
  {
   "property": "C23",
   "status": "proved",
   "theorems": [
    "Fossil.C23_boundary_formula_covers_frontier",
    "Fossil.C23_paths_cross_boundary_formula",
    "Fossil.C23_open_rectangle_boundary_unsatisfiable",
    "Fossil.C23_interior_formula_is_interior",
    "Fossil.C23_boundary_is_set_minus_interior"
   ],
   "note": ""
  },
  {
   "property": "C17",
   "status": "proved",
   "theorems": [
    "Fossil.C17_formula_is_network",
    "Fossil.C17_lie_derivative",
    "Fossil.C17_lie_derivative_smooth",
    "Fossil.C17_rounding",
    "Fossil.C17_rounding_idempotent"
   ],
   "note": "Lie derivative: at points that are not ReLU kinks (no condition for smooth activations); value: everywhere. Z3/dReal translators."
  },
  {
   "property": "C18",
   "status": "partial",
   "theorems": [
    "Fossil.C18_one_step_difference_partial",
    "Fossil.C18_quadratic_factor_dropped",
    "Fossil.C18_quadratic_factor_unsound",
    "Fossil.C18_rounding_zero_raises"
   ],
   "note": "False with factors: the discrete translator drops the quadratic factor of V in the difference; proved without factors, negation proved with."
  },
  {
   "property": "C19",
   "status": "proved",
   "theorems": [
    "Fossil.C19_factored_vanishes_at_origin",
    "Fossil.C19_double_translator_ignores_factors",
    "Fossil.C17_lie_derivative"
   ],
   "note": "C17_lie_derivative covers the quadratic factor (quad argument). The two-certificate translator ignores the option."
  },
  {
   "property": "C20",
   "status": "partial",
   "theorems": [
    "Fossil.C20_cvc5_consistent_partial",
    "Fossil.C20_cvc5_inconsistent",
    "Fossil.C20_cvc5_inconsistent_default_rounding",
    "Fossil.C20_rounding_exact_partial"
   ],
   "note": "False as stated: V and Vdot are rounded independently. Proved when the rounding leaves the formulas unchanged; negations proved."
  },
  {
   "property": "C37",
   "status": "proved",
   "theorems": [
    "Fossil.C37_activation_derivative",
    "Fossil.C37_relu_kink"
   ],
   "note": "symbolic derivative is the derivative of the numeric forward; ReLU away from 0"
  },
  {
   "property": "C05",
   "status": "proved",
   "theorems": [
    "Fossil.C05_lyapunov_conditions"
   ],
   "note": "all certificates/sets/networks; acceptance by the Z3/CVC5 or dReal loop"
  },
  {
   "property": "C06",
   "status": "proved",
   "theorems": [
    "Fossil.C06_decreases_along_trajectories",
    "Fossil.C06_decreases_along_runs"
   ],
   "note": "continuous time: smooth networks; discrete time: without factors (with factors the premise C18 fails)"
  },
  {
   "property": "C07",
   "status": "proved",
   "theorems": [
    "Fossil.C07_llo_positive_ct",
    "Fossil.C07_llo_positive_dt",
    "Fossil.C07_warning_only_unsound"
   ],
   "note": "hypothesis of the claim (non-negative network) is the one the code only warns about: C07_warning_only_unsound shows a non-positive network is accepted after the warning"
  },
  {
   "property": "C08",
   "status": "partial",
   "theorems": [
    "Fossil.C08_roa_conditions",
    "Fossil.C08_roa_invariant_partial",
    "Fossil.C08_roa_llo_strictly_decreasing",
    "Fossil.C08_no_attraction",
    "Fossil.C08_level_start_escapes"
   ],
   "note": "Invariance proved for trajectories starting strictly inside; attraction itself is false (negation proved: no decrease enforced, ball excluded)"
  },
  {
   "property": "C09",
   "status": "proved",
   "theorems": [
    "Fossil.C09_barrier_safety"
   ],
   "note": "smooth networks; see C45 for ReLU"
  },
  {
   "property": "C10",
   "status": "proved",
   "theorems": [
    "Fossil.C10_barrierAlt_safety_ct"
   ],
   "note": "smooth networks"
  },
  {
   "property": "C11",
   "status": "proved",
   "theorems": [
    "Fossil.C11_barrierAlt_safety_dt"
   ],
   "note": "without factors"
  },
  {
   "property": "C45",
   "status": "partial",
   "theorems": [
    "Fossil.C45_relu_barrier_safety_partial",
    "Fossil.C45_relu_barrier_unsound"
   ],
   "note": "False as stated: negation proved with a concrete accepted ReLU certificate (dReal's Max derivative picks one side at a kink). Proved part: the safety guarantee of an accepted ReLU barrier whose kinks do not lie on the zero level inside the domain. All other certificate types survive kinks, see C82."
  },
  {
   "property": "C12",
   "status": "proved",
   "theorems": [
    "Fossil.C12_rws_stays_until_goal",
    "Fossil.C12_rws_reaches_goal",
    "Fossil.C12_open_safe_set_unsound"
   ],
   "note": "smooth networks; static set relations in ReachSets (initial set in safe set, border label carries the safe set and has a covering boundary formula). For open boxes the boundary formula is vacuous and the claim fails: C12_open_safe_set_unsound"
  },
  {
   "property": "C13",
   "status": "proved",
   "theorems": [
    "Fossil.C13_remains_in_goal",
    "Fossil.C13_reaches_and_stays"
   ],
   "note": "for any level returned by the beta search"
  },
  {
   "property": "C15",
   "status": "partial",
   "theorems": [
    "Fossil.C15_stable_safe_safety",
    "Fossil.C15_stable_safe_roa_partial",
    "Fossil.C15_unknown_hides_lyapunov"
   ],
   "note": "safety half unconditional; Lyapunov half only if the first query was decided (negation proved otherwise)"
  },
  {
   "property": "C16",
   "status": "proved",
   "theorems": [
    "Fossil.C16_remains_in_final",
    "Fossil.C16_reach_avoid_remain"
   ],
   "note": ""
  },
  {
   "property": "C43",
   "status": "proved",
   "theorems": [
    "Fossil.C43_beta_search",
    "Fossil.C43_unknown_raises",
    "Fossil.C43_may_not_terminate"
   ],
   "note": "the search has no iteration bound (C43_may_not_terminate)"
  },
  {
   "property": "C14",
   "status": "partial",
   "theorems": [
    "Fossil.C14_rsws_stay_checked_partial",
    "Fossil.C14_rswa_skips_stay_check",
    "Fossil.C14_rswa_success_but_goal_left"
   ],
   "note": "True for RSWS; false for RSWA, whose CEGIS loop skips the stay check: negation proved, end to end, with a concrete rotation system"
  },
  {
   "property": "C27",
   "status": "proved",
   "theorems": [
    "Fossil.C27_success_is_verified"
   ],
   "note": "any learner/translator/verifier; single and double loop"
  },
  {
   "property": "C28",
   "status": "proved",
   "theorems": [
    "Fossil.C28_iteration_bound",
    "Fossil.C28_terminates",
    "Fossil.C28_negative_limit_never_stops"
   ],
   "note": ""
  },
  {
   "property": "C29",
   "status": "partial",
   "theorems": [
    "Fossil.C29_pass_appends",
    "Fossil.C29_data_prefix",
    "Fossil.C29_counterexamples_kept",
    "Fossil.C29_aligned_partial",
    "Fossil.C29_stale_derivatives"
   ],
   "note": "growth and retention proved in general; alignment proved for dynamics without trained controller and refuted with one (stale derivatives)"
  },
  {
   "property": "C46",
   "status": "proved",
   "theorems": [
    "Fossil.C46_barrier_synthesis_safe",
    "Fossil.C46_discrete_barrier_synthesis_safe",
    "Fossil.C46_lyapunov_synthesis",
    "Fossil.C46_reach_synthesis",
    "Fossil.C46_reach_stay_synthesis",
    "Fossil.C46_roa_synthesis",
    "Fossil.C46_stable_safe_synthesis",
    "Fossil.C46_rar_synthesis",
    "Fossil.C46_synthesis_succeeds"
   ],
   "note": "smooth activations; rounded network and symbolic controller. Solver: any z3-style solver with right unsat answers, or dReal with its second-chance logic (None answers right, boxes within bounds, sets inside (-1000,1000)^n, dynamics in the state variables only; not for ROA, whose query is unbounded, see C04). Complete runs are exhibited for both."
  },
  {
   "property": "C30",
   "status": "proved",
   "theorems": [
    "Fossil.C30_trajectory",
    "Fossil.C30_start",
    "Fossil.C30_lie_labels",
    "Fossil.C30_trajectory_goes_to_lie"
   ],
   "note": ""
  },
  {
   "property": "C24",
   "status": "partial",
   "theorems": [
    "Fossil.C24_samples_in_set_partial",
    "Fossil.C24_ball_samples_outside",
    "Fossil.C24_torus_samples_in_hole",
    "Fossil.C24_open_disc_samples_border",
    "Fossil.C24_orthant_ball_samples_outside"
   ],
   "note": "False as stated (large balls outside dimensions 2-3, tori with a hole, open discs, orthant balls centred outside): those negations are proved; proved for the other set expressions and all draws."
  },
  {
   "property": "C25",
   "status": "partial",
   "theorems": [
    "Fossil.C25_border_samples_partial",
    "Fossil.C25_border_samples_satisfy_boundary_partial",
    "Fossil.C25_boundary_formula_is_border",
    "Fossil.C25_interval_border_is_interior",
    "Fossil.C25_ball_border_wrong"
   ],
   "note": "False as stated for intervals and for balls of radius other than one in dimension above three: negations proved; proved otherwise."
  },
  {
   "property": "C26",
   "status": "proved",
   "theorems": [
    "Fossil.C26_primitive_row_count",
    "Fossil.C26_union_row_count",
    "Fossil.C26_filtered_row_count"
   ],
   "note": ""
  },
  {
   "property": "C31",
   "status": "partial",
   "theorems": [
    "Fossil.C31_result_from_worker_partial",
    "Fossil.C31_failure_only_after_all_failed_partial",
    "Fossil.C31_polling_returns_partial",
    "Fossil.C31_supervisor_never_returns",
    "Fossil.C31_crash_without_success_never_returns"
   ],
   "note": "False as stated: a worker calls CertificateSolution.clean, which does not exist, so it crashes before putting its result and solve never returns (proved for every execution). The protocol itself is proved for workers that do put a result."
  },
  {
   "property": "C32",
   "status": "partial",
   "theorems": [
    "Fossil.C32_parse_ordinary_meaning_partial",
    "Fossil.C32_number_division_by_zero",
    "Fossil.C32_notation_unambiguous",
    "Fossil.C32_minus_before_power_wrong",
    "Fossil.C32_minus_square_wrong",
    "Fossil.C32_bracket_minus_raises",
    "Fossil.C32_call_bracket_rejected",
    "Fossil.C32_text_ordinary_meaning_partial",
    "Fossil.C32_text_minus_before_power_wrong",
    "Fossil.C32_empty_brackets_accepted"
   ],
   "note": "False as stated: -a**b is read as (-a)**b; '((a)-b)' raises; 'f((a)+b)' is rejected (all proved). Everything else in ordinary notation is proved accepted with its ordinary value, both for token lists and for the characters of the text with any spacing."
  },
  {
   "property": "C33",
   "status": "partial",
   "theorems": [
    "Fossil.C33_numeric_by_index_partial",
    "Fossil.C33_numeric_wrong_from_eleven",
    "Fossil.C33_numeric_symbolic_disagree",
    "Fossil.C33_constant_component_rejected",
    "Fossil.C33_symbolic_by_name",
    "Fossil.C33_inputs_agree_partial",
    "Fossil.C33_dreal_inputs_once_partial",
    "Fossil.C33_dreal_repeated_input_left_free"
   ],
   "note": "False as stated: names are sorted as strings, so with 11 or more variables column 2 is x10 (proved for every system); proved for up to ten. With dReal an input occurring twice is substituted once (proved)."
  },
  {
   "property": "C35",
   "status": "partial",
   "theorems": [
    "Fossil.C35_lyapunov_learn",
    "Fossil.C35_roa_learn",
    "Fossil.C35_barrier_learn",
    "Fossil.C35_barrierAlt_learn",
    "Fossil.C35_rws_learn",
    "Fossil.C35_rsws_learn",
    "Fossil.C35_stablesafe_learn_partial",
    "Fossil.C35_rar_learn_partial",
    "Fossil.C35_last_layer_nonneg",
    "Fossil.C35_trained_is_positive",
    "Fossil.C35_trained_accepted_positive",
    "Fossil.C35_stablesafe_not_projected",
    "Fossil.C35_barrier_stops_with_violation",
    "Fossil.C35_lyapunov_zero_derivative_raises",
    "Fossil.C35_lyapunov_no_samples_raises"
   ],
   "note": "Proved in full for Lyapunov, ROA, Barrier, BarrierAlt, RWA/RWS, RSWA/RSWS with an arbitrary optimiser. StableSafe and ReachAvoidRemain need a data dictionary order (negations in C36). Positive last layer proved for Lyapunov/ROA; StableSafe never projects and a negative certificate is accepted (proved). Optimiser arbitrary, float rounding not modelled."
  },
  {
   "property": "C36",
   "status": "partial",
   "theorems": [
    "Fossil.C36_barrier_labels",
    "Fossil.C36_rsws_labels",
    "Fossil.C36_stablesafe_labels_partial",
    "Fossil.C36_stablesafe_xr_labels_partial",
    "Fossil.C36_stablesafe_misattributed",
    "Fossil.C36_rar_labels_partial",
    "Fossil.C36_rar_misattributed"
   ],
   "note": "Proved for every order for Barrier, BarrierAlt, RWA/RWS, RSWA/RSWS and controlled RAR. For StableSafe and uncontrolled RAR it holds only for one dictionary order; the negation is proved for another."
  },
  {
   "property": "C44",
   "status": "proved",
   "theorems": [
    "Fossil.C44_roa_accuracy",
    "Fossil.C44_lyapunov_accuracy",
    "Fossil.C44_init_unsafe_accuracy",
    "Fossil.C44_barrier_accuracy",
    "Fossil.C44_barrierAlt_accuracy",
    "Fossil.C44_rws_accuracy",
    "Fossil.C44_accuracy_not_strict"
   ],
   "note": "Over the reals (the code counts float comparisons). The conditions are non-strict, as stated."
  },
  {
   "property": "C34",
   "status": "proved",
   "theorems": [
    "Fossil.C34_accepted_sources",
    "Fossil.C34_accepted_formulas",
    "Fossil.C34_documented_accepted",
    "Fossil.C34_integer_counts_never_accepted",
    "Fossil.C34_missing_counts_rejected",
    "Fossil.C34_region_data_unavailable",
    "Fossil.C34_rar_order",
    "Fossil.C34_rar_misattributed"
   ],
   "note": "YAML parsing and parse_domain are not modelled (sets given as expressions). Defects proved alongside: an integer N_DATA is rejected for every reach certificate, a missing N_DATA is a KeyError despite the default, XR is unusable, and an accepted autonomous RAR configuration always yields a data order its training loop misreads."
  },
  {
   "property": "C42",
   "status": "proved",
   "theorems": [
    "Fossil.C42_assert_state_iff",
    "Fossil.C42_cegis_state_iff",
    "Fossil.C42_checked_single_constraints",
    "Fossil.C42_checked_double_constraints"
   ],
   "note": "All built-in certificate types; CUSTOM classes are the user's."
  },
  {
   "property": "C38",
   "status": "proved",
   "theorems": [
    "Fossil.C38_symbolic_is_rounded_numeric",
    "Fossil.C38_exact_on_five_decimals",
    "Fossil.C38_controller_is_network",
    "Fossil.C38_linear_controller_raises",
    "Fossil.C38_extra_activation_applies_output_twice",
    "Fossil.C38_missing_activation_skips_layers",
    "Fossil.C38_closed_loop_is_rounded",
    "Fossil.C38_field",
    "Fossil.C38_parsed_closed_loop",
    "Fossil.C38_controlled_barrier_synthesis",
    "Fossil.C38_returned_controller_not_the_verified_one"
   ],
   "note": "All architectures, activations, weights and states. The symbolic controller is the numeric one with weights rounded to five decimals; the verified closed loop is the open loop driven by it. Defects proved: the returned (unrounded) controller need not satisfy what was verified; CTRLAYER with one entry raises; one activation too many applies the output layer twice; one too few skips layers. Parsed dReal systems with repeated inputs: see C33."
  },
  {
   "property": "C39",
   "status": "partial",
   "theorems": [
    "Fossil.C39_value_preserved",
    "Fossil.C39_value_preserved_z3_partial",
    "Fossil.C39_zero_exponent_wrong",
    "Fossil.C39_converts_iff_covered"
   ],
   "note": "All expression trees, symbol tables and points. Value preserved always with the default float numbers; with z3 numbers except for literal zero exponents, for which the conversion is wrong (proved). Conversion succeeds exactly when every symbol, function and head is known."
  },
  {
   "property": "C40",
   "status": "proved",
   "theorems": [
    "Fossil.C40_timer_totals",
    "Fossil.C40_average",
    "Fossil.C40_stop_needs_start",
    "Fossil.C40_nested_calls"
   ],
   "note": "All event histories and call sequences. Starting twice does not raise (the earlier start is forgotten); nested use of one timer raises or mis-charges (proved)."
  },
  {
   "property": "C41",
   "status": "partial",
   "theorems": [
    "Fossil.C41_records_partial",
    "Fossil.C41_empty_file_no_header",
    "Fossil.C41_concurrent_rows_kept",
    "Fossil.C41_concurrent_two_headers",
    "Fossil.C41_columns",
    "Fossil.C41_recordable",
    "Fossil.C41_certificate_column",
    "Fossil.C41_activation_names",
    "Fossil.C41_activation_names_shared"
   ],
   "note": "Sequential writers: all histories from a missing or existing file; concurrent writers: all schedules keep header first and every row once. Fails (proved): an existing empty file never gets a header, and two first-time concurrent writers can leave two headers; runs with custom certificates or shifted softplus activations cannot be recorded."
  },
  {
   "property": "C47",
   "status": "partial",
   "theorems": [
    "Fossil.C47_lyapunov_stability_partial",
    "Fossil.C47_lyapunov_attraction_partial",
    "Fossil.C47_lyapunov_ultimate_bound",
    "Fossil.C47_lyapunov_stability_dt_partial",
    "Fossil.C47_synthesis_stable_partial",
    "Fossil.C47_vanishes_at_origin",
    "Fossil.C47_unstable_accepted"
   ],
   "note": "False as stated: the value at the origin is never checked, and an accepted bias-free even-polynomial certificate for x'=x is exhibited. Proved when the certificate vanishes at the origin by construction (factors, or no biases and zero-preserving activations); domains with a hole get the ultimate bound."
  },
  {
   "property": "C48",
   "status": "partial",
   "theorems": [
    "Fossil.C48_cdot_is_lie_derivative",
    "Fossil.C48_candidate_safety_partial",
    "Fossil.C48_candidate_lyapunov_conditions_partial",
    "Fossil.C48_candidate_stability_partial",
    "Fossil.C48_candidate_reach_partial",
    "Fossil.C48_success_accepted",
    "Fossil.C48_read_candidate",
    "Fossil.C48_candidate_minus_power_misread",
    "Fossil.C48_needs_dreal",
    "Fossil.C48_unsupported_certificates",
    "Fossil.C48_candidate_must_mention_all_states",
    "Fossil.C48_unstable_accepted",
    "Fossil.C48_llo_accepts_negative_candidate",
    "Fossil.C48_discrete_time_unsound",
    "Fossil.C48_rsws_stay_not_checked"
   ],
   "note": "Proved for continuous time with dReal: the symbolic derivative is the Lie derivative; accepted barrier, Lyapunov (vanishing at 0, no LLO) and reach candidates give safety, asymptotic stability, reach-while-stay. False as stated for discrete time (gradient condition used), with LLO, for RSWS (stay condition skipped), and when the candidate does not vanish at the origin: counterexamples proved. ROA, double certificates and other solvers raise."
  },
  {
   "property": "C49",
   "status": "partial",
   "theorems": [
    "Fossil.C49_training_derivative",
    "Fossil.C49_training_matches_verified",
    "Fossil.C49_discrete_training_partial",
    "Fossil.C49_discrete_training_ignores_factor",
    "Fossil.C49_compute_maximum_partial",
    "Fossil.C49_compute_maximum_ignores_factor",
    "Fossil.C49_misaligned_batches_raise",
    "Fossil.C49_double_factor_mismatch",
    "Fossil.C49_double_no_factor",
    "Fossil.C49_double_factor_stalls"
   ],
   "note": "Continuous time proved in full (value, derivative along curves, agreement with the symbolic formulas). In discrete time and for compute_maximum proved without the quadratic factor; with it the claim is false (LearnerDT.get_all and compute_maximum ignore the factor), negations proved. Two networks with FACTORS=QUADRATIC: training of both looks at |x|^2 times the verified formulas (the exact relation is proved), with a witness where training is satisfied at every state but the origin and the verified condition fails at every state."
  },
  {
   "property": "C50",
   "status": "partial",
   "theorems": [
    "Fossil.C50_activation_documented_partial",
    "Fossil.C50_cosh_shifted",
    "Fossil.C50_requ_is_relu",
    "Fossil.C50_rational_missing",
    "Fossil.C50_even_poly_orders"
   ],
   "note": "Proved for every activation except the documented ones the code gets wrong, each with a proved negation: COSH is cosh-1, RELU_SQUARE/REQU build a plain ReLU, RATIONAL builds nothing, EVEN_POLY_n has orders 0,2,..,2(n-1)."
  },
  {
   "property": "C51",
   "status": "partial",
   "theorems": [
    "Fossil.C51_barrier_loss",
    "Fossil.C51_barrier_loss_nan",
    "Fossil.C51_roa_loss",
    "Fossil.C51_barrierAlt_loss",
    "Fossil.C51_rws_loss_partial",
    "Fossil.C51_rws_ignores_unsafe",
    "Fossil.C51_beta_loss",
    "Fossil.C51_rsws_loss_sum",
    "Fossil.C51_lyapunov_loss_partial",
    "Fossil.C51_lyapunov_loss_misranks"
   ],
   "note": "Proved for the barrier, ROA, alternative barrier and beta losses. For reach-while-avoid proved when some domain sample is negative; otherwise the unsafe samples are ignored (negation proved). For Lyapunov a positive loss does imply a violation, but the converse fails: the leaky ReLU can rank a violating network better (proved)."
  },
  {
   "property": "C52",
   "status": "proved",
   "theorems": [
    "Fossil.C52_linearisation",
    "Fossil.C52_equilibrium_check",
    "Fossil.C52_pendulum",
    "Fossil.C52_bilinear_raises"
   ],
   "note": "Whenever a matrix is returned; models in which an input multiplies a state raise a TypeError instead (C52_bilinear_raises), although differentiable."
  },
  {
   "property": "C53",
   "status": "proved",
   "theorems": [
    "Fossil.C53_stable_linearisation",
    "Fossil.C53_sufficiently_stable_linearisation",
    "Fossil.C53_linear_iff",
    "Fossil.C53_worst_pole"
   ],
   "note": "Eigenvalues are exact roots of the characteristic polynomial (numpy's floating point is idealised). Nonlinear case by Lyapunov's indirect method."
  },
  {
   "property": "C54",
   "status": "proved",
   "theorems": [
    "Fossil.C54_closed_loop_stable",
    "Fossil.C54_optimal",
    "Fossil.C54_optimal_infinite",
    "Fossil.C54_missing_input_matrix_raises"
   ],
   "note": "scipy's Riccati solver is a parameter assumed to return a symmetric positive semidefinite solution of the equation."
  },
  {
   "property": "C55",
   "status": "proved",
   "theorems": [
    "Fossil.C55_rectangle_text",
    "Fossil.C55_sphere_text",
    "Fossil.C55_torus_text",
    "Fossil.C55_rectangle_formula",
    "Fossil.C55_silently_misread",
    "Fossil.C55_rejected_numerals"
   ],
   "note": "Character level. Any spacing, signs and decimal fractions. Also proved: texts outside the notation (missing commas, '3-1', extra arguments) are silently read as other sets, and scientific notation is rejected."
  },
  {
   "property": "C56",
   "status": "proved",
   "theorems": [
    "Fossil.C56_config_safety",
    "Fossil.C56_config_safety_dt",
    "Fossil.C56_config_stability",
    "Fossil.C56_config_reach",
    "Fossil.C56_config_reach_stay",
    "Fossil.C56_dreal_trusted",
    "Fossil.C56_functions_by_library",
    "Fossil.C56_config_roa",
    "Fossil.C56_config_stable_safe",
    "Fossil.C56_config_rar",
    "Fossil.C56_no_functions"
   ],
   "note": "Composition of C32 (texts of the dynamics, full documented notation, outside the patterns C32 refutes), C55 (texts of the sets), C34 (labels and borders) and C46/C47. Without controller; networks without ReLU units; for stability the network vanishes at the origin by construction. Complete runs from concrete files are given for Barrier, RSWS, Lyapunov, ROA, StableSafe and RAR. Both with z3-style answers and with dReal (sets inside (-1000,1000)^n, not ROA)."
  },
  {
   "property": "C57",
   "status": "proved",
   "theorems": [
    "Fossil.C57_constructible_iff",
    "Fossil.C57_library_support"
   ],
   "note": "The model keeps EmptySet operands as syntax; C57_constructible_iff says such expressions cannot be built by the constructors (EmptySet has no attribute dimension)."
  },
  {
   "property": "C58",
   "status": "proved",
   "theorems": [
    "Fossil.C32_text_never_misread",
    "Fossil.C32_text_accepted_meaning",
    "Fossil.C32_tight_unambiguous"
   ],
   "note": "Both directions of the text reader: completeness is C32, this is soundness on characters. Uniqueness of the token sequence of a text and of its reading are proved, so the theorem compares with every ordinary reading of the text."
  },
  {
   "property": "C59",
   "status": "proved",
   "theorems": [
    "Fossil.C59_control_safety",
    "Fossil.C59_control_safety_dt",
    "Fossil.C59_control_stability",
    "Fossil.C59_control_reach",
    "Fossil.C59_control_reach_stay",
    "Fossil.C59_control_roa",
    "Fossil.C59_control_stable_safe",
    "Fossil.C59_control_rar",
    "Fossil.C59_control_on_grid",
    "Fossil.C59_dreal_trusted",
    "Fossil.C59_dreal_repeated_input_unsound",
    "Fossil.C59_ctrlayer_needs_hidden_layer",
    "Fossil.C59_enough_outputs",
    "Fossil.C59_dreal_occurrences"
   ],
   "note": "End to end from the characters of the file: the written system, parsed, closed with the controller network and verified. The guarantee is for the controller rounded to five decimals (C59_control_on_grid: no difference when the weights have at most five decimals; C38 proves that the unrounded one may fail). Defect proved: with dReal an input written twice becomes a free variable whose box is tested against the bounds, and a run with only correct solver answers reports success for a system that is unsafe."
  },
  {
   "property": "C60",
   "status": "proved",
   "theorems": [
    "Fossil.C60_verify_safety",
    "Fossil.C60_verify_stability",
    "Fossil.C60_verify_lyapunov",
    "Fossil.C60_verify_reach",
    "Fossil.C60_needs_dreal",
    "Fossil.C60_unsupported_certificates",
    "Fossil.C60_entry_verifies",
    "Fossil.C60_discrete_time_unsound"
   ],
   "note": "End to end from the characters of the file: system, sets and candidate are read and checked. Defect proved: the time domain is ignored by verify, so a discrete-time system passes with the continuous-time condition although it is unsafe (C60_discrete_time_unsound). For RSWS the stay condition is not checked at all (C48_rsws_stay_not_checked)."
  },
  {
   "property": "C61",
   "status": "proved",
   "theorems": [
    "Fossil.C61_seed_reproduces",
    "Fossil.C61_fresh_process_reproduces",
    "Fossil.C61_unseeded_second_run_not_reproducible",
    "Fossil.C61_benchmark_repetitions",
    "Fossil.C61_seeds_not_consecutive",
    "Fossil.C61_parallel_seeds",
    "Fossil.C61_started_workers",
    "Fossil.C61_parallel_result_reproducible"
   ],
   "note": "A run is any program whose only effect is drawing from torch's generator (clock-dependent solver timeouts excluded). Two defects proved: a second unseeded run records the first run's seed, which does not reproduce it; repetitions without concurrent are four seeds apart, not consecutive. C61_parallel_result_reproducible is conditional on the supervisor returning, which C31_supervisor_never_returns shows does not happen at this commit."
  },
  {
   "property": "C62",
   "status": "proved",
   "theorems": [
    "Fossil.C62_options_used",
    "Fossil.C62_control_options_used",
    "Fossil.C62_verify_options_used",
    "Fossil.C62_order_irrelevant",
    "Fossil.C62_unknown_field_ignored",
    "Fossil.C62_unknown_member_rejected",
    "Fossil.C62_case_insensitive",
    "Fossil.C62_set_names_case_sensitive",
    "Fossil.C62_required_fields",
    "Fossil.C62_time_domain_not_optional",
    "Fossil.C62_n_data_not_optional",
    "Fossil.C62_member_names"
   ],
   "note": "The file is the dictionary yaml.safe_load returns (YAML syntax itself is not modelled). Defects proved: TIME_DOMAIN and N_DATA are documented with defaults but cannot be left out."
  },
  {
   "property": "C63",
   "status": "proved",
   "theorems": [
    "Fossil.C63_started_run",
    "Fossil.C63_can_start",
    "Fossil.C63_one_library",
    "Fossil.C63_verifier_is_used",
    "Fossil.C63_no_verifier_reports_success",
    "Fossil.C63_no_verifier_returns",
    "Fossil.C63_no_verifier_rsws_raises",
    "Fossil.C63_file_without_verifier",
    "Fossil.C63_file_marabou_rejected",
    "Fossil.C63_file_controller_needs_verifier",
    "Fossil.C63_candidate_needs_verifier"
   ],
   "note": "A file with VERIFIER: none is accepted and its run reports a Lyapunov function for an unstable system (C63_file_without_verifier). That RSWS raises without a verifier rests on sympy having no attribute `If`."
  },
  {
   "property": "C64",
   "status": "proved",
   "theorems": [
    "Fossil.C64_success_is_verified",
    "Fossil.C64_needs_complete_class",
    "Fossil.C64_single_dictionary_never_returns",
    "Fossil.C64_no_conditions_succeeds",
    "Fossil.C64_custom_lyapunov",
    "Fossil.C64_repeated_label_hides_condition"
   ],
   "note": "Distinct labels are needed: with a repeated label an undecided condition is overwritten (C64_repeated_label_hides_condition, cf. C03). Not modelled: side effects of user code outside the certificate object."
  },
  {
   "property": "C65",
   "status": "proved",
   "theorems": [
    "Fossil.C65_prints_iff",
    "Fossil.C65_reads_back",
    "Fossil.C65_others_rejected",
    "Fossil.C65_reads_back_iff",
    "Fossil.C65_text_identifies",
    "Fossil.C65_selection_not_shown"
   ],
   "note": "Python's printing of a number is a parameter; numbers printed with an exponent (below 1e-4 or from 1e16 on) are outside the hypothesis of the reading-back part."
  },
  {
   "property": "C66",
   "status": "proved",
   "theorems": [
    "Fossil.C66_listed_needed",
    "Fossil.C66_listed_suffices",
    "Fossil.C66_custom_not_listed",
    "Fossil.C66_not_final_ignored"
   ],
   "note": "The exact characterisation of accepted N_DATA mappings also sharpens C34. Integer N_DATA: C34. The layout of the printed text is not modelled, only the two lists of names."
  },
  {
   "property": "C67",
   "status": "partial",
   "theorems": [
    "Fossil.C67_consistent_partial",
    "Fossil.C67_field_partial",
    "Fossil.C67_agree_partial",
    "Fossil.C67_complete",
    "Fossil.C67_closed_sizes",
    "Fossil.C67_quadrotor_fails",
    "Fossil.C67_satellite",
    "Fossil.C67_nvars_transposed",
    "Fossil.C67_eulerised_partial"
   ],
   "note": "The claim is false for three benchmarks: the numeric dynamics of Quadrotor2d raise on every input (C67_quadrotor_fails), those of LinearSatellite on every row of the declared width (C67_satellite), and LinearDiscreteNVars returns the transposed batch (C67_nvars_transposed). For the other fifty classes it is proved in full (C67_consistent_partial), as a vector field and as the hypothesis of the closed-loop theorems. Two classes with inputs lack the attribute needed to be closed with a controller (C67_closed_sizes)."
  },
  {
   "property": "C68",
   "status": "partial",
   "theorems": [
    "Fossil.C68_lyapunov",
    "Fossil.C68_roa",
    "Fossil.C68_barrier",
    "Fossil.C68_barrierAlt",
    "Fossil.C68_rws",
    "Fossil.C68_rsws",
    "Fossil.C68_rar_partial",
    "Fossil.C68_stablesafe_partial",
    "Fossil.C68_output_layer",
    "Fossil.C68_warning"
   ],
   "note": "Missing: RAR without a controller and StableSafe for dictionaries not in label order, where the code mixes up the samples (C36)."
  },
  {
   "property": "C69",
   "status": "partial",
   "theorems": [
    "Fossil.C69_frozen_unchanged",
    "Fossil.C69_frozen_iff",
    "Fossil.C69_rar_frozen_verified",
    "Fossil.C69_rar_frozen_reaches",
    "Fossil.C69_freezing_run",
    "Fossil.C69_rar_blocked",
    "Fossil.C69_unknown_freezes",
    "Fossil.C69_stablesafe_blocked",
    "Fossil.C69_stablesafe_blocked_reached",
    "Fossil.C69_rar_frozen_reached"
   ],
   "note": "Proved as stated, with the hypothesis that the solver decides its queries. What a user would expect beyond that is false, and its negation is proved: an undecided query freezes a wrong reach function and the run can then not succeed (C69_unknown_freezes, C69_rar_blocked); for StableSafe the level of the frozen Lyapunov function is recomputed from data that grow, so a run can be blocked although the frozen function is part of a correct pair (C69_stablesafe_blocked). The frozen Lyapunov function of StableSafe is not shown to satisfy its conditions later on, for the same reason."
  },
  {
   "property": "C70",
   "status": "proved",
   "theorems": [
    "Fossil.C70_translates_iff",
    "Fossil.C70_translates_iff_dt",
    "Fossil.C70_translates_iff_double",
    "Fossil.C70_queries_exist",
    "Fossil.C70_queries_exist_double",
    "Fossil.C70_verify_total",
    "Fossil.C70_run_total",
    "Fossil.C70_run_total_double",
    "Fossil.C70_unsupported_never"
   ],
   "note": "The optimiser, the gradient computation of the trajectory search and `estimate_beta` are parameters that are assumed to return; for RSWS the stay search is assumed to end (it may not, C13). The values of a solver model are assumed to exist for all variables: for dReal that means a box over all variables (C04)."
  },
  {
   "property": "C71",
   "status": "proved",
   "theorems": [
    "Fossil.C71_table",
    "Fossil.C71_percent",
    "Fossil.C71_missing_dropped",
    "Fossil.C71_shared_names",
    "Fossil.C71_old_names"
   ],
   "note": "Number arithmetic is exact (no floats); the two texts joined with a comma are kept as pairs; escaping of underscores, renaming of columns and the output formats are not modelled. Rows of earlier versions (RWS, RSWS) join the rows of this version."
  },
  {
   "property": "C72",
   "status": "proved",
   "theorems": [
    "Fossil.C72_set_shown_iff",
    "Fossil.C72_recorded_iff",
    "Fossil.C72_series",
    "Fossil.C72_usual_recorded",
    "Fossil.C72_lost"
   ],
   "note": "sympy's printing and the layout of the two texts are parameters; f_smt is taken to unpack or index its argument, as all models of the repository do. Sharpens C41_recordable, which takes the two texts as given."
  },
  {
   "property": "C73",
   "status": "proved",
   "theorems": [
    "Fossil.C73_compute_minimum",
    "Fossil.C73_level_value",
    "Fossil.C73_dim_select_raises",
    "Fossil.C73_fallback_samples",
    "Fossil.C73_level_on_border",
    "Fossil.C73_no_draw_suffices",
    "Fossil.C73_verified_lost",
    "Fossil.C73_run_total",
    "Fossil.C73_compute_minimum_empty"
   ],
   "note": "The sublevel set of the stored level need not stay in the domain (C73_no_draw_suffices). Also proved: exactly which value is stored, exactly which domains make the computation raise, that a verified certificate is then never reported, and that otherwise the run returns. No samples: raises."
  },
  {
   "property": "C74",
   "status": "proved",
   "theorems": [
    "Fossil.C74_run_total",
    "Fossil.C74_step_usable",
    "Fossil.C74_progress_lyapunov",
    "Fossil.C74_progress_barrier",
    "Fossil.C74_roa_level"
   ],
   "note": "The stay search of RSWS is assumed to return (C14/C48 treat it). Real arithmetic instead of float32, as in LearnLoop. The trained level of a ROA certificate is the largest output on the initial samples."
  },
  {
   "property": "C75",
   "status": "proved",
   "theorems": [
    "Fossil.C75_run_total",
    "Fossil.C75_run_total_checked",
    "Fossil.C75_run_total_checked_single",
    "Fossil.C75_progress_rar",
    "Fossil.C75_rar_extra_label"
   ],
   "note": "float arithmetic of training as reals; the optimiser is an arbitrary function of pass, step and parameters that keeps shapes; the widths are tested before the loop"
  },
  {
   "property": "C76",
   "status": "proved",
   "theorems": [
    "Fossil.C76_initial_data",
    "Fossil.C76_initial_network",
    "Fossil.C76_file_run_total",
    "Fossil.C76_file_safety",
    "Fossil.C76_file_safety_dt",
    "Fossil.C76_file_reach",
    "Fossil.C76_file_reach_stay",
    "Fossil.C76_file_roa",
    "Fossil.C76_file_stability",
    "Fossil.C76_file_stable_safe",
    "Fossil.C76_file_rar",
    "Fossil.C76_step_shape",
    "Fossil.C76_draws_some",
    "Fossil.exFile_run",
    "Fossil.exFile_succeeds",
    "Fossil.C76_file_stability_llo"
   ],
   "note": "Joins C34/C56 (reading the file), C74/C75 (training and run never raise) and C46 (success is a true certificate) through the initial data and the initial network; exFile_succeeds is a file whose run reports success whatever data are drawn. With LLO (positivity query left out) stability is proved for every architecture whose last activation is one of the non-negative ones and every sequence of LLO optimiser steps (C76_file_stability_llo)."
  },
  {
   "property": "C77",
   "status": "proved",
   "theorems": [
    "Fossil.C77_closed_loop_shape",
    "Fossil.C77_initial_data",
    "Fossil.C77_draws_some",
    "Fossil.C77_control_run_total",
    "Fossil.C77_control_safety",
    "Fossil.C77_control_safety_dt",
    "Fossil.C77_control_reach",
    "Fossil.C77_control_reach_stay",
    "Fossil.C77_control_roa",
    "Fossil.C77_control_stability",
    "Fossil.C77_control_stable_safe",
    "Fossil.C77_control_rar",
    "Fossil.exControlFile_run",
    "Fossil.exControlFile_succeeds",
    "Fossil.C77_control_stability_llo"
   ],
   "note": "C76 for the files of C59: training keeps the architectures of certificate and controller, so the closed loop stays defined in every pass; exControlFile_succeeds is a file whose run reports success whatever data are drawn. Stability with LLO: C77_control_stability_llo."
  },
  {
   "property": "C78",
   "status": "proved",
   "theorems": [
    "Fossil.C78_range",
    "Fossil.C78_direction_only",
    "Fossil.C78_inward",
    "Fossil.C78_batch_inward",
    "Fossil.C78_minimum",
    "Fossil.C78_total",
    "Fossil.C78_rws_total",
    "Fossil.C78_misranks"
   ],
   "note": "Real arithmetic; torch's CosineSimilarity is modelled as x.y / (max(|x|,eps) max(|y|,eps)) with eps = 1e-8. Training stops on the accuracies only (C35), so the term never decides when training stops."
  },
  {
   "property": "C79",
   "status": "proved",
   "theorems": [
    "Fossil.C79_same_runs",
    "Fossil.C79_last_line",
    "Fossil.C79_success_line",
    "Fossil.C79_one_line",
    "Fossil.C79_texts",
    "Fossil.C79_usage",
    "Fossil.C79_listing",
    "Fossil.C79_status",
    "Fossil.C79_verify_plot",
    "Fossil.C79_plot"
   ],
   "note": "Info and debug messages are left out (not shown at the default level), also warnings of libraries; argparse itself is modelled only for the arguments fossil declares. Two facts worth knowing are part of the claim: the exit status does not report failure, and a reach-while-stay run that gives up may end with 'Keep searching...'."
  },
  {
   "property": "C80",
   "status": "partial",
   "theorems": [
    "Fossil.C80_surface",
    "Fossil.C80_exact_partial",
    "Fossil.C80_sign_partial",
    "Fossil.C80_lie",
    "Fossil.C80_levels",
    "Fossil.C80_figures",
    "Fossil.C80_window",
    "Fossil.C80_roa_level",
    "Fossil.C80_rounding_differs",
    "Fossil.C80_factor_derivative_differs",
    "Fossil.C80_discrete_differs",
    "Fossil.C80_samples_raise"
   ],
   "note": "True without factor and when rounding does not change the weights; with the factor the sign is right off the origin. False otherwise (negations proved): the figures use unrounded weights, drop the factor, and show gradient times f also in discrete time; plotting raises when the stored level is a batch of samples or zero"
  },
  {
   "property": "C81",
   "status": "proved",
   "theorems": [
    "Fossil.C81_boundary_shown",
    "Fossil.C81_corners_on_boundary",
    "Fossil.C81_left_out",
    "Fossil.C81_colours",
    "Fossil.C81_undrawable",
    "Fossil.C81_exchanged_misplaced",
    "Fossil.C81_inner_curves",
    "Fossil.C81_orthant_edges_missing"
   ],
   "note": "boundaries are topological frontiers of the documented sets; polygons as handed to matplotlib"
  },
  {
   "property": "C82",
   "status": "proved",
   "theorems": [
    "Fossil.C82_derivative_almost_always",
    "Fossil.C82_lyapunov_decreases",
    "Fossil.C82_lyapunov_stability",
    "Fossil.C82_lyapunov_attraction",
    "Fossil.C82_lyapunov_ultimate_bound",
    "Fossil.C82_barrierAlt_safety",
    "Fossil.C82_roa_invariant",
    "Fossil.C82_rws_stays_until_goal",
    "Fossil.C82_rws_reaches_goal",
    "Fossil.C82_remains_in_goal",
    "Fossil.C82_reaches_and_stays",
    "Fossil.C82_synthesis_stable",
    "Fossil.C82_synthesis_safe",
    "Fossil.C82_rws_kink_unsound"
   ],
   "note": "Any activations, continuous time, z3 or dReal. The exception for reach certificates (start exactly at the level on a kink) is shown to be real by C82_rws_kink_unsound; Barrier with a kink on the zero level is C45. Accepted ReLU certificates with a kink inside the domain are exhibited for each type."
  },
  {
   "property": "C83",
   "status": "proved",
   "theorems": [
    "Fossil.C83_synthesis_reach",
    "Fossil.C83_synthesis_reach_stay",
    "Fossil.C83_synthesis_roa",
    "Fossil.C83_synthesis_stable_safe",
    "Fossil.C83_remains_in_final",
    "Fossil.C83_reach_avoid_remain",
    "Fossil.C83_synthesis_rar",
    "Fossil.C83_config_stability",
    "Fossil.C83_config_safety",
    "Fossil.C83_config_reach",
    "Fossil.C83_config_reach_stay",
    "Fossil.C83_config_roa"
   ],
   "note": "Continuous time, z3 or dReal. The provisos on kinks are needed: C82_rws_kink_unsound and C45. Successful runs with ReLU networks are exhibited for each certificate type."
  },
  {
   "property": "C84",
   "status": "proved",
   "theorems": [
    "Fossil.C84_file_run_total",
    "Fossil.C84_file_safety",
    "Fossil.C84_file_safety_dt",
    "Fossil.C84_file_reach",
    "Fossil.C84_file_reach_stay",
    "Fossil.C84_file_roa",
    "Fossil.C84_file_stability",
    "Fossil.C84_file_stable_safe",
    "Fossil.C84_file_rar",
    "Fossil.C84_file_barrier"
   ],
   "note": "z3 or dReal. For RSWS the search for the level is assumed to return (C43: it need not); the world stayWorld shows this can hold for every certificate. Barrier with ReLU is excluded because it is unsound (C45). Example files, random numbers and successful runs are given. C84_file_barrier: safety for Barrier with any activations when no kink lies on the zero level in the domain."
  },
  {
   "property": "C85",
   "status": "proved",
   "theorems": [
    "Fossil.C85_fixes_origin",
    "Fossil.C85_stability_dt",
    "Fossil.C85_sublevel_attracts",
    "Fossil.C85_synthesis_stability_dt",
    "Fossil.C85_file_stability_dt",
    "Fossil.C85_origin_may_move"
   ],
   "note": "z3 or dReal, no quadratic factor. C85_origin_may_move is the counterexample for maps that send the origin out of the domain (x^2 - x^3 on [-1/2,1/2], the constant map 1). With LLO the learned network must have the shape and steps of Lyapunov.learn (C76_LLO)."
  },
  {
   "property": "C86",
   "status": "proved",
   "theorems": [
    "Fossil.C86_control_run_total",
    "Fossil.C86_control_safety",
    "Fossil.C86_control_safety_dt",
    "Fossil.C86_control_reach",
    "Fossil.C86_control_reach_stay",
    "Fossil.C86_control_roa",
    "Fossil.C86_control_stability",
    "Fossil.C86_control_stability_dt",
    "Fossil.C86_control_stable_safe",
    "Fossil.C86_control_rar",
    "Fossil.C86_control_barrier"
   ],
   "note": "z3 or dReal (at most ten inputs; with dReal each input written once). For RSWS the search for the level is assumed to return (C43). Barrier with ReLU is excluded because it is unsound (C45). C86_control_barrier: the same with a controller."
  },
  {
   "property": "C87",
   "status": "proved",
   "theorems": [
    "Fossil.C87_read",
    "Fossil.C87_accepted",
    "Fossil.C87_barrier_file",
    "Fossil.C87_roa_file",
    "Fossil.C87_rwa_file",
    "Fossil.C87_rswa_file",
    "Fossil.C87_stable_safe_file",
    "Fossil.C87_rar_file",
    "Fossil.C87_lyap_read",
    "Fossil.C87_lyap_accepted",
    "Fossil.C87_lyapunov_file",
    "Fossil.C87_learn_file",
    "Fossil.C87_learn_file_unsound",
    "Fossil.C87_verify_accepted",
    "Fossil.C87_verify_file"
   ],
   "note": "All yaml files of experiments/benchmarks/cli except ctrl_rar_sine.yaml. For the reach files that some sample is drawn for each label is a hypothesis (rejection sampling of XD outside XS may return nothing, C33). For lyap-test.yaml training may raise if the derivative is exactly 0 at a sample. The RSWA file does not check the stay condition (C14), the STABLESAFE file not the decrease outside a neighbourhood (C15): only what success does imply is stated. learn.yaml: the statement's last sentence is the negation of what a user expects. roa-test.yaml uses dReal, for which C87_roa_file has no sound world (its query is unbounded): C87_roa_file is about a solver whose refutations are right for all reals; C88_roa_test_partial is the guarantee with dReal. Worlds for the other files: shipped_worlds (Props/C88_DRealFiles)."
  },
  {
   "property": "C88",
   "status": "partial",
   "theorems": [
    "Fossil.C88_dreal_box",
    "Fossil.C88_roa_conditions",
    "Fossil.C88_roa_invariant_partial",
    "Fossil.C88_roa_stays",
    "Fossil.C88_leaves_box",
    "Fossil.C88_roa_synthesis_partial",
    "Fossil.C88_file_roa_partial",
    "Fossil.C88_control_roa_partial",
    "Fossil.C88_roa_test_partial"
   ],
   "note": "C88_dreal_box is the statement for any query; the rest is about ROA. Missing (false): trajectories that leave the box, C88_leaves_box gives an accepted certificate, with truthful answers to both calls, and a trajectory from the initial set that rises above the level outside. Non-vacuity: exROA_dreal (with the wall condition), plantWorld for the shipped files; shipped_worlds also gives dReal worlds for the files of C87."
  },
  {
   "property": "C89",
   "status": "proved",
   "theorems": [
    "Fossil.C89_roa_attracts",
    "Fossil.C89_synthesis_roa",
    "Fossil.C89_synthesis_stable_safe",
    "Fossil.C89_file_roa",
    "Fossil.C89_file_stable_safe",
    "Fossil.C89_control_roa",
    "Fossil.C89_control_stable_safe"
   ],
   "note": "The hypotheses are needed: without LLO nothing attracts (C08_no_attraction); with an undecided Lyapunov query a StableSafe success says nothing about the first network (C15_unknown_hides_lyapunov); dReal is treated in C88. Inside the 0.01-ball nothing is verified, so what is attracted to is the ball (entry) or the level sets above the ball (settling), not the origin. Non-vacuity: ReLU files with a solver that decides every query, and |x| on [-1.1,1.1] for x' = -x."
  },
  {
   "property": "C90",
   "status": "proved",
   "theorems": [
    "Fossil.C90_lyapunov",
    "Fossil.C90_lyapunov_dt",
    "Fossil.C90_synthesis",
    "Fossil.C90_synthesis_dt",
    "Fossil.C90_file",
    "Fossil.C90_file_dt",
    "Fossil.C90_control"
   ],
   "note": "The conditions on levels are the user's to check: the tool does not verify the certificate's values in the hole or on the frontier, and the theorems say nothing about the origin itself. In discrete time the compact set is the sub-level set because a run may jump over a frontier. Non-vacuity: files with Torus([0],2,1), ReLU units, in both times and with a controller, and the hole/frontier conditions for |x| on that ring."
  },
  {
   "property": "C91",
   "status": "proved",
   "theorems": [
    "Fossil.C91_synthesis_overlap",
    "Fossil.C91_file_overlap",
    "Fossil.C91_file_unsafe_path",
    "Fossil.C91_file_closed",
    "Fossil.C91_file_periodic",
    "Fossil.C91_file_missed_goal",
    "Fossil.C91_file_roa_closed",
    "Fossil.C91_file_stable_safe",
    "Fossil.C91_file_rar",
    "Fossil.C91_control_overlap"
   ],
   "note": "(b) says nothing of Barrier, whose flow condition holds only near the zero level and whose soundness with kinks is C45 and C84. (c) and (d) are contrapositives of strict decrease, (e) and (f) of the guarantees of C76. Non-vacuity: for each theorem a concrete file whose problem is unsolvable (overlapping sets; x' = 1 - x pushed into the unsafe set; rings with a fixed point; x' = 1 - x away from the goal), with an accepted reading, drawn data and the trajectory."
  },
  {
   "property": "C92",
   "status": "proved",
   "theorems": [
    "Fossil.C92_barrier",
    "Fossil.C92_lyapunov",
    "Fossil.C92_lyapunov_dt",
    "Fossil.C92_reach",
    "Fossil.C92_synthesis_barrier",
    "Fossil.C92_synthesis_reach",
    "Fossil.C92_synthesis_lyapunov",
    "Fossil.C92_synthesis_lyapunov_dt",
    "Fossil.C92_file_barrier",
    "Fossil.C92_file_reach",
    "Fossil.C92_file_lyapunov",
    "Fossil.C92_file_lyapunov_dt",
    "Fossil.C92_control_barrier",
    "Fossil.C92_control_reach",
    "Fossil.C92_barrierAlt_no_margin",
    "Fossil.C92_control_lyapunov",
    "Fossil.C92_control_lyapunov_dt"
   ],
   "note": "The error bound depends on the returned certificate; the code does not compute it. C92_file_lyapunov_dt keeps the alternative of C84 that the linear factor's zero derivative stops the run with an exception. Non-vacuity: accepted certificates of each kind, a disturbed curve that is no trajectory, and a file for each file theorem."
  },
  {
   "property": "C93",
   "status": "proved",
   "theorems": [
    "Fossil.C93_roa",
    "Fossil.C93_reach_stay",
    "Fossil.C93_rar",
    "Fossil.C93_synthesis_roa",
    "Fossil.C93_synthesis_reach_stay",
    "Fossil.C93_synthesis_stable_safe",
    "Fossil.C93_synthesis_rar",
    "Fossil.C93_file_roa",
    "Fossil.C93_file_reach_stay",
    "Fossil.C93_file_stable_safe",
    "Fossil.C93_file_rar",
    "Fossil.C93_control_reach_stay",
    "Fossil.C93_control_rar",
    "Fossil.C93_control_roa",
    "Fossil.C93_control_stable_safe"
   ],
   "note": "The error bound depends on the returned certificate; the code does not compute it. Without LLO a ROA certificate has only a non-strict derivative (C08), so no such statement is made. StableSafe: the safety half. Non-vacuity: accepted certificates of each kind, a region for (a), and a file for each file theorem."
  },
  {
   "property": "C94",
   "status": "proved",
   "theorems": [
    "Fossil.C94_control_barrier",
    "Fossil.C94_control_reach",
    "Fossil.C94_control_reach_stay",
    "Fossil.C94_control_roa",
    "Fossil.C94_control_lyapunov",
    "Fossil.C94_control_stable_safe",
    "Fossil.C94_control_rar",
    "Fossil.C94_control_lyapunov_dt"
   ],
   "note": "The bound depends on the returned certificate and controller; the code does not compute it. Lyapunov: the successful run, or a trained network meets the zero-derivative case of the learner (as C92_control_lyapunov). Barrier and StableSafe curves are considered as long as they are in XD, as the query does. Non-vacuity: a sampled curve with a corner that is no small perturbation of a trajectory, and files with a controller. In discrete time (Lyapunov only) sensors and actuators may be inaccurate."
  },
  {
   "property": "C95",
   "status": "proved",
   "theorems": [
    "Fossil.C95_file_barrier",
    "Fossil.C95_file_reach",
    "Fossil.C95_file_reach_stay",
    "Fossil.C95_file_roa",
    "Fossil.C95_file_lyapunov",
    "Fossil.C95_file_stable_safe",
    "Fossil.C95_file_rar",
    "Fossil.C95_control_barrier",
    "Fossil.C95_control_reach",
    "Fossil.C95_control_reach_stay",
    "Fossil.C95_control_roa",
    "Fossil.C95_control_lyapunov",
    "Fossil.C95_control_stable_safe",
    "Fossil.C95_control_rar",
    "Fossil.C95_eulerised_runs"
   ],
   "note": "The step bound depends on the returned certificate; the code does not compute it. Lyapunov: the successful run, or a trained network meets the zero-derivative case of the learner (as C92_file_lyapunov). Non-vacuity: simulations exist for every model and step bound, and a simulation with too long a step diverges; files of C92 and C93. The discrete-time model that Eulerised (experiments/benchmarks/models.py) makes of a continuous one has exactly the exact simulations as its runs."
  },
  {
   "property": "C96",
   "status": "proved",
   "theorems": [
    "Fossil.C96_console",
    "Fossil.C96_once",
    "Fossil.C96_warnings",
    "Fossil.C96_silent",
    "Fossil.C96_not_reset",
    "Fossil.C96_command_line",
    "Fossil.C96_twice"
   ],
   "note": "The specification recomputes the threshold and the number of set-ups from the history; Python's logging is modelled (levels, handlers, propagation to the loggers above), handlers attached by the user's own program are not."
  }
 ]
}