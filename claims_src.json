{
 "C01": [
  "proved",
  [
   "C01_found_iff_every_query_unsat",
   "C01_success_means_no_violation"
  ],
  "hypotheses: distinct labels; solver refutation-sound for the second theorem"
 ],
 "C02": [
  "proved",
  [
   "C02_counterexamples_genuine",
   "C02_dreal_counterexamples",
   "C02_dreal_missing_variable_raises"
  ],
  " For dReal the counterexample row is read from the box by position (Box.__getitem__): C02_dreal_counterexamples gives the rows exactly, and C02_dreal_missing_variable_raises shows that a box that omits a variable makes reading the counterexample fail."
 ],
 "C03": [
  "partial",
  [
   "C03_success_all_unsat_partial",
   "C03_repeated_label_hides_unknown"
  ],
  "False as stated: with a repeated label a later answer overwrites an earlier unknown. Proved part: the last answer per label is unsat and none was sat; the negation is proved too."
 ],
 "C04": [
  "partial",
  [
   "C04_dreal_success_partial",
   "C04_dreal_unbounded_violation_missed",
   "C04_dreal_leftover_variable_missed",
   "C04_out_of_bounds_box_skips_remaining_groups",
   "C04_none_verifier_always_succeeds",
   "C04_violation_in_bounds_not_success"
  ],
  "False as stated: violations outside the bound are dropped, and a variable that is not a state variable is checked against the bound but not restricted in the second call. Proved part: success is right when the queries are in the state variables only and confine them to the bound."
 ],
 "C21": [
  "proved",
  [
   "C21_domain_formula_denotes_set",
   "C21_complement_formula_denotes_complement",
   "C21_rectangle_ignores_dim_select",
   "C21_cvc5_empty_set_raises"
  ],
  ""
 ],
 "C22": [
  "partial",
  [
   "C22_containment_agrees_partial",
   "C22_containment_one_sided_partial",
   "C22_sphere_containment_wrong_radius",
   "C22_dim_select_raises"
  ],
  "False for spheres (radius**2 compared with the norm), proved for radius one, one-sidedly for radii <=1 / >=1; negation proved for every radius other than 1"
 ],
 "C23": [
  "proved",
  [
   "C23_boundary_formula_covers_frontier",
   "C23_paths_cross_boundary_formula",
   "C23_open_rectangle_boundary_unsatisfiable",
   "C23_interior_formula_is_interior",
   "C23_boundary_is_set_minus_interior"
  ],
  ""
 ],
 "C17": [
  "proved",
  [
   "C17_formula_is_network",
   "C17_lie_derivative",
   "C17_lie_derivative_smooth",
   "C17_rounding",
   "C17_rounding_idempotent"
  ],
  "Lie derivative: at points that are not ReLU kinks (no condition for smooth activations); value: everywhere. Z3/dReal translators."
 ],
 "C18": [
  "partial",
  [
   "C18_one_step_difference_partial",
   "C18_quadratic_factor_dropped",
   "C18_quadratic_factor_unsound",
   "C18_rounding_zero_raises"
  ],
  "False with factors: the discrete translator drops the quadratic factor of V in the difference; proved without factors, negation proved with."
 ],
 "C19": [
  "proved",
  [
   "C19_factored_vanishes_at_origin",
   "C19_double_translator_ignores_factors",
   "C17_lie_derivative"
  ],
  "C17_lie_derivative covers the quadratic factor (quad argument). The two-certificate translator ignores the option."
 ],
 "C20": [
  "partial",
  [
   "C20_cvc5_consistent_partial",
   "C20_cvc5_inconsistent",
   "C20_cvc5_inconsistent_default_rounding",
   "C20_rounding_exact_partial"
  ],
  "False as stated: V and Vdot are rounded independently. Proved when the rounding leaves the formulas unchanged; negations proved."
 ],
 "C37": [
  "proved",
  [
   "C37_activation_derivative",
   "C37_relu_kink"
  ],
  "symbolic derivative is the derivative of the numeric forward; ReLU away from 0"
 ],
 "C05": [
  "proved",
  [
   "C05_lyapunov_conditions"
  ],
  "all certificates/sets/networks; acceptance by the Z3/CVC5 or dReal loop"
 ],
 "C06": [
  "proved",
  [
   "C06_decreases_along_trajectories",
   "C06_decreases_along_runs"
  ],
  "continuous time: smooth networks; discrete time: without factors (with factors the premise C18 fails)"
 ],
 "C07": [
  "proved",
  [
   "C07_llo_positive_ct",
   "C07_llo_positive_dt",
   "C07_warning_only_unsound"
  ],
  "hypothesis of the claim (non-negative network) is the one the code only warns about: C07_warning_only_unsound shows a non-positive network is accepted after the warning"
 ],
 "C08": [
  "partial",
  [
   "C08_roa_conditions",
   "C08_roa_invariant_partial",
   "C08_roa_llo_strictly_decreasing",
   "C08_no_attraction",
   "C08_level_start_escapes"
  ],
  "Invariance proved for trajectories starting strictly inside; attraction itself is false (negation proved: no decrease enforced, ball excluded)"
 ],
 "C09": [
  "proved",
  [
   "C09_barrier_safety"
  ],
  "smooth networks; see C45 for ReLU"
 ],
 "C10": [
  "proved",
  [
   "C10_barrierAlt_safety_ct"
  ],
  "smooth networks"
 ],
 "C11": [
  "proved",
  [
   "C11_barrierAlt_safety_dt"
  ],
  "without factors"
 ],
 "C45": [
  "partial",
  [
   "C45_relu_barrier_safety_partial",
   "C45_relu_barrier_unsound"
  ],
  "False as stated: negation proved with a concrete accepted ReLU certificate (dReal's Max derivative picks one side at a kink). Proved part: the safety guarantee of an accepted ReLU barrier whose kinks do not lie on the zero level inside the domain. All other certificate types survive kinks, see C82."
 ],
 "C12": [
  "proved",
  [
   "C12_rws_stays_until_goal",
   "C12_rws_reaches_goal",
   "C12_open_safe_set_unsound"
  ],
  "smooth networks; static set relations in ReachSets (initial set in safe set, border label carries the safe set and has a covering boundary formula). For open boxes the boundary formula is vacuous and the claim fails: C12_open_safe_set_unsound"
 ],
 "C13": [
  "proved",
  [
   "C13_remains_in_goal",
   "C13_reaches_and_stays"
  ],
  "for any level returned by the beta search"
 ],
 "C15": [
  "partial",
  [
   "C15_stable_safe_safety",
   "C15_stable_safe_roa_partial",
   "C15_unknown_hides_lyapunov"
  ],
  "safety half unconditional; Lyapunov half only if the first query was decided (negation proved otherwise)"
 ],
 "C16": [
  "proved",
  [
   "C16_remains_in_final",
   "C16_reach_avoid_remain"
  ],
  ""
 ],
 "C43": [
  "proved",
  [
   "C43_beta_search",
   "C43_unknown_raises",
   "C43_may_not_terminate"
  ],
  "the search has no iteration bound (C43_may_not_terminate)"
 ],
 "C14": [
  "partial",
  [
   "C14_rsws_stay_checked_partial",
   "C14_rswa_skips_stay_check",
   "C14_rswa_success_but_goal_left"
  ],
  "True for RSWS; false for RSWA, whose CEGIS loop skips the stay check: negation proved, end to end, with a concrete rotation system"
 ],
 "C27": [
  "proved",
  [
   "C27_success_is_verified"
  ],
  "any learner/translator/verifier; single and double loop"
 ],
 "C28": [
  "proved",
  [
   "C28_iteration_bound",
   "C28_terminates",
   "C28_negative_limit_never_stops"
  ],
  ""
 ],
 "C29": [
  "partial",
  [
   "C29_pass_appends",
   "C29_data_prefix",
   "C29_counterexamples_kept",
   "C29_aligned_partial",
   "C29_stale_derivatives"
  ],
  "growth and retention proved in general; alignment proved for dynamics without trained controller and refuted with one (stale derivatives)"
 ],
 "C46": [
  "proved",
  [
   "C46_barrier_synthesis_safe",
   "C46_discrete_barrier_synthesis_safe",
   "C46_lyapunov_synthesis",
   "C46_reach_synthesis",
   "C46_reach_stay_synthesis",
   "C46_roa_synthesis",
   "C46_stable_safe_synthesis",
   "C46_rar_synthesis",
   "C46_synthesis_succeeds"
  ],
  "smooth activations; rounded network and symbolic controller. Solver: any z3-style solver with right unsat answers, or dReal with its second-chance logic (None answers right, boxes within bounds, sets inside (-1000,1000)^n, dynamics in the state variables only; not for ROA, whose query is unbounded, see C04). Complete runs are exhibited for both."
 ],
 "C30": [
  "proved",
  [
   "C30_trajectory",
   "C30_start",
   "C30_lie_labels",
   "C30_trajectory_goes_to_lie"
  ],
  ""
 ],
 "C24": [
  "partial",
  [
   "C24_samples_in_set_partial",
   "C24_ball_samples_outside",
   "C24_torus_samples_in_hole",
   "C24_open_disc_samples_border",
   "C24_orthant_ball_samples_outside"
  ],
  "False as stated (large balls outside dimensions 2-3, tori with a hole, open discs, orthant balls centred outside): those negations are proved; proved for the other set expressions and all draws."
 ],
 "C25": [
  "partial",
  [
   "C25_border_samples_partial",
   "C25_border_samples_satisfy_boundary_partial",
   "C25_boundary_formula_is_border",
   "C25_interval_border_is_interior",
   "C25_ball_border_wrong"
  ],
  "False as stated for intervals and for balls of radius other than one in dimension above three: negations proved; proved otherwise."
 ],
 "C26": [
  "proved",
  [
   "C26_primitive_row_count",
   "C26_union_row_count",
   "C26_filtered_row_count"
  ],
  ""
 ],
 "C31": [
  "partial",
  [
   "C31_result_from_worker_partial",
   "C31_failure_only_after_all_failed_partial",
   "C31_polling_returns_partial",
   "C31_supervisor_never_returns",
   "C31_crash_without_success_never_returns"
  ],
  "False as stated: a worker calls CertificateSolution.clean, which does not exist, so it crashes before putting its result and solve never returns (proved for every execution). The protocol itself is proved for workers that do put a result."
 ],
 "C32": [
  "partial",
  [
   "C32_parse_ordinary_meaning_partial",
   "C32_number_division_by_zero",
   "C32_notation_unambiguous",
   "C32_minus_before_power_wrong",
   "C32_minus_square_wrong",
   "C32_bracket_minus_raises",
   "C32_call_bracket_rejected",
   "C32_text_ordinary_meaning_partial",
   "C32_text_minus_before_power_wrong",
   "C32_empty_brackets_accepted"
  ],
  "False as stated: -a**b is read as (-a)**b; '((a)-b)' raises; 'f((a)+b)' is rejected (all proved). Everything else in ordinary notation is proved accepted with its ordinary value, both for token lists and for the characters of the text with any spacing."
 ],
 "C33": [
  "partial",
  [
   "C33_numeric_by_index_partial",
   "C33_numeric_wrong_from_eleven",
   "C33_numeric_symbolic_disagree",
   "C33_constant_component_rejected",
   "C33_symbolic_by_name",
   "C33_inputs_agree_partial",
   "C33_dreal_inputs_once_partial",
   "C33_dreal_repeated_input_left_free"
  ],
  "False as stated: names are sorted as strings, so with 11 or more variables column 2 is x10 (proved for every system); proved for up to ten. With dReal an input occurring twice is substituted once (proved)."
 ],
 "C35": [
  "partial",
  [
   "C35_lyapunov_learn",
   "C35_roa_learn",
   "C35_barrier_learn",
   "C35_barrierAlt_learn",
   "C35_rws_learn",
   "C35_rsws_learn",
   "C35_stablesafe_learn_partial",
   "C35_rar_learn_partial",
   "C35_last_layer_nonneg",
   "C35_trained_is_positive",
   "C35_trained_accepted_positive",
   "C35_stablesafe_not_projected",
   "C35_barrier_stops_with_violation",
   "C35_lyapunov_zero_derivative_raises",
   "C35_lyapunov_no_samples_raises"
  ],
  "Proved in full for Lyapunov, ROA, Barrier, BarrierAlt, RWA/RWS, RSWA/RSWS with an arbitrary optimiser. StableSafe and ReachAvoidRemain need a data dictionary order (negations in C36). Positive last layer proved for Lyapunov/ROA; StableSafe never projects and a negative certificate is accepted (proved). Optimiser arbitrary, float rounding not modelled."
 ],
 "C36": [
  "partial",
  [
   "C36_barrier_labels",
   "C36_rsws_labels",
   "C36_stablesafe_labels_partial",
   "C36_stablesafe_xr_labels_partial",
   "C36_stablesafe_misattributed",
   "C36_rar_labels_partial",
   "C36_rar_misattributed"
  ],
  "Proved for every order for Barrier, BarrierAlt, RWA/RWS, RSWA/RSWS and controlled RAR. For StableSafe and uncontrolled RAR it holds only for one dictionary order; the negation is proved for another."
 ],
 "C44": [
  "proved",
  [
   "C44_roa_accuracy",
   "C44_lyapunov_accuracy",
   "C44_init_unsafe_accuracy",
   "C44_barrier_accuracy",
   "C44_barrierAlt_accuracy",
   "C44_rws_accuracy",
   "C44_accuracy_not_strict"
  ],
  "Over the reals (the code counts float comparisons). The conditions are non-strict, as stated."
 ],
 "C34": [
  "proved",
  [
   "C34_accepted_sources",
   "C34_accepted_formulas",
   "C34_documented_accepted",
   "C34_integer_counts_never_accepted",
   "C34_missing_counts_rejected",
   "C34_region_data_unavailable",
   "C34_rar_order",
   "C34_rar_misattributed"
  ],
  "YAML parsing and parse_domain are not modelled (sets given as expressions). Defects proved alongside: an integer N_DATA is rejected for every reach certificate, a missing N_DATA is a KeyError despite the default, XR is unusable, and an accepted autonomous RAR configuration always yields a data order its training loop misreads."
 ],
 "C42": [
  "proved",
  [
   "C42_assert_state_iff",
   "C42_cegis_state_iff",
   "C42_checked_single_constraints",
   "C42_checked_double_constraints"
  ],
  "All built-in certificate types; CUSTOM classes are the user's."
 ],
 "C38": [
  "proved",
  [
   "C38_symbolic_is_rounded_numeric",
   "C38_exact_on_five_decimals",
   "C38_controller_is_network",
   "C38_linear_controller_raises",
   "C38_extra_activation_applies_output_twice",
   "C38_missing_activation_skips_layers",
   "C38_closed_loop_is_rounded",
   "C38_field",
   "C38_parsed_closed_loop",
   "C38_controlled_barrier_synthesis",
   "C38_returned_controller_not_the_verified_one"
  ],
  "All architectures, activations, weights and states. The symbolic controller is the numeric one with weights rounded to five decimals; the verified closed loop is the open loop driven by it. Defects proved: the returned (unrounded) controller need not satisfy what was verified; CTRLAYER with one entry raises; one activation too many applies the output layer twice; one too few skips layers. Parsed dReal systems with repeated inputs: see C33."
 ],
 "C39": [
  "partial",
  [
   "C39_value_preserved",
   "C39_value_preserved_z3_partial",
   "C39_zero_exponent_wrong",
   "C39_converts_iff_covered"
  ],
  "All expression trees, symbol tables and points. Value preserved always with the default float numbers; with z3 numbers except for literal zero exponents, for which the conversion is wrong (proved). Conversion succeeds exactly when every symbol, function and head is known."
 ],
 "C40": [
  "proved",
  [
   "C40_timer_totals",
   "C40_average",
   "C40_stop_needs_start",
   "C40_nested_calls"
  ],
  "All event histories and call sequences. Starting twice does not raise (the earlier start is forgotten); nested use of one timer raises or mis-charges (proved)."
 ],
 "C41": [
  "partial",
  [
   "C41_records_partial",
   "C41_empty_file_no_header",
   "C41_concurrent_rows_kept",
   "C41_concurrent_two_headers",
   "C41_columns",
   "C41_recordable",
   "C41_certificate_column",
   "C41_activation_names",
   "C41_activation_names_shared"
  ],
  "Sequential writers: all histories from a missing or existing file; concurrent writers: all schedules keep header first and every row once. Fails (proved): an existing empty file never gets a header, and two first-time concurrent writers can leave two headers; runs with custom certificates or shifted softplus activations cannot be recorded."
 ],
 "C47": [
  "partial",
  [
   "C47_lyapunov_stability_partial",
   "C47_lyapunov_attraction_partial",
   "C47_lyapunov_ultimate_bound",
   "C47_lyapunov_stability_dt_partial",
   "C47_synthesis_stable_partial",
   "C47_vanishes_at_origin",
   "C47_unstable_accepted"
  ],
  "False as stated: the value at the origin is never checked, and an accepted bias-free even-polynomial certificate for x'=x is exhibited. Proved when the certificate vanishes at the origin by construction (factors, or no biases and zero-preserving activations); domains with a hole get the ultimate bound."
 ],
 "C48": [
  "partial",
  [
   "C48_cdot_is_lie_derivative",
   "C48_candidate_safety_partial",
   "C48_candidate_lyapunov_conditions_partial",
   "C48_candidate_stability_partial",
   "C48_candidate_reach_partial",
   "C48_success_accepted",
   "C48_read_candidate",
   "C48_candidate_minus_power_misread",
   "C48_needs_dreal",
   "C48_unsupported_certificates",
   "C48_candidate_must_mention_all_states",
   "C48_unstable_accepted",
   "C48_llo_accepts_negative_candidate",
   "C48_discrete_time_unsound",
   "C48_rsws_stay_not_checked"
  ],
  "Proved for continuous time with dReal: the symbolic derivative is the Lie derivative; accepted barrier, Lyapunov (vanishing at 0, no LLO) and reach candidates give safety, asymptotic stability, reach-while-stay. False as stated for discrete time (gradient condition used), with LLO, for RSWS (stay condition skipped), and when the candidate does not vanish at the origin: counterexamples proved. ROA, double certificates and other solvers raise."
 ],
 "C49": [
  "partial",
  [
   "C49_training_derivative",
   "C49_training_matches_verified",
   "C49_discrete_training_partial",
   "C49_discrete_training_ignores_factor",
   "C49_compute_maximum_partial",
   "C49_compute_maximum_ignores_factor",
   "C49_misaligned_batches_raise",
   "C49_double_factor_mismatch",
   "C49_double_no_factor",
   "C49_double_factor_stalls"
  ],
  "Continuous time proved in full (value, derivative along curves, agreement with the symbolic formulas). In discrete time and for compute_maximum proved without the quadratic factor; with it the claim is false (LearnerDT.get_all and compute_maximum ignore the factor), negations proved. Two networks with FACTORS=QUADRATIC: training of both looks at |x|^2 times the verified formulas (the exact relation is proved), with a witness where training is satisfied at every state but the origin and the verified condition fails at every state."
 ],
 "C50": [
  "partial",
  [
   "C50_activation_documented_partial",
   "C50_cosh_shifted",
   "C50_requ_is_relu",
   "C50_rational_missing",
   "C50_even_poly_orders"
  ],
  "Proved for every activation except the documented ones the code gets wrong, each with a proved negation: COSH is cosh-1, RELU_SQUARE/REQU build a plain ReLU, RATIONAL builds nothing, EVEN_POLY_n has orders 0,2,..,2(n-1)."
 ],
 "C51": [
  "partial",
  [
   "C51_barrier_loss",
   "C51_barrier_loss_nan",
   "C51_roa_loss",
   "C51_barrierAlt_loss",
   "C51_rws_loss_partial",
   "C51_rws_ignores_unsafe",
   "C51_beta_loss",
   "C51_rsws_loss_sum",
   "C51_lyapunov_loss_partial",
   "C51_lyapunov_loss_misranks"
  ],
  "Proved for the barrier, ROA, alternative barrier and beta losses. For reach-while-avoid proved when some domain sample is negative; otherwise the unsafe samples are ignored (negation proved). For Lyapunov a positive loss does imply a violation, but the converse fails: the leaky ReLU can rank a violating network better (proved)."
 ],
 "C52": [
  "proved",
  [
   "C52_linearisation",
   "C52_equilibrium_check",
   "C52_pendulum",
   "C52_bilinear_raises"
  ],
  "Whenever a matrix is returned; models in which an input multiplies a state raise a TypeError instead (C52_bilinear_raises), although differentiable."
 ],
 "C53": [
  "proved",
  [
   "C53_stable_linearisation",
   "C53_sufficiently_stable_linearisation",
   "C53_linear_iff",
   "C53_worst_pole"
  ],
  "Eigenvalues are exact roots of the characteristic polynomial (numpy's floating point is idealised). Nonlinear case by Lyapunov's indirect method."
 ],
 "C54": [
  "proved",
  [
   "C54_closed_loop_stable",
   "C54_optimal",
   "C54_optimal_infinite",
   "C54_missing_input_matrix_raises"
  ],
  "scipy's Riccati solver is a parameter assumed to return a symmetric positive semidefinite solution of the equation."
 ],
 "C55": [
  "proved",
  [
   "C55_rectangle_text",
   "C55_sphere_text",
   "C55_torus_text",
   "C55_rectangle_formula",
   "C55_silently_misread",
   "C55_rejected_numerals"
  ],
  "Character level. Any spacing, signs and decimal fractions. Also proved: texts outside the notation (missing commas, '3-1', extra arguments) are silently read as other sets, and scientific notation is rejected."
 ],
 "C56": [
  "proved",
  [
   "C56_config_safety",
   "C56_config_safety_dt",
   "C56_config_stability",
   "C56_config_reach",
   "C56_config_reach_stay",
   "C56_dreal_trusted",
   "C56_functions_by_library",
   "C56_config_roa",
   "C56_config_stable_safe",
   "C56_config_rar",
   "C56_no_functions"
  ],
  "Composition of C32 (texts of the dynamics, full documented notation, outside the patterns C32 refutes), C55 (texts of the sets), C34 (labels and borders) and C46/C47. Without controller; networks without ReLU units; for stability the network vanishes at the origin by construction. Complete runs from concrete files are given for Barrier, RSWS, Lyapunov, ROA, StableSafe and RAR. Both with z3-style answers and with dReal (sets inside (-1000,1000)^n, not ROA)."
 ],
 "C57": [
  "proved",
  [
   "C57_constructible_iff",
   "C57_library_support"
  ],
  "The model keeps EmptySet operands as syntax; C57_constructible_iff says such expressions cannot be built by the constructors (EmptySet has no attribute dimension)."
 ],
 "C58": [
  "proved",
  [
   "C32_text_never_misread",
   "C32_text_accepted_meaning",
   "C32_tight_unambiguous"
  ],
  "Both directions of the text reader: completeness is C32, this is soundness on characters. Uniqueness of the token sequence of a text and of its reading are proved, so the theorem compares with every ordinary reading of the text."
 ],
 "C59": [
  "proved",
  [
   "C59_control_safety",
   "C59_control_safety_dt",
   "C59_control_stability",
   "C59_control_reach",
   "C59_control_reach_stay",
   "C59_control_roa",
   "C59_control_stable_safe",
   "C59_control_rar",
   "C59_control_on_grid",
   "C59_dreal_trusted",
   "C59_dreal_repeated_input_unsound",
   "C59_ctrlayer_needs_hidden_layer",
   "C59_enough_outputs",
   "C59_dreal_occurrences"
  ],
  "End to end from the characters of the file: the written system, parsed, closed with the controller network and verified. The guarantee is for the controller rounded to five decimals (C59_control_on_grid: no difference when the weights have at most five decimals; C38 proves that the unrounded one may fail). Defect proved: with dReal an input written twice becomes a free variable whose box is tested against the bounds, and a run with only correct solver answers reports success for a system that is unsafe."
 ],
 "C60": [
  "proved",
  [
   "C60_verify_safety",
   "C60_verify_stability",
   "C60_verify_lyapunov",
   "C60_verify_reach",
   "C60_needs_dreal",
   "C60_unsupported_certificates",
   "C60_entry_verifies",
   "C60_discrete_time_unsound"
  ],
  "End to end from the characters of the file: system, sets and candidate are read and checked. Defect proved: the time domain is ignored by verify, so a discrete-time system passes with the continuous-time condition although it is unsafe (C60_discrete_time_unsound). For RSWS the stay condition is not checked at all (C48_rsws_stay_not_checked)."
 ],
 "C61": [
  "proved",
  [
   "C61_seed_reproduces",
   "C61_fresh_process_reproduces",
   "C61_unseeded_second_run_not_reproducible",
   "C61_benchmark_repetitions",
   "C61_seeds_not_consecutive",
   "C61_parallel_seeds",
   "C61_started_workers",
   "C61_parallel_result_reproducible"
  ],
  "A run is any program whose only effect is drawing from torch's generator (clock-dependent solver timeouts excluded). Two defects proved: a second unseeded run records the first run's seed, which does not reproduce it; repetitions without concurrent are four seeds apart, not consecutive. C61_parallel_result_reproducible is conditional on the supervisor returning, which C31_supervisor_never_returns shows does not happen at this commit."
 ],
 "C62": [
  "proved",
  [
   "C62_options_used",
   "C62_control_options_used",
   "C62_verify_options_used",
   "C62_order_irrelevant",
   "C62_unknown_field_ignored",
   "C62_unknown_member_rejected",
   "C62_case_insensitive",
   "C62_set_names_case_sensitive",
   "C62_required_fields",
   "C62_time_domain_not_optional",
   "C62_n_data_not_optional",
   "C62_member_names"
  ],
  "The file is the dictionary yaml.safe_load returns (YAML syntax itself is not modelled). Defects proved: TIME_DOMAIN and N_DATA are documented with defaults but cannot be left out."
 ],
 "C63": [
  "proved",
  [
   "C63_started_run",
   "C63_can_start",
   "C63_one_library",
   "C63_verifier_is_used",
   "C63_no_verifier_reports_success",
   "C63_no_verifier_returns",
   "C63_no_verifier_rsws_raises",
   "C63_file_without_verifier",
   "C63_file_marabou_rejected",
   "C63_file_controller_needs_verifier",
   "C63_candidate_needs_verifier"
  ],
  "A file with VERIFIER: none is accepted and its run reports a Lyapunov function for an unstable system (C63_file_without_verifier). That RSWS raises without a verifier rests on sympy having no attribute `If`."
 ],
 "C64": [
  "proved",
  [
   "C64_success_is_verified",
   "C64_needs_complete_class",
   "C64_single_dictionary_never_returns",
   "C64_no_conditions_succeeds",
   "C64_custom_lyapunov",
   "C64_repeated_label_hides_condition"
  ],
  "Distinct labels are needed: with a repeated label an undecided condition is overwritten (C64_repeated_label_hides_condition, cf. C03). Not modelled: side effects of user code outside the certificate object."
 ],
 "C65": [
  "proved",
  [
   "C65_prints_iff",
   "C65_reads_back",
   "C65_others_rejected",
   "C65_reads_back_iff",
   "C65_text_identifies",
   "C65_selection_not_shown"
  ],
  "Python's printing of a number is a parameter; numbers printed with an exponent (below 1e-4 or from 1e16 on) are outside the hypothesis of the reading-back part."
 ],
 "C66": [
  "proved",
  [
   "C66_listed_needed",
   "C66_listed_suffices",
   "C66_custom_not_listed",
   "C66_not_final_ignored"
  ],
  "The exact characterisation of accepted N_DATA mappings also sharpens C34. Integer N_DATA: C34. The layout of the printed text is not modelled, only the two lists of names."
 ],
 "C67": [
  "partial",
  [
   "C67_consistent_partial",
   "C67_field_partial",
   "C67_agree_partial",
   "C67_complete",
   "C67_closed_sizes",
   "C67_quadrotor_fails",
   "C67_satellite",
   "C67_nvars_transposed",
   "C67_eulerised_partial"
  ],
  "The claim is false for three benchmarks: the numeric dynamics of Quadrotor2d raise on every input (C67_quadrotor_fails), those of LinearSatellite on every row of the declared width (C67_satellite), and LinearDiscreteNVars returns the transposed batch (C67_nvars_transposed). For the other fifty classes it is proved in full (C67_consistent_partial), as a vector field and as the hypothesis of the closed-loop theorems. Two classes with inputs lack the attribute needed to be closed with a controller (C67_closed_sizes)."
 ],
 "C68": [
  "partial",
  [
   "C68_lyapunov",
   "C68_roa",
   "C68_barrier",
   "C68_barrierAlt",
   "C68_rws",
   "C68_rsws",
   "C68_rar_partial",
   "C68_stablesafe_partial",
   "C68_output_layer",
   "C68_warning"
  ],
  "Missing: RAR without a controller and StableSafe for dictionaries not in label order, where the code mixes up the samples (C36)."
 ],
 "C69": [
  "partial",
  [
   "C69_frozen_unchanged",
   "C69_frozen_iff",
   "C69_rar_frozen_verified",
   "C69_rar_frozen_reaches",
   "C69_freezing_run",
   "C69_rar_blocked",
   "C69_unknown_freezes",
   "C69_stablesafe_blocked",
   "C69_stablesafe_blocked_reached",
   "C69_rar_frozen_reached"
  ],
  "Proved as stated, with the hypothesis that the solver decides its queries. What a user would expect beyond that is false, and its negation is proved: an undecided query freezes a wrong reach function and the run can then not succeed (C69_unknown_freezes, C69_rar_blocked); for StableSafe the level of the frozen Lyapunov function is recomputed from data that grow, so a run can be blocked although the frozen function is part of a correct pair (C69_stablesafe_blocked). The frozen Lyapunov function of StableSafe is not shown to satisfy its conditions later on, for the same reason."
 ],
 "C70": [
  "proved",
  [
   "C70_translates_iff",
   "C70_translates_iff_dt",
   "C70_translates_iff_double",
   "C70_queries_exist",
   "C70_queries_exist_double",
   "C70_verify_total",
   "C70_run_total",
   "C70_run_total_double",
   "C70_unsupported_never"
  ],
  "The optimiser, the gradient computation of the trajectory search and `estimate_beta` are parameters that are assumed to return; for RSWS the stay search is assumed to end (it may not, C13). The values of a solver model are assumed to exist for all variables: for dReal that means a box over all variables (C04)."
 ],
 "C71": [
  "proved",
  [
   "C71_table",
   "C71_percent",
   "C71_missing_dropped",
   "C71_shared_names",
   "C71_old_names"
  ],
  "Number arithmetic is exact (no floats); the two texts joined with a comma are kept as pairs; escaping of underscores, renaming of columns and the output formats are not modelled. Rows of earlier versions (RWS, RSWS) join the rows of this version."
 ],
 "C72": [
  "proved",
  [
   "C72_set_shown_iff",
   "C72_recorded_iff",
   "C72_series",
   "C72_usual_recorded",
   "C72_lost"
  ],
  "sympy's printing and the layout of the two texts are parameters; f_smt is taken to unpack or index its argument, as all models of the repository do. Sharpens C41_recordable, which takes the two texts as given."
 ],
 "C73": [
  "proved",
  [
   "C73_compute_minimum",
   "C73_level_value",
   "C73_dim_select_raises",
   "C73_fallback_samples",
   "C73_level_on_border",
   "C73_no_draw_suffices",
   "C73_verified_lost",
   "C73_run_total",
   "C73_compute_minimum_empty"
  ],
  "The sublevel set of the stored level need not stay in the domain (C73_no_draw_suffices). Also proved: exactly which value is stored, exactly which domains make the computation raise, that a verified certificate is then never reported, and that otherwise the run returns. No samples: raises."
 ],
 "C74": [
  "proved",
  [
   "C74_run_total",
   "C74_step_usable",
   "C74_progress_lyapunov",
   "C74_progress_barrier",
   "C74_roa_level"
  ],
  "The stay search of RSWS is assumed to return (C14/C48 treat it). Real arithmetic instead of float32, as in LearnLoop. The trained level of a ROA certificate is the largest output on the initial samples."
 ],
 "C75": [
  "proved",
  [
   "C75_run_total",
   "C75_run_total_checked",
   "C75_run_total_checked_single",
   "C75_progress_rar",
   "C75_rar_extra_label"
  ],
  "float arithmetic of training as reals; the optimiser is an arbitrary function of pass, step and parameters that keeps shapes; the widths are tested before the loop"
 ],
 "C76": [
  "proved",
  [
   "C76_initial_data",
   "C76_initial_network",
   "C76_file_run_total",
   "C76_file_safety",
   "C76_file_safety_dt",
   "C76_file_reach",
   "C76_file_reach_stay",
   "C76_file_roa",
   "C76_file_stability",
   "C76_file_stable_safe",
   "C76_file_rar",
   "C76_step_shape",
   "C76_draws_some",
   "exFile_run",
   "exFile_succeeds",
   "C76_file_stability_llo"
  ],
  "Joins C34/C56 (reading the file), C74/C75 (training and run never raise) and C46 (success is a true certificate) through the initial data and the initial network; exFile_succeeds is a file whose run reports success whatever data are drawn. With LLO (positivity query left out) stability is proved for every architecture whose last activation is one of the non-negative ones and every sequence of LLO optimiser steps (C76_file_stability_llo)."
 ],
 "C77": [
  "proved",
  [
   "C77_closed_loop_shape",
   "C77_initial_data",
   "C77_draws_some",
   "C77_control_run_total",
   "C77_control_safety",
   "C77_control_safety_dt",
   "C77_control_reach",
   "C77_control_reach_stay",
   "C77_control_roa",
   "C77_control_stability",
   "C77_control_stable_safe",
   "C77_control_rar",
   "exControlFile_run",
   "exControlFile_succeeds",
   "C77_control_stability_llo"
  ],
  "C76 for the files of C59: training keeps the architectures of certificate and controller, so the closed loop stays defined in every pass; exControlFile_succeeds is a file whose run reports success whatever data are drawn. Stability with LLO: C77_control_stability_llo."
 ],
 "C78": [
  "proved",
  [
   "C78_range",
   "C78_direction_only",
   "C78_inward",
   "C78_batch_inward",
   "C78_minimum",
   "C78_total",
   "C78_rws_total",
   "C78_misranks"
  ],
  "Real arithmetic; torch's CosineSimilarity is modelled as x.y / (max(|x|,eps) max(|y|,eps)) with eps = 1e-8. Training stops on the accuracies only (C35), so the term never decides when training stops."
 ],
 "C79": [
  "proved",
  [
   "C79_same_runs",
   "C79_last_line",
   "C79_success_line",
   "C79_one_line",
   "C79_texts",
   "C79_usage",
   "C79_listing",
   "C79_status",
   "C79_verify_plot",
   "C79_plot"
  ],
  "Info and debug messages are left out (not shown at the default level), also warnings of libraries; argparse itself is modelled only for the arguments fossil declares. Two facts worth knowing are part of the claim: the exit status does not report failure, and a reach-while-stay run that gives up may end with 'Keep searching...'."
 ],
 "C80": [
  "partial",
  [
   "C80_surface",
   "C80_exact_partial",
   "C80_sign_partial",
   "C80_lie",
   "C80_levels",
   "C80_figures",
   "C80_window",
   "C80_roa_level",
   "C80_rounding_differs",
   "C80_factor_derivative_differs",
   "C80_discrete_differs",
   "C80_samples_raise"
  ],
  "True without factor and when rounding does not change the weights; with the factor the sign is right off the origin. False otherwise (negations proved): the figures use unrounded weights, drop the factor, and show gradient times f also in discrete time; plotting raises when the stored level is a batch of samples or zero"
 ],
 "C81": [
  "proved",
  [
   "C81_boundary_shown",
   "C81_corners_on_boundary",
   "C81_left_out",
   "C81_colours",
   "C81_undrawable",
   "C81_exchanged_misplaced",
   "C81_inner_curves",
   "C81_orthant_edges_missing"
  ],
  "boundaries are topological frontiers of the documented sets; polygons as handed to matplotlib"
 ],
 "C82": [
  "proved",
  [
   "C82_derivative_almost_always",
   "C82_lyapunov_decreases",
   "C82_lyapunov_stability",
   "C82_lyapunov_attraction",
   "C82_lyapunov_ultimate_bound",
   "C82_barrierAlt_safety",
   "C82_roa_invariant",
   "C82_rws_stays_until_goal",
   "C82_rws_reaches_goal",
   "C82_remains_in_goal",
   "C82_reaches_and_stays",
   "C82_synthesis_stable",
   "C82_synthesis_safe",
   "C82_rws_kink_unsound"
  ],
  "Any activations, continuous time, z3 or dReal. The exception for reach certificates (start exactly at the level on a kink) is shown to be real by C82_rws_kink_unsound; Barrier with a kink on the zero level is C45. Accepted ReLU certificates with a kink inside the domain are exhibited for each type."
 ],
 "C83": [
  "proved",
  [
   "C83_synthesis_reach",
   "C83_synthesis_reach_stay",
   "C83_synthesis_roa",
   "C83_synthesis_stable_safe",
   "C83_remains_in_final",
   "C83_reach_avoid_remain",
   "C83_synthesis_rar",
   "C83_config_stability",
   "C83_config_safety",
   "C83_config_reach",
   "C83_config_reach_stay",
   "C83_config_roa"
  ],
  "Continuous time, z3 or dReal. The provisos on kinks are needed: C82_rws_kink_unsound and C45. Successful runs with ReLU networks are exhibited for each certificate type."
 ],
 "C84": [
  "proved",
  [
   "C84_file_run_total",
   "C84_file_safety",
   "C84_file_safety_dt",
   "C84_file_reach",
   "C84_file_reach_stay",
   "C84_file_roa",
   "C84_file_stability",
   "C84_file_stable_safe",
   "C84_file_rar",
   "C84_file_barrier"
  ],
  "z3 or dReal. For RSWS the search for the level is assumed to return (C43: it need not); the world stayWorld shows this can hold for every certificate. Barrier with ReLU is excluded because it is unsound (C45). Example files, random numbers and successful runs are given. C84_file_barrier: safety for Barrier with any activations when no kink lies on the zero level in the domain."
 ],
 "C85": [
  "proved",
  [
   "C85_fixes_origin",
   "C85_stability_dt",
   "C85_sublevel_attracts",
   "C85_synthesis_stability_dt",
   "C85_file_stability_dt",
   "C85_origin_may_move"
  ],
  "z3 or dReal, no quadratic factor. C85_origin_may_move is the counterexample for maps that send the origin out of the domain (x^2 - x^3 on [-1/2,1/2], the constant map 1). With LLO the learned network must have the shape and steps of Lyapunov.learn (C76_LLO)."
 ],
 "C86": [
  "proved",
  [
   "C86_control_run_total",
   "C86_control_safety",
   "C86_control_safety_dt",
   "C86_control_reach",
   "C86_control_reach_stay",
   "C86_control_roa",
   "C86_control_stability",
   "C86_control_stability_dt",
   "C86_control_stable_safe",
   "C86_control_rar",
   "C86_control_barrier"
  ],
  "z3 or dReal (at most ten inputs; with dReal each input written once). For RSWS the search for the level is assumed to return (C43). Barrier with ReLU is excluded because it is unsound (C45). C86_control_barrier: the same with a controller."
 ],
 "C87": [
  "proved",
  [
   "C87_read",
   "C87_accepted",
   "C87_barrier_file",
   "C87_roa_file",
   "C87_rwa_file",
   "C87_rswa_file",
   "C87_stable_safe_file",
   "C87_rar_file",
   "C87_lyap_read",
   "C87_lyap_accepted",
   "C87_lyapunov_file",
   "C87_learn_file",
   "C87_learn_file_unsound",
   "C87_verify_accepted",
   "C87_verify_file"
  ],
  "All yaml files of experiments/benchmarks/cli except ctrl_rar_sine.yaml. For the reach files that some sample is drawn for each label is a hypothesis (rejection sampling of XD outside XS may return nothing, C33). For lyap-test.yaml training may raise if the derivative is exactly 0 at a sample. The RSWA file does not check the stay condition (C14), the STABLESAFE file not the decrease outside a neighbourhood (C15): only what success does imply is stated. learn.yaml: the statement's last sentence is the negation of what a user expects. roa-test.yaml uses dReal, for which C87_roa_file has no sound world (its query is unbounded): C87_roa_file is about a solver whose refutations are right for all reals; C88_roa_test_partial is the guarantee with dReal. Worlds for the other files: shipped_worlds (Props/C88_DRealFiles)."
 ],
 "C88": [
  "partial",
  [
   "C88_dreal_box",
   "C88_roa_conditions",
   "C88_roa_invariant_partial",
   "C88_roa_stays",
   "C88_leaves_box",
   "C88_roa_synthesis_partial",
   "C88_file_roa_partial",
   "C88_control_roa_partial",
   "C88_roa_test_partial"
  ],
  "C88_dreal_box is the statement for any query; the rest is about ROA. Missing (false): trajectories that leave the box, C88_leaves_box gives an accepted certificate, with truthful answers to both calls, and a trajectory from the initial set that rises above the level outside. Non-vacuity: exROA_dreal (with the wall condition), plantWorld for the shipped files; shipped_worlds also gives dReal worlds for the files of C87."
 ],
 "C89": [
  "proved",
  [
   "C89_roa_attracts",
   "C89_synthesis_roa",
   "C89_synthesis_stable_safe",
   "C89_file_roa",
   "C89_file_stable_safe",
   "C89_control_roa",
   "C89_control_stable_safe"
  ],
  "The hypotheses are needed: without LLO nothing attracts (C08_no_attraction); with an undecided Lyapunov query a StableSafe success says nothing about the first network (C15_unknown_hides_lyapunov); dReal is treated in C88. Inside the 0.01-ball nothing is verified, so what is attracted to is the ball (entry) or the level sets above the ball (settling), not the origin. Non-vacuity: ReLU files with a solver that decides every query, and |x| on [-1.1,1.1] for x' = -x."
 ],
 "C90": [
  "proved",
  [
   "C90_lyapunov",
   "C90_lyapunov_dt",
   "C90_synthesis",
   "C90_synthesis_dt",
   "C90_file",
   "C90_file_dt",
   "C90_control"
  ],
  "The conditions on levels are the user's to check: the tool does not verify the certificate's values in the hole or on the frontier, and the theorems say nothing about the origin itself. In discrete time the compact set is the sub-level set because a run may jump over a frontier. Non-vacuity: files with Torus([0],2,1), ReLU units, in both times and with a controller, and the hole/frontier conditions for |x| on that ring."
 ],
 "C91": [
  "proved",
  [
   "C91_synthesis_overlap",
   "C91_file_overlap",
   "C91_file_unsafe_path",
   "C91_file_closed",
   "C91_file_periodic",
   "C91_file_missed_goal",
   "C91_file_roa_closed",
   "C91_file_stable_safe",
   "C91_file_rar",
   "C91_control_overlap"
  ],
  "(b) says nothing of Barrier, whose flow condition holds only near the zero level and whose soundness with kinks is C45 and C84. (c) and (d) are contrapositives of strict decrease, (e) and (f) of the guarantees of C76. Non-vacuity: for each theorem a concrete file whose problem is unsolvable (overlapping sets; x' = 1 - x pushed into the unsafe set; rings with a fixed point; x' = 1 - x away from the goal), with an accepted reading, drawn data and the trajectory."
 ],
 "C92": [
  "proved",
  [
   "C92_barrier",
   "C92_lyapunov",
   "C92_lyapunov_dt",
   "C92_reach",
   "C92_synthesis_barrier",
   "C92_synthesis_reach",
   "C92_synthesis_lyapunov",
   "C92_synthesis_lyapunov_dt",
   "C92_file_barrier",
   "C92_file_reach",
   "C92_file_lyapunov",
   "C92_file_lyapunov_dt",
   "C92_control_barrier",
   "C92_control_reach",
   "C92_barrierAlt_no_margin",
   "C92_control_lyapunov",
   "C92_control_lyapunov_dt"
  ],
  "The error bound depends on the returned certificate; the code does not compute it. C92_file_lyapunov_dt keeps the alternative of C84 that the linear factor's zero derivative stops the run with an exception. Non-vacuity: accepted certificates of each kind, a disturbed curve that is no trajectory, and a file for each file theorem."
 ],
 "C93": [
  "proved",
  [
   "C93_roa",
   "C93_reach_stay",
   "C93_rar",
   "C93_synthesis_roa",
   "C93_synthesis_reach_stay",
   "C93_synthesis_stable_safe",
   "C93_synthesis_rar",
   "C93_file_roa",
   "C93_file_reach_stay",
   "C93_file_stable_safe",
   "C93_file_rar",
   "C93_control_reach_stay",
   "C93_control_rar",
   "C93_control_roa",
   "C93_control_stable_safe"
  ],
  "The error bound depends on the returned certificate; the code does not compute it. Without LLO a ROA certificate has only a non-strict derivative (C08), so no such statement is made. StableSafe: the safety half. Non-vacuity: accepted certificates of each kind, a region for (a), and a file for each file theorem."
 ],
 "C94": [
  "proved",
  [
   "C94_control_barrier",
   "C94_control_reach",
   "C94_control_reach_stay",
   "C94_control_roa",
   "C94_control_lyapunov",
   "C94_control_stable_safe",
   "C94_control_rar",
   "C94_control_lyapunov_dt"
  ],
  "The bound depends on the returned certificate and controller; the code does not compute it. Lyapunov: the successful run, or a trained network meets the zero-derivative case of the learner (as C92_control_lyapunov). Barrier and StableSafe curves are considered as long as they are in XD, as the query does. Non-vacuity: a sampled curve with a corner that is no small perturbation of a trajectory, and files with a controller. In discrete time (Lyapunov only) sensors and actuators may be inaccurate."
 ],
 "C95": [
  "proved",
  [
   "C95_file_barrier",
   "C95_file_reach",
   "C95_file_reach_stay",
   "C95_file_roa",
   "C95_file_lyapunov",
   "C95_file_stable_safe",
   "C95_file_rar",
   "C95_control_barrier",
   "C95_control_reach",
   "C95_control_reach_stay",
   "C95_control_roa",
   "C95_control_lyapunov",
   "C95_control_stable_safe",
   "C95_control_rar",
   "C95_eulerised_runs"
  ],
  "The step bound depends on the returned certificate; the code does not compute it. Lyapunov: the successful run, or a trained network meets the zero-derivative case of the learner (as C92_file_lyapunov). Non-vacuity: simulations exist for every model and step bound, and a simulation with too long a step diverges; files of C92 and C93. The discrete-time model that Eulerised (experiments/benchmarks/models.py) makes of a continuous one has exactly the exact simulations as its runs."
 ],
 "C96": [
  "proved",
  [
   "C96_console",
   "C96_once",
   "C96_warnings",
   "C96_silent",
   "C96_not_reset",
   "C96_command_line",
   "C96_twice"
  ],
  "The specification recomputes the threshold and the number of set-ups from the history; Python's logging is modelled (levels, handlers, propagation to the loggers above), handlers attached by the user's own program are not."
 ]
}