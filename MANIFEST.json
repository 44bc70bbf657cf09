{"claims": [
{"property": "C01", "status": "proved", "theorems": ["QpOASES.Props.C01_indexlist_refines_sequence"], "note": "Refinement of plain sequences for every history of proper calls."},
{"property": "C02", "status": "partial", "theorems": ["QpOASES.Props.C02_membership_violated", "QpOASES.Props.C02_membership_partial"], "note": "The code violates the property: queries below the smallest member read iSort[-1]. Negation proved, exact characterisation of the good and bad cases proved."},
{"property": "C03", "status": "proved", "theorems": ["QpOASES.Props.C03_capacity"], "note": ""},
{"property": "C04", "status": "partial", "theorems": ["QpOASES.Props.C04_getNumber_violated", "QpOASES.Props.C04_getNumber_partial"], "note": "The code violates the property at position length. Negation proved, every other position proved correct."},
{"property": "C05", "status": "proved", "theorems": ["QpOASES.Props.C05_bounds_partition"], "note": ""},
{"property": "C06", "status": "proved", "theorems": ["QpOASES.Props.C06_constraints_partition"], "note": ""},
{"property": "C07", "status": "partial", "theorems": ["QpOASES.Props.C07_misuse_violated", "QpOASES.Props.C07_duplicate", "QpOASES.Props.C07_misuse_partial"], "note": "The code violates the property: freeing a free variable is accepted and duplicates it, or reads out of bounds. Negation proved; the misuses that are rejected are proved."},
{"property": "C08", "status": "proved", "theorems": ["QpOASES.Props.C08_setupAll"], "note": ""},
{"property": "C09", "status": "proved", "theorems": ["QpOASES.Props.C09_rotate", "QpOASES.Props.C09_rotate_back", "QpOASES.Props.C09_shift", "QpOASES.Props.C09_invalid_offsets"], "note": ""},
{"property": "C10", "status": "proved", "theorems": ["QpOASES.Props.C10_flip"], "note": ""},
{"property": "C11", "status": "proved", "theorems": ["QpOASES.Props.C11_validation"], "note": "setOptions always reports SUCCESSFUL_RETURN; the report RET_OPTIONS_ADJUSTED is that of ensureConsistency."},
{"property": "C12", "status": "partial", "theorems": ["QpOASES.Props.C12_presets_valid", "QpOASES.Props.C12_c_presets_violated", "QpOASES.Props.C12_c_presets_partial"], "note": "C++ presets valid: proved. The C interface's mode 1 falls through to mode 2: negation proved; modes 0 and 2 proved equal to the C++ presets."},
{"property": "C13", "status": "proved", "theorems": ["QpOASES.Props.C13_copy", "QpOASES.Props.C13_copy_default"], "note": ""},
{"property": "C14", "status": "partial", "theorems": ["QpOASES.Props.C14_times_partial", "QpOASES.Props.C14_transTimes_partial", "QpOASES.Props.C14_times_compressed", "QpOASES.Props.C14_times_uncompressed_partial", "QpOASES.Props.C14_transTimes_lists", "QpOASES.Props.C14_times_padded_violated", "QpOASES.Props.C14_times_uncompressed_violated"], "note": "Products with index lists and compressed result: proved in full. Whole-matrix products ignore the leading dimension: proved for gap-free storage, negation proved for padded storage. Uncompressed results: proved for beta other than -1, negation proved for beta = -1."},
{"property": "C15", "status": "proved", "theorems": ["QpOASES.Props.C15_gemm", "QpOASES.Props.C15_tiny_beta_dropped"], "note": "For coefficients not within 1e-25 of the special values 0, 1, -1 without being equal to them; a beta below that tolerance is treated as 0 (shown)."},
{"property": "C16", "status": "proved", "theorems": ["QpOASES.Props.C16_columns_represents", "QpOASES.Props.C16_rows_represents", "QpOASES.Props.C16_columns_pattern", "QpOASES.Props.C16_rows_pattern", "QpOASES.Props.C16_columns_full", "QpOASES.Props.C16_rows_full", "QpOASES.Props.C16_round_trip"], "note": "The *_pattern theorems also say exactly which entries are stored."},
{"property": "C17", "status": "partial", "theorems": ["QpOASES.Props.C17_columns_times", "QpOASES.Props.C17_columns_transTimes", "QpOASES.Props.C17_rows_times", "QpOASES.Props.C17_rows_transTimes", "QpOASES.Props.C17_columns_times_compressed", "QpOASES.Props.C17_columns_times_uncompressed_partial", "QpOASES.Props.C17_columns_transTimes_lists", "QpOASES.Props.C17_rows_times_compressed", "QpOASES.Props.C17_rows_times_uncompressed_partial", "QpOASES.Props.C17_rows_transTimes_lists", "QpOASES.Props.C17_columns_double_free", "QpOASES.Props.C17_columns_uncompressed_violated", "QpOASES.Props.C17_rows_uncompressed_violated"], "note": "Whole-matrix products, transposed products and products with compressed result proved for all structures and lists. Three violations proved: double release with several vectors and no column list; uncompressed result with beta = 1 (columns) and with a column list (rows)."},
{"property": "C18", "status": "partial", "theorems": ["QpOASES.Props.C18_dense_getRow", "QpOASES.Props.C18_dense_getCol", "QpOASES.Props.C18_dense_diag", "QpOASES.Props.C18_dense_isDiag", "QpOASES.Props.C18_columns_getRow_partial", "QpOASES.Props.C18_columns_getRow_null", "QpOASES.Props.C18_columns_getCol", "QpOASES.Props.C18_rows_getRow", "QpOASES.Props.C18_rows_getCol_partial", "QpOASES.Props.C18_rows_getCol_null", "QpOASES.Props.C18_rows_getCol_out_of_bounds", "QpOASES.Props.C18_columns_diag", "QpOASES.Props.C18_columns_createDiagInfo", "QpOASES.Props.C18_rows_diag", "QpOASES.Props.C18_rows_createDiagInfo", "QpOASES.Props.C18_columns_isDiag", "QpOASES.Props.C18_rows_isDiag", "QpOASES.Props.C18_columns_isDiag_ofDense", "QpOASES.Props.C18_rows_isDiag_ofDense", "QpOASES.Props.C18_isDiag_formats_disagree"], "note": "Rows, columns, diagonals and diagonality proved for all formats except where the code is undefined or inconsistent; proved violations: null dereference without list and factor other than 1, out-of-bounds column read of row storage with more columns than rows, and the diagonality test of the formats differs for tiny entries."},
{"property": "C19", "status": "partial", "theorems": ["QpOASES.Props.C19_dense", "QpOASES.Props.C19_columns_partial", "QpOASES.Props.C19_rows_partial", "QpOASES.Props.C19_columns_ofDense", "QpOASES.Props.C19_rows_ofDense", "QpOASES.Props.C19_no_diag_info", "QpOASES.Props.C19_partial_update_violated", "QpOASES.Props.C19_out_of_bounds_violated", "QpOASES.Props.C19_wrong_entry_violated"], "note": "Proved for dense storage, for sparse matrices built from arrays, and whenever the whole diagonal is stored; the remaining cases are proved violations."},
{"property": "C20", "status": "partial", "theorems": ["QpOASES.Props.C20_dense", "QpOASES.Props.C20_sparse_partial", "QpOASES.Props.C20_sparse_violated"], "note": "Dense: all inputs. Sparse: symmetric matrix and result zeroed or tightly packed; otherwise violated (proved)."},
{"property": "C21", "status": "partial", "theorems": ["QpOASES.Props.C21_dense_partial", "QpOASES.Props.C21_dense_padded_violated", "QpOASES.Props.C21_columns", "QpOASES.Props.C21_rows_violated", "QpOASES.Props.C21_rows_witness", "QpOASES.Props.C21_rows_partial"], "note": "Column storage proved; dense storage proved for tight leading dimension and violated for padded; row storage violated when a diagonal is present."},
{"property": "C22", "status": "partial", "theorems": ["QpOASES.Props.C22_dense_norm2", "QpOASES.Props.C22_dense_norm1", "QpOASES.Props.C22_rows_norm2", "QpOASES.Props.C22_rows_norm1", "QpOASES.Props.C22_columns_norm2", "QpOASES.Props.C22_columns_single", "QpOASES.Props.C22_columns_norm1_violated", "QpOASES.Props.C22_columns_norm1_out_of_bounds"], "note": "All formats and both norms proved, except the 1-norm of column storage, which is a proved violation (stray semicolon)."},
{"property": "C23", "status": "proved", "theorems": ["QpOASES.Props.C23_success_iff", "QpOASES.Props.C23_factor", "QpOASES.Props.C23_failure"], "note": "Exact arithmetic, square root as parameter."},
{"property": "C24", "status": "partial", "theorems": ["QpOASES.Props.C24_solve_partial", "QpOASES.Props.C24_solve_transposed_partial", "QpOASES.Props.C24_zero_diagonal_violated"], "note": "Exact solution on success and the precise failure condition, for nonzero diagonals, separate arrays and in place. Missing: for a zero diagonal entry with zero remaining right-hand side the code's guard accepts and computes 0/0; proved as a violation."},
{"property": "C25", "status": "proved", "theorems": ["QpOASES.Props.C25_solve", "QpOASES.Props.C25_solve_transposed"], "note": "Both directions, for all orders and offsets."},
{"property": "C26", "status": "partial", "theorems": ["QpOASES.Props.C26_compute_partial", "QpOASES.Props.C26_negligible_violated", "QpOASES.Props.C26_apply_orthogonal", "QpOASES.Props.C26_apply3", "QpOASES.Props.C26_apply_inverse"], "note": "Holds for every pair whose second component exceeds ZERO in magnitude; a smaller nonzero component is left as it is (proved as a violation). Both compiled variants of applying the rotation are covered."},
{"property": "C27", "status": "partial", "theorems": ["QpOASES.Props.C27_changes_partial", "QpOASES.Props.C27_factorisation", "QpOASES.Props.C27_session_partial", "QpOASES.Props.C27_tiny_violation", "QpOASES.Props.C27_guess_violation"], "note": "Bound-constrained solver. Any sequence of added/removed bounds and refactorisations keeps R'R = H on the free variables, provided pivots of fresh factorisations exceed ZERO; also between the calls of any session of C34. Violated by the code for pivots below ZERO (rotations skipped) and by hotstarts with a guessed working set that do not refactorise; both are proved with concrete runs. General constraints are C28."},
{"property": "C28", "status": "partial", "theorems": ["QpOASES.Props.C28_changes_partial", "QpOASES.Props.C28_session_partial", "QpOASES.Props.C28_refactorisation_violated"], "note": "Proved for every history of adding and removing bounds and constraints, including the exchange steps of ensureNonzeroCurvature, and for every state between calls (cold start plus hotstarts), in exact arithmetic, provided no number falls strictly between zero and a tolerance. Missing: refactorisation with an empty working set (violated: with enableCholeskyRefactorisation Q is not reset). Below the diagonal R is not cleared; it is never read there."},
{"property": "C29", "status": "partial", "theorems": ["QpOASES.Props.C29_partial", "QpOASES.Props.C29_general_partial"], "note": "Both solvers, exact arithmetic. Shifts of active limits in (0,EPS] may be neglected. For general constraints: array matrices, and a working set whose factors are correct (C28)."},
{"property": "C30", "status": "partial", "theorems": ["QpOASES.Props.C30_partial", "QpOASES.Props.C30_general_partial", "QpOASES.Props.C30_tolerance", "QpOASES.Props.C30_negative_violation"], "note": "Both solvers. For states with correctly signed multipliers, and (general constraints) stored slacks that are those of the iterate. Without the sign condition the claim is false: a multiplier within the numerator tolerance of the wrong sign gives a negative step length."},
{"property": "C31", "status": "partial", "theorems": ["QpOASES.Props.C31_partial", "QpOASES.Props.C31_general_partial", "QpOASES.Props.C31_short_violation"], "note": "Both solvers, exact arithmetic. Steps of length in (0,ZERO] and shifts of active limits in (0,EPS] are excluded; the former violate the claim. For general constraints a constraint of the type without limits must not be the one that blocks."},
{"property": "C32", "status": "partial", "theorems": ["QpOASES.Props.C32_drift_partial", "QpOASES.Props.C32_ramping_partial", "QpOASES.Props.C32_drift_general_partial", "QpOASES.Props.C32_ramping_general_partial", "QpOASES.Props.C32_unbounded_violation", "QpOASES.Props.C32_stored_violation"], "note": "Both solvers. Variables and constraints without finite limits are not corrected (violation), nor is drift in the stored products A*x (violation); ramping for at least two variables (see C52)."},
{"property": "C33", "status": "partial", "theorems": ["QpOASES.Props.C33_partial", "QpOASES.Props.C33_general_partial"], "note": "Both solvers, without regularisation and user-supplied Cholesky factor. For general constraints the sign condition is on the working set actually set up, and the numbers of the factorisation must not lie strictly between zero and a tolerance."},
{"property": "C34", "status": "partial", "theorems": ["QpOASES.Props.C34_init_partial", "QpOASES.Props.C34_hotstart_partial", "QpOASES.Props.C34_init_far_bounds_partial", "QpOASES.Props.C34_hotstart_far_bounds_partial", "QpOASES.Props.C34_minimiser", "QpOASES.Props.C34_init_general_partial", "QpOASES.Props.C34_hotstart_general_partial", "QpOASES.Props.C34_init_far_partial", "QpOASES.Props.C34_hotstart_far_partial", "QpOASES.Props.C34_guessed_general_partial", "QpOASES.Props.C34_guessed_update_partial", "QpOASES.Props.C34_guessed_far_partial", "QpOASES.Props.C34_guessed_update_far_partial", "QpOASES.Props.C34_minimiser_general", "QpOASES.Props.C34_guess_violation", "QpOASES.Props.C34_equality_violation", "QpOASES.Props.C34_equality_sign_violation", "QpOASES.Props.C34_null_violation", "QpOASES.Props.C34_types_violated", "QpOASES.Props.C34_refactorisation_violated", "QpOASES.Props.C34_dropped_violated", "QpOASES.Props.C34_dual_guess_violated", "QpOASES.Props.C34_guess_sign_violated", "QpOASES.Props.C34_vertex_guess_violated"], "note": "Both solvers (QProblemB and QProblem with general constraints). Proved for every cold start and every history of hotstarts, in exact arithmetic, without regularisation taking place, provided no number of the run falls strictly between zero and a tolerance. Both solvers also with far bounds (default options): there the conditions are shown after a full step, and each round with far limits must begin at a point within them (for QProblem, rounds may end with an infeasible QP). For QProblem the option may be enabled (setToMPC, setToFast) as long as the Hessian needs none; regularised runs are the subject of C43. Hotstarts of QProblem may be given a guessed working set that agrees with the signs of the multipliers, whether it is installed from scratch or by updates of the factors, with or without far bounds, and also if a guess is given for the bounds only or for the constraints only; a guess that fixes all variables is admitted for updates if no constraint is active. Missing: regularised hotstarts, guesses for hotstarts of QProblemB. The full statement is false: kernel-evaluated runs return SUCCESSFUL_RETURN with a non-optimal point (guessed working set, equality detection twice, absent limits; for QProblem: constraint types not updated, refactorisation, dropped constraint, guessed multipliers, a guess that contradicts the signs of the former multipliers, a guess that fixes all variables while a constraint is active)."},
{"property": "C35", "status": "proved", "theorems": ["QpOASES.Props.C35_no_better_point", "QpOASES.Props.C35_global_minimum", "QpOASES.Props.C35_unique"], "note": "For all problem sizes, positive semidefinite symmetric matrices, with and without general constraints."},
{"property": "C36", "status": "partial", "theorems": ["QpOASES.Props.C36_partial", "QpOASES.Props.C36_current_partial", "QpOASES.Props.General.C36_general_partial", "QpOASES.Props.C36_regularised_violation"], "note": "Both solvers: getObjVal is 1/2 x'Hx + g'x for every Hessian type when no regularisation is in use. With regularisation the term is included: counterexample proved."},
{"property": "C37", "status": "partial", "theorems": ["QpOASES.Props.C37_residuals_partial", "QpOASES.Props.C37_zero_partial", "QpOASES.Props.C37_solved", "QpOASES.Props.C37_solved_general", "QpOASES.Props.C37_missing_violated", "QpOASES.Props.C37_sign_violated", "QpOASES.Props.C37_outside_violated"], "note": "Three violations proved. The residual function itself is covered in full; the solution analysis for both solvers without regularisation."},
{"property": "C38", "status": "proved", "theorems": ["QpOASES.Props.C38_hotstart", "QpOASES.Props.C38_changes", "QpOASES.Props.C38_init", "QpOASES.Props.General.C38_hotstart", "QpOASES.Props.General.C38_init"], "note": "Both solvers (init and hotstart, every state of the object, every option, far bounds and regularisation included): the reported number and the number of recalculations performed are within the budget, and equal if the problem is reported solved or the maximum reached. Not counted, as in the code: the adaptation of the working set to the kind of the new limits at the start of a homotopy of QProblem, and the set-up of guessed or auxiliary working sets. For SQProblem's calls with new matrices see C70."},
{"property": "C39", "status": "partial", "theorems": ["QpOASES.Props.C39_refused_partial", "QpOASES.Props.C39_no_success_partial", "QpOASES.Props.C39_success_partial", "QpOASES.Props.C39_init_success", "QpOASES.Props.C39_aborted", "QpOASES.Props.General.C39_protocol", "QpOASES.Props.General.C39_success_partial", "QpOASES.Props.General.C39_no_success_partial", "QpOASES.Props.General.C39_refused_partial", "QpOASES.Props.General.C39_init_success", "QpOASES.Props.General.C39_aborted", "QpOASES.Props.C39_violated", "QpOASES.Props.C39_budget_violated"], "note": "Both solvers. Success implies isSolved (limits in order); uninitialised objects are refused if no guess is given, the limits do not cross and the factorisation is not an obstacle. Violated: guesses overwrite the status before it is tested; crossing limits give success; regularisation on uninitialised objects. QProblem: nWSR = 0 leaves a status in which the next hotstart is refused."},
{"property": "C40", "status": "partial", "theorems": ["QpOASES.Props.C40_primal", "QpOASES.Props.C40_dual_partial", "QpOASES.Props.General.C40_general_dual_partial", "QpOASES.Props.C40_dual_violation", "QpOASES.Props.General.C40_general_dual_violation"], "note": "Both solvers: delivered exactly if an (intermediate) QP is solved. getDualSolution overwrites the caller's array before it reports RET_QP_NOT_SOLVED: counterexamples proved."},
{"property": "C41", "status": "partial", "theorems": ["QpOASES.Props.C41_init_partial", "QpOASES.Props.General.C41_init_partial", "QpOASES.Props.C41_hotstart_violated", "QpOASES.Props.C41_tolerance_violated", "QpOASES.Props.C41_general_violated"], "note": "Both solvers: init never accepts limits crossing by more than EPS, of variables or of constraints. Violated: hotstart returns SUCCESSFUL_RETURN; crossings up to EPS are accepted. QProblem: hotstart returns success on crossing constraint limits."},
{"property": "C42", "status": "partial", "theorems": ["QpOASES.Props.C42_limits", "QpOASES.Props.C42_finite_partial", "QpOASES.Props.C42_terminates", "QpOASES.Props.C42_infinite_violated", "QpOASES.Props.C42_crossing_violated", "QpOASES.Props.General.C42_limits", "QpOASES.Props.General.C42_finite_partial", "QpOASES.Props.General.C42_terminates"], "note": "Both solvers, without assumptions about the state of the object. Far limits are never wider than the user's, finite ones are kept, absent ones become the far bound, the loop terminates after a number of rounds that depends on the options only. Violated: ramping can make a far limit infinite; far limits may cross the user's limits, giving success with an infeasible point."},
{"property": "C43", "status": "partial", "theorems": ["QpOASES.Props.C43_steps_partial", "QpOASES.Props.C43_original", "QpOASES.Props.C43_fixpoint", "QpOASES.Props.C43_regularise", "QpOASES.Props.C43_hotstart_violated", "QpOASES.Props.General.C43_general_steps_partial", "QpOASES.Props.General.C43_general_init_partial", "QpOASES.Props.General.C43_general_original", "QpOASES.Props.General.C43_general_first", "QpOASES.Props.General.C43_general_hotstart_violated"], "note": "Both solvers, in exact arithmetic, provided no number of the run falls strictly between zero and a tolerance. A successful regularised solve has performed the configured number of proximal point steps and stores the user's gradient; the residual of the unregularised conditions is eps times the difference of the last two iterates. For QProblem this is shown for whole cold starts with a zero Hessian or with one declared semidefinite (far bounds disabled), with any limits, constraints and guesses; for QProblemB from the auxiliary QP on, equality handling disabled. Missing: regularisation triggered by a failing first Cholesky decomposition, far bounds. The full statement is false for hotstarts: the iterates of repeated hotstarts with the same data diverge (C43_hotstart_violated), and a hotstart with the data of the cold start returns wrong multipliers (C43_general_hotstart_violated). Budget: C38."},
{"property": "C44", "status": "partial", "theorems": ["QpOASES.Props.C44_hotstart_partial", "QpOASES.Props.General.C44_hotstart_partial", "QpOASES.Props.General.C44_unlimited", "QpOASES.Props.C44_far_violated"], "note": "Both solvers, hotstart without far bounds, regularisation and guess. General solver, all options: without limit, RET_MAX_NWSR_REACHED only when the budget is used up. Violated by QProblemB with far bounds: without a limit the time of the previous round becomes the limit."},
{"property": "C45", "status": "proved", "theorems": ["QpOASES.Props.C45_simple_status", "QpOASES.Props.C45_print"], "note": ""},
{"property": "C46", "status": "partial", "theorems": ["QpOASES.Props.C46_unit_norm", "QpOASES.Props.C46_violated_zero_row", "QpOASES.Props.C46_violated_infinite_limits", "QpOASES.Props.C46_partial"], "note": "Unit norms: proved for all inputs. Unchanged feasible set: violated for rows of norm at most EPS and for infinite limits (negations proved); proved for all other inputs."},
{"property": "C47", "status": "partial", "theorems": ["QpOASES.Props.C47_violated", "QpOASES.Props.C47_read_partial", "QpOASES.Props.C47_readInt_partial", "QpOASES.Props.C47_write_read_roundtrip"], "note": "Violated: a file that ends early is accepted. Negation and a complete case distinction proved."},
{"property": "C48", "status": "proved", "theorems": ["QpOASES.Props.C48_matfile_layout", "QpOASES.Props.C48_full_device_reported", "QpOASES.Props.C48_invalid_arguments", "QpOASES.Props.C48_matfile_int"], "note": ""},
{"property": "C49", "status": "proved", "theorems": ["QpOASES.Props.C49_codes_pass_through", "QpOASES.Props.C49_hidden_is_silent", "QpOASES.Props.C49_visible_prints_once", "QpOASES.Props.C49_every_code_has_text"], "note": "For handlers with an output file; see C59 otherwise."},
{"property": "C50", "status": "partial", "theorems": ["QpOASES.Props.C50_save_restore", "QpOASES.Props.C50_save_restore_bounds", "QpOASES.Props.C50_copy_violated", "QpOASES.Props.C50_copy_constructor_undefined", "QpOASES.Props.C50_copy_partial"], "note": "Save/restore proved for all sizes. Copying to a new object is violated (dimensions not copied): negation proved."},
{"property": "C51", "status": "partial", "theorems": ["QpOASES.Props.C51_bounds_partial", "QpOASES.Props.C51_general_partial", "QpOASES.Props.C51_no_ramping", "QpOASES.Props.C51_violated", "QpOASES.Props.C51_bounds_violated", "QpOASES.Props.C51_general_violated"], "note": "With far bounds on, hotstart of both solvers with absent limit vectors equals hotstart with vectors of infinite limits, for all data, guesses and budgets (bound-constrained solver: without ramping; general solver: far bounds must not become infinite by the ramping factor). Violated with far bounds off: null limit vectors are dereferenced in QProblem::hotstart with a guess, and in both solvers a hotstart without a limit vector returns success at a point that is not the minimiser."},
{"property": "C52", "status": "partial", "theorems": ["QpOASES.Props.C52_partial", "QpOASES.Props.General.C52_general_partial", "QpOASES.Props.C52_single_violation", "QpOASES.Props.C52_run_violation", "QpOASES.Props.General.C52_general_far_violation"], "note": "QProblem: ramping of limits and multipliers is defined and stays between the ramp values for every size; the far bounds divide zero by zero for one variable without constraints. QProblemB: defined for at least two variables. Violated for one variable: the ramp divides by nV-1; proved for every state with one bounded variable and for a concrete cold start with default options (far bounds off)."},
{"property": "C53", "status": "partial", "theorems": ["QpOASES.Props.C53_start_partial", "QpOASES.Props.C53_adopted_partial", "QpOASES.Props.C53_general_violated", "QpOASES.Props.C34_dual_guess_violated", "QpOASES.Props.General.C53_afresh_partial", "QpOASES.Props.General.C53_update_partial", "QpOASES.Props.General.C53_left_out_afresh", "QpOASES.Props.General.C53_left_out_update", "QpOASES.Props.General.C53_outside_partial", "QpOASES.Props.General.C53_null_guess_violated", "QpOASES.Props.C34_vertex_guess_violated"], "note": "Violated for general constraints: the shortcut for trivial working sets ignores the guess; a null pointer for one of the guesses does not keep the previous working set when the factors are set up afresh; a guessed multiplier of a dependent constraint is kept. Proved: adoption by the bound-constrained solver; with general constraints, adoption up to dependent members and equalities if no member without limits is guessed active, resp. the changes succeed without exchange or dropping."},
{"property": "C54", "status": "partial", "theorems": ["QpOASES.Props.C54_optimal_partial", "QpOASES.Props.C54_solves_partial", "QpOASES.Props.sq2_new", "QpOASES.Props.C54_factorise_violated", "QpOASES.Props.C54_multiplier_violated"], "note": "Proved: after a successful change of the matrices the old solution and multipliers satisfy the optimality conditions of the QP with the new matrices and the shifted data, for every working set; and a hotstart with new matrices after any history of cold starts and hotstarts solves the new QP if it returns success, provided no pivot is rejected and every member with a nonzero multiplier stays in the working set. Violated as stated: a failing factorisation of the second attempt is not reported (C54_factorise_violated), and a constraint that becomes linearly dependent keeps its multiplier (C54_multiplier_violated). Not covered: regularised or zero Hessians, far bounds, the variant for Matrix objects."},
{"property": "C55", "status": "proved", "theorems": ["QpOASES.Props.C55_bounds", "QpOASES.Props.C55_null", "QpOASES.Props.General.C55_general", "QpOASES.Props.General.C55_general_constraints", "QpOASES.Props.General.C55_general_null"], "note": "Variables (QProblemB), constraints and both together (QProblem)."},
{"property": "C56", "status": "partial", "theorems": ["QpOASES.Props.C56_step_partial", "QpOASES.Props.General.C56_general_step_partial", "QpOASES.Props.C56_length_partial", "QpOASES.Props.General.C56_general_length_partial", "QpOASES.Props.C56_length_nonneg", "QpOASES.Props.C56_null_violation", "QpOASES.Props.General.C56_general_null_violation"], "note": "Both solvers. After a step of length tau (zero or above ZERO) the remaining difference is (1-tau) times the old one, and a full step reaches the data; the relative length is nonnegative, and zero exactly if the data agree when all vectors are given. Violated: absent limit vectors are ignored by the length."},
{"property": "C57", "status": "partial", "theorems": ["QpOASES.Props.C57_partial", "QpOASES.Props.C57_single_partial", "QpOASES.Props.C57_violated"], "note": "Proved for every working set, type assignment and priority setting: dropping marks exactly one member and changes no other status, and a bound (constraint) is dropped only on behalf of the bound (equality or inequality) priority; if the types looked up by position are the right ones, the dropped member has the lowest priority among those involved and not a higher one than the blocking one. Violated in general: dropInfeasibles looks up types by position."},
{"property": "C58", "status": "partial", "theorems": ["QpOASES.Props.C58_types_partial", "QpOASES.Props.General.C58_general_types_partial", "QpOASES.Props.C58_flags", "QpOASES.Props.General.C58_general_flags", "QpOASES.Props.C58_absent_partial", "QpOASES.Props.C58_frame", "QpOASES.Props.General.C58_general_frame", "QpOASES.Props.C58_null_violation", "QpOASES.Props.C58_equality_violation"], "note": "Variables (QProblemB) and constraints (QProblem). Two disagreements proved: an absent limit vector is not an infinite one, and an equality in the new limits is recognised only if the old limits coincide too."},
{"property": "C59", "status": "partial", "theorems": ["QpOASES.Props.C59_violated", "QpOASES.Props.C59_no_output_file_diverges", "QpOASES.Props.C59_no_output_file_partial"], "note": "Violated: endless recursion. Negation proved for every stack depth."},
{"property": "C60", "status": "partial", "theorems": ["QpOASES.Props.C60_dense", "QpOASES.Props.C60_columns", "QpOASES.Props.C60_rows_violated", "QpOASES.Props.C60_lower_violated"], "note": "Proved for dense and column storage (dense: lower triangle for equal row and column lists). Violated: storage by rows returns RET_NOT_YET_IMPLEMENTED, and for different row and column lists the dense lower triangle ignores the column list."},
{"property": "C61", "status": "proved", "theorems": ["QpOASES.Props.C61_values"], "note": ""},
{"property": "C62", "status": "proved", "theorems": ["QpOASES.Props.C62_bounds", "QpOASES.Props.C62_general"], "note": "Both solvers, for every state of the object (also after earlier solves)."},
{"property": "C63", "status": "partial", "theorems": ["QpOASES.Props.C63_each_partial", "QpOASES.Props.C63_single_partial", "QpOASES.Props.C63_null", "QpOASES.Props.C63_flags", "QpOASES.Props.C63_violated"], "note": "Violated for several right-hand sides: only the return value of the last one is reported (C63_violated). Proved for a single right-hand side and for every block whose own right-hand side succeeds. Sessions as in C34."},
{"property": "C64", "status": "partial", "theorems": ["QpOASES.Props.C64_covariance_partial", "QpOASES.Props.C64_violated"], "note": "Proved for QProblem objects in the sessions of C34; for QProblemB objects the code returns RET_NOT_YET_IMPLEMENTED (C64_violated)."},
{"property": "C65", "status": "partial", "theorems": ["QpOASES.Props.C65_bounds_partial", "QpOASES.Props.C65_general_partial", "QpOASES.Props.C65_type_violated", "QpOASES.Props.C65_refused_violated", "QpOASES.Props.C65_ramp_violated"], "note": "Violated: the Hessian type given to the constructor holds for the first init only (C65_type_violated); a refused call without Hessian makes the next init ignore its Hessian (C65_refused_violated); ramping options set before the first init are ignored by it (C65_ramp_violated). Proved for all objects that are initialised, or new with unknown Hessian type and default ramping parameters, with equal options, clock and counter."},
{"property": "C66", "status": "partial", "theorems": ["QpOASES.Props.C66_init_partial", "QpOASES.Props.C66_hotstart_partial", "QpOASES.Props.C66_guessed_partial", "QpOASES.Props.C66_init_far_partial", "QpOASES.Props.C66_hotstart_far_partial", "QpOASES.Props.C66_guessed_far_partial", "QpOASES.Props.C66_violated", "QpOASES.Props.C66_init_bounds", "QpOASES.Props.C66_hotstart_bounds_partial", "QpOASES.Props.C66_guessed_bounds_partial", "QpOASES.Props.C66_violated_bounds"], "note": "The full statement is false: a feasible QP is reported as infeasible if a multiplier exceeds maxDualJump (kernel-evaluated run). Proved for every cold start and every history of hotstarts (with or without a guessed working set, or a guess for one side, that fits the multipliers) of QProblem with general constraints, without regularisation, provided no number of the run falls strictly between zero and a tolerance: the QP is infeasible, or a multiplier is at least maxDualJump times the coefficient of its limit in a linear dependency between limits. Limits of 1e20 count as numbers there. With far bounds (default options): every point that observes the finite limits has a variable or a constraint of at least INFTY / growFarBounds, or a multiplier is large. For QProblemB: init reports infeasibility only if there is no feasible point, whatever the data, options, guesses and tolerances; hotstart never reports it by its return value on an initialised object or with a guess, but on an object that has not been initialised it does so for a feasible QP because of a flag set by an earlier call (kernel-evaluated run)."},
{"property": "C67", "status": "partial", "theorems": ["QpOASES.Props.C67_init_partial", "QpOASES.Props.C67_hotstart_partial", "QpOASES.Props.C67_guessed_partial", "QpOASES.Props.C67_init_far_partial", "QpOASES.Props.C67_hotstart_far_partial", "QpOASES.Props.C67_guessed_far_partial", "QpOASES.Props.C67_violated", "QpOASES.Props.C67_init_bounds_partial", "QpOASES.Props.C67_hotstart_bounds_partial", "QpOASES.Props.C67_violated_bounds"], "note": "The full statement is false: a QP with finite limits only is reported as unbounded if a limit is farther away than maxPrimalJump (kernel-evaluated run). Proved under the hypotheses of C66: there is a direction of constant descent, and either no finite limit is ever met along it, so that the QP is unbounded below if feasible, or a finite limit is met at least maxPrimalJump away. With far bounds (default options) the third possibility is that the point reached has a variable or a constraint of at least (1 - boundTolerance) INFTY / growFarBounds. For QProblemB this last statement is proved for every call of init and hotstart, with any guess and in any state of the object; there, too, a QP with a minimiser of order 1e19 is reported as unbounded (kernel-evaluated run)."},
{"property": "C68", "status": "partial", "theorems": ["QpOASES.Props.C68_init_partial", "QpOASES.Props.C68_hotstart_partial", "QpOASES.Props.C68_guessed_partial", "QpOASES.Props.C68_init_far_partial", "QpOASES.Props.C68_hotstart_far_partial", "QpOASES.Props.C68_beyond", "QpOASES.Props.C68_violated", "QpOASES.Props.C68_init_bounds_partial", "QpOASES.Props.C68_hotstart_bounds_partial", "QpOASES.Props.C68_init_far_bounds_partial", "QpOASES.Props.C68_hotstart_far_bounds_partial", "QpOASES.Props.C68_violated_bounds"], "note": "The full statement is false: a cold start walks up to a limit of 1e20, takes it as a number and returns SUCCESSFUL_RETURN with a point of order 1e19 (kernel-evaluated run). Proved for cold starts (with a Hessian of declared type) and hotstarts of QProblem that end with a full step: then the point lies at a limit that counts as infinite and has a multiplier that does not vanish, so that it is of size INFTY at least; also with far bounds and, without them, with guessed working sets. The same for QProblemB with and without far bounds; without them the statement is false, too."},
{"property": "C69", "status": "proved", "theorems": ["QpOASES.Props.General.C69_init", "QpOASES.Props.General.C69_init_bounds"], "note": "For both solvers, any options (regularisation, ramping, far bounds included) and any earlier history. Wanted in Spec/StartSet.lean says which status is asked for; Adopted in Spec/Adoption.lean is the notion of C53: members left out were found to be dependent, by the test, at a working set reached from the empty one by successful changes and contained in the final one."},
{"property": "C70", "status": "proved", "theorems": ["QpOASES.Props.General.C70_refused", "QpOASES.Props.General.C70_budget", "QpOASES.Props.General.C70_success", "QpOASES.Props.General.C70_protocol", "QpOASES.Props.General.C70_unlimited", "QpOASES.Props.General.C70_crossing_violated"], "note": "Every state of the object and every option, far bounds and regularisation included. The recalculations are counted from the end of the change of the matrices on, as in the code. C70_protocol lists all combinations of return value, status and flags without guess; the remark on crossing limits is C70_crossing_violated: success is returned, the matrices are exchanged, the limits are not (see C41). Modelled is the variant taking arrays."},
{"property": "C71", "status": "partial", "theorems": ["QpOASES.Props.C71_initB", "QpOASES.Props.C71_init", "QpOASES.Props.C71_init_factorB", "QpOASES.Props.C71_init_factor", "QpOASES.Props.C71_init_unreadableB", "QpOASES.Props.C71_init_unreadable", "QpOASES.Props.C71_hotstartB", "QpOASES.Props.C71_hotstart", "QpOASES.Props.C71_new_matrices_partial", "QpOASES.Props.C71_new_matrices_unreadable", "QpOASES.Props.C71_truncated", "QpOASES.Props.C71_no_constraints", "QpOASES.Props.C71_violated", "QpOASES.Props.C71_dangling"], "note": "Proved: with readable files every variant returns the same and leaves the same object as the one with arrays (for SQProblem: except for the Hessian); with missing or garbled files the calls fail, hotstarts changing nothing and init leaving the object not initialised; a factor from a file is used like one from an array. Violated: a file that ends early is accepted, the last number is repeated (C71_truncated, C71_violated); SQProblem::hotstart from files frees the matrices the object goes on referring to, the next hotstart uses freed memory (C71_dangling); without constraints a null name for the constraint matrix, which the documentation allows, is passed to fopen (C71_no_constraints). Files that end early are treated for the gradient of hotstarts only."},
{"property": "C72", "status": "partial", "theorems": ["QpOASES.Props.General.C72_constraints_kept_partial", "QpOASES.Props.General.C72_bounds_kept_partial", "QpOASES.Props.General.C72_constraints_emptied_violation", "QpOASES.Props.General.C72_bounds_emptied_violation", "QpOASES.Props.General.C72_violated"], "note": "Proved for sessions with positive definite Hessian: if the solver changes the previous working set (shallRefactorise is false), the other kind is kept, apart from equalities that are activated, and the call equals the one with the previous working set passed explicitly. Missing: numbers strictly between zero and a tolerance while the guess is installed (UpdatedClean), sessions outside SessionC, the hotstarts of SQProblem. Violated if the working set is set up anew: for every state the call then equals one with an empty guess for the other kind (C72_constraints_emptied_violation, C72_bounds_emptied_violation; witness C72_violated)."},
{"property": "C73", "status": "partial", "theorems": ["QpOASES.Props.C73_hotstart_partial", "QpOASES.Props.C73_init_partial", "QpOASES.Props.C73_regularised_partial", "QpOASES.Props.C73_nonzero_partial", "QpOASES.Props.C73_session_partial", "QpOASES.Props.C73_violated", "QpOASES.Props.C73_violated_general", "QpOASES.Props.General.C73_hotstart_partial", "QpOASES.Props.General.C73_guessed_partial", "QpOASES.Props.General.C73_init_partial", "QpOASES.Props.General.C73_session_partial", "QpOASES.Props.General.C73_new_partial", "QpOASES.Props.C73_violated_new"], "note": "Violated: a zero Hessian switches regularisation on, and it stays on for later QPs (C73_violated); in QProblem a guess that cannot be installed switches enableFullLITests off although the hotstart succeeds (C73_violated_general). Proved for nonnegative budgets, whatever the calls return: in QProblemB hotstart changes no option other than epsRegularisation; init changes none other, except that a zero or missing Hessian may switch on regularisation with one step if it was off. The same for QProblem, where hotstarts with guesses and cold starts may also change enableFullLITests. No sequence of calls changes any other option. For SQProblem the same holds for hotstarts with new matrices: a new Hessian that is given and zero may switch on regularisation (C73_violated_new), nothing else changes. Missing: negative budgets; the Schur complement solver."}
]}
