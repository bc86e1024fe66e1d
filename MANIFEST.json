{
 "claims": [
  {
   "property": "C01",
   "status": "proved",
   "theorems": [
    "Himalaya.C01_get_returns_last_set",
    "Himalaya.C01_throwing_set_changes_nothing"
   ],
   "note": "all histories, any scalar type"
  },
  {
   "property": "C02",
   "status": "proved",
   "theorems": [
    "Himalaya.C02_getter_domain",
    "Himalaya.C02_setter_domain",
    "Himalaya.C02_uncertainty_domain"
   ],
   "note": "all integers"
  },
  {
   "property": "C03",
   "status": "proved",
   "theorems": [
    "Himalaya.C03_flags_in_domain",
    "Himalaya.C03_bad_flags_throw"
   ],
   "note": ""
  },
  {
   "property": "C04",
   "status": "proved",
   "theorems": [
    "Himalaya.C04_mdr_masses_ordered",
    "Himalaya.C04_nan_unchanged"
   ],
   "note": "any scalar type with IEEE comparison laws"
  },
  {
   "property": "C05",
   "status": "proved",
   "theorems": [
    "Himalaya.C05_uncertainty",
    "Himalaya.C05_uncertainty_after_writes"
   ],
   "note": "exact real arithmetic"
  },
  {
   "property": "C06",
   "status": "proved",
   "theorems": [
    "Himalaya.C06_names",
    "Himalaya.C06_names_injective"
   ],
   "note": ""
  },
  {
   "property": "C07",
   "status": "proved",
   "theorems": [
    "Himalaya.C07_mother_domain",
    "Himalaya.C07_mother_is_base_by_name",
    "Himalaya.C07_mother_image_and_fixed",
    "Himalaya.C07_mother_errors"
   ],
   "note": "all integers; the image is shown to be exactly the keys dispatched by the name of the class"
  },
  {
   "property": "C08",
   "status": "proved",
   "theorems": [
    "Himalaya.C08_selected_is_suitable",
    "Himalaya.C08_minimal",
    "Himalaya.C08_nan_of_first_suitable_sticks",
    "Himalaya.C08_nan_counterexample"
   ],
   "note": "for every environment, comparison structure with the IEEE laws (instances: reals, doubles with NaN): suitability, -1 iff none, minimality and tie-breaking if no estimate is NaN; a NaN estimate of the first suitable hierarchy always sticks"
  },
  {
   "property": "C09",
   "status": "proved",
   "theorems": [
    "Himalaya.C09_reported_numbers_belong_to_selection",
    "Himalaya.C09_result_reports_selection"
   ],
   "note": "the stored differences and uncertainties equal those computed for the selected key"
  },
  {
   "property": "C10",
   "status": "proved",
   "theorems": [
    "Himalaya.C10_unknown_key_unsuitable",
    "Himalaya.C10_heavy_stop_or_gluino_excluded",
    "Himalaya.C10_exclusive"
   ],
   "note": "any scalar type with IEEE comparison laws"
  },
  {
   "property": "C11",
   "status": "proved",
   "theorems": [
    "Himalaya.C11_coverage",
    "Himalaya.C11_gap_exists",
    "Himalaya.C11_h9q2_ignores_stop_splitting"
   ],
   "note": "with the exact gap characterised; h9q2 ignores stop splitting (finding)"
  },
  {
   "property": "C12",
   "status": "proved",
   "theorems": [
    "Himalaya.C12_accepts_iff_physical",
    "Himalaya.C12_early_rejection_pure",
    "Himalaya.C12_tachyonic_iff_negative_eigenvalue"
   ],
   "note": "soft matrices without NaN; eigenvalues numbers (Eigen contract)"
  },
  {
   "property": "C13",
   "status": "proved",
   "theorems": [
    "Himalaya.C13_inputs_unchanged",
    "Himalaya.C13_stops_kept",
    "Himalaya.C13_sbottoms_kept",
    "Himalaya.C13_staus_kept",
    "Himalaya.C13_stop_masses_without_angle_ignored",
    "Himalaya.C13_supplied_stop_masses_can_be_lost"
   ],
   "note": "plus finding: masses supplied without angle are lost"
  },
  {
   "property": "C14",
   "status": "proved",
   "theorems": [
    "Himalaya.C14_validated_complete_and_ordered"
   ],
   "note": "Dbl model (exact arithmetic with NaN/inf); Eigen returns finite values for finite input"
  },
  {
   "property": "C15",
   "status": "proved",
   "theorems": [
    "Himalaya.C15_revalidation",
    "Himalaya.C15_revalidation_fails_for_light_sbottoms"
   ],
   "note": "with lower bound on heavier sbottom mass; counterexample without it"
  },
  {
   "property": "C16",
   "status": "proved",
   "theorems": [
    "Himalaya.C16_masses_and_mixing",
    "Himalaya.C16_mass_matrices",
    "Himalaya.C16_validated_stops"
   ],
   "note": "under the stated contract of Eigen::SelfAdjointEigenSolver; contract shown satisfiable for every matrix"
  },
  {
   "property": "C17",
   "status": "proved",
   "theorems": [
    "Himalaya.C17_sort_preserves"
   ],
   "note": ""
  },
  {
   "property": "C18",
   "status": "proved",
   "theorems": [
    "Himalaya.C18_flags_restored",
    "Himalaya.C18_const_arguments_unchanged"
   ],
   "note": "all throw points of all opaque pieces"
  },
  {
   "property": "C19",
   "status": "proved",
   "theorems": [
    "Himalaya.C19_history_independent",
    "Himalaya.C19_repeatable"
   ],
   "note": "opaque pieces are stateless functions"
  },
  {
   "property": "C20",
   "status": "proved",
   "theorems": [
    "Himalaya.C20_shift_and_matrices_throw",
    "Himalaya.C20_mdr_shift_throws",
    "Himalaya.C20_expansion_throws",
    "Himalaya.C20_uncertainty_throws",
    "Himalaya.C20_known_hierarchies_do_not_throw",
    "Himalaya.C20_no_suitable_hierarchy_throws",
    "Himalaya.C20_returns_if_suitable"
   ],
   "note": ""
  },
  {
   "property": "C21",
   "status": "proved",
   "theorems": [
    "Himalaya.C21_alpha_b_zero",
    "Himalaya.C21_alpha_t_values",
    "Himalaya.C21_lower_orders",
    "Himalaya.C21_eft_is_nonlog_plus_logs",
    "Himalaya.C21_eft_mass_contains_threshold",
    "Himalaya.C21_alpha_b_zero_uncertainty",
    "Himalaya.C21_matching_point",
    "Himalaya.C21_matching_point_exists_unique"
   ],
   "note": "alpha_b zeros for every returned result (any scalar type; uncertainty = 0 over R); alpha_t: DLambda(3)=EFT, formulas for lower orders"
  },
  {
   "property": "C22",
   "status": "proved",
   "theorems": [
    "Himalaya.C22_flags",
    "Himalaya.C22_fixed_order_three_loop",
    "Himalaya.C22_mass_matrices",
    "Himalaya.C22_masses_diagonalise",
    "Himalaya.C22_mdr_shift",
    "Himalaya.C22_mdr_masses",
    "Himalaya.C22_xt_truncation_consistent"
   ],
   "note": "every returned result, stated with getters and further member calls on the result"
  },
  {
   "property": "C23",
   "status": "proved",
   "theorems": [
    "Himalaya.C23_symmetric",
    "Himalaya.C23_member_functions_symmetric"
   ],
   "note": "returned results and single member functions"
  },
  {
   "property": "C24",
   "status": "proved",
   "theorems": [
    "Himalaya.C24_additive",
    "Himalaya.C24_no_flags"
   ],
   "note": "exact real arithmetic"
  },
  {
   "property": "C25",
   "status": "proved",
   "theorems": [
    "Himalaya.C25_no_shift",
    "Himalaya.C25_masses_used_without_mdr_flag",
    "Himalaya.C25_one_loop_masses_unshifted",
    "Himalaya.C25_shift_off",
    "Himalaya.C25_shift_vanishes_without_strong_coupling",
    "Himalaya.C25_shift_is_difference"
   ],
   "note": "exact real arithmetic; the mean squark mass must be nonzero"
  },
  {
   "property": "C26",
   "status": "proved",
   "theorems": [
    "Himalaya.C26_formula",
    "Himalaya.C26_nonneg",
    "Himalaya.C26_bounds_each_truncation",
    "Himalaya.C26_zero_if_flags_irrelevant",
    "Himalaya.C26_total"
   ],
   "note": "closed form over the reals for each mother hierarchy; totality if external code returns"
  },
  {
   "property": "C27",
   "status": "proved",
   "theorems": [
    "Himalaya.C27_classes_honouring_their_flags",
    "Himalaya.C27_not_all_classes_honour_flags",
    "Himalaya.C27_only_Dmst12_is_wrong",
    "Himalaya.C27_depends_on_read_flags",
    "Himalaya.C27_Dmst12_has_no_effect",
    "Himalaya.C27_uncertainty_misses_Dmst12",
    "Himalaya.C27_affected_hierarchies",
    "Himalaya.C27_other_truncations_are_read_partial"
   ],
   "note": "Table of constructor parameters and flag reads of all 14 classes; exact characterisation of the honouring classes, the negation of the intended claim, and the consequence for getExpansionUncertainty. C27_other_truncations_are_read_partial states what remains true of the intended claim for the five affected classes."
  },
  {
   "property": "C28",
   "status": "proved",
   "theorems": [
    "Himalaya.C28_characteristic_polynomial",
    "Himalaya.C28_tree_level",
    "Himalaya.C28_traces",
    "Himalaya.C28_taylor_coefficients"
   ],
   "note": "Characteristic polynomial through O(t^3), and the stronger statement that the coefficients are the Taylor coefficients of the minimum/maximum of the quadratic form with O(t^4) remainder; hypothesis: tree-level matrix is not a multiple of the identity."
  },
  {
   "property": "C29",
   "status": "proved",
   "theorems": [
    "Himalaya.C29_trace_det",
    "Himalaya.C29_light_higgs_bound",
    "Himalaya.C29_nondegenerate",
    "Himalaya.C29_same_tree_level_matrix",
    "Himalaya.C29_cp_odd",
    "Himalaya.C29_charged",
    "Himalaya.C29_cp_even"
   ],
   "note": "Tree-level CP-even matrix of the calculator: trace, determinant, bounds for its eigenvalues (cos 2beta with tan beta = vu/vd), non-degeneracy; the fixed-order spectrum uses the same matrix if MZ is derived; CP-odd and charged masses (Goldstone + physical) and the CP-even bound for the spectrum's masses, over the reals with the solver contract of DESIGN.md (shown satisfiable)."
  },
  {
   "property": "C30",
   "status": "proved",
   "theorems": [
    "Himalaya.C30_same_matrices",
    "Himalaya.C30_validate"
   ],
   "note": "C30_same_matrices over the reals; C30_validate about the matrices computed by validate in Dbl when MW, MZ, Mt, Mb, Mtau are NaN (not given) and g1, g2 not both zero."
  },
  {
   "property": "C31",
   "status": "proved",
   "theorems": [
    "Himalaya.PV.C31_b0_equal_masses",
    "Himalaya.PV.C31_b0_accuracy",
    "Himalaya.PV.C31_massless_formula",
    "Himalaya.PV.C31_b0_massless",
    "Himalaya.PV.C31_b0_massless_wrong",
    "Himalaya.PV.C31_d1b0_accuracy",
    "Himalaya.PV.C31_d1b0_not_symmetric",
    "Himalaya.PV.C31_b0_symmetric",
    "Himalaya.PV.C31_a0_scale",
    "Himalaya.PV.C31_b0_scale",
    "Himalaya.PV.C31_b0_zero_momentum",
    "Himalaya.PV.C31_d1b0_general",
    "Himalaya.PV.C31_d1b0_massless"
   ],
   "note": "PV.cpp over the reals/complex numbers, all branches: b0 against the Feynman parameter integral with explicit error for every momentum (C31_b0_accuracy, C31_b0_equal_masses, C31_b0_zero_momentum), symmetry, scale dependence, d1_b0 against the derivative integral (C31_d1b0_accuracy/general/massless). Findings: massless branch uses log(del/p2) instead of log(del/m22) (C31_b0_massless, C31_b0_massless_wrong, C31_massless_formula); d1_b0 not symmetric. Rounding not modelled."
  },
  {
   "property": "C32",
   "status": "partial",
   "theorems": [
    "Himalaya.TLF.C32_one_variable_accuracy",
    "Himalaya.TLF.C32_one_variable_limits",
    "Himalaya.TLF.C32_F6_fourth_order_wrong",
    "Himalaya.TLF.C32_F6_corrected",
    "Himalaya.TLF.C32_no_branch_at_minus_one",
    "Himalaya.TLF.C32_integrals_extend_formulas",
    "Himalaya.TLF.C32_F8_F9_accuracy",
    "Himalaya.TLF.C32_f5_f8_accuracy",
    "Himalaya.TLF.C32_symmetry",
    "Himalaya.TLF.C32_exact_symmetry",
    "Himalaya.TLF.C32_F9_small_argument_wrong",
    "Himalaya.TLF.C32_f5_f8_nan_at_minus_one",
    "Himalaya.TLF.C32_F9_asymmetric_near_zero",
    "Himalaya.TLF.C32_f6_nan_near_zero",
    "Himalaya.TLF.C32_f5_nan_small_negative"
   ],
   "note": "one-variable functions: accuracy 1e-9 for all arguments and limits; two-variable functions: accuracy 1e-6 against the integral form for arguments of modulus above 1/100 (f6..f8: above 1e-4 with one above 1/50), symmetry; findings as counterexamples. Missing: accuracy of the Taylor branches at small arguments (F8_0_x2, F9_0_x2, fi_0_r2, fi_0_0), exact arithmetic only"
  },
  {
   "property": "C33",
   "status": "proved",
   "theorems": [
    "Himalaya.Li2.C33_dilog_error",
    "Himalaya.Li2.C33_documented_error",
    "Himalaya.Li2.C33_denominator",
    "Himalaya.Li2.C33_reflection",
    "Himalaya.Li2.C33_inversion",
    "Himalaya.Li2.C33_horner",
    "Himalaya.Li2.C33_complex_real_axis"
   ],
   "note": "exact-arithmetic model; the accuracy of the complex routine off the real axis is not covered"
  },
  {
   "property": "C34",
   "status": "proved",
   "theorems": [
    "Himalaya.Clausen.C34_odd",
    "Himalaya.Clausen.C34_error",
    "Himalaya.Clausen.C34_period",
    "Himalaya.Clausen.C34_reduced",
    "Himalaya.Clausen.C34_every_argument",
    "Himalaya.Clausen.C34_zero_at_two_PI"
   ],
   "note": "exact real arithmetic; PI, p0, p1 have their binary64 values, the coefficients their decimal values. The series of the Clausen integral is derived from Euler's product and Bernoulli numbers; the uniform bounds by a verified polynomial-positivity certificate run by the kernel."
  },
  {
   "property": "C35",
   "status": "proved",
   "theorems": [
    "Himalaya.C35_momentum_iteration",
    "Himalaya.C35_single_pass",
    "Himalaya.C35_zero_limit",
    "Himalaya.C35_contraction_converges",
    "Himalaya.C35_contraction_error"
   ],
   "note": "For arbitrary loop functions and eigensolver; real arithmetic for the comparison (is_equal_rel characterised in C44). C35_zero_limit is a finding: max_iterations<=0 returns minus tree and one-loop."
  },
  {
   "property": "C36",
   "status": "proved",
   "theorems": [
    "Himalaya.C36_one_loop",
    "Himalaya.C36_two_loop",
    "Himalaya.C36_three_loop",
    "Himalaya.C36_history",
    "Himalaya.C36_constructed",
    "Himalaya.C36_disable_non_as",
    "Himalaya.C36_only_top_one_loop",
    "Himalaya.C36_only_top_two_loop",
    "Himalaya.C36_massless_bottom_drops_at2",
    "Himalaya.C36_after_disable_non_as",
    "Himalaya.C36_massless_top"
   ],
   "note": "Additivity over coupling orders for every switch setting and every arithmetic (generic F), explicit O(at), O(at as), O(at^2) results after construction over the reals, disable_non_as_terms, histories of setCorrectionFlag; finding: a massless bottom quark silently drops O(at^2). Threshold corrections enter as arbitrary values."
  },
  {
   "property": "C37",
   "status": "proved",
   "theorems": [
    "Himalaya.C37_no_close_masses",
    "Himalaya.C37_selection",
    "Himalaya.C37_check",
    "Himalaya.C37_frame",
    "Himalaya.C37_singular_point",
    "Himalaya.C37_set_get",
    "Himalaya.C37_real_near",
    "Himalaya.C37_msq2_nan"
   ],
   "note": "Constructor of ThresholdCalculator: limit selection for every point and arithmetic (generic F), frame, singular points, setLimit/getLimit; finding over IEEE-like Dbl: the squark mass average is computed before validation completes the masses, so it (and the strong-coupling correction) is NaN when Mb or MZ is left to Himalaya."
  },
  {
   "property": "C38",
   "status": "proved",
   "theorems": [
    "Himalaya.C38_series",
    "Himalaya.C38_shift",
    "Himalaya.C38_limits"
   ],
   "note": "ThresholdCalculator conversion between MSbar and DR' proved to be the series inversion through the included orders, for every point, mass limit and omitLogs; C38_shift for the 3L shift; getDeltaYtAlphas2, getDeltaLambdaAlphatAlphas2 and the X_t terms are arbitrary functions (parameters of the model)."
  },
  {
   "property": "C39",
   "status": "partial",
   "theorems": [
    "Himalaya.TLF.Phi.C39_symmetric",
    "Himalaya.TLF.Phi.C39_homogeneous",
    "Himalaya.TLF.Phi.C39_delta",
    "Himalaya.TLF.Phi.C39_delta_symmetric",
    "Himalaya.TLF.Phi.C39_accuracy_pos",
    "Himalaya.TLF.Phi.C39_threshold",
    "Himalaya.TLF.Phi.C39_accuracy_neg",
    "Himalaya.TLF.Phi.C39_accuracy_small",
    "Himalaya.TLF.Phi.C39_accuracy_tiny",
    "Himalaya.TLF.Phi.C39_accuracy_half_partial",
    "Himalaya.TLF.Phi.C39_series_wrong_near_threshold",
    "Himalaya.TLF.Phi.C39_hierarchy_wrong"
   ],
   "note": "Symmetry and homogeneity for all arguments (C39_symmetric, C39_homogeneous, C39_delta, C39_delta_symmetric). Accuracy in exact real arithmetic against the Davydychev-Tausk integral: 4e-16 z for lambda^2 > eps and x/z >= eps^(1/4) (C39_accuracy_pos), 2e-15 z for lambda^2 < -eps including the equal-mass branches and the constant at (1,1,1) (C39_accuracy_neg), 3e-11 z for two small masses (C39_accuracy_tiny), (4e-16 + 13 (u/(1-v)^2)^3) z for one small mass (C39_accuracy_small). The full claim is false: C39_series_wrong_near_threshold (series branch used up to the threshold, result more than twice the true value) and C39_hierarchy_wrong (absolute equality test of two tiny arguments, 50% error). Arguments that are neither equal nor separated by eps are not covered, rounding is not modelled."
  },
  {
   "property": "C40",
   "status": "proved",
   "theorems": [
    "Himalaya.Link.C40_round_trip",
    "Himalaya.Link.C40_wrong_length",
    "Himalaya.Link.C40_every_slot",
    "Himalaya.Link.C40_all_vectors",
    "Himalaya.Link.C40_masses_without_mixing_ignored"
   ],
   "note": "the reader consumes the encoded vector of every parameter point and reproduces every field; all 127-vectors are accepted, other lengths rejected; link transport assumed loss-free; finding: masses given without mixing angle are ignored"
  },
  {
   "property": "C41",
   "status": "proved",
   "theorems": [
    "Himalaya.Conc.C41_results",
    "Himalaya.Conc.C41_mutual_exclusion",
    "Himalaya.Conc.C41_no_deadlock",
    "Himalaya.Conc.C41_released",
    "Himalaya.Conc.C41_terminates",
    "Himalaya.Conc.C41_complete",
    "Himalaya.Conc.C41_lock_needed"
   ],
   "note": "any number of threads and schedules; the locked routines are exactly those using COMMON/listderiv (reading of DSZHiggs.f trusted); sequentially consistent memory"
  },
  {
   "property": "C42",
   "status": "proved",
   "theorems": [
    "Himalaya.Banner.C42_sequential",
    "Himalaya.Banner.C42_at_most_one_each",
    "Himalaya.Banner.C42_quiet_afterwards",
    "Himalaya.Banner.C42_printed",
    "Himalaya.Banner.C42_race"
   ],
   "note": "sequential: exactly once iff some construction is verbose; concurrent: at most once per verbose construction, race counterexample"
  },
  {
   "property": "C43",
   "status": "proved",
   "theorems": [
    "Himalaya.Raii.C43_restored",
    "Himalaya.Raii.C43_body",
    "Himalaya.Raii.C43_unchanged",
    "Himalaya.Raii.C43_call_changes_nothing",
    "Himalaya.Raii.C43_streams_restored",
    "Himalaya.Raii.C43_messages",
    "Himalaya.Raii.C43_messages_error",
    "Himalaya.Raii.C43_one_expression",
    "Himalaya.Raii.C43_late_text_lost"
   ],
   "note": "all programs over assignment/throw/return/branch/loop/try/call/scoped blocks; LibraryLink redirection on all paths; finding: text printed after the first flush is lost"
  },
  {
   "property": "C44",
   "status": "proved",
   "theorems": [
    "Himalaya.Misc.C44_powers",
    "Himalaya.Misc.C44_is_equal",
    "Himalaya.Misc.C44_is_close",
    "Himalaya.Misc.C44_is_equal_rel",
    "Himalaya.Misc.C44_symmetric_reflexive",
    "Himalaya.Misc.C44_is_equal_rel_scale",
    "Himalaya.Misc.C44_is_equal_rel_not_scale_free",
    "Himalaya.Misc.C44_nan",
    "Himalaya.Misc.C44_inf_not_reflexive",
    "Himalaya.Misc.C44_sum",
    "Himalaya.Misc.C44_constants",
    "Himalaya.Misc.C44_more_constants"
   ],
   "note": "exact real arithmetic, special values in Dbl; is_equal_rel is scale-free only upwards (counterexample)"
  },
  {
   "property": "C45",
   "status": "proved",
   "theorems": [
    "Himalaya.C45_arguments_match_parameters",
    "Himalaya.C45_known_keys"
   ],
   "note": "Positional argument lists of calculateHierarchy compared with the constructor parameter lists of all 14 classes."
  },
  {
   "property": "C46",
   "status": "proved",
   "theorems": [
    "Himalaya.C46_gaugeless_limit",
    "Himalaya.C46_momentum_derivative"
   ],
   "note": "All terms of the three one-loop functions are in the model (generated from the source text); loop functions are arbitrary symmetric functions, D1B0 any derivative of B0."
  },
  {
   "property": "C47",
   "status": "proved",
   "theorems": [
    "Himalaya.C47_scale_dependence",
    "Himalaya.C47_light_higgs_scale_independent",
    "Himalaya.C47_up_down_exchange",
    "Himalaya.C47_exchanged_spectrum"
   ],
   "note": "Gaugeless one-loop part; sfermion solver contract as hypothesis."
  },
  {
   "property": "C48",
   "status": "proved",
   "theorems": [
    "Himalaya.Link.C48_reply_complete",
    "Himalaya.Link.C48_three_loop_reply",
    "Himalaya.Link.C48_lower_order_reply"
   ],
   "note": "finding: for loop order <= 2 the reply reports hierarchy 0 (h3) and ignores the bottom switch"
  },
  {
   "property": "C49",
   "status": "proved",
   "theorems": [
    "Himalaya.TwoLoop.C49_symmetric",
    "Himalaya.TwoLoop.C49_heavy_higgs",
    "Himalaya.TwoLoop.C49_entries",
    "Himalaya.TwoLoop.C49_bottom_exchanges",
    "Himalaya.TwoLoop.C49_bottom_heavy",
    "Himalaya.TwoLoop.C49_tau_bottom_entries",
    "Himalaya.TwoLoop.C49_tau_bottom_right_iff_partial",
    "Himalaya.TwoLoop.C49_tau_bottom_wrong"
   ],
   "note": "finding: delta_mh2_2loop_ab_atau returns S22 off the diagonal and S12 in the (2,2) entry, for every argument (C49_tau_bottom_entries, C49_tau_bottom_wrong)"
  },
  {
   "property": "C50",
   "status": "proved",
   "theorems": [
    "Himalaya.TwoLoop.C50_no_singularity",
    "Himalaya.TwoLoop.C50_small_change",
    "Himalaya.TwoLoop.C50_regular_unchanged",
    "Himalaya.TwoLoop.C50_second_call_moves_again"
   ],
   "note": "exact arithmetic; C50_second_call_moves_again: the CP-odd part is evaluated at slightly different masses"
  },
  {
   "property": "C51",
   "status": "proved",
   "theorems": [
    "Himalaya.TwoLoop.C51_even_continuous",
    "Himalaya.TwoLoop.C51_odd_continuous",
    "Himalaya.TwoLoop.C51_phi_homogeneous",
    "Himalaya.TwoLoop.C51_even_renumbering",
    "Himalaya.TwoLoop.C51_odd_renumbering",
    "Himalaya.TwoLoop.C51_units"
   ],
   "note": "phi is a parameter; its homogeneity, a hypothesis of C51_units, is C51_phi_homogeneous for the exact function"
  },
  {
   "property": "C52",
   "status": "partial",
   "theorems": [
    "Himalaya.TwoLoop.C52_limit_partial",
    "Himalaya.TwoLoop.C52_general",
    "Himalaya.TwoLoop.C52_bottom_partial",
    "Himalaya.TwoLoop.C52_wrong_stop_eq_gluino",
    "Himalaya.TwoLoop.C52_not_limit",
    "Himalaya.TwoLoop.C52_phi",
    "Himalaya.TwoLoop.C52_dphi"
   ],
   "note": "the property is false between the thresholds: C52_wrong_stop_eq_gluino, C52_not_limit (every point with mst = mg); C52_limit_partial and C52_bottom_partial cover del > 0 and every mixing angle; the dilogarithm is exact"
  },
  {
   "property": "C54",
   "status": "proved",
   "theorems": [
    "Himalaya.C54_inert_switches",
    "Himalaya.C54_last_setting",
    "Himalaya.C54_constructor_flags",
    "Himalaya.C54_massless_bottom_drops_at2",
    "Himalaya.C54_only_at_same_masses",
    "Himalaya.C54_two_loop_sum",
    "Himalaya.C54_switch_removes_contribution",
    "Himalaya.C54_shared_switch",
    "Himalaya.C54_only_at_two_loop",
    "Himalaya.C54_only_at_depends_on_yb",
    "Himalaya.C54_only_at_depends_on_yb_witness"
   ],
   "note": "Two-loop routines and loop integrals are parameters. Findings: massless bottom drops O(at^2); only_at keeps yb in the one-loop self-energies."
  },
  {
   "property": "C53",
   "status": "partial",
   "theorems": [
    "Himalaya.TwoLoop.C53_mixing_right_partial",
    "Himalaya.TwoLoop.C53_mixing_opposite",
    "Himalaya.TwoLoop.C53_wrong_sign",
    "Himalaya.TwoLoop.C53_right_sign_partial"
   ],
   "note": "the property is false: C53_wrong_sign holds for every mass matrix with LL > RR and X_t > 0; C53_right_sign_partial covers the complement"
  },
  {
   "property": "C55",
   "status": "proved",
   "theorems": [
    "Himalaya.C55_two_loop_shift",
    "Himalaya.C55_two_loop_shift_wrong",
    "Himalaya.C55_one_loop_partial",
    "Himalaya.C55_three_loop_partial",
    "Himalaya.C55_witness"
   ],
   "note": "Negation proved at two loops for every returned point with non-vanishing corrections, plus complete-run witness; the one- and three-loop statements hold (_partial theorems). The hierarchy calculator's tc is tied to the modelled ThresholdCalculator object by IsTc."
  },
  {
   "property": "C56",
   "status": "proved",
   "theorems": [
    "Himalaya.Cont.C56_equal_stops",
    "Himalaya.Cont.C56_gluino_left",
    "Himalaya.Cont.C56_gluino_right",
    "Himalaya.Cont.C56_all_equal"
   ],
   "note": "real arithmetic, exact dilogarithm for arguments < 1 (C33 bounds the code's approximation); DEGENERATE case as the limit of MQ3_EQ_MU3 (iterated limit, with the gluino mass); the formulas of the three-loop orders (getDeltaYtAlphas2, getDeltaLambdaAlphatAlphas2) are not modelled"
  },
  {
   "property": "C57",
   "status": "proved",
   "theorems": [
    "Himalaya.Drop.C57_xt_terms",
    "Himalaya.Drop.C57_shift",
    "Himalaya.Drop.C57_xt_order_ignored_above_four"
   ],
   "note": "all six mass cases; every X_t; exact real arithmetic, dl = the dilogarithm on (-inf,1). The rational-function identities are decided by a checker (Verif/Kron) which is proved sound in Lean and run by the kernel (decide +kernel)."
  },
  {
   "property": "C58",
   "status": "proved",
   "theorems": [
    "Himalaya.Scale.C58_scale_independence"
   ],
   "note": "real arithmetic, exact dilogarithm; g3 and the gluino mass constant along the curve (their running enters at order g3^4)"
  },
  {
   "property": "C59",
   "status": "proved",
   "theorems": [
    "Himalaya.Li2.C59_error",
    "Himalaya.Li2.C59_cut",
    "Himalaya.Li2.C59_conj",
    "Himalaya.Li2.F.C59_dli2",
    "Himalaya.Li2.F.C59_cdli2",
    "Himalaya.Li2.F.C59_li2",
    "Himalaya.Li2.F.C59_li2_real",
    "Himalaya.Li2.F.C59_implementations_agree"
   ],
   "note": "exact arithmetic: literals as decimals, std::log/log/datan2 exact; rounding not modelled"
  },
  {
   "property": "C60",
   "status": "proved",
   "theorems": [
    "Himalaya.TwoLoop.F.C60_accuracy",
    "Himalaya.TwoLoop.F.C60_threshold",
    "Himalaya.TwoLoop.F.C60_threshold_example",
    "Himalaya.TwoLoop.F.C60_homogeneous",
    "Himalaya.TwoLoop.F.C60_accuracy_small"
   ],
   "note": "All positive squared masses: C60_accuracy (no ratio below 1e-8), C60_accuracy_small (otherwise). At threshold the claim of accuracy fails: the function divides by zero (C60_threshold)."
  },
  {
   "property": "C61",
   "status": "proved",
   "theorems": [
    "Himalaya.Scale.C61_scale_independence"
   ],
   "note": "Explicit ln Q^2 derivative of the one-loop correction (all switches on, every limit, arbitrary b0 function) is minus the derivative of the tree-level mass along any family obeying the one-loop RGEs; families exist through every point with tree-level MZ."
  },
  {
   "property": "C62",
   "status": "partial",
   "theorems": [
    "Himalaya.Scale.C62_scale_independence_partial",
    "Himalaya.Scale.C62_scale_dependence",
    "Himalaya.Scale.C62_not_scale_independent"
   ],
   "note": "Proved that the formula of the O(at^2) threshold correction has exactly the ln Q^2 dependence required by the RGEs when evaluated at the masses of the point (C62_scale_independence_partial); the code shifts the masses, so the claim is false of the code: C62_scale_dependence gives the exact residual, C62_not_scale_independent a witness. MA is taken constant (its running is of higher order). The SUSYHD branch (degenerate masses) is modelled but not covered."
  },
  {
   "property": "C63",
   "status": "partial",
   "theorems": [
    "Himalaya.Scale.C63_threshold",
    "Himalaya.Scale.C63_shift",
    "Himalaya.Scale.C63_one_loop",
    "Himalaya.Scale.C63_three_loop",
    "Himalaya.Scale.C63_two_loop_partial",
    "Himalaya.Scale.C63_two_loop_depends_on_scale",
    "Himalaya.Scale.C63_two_loop_all_partial",
    "Himalaya.Scale.C63_yb6_depends_on_scale",
    "Himalaya.Scale.C63_yt2yb4_depends_on_scale",
    "Himalaya.Scale.C63_yt4yb2_depends_on_scale",
    "Himalaya.Scale.C63_ytau6_depends_on_scale",
    "Himalaya.Scale.C63_yb4g32_depends_on_scale"
   ],
   "note": "All 21 threshold corrections are modelled. True for the one- and three-loop corrections, the shift, and the two-loop correction unless one of the six violating orders/branches is used (C63_two_loop_all_partial); for these the negation is proved at every point of the branch: C63_two_loop_depends_on_scale (yt^6), C63_yb6_/yt2yb4_/yt4yb2_/ytau6_/yb4g32_depends_on_scale."
  },
  {
   "property": "C64",
   "status": "proved",
   "theorems": [
    "Himalaya.Pole.C64_yt6_nan_at_pole",
    "Himalaya.Pole.C64_silently_dropped"
   ],
   "note": "Exact arithmetic with IEEE rules for NaN and infinities (Dbl); dilogarithm and phi arbitrary."
  },
  {
   "property": "C65",
   "status": "partial",
   "theorems": [
    "Himalaya.C65_units",
    "Himalaya.C65_units_h6b_violated"
   ],
   "note": "C65_units: ten hierarchies from the constructor arguments; C65_units_h6b_violated: false in the other four (finding: Dmsqst2 = Msq - Mst2 instead of a difference of squares)."
  },
  {
   "property": "C66",
   "status": "proved",
   "theorems": [
    "Himalaya.C66_loop_orders",
    "Himalaya.C66_powers_of_g3",
    "Himalaya.C66_sign_of_mass"
   ],
   "note": "All fourteen classes."
  },
  {
   "property": "C67",
   "status": "partial",
   "theorems": [
    "Himalaya.C67_mu_independent",
    "Himalaya.C67_mu_dependence_h3_truncated",
    "Himalaya.C67_mu_dependence_h5",
    "Himalaya.C67_mu_dependence_h6"
   ],
   "note": "C67_mu_independent for five hierarchies at all loop orders; explicit counterexamples in h5, h5g1, h6, h6bq22g. Missing: h4, and the h6 family at lower orders."
  },
  {
   "property": "C68",
   "status": "proved",
   "theorems": [
    "Himalaya.C68_mu_couplings",
    "Himalaya.C68_mu_couplings_h6_violated"
   ],
   "note": "Seven hierarchies; h6 and h6b by counterexample."
  },
  {
   "property": "C69",
   "status": "partial",
   "theorems": [
    "Himalaya.C69_dlambda"
   ],
   "note": "Five of fourteen hierarchies; in h5, h6bq22g, h6bq2g2 the coefficients differ, in the others they agree up to rounding of the printed coefficients (not proved)."
  },
  {
   "property": "C70",
   "status": "partial",
   "theorems": [
    "Himalaya.C70_truncation_h3_partial",
    "Himalaya.C70_truncation_h4",
    "Himalaya.C70_truncation_h5",
    "Himalaya.C70_truncation_h6",
    "Himalaya.C70_truncation_h6b_partial",
    "Himalaya.C70_truncation_h9_partial",
    "Himalaya.C70_truncation_violated"
   ],
   "note": "Every flag of every class in each of the three self energies, except the listed counterexamples; xMgl of h9, h9q2 only the counterexample."
  },
  {
   "property": "C71",
   "status": "partial",
   "theorems": [
    "Himalaya.Scale.C71_g32yb4",
    "Himalaya.Scale.C71_yb6",
    "Himalaya.Scale.C71_ytau6",
    "Himalaya.Scale.C71_yt2yb4",
    "Himalaya.Scale.C71_yb2yt4",
    "Himalaya.Scale.C71_ytau2yb4",
    "Himalaya.Scale.C71_yt6",
    "Himalaya.Scale.C71_g32yt4",
    "Himalaya.Scale.C71_ytau4yb2_partial",
    "Himalaya.Scale.C71_ytau4yb2_violated"
   ],
   "note": "True for eight orders in all mass limits; violated by ytau^4 yb^2 (getDeltaYtauYb uses Xt and mU3): C71_ytau4yb2_violated; C71_ytau4yb2_partial says that A_t and mU3 are the only additional parameters."
  },
  {
   "property": "C72",
   "status": "proved",
   "theorems": [
    "Himalaya.Pole.C72_dropped_yb6",
    "Himalaya.Pole.C72_dropped_yt2yb4",
    "Himalaya.Pole.C72_dropped_yt4yb2",
    "Himalaya.Pole.C72_yb6_nan",
    "Himalaya.Pole.C72_yt2yb4_nan",
    "Himalaya.Pole.C72_yt4yb2_nan",
    "Himalaya.Pole.C72_yt2yb4_nan_u",
    "Himalaya.Pole.C72_yt4yb2_nan_u",
    "Himalaya.Pole.C72_equal_masses",
    "Himalaya.Pole.C72_yb6_finite",
    "Himalaya.Pole.C72_yt2yb4_finite",
    "Himalaya.Pole.C72_yt4yb2_finite"
   ],
   "note": "The claim is refuted on the whole surface mQ3 = mD3 (and, for two orders, mQ3 = mU3) unless mu is within 1% of mQ3; C72_*_finite: the limit formulas give finite numbers."
  },
  {
   "property": "C73",
   "status": "partial",
   "theorems": [
    "Himalaya.Units.C73_threshold",
    "Himalaya.Units.C73_phi_partial",
    "Himalaya.Units.C73_tree_level",
    "Himalaya.Units.C73_one_loop",
    "Himalaya.Units.C73_three_loop",
    "Himalaya.Units.C73_two_loop",
    "Himalaya.Units.C73_two_loop_partial",
    "Himalaya.Units.C73_select_limit",
    "Himalaya.Units.C73_yt6",
    "Himalaya.Units.C73_phi_violated",
    "Himalaya.Units.C73_no_logs_violated"
   ],
   "note": "Proved for tree level, one loop, three loops, the choice of the limit and for the two-loop correction without the orders yt^6, yb^6, yt^2 yb^4, yt^4 yb^2, yb^4 g3^2, ytau^6. False of the code for yt^6 (phi_xyz has the dimension of a squared mass; C73_phi_violated, exact dependence C73_yt6) and for yb^4 g3^2 without logarithms (C73_no_logs_violated); C73_phi_partial and C73_two_loop_partial: with a dimensionless function in place of phi_xyz. Missing: yb^4 g3^2 and ytau^6 with logarithms."
  },
  {
   "property": "C74",
   "status": "partial",
   "theorems": [
    "Himalaya.Signs.C74_threshold",
    "Himalaya.Signs.C74_yb6_partial",
    "Himalaya.Signs.C74_ytau6_partial",
    "Himalaya.Signs.C74_one_loop",
    "Himalaya.Signs.C74_two_loop_partial",
    "Himalaya.Signs.C74_ytau6_violated",
    "Himalaya.Signs.C74_yt2yb4_violated",
    "Himalaya.Signs.C74_yt4yb2_violated"
   ],
   "note": "All threshold corrections without gluinos except four two-loop orders are symmetric, hence the tree-level and one-loop corrections and the two-loop correction of the other orders. For yb^6 and ytau^6 the symmetry is proved outside the limits of equal masses. Violations with explicit points: the limit of equal stau masses of ytau^6, and |mu| in yt^2 yb^4 and yt^4 yb^2. Missing: the gluino orders (the sign of the gluino mass cannot be changed), the degenerate limit of yb^6."
  },
  {
   "property": "C75",
   "status": "partial",
   "theorems": [
    "Himalaya.Family.C75_electroweak",
    "Himalaya.Family.C75_quartic",
    "Himalaya.Family.C75_vev",
    "Himalaya.Family.C75_strong",
    "Himalaya.Family.C75_self_partial",
    "Himalaya.Family.C75_bottom_difference",
    "Himalaya.Family.C75_cross_difference",
    "Himalaya.Family.C75_bottom_violated",
    "Himalaya.Family.C75_cross_violated"
   ],
   "note": "The electroweak, quartic, vev and gluino corrections, and the top and tau self corrections are proved to be one function of the quantum numbers (top formulas outside the limits of equal masses). The self correction of the bottom Yukawa coupling and the mixed corrections of top and bottom violate the property; the differences are given exactly and shown not to vanish at explicit points."
  },
  {
   "property": "C76",
   "status": "proved",
   "theorems": [
    "Himalaya.Charges.C76_gauge_couplings",
    "Himalaya.Charges.C76_quartic",
    "Himalaya.Charges.C76_generations",
    "Himalaya.Charges.C76_strong_coupling"
   ],
   "note": "For all parameter points. The correction of the strong coupling is stated with logarithms (omitLogs = 1); the ten squarks other than the stops have the common mass msq passed to the calculator."
  },
  {
   "property": "C77",
   "status": "partial",
   "theorems": [
    "Himalaya.Units.C77_suitable_masses",
    "Himalaya.Units.C77_suitable",
    "Himalaya.Units.C77_mst1",
    "Himalaya.Units.C77_mst2",
    "Himalaya.Units.C77_tree_level",
    "Himalaya.Units.C77_h3m_shift",
    "Himalaya.Units.C77_h3m_shift_mh2",
    "Himalaya.Units.C77_one_loop",
    "Himalaya.Units.C77_validate_partial",
    "Himalaya.Units.C77_validate_violated",
    "Himalaya.Units.C77_report"
   ],
   "note": "C77_report: the whole calculateDMh3L commutes with a change of units, for every point with nonvanishing quark and squark masses, in real arithmetic (no NaN), under the hypothesis UnitFree that the called code (hierarchy classes, DSZ two-loop, EFT, eigenvalues) does; C73 proves it for the EFT orders except the four with phi_xyz, C78 for the fixed-order code. C77_validate_violated: the absolute 1e-8 tolerance for equal stop masses in validate is not invariant; C77_validate_partial: everything else in validate is. Missing: UnitFreeRest for the concrete composition of the remaining called code (it contains absolute thresholds)."
  },
  {
   "property": "C78",
   "status": "partial",
   "theorems": [
    "Himalaya.C78_one_loop",
    "Himalaya.C78_gaugeless",
    "Himalaya.C78_derivative",
    "Himalaya.C78_tree_level",
    "Himalaya.C78_diagonalization",
    "Himalaya.C78_spectrum",
    "Himalaya.C78_two_loop_partial",
    "Himalaya.C78_higgs_mass_partial",
    "Himalaya.C78_partial",
    "Himalaya.PV.C78_b0xx",
    "Himalaya.PV.C78_b0",
    "Himalaya.PV.C78_a0_partial",
    "Himalaya.PV.C78_a0_violated",
    "Himalaya.PV.C78_d1b0_partial",
    "Himalaya.PV.C78_d1b0_violated",
    "Himalaya.TwoLoop.C78_at_as",
    "Himalaya.TwoLoop.C78_ab_as",
    "Himalaya.TwoLoop.C78_ab_atau",
    "Himalaya.TwoLoop.C78_guards",
    "Himalaya.TwoLoop.C78_at_at_partial",
    "Himalaya.TwoLoop.C78_atau_atau_partial"
   ],
   "note": "Proved: spectrum, one-loop, gaugeless and derivative matrices, tree-level matrix, diagonalization, two-loop routines (C78_at_as, C78_ab_as, C78_ab_atau), Higgs mass from parameters to results (C78_partial). Missing: the numerical momentum iteration (isEqualRel has an absolute eps), only_at = true (validate), the routines behind the guards of at at and tau tau (not modelled); the hypothesis UnitLoops holds for B0 but A0 and D1B0 of the code violate it below 1e-15 (C78_a0_violated, C78_d1b0_violated)."
  }
 ]
}