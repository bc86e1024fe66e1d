{
 "C01": [
  "proved",
  "all histories, any scalar type"
 ],
 "C02": [
  "proved",
  "all integers"
 ],
 "C03": [
  "proved",
  ""
 ],
 "C04": [
  "proved",
  "any scalar type with IEEE comparison laws"
 ],
 "C05": [
  "proved",
  "exact real arithmetic"
 ],
 "C06": [
  "proved",
  ""
 ],
 "C07": [
  "proved",
  "all integers; the image is shown to be exactly the keys dispatched by the name of the class"
 ],
 "C08": [
  "proved",
  "for every environment, comparison structure with the IEEE laws (instances: reals, doubles with NaN): suitability, -1 iff none, minimality and tie-breaking if no estimate is NaN; a NaN estimate of the first suitable hierarchy always sticks"
 ],
 "C09": [
  "proved",
  "the stored differences and uncertainties equal those computed for the selected key"
 ],
 "C10": [
  "proved",
  "any scalar type with IEEE comparison laws"
 ],
 "C11": [
  "proved",
  "with the exact gap characterised; h9q2 ignores stop splitting (finding)"
 ],
 "C12": [
  "proved",
  "soft matrices without NaN; eigenvalues numbers (Eigen contract)"
 ],
 "C13": [
  "proved",
  "plus finding: masses supplied without angle are lost"
 ],
 "C14": [
  "proved",
  "Dbl model (exact arithmetic with NaN/inf); Eigen returns finite values for finite input"
 ],
 "C15": [
  "proved",
  "with lower bound on heavier sbottom mass; counterexample without it"
 ],
 "C16": [
  "proved",
  "under the stated contract of Eigen::SelfAdjointEigenSolver; contract shown satisfiable for every matrix"
 ],
 "C17": [
  "proved",
  ""
 ],
 "C18": [
  "proved",
  "all throw points of all opaque pieces"
 ],
 "C19": [
  "proved",
  "opaque pieces are stateless functions"
 ],
 "C20": [
  "proved",
  ""
 ],
 "C21": [
  "proved",
  "alpha_b zeros for every returned result (any scalar type; uncertainty = 0 over R); alpha_t: DLambda(3)=EFT, formulas for lower orders"
 ],
 "C22": [
  "proved",
  "every returned result, stated with getters and further member calls on the result"
 ],
 "C23": [
  "proved",
  "returned results and single member functions"
 ],
 "C24": [
  "proved",
  "exact real arithmetic"
 ],
 "C25": [
  "proved",
  "exact real arithmetic; the mean squark mass must be nonzero"
 ],
 "C26": [
  "proved",
  "closed form over the reals for each mother hierarchy; totality if external code returns"
 ],
 "C27": [
  "proved",
  "Table of constructor parameters and flag reads of all 14 classes; exact characterisation of the honouring classes, the negation of the intended claim, and the consequence for getExpansionUncertainty. C27_other_truncations_are_read_partial states what remains true of the intended claim for the five affected classes."
 ],
 "C28": [
  "proved",
  "Characteristic polynomial through O(t^3), and the stronger statement that the coefficients are the Taylor coefficients of the minimum/maximum of the quadratic form with O(t^4) remainder; hypothesis: tree-level matrix is not a multiple of the identity."
 ],
 "C29": [
  "proved",
  "Tree-level CP-even matrix of the calculator: trace, determinant, bounds for its eigenvalues (cos 2beta with tan beta = vu/vd), non-degeneracy; the fixed-order spectrum uses the same matrix if MZ is derived; CP-odd and charged masses (Goldstone + physical) and the CP-even bound for the spectrum's masses, over the reals with the solver contract of DESIGN.md (shown satisfiable)."
 ],
 "C30": [
  "proved",
  "C30_same_matrices over the reals; C30_validate about the matrices computed by validate in Dbl when MW, MZ, Mt, Mb, Mtau are NaN (not given) and g1, g2 not both zero."
 ],
 "C31": [
  "proved",
  "PV.cpp over the reals/complex numbers, all branches: b0 against the Feynman parameter integral with explicit error for every momentum (C31_b0_accuracy, C31_b0_equal_masses, C31_b0_zero_momentum), symmetry, scale dependence, d1_b0 against the derivative integral (C31_d1b0_accuracy/general/massless). Findings: massless branch uses log(del/p2) instead of log(del/m22) (C31_b0_massless, C31_b0_massless_wrong, C31_massless_formula); d1_b0 not symmetric. Rounding not modelled."
 ],
 "C32": [
  "partial",
  "one-variable functions: accuracy 1e-9 for all arguments and limits; two-variable functions: accuracy 1e-6 against the integral form for arguments of modulus above 1/100 (f6..f8: above 1e-4 with one above 1/50), symmetry; findings as counterexamples. Missing: accuracy of the Taylor branches at small arguments (F8_0_x2, F9_0_x2, fi_0_r2, fi_0_0), exact arithmetic only"
 ],
 "C33": [
  "proved",
  "exact-arithmetic model; the accuracy of the complex routine off the real axis is not covered"
 ],
 "C34": [
  "proved",
  "exact real arithmetic; PI, p0, p1 have their binary64 values, the coefficients their decimal values. The series of the Clausen integral is derived from Euler's product and Bernoulli numbers; the uniform bounds by a verified polynomial-positivity certificate run by the kernel."
 ],
 "C35": [
  "proved",
  "For arbitrary loop functions and eigensolver; real arithmetic for the comparison (is_equal_rel characterised in C44). C35_zero_limit is a finding: max_iterations<=0 returns minus tree and one-loop."
 ],
 "C36": [
  "proved",
  "Additivity over coupling orders for every switch setting and every arithmetic (generic F), explicit O(at), O(at as), O(at^2) results after construction over the reals, disable_non_as_terms, histories of setCorrectionFlag; finding: a massless bottom quark silently drops O(at^2). Threshold corrections enter as arbitrary values."
 ],
 "C37": [
  "proved",
  "Constructor of ThresholdCalculator: limit selection for every point and arithmetic (generic F), frame, singular points, setLimit/getLimit; finding over IEEE-like Dbl: the squark mass average is computed before validation completes the masses, so it (and the strong-coupling correction) is NaN when Mb or MZ is left to Himalaya."
 ],
 "C38": [
  "proved",
  "ThresholdCalculator conversion between MSbar and DR' proved to be the series inversion through the included orders, for every point, mass limit and omitLogs; C38_shift for the 3L shift; getDeltaYtAlphas2, getDeltaLambdaAlphatAlphas2 and the X_t terms are arbitrary functions (parameters of the model)."
 ],
 "C39": [
  "partial",
  "Symmetry and homogeneity for all arguments (C39_symmetric, C39_homogeneous, C39_delta, C39_delta_symmetric). Accuracy in exact real arithmetic against the Davydychev-Tausk integral: 4e-16 z for lambda^2 > eps and x/z >= eps^(1/4) (C39_accuracy_pos), 2e-15 z for lambda^2 < -eps including the equal-mass branches and the constant at (1,1,1) (C39_accuracy_neg), 3e-11 z for two small masses (C39_accuracy_tiny), (4e-16 + 13 (u/(1-v)^2)^3) z for one small mass (C39_accuracy_small). The full claim is false: C39_series_wrong_near_threshold (series branch used up to the threshold, result more than twice the true value) and C39_hierarchy_wrong (absolute equality test of two tiny arguments, 50% error). Arguments that are neither equal nor separated by eps are not covered, rounding is not modelled."
 ],
 "C40": [
  "proved",
  "the reader consumes the encoded vector of every parameter point and reproduces every field; all 127-vectors are accepted, other lengths rejected; link transport assumed loss-free; finding: masses given without mixing angle are ignored"
 ],
 "C41": [
  "proved",
  "any number of threads and schedules; the locked routines are exactly those using COMMON/listderiv (reading of DSZHiggs.f trusted); sequentially consistent memory"
 ],
 "C42": [
  "proved",
  "sequential: exactly once iff some construction is verbose; concurrent: at most once per verbose construction, race counterexample"
 ],
 "C43": [
  "proved",
  "all programs over assignment/throw/return/branch/loop/try/call/scoped blocks; LibraryLink redirection on all paths; finding: text printed after the first flush is lost"
 ],
 "C44": [
  "proved",
  "exact real arithmetic, special values in Dbl; is_equal_rel is scale-free only upwards (counterexample)"
 ],
 "C45": [
  "proved",
  "Positional argument lists of calculateHierarchy compared with the constructor parameter lists of all 14 classes."
 ],
 "C46": [
  "proved",
  "All terms of the three one-loop functions are in the model (generated from the source text); loop functions are arbitrary symmetric functions, D1B0 any derivative of B0."
 ],
 "C47": [
  "proved",
  "Gaugeless one-loop part; sfermion solver contract as hypothesis."
 ],
 "C48": [
  "proved",
  "finding: for loop order <= 2 the reply reports hierarchy 0 (h3) and ignores the bottom switch"
 ],
 "C49": [
  "proved",
  "finding: delta_mh2_2loop_ab_atau returns S22 off the diagonal and S12 in the (2,2) entry, for every argument (C49_tau_bottom_entries, C49_tau_bottom_wrong)"
 ],
 "C50": [
  "proved",
  "exact arithmetic; C50_second_call_moves_again: the CP-odd part is evaluated at slightly different masses"
 ],
 "C51": [
  "proved",
  "phi is a parameter; its homogeneity, a hypothesis of C51_units, is C51_phi_homogeneous for the exact function"
 ],
 "C52": [
  "partial",
  "the property is false between the thresholds: C52_wrong_stop_eq_gluino, C52_not_limit (every point with mst = mg); C52_limit_partial and C52_bottom_partial cover del > 0 and every mixing angle; the dilogarithm is exact"
 ],
 "C53": [
  "partial",
  "the property is false: C53_wrong_sign holds for every mass matrix with LL > RR and X_t > 0; C53_right_sign_partial covers the complement"
 ],
 "C54": [
  "proved",
  "Two-loop routines and loop integrals are parameters. Findings: massless bottom drops O(at^2); only_at keeps yb in the one-loop self-energies."
 ],
 "C55": [
  "proved",
  "Negation proved at two loops for every returned point with non-vanishing corrections, plus complete-run witness; the one- and three-loop statements hold (_partial theorems). The hierarchy calculator's tc is tied to the modelled ThresholdCalculator object by IsTc."
 ],
 "C56": [
  "proved",
  "real arithmetic, exact dilogarithm for arguments < 1 (C33 bounds the code's approximation); DEGENERATE case as the limit of MQ3_EQ_MU3 (iterated limit, with the gluino mass); the formulas of the three-loop orders (getDeltaYtAlphas2, getDeltaLambdaAlphatAlphas2) are not modelled"
 ],
 "C57": [
  "proved",
  "all six mass cases; every X_t; exact real arithmetic, dl = the dilogarithm on (-inf,1). The rational-function identities are decided by a checker (Verif/Kron) which is proved sound in Lean and run by the kernel (decide +kernel)."
 ],
 "C58": [
  "proved",
  "real arithmetic, exact dilogarithm; g3 and the gluino mass constant along the curve (their running enters at order g3^4)"
 ],
 "C59": [
  "proved",
  "exact arithmetic: literals as decimals, std::log/log/datan2 exact; rounding not modelled"
 ],
 "C60": [
  "proved",
  "All positive squared masses: C60_accuracy (no ratio below 1e-8), C60_accuracy_small (otherwise). At threshold the claim of accuracy fails: the function divides by zero (C60_threshold)."
 ],
 "C61": [
  "proved",
  "Explicit ln Q^2 derivative of the one-loop correction (all switches on, every limit, arbitrary b0 function) is minus the derivative of the tree-level mass along any family obeying the one-loop RGEs; families exist through every point with tree-level MZ."
 ],
 "C62": [
  "partial",
  "Proved that the formula of the O(at^2) threshold correction has exactly the ln Q^2 dependence required by the RGEs when evaluated at the masses of the point (C62_scale_independence_partial); the code shifts the masses, so the claim is false of the code: C62_scale_dependence gives the exact residual, C62_not_scale_independent a witness. MA is taken constant (its running is of higher order). The SUSYHD branch (degenerate masses) is modelled but not covered."
 ],
 "C63": [
  "partial",
  "All 21 threshold corrections are modelled. True for the one- and three-loop corrections, the shift, and the two-loop correction unless one of the six violating orders/branches is used (C63_two_loop_all_partial); for these the negation is proved at every point of the branch: C63_two_loop_depends_on_scale (yt^6), C63_yb6_/yt2yb4_/yt4yb2_/ytau6_/yb4g32_depends_on_scale."
 ],
 "C64": [
  "proved",
  "Exact arithmetic with IEEE rules for NaN and infinities (Dbl); dilogarithm and phi arbitrary."
 ],
 "C65": [
  "partial",
  "C65_units: ten hierarchies from the constructor arguments; C65_units_h6b_violated: false in the other four (finding: Dmsqst2 = Msq - Mst2 instead of a difference of squares)."
 ],
 "C66": [
  "proved",
  "All fourteen classes."
 ],
 "C67": [
  "partial",
  "C67_mu_independent for five hierarchies at all loop orders; explicit counterexamples in h5, h5g1, h6, h6bq22g. Missing: h4, and the h6 family at lower orders."
 ],
 "C68": [
  "proved",
  "Seven hierarchies; h6 and h6b by counterexample."
 ],
 "C69": [
  "partial",
  "Five of fourteen hierarchies; in h5, h6bq22g, h6bq2g2 the coefficients differ, in the others they agree up to rounding of the printed coefficients (not proved)."
 ],
 "C70": [
  "partial",
  "Every flag of every class in each of the three self energies, except the listed counterexamples; xMgl of h9, h9q2 only the counterexample."
 ],
 "C71": [
  "partial",
  "True for eight orders in all mass limits; violated by ytau^4 yb^2 (getDeltaYtauYb uses Xt and mU3): C71_ytau4yb2_violated; C71_ytau4yb2_partial says that A_t and mU3 are the only additional parameters."
 ],
 "C72": [
  "proved",
  "The claim is refuted on the whole surface mQ3 = mD3 (and, for two orders, mQ3 = mU3) unless mu is within 1% of mQ3; C72_*_finite: the limit formulas give finite numbers."
 ],
 "C73": [
  "partial",
  "Proved for tree level, one loop, three loops, the choice of the limit and for the two-loop correction without the orders yt^6, yb^6, yt^2 yb^4, yt^4 yb^2, yb^4 g3^2, ytau^6. False of the code for yt^6 (phi_xyz has the dimension of a squared mass; C73_phi_violated, exact dependence C73_yt6) and for yb^4 g3^2 without logarithms (C73_no_logs_violated); C73_phi_partial and C73_two_loop_partial: with a dimensionless function in place of phi_xyz. Missing: yb^4 g3^2 and ytau^6 with logarithms."
 ],
 "C74": [
  "partial",
  "All threshold corrections without gluinos except four two-loop orders are symmetric, hence the tree-level and one-loop corrections and the two-loop correction of the other orders. For yb^6 and ytau^6 the symmetry is proved outside the limits of equal masses. Violations with explicit points: the limit of equal stau masses of ytau^6, and |mu| in yt^2 yb^4 and yt^4 yb^2. Missing: the gluino orders (the sign of the gluino mass cannot be changed), the degenerate limit of yb^6."
 ],
 "C75": [
  "partial",
  "The electroweak, quartic, vev and gluino corrections, and the top and tau self corrections are proved to be one function of the quantum numbers (top formulas outside the limits of equal masses). The self correction of the bottom Yukawa coupling and the mixed corrections of top and bottom violate the property; the differences are given exactly and shown not to vanish at explicit points."
 ],
 "C76": [
  "proved",
  "For all parameter points. The correction of the strong coupling is stated with logarithms (omitLogs = 1); the ten squarks other than the stops have the common mass msq passed to the calculator."
 ],
 "C77": [
  "partial",
  "C77_report: the whole calculateDMh3L commutes with a change of units, for every point with nonvanishing quark and squark masses, in real arithmetic (no NaN), under the hypothesis UnitFree that the called code (hierarchy classes, DSZ two-loop, EFT, eigenvalues) does; C73 proves it for the EFT orders except the four with phi_xyz, C78 for the fixed-order code. C77_validate_violated: the absolute 1e-8 tolerance for equal stop masses in validate is not invariant; C77_validate_partial: everything else in validate is. Missing: UnitFreeRest for the concrete composition of the remaining called code (it contains absolute thresholds)."
 ],
 "C78": [
  "partial",
  "Proved: spectrum, one-loop, gaugeless and derivative matrices, tree-level matrix, diagonalization, two-loop routines (C78_at_as, C78_ab_as, C78_ab_atau), Higgs mass from parameters to results (C78_partial). Missing: the numerical momentum iteration (isEqualRel has an absolute eps), only_at = true (validate), the routines behind the guards of at at and tau tau (not modelled); the hypothesis UnitLoops holds for B0 but A0 and D1B0 of the code violate it below 1e-15 (C78_a0_violated, C78_d1b0_violated)."
 ]
}