# generates properties.jsonl (kept under version control together with its output)
import json
P=[]
def p(id,title,statement,quantifier,why,anchors):
    P.append(dict(id=id,title=title,statement=statement,quantifier=quantifier,why_tests_cant=why,anchors=anchors))
HO="source/himalaya/HierarchyObject.cpp"; HC="source/himalaya/HierarchyCalculator.cpp"; HI="source/himalaya/Himalaya_interface.cpp"
LL="source/himalaya/LibraryLink/Himalaya_LibraryLink.cpp"; 
p("C01","Result object: get returns last successful set",
 "For every sequence of setter calls on a result object (including calls that throw), every getter returns the argument of the last non-throwing matching setter with the same loop index, or the constructor default if there was none; setters of other quantities or other loop orders never change it, and a throwing setter changes nothing.",
 "all finite histories of setter calls with arbitrary integer loop indices and values; all getters",
 "the space of histories is infinite; an aliasing bug between two maps shows only on particular interleavings",
 [HO+":HierarchyObject::set*/get*","include/himalaya/HierarchyObject.hpp"])
p("C02","Result object: loop index domain",
 "Loop-indexed getters and setters succeed exactly for loop orders 0..3 (1..3 for the expansion uncertainty) and throw for every other integer; a freshly constructed object answers all legal queries.",
 "all 32-bit integers, all objects reachable by setter histories",
 "2^32 indices times all reachable objects",
 [HO+":getDMh",HO+":getDMhExpUncertainty",HO+":getDLambdaUncertainty"])
p("C03","Result object: flag domains",
 "In every reachable result object the MDR flag is 0 or 1 and the renormalization scheme is one of the four scheme keys; a call with any other value throws and leaves the previous value in place.",
 "all histories of public calls","invariant over unbounded histories",
 [HO+":setMDRFlag",HO+":setRenormalizationScheme"])
p("C04","MDR masses are reported in ascending order",
 "After any history, if the pair of MDR masses last set contains no NaN, the reported pair is the same multiset of numbers with the lighter one first; NaN inputs are reported unchanged.",
 "all histories and all double pairs","all doubles incl. NaN/inf",[HO+":setMDRMasses",HO+":sortVector"])
p("C05","Delta-lambda uncertainty is non-negative and complete",
 "The reported 3-loop uncertainty is |Xt part| + |EFT - H3m|, never negative, zero only if both parts vanish, and 0 for loop orders 0..2.",
 "all reachable objects and loop orders","all real triples",[HO+":getDLambdaUncertainty"])
p("C06","Hierarchy names",
 "getH3mHierarchyNotation is total, gives the 14 documented names for keys 0..13, pairwise distinct, and never gives one of these names for another integer.",
 "all pairs of integers","2^64 pairs",[HO+":getH3mHierarchyNotation","source/himalaya/hierarchies/HierarchyFlags.hpp"])
p("C07","Every hierarchy has an implemented mother hierarchy",
 "The mother map is defined exactly on keys 0..13, its image is exactly the set of hierarchies dispatched on by the expansion code and by the MDR shift code, it is idempotent; -1 and any other key throw (with the 'no suitable hierarchy' error exactly for -1).",
 "all integers","all integers",[HC+":getMotherHierarchy",HC+":calculateHierarchy",HC+":shiftMst1ToMDR"])
p("C08","Hierarchy selection minimises the error",
 "If no candidate's error estimate is NaN, the selected hierarchy is suitable, its error is <= the error of every suitable hierarchy, ties go to the smallest key, and -1 is returned iff no hierarchy is suitable. (A NaN estimate of the first suitable hierarchy makes the claim fail: proved as a counterexample.)",
 "all error functions and suitability predicates on the 14 hierarchies","uncountably many inputs; NaN path never exercised",
 [HC+":compareHierarchies"])
p("C09","Selection is reported consistently",
 "The 2-loop differences and the 2-loop expansion uncertainty reported in the result object belong to the selected hierarchy (not to the last one tried).",
 "all inputs for which a hierarchy is selected","needs correlation over all loops",
 [HC+":compareHierarchies"])
p("C10","Suitability conditions of hierarchies are consistent",
 "No hierarchy is suitable if a stop or the gluino is more than 30% heavier than the mean squark mass; h3 excludes h32q2g and h3q22g, these exclude each other, h5 excludes h5g1, h6 excludes h6g2, h6b/h6b2qg2/h6bq22g/h6bq2g2 are mutually exclusive, h9 excludes h9q2; unknown keys are never suitable.",
 "all (also NaN or infinite) mass values and all integer keys","all mass spectra",
 [HC+":isHierarchySuitable"])
p("C11","Coverage of the parameter space",
 "For every spectrum with 0<Mst1<=Mst2, Mgl>0 that passes the 30% guards, some hierarchy is suitable, except when Mgl equals Mst2 and the relative stop splitting is at most 10% (where none is, and the calculation throws).",
 "all positive mass spectra","measure-zero hole in a 4-dimensional space",
 [HC+":isHierarchySuitable",HC+":calculateDMh3L"])
p("C12","Validation rejects unphysical input",
 "validate throws for a negative soft-mass entry, negative gluino mass, NaN or non-positive vu or vd, and for tachyonic computed sfermions; it accepts everything else.",
 "all parameter points (incl. NaN/inf fields)","all doubles",[HI+":Parameters::validate"])
p("C13","Validation keeps user input",
 "Every SM mass and every completely supplied sfermion family (both masses and a mixing angle) is unchanged by a successful validate, except for reordering of the pair of masses, the accompanying angle shift and the documented degeneracy shift; couplings, VEVs, soft masses (other than mq2(2,2)), trilinears and gaugino masses are unchanged. (Sfermion masses supplied without any angle are silently discarded: proved as a finding.)",
 "all parameter points","field-by-field over all inputs",[HI+":Parameters::validate"])
p("C14","Validated masses are complete and ordered",
 "After a successful validate with finite input none of MW,MZ,Mt,Mb,Mtau, sfermion masses and mixing angles is NaN, sfermion masses are ascending (strictly for positive stops), and the stop degeneracy distance is positive.",
 "all finite parameter points","all inputs",[HI+":Parameters::validate"])
p("C15","Re-validation is harmless",
 "Validating an already validated point (as every downstream calculator constructor does) succeeds and changes nothing for spectra with sfermion masses of at least a few GeV. (For sbottom masses below about 1 GeV the code shifts MSb again: counterexample.)",
 "all valid parameter points","idempotence over all inputs",[HI+":Parameters::validate","source/himalaya/mh2_eft/ThresholdCalculator.cpp","source/himalaya/mh2_fo/MSSM_mass_eigenstates.cpp"])
p("C16","Computed sfermion masses and mixing diagonalise the mass matrix",
 "When computed by validate, the squared sfermion masses are the eigenvalues of the DR' mass matrix (trace/determinant), m1<=m2, s2f=sin(2 theta_f) and rotating by theta_f with m1,m2 reproduces the mass matrix.",
 "all symmetric non-tachyonic 2x2 mass matrices","uncountable, branchy angle convention",[HI+":calculate_MSf_s2f"])
p("C17","Sorting sfermions preserves the physics",
 "Swapping masses with theta += pi/2 and s2 *= -1 leaves the reconstructed mass matrix and the relation s2 = sin(2 theta) unchanged.",
 "all masses and angles","all reals",[HI+":sort_ev"])
p("C18","Expansion flags are restored",
 "Whatever public member function is called on a calculator, and whether it returns or throws at any point, the expansion flags are afterwards exactly as before the call.",
 "all call histories and all throw points","every exception point of every nested call",[HC+":compareHierarchies",HC+":getExpansionUncertainty","source/himalaya/misc/RAII.hpp"])
p("C19","Results do not depend on call history",
 "The result of calculateDMh3L on a calculator is the same after any sequence of earlier (also failing) public calls on the same calculator.",
 "all call histories","unbounded histories",[HC+":calculateDMh3L"])
p("C20","Invalid loop order or hierarchy fails loudly",
 "Hierarchy-dependent functions throw for a result object without suitable hierarchy; nothing is returned for it.",
 "all integers as hierarchy keys","all integers",[HC+":calculateHierarchy",HC+":shiftMst1ToMDR"])
p("C21","alpha_b mode zeros",
 "With isAlphab the 3-loop Delta-lambda quantities are exactly 0 with zero uncertainty, in alpha_t mode Delta-lambda(3) equals the EFT value.",
 "all parameter points for which the calculation succeeds","all inputs",[HC+":calculateDMh3L"])
p("C22","3-loop results reported consistently",
 "In every returned result: DMh2FO(3)=DMh2FOAt(3)=DMh2(3), the DR'->H3m shift is minus the shift contained in DMh(3), expansion uncertainty(1)=0, mdr flag 0, scheme DR', MDR masses ascending, DMh2FOAt(0)=0.",
 "all parameter points for which the calculation succeeds","all inputs",[HC+":calculateDMh3L"])
p("C23","Higgs mass matrices are symmetric",
 "All four loop contributions and both scheme shifts returned to the user are symmetric matrices.",
 "all parameter points","all inputs",[HC+":compareHierarchies",HC+":getMt41L",HC+":getMt42L",HC+":calculateHierarchy",HC+":shiftH3mToDRbarPrime"])
p("C24","Loop flags are additive",
 "calculateHierarchy with several loop flags set returns the sum of the results with a single flag each, and zero with no flag.",
 "all hierarchies, flags and parameter points","all inputs",[HC+":calculateHierarchy"])
p("C25","Without MDR flag nothing is shifted",
 "With loop flags (0,0) the MDR mass shifts return the input DR' masses for every hierarchy, hence the DR'->MDR' one-/two-loop shift vanishes for flags (0,0).",
 "all hierarchies and non-zero masses","all masses",[HC+":shiftMst1ToMDR",HC+":shiftMst2ToMDR",HC+":calcDRbarToMDRbarShift"])
p("C26","Expansion uncertainty is a non-negative truncation measure",
 "getExpansionUncertainty never returns a negative number, is 0 when truncation flags do not influence the expansion, and is independent of the order of the summands.",
 "all hierarchies, matrices and loop flags","all inputs",[HC+":getExpansionUncertainty"])
p("C27","Truncation flags read by the hierarchy classes",
 "In nine of the fourteen hierarchy classes each truncation switch is initialised from the expansion flag it is named after, so clearing a flag truncates that variable and no other. The five classes h3, h32q2g, h3q22g, h9 and h9q2 initialise their Dmst12 truncation from the Dmglst1 flag instead: for them setting or clearing the Dmst12 flag changes no result, so the expansion uncertainty contains no contribution from truncating in Dmst12.",
 "all 14 hierarchy classes, all flag settings, all formulas and parameter points","2^12 flag settings times all inputs",["source/himalaya/hierarchies/H3.cpp","source/himalaya/hierarchies/*.cpp",HC+":calculateHierarchy",HC+":getExpansionUncertainty"])
p("C28","Perturbative diagonalisation is exact order by order",
 "For symmetric 2x2 matrices m0..m3 with distinct tree-level eigenvalues the returned four corrections are the Taylor coefficients of the eigenvalues of m0+t m1+t^2 m2+t^3 m3: the characteristic polynomial vanishes through order t^3.",
 "all symmetric 2x2 matrices with distinct eigenvalues","uncountable",["source/himalaya/mh2_fo/Linalg.cpp",HC+":calculateDMh3L"])
p("C29","Tree-level Higgs masses",
 "The tree-level CP-even matrix used has trace MZ^2+MA^2 and determinant MA^2 MZ^2 cos^2(2 beta); the lighter eigenvalue is at most MZ^2 cos^2(2beta) and at most MA^2 and is nonnegative; charged and CP-odd matrices have the Goldstone eigenvalue and MA^2+MW^2, MA^2.",
 "all couplings, VEVs, MA","uncountable",[HC+":compareHierarchies","source/himalaya/mh2_fo/MSSM_spectrum.cpp"])
p("C30","Validate and fixed-order spectrum agree on sfermion matrices",
 "The stop/sbottom/stau matrices of validate and of the fixed-order spectrum are identical when MW,MZ,Mt,Mb,Mtau are derived from the couplings.",
 "all couplings, VEVs, soft parameters","uncountable",[HI+":validate","source/himalaya/mh2_fo/MSSM_spectrum.cpp"])
p("C31","Passarino-Veltman functions",
 "b0 returns the real part of the Feynman parameter integral -int log((x m1^2+(1-x) m2^2-x(1-x)p^2)/Q^2) for every momentum, below, at and above all thresholds and across all its branches, up to 1e-6 (3e-9 if p^2 does not exceed the smaller squared mass; 1e-9 for equal masses, exact for them between m^2/1000 and 100 m^2), except in the region treated as infrared divergent and with one massless particle at non-zero momentum, where the result is wrong by (m^2-p^2)/p^2 log(m^2/p^2) (proved, with a witness). b0 is symmetric under mass exchange, and b0 and a0 change with the scale by log(Q'^2/Q^2) resp. m^2 log(Q'^2/Q^2). d1_b0 is the integral of the momentum derivative up to 1e-8 in units of the larger squared mass for all masses, exactly away from its expansion branches; it is not exactly symmetric (counterexample).",
 "all real masses, momenta and scales (exact arithmetic)","uncountable",["source/himalaya/mh2_fo/PV.cpp"])
p("C32","Threshold loop functions agree with their defining formulas",
 "Each one-variable threshold loop function (F1..F7, f1..f4) returns the value of its closed formula up to 1e-9 for every argument where the formula is defined, whatever special branch is taken, and its special values are the limits of the formula. The two-variable functions F8, F9, f5..f8 agree with the one-loop integrals that extend their formulas (arguments +-1 and equal arguments included) up to 1e-6 for arguments away from zero, and are symmetric. Exceptions, proved as counterexamples: the fourth-order term of F6 near 1 and the first-order term of F9 near (1,0) have the wrong sign; F1..F4 at -1, f5..f8 at a single argument -1, f6 at (x,0) and f5 at small negative arguments are NaN; F9 is not symmetric near the origin.",
 "all real arguments (binary64 with NaN and infinities for the exceptions)","uncountable domain; branch boundaries; uniform error of the Taylor branches",["source/himalaya/mh2_eft/ThresholdLoopFunctions.cpp:F1","source/himalaya/mh2_eft/ThresholdLoopFunctions.cpp:F9","source/himalaya/mh2_eft/ThresholdLoopFunctions.cpp:f5"])
p("C33","Dilogarithm accuracy for every argument",
 "For every real x the real dilogarithm routine differs from the real part of Li2(x) = -int_0^x log|1-t|/t dt by at most 1.4e-16 (exact arithmetic), and by at most the documented 5e-17 on [0,1/2); its denominator never vanishes; reflection and inversion identities hold to the same accuracy; the complex routine's Horner scheme evaluates the polynomial and it agrees with the real routine on the real axis, with imaginary part -pi log x beyond the branch point.",
 "all reals","uncountable domain, reduction branches and a uniform approximation error",["source/himalaya/misc/Li2.cpp:dilog","source/himalaya/misc/Li2.cpp:horner"])
p("C34","Clausen function",
 "clausen_2 is odd, exactly periodic with period 2 PI (the binary64 number) on each side of zero, evaluates its rational approximations only on the reduced range where their denominators do not vanish, and differs from the Clausen integral -int_0^x log|2 sin(t/2)| dt by at most 1.2e-16 for |x| < 2 PI (exact arithmetic). At the binary64 number nearest 2 pi it returns exactly 0 although the function is below -7e-15 there.",
 "all real arguments","uncountable; an error bound for every argument",["source/himalaya/misc/Li2.cpp:clausen_2"])
p("C35","Momentum iteration terminates and stops at the right pass",
 "The numerical momentum iteration of the fixed-order calculator makes between 1 and max passes (positive limit) and returns the difference of the one-loop matrices at the last-but-one momentum of the exact sequence p(k+1)=lightest eigenvalue at p(k) and at the tree-level mass; it stops at the first pair of successive momenta that agree to the goal; contractions converge; a limit <= 0 returns minus the lower orders.",
 "all self-energy functions, precisions and iteration limits","non-convergent cases",["source/himalaya/mh2_fo/MSSM_mass_eigenstates.cpp:delta_mh2_2loop_mom_it_num"])
p("C36","Correction switches select contributions",
 "Switching a coupling order off removes exactly its contribution from the EFT result; the EFT calculator after construction contains only the O(at,at as,at^2,at as^2) terms; disabling non-as terms leaves only O(at as^n).",
 "all settings histories","all histories",["source/himalaya/mh2_eft/Mh2EFTCalculator.cpp",HC+":disable_non_as_terms"])
p("C37","Threshold calculator limit selection",
 "The mass limit chosen is a function of the soft masses, restores temporarily changed state, chooses a limit whose defining near-equalities hold, and keeps an explicit user choice documented.",
 "all mass triples","uncountable",["source/himalaya/mh2_eft/ThresholdCalculator.cpp"])
p("C38","Threshold scheme conversion",
 "DR' conversion of thresholds is the series inversion of the MSbar one: multiplying couplings by (1+corrections) and its inverse gives 1 up to the computed order.",
 "all values","uncountable",["source/himalaya/mh2_eft/ThresholdCalculator.cpp:getThresholdCorrection"])
p("C39","The two-loop function phi(x,y,z)",
 "The function phi_xyz of three squared masses does not depend on the order of its arguments, scales linearly with the squared masses and agrees with the integral of Davydychev and Tausk (times z*lambda^2/2) up to a small multiple of the largest squared mass, above and below the threshold sqrt(x)+sqrt(y)=sqrt(z) and in all numerically special branches.",
 "all positive triples of squared masses","uncountable; the reference points of the tests do not reach the regions where the series branches break down",
 ["source/himalaya/mh2_eft/ThresholdLoopFunctions.cpp:phi_xyz","source/himalaya/mh2_eft/ThresholdLoopFunctions.cpp:delta_xyz","source/himalaya/mh2_eft/ThresholdLoopFunctions.cpp:luv"])
p("C40","LibraryLink parameter packing round trip",
 "The Mathematica front end packs a parameter point into a 127-vector and the C++ side unpacks the same point; every slot is used exactly once; wrong lengths are rejected.",
 "all parameter points","all points and slots",[LL+":make_data","source/himalaya/LibraryLink/Himalaya_LibraryLink.m"])
p("C41","Concurrent use of the two-loop routines",
 "With any number of threads calling the two-loop functions in any interleaving of their memory accesses, at most one thread is inside the Fortran routines that use the shared COMMON block, every call returns the value determined by its own arguments, no deadlock arises, every schedule ends and the mutex is free at the end.",
 "all schedules, any number of threads, any lists of calls, any initial contents of the COMMON block","all interleavings",["source/himalaya/mh2l/DSZHiggs.cpp","source/himalaya/mh2l/DSZHiggs.f:makefuncs"])
p("C42","Banner printed at most once",
 "In sequential use the banner is printed at most once per process and only if verbose; with concurrent construction it can be printed more than once (race counterexample).",
 "all construction histories / interleavings","all interleavings",[HC+":HierarchyCalculator"])
p("C43","Scoped state changes are undone",
 "Temporarily_set and the output redirection restore the previous value on every exit path, nested in any way; every line printed by a LibraryLink calculation is sent to the front end exactly once, in order, before the result or the error message, and the call always puts exactly one complete expression on the link.",
 "all nestings and exits","unbounded nesting",["source/himalaya/misc/RAII.hpp",LL+":Redirect_output"])
p("C44","Numeric helpers",
 "pow2..pow20 equal the mathematical powers; is_equal/is_close are symmetric and reflexive on finite numbers; is_equal_rel is unchanged by a common upscaling of numbers above 1 but not by a downscaling below 1 (counterexample); comparisons with NaN are false and infinities are not equal to themselves; the mathematical constants are within half an ulp; the inclusive sum macro equals the finite sum.",
 "all reals, all ranges","uncountable",["source/himalaya/misc/Powers.hpp","source/himalaya/misc/Numerics.hpp","source/himalaya/mh2_fo/Sum.hpp"])
p("C45","Each hierarchy class receives the documented quantities",
 "calculateHierarchy hands every hierarchy class, in the order of its constructor parameters, exactly the quantity the parameter is named after (e.g. Dmglst1 = MG - Mst1, Dmsqst1 = Msq^2 - Mst1^2, lmMst1 = log(mu_R^2/Mst1^2), al4p, Xt, Mt, s2t, ...), for all fourteen classes and every mother hierarchy.",
 "all parameter points, all 14 hierarchies","14 long positional argument lists of doubles, all inputs",[HC+":calculateHierarchy","source/himalaya/hierarchies/*.hpp"])
p("C46","Gaugeless one-loop self-energies are a limit of the full ones",
 "The one-loop Higgs mass matrix in the gaugeless limit equals the full one-loop matrix evaluated at g1 = g2 = 0 and zero momentum, and the derivative matrix used for the momentum iteration is its derivative with respect to p^2 at zero, for every parameter point with nonzero VEVs and any loop functions A0, B0, D1B0.",
 "all parameter points, all symmetric loop functions","the three functions are separate lists of about 200 terms; all inputs",["source/himalaya/mh2_fo/MSSM_mass_eigenstates.cpp:delta_mh2_1loop","source/himalaya/mh2_fo/MSSM_mass_eigenstates.cpp:delta_mh2_1loop_gaugeless","source/himalaya/mh2_fo/MSSM_mass_eigenstates.cpp:delta_mh2_1loop_gaugeless_deriv"])
p("C47","Scale dependence and exchange symmetry of the one-loop Higgs mass",
 "A change of the renormalization scale (A0 -> A0 + d m^2, B0 -> B0 + d) changes the gaugeless one-loop Higgs mass matrix only along the direction of a shift of the CP-odd mass, so the light Higgs mass along the VEV direction is scale independent; exchanging all up-type and down-type quantities exchanges the two diagonal elements.",
 "all parameter points, all scale changes","all inputs",["source/himalaya/mh2_fo/MSSM_mass_eigenstates.cpp:delta_mh2_1loop_gaugeless","source/himalaya/mh2_fo/MSSM_spectrum.cpp"])
p("C48","LibraryLink reply",
 "The reply sent to the front end contains exactly the documented rules once each, with the values the C++ getters return for the chosen loop order; for loop orders up to 2 the three-loop entries are zero, the hierarchy is reported as h3 whatever the parameters, and the bottom switch is ignored.",
 "all parameter points, settings and loop orders","all inputs",[LL+":calculate_results",LL+":put_result"])
DZ="source/himalaya/mh2l/DSZHiggs.cpp"; DF="source/himalaya/mh2l/DSZHiggs.f"
p("C49","Two-loop contributions: entries and heavy Higgs",
 "Each of the five two-loop contributions is a symmetric 2x2 matrix whose entries are the Fortran results S11, S12, S22 in their places; the bottom contribution is the top one with H_u and H_d exchanged; including the heavy Higgs adds exactly the CP-odd shift orthogonal to (cos beta, sin beta). This fails for O(ab atau), where S12 and S22 are exchanged (the C++ prototype has another argument order than the Fortran routine): counterexample.",
 "all argument values, all five contributions","all inputs; the wrong order is accepted by compiler and linker",[DZ+":rotate_by",DZ+":delta_mh2_2loop_*","source/himalaya/mh2l/DSZHiggs.h:taubot_",DF+":taubot"])
p("C50","Two-loop O(at^2) guards against singular points",
 "For positive squared masses the guards of the O(at^2) routine leave no vanishing denominator (all squared masses pairwise separated, both sines nonzero), change squared masses by less than 3e-5 relative and sines by at most 2e-5, and leave regular points with non-negative cosines unchanged. The CP-odd routine called afterwards moves already moved arguments again.",
 "all positive masses and mixing angles","the guards interact: each move can undo a previous one",[DF+":DDSHiggs",DF+":DDSodd",DZ+":delta_mh2_2loop_at_at"])
p("C51","O(at as): symmetry, units, continuity",
 "The O(at as) CP-even and CP-odd corrections do not depend on which stop is called the first, scale with the square of the mass unit, and are continuous in mu and the mixing angle, including the points of vanishing mixing, mu or trilinear coupling where the code switches formulas.",
 "all argument values","uncountable; the special branches are taken only on a null set",[DF+":DSZHiggs",DF+":DSZodd",DF+":strfuncs",DF+":strresfuncs"])
p("C52","O(at as) at equal stop masses is the limit of the general calculation",
 "The two-loop O(at as) (and O(ab as)) correction returned for equal stop masses is the limit of the value returned as the second stop mass approaches the first, for every mixing angle, with and without the heavy-Higgs part. True whenever one of the masses of gluino, stop and top is larger than the sum of the other two; false if the gluino is as heavy as the stops: there the off-diagonal element is off by at least 3/4 log(mg^2/mt^2) times the overall factor (proved for all such points), because the closed formulas replace the square root of a negative number by that of its modulus.",
 "all positive masses, mixing angles, scales, mu, tan(beta), couplings","a limit at every point: the general formulas are 0/0 there and lose all digits near it",[DZ+":delta_mh2_2loop_at_as_st_0_mst1_eq_mst2",DZ+":delta_ma2_2loop_at_as_mst1_eq_mst2",DZ+":phi,dphi_010",DF+":DSZHiggs",DF+":DSZodd"])
p("C54","Fixed-order correction switches",
 "Each coupling-order switch of the fixed-order calculator adds or removes exactly the two-loop matrix of its own order, inert switches change nothing, only the last setting of a switch counts, the constructor's flags follow the fermion masses and only_at; only_at still keeps the bottom Yukawa coupling in the one-loop part.",
 "all parameter points, all histories of set_correction","all histories and points",["source/himalaya/mh2_fo/MSSM_mass_eigenstates.cpp:set_correction,delta_mh2_2loop,MSSM_mass_eigenstates"])
p("C53","The O(at^2) correction uses the stop mixing of the mass matrix",
 "For every stop mass matrix, the mixing X_t which the O(at^2) routine works with is the one of the mass matrix. True if the LL entry is smaller than the RR entry or X_t < 0; if LL > RR and X_t > 0 the routine works with -X_t, because it recomputes the cosine of the angle as a positive root: proved for every such matrix.",
 "all non-tachyonic stop mass matrices","all inputs; symmetric test points do not show it",[DF+":DDSHiggs","source/himalaya/Himalaya_interface.cpp:calculate_MSf_s2f","source/himalaya/mh2_fo/MSSM_mass_eigenstates.cpp:delta_mh2_2loop"])
p("C55","Reported DR'->MSbar shifts of the quartic coupling",
 "getDLambda(n) + getDLambdaDRbarPrimeToMSbarShift(n) is the n-loop MSbar threshold correction times its prefactor: true at one loop and (up to the documented truncation in X_t) at three loops; the reported two-loop shift multiplies the one-loop correction by its prefactor twice, so the sum is wrong whenever the one-loop correction and the top-Yukawa shift do not vanish: proved for every such point, with a complete run as witness.",
 "all parameter points on which the calculation returns","all inputs; the returned value is not otherwise checked",[HC+":calculateDMh3L","source/himalaya/mh2_eft/ThresholdCalculator.cpp:getDRbarPrimeToMSbarShift"])
p("C56","Special mass cases are the limits of the general formula",
 "The threshold corrections y_t(as), lambda(at), lambda(at as) computed in the special cases of equal stop soft masses, gluino equal to the left or right stop soft mass, and all three equal are the limits of the general-case value as the masses approach the special point, in every renormalization scheme and logarithm setting. (The general formulas have poles up to sixth order in the mass differences which cancel.)",
 "all parameter points with positive squared masses, all schemes, all log settings","a limit at every point; the general formula is 0/0 there, and floating-point tests near it lose all digits",["source/himalaya/mh2_eft/ThresholdCalculator.cpp:getDeltaYtAlphas,getDeltaLambdaAlphat,getDeltaLambdaAlphatAlphas,getThresholdCorrection"])
p("C57","Truncation in X_t of the DR'->MSbar shift at three loops",
 "The difference between the MSbar and the DR' value of the O(at as^2) threshold correction is, for every mass case, a polynomial in X_t of degree at most 6, and for k = 4, 5, 6 the function which returns the term of order X_t^k of the shift returns exactly (minus) that term. Hence the shift keeps all orders up to X_t^3 (xtOrder <= 3) or X_t^4 (xtOrder > 3) and of the higher orders at most logarithms of the scale; the documented meaning (everything up to xtOrder) fails for xtOrder >= 5: counterexample.",
 "all parameter points with positive masses, all six mass cases, all log settings, all X_t, all xtOrder","the terms are about 1500 lines of separately generated rational functions with logarithms and dilogarithms; a wrong coefficient changes a number by an amount no test has a reference for",["source/himalaya/mh2_eft/ThresholdCalculator.cpp:getDRbarPrimeToMSbarShift,getDRbarPrimeToMSbarXtTerms,getDeltaYtAlphas2,getDeltaLambdaAlphatAlphas2,getThresholdCorrection"])
p("C58","Scale independence of the EFT Higgs mass at order at as",
 "If the parameters follow the one-loop MSSM renormalization group equations (QCD part), the sum of the one-loop O(at) and two-loop O(at as) corrections of the EFT calculator changes with the renormalization scale only at order g3^4, i.e. at three loops: the derivative with respect to ln Q^2 is g3^4 times a quantity independent of g3, in each of the six mass cases of the threshold formulas.",
 "all parameter points with positive squared masses, all families of points obeying the RGEs, all mass cases","uncountable; a wrong coefficient of a logarithm among hundreds of terms shows only as a residual scale dependence",["source/himalaya/mh2_eft/Mh2EFTCalculator.cpp:getDeltaMh2EFT1Loop,getDeltaMh2EFT2Loop","source/himalaya/mh2_eft/ThresholdCalculator.cpp:getDeltaYtAlphas,getDeltaLambdaAlphat,getDeltaLambdaAlphatAlphas"])
p("C59","Complex dilogarithm, C++ and Fortran",
 "In exact arithmetic the complex dilogarithm of the library and the one of its Fortran part return the principal branch -Int_0^1 log(1-tz)/t dt, to within 2.8e-16 and 2.3e-16 in modulus, for every complex argument off the cut (1,oo), on the cut the value of the branch continuous from below; the real Fortran routine is accurate to 6e-17 on the whole real line; the two implementations agree.",
 "all complex and all real arguments","uncountable; tests sample points, and the error of a truncated series is largest on a curve",["source/himalaya/misc/Li2.cpp:dilog,horner,log1p","source/himalaya/mh2l/Li2.f90:dli2,cdli2,fast_cdlog,li2c","source/himalaya/mh2l/Li2f.cpp:li2"])
p("C60","Two-loop vacuum function used by the two-loop corrections",
 "The function of three squared masses which the Fortran two-loop corrections use is the Davydychev-Tausk integral, whichever mass is the largest, above and between the thresholds, up to 1.01e-15 z/sqrt|Delta|, and does not depend on the unit of mass. If a squared mass is at most 1e-8 of the largest the leading-order formula is used, with a relative error of at most 3e-8 besides that of the dilogarithm. Exactly at threshold (one mass is the sum of the other two, no mass ratio below 1e-4) the function divides by zero although the integral exists.",
 "all triples of positive squared masses","uncountable; the two closed forms and the permutations cannot be compared by tests near threshold",[DF+":phi,myphi,pLi2,CLI2","source/himalaya/mh2l/Li2.f90:cdli2"])
p("C61","Scale independence of the full one-loop EFT Higgs mass",
 "If the gauge couplings and vacuum expectation values follow the one-loop MSSM renormalization group equations (Feynman gauge), the change of the tree-level Higgs mass with the renormalization scale is exactly the opposite of the explicit scale dependence of the one-loop correction of the EFT calculator with all coupling orders switched on (g1, g2, y_t, y_b, y_tau).",
 "all parameter points with nonvanishing masses, all families of points obeying the RGEs, all mass limits","uncountable; a wrong coefficient of one of about a hundred logarithms shows only as a residual scale dependence",["source/himalaya/mh2_eft/Mh2EFTCalculator.cpp:getDeltaMh2EFT0Loop,getDeltaMh2EFT1Loop","source/himalaya/mh2_eft/ThresholdCalculator.cpp:getDeltaLambdaG14,getDeltaLambdaG24,getDeltaLambdaG12G22,getDeltaLambdaChi*,getDeltaLambdaYb2G12,getDeltaLambdaYt2G22,getDeltaLambdaYtau4,getDeltaG1G1,getDeltaG2G2"])
p("C62","Scale independence of the EFT Higgs mass at order at^2",
 "If the parameters follow the one-loop MSSM renormalization group equations with only the top Yukawa coupling, the change of the one-loop O(at) correction with the renormalization scale is exactly the opposite of the explicit scale dependence of the two-loop O(at^2) correction of the EFT calculator. Proved for the formula of the threshold correction evaluated at the masses of the parameter point; the code evaluates it at mQ3^2*1.02, mU3^2*0.98, mu*sqrt(1.03), so that the sum depends on the scale: exact expression of the residual for every point in the general branch, and a point where it does not vanish.",
 "all parameter points with pairwise different masses, all families of points obeying the RGEs","uncountable; the formula has about 360 lines, and a wrong coefficient of a logarithm shows only as a residual scale dependence",["source/himalaya/mh2_eft/Mh2EFTCalculator.cpp:getDeltaMh2EFT1Loop,getDeltaMh2EFT2Loop","source/himalaya/mh2_eft/ThresholdCalculator.cpp:getDeltaLambdaYt6,getDeltaYtYt,getDeltaVevYt2,getDeltaLambdaAlphat"])
p("C63","Switching off the logarithms removes the renormalization scale",
 "With omitLogs = 0 no threshold correction and no DR'->MSbar shift, and with omitSMLogs = omitMSSMLogs = 0 no EFT correction depends on the renormalization scale, for every scheme, mass case and choice of coupling orders. True for the one- and three-loop corrections, for all threshold corrections (all 21 are modelled) except six, and for the two-loop correction if these orders are switched off or their masses are not close to each other. False, at every parameter point in the respective branch: yt^6, yb^6, yt^2 yb^4, yt^4 yb^2 in the general branch (log(mA^2/Q^2) is not multiplied by the switch), ytau^6 for nearly equal staus and g3^2 yb^4 for nearly equal sbottoms (log(m^2/Q^2) is not multiplied).",
 "all parameter points, scales, schemes, mass limits, coupling orders","all inputs; the documentation promises a function that does not depend on an argument",["source/himalaya/mh2_eft/Mh2EFTCalculator.cpp:getDeltaMh2EFT1Loop,getDeltaMh2EFT2Loop,getDeltaMh2EFT3Loop","source/himalaya/mh2_eft/ThresholdCalculator.cpp:getThresholdCorrection,getDRbarPrimeToMSbarShift,getDeltaLambdaYt6"])
p("C64","NaN in a two-loop threshold correction is not reported",
 "If the O(at^2) threshold correction is NaN, the two-loop EFT correction is returned without error and equals the one with the order yt^6 switched off, whatever the other corrections and switches are. This is reachable: the threshold correction is NaN at every parameter point with 51 mQ3^2 = 49 mU3^2, X_t = 0 and MA^2 >= 2 mQ3^2, although all masses are finite and positive.",
 "all calculators, switches, parameter points on the pole","a surface in parameter space which a test hits only if it is known",["source/himalaya/mh2_eft/Mh2EFTCalculator.cpp:discardNaN,getDeltaMh2EFT2Loop","source/himalaya/mh2_eft/ThresholdCalculator.cpp:getDeltaLambdaYt6"])
HI="source/himalaya/hierarchies/"
HC="source/himalaya/HierarchyCalculator.cpp"
p("C65","Units of mass of the three-loop self energies",
 "If all masses, soft parameters and the renormalization scale are given in other units (multiplied by l > 0), the self energies which the class of the chosen hierarchy returns are multiplied by l^4, for every loop order, truncation and scheme. True for ten hierarchies; false for h6b, h6b2qg2, h6bq22g, h6bq2g2: calculateHierarchy passes the difference of the masses Msq - Mst2 for a parameter whose powers are those of a difference of squared masses, with an explicit point in each of the four.",
 "all parameter points with nonvanishing masses, all units, flags and loop orders","uncountable; the formulas have up to several thousand lines each, and one wrong power of a mass changes the result by a factor only at other scales",[HI+"*.cpp:getS1,getS2,getS12",HC+":calculateHierarchy"])
p("C66","Loop orders of the three-loop self energies",
 "In all fourteen hierarchies each self energy is the sum of a one-loop part without g3, a two-loop part proportional to g3^2 and a three-loop part proportional to g3^4; each loop flag switches exactly its own part. Changing the signs of the fermion mass and of sin(2 theta) together changes nothing.",
 "all values of the members with nonvanishing masses, all (also non-integer) flags","uncountable; a term with a wrong power of the coupling is invisible at one value of g3",[HI+"*.cpp:getS1,getS2,getS12",HC+":calculateHierarchy"])
p("C67","The correction to the SM-like Higgs mass does not depend on mu at fixed stop masses and mixing",
 "The element of the correction in the direction (cos beta, sin beta) depends on mu only through X_t: at fixed stop masses and mixing angle it does not depend on mu. True at one, two and three loops in h3, h32q2g, h3q22g (not truncated in Mst1^2-Mst2^2), h9, h9q2, and at one and two loops in h6*, h6b* without the highest order. False (explicit points) in h3, h32q2g, h3q22g at one loop if xDmst12 = 0, in h5, h5g1 at one loop, in h6 at two loops and in h6bq22g at three loops.",
 "all parameter points with nonvanishing masses, all mu","uncountable; the cancellation involves all three self energies of several hundred terms each",[HI+"*.cpp:getS1,getS2,getS12",HC+":calculateHierarchy"])
p("C68","Couplings of the first Higgs doublet",
 "The first Higgs doublet couples to stops only through mu: at fixed masses and mixing angle the (1,1) element of the correction is proportional to mu^2 and the (1,2) element vanishes with mu. True in h3, h32q2g, h3q22g, h5, h5g1, h9, h9q2; false (explicit points) in h6 at two loops and in h6b at three loops.",
 "all values of the members with nonvanishing masses, all mu","uncountable",[HI+"*.cpp:getS1,getS12"])
p("C69","Three-loop correction to the quartic coupling",
 "In h3, h32q2g, h3q22g, h9, h9q2 the three-loop correction to the quartic Higgs coupling stored in the result (getDLambdaH3m) is the three-loop correction to the squared mass of the SM-like Higgs boson of the same hierarchy without logarithms of the top mass in units of sin^2(beta) Mt^4/12, at every scale and mu, up to 4e-14 |log(scale^2/Mst1^2)|^3 from rounding the coefficient 896/3; the stored non-logarithmic part is its value at vanishing logarithm.",
 "all parameter points with nonvanishing masses, all scales","uncountable; the two are computed from separate generated formulas",[HI+"*.cpp:calc_coef_at_as2_no_sm_logs_log0,calc_coef_at_as2_no_sm_logs_log1,calc_coef_at_as2_no_sm_logs_log2,calc_coef_at_as2_no_sm_logs_log3,getS2",HC+":calculateHierarchy,calcDlambda"])
p("C70","Truncation flags switch exactly the highest order",
 "Each truncation flag of a hierarchy class multiplies exactly the terms with the highest power of its expansion parameter, so that with the flag off no term of that or a higher order is left (the expansion uncertainty is computed from this). Proved flag by flag; false (explicit points) for xDmst12 in the (1,2) elements of h3, h32q2g, h3q22g (ignored), xDmsqst2 in the (1,2) element of h6b (higher orders left), xMst in the (2,2) element of h6b2qg2 (switches other powers) and xMgl in h9 (higher orders left).",
 "all values of the members with nonvanishing masses","uncountable; a misplaced factor in a formula of thousands of terms is invisible as long as the flag is 1",[HI+"*.cpp:getS1,getS2,getS12",HC+":getExpansionUncertainty"])
p("C71","The correction of a coupling order depends only on the parameters of its particles",
 "If only one order of couplings is switched on, the two-loop EFT correction depends only on the parameters which enter diagrams of that order: the soft masses and trilinear coupling of the other (s)fermions and gauginos can be changed arbitrarily. True, in all mass limits, for g3^2 yt^4, g3^2 yb^4, yt^6, yb^6, ytau^6, yt^2 yb^4, yt^4 yb^2, ytau^2 yb^4; false for ytau^4 yb^2: the shift of the tau Yukawa coupling of order yb^2 uses X_t and mU3 instead of X_b and mD3, so that the correction depends on A_t and mU3 (explicit points). It depends on nothing else.",
 "all parameter points, switches, all changes of the irrelevant parameters","uncountable; unit tests compare at a few benchmark points in which all sfermions are degenerate",["source/himalaya/mh2_eft/Mh2EFTCalculator.cpp:getDeltaMh2EFT2Loop","source/himalaya/mh2_eft/ThresholdCalculator.cpp:getDeltaYtauYb,getDeltaLambdaYb4G32,getDeltaLambdaYb6,getDeltaLambdaYtau6,getDeltaLambdaYt2Yb4,getDeltaLambdaYt4Yb2,getDeltaLambdaYtau4Yb2,getDeltaLambdaYtau2Yb4"])
p("C72","Equal soft masses: coupling orders are dropped silently",
 "A coupling order which is switched on contributes to the two-loop EFT correction. False at every parameter point with finite positive masses, mQ3 = mD3 and mu not within 1% of mQ3 (in particular every negative mu): the threshold corrections of the orders yb^6, yt^2 yb^4 and yt^4 yb^2 are NaN, no error is reported, and the result equals the one with these orders switched off. With mQ3 = mU3 the corrections of the last two orders are NaN. If mU3, mD3, MA and mu all lie within 1% of mQ3 the three corrections are finite.",
 "all parameter points with equal soft masses, all calculators and switches","a surface in parameter space; popular benchmark points with a common soft mass lie on it, but the result is a finite number",["source/himalaya/mh2_eft/ThresholdCalculator.cpp:getDeltaLambdaYb6,getDeltaLambdaYt2Yb4,getDeltaLambdaYt4Yb2","source/himalaya/mh2_eft/Mh2EFTCalculator.cpp:discardNaN,getDeltaMh2EFT2Loop"])
p("C73","The EFT calculation does not depend on the units of mass",
 "If all dimensionful parameters (masses, trilinear couplings, vacuum expectation values, renormalization scale) are given in other units of mass, the tree-level, one-loop, two-loop and three-loop EFT corrections to the squared Higgs mass change by the square of the conversion factor, the threshold corrections do not change and the same limit of equal masses is chosen. Proved for all threshold corrections and orders of couplings except: the orders yt^6, yb^6, yt^2 yb^4, yt^4 yb^2 use a two-loop function of the dimension of a squared mass where a dimensionless one is needed, so that the correction of order yt^6 (switched on by default) depends on the units (explicit points; its dependence is given exactly); with a dimensionless function it would not. Without logarithms the correction of order yb^4 g3^2 depends on the units.",
 "all parameter points, conversion factors, switches, schemes","uncountable; test points are all given in GeV",["source/himalaya/mh2_eft/ThresholdCalculator.cpp:getThresholdCorrection,phixyz,getDeltaLambdaYt6,getDeltaLambdaYb4G32","source/himalaya/mh2_eft/ThresholdLoopFunctions.cpp:phi_xyz","source/himalaya/mh2_eft/Mh2EFTCalculator.cpp:getDeltaMh2EFT0Loop,getDeltaMh2EFT1Loop,getDeltaMh2EFT2Loop,getDeltaMh2EFT3Loop"])
p("C74","Only relative signs of the supersymmetric parameters matter",
 "A common change of the signs of mu, the trilinear couplings and the bino and wino masses is a redefinition of fields and changes no result. True for all threshold corrections without gluinos (the sign of the gluino mass is fixed by validate) except four two-loop orders, hence for the tree-level and one-loop EFT corrections and the two-loop correction of the remaining orders. The orders yb^6 and ytau^6 are symmetric outside their limits of equal masses; the limit of equal stau masses is not symmetric (explicit point). The orders yt^2 yb^4 and yt^4 yb^2 contain |mu| times odd powers of X_t and X_b and are not symmetric (explicit points).",
 "all parameter points, schemes, switches","uncountable; unit tests never compare a point with its mirror image",["source/himalaya/mh2_eft/ThresholdCalculator.cpp:getThresholdCorrection,getDeltaLambdaYtau6,getDeltaLambdaYt2Yb4,getDeltaLambdaYt4Yb2,getDeltaLambdaYb6","source/himalaya/mh2_eft/Mh2EFTCalculator.cpp:getDeltaMh2EFT1Loop,getDeltaMh2EFT2Loop"])
p("C75","The corrections of top, bottom and tau follow from their quantum numbers",
 "The one-loop threshold corrections of stops, sbottoms and staus are one function of the soft masses, the mixing parameter and the quantum numbers (colours, hypercharges, isospin, Higgs doublet). True for the corrections of the quartic coupling of the orders y^2 g1^2, y^2 g2^2 and y^4, of the vacuum expectation value, for the gluino correction of the top and bottom Yukawa couplings, and for the corrections of the top and tau Yukawa couplings by themselves. False for the correction of the bottom Yukawa coupling by itself (the contribution of X_b has an additional factor 1/sin^2 beta) and for the corrections of the top and bottom Yukawa couplings by each other, which do not go over into each other if up- and down-type parameters are exchanged; the differences are given exactly, with explicit points.",
 "all parameter points with positive squared soft masses (top: outside the limits of equal masses), schemes, omitLogs","uncountable; unit tests compare single formulas at single points and cannot relate the formulas of different fermions",["source/himalaya/mh2_eft/ThresholdCalculator.cpp:getDeltaLambdaYb2G12,getDeltaLambdaYt2G12,getDeltaLambdaYtau2G12,getDeltaLambdaYb2G22,getDeltaLambdaYt2G22,getDeltaLambdaYtau2G22,getDeltaLambdaYb4,getDeltaLambdaYtau4,getDeltaLambdaAlphat,getDeltaVevYt2,getDeltaVevYb2,getDeltaVevYtau2,getDeltaYtAlphas,getDeltaYbAs,getDeltaYtYt,getDeltaYbYb,getDeltaYtauYtau,getDeltaYtYb,getDeltaYbYt"])
p("C76","All superpartners enter with their gauge charges",
 "The threshold corrections of the three gauge couplings are sums of logarithms of the masses of the superpartners and heavy Higgs bosons, weighted with their contributions to the beta functions (squared hypercharge, Dynkin index, factor two for Weyl fermions). The sfermions enter the corrections of the quartic coupling of the orders g1^4 and g2^4 through the same sums, with the coefficients that follow from the tree-level coupling; the rest depends only on tan beta, MA and the scale. Permuting the generations, separately for each of the five sfermion multiplets, changes none of these corrections.",
 "all parameter points, schemes, omitLogs, permutations of generations","uncountable; unit tests use equal masses of the generations, which cannot reveal a missing or doubled generation compensated elsewhere",["source/himalaya/mh2_eft/ThresholdCalculator.cpp:getDeltaG1G1,getDeltaG2G2,getDeltaG3Alphas,getDeltaLambdaG14,getDeltaLambdaG24,getDeltaLambdaG12G22,getDeltaLambdaRegG14,getDeltaLambdaRegG24,getDeltaLambdaChiG14,getDeltaLambdaChiG24,getDeltaLambdaChiG12G22"])
p("C77","The fixed-order calculation does not depend on the units of mass",
 "If all dimensionful parameters are given in other units of mass, calculateDMh3L selects the same hierarchy, throws the same exceptions, and every reported number changes by the power of the conversion factor of its dimension (mass matrices by its square, masses and uncertainties of masses linearly, couplings and mixing angles not at all): proved for the whole selection, the renormalization-scheme shifts, the tree-level and one-loop matrices and the bookkeeping, provided that the two-loop code, the hierarchy classes and the EFT code do not depend on the units. validate, which completes the parameter point, commutes with a change of units except at points where its absolute tolerance of 1e-8 for equal stop masses matters (explicit point).",
 "all parameter points with nonvanishing quark and squark masses, conversion factors, hierarchies, real arithmetic","uncountable; all test points are given in GeV, so that an absolute number in a formula or in a comparison cannot be noticed",["source/himalaya/HierarchyCalculator.cpp:calculateDMh3L,compareHierarchies,isHierarchySuitable,calculateHierarchy,shiftMst1ToMDR,shiftMst2ToMDR,shiftH3mToDRbarPrime,shiftH3mToDRbarPrimeMh2,getExpansionUncertainty,calcDeltaLambda3L","source/himalaya/Himalaya_interface.cpp:validate"])
p("C78","The one- and two-loop fixed-order calculation does not depend on the units of mass",
 "If all dimensionful parameters are given in other units of mass, the tree-level spectrum (mass matrices, masses, mixing matrices), the one-loop corrections to the mass matrix of the CP-even Higgs bosons at any momentum, the corrections without gauge couplings, their derivatives, the two-loop corrections of the orders at as, ab as, ab atau and the squared mass of the light Higgs boson at tree-level, one loop and two loops change by the power of the conversion factor of their dimension. This needs loop integrals which do not depend on the units: true for B0, false for A0 and the derivative of B0 because they compare squared masses with the absolute number 1e-15 (explicit points). The constructor (1e-10 for massless fermions) and the correction of order at as for equal squark masses (2^-52 for a vanishing trilinear coupling) contain further absolute numbers.",
 "all parameter points, conversion factors, momenta, both ways of diagonalization, real arithmetic","uncountable; all test points are given in GeV, so that a wrong power of a mass in one of hundreds of terms is only visible as a wrong number",["source/himalaya/mh2_fo/PV.cpp:a0,b0,b0xx,d1_b0","source/himalaya/mh2_fo/MSSM_mass_eigenstates.cpp:delta_mh2_1loop,delta_mh2_1loop_gaugeless,delta_mh2_1loop_gaugeless_deriv,delta_mh2_2loop,calculate_Mh2","source/himalaya/mh2_fo/MSSM_spectrum.cpp:calculate_spectrum,get_mass_matrix_hh","source/himalaya/mh2_fo/Linalg.hpp:fs_diagonalize_hermitian","source/himalaya/mh2l/DSZHiggs.cpp:delta_mh2_2loop_at_as,delta_mh2_2loop_ab_as,delta_mh2_2loop_ab_atau,delta_mh2_2loop_at_at","source/himalaya/mh2l/DSZHiggs.f:DSZHiggs,DSZodd,taubot,taubotodd,DDSHiggs"])
with open('/verif/properties.jsonl','w') as f:
    for x in P: f.write(json.dumps(x)+"\n")
