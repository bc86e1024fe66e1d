# Formal model of Himalaya in Lean 4

## 1. Conventions

* `/verif/lean/Verif/<Area>/Model*.lean` – definitions, each with a comment citing file and lines of /repo.
* `/verif/lean/Verif/<Area>/Spec.lean` (where needed) – the specification vocabulary of a property, independent of the model's helpers.
* `/verif/lean/Verif/<Area>/Lemmas.lean` – helper lemmas.
* `/verif/lean/Verif/<Area>/Props.lean` – the property theorems (`Cnn_...`), with an `example` beside each showing that a
  concrete case meets the hypotheses.

### Numbers

Three levels, stated for each theorem:

1. **any scalar type** (`F` with unconstrained operations): the theorem uses no law of arithmetic, so it holds for IEEE binary64 too.
2. **`Dbl`** = NaN | +inf | -inf | real number, with IEEE comparison and special-value rules but exact arithmetic
   (rounding, overflow, signed zeros are *not* modelled). Used when NaN/inf decide the control flow.
3. **ℝ** exact arithmetic, for analytic identities. Rounding is not modelled.

C++ exceptions are `Except String`, or, when state survives the throw, an outcome that carries the state
(`state × Except String α`). Undefined or unspecified behaviour (evaluation order) is modelled as nondeterminism, where it occurs.

### External code (parameters of the model, with the assumed contract written out as hypotheses)

* Eigen decompositions (`SelfAdjointEigenSolver`, `EigenSolver`, `JacobiSVD`);
* the Fortran routines of P. Slavich (`dszhiggs_`, `dszodd_`, `ddshiggs_`, `ddsodd_`, `tausqhiggs_`, ...);
* the self energies returned by the fourteen hierarchy classes (modelled in `Hier`; opaque functions of all their arguments where only the
  surrounding control flow matters).

## 2. Trusted base

Lean 4.33.0 kernel; Mathlib; axioms `propext`, `Classical.choice`, `Quot.sound` only (checked with `#print axioms`; no
others are added). The faithfulness of the hand-written model to the C++ source is by inspection (line citations).

## 3. Plan per property

| id | model | proof |
|----|-------|-------|
| C01-C06 | `HierarchyObject` record + operation language | induction over histories; refinement to "last successful write" |
| C07,C20 | mother map, dispatch tables over `Int` | case analysis on all integers |
| C08,C09 | selection loop with state, generic error functions into `Dbl` | loop invariant |
| C10,C11 | suitability predicate over `Dbl` / ℝ | order reasoning, linear arithmetic |
| C12-C17 | `validate` over `Dbl`, sfermion diagonalisation over ℝ | case analysis, trigonometry |
| C18,C19,C21-C26 | calculator as state+exception monad with opaque self energies | state-restoration lemma for RAII, monadic reasoning |
| C27 | flag table of hierarchy constructors | table comparison, counterexample |
| C28 | Linalg.cpp perturbative formula | polynomial identities |
| C29,C30 | tree-level matrices | field identities, inequalities |
| C31 | PV.cpp a0, b0, b0xx, fB, d1_b0, every branch, exact arithmetic, complex square root and logarithm are principal values (`PV/Model`) | specification = Feynman parameter integral (`feynB0`, with log of the absolute value above threshold); fB of a root z is ∫log|t-z| (`PV/FB`), so the complex branch is ∫log|D-iη| (`PV/General`); the effect of the regulator η by a bound on ∫log(1+k/(t-a)²) (`PV/Reg`, `PV/Pert`); equal masses by explicit antiderivatives and by polynomial identities in the smaller root for the large-momentum series (`PV/Equal`, `PV/Large`); counterexamples: massless branch divides by p² instead of m² (`C31_b0_massless`), asymmetric d1_b0. Not covered: rounding |
| C32 | ThresholdLoopFunctions.cpp F1-F9, f1-f8 (`TLF/Model`, mechanical transcription, every branch) | specification = closed formulas and Feynman-parameter integrals (`TLF/Spec`); expansion of the integrand with explicit remainder, moments of the integral in closed form, so each Taylor branch is compared with the exact function; counterexamples in binary64 with NaN |
| C39 | `delta_xyz`, `phi_xyz` and all its helpers, ThresholdLoopFunctions.cpp:1235-1404, over ℝ (`TLF/Phi`); dilog and clausen_2 are the models of C33, C34 | specification = Davydychev–Tausk integral (`TLF/PhiSpec`), its closed forms for λ²>0 (dilogarithms) and λ²<0 (triangle angles, Clausen) are derived from the integral; symmetry, homogeneity, explicit error bounds for every branch; two counterexamples (series used at threshold; absolute instead of relative equality test) |
| C33 | Li2.cpp real dilog and complex Horner scheme, exact arithmetic, decimal literals | specification = textbook integral; functional equations by zero-derivative arguments (Spec); uniform error by a verified integer polynomial checker evaluated in the kernel (PolyCheck, Pade). Complex routine: C59. Not covered: rounding |
| C60 | `phi`, `myphi`, `pLi2`, `CLI2`, DSZHiggs.f:5160-5287 (`TwoLoop/PhiF`), exact arithmetic, `none` = division by zero | specification `dtPhi` (the integral of C39 with the largest mass as unit); above threshold by the closed form of C39/C52, between the thresholds by the Bloch–Wigner identity Im Li₂(re^{iα}) = Clausen functions of the triangle angles (`Li2/BW`), proved by a zero-derivative argument in the second angle; error from C59. Small ratios (`TwoLoop/PhiFSmall`): the integral is symmetric (inversion of the integration variable), its denominator differs by a relative amount of at most the small ratio from a linear function, and the integral with the linear denominator is the formula of the code (Landen) |
| C59 | misc/Li2.cpp complex `dilog`, `log1p`, `horner` (`Li2/Model`); mh2l/Li2.f90 and Li2f.cpp (`Li2/FModel`), exact arithmetic | specification `CLi2` = integral with the principal logarithm (`Li2/CSpec`), its derivative, reflection and inversion by zero-derivative arguments on star-shaped domains; truncation error of the Bernoulli series by comparing (e^w-1)/w times the derivative of the polynomial with 1, coefficient lists over ℚ evaluated in the kernel (`Li2/CSeries`), then a norm-derivative bound along the ray (`Li2/CErr`); case analysis of the reductions (`Li2/CProps`, `Li2/FProps`) |
| C34 | clausen_2 | reduction, symmetry, error bound by the same method |
| C35 | momentum iteration | well-founded loop with fuel |
| C36 | flag arrays | histories |
| C37,C38 | ThresholdCalculator control flow | case analysis; series identities |
| C40 | encoder/decoder | list round trip |
| C41,C42 | transition systems | invariants over all schedules, counterexample trace |
| C43 | RAII combinator | induction over nesting |
| C44 | Powers/Numerics/Sum | algebra, induction |

| C45 | constructor argument lists of the 14 hierarchy classes (`Hier`) | table of names against table of formulas |
| C46, C47 | `FO/OneLoop.lean`, transcribed by `tools/gen_oneloop.py` from MSSM_mass_eigenstates.cpp; A0, B0, D1B0 arbitrary | algebraic identities over all parameter points |
| C48 | LibraryLink reply | case analysis |
| C49 | C++ wrappers of mh2l/DSZHiggs.cpp; order of the output arguments of the Fortran routines | algebra; counterexample for O(ab atau) |
| C50 | argument guards of DDSHiggs/DDSodd | linear arithmetic through the chain of assignments |
| C51 | DSZHiggs, DSZodd (`OS = 0`) with the two-loop function `phi` as a parameter | ring identities; polynomial normal form covering all branches |
| C54 | `set_correction` histories of the fixed-order calculator, `delta_mh2_2loop` as a sum over orders | induction over histories; case analysis of flags |
| C55 | calculateDMh3L composed with the ThresholdCalculator model (`EFT/Shift2`) | algebra; complete run of the model as witness |
| C56 | formulas of ThresholdCalculator.cpp (`EFT/Formulas`, generated from the C++ text by tools/gen_*.py), exact Li2 | cancellation of poles of order up to 6: each formula is written as polynomial + Taylor remainder quotients, whose limits are derivatives of log and Li2; identities by `ring` |
| C58 | the EFT corrections along a curve of parameter points | specification = textbook RGEs; Fréchet derivatives of the formulas; polynomial identities in L, Xt, masses |
| C61 | the electroweak and Yukawa threshold corrections ThresholdCalculator.cpp:418-910 (`EFT/Other`), one-loop EFT correction | specification `OneLoopRunning` = textbook RGEs of g1, g2, vu, vd; every correction is affine in ln Q² with an explicit coefficient; rational identity in the couplings |
| C62 | `getDeltaLambdaYt6(_SUSYHD)` ThresholdCalculator.cpp:1334-1771 (`EFT/Yt6`), O(at), O(at^2) EFT corrections | specification `TopRunning` = textbook RGEs with only y_t; the formula is a quadratic polynomial in ln Q² whose coefficients are rational functions; the three identities for them are decided by the kernel with a verified normaliser (`EFT/Yt6Check`); residual for the shifted masses of the code and a witness that it is not zero |
| C63 | all threshold corrections (`EFT/Yuk`), shift, one- to three-loop EFT corrections (`EFT/OmitLogs`, `OmitLogs2`, `OmitLogs3`) | unfolding; for the violating orders the second difference in ln Q² of the formula is a nonzero constant |
| C64 | `getDeltaLambdaYt6`, `getDeltaMh2EFT2Loop` over `Dbl` (`EFT/Yt6Pole`) | 0/0 propagates to the result; `discardNaN` replaces it by 0 |
| C57 | getDeltaYtAlphas2, getDRbarPrimeToMSbarXtTerms, getDeltaLambdaAlphatAlphas2 (`EFT/Formulas2`, `EFT/Model2`) | the formulas, instantiated with syntax trees (definitionally equal to the real-valued ones), are checked by a decision procedure for identities of rational functions (`Kron`: evaluation at powers of two, proved sound), run by the kernel with `decide +kernel` |
| C52 | `phi`, `dphi_010`, both equal-mass formulas (C++) and the Fortran routines with the Davydychev–Tausk function (integral) as `phi` | the function obeys a first-order differential equation on both sides of the threshold (from its closed forms); general routine rewritten in difference quotients, limits taken; closed formulas reduced to the roots `P`, `M` and compared by field arithmetic; failure for `mst = mg` with a quantitative lower bound |
| C53 | guards composed with calculate_MSf_s2f | theorem for every mass matrix |
| C65 | all formulas of the 14 classes, constructor arguments (`Hier/<Class>`, `Ctor`, `UnitsBase`) | each formula is normalised to a Laurent polynomial by a verified checker (`Kron/Laurent`), the weight of every monomial is 4; rational points evaluated in the kernel for the violations |
| C66 | same | exponents of loop flags and coupling in every monomial |
| C67 | same, projection on (cos β, sin β) (`Hier/Proj`) | no monomial of the projected formula contains μ; kernel-evaluated points for the violations |
| C68 | same | exponent of μ in every monomial |
| C69 | `calc_coef_at_as2_no_sm_logs_log*`, `calcDlambda` (`Hier/Coef`) | difference normalises to the zero polynomial (logarithms of ratios as variables) |
| C70 | same as C65 (`Hier/<Class>P`) | pairs of exponents of flag and expansion parameter; finite differences at kernel-evaluated points for the violations |
| C71 | all two-loop threshold corrections (`EFT/Yuk`, generated from the source by `tools/gen_yuk.py`), `getDeltaMh2EFT2Loop` with one order switched on (`EFT/Dep`) | each order factors through the record of its relevant parameters (`rfl`); violation by an explicit point |
| C72 | `getDeltaLambdaYb6`, `getDeltaLambdaYt2Yb4`, `getDeltaLambdaYt4Yb2`, `getDeltaMh2EFT2Loop` over `Dbl` (`EFT/Pole2`) | a vanishing logarithm times a non-finite quotient is NaN and propagates through the sum; `discardNaN` replaces it by 0; finite arithmetic in the limit formulas |
| C73 | all threshold corrections, `getDeltaMh2EFT{0,1,2,3}Loop`, the choice of the limit, `phi_xyz` under a change of the units of mass (`Kron/Weight`, `EFT/UnitsF`, `EFT/Units`, `EFT/UnitsApi`) | a checker proved sound computes the dimension of each generated formula; the branch conditions are homogeneous; explicit points for the violations (`phi_xyz` has dimension mass^2, absolute logarithms) |
| C74 | all threshold corrections and `getDeltaMh2EFT{0,1,2}Loop` under a common change of the signs of `μ`, trilinear couplings, `M1`, `M2` (`EFT/SignsF`, `EFT/Signs`, `EFT/SignsMu`) | a checker proved sound computes the parity of each generated formula; explicit points for the violations (odd powers of `X_τ` in a limit, `|μ|`), found exactly with the Laurent polynomial checker |
| C75 | 17 one-loop threshold corrections and a specification with colours, hypercharges and isospin as parameters (`EFT/Family`) | algebra over the reals after unfolding; the top formulas without loop functions are related to the loop functions outside their Taylor windows; exact differences and explicit points for the violations |
| C76 | the corrections of the gauge couplings and of the orders `g1^4`, `g2^4`, `g1^2 g2^2` (`EFT/Charges`) | a table of multiplets with their charges as specification; algebra; invariance of sums under permutations |
| C77 | `HierarchyCalculator` and `validate` under a change of units (`Calc/UnitsFO`, `Calc/UnitsSim`) | a simulation relation between the runs in the two units of mass, kept by every step of the monadic model; homogeneous algebra for the formulas; the called code (`UnitFree`) as hypothesis, met by C65/C73 (hierarchies outside h6b*); explicit point for the absolute tolerance in `validate` |
| C78 | fixed-order spectrum, one-loop matrices, two-loop routines, loop integrals and light Higgs mass under a change of units (`PV/Units`, `TwoLoop/Units`, `FO/Units`, `FO/UnitsSpec`) | one lemma per term of the self energies, homogeneous algebra; the loop integrals as a hypothesis (`UnitLoops`) met by B0; `UnitTwoLoop` met by the modelled routines (at as, ab as, ab atau); explicit points for the absolute thresholds |

### Modules

| directory | models |
|---|---|
| `Base` | scalar operations, doubles with NaN/inf, matrices, `Parameters` |
| `HObj` | HierarchyObject.cpp |
| `Iface` | Himalaya_interface.cpp (`validate`) |
| `Select`, `Calc` | HierarchyCalculator.cpp |
| `Hier` | hierarchies/*.cpp: constructors, getS1, getS2, getS12, calc_coef_at_as2_no_sm_logs_log{0,1,2,3} of all fourteen classes (`Hier/<Class>.lean`, translated by `tools/gen_hier.py`; `Hier/Ctor` links them to `calculateHierarchy`) |
| `Linalg` | mh2_fo/Linalg.cpp |
| `FO` | mh2_fo/MSSM_spectrum.cpp, MSSM_mass_eigenstates.cpp |
| `PV` | mh2_fo/PV.cpp (exact arithmetic) |
| `Misc`, `Raii` | misc/*.hpp |
| `Conc` | mutex and COMMON block of mh2l/DSZHiggs.{cpp,f}, the static flag of HierarchyCalculator.cpp |
| `TwoLoop` | mh2l/DSZHiggs.cpp, and of DSZHiggs.f: guards, taubot(odd), DSZHiggs/DSZodd |
| `TLF` | mh2_eft/ThresholdLoopFunctions.cpp |
| `Li2` | misc/Li2.cpp (real dilogarithm, Horner scheme of the complex one, Clausen function) |
| `EFT` | mh2_eft/Mh2EFTCalculator.cpp, mh2_eft/ThresholdCalculator.cpp: constructor, limit selection, getThresholdCorrection, scheme shifts, the formulas of all threshold corrections in all cases (`thrFns4`; in `Model` and `Switches` those not needed are a parameter `rest`) |
| `Kron` | no code: checker for identities of rational functions in polynomial variables, logarithms and dilogarithms, with soundness proof |
| `Link` | LibraryLink/Himalaya_LibraryLink.{m,cpp} |

### Simplifications (also stated beside the definitions)

* Mathematical constants are exact; `C44_constants` bounds the literals of Constants.hpp. The literal 0.3872983346207417 (sqrt(3/20))
  is kept as written.
* `Dbl` has exact arithmetic, no overflow, no signed zero.
* Eigen's solvers are functions with the contract `SolverContract` (shown satisfiable for every symmetric matrix); the order of
  evaluation inside Eigen expressions is left to right; `minCoeff` of a vector with NaN is modelled as in the vectorless loop.
* The Fortran routines are functions without state (their COMMON blocks are the reason for C41).
* Self-energy expansions of the fourteen hierarchies are opaque functions of the constructor arguments and flags in `Calc` (C01–C45); `Hier/Ctor` gives their
  actual values (`classImpl`), in exact arithmetic.
* The WSTP link is loss-free.

### Not modelled

* Fortran routines other than the guards, taubot(odd) and DSZHiggs/DSZodd;
* Logger output, the Mathematica side, examples, build system.

Not expressible here: numerical accuracy in binary64 (rounding) of the large formulas and the physics validity of the
three-loop expansions (no specification other than the formulas themselves exists).
