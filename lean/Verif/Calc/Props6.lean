import Verif.Calc.Props5
import Verif.Calc.Props3Ex
import Verif.Calc.Props1

/-!
# What `calculateDMh3L` reports: C21 (threshold corrections), C22 (consistency of the reported data), C23 (symmetry)

All statements are about a result object `r` returned by `calculateDMh3L` (any parameter point, any flags, any external
code), in terms of the getters of `r` and of further member-function calls made with `r` itself.
-/

set_option linter.unusedSimpArgs false
set_option linter.unusedSectionVars false
set_option linter.unusedVariables false

namespace Himalaya

open CalcM
open scoped Himalaya Himalaya.FOps

section
variable {F : Type} [Add F] [Sub F] [Mul F] [Div F] [Neg F] [FOps F] {E : Env F} {p : Params F} {b : Bool} {d : Depth}
  {h0 r : HObj F}

theorem dmh3l_parts (h : (calculateDMh3L E p b ⟨d, h0⟩).1 = .ok r) :
    ∃ k s1 s2 s3 s4 s5, dmh3lSelect E p ⟨d, HObj.new b⟩ = (.ok k, s1) ∧ dmh3lMass E p s1 = (.ok (), s2) ∧
      dmh3lLambda E p b s2 = (.ok (), s3) ∧ dmh3lPart2 E p s3 = (.ok (), s4) ∧ dmh3lPart3 E p s4 = (.ok (), s5) ∧ r = s5.ho := by
  obtain ⟨s', hs⟩ : ∃ s', calculateDMh3L E p b ⟨d, h0⟩ = (.ok r, s') := ⟨_, Prod.ext h rfl⟩
  unfold calculateDMh3L at hs
  obtain ⟨t, ht, -⟩ := localHo_ok.1 hs
  unfold dmh3lBody at ht
  obtain ⟨_, s3, e1, ht⟩ := bind_ok.1 ht
  obtain ⟨_, s4, e4, ht⟩ := bind_ok.1 ht
  obtain ⟨_, s5, e5, ht⟩ := bind_ok.1 ht
  obtain ⟨hr, -⟩ := getHo_ok.1 ht
  unfold dmh3lPart1 at e1
  obtain ⟨k, s1, f1, e1⟩ := bind_ok.1 e1
  obtain ⟨_, s2, f2, e1⟩ := bind_ok.1 e1
  exact ⟨k, s1, s2, s3, s4, s5, f1, f2, e1, e4, e5, hr.symm⟩

/-- everything the parts establish, transported to the returned object -/
structure Report (E : Env F) (p : Params F) (b : Bool) (d : Depth) (r : HObj F) : Prop where
  alphab : r.isAlphab = b
  mdr : r.mdrFlag = 0
  scheme : r.renormalizationScheme = HObj.DRBARPRIME
  masses : ∃ H S m1 m2 U, pureHier E p d r 0 0 1 = .ok H ∧ shiftH3mToDRbarPrime p r = .ok S ∧ getMt41L p r 0 0 = .ok m1 ∧
    getMt42L E p r 0 0 = .ok m2 ∧ pureUnc E p d r (treeLevel p + m1 + m2) 0 0 1 = .ok U ∧
    r.dMhMap 0 = treeLevel p ∧ r.dMhMap 1 = m1 ∧ r.dMhMap 2 = m2 ∧ r.dMhMap 3 = H + S ∧ r.h3mShift = -S ∧
    r.expUncertainties 1 = 0 ∧ r.expUncertainties 3 = U
  lambda : ∃ eft tc out M1, E.eftAs (pMassES p) = .ok eft ∧ E.tc (pMassES p) = .ok tc ∧
    loopOut E p d r 3 = .ok (out, M1) ∧
    r.dLambdaMap 0 = eft.loop0 / calcV2 p ∧
    r.dLambdaMap 1 = FOps.const .oneLoop * pow2 (p.Mt * (FOps.const .sqrt2 * p.Mt / FOps.sqrt (calcV2 p))) *
      tc.thr 6 .LAMBDA_AT schemeDRbarPrime 1 / calcV2 p ∧
    r.dLambdaMap 2 = FOps.const .twoLoop * pow2 (p.Mt * (FOps.const .sqrt2 * p.Mt / FOps.sqrt (calcV2 p)) * p.g3) *
      tc.thr 6 .LAMBDA_AT_AS schemeDRbarPrime 1 / calcV2 p ∧
    r.dLambdaDRbarPrimeToMSbarShiftMap 0 = 0 ∧ r.dLambdaDRbarPrimeToMSbarShiftMap 1 = 0 ∧
    (b = false → r.dLambdaMap 3 = r.dLambdaEFT ∧
      r.dLambdaEFT = (FOps.const .threeLoop * (2 * pow2 p.Mt / calcV2 p) * pow2 (p.Mt * pow2 p.g3) *
          (out.c0 + shiftH3mToDRbarPrimeMh2 p r 0) - eft.loop3 0 0 0 +
        FOps.const .threeLoop * (2 * pow2 p.Mt / calcV2 p) * pow2 (p.Mt * pow2 p.g3) *
          (tc.thr 6 .LAMBDA_AT_AS2 schemeDRbarPrime 1 - tc.thr 6 .LAMBDA_AT_AS2 schemeDRbarPrime 0)) / calcV2 p ∧
      r.dLambdaNonLog = (FOps.const .threeLoop * (2 * pow2 p.Mt / calcV2 p) * pow2 (p.Mt * pow2 p.g3) *
          (out.c0 + shiftH3mToDRbarPrimeMh2 p r 0) - eft.loop3 0 0 0) / calcV2 p ∧
      r.dLambdaH3m = (FOps.const .threeLoop * (2 * pow2 p.Mt / calcV2 p) * pow2 (p.Mt * pow2 p.g3) *
          ((out.c0 + FOps.log (pow2 (p.scale / M1)) * out.c1 + pow2 (FOps.log (pow2 (p.scale / M1))) * out.c2 +
            pow3 (FOps.log (pow2 (p.scale / M1))) * out.c3) + shiftH3mToDRbarPrimeMh2 p r 1) - eft.loop3 0 1 0) / calcV2 p ∧
      r.dLambdaDRbarPrimeToMSbarShiftMap 2 =
        FOps.const .twoLoop * pow2 (p.Mt * (FOps.const .sqrt2 * p.Mt / FOps.sqrt (calcV2 p)) * p.g3) *
          (-4 * r.dLambdaMap 1 * tc.thr 6 .YT_AS schemeDRbarPrime 1) / calcV2 p ∧
      r.dLambdaDRbarPrimeToMSbarShiftMap 3 =
        FOps.const .threeLoop * (2 * pow2 p.Mt / calcV2 p) * pow2 (p.Mt * pow2 p.g3) *
          tc.shift (xtOrderOf r.hierarchy) 1 0 / calcV2 p ∧
      r.dLambdaXtUncertainty = FOps.abs ((if xtOrderOf r.hierarchy = 3 then (1 : F) else 0) *
        (FOps.const .threeLoop * (2 * pow2 p.Mt / calcV2 p) * pow2 (p.Mt * pow2 p.g3)) / calcV2 p * tc.xtTerms tc.limit 4 1)) ∧
    (b = true → r.dLambdaMap 3 = 0 ∧ r.dLambdaH3m = 0 ∧ r.dLambdaEFT = 0 ∧ r.dLambdaNonLog = 0 ∧
      r.dLambdaXtUncertainty = 0 ∧ r.dLambdaDRbarPrimeToMSbarShiftMap 3 = 0 ∧ r.dLambdaDRbarPrimeToMSbarShiftMap 2 = 0)
  fixed : ∃ fo fa e, E.fo p false = .ok fo ∧ E.fo p true = .ok fa ∧ E.eftFull p = .ok e ∧
    r.dMh2FOMap 0 = fo.1 ∧ r.dMh2FOMap 1 = fo.2.1 ∧ r.dMh2FOMap 2 = fo.2.2 ∧ r.dMh2FOMap 3 = r.dMh2Map 3 ∧
    r.dMh2FOAtMap 0 = 0 ∧ r.dMh2FOAtMap 1 = fa.2.1 ∧ r.dMh2FOAtMap 2 = fa.2.2 ∧ r.dMh2FOAtMap 3 = r.dMh2Map 3 ∧
    r.dMh2EFTMap 0 = e.loop0 ∧ r.dMh2EFTMap 1 = e.loop1 1 1 ∧ r.dMh2EFTMap 2 = e.loop2 1 1 ∧
    r.dMh2EFTMap 3 = e.loop3 1 1 0 + r.dLambdaEFT * calcV2 p
  diag : r.dMh2Map 0 = (E.diag (r.dMhMap 0) (r.dMhMap 1) (r.dMhMap 2) (r.dMhMap 3)).1 ∧
    r.dMh2Map 1 = (E.diag (r.dMhMap 0) (r.dMhMap 1) (r.dMhMap 2) (r.dMhMap 3)).2.1 ∧
    r.dMh2Map 2 = (E.diag (r.dMhMap 0) (r.dMhMap 1) (r.dMhMap 2) (r.dMhMap 3)).2.2.1 ∧
    r.dMh2Map 3 = (E.diag (r.dMhMap 0) (r.dMhMap 1) (r.dMhMap 2) (r.dMhMap 3)).2.2.2
  mdrPart : ∃ sh H S m, calcDRbarToMDRbarShift E p { r with mdrFlag := 1 } true true = .ok sh ∧
    pureHier E p d { r with mdrFlag := 1 } 0 0 1 = .ok H ∧ shiftH3mToDRbarPrime p { r with mdrFlag := 1 } = .ok S ∧
    calcMsfMDRFlag p { r with mdrFlag := 1 } 3 = .ok m ∧ r.mdrShift = sh + (H + S) - r.dMhMap 3 ∧
    r.mdrMasses = HObj.sortVector (HObj.sortVector ⟨m.1, m.2⟩)

theorem report_ok (h : (calculateDMh3L E p b ⟨d, h0⟩).1 = .ok r) : Report E p b d r := by
  obtain ⟨k, s1, s2, s3, s4, s5, e1, e2, e3, e4, e5, rfl⟩ := dmh3l_parts h
  have P1 := select_ok e1
  obtain ⟨H, S, m1, m2, U, out, M1, P2⟩ := mass_ok e2
  obtain ⟨eft, tc, P3⟩ := lambda_ok e3
  obtain ⟨fo, fa, e, P4⟩ := part2_ok e4
  obtain ⟨sh, H', S', m, P5⟩ := part3_ok e5
  clear e1 e2 e3 e4 e5 h
  obtain ⟨x1, x2, x3, x4, x5, q5⟩ := P5.frame
  obtain ⟨y1, y2, y3, q4⟩ := P4.frame
  have a34 : s4.ho.dMhMap = s3.ho.dMhMap := by rw [q4]
  have a45 : s5.ho.dMhMap = s4.ho.dMhMap := by rw [q5]
  have b35 : s5.ho.isAlphab = s3.ho.isAlphab := by rw [q5, q4]
  have c35 : s5.ho.hierarchy = s3.ho.hierarchy := by rw [q5, q4]
  have d35 : s5.ho.mdrFlag = s3.ho.mdrFlag := by rw [q5, q4]
  have f35 : s5.ho.renormalizationScheme = s3.ho.renormalizationScheme := by rw [q5, q4]
  have g35 : s5.ho.expUncertainties = s3.ho.expUncertainties := by rw [q5, q4]
  have h35 : s5.ho.h3mShift = s3.ho.h3mShift := by rw [q5, q4]
  have i35 : s5.ho.dLambdaMap = s3.ho.dLambdaMap := by rw [q5, q4]
  have j35 : s5.ho.dLambdaDRbarPrimeToMSbarShiftMap = s3.ho.dLambdaDRbarPrimeToMSbarShiftMap := by rw [q5, q4]
  have k35 : s5.ho.dLambdaEFT = s3.ho.dLambdaEFT := by rw [q5, q4]
  have l35 : s5.ho.dLambdaH3m = s3.ho.dLambdaH3m := by rw [q5, q4]
  have m35 : s5.ho.dLambdaNonLog = s3.ho.dLambdaNonLog := by rw [q5, q4]
  have n35 : s5.ho.dLambdaXtUncertainty = s3.ho.dLambdaXtUncertainty := by rw [q5, q4]
  have o45 : s5.ho.dMh2EFTMap = s4.ho.dMh2EFTMap := by rw [q5]
  have K53 : SameKey s5.ho s3.ho := ⟨b35, c35, d35⟩
  have K32 := P3.key
  have K21 := P2.key
  have K51 : SameKey s5.ho s1.ho := ⟨b35.trans (K32.1.trans K21.1), c35.trans (K32.2.trans K21.2), d35.trans (K32.3.trans K21.3)⟩
  have K52 : SameKey s5.ho s2.ho := ⟨b35.trans K32.1, c35.trans K32.2, d35.trans K32.3⟩
  have K54 : SameKey { s5.ho with mdrFlag := 1 } { s4.ho with mdrFlag := 1 } := by
    rw [q5]; exact ⟨rfl, rfl, rfl⟩
  have hd1 : s1.depth = d := P1.depth
  have hd4 : s4.depth = d := P4.depth.trans (P3.depth.trans (P2.depth.trans hd1))
  have D0 : s5.ho.dMhMap 0 = treeLevel p := by rw [a45, a34, P3.dMh, P2.d0, P1.d0]
  have hp0 : ∀ o, shiftH3mToDRbarPrimeMh2 p s5.ho o = shiftH3mToDRbarPrimeMh2 p s2.ho o := by
    intro o
    unfold shiftH3mToDRbarPrimeMh2
    rw [show s5.ho.getSuitableHierarchy = s2.ho.getSuitableHierarchy from K52.2]
  clear q4 q5
  constructor
  · rw [b35, K32.1, K21.1, P1.alphab]; rfl
  · rw [d35, K32.3, K21.3, P1.mdr]
  · rw [f35, P3.scheme, P2.scheme, P1.scheme]; rfl
  · refine ⟨H, S, m1, m2, U, ?_⟩
    rw [pureHier_congr E K51, h3m_congr K51, mt41_congr K51, mt42_congr E K51, pureUnc_congr K51, D0, a45, a34, P3.dMh, h35, P3.h3m,
      g35, P3.unc]
    have hU := P2.hU
    rw [P1.d0] at hU
    rw [← hd1]
    exact ⟨P2.hH, P2.hS, P2.h1, P2.h2, hU, rfl, P2.d1, P2.d2, P2.d3, P2.h3m, P2.u1, P2.u3⟩
  · refine ⟨eft, tc, out, M1, P3.heft, P3.htc, ?_⟩
    rw [loopOut_congr E K51, ← hd1, i35, j35, k35, l35, m35, n35, hp0, hp0, c35, K32.2]
    refine ⟨P2.hout, P3.l0, P3.l1, P3.l2, P3.s0, P3.s1, fun hb => ?_, fun hb => ?_⟩
    · have := P3.at_eft hb
      have h1 := P3.at_nonLog hb
      have h2 := P3.at_h3m hb
      rw [P2.nonLog] at this h1
      rw [P2.lH3m] at h2
      exact ⟨P3.at_mode hb, this, h1, h2, P3.at_s2 hb, P3.at_s3 hb, P3.at_xt hb⟩
    · obtain ⟨a1, a2, a3, a4, a5, a6, a7⟩ := P3.ab_mode hb
      refine ⟨a1, a2, a3, a4, a5, a6, ?_⟩
      rw [a7, P2.shift, P1.shift2]; rfl
  · refine ⟨fo, fa, e, P4.hfo, P4.hfa, P4.heft, ?_⟩
    rw [P5.fo3, P5.fa3, P5.m3, o45, k35]
    have k34 : s4.ho.dLambdaEFT = s3.ho.dLambdaEFT := by
      obtain ⟨y1, y2, y3, q4⟩ := P4.frame
      rw [q4]
    refine ⟨P4.fo0, P4.fo1, P4.fo2, rfl, P4.fa0, P4.fa1, P4.fa2, rfl, P4.e0, P4.e1, P4.e2, P4.e3⟩
  · rw [a45]; exact ⟨P5.m0, P5.m1, P5.m2, P5.m3⟩
  · refine ⟨sh, H', S', m, ?_⟩
    have hc : calcDRbarToMDRbarShift E p { s5.ho with mdrFlag := 1 } true true =
        calcDRbarToMDRbarShift E p { s4.ho with mdrFlag := 1 } true true := by
      unfold calcDRbarToMDRbarShift
      rw [mt41_congr K54, mt41_congr K54, mt42_congr E K54, mt42_congr E K54]
    rw [hc, pureHier_congr E K54, h3m_congr K54, calcMsf_congr K54, a45, ← hd4]
    exact ⟨P5.hsh, P5.hH, P5.hS, P5.hm, P5.shift, P5.masses⟩


/-! ### C21 -/

/-- **C21.** In alpha_b mode all three-loop quantities of the quartic coupling are exactly zero, and so is their uncertainty
as far as it is made of these numbers. -/
theorem C21_alpha_b_zero (h : (calculateDMh3L E p true ⟨d, h0⟩).1 = .ok r) :
    r.getDLambda 3 = .ok 0 ∧ r.getDLambdaEFT = 0 ∧ r.getDLambdaH3m = 0 ∧ r.getDLambdaNonLog = 0 ∧
      (∀ l, 0 ≤ l → l ≤ 3 → r.getDLambdaShift l = .ok 0) ∧
      r.getDLambdaUncertainty 3 = .ok (FOps.abs 0 + FOps.abs (0 - 0)) := by
  have R := report_ok h
  obtain ⟨eft, tc, out, M1, -, -, -, -, -, -, h0', h1', -, hb⟩ := R.lambda
  obtain ⟨a1, a2, a3, a4, a5, a6, a7⟩ := hb rfl
  refine ⟨congrArg Except.ok a1, a3, a2, a4, ?_, ?_⟩
  · intro l hl hl3
    have : l = 0 ∨ l = 1 ∨ l = 2 ∨ l = 3 := by omega
    rcases this with rfl | rfl | rfl | rfl
    · exact congrArg Except.ok h0'
    · exact congrArg Except.ok h1'
    · exact congrArg Except.ok a7
    · exact congrArg Except.ok a6
  · show Except.ok (FOps.abs r.dLambdaXtUncertainty + FOps.abs (r.dLambdaEFT - r.dLambdaH3m)) = _
    rw [a2, a3, a5]

/-- **C21.** In alpha_t mode the reported three-loop threshold is the one in EFT form, the lower orders are the threshold
corrections of the matching calculator, and no scheme shift is reported below two loops. -/
theorem C21_alpha_t_values (h : (calculateDMh3L E p false ⟨d, h0⟩).1 = .ok r) :
    r.getDLambda 3 = .ok r.getDLambdaEFT ∧ r.getDLambdaShift 0 = .ok 0 ∧ r.getDLambdaShift 1 = .ok 0 := by
  have R := report_ok h
  obtain ⟨eft, tc, out, M1, -, -, -, -, -, -, h0', h1', hb, -⟩ := R.lambda
  obtain ⟨a1, -⟩ := hb rfl
  exact ⟨congrArg Except.ok a1, congrArg Except.ok h0', congrArg Except.ok h1'⟩

/-- **C21.** Thresholds up to two loops: `lambda_tree`, `O(at)` and `O(at as)` DR'-thresholds without logarithms switched off,
with the prefactors `g_t^2 = 2 Mt^2/v^2` (written with the square root of `v^2`), in units of `v^2`; independent of the mode. -/
theorem C21_lower_orders (h : (calculateDMh3L E p b ⟨d, h0⟩).1 = .ok r) :
    ∃ eft tc, E.eftAs (pMassES p) = .ok eft ∧ E.tc (pMassES p) = .ok tc ∧ r.getDLambda 0 = .ok (eft.loop0 / calcV2 p) ∧
      r.getDLambda 1 = .ok (FOps.const .oneLoop * pow2 (p.Mt * (FOps.const .sqrt2 * p.Mt / FOps.sqrt (calcV2 p))) *
        tc.thr 6 .LAMBDA_AT schemeDRbarPrime 1 / calcV2 p) ∧
      r.getDLambda 2 = .ok (FOps.const .twoLoop * pow2 (p.Mt * (FOps.const .sqrt2 * p.Mt / FOps.sqrt (calcV2 p)) * p.g3) *
        tc.thr 6 .LAMBDA_AT_AS schemeDRbarPrime 1 / calcV2 p) := by
  obtain ⟨eft, tc, out, M1, h1, h2, -, a0, a1, a2, -⟩ := (report_ok h).lambda
  exact ⟨eft, tc, h1, h2, congrArg Except.ok a0, congrArg Except.ok a1, congrArg Except.ok a2⟩

/-- **C21.** In alpha_t mode the EFT form of the three-loop threshold differs from the logarithm-free part by the logarithms of
the EFT threshold, in units of `v^2`. -/
theorem C21_eft_is_nonlog_plus_logs (h : (calculateDMh3L E p false ⟨d, h0⟩).1 = .ok r) :
    ∃ tc n, E.tc (pMassES p) = .ok tc ∧ r.getDLambdaNonLog = n / calcV2 p ∧
      r.getDLambdaEFT = (n + FOps.const .threeLoop * (2 * pow2 p.Mt / calcV2 p) * pow2 (p.Mt * pow2 p.g3) *
          (tc.thr 6 .LAMBDA_AT_AS2 schemeDRbarPrime 1 - tc.thr 6 .LAMBDA_AT_AS2 schemeDRbarPrime 0)) / calcV2 p := by
  obtain ⟨eft, tc, out, M1, h1, h2, -, a0, a1, a2, -, -, hb, -⟩ := (report_ok h).lambda
  obtain ⟨-, b1, b2, -⟩ := hb rfl
  exact ⟨tc, _, h2, b2, b1⟩

/-- `getDMh2EFTAt(3)` contains the EFT-form threshold times `v^2` on top of the logarithms of the EFT calculator. -/
theorem C21_eft_mass_contains_threshold (h : (calculateDMh3L E p b ⟨d, h0⟩).1 = .ok r) :
    ∃ e, E.eftFull p = .ok e ∧ r.getDMh2EFTAt 3 = .ok (e.loop3 1 1 0 + r.getDLambdaEFT * calcV2 p) := by
  have R := report_ok h
  obtain ⟨fo, fa, e, -, -, he, -, -, -, -, -, -, -, -, -, -, -, h3⟩ := R.fixed
  exact ⟨e, he, congrArg Except.ok h3⟩

/-! ### C22 -/

/-- **C22.** Fixed flags and trivial entries of every returned result. -/
theorem C22_flags (h : (calculateDMh3L E p b ⟨d, h0⟩).1 = .ok r) :
    r.getIsAlphab = b ∧ r.getMDRFlag = 0 ∧ r.getRenormalizationScheme = HObj.DRBARPRIME ∧
      r.getDMhExpUncertainty 1 = .ok 0 ∧ r.getDMh2FOAt 0 = .ok 0 := by
  have R := report_ok h
  obtain ⟨H, S, m1, m2, U, -, -, -, -, -, -, -, -, -, -, u1, -⟩ := R.masses
  obtain ⟨fo, fa, e, -, -, -, -, -, -, -, f0, -⟩ := R.fixed
  exact ⟨R.alphab, R.mdr, R.scheme, congrArg Except.ok u1, congrArg Except.ok f0⟩

/-- **C22.** The three-loop fixed-order results are the three-loop result of the hierarchy expansion. -/
theorem C22_fixed_order_three_loop (h : (calculateDMh3L E p b ⟨d, h0⟩).1 = .ok r) :
    ∃ x, r.getDMh2 3 = .ok x ∧ r.getDMh2FO 3 = .ok x ∧ r.getDMh2FOAt 3 = .ok x := by
  have R := report_ok h
  obtain ⟨fo, fa, e, -, -, -, -, -, -, a, -, -, -, c, -⟩ := R.fixed
  exact ⟨r.dMh2Map 3, rfl, congrArg Except.ok a, congrArg Except.ok c⟩

/-- **C22.** The mass matrices reported are the tree-level matrix, the one- and two-loop matrices that the member functions
give for this very result object, and the three-loop expansion plus a scheme shift; the reported conversion to the H3m scheme
is exactly minus that shift.  The three-loop uncertainty is that of the selected hierarchy. -/
theorem C22_mass_matrices (h : (calculateDMh3L E p b ⟨d, h0⟩).1 = .ok r) :
    ∃ H S m1 m2 U, (calculateHierarchy E p 0 0 1 ⟨d, r⟩).1 = .ok H ∧ shiftH3mToDRbarPrime p r = .ok S ∧
      getMt41L p r 0 0 = .ok m1 ∧ getMt42L E p r 0 0 = .ok m2 ∧
      (getExpansionUncertainty E p (treeLevel p + m1 + m2) 0 0 1 ⟨d, r⟩).1 = .ok U ∧
      r.getDMh 0 = .ok (treeLevel p) ∧ r.getDMh 1 = .ok m1 ∧ r.getDMh 2 = .ok m2 ∧ r.getDMh 3 = .ok (H + S) ∧
      r.getH3mShift = -S ∧ r.getDMhExpUncertainty 3 = .ok U := by
  have R := report_ok h
  obtain ⟨H, S, m1, m2, U, a1, a2, a3, a4, a5, a6, a7, a8, a9, a10, -, a11⟩ := R.masses
  refine ⟨H, S, m1, m2, U, (calculateHierarchy_fst E p 0 0 1 ⟨d, r⟩).trans a1, a2, a3, a4, ?_, congrArg Except.ok a6, congrArg Except.ok a7,
    congrArg Except.ok a8, congrArg Except.ok a9, a10, congrArg Except.ok a11⟩
  rw [getExpansionUncertainty_run]; exact a5

/-- **C22.** The squared masses reported are the perturbative eigenvalues of the reported matrices. -/
theorem C22_masses_diagonalise (h : (calculateDMh3L E p b ⟨d, h0⟩).1 = .ok r) :
    ∃ m0 m1 m2 m3, r.getDMh 0 = .ok m0 ∧ r.getDMh 1 = .ok m1 ∧ r.getDMh 2 = .ok m2 ∧ r.getDMh 3 = .ok m3 ∧
      r.getDMh2 0 = .ok (E.diag m0 m1 m2 m3).1 ∧ r.getDMh2 1 = .ok (E.diag m0 m1 m2 m3).2.1 ∧
      r.getDMh2 2 = .ok (E.diag m0 m1 m2 m3).2.2.1 ∧ r.getDMh2 3 = .ok (E.diag m0 m1 m2 m3).2.2.2 := by
  obtain ⟨a, b, c, e⟩ := (report_ok h).diag
  exact ⟨r.dMhMap 0, r.dMhMap 1, r.dMhMap 2, r.dMhMap 3, rfl, rfl, rfl, rfl, congrArg Except.ok a, congrArg Except.ok b,
    congrArg Except.ok c, congrArg Except.ok e⟩

/-- **C22.** The reported DR' to MDR' shift is the difference of the complete one-, two- and three-loop corrections evaluated
with the MDR flag set and the reported ones. -/
theorem C22_mdr_shift (h : (calculateDMh3L E p b ⟨d, h0⟩).1 = .ok r) (r1 : HObj F) (hr1 : r.setMDRFlag 1 = .ok r1) :
    ∃ sh H S d3, calcDRbarToMDRbarShift E p r1 true true = .ok sh ∧ (calculateHierarchy E p 0 0 1 ⟨d, r1⟩).1 = .ok H ∧
      shiftH3mToDRbarPrime p r1 = .ok S ∧ r.getDMh 3 = .ok d3 ∧ r.getMDRShift = sh + (H + S) - d3 := by
  have e1 : r1 = { r with mdrFlag := 1 } := (Except.ok.inj hr1).symm
  obtain ⟨sh, H, S, m, h1, h2, h3, h4, h5, h6⟩ := (report_ok h).mdrPart
  subst e1
  exact ⟨sh, H, S, r.dMhMap 3, h1, (calculateHierarchy_fst ..).trans h2, h3, rfl, h5⟩

/-- **C22.** The reported MDR masses are the shifted masses of the third generation, in ascending order. -/
theorem C22_mdr_masses [LawfulCmp F] (h : (calculateDMh3L E p b ⟨d, h0⟩).1 = .ok r) (r1 : HObj F) (hr1 : r.setMDRFlag 1 = .ok r1) :
    ∃ m, calcMsfMDRFlag p r1 3 = .ok m ∧ (r.getMDRMasses = ⟨m.1, m.2⟩ ∨ r.getMDRMasses = ⟨m.2, m.1⟩) ∧
      (FOps.isNaN m.1 = false → FOps.isNaN m.2 = false → FOps.le r.getMDRMasses.x0 r.getMDRMasses.x1 = true) := by
  have e1 : r1 = { r with mdrFlag := 1 } := (Except.ok.inj hr1).symm
  obtain ⟨sh, H, S, m, h1, h2, h3, h4, h5, h6⟩ := (report_ok h).mdrPart
  subst e1
  refine ⟨m, h4, ?_, ?_⟩
  · show r.mdrMasses = _ ∨ r.mdrMasses = _
    rw [h6]
    unfold HObj.sortVector
    cases x : FOps.lt m.2 m.1
    · simp [x]
    · cases y : FOps.lt m.1 m.2 <;> simp [x, y]
  · intro n1 n2
    show FOps.le r.mdrMasses.x0 r.mdrMasses.x1 = true
    rw [h6]
    unfold HObj.sortVector
    cases x : FOps.lt m.2 m.1
    · simp only [x, Bool.false_eq_true, if_false]
      exact le_of_not_lt n2 n1 x
    · simp only [if_true]
      cases y : FOps.lt m.1 m.2
      · simp only [Bool.false_eq_true, if_false]
        exact le_of_not_lt n1 n2 y
      · simp only [if_true]
        exact le_of_lt y

/-! ### C08/C09 for the complete calculation -/

/-- **C08/C09.** The hierarchy of the returned result is suitable for the point, and the two-loop differences and two-loop
uncertainty it reports are those of this hierarchy. -/
theorem C09_result_reports_selection [LawfulCmp F] [LawfulSqrt F] (h : (calculateDMh3L E p b ⟨d, h0⟩).1 = .ok r) :
    Suitable p (HObj.new b) r.getSuitableHierarchy ∧
      ∃ c, estimate E p d (HObj.new b) r.getSuitableHierarchy = .ok c ∧ r.getAbsDiff2L = c.twoLoopError ∧
        r.getRelDiff2L = c.relError ∧ r.getDMhExpUncertainty 2 = .ok c.unc2 := by
  have hk : r.getSuitableHierarchy ≠ -1 := by
    obtain ⟨H, S, m1, m2, U, a1, a2, -⟩ := (report_ok h).masses
    intro hk
    have hn : NoHierarchy r := by unfold NoHierarchy; rw [hk]; omega
    obtain ⟨-, -, -, -, h5⟩ := C20_shift_and_matrices_throw E p r hn 0 0
    rw [h5] at a2; cases a2
  obtain ⟨k, s1, s2, s3, s4, s5, e1, e2, e3, e4, e5, rfl⟩ := dmh3l_parts h
  obtain ⟨H, S, m1, m2, U, out, M1, P2⟩ := mass_ok e2
  obtain ⟨eft, tc, P3⟩ := lambda_ok e3
  obtain ⟨fo, fa, e, P4⟩ := part2_ok e4
  obtain ⟨sh, H', S', m, P5⟩ := part3_ok e5
  obtain ⟨x1, x2, x3, x4, x5, q5⟩ := P5.frame
  obtain ⟨y1, y2, y3, q4⟩ := P4.frame
  have c35 : s5.ho.hierarchy = s3.ho.hierarchy := by rw [q5, q4]
  have d35 : s5.ho.absDiff2L = s3.ho.absDiff2L := by rw [q5, q4]
  have f35 : s5.ho.relDiff2L = s3.ho.relDiff2L := by rw [q5, q4]
  have g35 : s5.ho.expUncertainties = s3.ho.expUncertainties := by rw [q5, q4]
  have e1' : compareHierarchies E p ⟨d, HObj.new b⟩ = (.ok k, s1) := by
    unfold dmh3lSelect at e1
    obtain ⟨_, s0, f1, f2⟩ := bind_ok.1 e1
    obtain ⟨h', f3, rfl⟩ := modHoE_ok.1 f1
    obtain rfl := Except.ok.inj f3
    exact f2
  have hk1 := C08_selected_is_suitable E p d (HObj.new b) k s1 e1'
  have hh : s5.ho.getSuitableHierarchy = k := by
    show s5.ho.hierarchy = k
    rw [c35, P3.key.2, P2.key.2]
    exact hk1.1
  rw [hh] at hk ⊢
  refine ⟨hk1.2.2 hk, ?_⟩
  obtain ⟨c, h1, h2, h3, h4, h5⟩ := C09_reported_numbers_belong_to_selection E p d (HObj.new b) k s1 e1' hk
  refine ⟨c, h1, ?_, ?_, ?_⟩
  · show s5.ho.absDiff2L = _
    rw [d35, P3.abs2, P2.abs2]; exact h2
  · show s5.ho.relDiff2L = _
    rw [f35, P3.rel2, P2.rel2]; exact h3
  · show Except.ok (s5.ho.expUncertainties 2) = _
    rw [g35, P3.unc, P2.u2]; exact h4

/-! ### C23 -/

/-- a symmetric matrix -/
def Mat2.Symmetric (m : Mat2 F) : Prop := m.m01 = m.m10

theorem Mat2.Symmetric.add {a b : Mat2 F} (ha : a.Symmetric) (hb : b.Symmetric) : (a + b).Symmetric := by
  show a.m01 + b.m01 = a.m10 + b.m10
  rw [show a.m01 = a.m10 from ha, show b.m01 = b.m10 from hb]
theorem Mat2.Symmetric.sub {a b : Mat2 F} (ha : a.Symmetric) (hb : b.Symmetric) : (a - b).Symmetric := by
  show a.m01 - b.m01 = a.m10 - b.m10
  rw [show a.m01 = a.m10 from ha, show b.m01 = b.m10 from hb]
theorem Mat2.Symmetric.neg {a : Mat2 F} (ha : a.Symmetric) : (-a).Symmetric := by
  show -a.m01 = -a.m10
  rw [show a.m01 = a.m10 from ha]

theorem sym_treeLevel : (treeLevel p).Symmetric := rfl
theorem sym_mt41 {ho : HObj F} {x y : Int} {m : Mat2 F} (h : getMt41L p ho x y = .ok m) : m.Symmetric := by
  unfold getMt41L at h
  cases h1 : shiftMst1ToMDR p ho x y with
  | error e => rw [h1] at h; cases h
  | ok a =>
    cases h2 : shiftMst2ToMDR p ho x y with
    | error e => rw [h1, h2] at h; cases h
    | ok c => rw [h1, h2] at h; obtain rfl := Except.ok.inj h; rfl
theorem sym_mt42 {ho : HObj F} {x y : Int} {m : Mat2 F} (h : getMt42L E p ho x y = .ok m) : m.Symmetric := by
  unfold getMt42L at h
  cases h1 : shiftMst1ToMDR p ho x y with
  | error e => rw [h1] at h; cases h
  | ok a =>
    cases h2 : shiftMst2ToMDR p ho x y with
    | error e => rw [h1, h2] at h; cases h
    | ok c =>
      rw [h1, h2] at h
      change deltaMh2AtAs E _ _ = _ at h
      unfold deltaMh2AtAs at h
      revert h
      generalize E.atas _ = t
      intro h
      cases t with
      | error e => cases h
      | ok t => obtain rfl := Except.ok.inj h; rfl
theorem sym_h3m {ho : HObj F} {m : Mat2 F} (h : shiftH3mToDRbarPrime p ho = .ok m) : m.Symmetric := by
  unfold shiftH3mToDRbarPrime at h
  cases h1 : shiftMst1ToMDR p ho ho.getMDRFlag ho.getMDRFlag with
  | error e => rw [h1] at h; cases h
  | ok a =>
    cases h2 : shiftMst2ToMDR p ho ho.getMDRFlag ho.getMDRFlag with
    | error e => rw [h1, h2] at h; cases h
    | ok c =>
      rw [h1, h2] at h
      obtain rfl := Except.ok.inj h
      show FOps.const .threeLoop * _ * Mat2.m01 _ = FOps.const .threeLoop * _ * Mat2.m10 _
      congr 1
      split <;> rfl
theorem sym_pureHier {ho : HObj F} {f1 f2 f3 : Int} {m : Mat2 F} (h : pureHier E p d ho f1 f2 f3 = .ok m) : m.Symmetric := by
  unfold pureHier at h
  split at h
  · cases h
  split at h
  · cases h
  split at h
  · cases h
  obtain rfl := Except.ok.inj h
  rfl
theorem sym_mdrShift {ho : HObj F} {x y : Bool} {m : Mat2 F} (h : calcDRbarToMDRbarShift E p ho x y = .ok m) : m.Symmetric := by
  unfold calcDRbarToMDRbarShift at h
  have z : (Mat2.const (0 : F)).Symmetric := rfl
  cases a1 : getMt41L p ho 1 1 with
  | error e =>
    cases x
    · cases b1 : getMt42L E p ho 1 1 with
      | error e => cases y <;> rw [b1] at h <;> cases h; exact z
      | ok m1 =>
        cases b2 : getMt42L E p ho 0 0 with
        | error e => cases y <;> rw [b1, b2] at h <;> cases h; exact z
        | ok m2 =>
          cases y <;> rw [b1, b2] at h <;> obtain rfl := Except.ok.inj h
          · exact z
          · exact z.add ((sym_mt42 b1).sub (sym_mt42 b2))
    · rw [a1] at h; cases h
  | ok n1 =>
    cases a2 : getMt41L p ho 0 0 with
    | error e =>
      cases x
      · cases b1 : getMt42L E p ho 1 1 with
        | error e => cases y <;> rw [b1] at h <;> cases h; exact z
        | ok m1 =>
          cases b2 : getMt42L E p ho 0 0 with
          | error e => cases y <;> rw [b1, b2] at h <;> cases h; exact z
          | ok m2 =>
            cases y <;> rw [b1, b2] at h <;> obtain rfl := Except.ok.inj h
            · exact z
            · exact z.add ((sym_mt42 b1).sub (sym_mt42 b2))
      · rw [a1, a2] at h; cases h
    | ok n2 =>
      have w := z.add ((sym_mt41 a1).sub (sym_mt41 a2))
      cases b1 : getMt42L E p ho 1 1 with
      | error e =>
        cases x <;> cases y <;> rw [a1, a2, b1] at h <;> cases h
        · exact z
        · exact w
      | ok m1 =>
        cases b2 : getMt42L E p ho 0 0 with
        | error e =>
          cases x <;> cases y <;> rw [a1, a2, b1, b2] at h <;> cases h
          · exact z
          · exact w
        | ok m2 =>
          cases x <;> cases y <;> rw [a1, a2, b1, b2] at h <;> obtain rfl := Except.ok.inj h
          · exact z
          · exact z.add ((sym_mt42 b1).sub (sym_mt42 b2))
          · exact w
          · exact w.add ((sym_mt42 b1).sub (sym_mt42 b2))

/-- **C23.** All mass matrices and scheme shifts of a returned result are symmetric. -/
theorem C23_symmetric (h : (calculateDMh3L E p b ⟨d, h0⟩).1 = .ok r) :
    (∀ l, 0 ≤ l → l ≤ 3 → ∃ m, r.getDMh l = .ok m ∧ m.m01 = m.m10) ∧
      r.getMDRShift.m01 = r.getMDRShift.m10 ∧ r.getH3mShift.m01 = r.getH3mShift.m10 := by
  have R := report_ok h
  obtain ⟨H, S, m1, m2, U, a1, a2, a3, a4, a5, a6, a7, a8, a9, a10, -⟩ := R.masses
  obtain ⟨sh, H', S', m, g1, g2, g3, g4, g5, g6⟩ := R.mdrPart
  have s3 : (r.dMhMap 3).Symmetric := by rw [a9]; exact (sym_pureHier a1).add (sym_h3m a2)
  refine ⟨?_, ?_, ?_⟩
  · intro l h0 h3
    have : l = 0 ∨ l = 1 ∨ l = 2 ∨ l = 3 := by omega
    rcases this with rfl | rfl | rfl | rfl
    · exact ⟨_, congrArg Except.ok a6, sym_treeLevel⟩
    · exact ⟨_, congrArg Except.ok a7, sym_mt41 a3⟩
    · exact ⟨_, congrArg Except.ok a8, sym_mt42 a4⟩
    · exact ⟨_, rfl, s3⟩
  · show (r.mdrShift).Symmetric
    rw [g5]
    exact ((sym_mdrShift g1).add ((sym_pureHier g2).add (sym_h3m g3))).sub s3
  · show (r.h3mShift).Symmetric
    rw [a10]
    exact (sym_h3m a2).neg

/-- **C23.** The mass matrices of the single member functions are symmetric, whenever they return. -/
theorem C23_member_functions_symmetric (ho : HObj F) :
    (∀ x y m, getMt41L p ho x y = .ok m → m.m01 = m.m10) ∧ (∀ x y m, getMt42L E p ho x y = .ok m → m.m01 = m.m10) ∧
      (∀ x y m, calcDRbarToMDRbarShift E p ho x y = .ok m → m.m01 = m.m10) ∧
      (∀ f1 f2 f3 m, (calculateHierarchy E p f1 f2 f3 ⟨d, ho⟩).1 = .ok m → m.m01 = m.m10) := by
  refine ⟨fun x y m h => sym_mt41 h, fun x y m h => sym_mt42 h, fun x y m h => sym_mdrShift h, fun f1 f2 f3 m h => ?_⟩
  rw [calculateHierarchy_fst] at h
  exact sym_pureHier h

end

/-! ### Concrete cases: the calculation returns for a non-trivial point, in both modes -/

example : ∃ r, (calculateDMh3L exampleEnv examplePoint false ⟨fun _ => 1, HObj.new false⟩).1 = .ok r :=
  C20_returns_if_suitable exampleEnv_total _ _ _ _ examplePoint_suitable

theorem examplePoint_suitable_b : Suitable examplePoint (HObj.new true) 4 := by
  unfold Suitable isHierarchySuitable
  rw [examplePoint_msq]
  simp [suitableMasses, examplePoint, HObj.new, HObj.setSuitableHierarchy, HObj.getSuitableHierarchy, HObj.getIsAlphab,
    real_ofNat, Hier.h3, Hier.h32q2g, Hier.h3q22g, Hier.h4, Hier.h5]
  norm_num

example : ∃ r, (calculateDMh3L exampleEnv examplePoint true ⟨fun _ => 1, HObj.new true⟩).1 = .ok r :=
  C20_returns_if_suitable exampleEnv_total _ _ _ _ examplePoint_suitable_b

/-- In exact arithmetic the alpha_b uncertainty is 0. -/
theorem C21_alpha_b_zero_uncertainty {E : Env ℝ} {p : Params ℝ} {d : Depth} {h0 r : HObj ℝ}
    (h : (calculateDMh3L E p true ⟨d, h0⟩).1 = .ok r) : ∀ l : Int, 0 ≤ l → l ≤ 3 → r.getDLambdaUncertainty l = .ok (0 : ℝ) := by
  intro l h1 h2
  by_cases h3 : l = 3
  · subst h3
    rw [(C21_alpha_b_zero h).2.2.2.2.2]
    simp
  · have : l ≥ 0 ∧ l ≤ 2 := by omega
    unfold HObj.getDLambdaUncertainty
    rw [if_pos this]
    norm_num

end Himalaya
