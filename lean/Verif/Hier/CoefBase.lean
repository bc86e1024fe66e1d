import Verif.Hier.ProjBase
import Verif.Kron.LaurentSubst

/-!
# The coefficients of the logarithms in `Δλ`

`HierarchyCalculator` computes the three-loop correction to the quartic coupling as `∑ coefₙ * log(scale²/Mst1²)ⁿ`
(HierarchyCalculator.cpp:495-502).  It has to be the part of the three-loop correction to the mass of the SM-like Higgs boson without
logarithms of the top mass.
-/

set_option linter.unusedVariables false

namespace Himalaya

namespace HMem

/-- The three-loop part without truncation, in the DR-bar scheme, without logarithms of the top mass; `L` is the logarithm of the
ratio of the squared scale and the squared mass of the lighter stop (or of the common mass), and the other logarithms are computed
from it. -/
noncomputable def noSM (h : HMem ℝ) (L : ℝ) : HMem ℝ :=
  { h with
    x := 1, xAt := 1, xDmglst1 := 1, xDmglst2 := 1, xDmsqst1 := 1, xDmsqst2 := 1, xDmst12 := 1, xMst := 1, xMsq := 1, xMgl := 1,
    xMsusy := 1, xlmMsusy := 1, oneLoopFlag := 0, twoLoopFlag := 0, threeLoopFlag := 1, Al4p := 1,
    shiftst1 := 0, shiftst2 := 0, shiftst3 := 0, xDR2DRMOD := 0, lmMt := 0, lmMst1 := L, lmMsusy := L,
    lmMst2 := L + Real.log (h.Mst1 ^ 2 / h.Mst2 ^ 2), lmMsq := L + Real.log (h.Mst1 ^ 2 / h.Msq ^ 2),
    lmMgl := L + Real.log (h.Mst1 ^ 2 / h.Mgl ^ 2) }

/-- `noSM` with another `μ`; the numbers are written in the form in which they come out of `Kron.eval` -/
noncomputable def noSMq (h : HMem ℝ) (L : ℝ) (μ : ℚ) : HMem ℝ :=
  { h with
    x := ((1 : ℚ) : ℝ), xAt := ((1 : ℚ) : ℝ), xDmglst1 := ((1 : ℚ) : ℝ), xDmglst2 := ((1 : ℚ) : ℝ), xDmsqst1 := ((1 : ℚ) : ℝ),
    xDmsqst2 := ((1 : ℚ) : ℝ), xDmst12 := ((1 : ℚ) : ℝ), xMst := ((1 : ℚ) : ℝ), xMsq := ((1 : ℚ) : ℝ), xMgl := ((1 : ℚ) : ℝ),
    xMsusy := ((1 : ℚ) : ℝ), xlmMsusy := ((1 : ℚ) : ℝ), oneLoopFlag := ((0 : ℚ) : ℝ), twoLoopFlag := ((0 : ℚ) : ℝ),
    threeLoopFlag := ((1 : ℚ) : ℝ), Al4p := ((1 : ℚ) : ℝ), shiftst1 := ((0 : ℚ) : ℝ), shiftst2 := ((0 : ℚ) : ℝ),
    shiftst3 := ((0 : ℚ) : ℝ), xDR2DRMOD := ((0 : ℚ) : ℝ), lmMt := ((0 : ℚ) : ℝ), lmMst1 := L, lmMsusy := L,
    lmMst2 := L + Real.log (h.Mst1 * h.Mst1 / (h.Mst2 * h.Mst2)), lmMsq := L + Real.log (h.Mst1 * h.Mst1 / (h.Msq * h.Msq)),
    lmMgl := L + Real.log (h.Mst1 * h.Mst1 / (h.Mgl * h.Mgl)), MuSUSY := (μ : ℝ) }

theorem noSMq_eq (h : HMem ℝ) (L : ℝ) : h.noSMq L 0 = { h.noSM L with MuSUSY := 0 } := by
  simp only [noSMq, noSM, Rat.cast_one, Rat.cast_zero, pow_two]

end HMem

namespace Laur

section
variable {F : Type} [Add F] [Sub F] [Mul F] [Div F] [Neg F] [FOps F]

open scoped Himalaya Himalaya.FOps in
/-- `12 S2 / Mt⁴ - (c0 + c1 L + c2 L² - 896/3 L³)` -/
def coefRes (c0 c1 c2 L S2 Mt : F) : F :=
  12 * S2 / (Mt * Mt * Mt * Mt) - (c0 + c1 * L + c2 * (L * L) - FOps.lit (896 / 3) * (L * L * L))

end

theorem coefRes_zero {c0 c1 c2 L S2 Mt : ℝ} (h : coefRes c0 c1 c2 L S2 Mt = 0) :
    12 * S2 / Mt ^ 4 = c0 + c1 * L + c2 * L ^ 2 - 896 / 3 * L ^ 3 := by
  unfold coefRes at h
  simp only [real_ofNat, real_lit] at h
  push_cast at h
  rw [show Mt ^ 4 = Mt * Mt * Mt * Mt by ring]
  linear_combination h

end Laur

end Himalaya
