import Verif.FO.OneLoop
import Verif.FO.SpectrumProps

/-!
# C46: the gaugeless one-loop self-energies are the limit of the full ones

Terms without Yukawa couplings vanish for `g1 = g2 = 0`.
-/

set_option linter.unusedSimpArgs false
set_option linter.unusedVariables false

namespace Himalaya

open scoped Himalaya.FOps

variable {L : LoopFns ℝ} {s : Spec ℝ} {p : Params ℝ} {p2 : ℝ}

private theorem z0 : (@OfNat.ofNat ℝ 0 (FOps.instOfNat 0)) = 0 := by rw [real_ofNat]; simp

macro "gauge_zero" h1:ident h2:ident d:ident : tactic =>
  `(tactic| (unfold $d; simp only [sum2, sum4, $h1:ident, $h2:ident, pow2, fpow4, z0]; ring_nf))

theorem full11_0_zero (h1 : p.g1 = 0) (h2 : p.g2 = 0) : full11_0 L s p p2 = 0 := by gauge_zero h1 h2 full11_0
theorem full11_1_zero (h1 : p.g1 = 0) (h2 : p.g2 = 0) : full11_1 L s p p2 = 0 := by gauge_zero h1 h2 full11_1
theorem full11_2_zero (h1 : p.g1 = 0) (h2 : p.g2 = 0) : full11_2 L s p p2 = 0 := by gauge_zero h1 h2 full11_2
theorem full11_3_zero (h1 : p.g1 = 0) (h2 : p.g2 = 0) : full11_3 L s p p2 = 0 := by gauge_zero h1 h2 full11_3
theorem full11_4_zero (h1 : p.g1 = 0) (h2 : p.g2 = 0) : full11_4 L s p p2 = 0 := by gauge_zero h1 h2 full11_4
theorem full11_5_zero (h1 : p.g1 = 0) (h2 : p.g2 = 0) : full11_5 L s p p2 = 0 := by gauge_zero h1 h2 full11_5
theorem full11_6_zero (h1 : p.g1 = 0) (h2 : p.g2 = 0) : full11_6 L s p p2 = 0 := by gauge_zero h1 h2 full11_6
theorem full11_9_zero (h1 : p.g1 = 0) (h2 : p.g2 = 0) : full11_9 L s p p2 = 0 := by gauge_zero h1 h2 full11_9
theorem full11_10_zero (h1 : p.g1 = 0) (h2 : p.g2 = 0) : full11_10 L s p p2 = 0 := by gauge_zero h1 h2 full11_10
theorem full11_11_zero (h1 : p.g1 = 0) (h2 : p.g2 = 0) : full11_11 L s p p2 = 0 := by gauge_zero h1 h2 full11_11
theorem full11_12_zero (h1 : p.g1 = 0) (h2 : p.g2 = 0) : full11_12 L s p p2 = 0 := by gauge_zero h1 h2 full11_12
theorem full11_13_zero (h1 : p.g1 = 0) (h2 : p.g2 = 0) : full11_13 L s p p2 = 0 := by gauge_zero h1 h2 full11_13
theorem full11_14_zero (h1 : p.g1 = 0) (h2 : p.g2 = 0) : full11_14 L s p p2 = 0 := by gauge_zero h1 h2 full11_14
theorem full11_15_zero (h1 : p.g1 = 0) (h2 : p.g2 = 0) : full11_15 L s p p2 = 0 := by gauge_zero h1 h2 full11_15
theorem full11_16_zero (h1 : p.g1 = 0) (h2 : p.g2 = 0) : full11_16 L s p p2 = 0 := by gauge_zero h1 h2 full11_16
theorem full11_18_zero (h1 : p.g1 = 0) (h2 : p.g2 = 0) : full11_18 L s p p2 = 0 := by gauge_zero h1 h2 full11_18
theorem full11_19_zero (h1 : p.g1 = 0) (h2 : p.g2 = 0) : full11_19 L s p p2 = 0 := by gauge_zero h1 h2 full11_19
theorem full11_22_zero (h1 : p.g1 = 0) (h2 : p.g2 = 0) : full11_22 L s p p2 = 0 := by gauge_zero h1 h2 full11_22
theorem full11_23_zero (h1 : p.g1 = 0) (h2 : p.g2 = 0) : full11_23 L s p p2 = 0 := by gauge_zero h1 h2 full11_23
theorem full11_24_zero (h1 : p.g1 = 0) (h2 : p.g2 = 0) : full11_24 L s p p2 = 0 := by gauge_zero h1 h2 full11_24
theorem full12_0_zero (h1 : p.g1 = 0) (h2 : p.g2 = 0) : full12_0 L s p p2 = 0 := by gauge_zero h1 h2 full12_0
theorem full12_1_zero (h1 : p.g1 = 0) (h2 : p.g2 = 0) : full12_1 L s p p2 = 0 := by gauge_zero h1 h2 full12_1
theorem full12_2_zero (h1 : p.g1 = 0) (h2 : p.g2 = 0) : full12_2 L s p p2 = 0 := by gauge_zero h1 h2 full12_2
theorem full12_3_zero (h1 : p.g1 = 0) (h2 : p.g2 = 0) : full12_3 L s p p2 = 0 := by gauge_zero h1 h2 full12_3
theorem full12_4_zero (h1 : p.g1 = 0) (h2 : p.g2 = 0) : full12_4 L s p p2 = 0 := by gauge_zero h1 h2 full12_4
theorem full12_5_zero (h1 : p.g1 = 0) (h2 : p.g2 = 0) : full12_5 L s p p2 = 0 := by gauge_zero h1 h2 full12_5
theorem full12_6_zero (h1 : p.g1 = 0) (h2 : p.g2 = 0) : full12_6 L s p p2 = 0 := by gauge_zero h1 h2 full12_6
theorem full12_8_zero (h1 : p.g1 = 0) (h2 : p.g2 = 0) : full12_8 L s p p2 = 0 := by gauge_zero h1 h2 full12_8
theorem full12_9_zero (h1 : p.g1 = 0) (h2 : p.g2 = 0) : full12_9 L s p p2 = 0 := by gauge_zero h1 h2 full12_9
theorem full12_10_zero (h1 : p.g1 = 0) (h2 : p.g2 = 0) : full12_10 L s p p2 = 0 := by gauge_zero h1 h2 full12_10
theorem full12_11_zero (h1 : p.g1 = 0) (h2 : p.g2 = 0) : full12_11 L s p p2 = 0 := by gauge_zero h1 h2 full12_11
theorem full12_12_zero (h1 : p.g1 = 0) (h2 : p.g2 = 0) : full12_12 L s p p2 = 0 := by gauge_zero h1 h2 full12_12
theorem full12_15_zero (h1 : p.g1 = 0) (h2 : p.g2 = 0) : full12_15 L s p p2 = 0 := by gauge_zero h1 h2 full12_15
theorem full12_16_zero (h1 : p.g1 = 0) (h2 : p.g2 = 0) : full12_16 L s p p2 = 0 := by gauge_zero h1 h2 full12_16
theorem full12_17_zero (h1 : p.g1 = 0) (h2 : p.g2 = 0) : full12_17 L s p p2 = 0 := by gauge_zero h1 h2 full12_17
theorem full12_18_zero (h1 : p.g1 = 0) (h2 : p.g2 = 0) : full12_18 L s p p2 = 0 := by gauge_zero h1 h2 full12_18
theorem full12_19_zero (h1 : p.g1 = 0) (h2 : p.g2 = 0) : full12_19 L s p p2 = 0 := by gauge_zero h1 h2 full12_19
theorem full12_20_zero (h1 : p.g1 = 0) (h2 : p.g2 = 0) : full12_20 L s p p2 = 0 := by gauge_zero h1 h2 full12_20
theorem full22_0_zero (h1 : p.g1 = 0) (h2 : p.g2 = 0) : full22_0 L s p p2 = 0 := by gauge_zero h1 h2 full22_0
theorem full22_1_zero (h1 : p.g1 = 0) (h2 : p.g2 = 0) : full22_1 L s p p2 = 0 := by gauge_zero h1 h2 full22_1
theorem full22_2_zero (h1 : p.g1 = 0) (h2 : p.g2 = 0) : full22_2 L s p p2 = 0 := by gauge_zero h1 h2 full22_2
theorem full22_3_zero (h1 : p.g1 = 0) (h2 : p.g2 = 0) : full22_3 L s p p2 = 0 := by gauge_zero h1 h2 full22_3
theorem full22_4_zero (h1 : p.g1 = 0) (h2 : p.g2 = 0) : full22_4 L s p p2 = 0 := by gauge_zero h1 h2 full22_4
theorem full22_5_zero (h1 : p.g1 = 0) (h2 : p.g2 = 0) : full22_5 L s p p2 = 0 := by gauge_zero h1 h2 full22_5
theorem full22_6_zero (h1 : p.g1 = 0) (h2 : p.g2 = 0) : full22_6 L s p p2 = 0 := by gauge_zero h1 h2 full22_6
theorem full22_8_zero (h1 : p.g1 = 0) (h2 : p.g2 = 0) : full22_8 L s p p2 = 0 := by gauge_zero h1 h2 full22_8
theorem full22_9_zero (h1 : p.g1 = 0) (h2 : p.g2 = 0) : full22_9 L s p p2 = 0 := by gauge_zero h1 h2 full22_9
theorem full22_10_zero (h1 : p.g1 = 0) (h2 : p.g2 = 0) : full22_10 L s p p2 = 0 := by gauge_zero h1 h2 full22_10
theorem full22_11_zero (h1 : p.g1 = 0) (h2 : p.g2 = 0) : full22_11 L s p p2 = 0 := by gauge_zero h1 h2 full22_11
theorem full22_12_zero (h1 : p.g1 = 0) (h2 : p.g2 = 0) : full22_12 L s p p2 = 0 := by gauge_zero h1 h2 full22_12
theorem full22_13_zero (h1 : p.g1 = 0) (h2 : p.g2 = 0) : full22_13 L s p p2 = 0 := by gauge_zero h1 h2 full22_13
theorem full22_14_zero (h1 : p.g1 = 0) (h2 : p.g2 = 0) : full22_14 L s p p2 = 0 := by gauge_zero h1 h2 full22_14
theorem full22_15_zero (h1 : p.g1 = 0) (h2 : p.g2 = 0) : full22_15 L s p p2 = 0 := by gauge_zero h1 h2 full22_15
theorem full22_17_zero (h1 : p.g1 = 0) (h2 : p.g2 = 0) : full22_17 L s p p2 = 0 := by gauge_zero h1 h2 full22_17
theorem full22_18_zero (h1 : p.g1 = 0) (h2 : p.g2 = 0) : full22_18 L s p p2 = 0 := by gauge_zero h1 h2 full22_18
theorem full22_21_zero (h1 : p.g1 = 0) (h2 : p.g2 = 0) : full22_21 L s p p2 = 0 := by gauge_zero h1 h2 full22_21
theorem full22_22_zero (h1 : p.g1 = 0) (h2 : p.g2 = 0) : full22_22 L s p p2 = 0 := by gauge_zero h1 h2 full22_22
theorem full22_23_zero (h1 : p.g1 = 0) (h2 : p.g2 = 0) : full22_23 L s p p2 = 0 := by gauge_zero h1 h2 full22_23

end Himalaya
