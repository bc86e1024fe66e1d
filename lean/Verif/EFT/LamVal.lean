import Verif.EFT.LamQG
import Verif.EFT.LamUG
import Verif.EFT.LamQUG
import Verif.EFT.LamQU

/-!
# Values of the representations at the limit: the code's special cases

Printed by tools/mk_lam.py.
-/

set_option linter.unusedSimpArgs false
set_option linter.unusedVariables false
set_option linter.style.longLine false

namespace Himalaya.Cont
open Filter Topology


set_option maxRecDepth 8000 in
theorem gQG_zero {X Q U L m32 m3 : ℝ} (dl : ℝ → ℝ) (hQ : Q ≠ 0) (hU : U ≠ 0) (hQu : -U ^ 2 + Q ^ 2 ≠ 0) :
    gQG X Q (U ^ 2) L (Real.log (U ^ 2 / Q ^ 2)) 0 0 0 (dl (1 - Q ^ 2 / U ^ 2))
      = Thr.dLamAtAsQG dl m32 (Q ^ 2) (U ^ 2) m3 Q U X L := by
  unfold Thr.dLamAtAsQG
  simp only [p2_of (rfl : Q ^ 2 = _), p2_of (rfl : U ^ 2 = _), real_log]
  simp only [real_ofNat, real_ofInt, Himalaya.pow2, Misc.pow2, Misc.pow3, Misc.pow4, Misc.pow5, Misc.pow6, Misc.pow8, Misc.power10]
  push_cast
  generalize Real.log (U ^ 2 / Q ^ 2) = lU
  generalize dl (1 - Q ^ 2 / U ^ 2) = D
  simp only [gQG, gQG0, gQG1, gQG2, gQG3, gQG4, gQG5, gQG0p0, gQG0p1, gQG0p2, gQG0p3, gQG0p4, gQG0p5, gQG0p6, gQG0p7, gQG0p8, gQG0p9, gQG1p0, gQG1p1, gQG1p2, gQG1p3, gQG1p4, gQG1p5, gQG1p6, gQG2p0, gQG2p1, gQG2p2, gQG2p3, gQG2p4, gQG2p5, gQG2p6, gQG3p0, gQG3p1, gQG3p2, gQG3p3, gQG3p4, gQG3p5, gQG3p6, gQG3p7, gQG4p0, gQG4p1, gQG4p2, gQG4p3, gQG4p4, gQG4p5, gQG4p6, gQG4p7, gQG4p8, gQG5p0, gQG5p1, gQG5p2, gQG5p3, gQG5p4, zero_mul, mul_zero, add_zero, sub_zero, zero_add, zero_sub, ne_eq, OfNat.ofNat_ne_zero, not_false_eq_true, zero_pow]
  have d1 : Q ^ 2 - U ^ 2 = -U ^ 2 + Q ^ 2 := by ring
  have d2 : -(Q ^ 2 * U) + U * U * U = - (U * (-U ^ 2 + Q ^ 2)) := by ring
  have d3 : Q ^ 2 * U ^ 2 - U * U * (U * U) = U ^ 2 * (-U ^ 2 + Q ^ 2) := by ring
  simp only [d1, d2, d3]
  generalize hE : -U ^ 2 + Q ^ 2 = E at *
  field_simp
  subst hE
  ring

set_option maxRecDepth 8000 in
theorem gUG_zero {X Q U L m32 m3 : ℝ} (dl : ℝ → ℝ) (hQ : Q ≠ 0) (hU : U ≠ 0) (hUq : Q ^ 2 - U ^ 2 ≠ 0) :
    gUG X U (Q ^ 2) L (Real.log (U ^ 2 / Q ^ 2)) 0 0 0 (dl (1 - U ^ 2 / Q ^ 2))
      = Thr.dLamAtAsUG dl m32 (Q ^ 2) (U ^ 2) m3 Q U X L := by
  unfold Thr.dLamAtAsUG
  simp only [p2_of (rfl : Q ^ 2 = _), p2_of (rfl : U ^ 2 = _), real_log]
  simp only [real_ofNat, real_ofInt, Himalaya.pow2, Misc.pow2, Misc.pow3, Misc.pow4, Misc.pow5, Misc.pow6, Misc.pow8, Misc.power10]
  push_cast
  generalize Real.log (U ^ 2 / Q ^ 2) = lU
  generalize dl (1 - U ^ 2 / Q ^ 2) = D
  simp only [gUG, gUG0, gUG1, gUG2, gUG3, gUG4, gUG5, gUG0p0, gUG0p1, gUG0p2, gUG0p3, gUG0p4, gUG0p5, gUG0p6, gUG0p7, gUG0p8, gUG0p9, gUG1p0, gUG1p1, gUG1p2, gUG1p3, gUG1p4, gUG1p5, gUG1p6, gUG2p0, gUG2p1, gUG2p2, gUG2p3, gUG2p4, gUG2p5, gUG2p6, gUG3p0, gUG3p1, gUG3p2, gUG3p3, gUG3p4, gUG3p5, gUG3p6, gUG3p7, gUG4p0, gUG4p1, gUG4p2, gUG4p3, gUG4p4, gUG4p5, gUG4p6, gUG4p7, gUG4p8, gUG5p0, gUG5p1, gUG5p2, gUG5p3, gUG5p4, zero_mul, mul_zero, add_zero, sub_zero, zero_add, zero_sub, ne_eq, OfNat.ofNat_ne_zero, not_false_eq_true, zero_pow]
  generalize hE : Q ^ 2 - U ^ 2 = E at *
  field_simp
  subst hE
  ring

theorem gQUG_zero {X Q U L m32 m3 mU32 : ℝ} (dl : ℝ → ℝ) (hQ : Q ≠ 0) :
    gQUG X Q L 0 0 0 = Thr.dLamAtAsQUG dl m32 (Q ^ 2) mU32 m3 Q U X L := by
  unfold Thr.dLamAtAsQUG
  simp only [real_ofNat, real_ofInt, Himalaya.pow2, Misc.pow2, Misc.pow3, Misc.pow4, Misc.pow5, Misc.pow6, Misc.pow8, Misc.power10]
  push_cast
  simp only [gQUG, gQUG0, gQUG1, gQUG2, gQUG3, gQUG4, gQUG5, gQUG0p0, gQUG0p1, gQUG0p2, gQUG0p3, gQUG0p4, gQUG1p0, gQUG1p1, gQUG1p2, gQUG1p3, gQUG2p0, gQUG2p1, gQUG2p2, gQUG3p0, gQUG3p1, gQUG3p2, gQUG4p0, gQUG4p1, gQUG4p2, gQUG5p0, gQUG5p1, zero_mul, mul_zero, add_zero, sub_zero, zero_add, zero_sub, ne_eq, OfNat.ofNat_ne_zero, not_false_eq_true, zero_pow]
  field_simp
  ring
end Himalaya.Cont
