import Verif.EFT.Switches
import Verif.EFT.Taylor

/-!
# Threshold corrections near the mass limits: regularised representations

The definitions `g…` were printed by tools/gen_cont.py; the lemmas prove that they are the `GENERAL` formulas.
-/

set_option linter.unusedSimpArgs false
set_option linter.unusedVariables false
set_option linter.style.longLine false

namespace Himalaya.Cont
open Filter Topology

noncomputable def gYtQU (q a X L la e r : ℝ) : ℝ :=
    (((2 / 3) * q ^ 3 - (2 / 3) * a ^ 2 * q ^ 2 + 2 * e * q ^ 3 - (8 / 3) * a ^ 2 * e * q ^ 2 - (2 / 3) * a ^ 4 * q +
    2 * e ^ 2 * q ^ 3 - (8 / 3) * a ^ 2 * e ^ 2 * q ^ 2 + (2 / 3) * a ^ 4 * e * q + (2 / 3) * a ^ 6 + (2 / 3) * e ^ 3
    * q ^ 3 - (2 / 3) * a ^ 2 * e ^ 3 * q ^ 2 + (4 / 3) * a ^ 4 * e ^ 2 * q) / ((-q + a ^ 2) * (q - a ^ 2 + e * q) ^
    2)) + L * ((-4 / 3)) + X * (((8 / 3) * a + (8 / 3) * a * e) / ((q - a ^ 2 + e * q))) + X * la * ((-(8 / 3) * a ^
    3) / ((-q + a ^ 2) * (q - a ^ 2 + e * q))) + X * r * (((8 / 3) * a + (8 / 3) * a * e) / ((q - a ^ 2 + e * q))) +
    la * ((-(4 / 3) * a ^ 4 * q ^ 2 - (4 / 3) * a ^ 4 * e * q ^ 2 + (8 / 3) * a ^ 6 * q - (2 / 3) * a ^ 4 * e ^ 2 * q
    ^ 2 + (4 / 3) * a ^ 6 * e * q - (4 / 3) * a ^ 8) / ((-q + a ^ 2) ^ 2 * (q - a ^ 2 + e * q) ^ 2)) + r * ((-(2 / 3)
    * e * q ^ 2 + (4 / 3) * a ^ 2 * e * q - (4 / 3) * e ^ 2 * q ^ 2 + (4 / 3) * a ^ 2 * e ^ 2 * q - (2 / 3) * e ^ 3 *
    q ^ 2) / ((q - a ^ 2 + e * q) ^ 2))

noncomputable def gYtQG (Q u X L lU e r : ℝ) : ℝ :=
    ((-4 * u ^ 2 + (16 / 3) * Q ^ 2 * u - (16 / 3) * e * u ^ 2 + (56 / 3) * Q ^ 2 * e * u - (4 / 3) * Q ^ 4 - (4 / 3)
    * e ^ 2 * u ^ 2 + (70 / 3) * Q ^ 2 * e ^ 2 * u - (40 / 3) * Q ^ 4 * e + (4 / 3) * e ^ 3 * u ^ 2 + (28 / 3) * Q ^ 2
    * e ^ 3 * u - (130 / 3) * Q ^ 4 * e ^ 2 + (2 / 3) * e ^ 4 * u ^ 2 - (14 / 3) * Q ^ 2 * e ^ 4 * u - 64 * Q ^ 4 * e
    ^ 3 - (16 / 3) * Q ^ 2 * e ^ 5 * u - (124 / 3) * Q ^ 4 * e ^ 4 - (4 / 3) * Q ^ 2 * e ^ 6 * u + (46 / 3) * Q ^ 4 *
    e ^ 6 + 8 * Q ^ 4 * e ^ 7 + (4 / 3) * Q ^ 4 * e ^ 8) / ((-u + Q ^ 2 + 2 * Q ^ 2 * e + Q ^ 2 * e ^ 2) ^ 2 * (2 + e)
    ^ 2)) + L * ((-4 / 3)) + X * (((16 / 3) * Q + (40 / 3) * Q * e + 8 * Q * e ^ 2 - (8 / 3) * Q * e ^ 3 - (8 / 3) * Q
    * e ^ 4) / ((-u + Q ^ 2 + 2 * Q ^ 2 * e + Q ^ 2 * e ^ 2) * (2 + e))) + X * lU * (((8 / 3) * Q * u + (8 / 3) * Q *
    e * u) / ((-u + Q ^ 2 + 2 * Q ^ 2 * e + Q ^ 2 * e ^ 2) * (-u + Q ^ 2))) + X * r * (((8 / 3) * Q * e + 8 * Q * e ^
    2 + 8 * Q * e ^ 3 + (8 / 3) * Q * e ^ 4) / ((-u + Q ^ 2 + 2 * Q ^ 2 * e + Q ^ 2 * e ^ 2) * (2 + e))) + lU * ((-(2
    / 3) * u ^ 2 + (4 / 3) * Q ^ 2 * u + (8 / 3) * Q ^ 2 * e * u + (4 / 3) * Q ^ 2 * e ^ 2 * u) / ((-u + Q ^ 2 + 2 * Q
    ^ 2 * e + Q ^ 2 * e ^ 2) ^ 2)) + r * ((-(2 / 3) * u ^ 2 + (4 / 3) * Q ^ 2 * u - (8 / 3) * e * u ^ 2 + 8 * Q ^ 2 *
    e * u - (2 / 3) * Q ^ 4 - 4 * e ^ 2 * u ^ 2 + 20 * Q ^ 2 * e ^ 2 * u - (16 / 3) * Q ^ 4 * e - (8 / 3) * e ^ 3 * u
    ^ 2 + (80 / 3) * Q ^ 2 * e ^ 3 * u - (64 / 3) * Q ^ 4 * e ^ 2 - (2 / 3) * e ^ 4 * u ^ 2 + 20 * Q ^ 2 * e ^ 4 * u -
    (152 / 3) * Q ^ 4 * e ^ 3 + 8 * Q ^ 2 * e ^ 5 * u - 74 * Q ^ 4 * e ^ 4 + (4 / 3) * Q ^ 2 * e ^ 6 * u - (200 / 3) *
    Q ^ 4 * e ^ 5 - 36 * Q ^ 4 * e ^ 6 - (32 / 3) * Q ^ 4 * e ^ 7 - (4 / 3) * Q ^ 4 * e ^ 8) / ((-u + Q ^ 2 + 2 * Q ^
    2 * e + Q ^ 2 * e ^ 2) ^ 2 * (2 + e) ^ 2))

noncomputable def gYtUG (U q X L lU e r : ℝ) : ℝ :=
    ((-4 * q ^ 2 + (16 / 3) * U ^ 2 * q - (16 / 3) * e * q ^ 2 + (56 / 3) * U ^ 2 * e * q - (4 / 3) * U ^ 4 - (4 / 3)
    * e ^ 2 * q ^ 2 + (70 / 3) * U ^ 2 * e ^ 2 * q - (40 / 3) * U ^ 4 * e + (4 / 3) * e ^ 3 * q ^ 2 + (28 / 3) * U ^ 2
    * e ^ 3 * q - (130 / 3) * U ^ 4 * e ^ 2 + (2 / 3) * e ^ 4 * q ^ 2 - (14 / 3) * U ^ 2 * e ^ 4 * q - 64 * U ^ 4 * e
    ^ 3 - (16 / 3) * U ^ 2 * e ^ 5 * q - (124 / 3) * U ^ 4 * e ^ 4 - (4 / 3) * U ^ 2 * e ^ 6 * q + (46 / 3) * U ^ 4 *
    e ^ 6 + 8 * U ^ 4 * e ^ 7 + (4 / 3) * U ^ 4 * e ^ 8) / ((2 + e) ^ 2 * (q - U ^ 2 - 2 * U ^ 2 * e - U ^ 2 * e ^ 2)
    ^ 2)) + L * ((-4 / 3)) + X * ((-(16 / 3) * U - (40 / 3) * U * e - 8 * U * e ^ 2 + (8 / 3) * U * e ^ 3 + (8 / 3) *
    U * e ^ 4) / ((2 + e) * (q - U ^ 2 - 2 * U ^ 2 * e - U ^ 2 * e ^ 2))) + X * lU * ((-(8 / 3) * U * q - (8 / 3) * U
    * e * q) / ((q - U ^ 2) * (q - U ^ 2 - 2 * U ^ 2 * e - U ^ 2 * e ^ 2))) + X * r * ((-(8 / 3) * U * e - 8 * U * e ^
    2 - 8 * U * e ^ 3 - (8 / 3) * U * e ^ 4) / ((2 + e) * (q - U ^ 2 - 2 * U ^ 2 * e - U ^ 2 * e ^ 2))) + lU * ((-(2 /
    3) * q ^ 2 + (4 / 3) * U ^ 2 * q + (8 / 3) * U ^ 2 * e * q - (4 / 3) * U ^ 4 + (4 / 3) * U ^ 2 * e ^ 2 * q - (16 /
    3) * U ^ 4 * e - 8 * U ^ 4 * e ^ 2 - (16 / 3) * U ^ 4 * e ^ 3 - (4 / 3) * U ^ 4 * e ^ 4) / ((q - U ^ 2 - 2 * U ^ 2
    * e - U ^ 2 * e ^ 2) ^ 2)) + r * ((-(2 / 3) * q ^ 2 + (4 / 3) * U ^ 2 * q - (8 / 3) * e * q ^ 2 + 8 * U ^ 2 * e *
    q - (2 / 3) * U ^ 4 - 4 * e ^ 2 * q ^ 2 + 20 * U ^ 2 * e ^ 2 * q - (16 / 3) * U ^ 4 * e - (8 / 3) * e ^ 3 * q ^ 2
    + (80 / 3) * U ^ 2 * e ^ 3 * q - (64 / 3) * U ^ 4 * e ^ 2 - (2 / 3) * e ^ 4 * q ^ 2 + 20 * U ^ 2 * e ^ 4 * q -
    (152 / 3) * U ^ 4 * e ^ 3 + 8 * U ^ 2 * e ^ 5 * q - 74 * U ^ 4 * e ^ 4 + (4 / 3) * U ^ 2 * e ^ 6 * q - (200 / 3) *
    U ^ 4 * e ^ 5 - 36 * U ^ 4 * e ^ 6 - (32 / 3) * U ^ 4 * e ^ 7 - (4 / 3) * U ^ 4 * e ^ 8) / ((2 + e) ^ 2 * (q - U ^
    2 - 2 * U ^ 2 * e - U ^ 2 * e ^ 2) ^ 2))

noncomputable def gYtQUG (Q X L e r : ℝ) : ℝ :=
    ((-16 / 3 - 8 * e - 2 * e ^ 2 + (8 / 3) * e ^ 3 + (4 / 3) * e ^ 4) / ((2 + e) ^ 2)) + L * ((-4 / 3)) + X * ((16 /
    3 + (16 / 3) * e - (8 / 3) * e ^ 2 - (8 / 3) * e ^ 3) / ((Q) * (2 + e) ^ 2)) + X * r * ((8 / 3 + 8 * e + 8 * e ^ 2
    + (8 / 3) * e ^ 3) / ((Q) * (2 + e) ^ 2)) + r * ((-4 / 3 - (16 / 3) * e - 8 * e ^ 2 - (16 / 3) * e ^ 3 - (4 / 3) *
    e ^ 4) / ((2 + e) ^ 2))

noncomputable def gLamQU (q X L e r : ℝ) : ℝ :=
    ((6 * e - 3 * e ^ 2 + 2 * e ^ 3)) + L * ((12)) + X ^ 2 * ((12 - 6 * e + 4 * e ^ 2) / ((q))) + X ^ 2 * r * ((12 * e
    ^ 2) / ((q))) + X ^ 4 * ((-1 - 2 * e) / ((q) ^ 2)) + X ^ 4 * r * ((-12 - 6 * e) / ((q) ^ 2)) + r * ((6 * e ^ 3))


theorem p2_of {x y : ℝ} (h : x ^ 2 = y) : Himalaya.pow2 x = y := by unfold Himalaya.pow2; rw [← h]; ring
theorem p4_of {x y : ℝ} (h : x ^ 2 = y) : Misc.pow4 x = y ^ 2 := by rw [← h]; simp only [Misc.pow4, Misc.pow2, Misc.pow3]; ring

set_option maxRecDepth 4000 in
theorem yt_qu_repr {q a X L e r Q U : ℝ} (hq : q ≠ 0) (he : e ≠ 0) (h1 : 1 + e ≠ 0) (ha : a ^ 2 - q ≠ 0)
    (hau : q + q * e - a ^ 2 ≠ 0) (hQ : Q ^ 2 = q) (hU : U ^ 2 = q * (1 + e)) (hl : Real.log (1 + e) = e + e * r) :
    Thr.dYtAsGen (a ^ 2) q (q * (1 + e)) a Q U X L = gYtQU q a X L (Real.log (a ^ 2 / q)) e r := by
  have e1 : q * (1 + e) / q = 1 + e := by field_simp
  unfold Thr.dYtAsGen
  simp only [p2_of hQ, p4_of hQ, p2_of hU, p4_of hU]
  simp only [real_log, e1, hl]
  generalize Real.log (a ^ 2 / q) = la
  simp only [real_ofNat, real_ofInt, Himalaya.pow2, Misc.pow2, Misc.pow3, Misc.pow4, Misc.pow5]
  push_cast
  unfold gYtQU
  have hau' : a ^ 2 - q * (1 + e) ≠ 0 := by intro h; apply hau; linear_combination -h
  have hau2 : -a ^ 2 + q ≠ 0 := by intro h; apply ha; linear_combination -h
  have hau3 : -q + a ^ 2 ≠ 0 := by intro h; apply ha; linear_combination h
  have hau4 : q - a ^ 2 + e * q ≠ 0 := by intro h; apply hau; linear_combination h
  have d1 : -q + q * (1 + e) = q * e := by ring
  have d2 : q - q * (1 + e) = - (q * e) := by ring
  have d3 : a ^ 2 - q * (1 + e) = - (q - a ^ 2 + e * q) := by ring
  have d4 : -a ^ 2 + q = - (-q + a ^ 2) := by ring
  have d5 : a ^ 2 - q = (-q + a ^ 2) := by ring
  rw [d1, d2, d3, d4, d5]
  generalize hD : q - a ^ 2 + e * q = D at *
  generalize hE : -q + a ^ 2 = E at *
  field_simp
  rw [← hD, ← hE]
  ring

set_option maxRecDepth 4000 in
theorem yt_qg_repr {Q u X L e r U : ℝ} (hQ : Q ≠ 0) (he : e ≠ 0) (h2 : 2 + e ≠ 0) (hu : Q ^ 2 - u ≠ 0)
    (hgu : Q ^ 2 * (1 + e) ^ 2 - u ≠ 0) (hU : U ^ 2 = u) (hl : 2 * Real.log (1 + e) = 2 * e - e ^ 2 + e ^ 2 * r) :
    Thr.dYtAsGen ((Q * (1 + e)) ^ 2) (Q ^ 2) u (Q * (1 + e)) Q U X L = gYtQG Q u X L (Real.log (u / Q ^ 2)) e r := by
  have e1 : (Q * (1 + e)) ^ 2 / Q ^ 2 = (1 + e) ^ 2 := by field_simp
  have e2 : Real.log ((1 + e) ^ 2) = 2 * e - e ^ 2 + e ^ 2 * r := by rw [← hl, Real.log_pow]; norm_num
  unfold Thr.dYtAsGen
  simp only [p2_of (rfl : Q ^ 2 = _), p4_of (rfl : Q ^ 2 = _), p2_of hU, p4_of hU]
  simp only [real_log, e1, e2]
  generalize Real.log (u / Q ^ 2) = la
  simp only [real_ofNat, real_ofInt, Himalaya.pow2, Misc.pow2, Misc.pow3, Misc.pow4, Misc.pow5]
  push_cast
  unfold gYtQG
  have n1 : (Q * (1 + e)) ^ 2 - u ≠ 0 := by intro h; apply hgu; linear_combination h
  have n2 : -u + Q ^ 2 ≠ 0 := by intro h; apply hu; linear_combination h
  have n3 : -u + Q ^ 2 + 2 * Q ^ 2 * e + Q ^ 2 * e ^ 2 ≠ 0 := by intro h; apply hgu; linear_combination h
  have d1 : -(Q * (1 + e)) ^ 2 + Q ^ 2 = - (Q ^ 2 * (e * (2 + e))) := by ring
  have d2 : (Q * (1 + e)) ^ 2 - Q ^ 2 = Q ^ 2 * (e * (2 + e)) := by ring
  have d3 : -Q ^ 2 + u = - (-u + Q ^ 2) := by ring
  have d4 : (Q * (1 + e)) ^ 2 - u = -u + Q ^ 2 + 2 * Q ^ 2 * e + Q ^ 2 * e ^ 2 := by ring
  rw [d1, d2, d3, d4]
  generalize hD : -u + Q ^ 2 + 2 * Q ^ 2 * e + Q ^ 2 * e ^ 2 = D at *
  generalize hE : -u + Q ^ 2 = E at *
  generalize hF : 2 + e = F at *
  field_simp
  rw [← hD, ← hE, ← hF]
  ring

set_option maxRecDepth 4000 in
theorem yt_ug_repr {U q X L e r Q : ℝ} (hU : U ≠ 0) (he : e ≠ 0) (h2 : 2 + e ≠ 0) (h1 : 1 + e ≠ 0) (hq0 : q ≠ 0) (hu : q - U ^ 2 ≠ 0)
    (hgu : q - U ^ 2 * (1 + e) ^ 2 ≠ 0) (hQ : Q ^ 2 = q) (hl : 2 * Real.log (1 + e) = 2 * e - e ^ 2 + e ^ 2 * r) :
    Thr.dYtAsGen ((U * (1 + e)) ^ 2) q (U ^ 2) (U * (1 + e)) Q U X L = gYtUG U q X L (Real.log (U ^ 2 / q)) e r := by
  have e1 : (U * (1 + e)) ^ 2 / q = (U ^ 2 / q) * (1 + e) ^ 2 := by field_simp
  have e2 : Real.log ((U * (1 + e)) ^ 2 / q) = Real.log (U ^ 2 / q) + (2 * e - e ^ 2 + e ^ 2 * r) := by
    rw [e1, Real.log_mul (by positivity) (by positivity), ← hl, Real.log_pow]; norm_num
  unfold Thr.dYtAsGen
  simp only [p2_of (rfl : U ^ 2 = _), p4_of (rfl : U ^ 2 = _), p2_of hQ, p4_of hQ]
  simp only [real_log, e2]
  generalize Real.log (U ^ 2 / q) = la
  simp only [real_ofNat, real_ofInt, Himalaya.pow2, Misc.pow2, Misc.pow3, Misc.pow4, Misc.pow5]
  push_cast
  unfold gYtUG
  have n3 : q - U ^ 2 - 2 * U ^ 2 * e - U ^ 2 * e ^ 2 ≠ 0 := by intro h; apply hgu; linear_combination h
  have d1 : -(U * (1 + e)) ^ 2 + q = q - U ^ 2 - 2 * U ^ 2 * e - U ^ 2 * e ^ 2 := by ring
  have d2 : (U * (1 + e)) ^ 2 - U ^ 2 = U ^ 2 * (e * (2 + e)) := by ring
  have d3 : -q + U ^ 2 = - (q - U ^ 2) := by ring
  have d4 : (U * (1 + e)) ^ 2 - q = - (q - U ^ 2 - 2 * U ^ 2 * e - U ^ 2 * e ^ 2) := by ring
  rw [d1, d2, d3, d4]
  generalize hD : q - U ^ 2 - 2 * U ^ 2 * e - U ^ 2 * e ^ 2 = D at *
  generalize hE : q - U ^ 2 = E at *
  generalize hF : 2 + e = F at *
  field_simp
  rw [← hD, ← hE, ← hF]
  ring

theorem yt_qug_repr {Q u X L e r U : ℝ} (hQ : Q ≠ 0) (he : e ≠ 0) (h2 : 2 + e ≠ 0)
    (hl : 2 * Real.log (1 + e) = 2 * e - e ^ 2 + e ^ 2 * r) :
    Thr.dYtAsQU ((Q * (1 + e)) ^ 2) (Q ^ 2) u (Q * (1 + e)) Q U X L = gYtQUG Q X L e r := by
  have e1 : (Q * (1 + e)) ^ 2 / Q ^ 2 = (1 + e) ^ 2 := by field_simp
  have e2 : Real.log ((1 + e) ^ 2) = 2 * e - e ^ 2 + e ^ 2 * r := by rw [← hl, Real.log_pow]; norm_num
  unfold Thr.dYtAsQU
  simp only [p2_of (rfl : Q ^ 2 = _), real_log, e1, e2]
  simp only [real_ofNat, real_ofInt, Himalaya.pow2, Misc.pow2, Misc.pow3, Misc.pow4, Misc.pow5]
  push_cast
  unfold gYtQUG
  have d2 : (Q * (1 + e)) ^ 2 - Q ^ 2 = Q ^ 2 * (e * (2 + e)) := by ring
  rw [d2]
  generalize hF : 2 + e = F at *
  field_simp
  rw [← hF]
  ring

theorem lam_qu_repr {q X L e r m32 m3 Q U : ℝ} (hq : q ≠ 0) (he : e ≠ 0)
    (hl : Real.log (1 + e) = e - e ^ 2 / 2 + e ^ 3 / 3 + e ^ 3 * r) :
    Thr.dLamAtGen m32 q (q * (1 + e)) m3 Q U X L = gLamQU q X L e r := by
  have e1 : q * (1 + e) / q = 1 + e := by field_simp
  unfold Thr.dLamAtGen
  simp only [real_log, e1, hl]
  simp only [real_ofNat, real_ofInt, Himalaya.pow2, Misc.pow2, Misc.pow3, Misc.pow4, Misc.pow5]
  push_cast
  unfold gLamQU
  have d2 : q - q * (1 + e) = - (q * e) := by ring
  rw [d2]
  field_simp
  ring
end Himalaya.Cont
