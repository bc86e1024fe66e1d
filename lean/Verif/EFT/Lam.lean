import Verif.EFT.Repr

/-!
# `getDeltaLambdaAlphatAlphas` by powers of `Xt`

Printed by tools/mk_lam.py; `lam_split` proves that the coefficients `c0 … c5` are those of the code's `GENERAL` formula and
`lamQU_split` the same for `b0 … b5` and `MQ3_EQ_MU3`.
`a = m3`, `q = mQ32`, `u = mU32`, `L = lmQ3MR`, `lU = log(u/q)`, `la = log(a²/q)`, `D1 = Li2(1-a²/q)`, `D2 = Li2(1-a²/u)`.
-/

set_option linter.unusedSimpArgs false
set_option linter.unusedVariables false
set_option linter.style.longLine false

namespace Himalaya.Cont
open Filter Topology


noncomputable def c0 (a q u L lU la D1 D2 : ℝ) : ℝ :=
    16 * ((-6) * L ^ 2 - 2 * D1 * (2 * (q - u) ^ 3 * a ^ 4) / ((a ^ 2 - q) ^ 2 * (q - u) ^ 3) - 2 * D2 * (2 * (q - u)
    ^ 3 * a ^ 4) / ((a ^ 2 - u) ^ 2 * (q - u) ^ 3) + ((-6) * a ^ 2 * q * u * (q + u) + 3 * q ^ 2 * u ^ 2 + a ^ 4 * (9
    * q * u + 2 * q ^ 2 + 2 * u ^ 2) - 2 * (q + u) * a ^ 6) / ((-(a ^ 2) + q) * (a ^ 2 - u) * q * u) + 2 * L * ((q -
    u) * (2 * q * u * ((-2) * q * u + q ^ 2 + u ^ 2) - a ^ 2 * (u * (u * u) - u * q ^ 2 + q * (-(u ^ 2)) + q ^ 3)) /
    (q * u) - lU * ((-9) * u * q ^ 2 + q * (9 * u ^ 2) + 3 * q ^ 3 - 3 * u ^ 3)) / (q - u) ^ 3 - lU ^ 2 * (((-4) * a ^
    2 * u + 3 * a ^ 4 + 2 * u ^ 2) * (q - u) ^ 4) / ((a ^ 2 - u) ^ 2 * (q - u) ^ 4) + lU * ((q - u) ^ 3 * (-((6 * q +
    7 * u) * a ^ 4) - 2 * q * u ^ 2 + a ^ 2 * (5 * q * u + 3 * u ^ 2) + 7 * a ^ 6)) / ((a ^ 2 - q) * (a ^ 2 - u) ^ 2 *
    (q - u) ^ 3) - a ^ 2 * la * (a * q * u * lU * (a * (2 * a ^ 2 - q - u) * (q - u) ^ 4) + a ^ 2 * (q - u) ^ 3 * (2 *
    a ^ 2 * (q + u) * (q - u) ^ 2 + a ^ 4 * (2 * q * u - 4 * q ^ 2 - 4 * u ^ 2) + q * u * (q ^ 2 + u ^ 2) + 2 * (q +
    u) * a ^ 6)) / (q * (a ^ 2 - q) ^ 2 * u * (a ^ 2 - u) ^ 2 * (q - u) ^ 3))

noncomputable def c1 (a q u L lU la D1 D2 : ℝ) : ℝ :=
    16 * (-(2 * D1 * ((-8) * (a ^ 2 - q) * (q - u) ^ 2 * a ^ 3) / ((a ^ 2 - q) ^ 2 * (q - u) ^ 3)) - 2 * D2 * (8 * (a
    ^ 2 - u) * (q - u) ^ 2 * a ^ 3) / ((a ^ 2 - u) ^ 2 * (q - u) ^ 3) + 2 * L * (-(lU * (4 * a * q ^ 2 + 2 * (2 * a) *
    u ^ 2 + q * (4 * u * ((-2) * a))))) / (q - u) ^ 3 - lU ^ 2 * (4 * (a ^ 2 - u) * (-(a * u) + 2 * a ^ 3) * (q - u) ^
    3) / ((a ^ 2 - u) ^ 2 * (q - u) ^ 4) + lU * (8 * a * (a ^ 2 - q) * (a ^ 2 - u) ^ 2 * (q - u) ^ 2) / ((a ^ 2 - q) *
    (a ^ 2 - u) ^ 2 * (q - u) ^ 3) - a ^ 2 * la * (a * q * u * lU * ((-4) * (a ^ 2 - q) * (a ^ 2 - u) * (2 * a ^ 2 - q
    - u) * (q - u) ^ 2)) / (q * (a ^ 2 - q) ^ 2 * u * (a ^ 2 - u) ^ 2 * (q - u) ^ 3))

noncomputable def c2 (a q u L lU la D1 D2 : ℝ) : ℝ :=
    16 * (-(4 * a ^ 2 / (q * u)) + 2 * L * ((q - u) * (-(a ^ 2 * (u * (u * (-1) + (-1) * u) - 2 * q ^ 2 + q * (4 *
    u)))) / (q * u) - lU * ((-6) * q ^ 2 + 2 * (-3) * u ^ 2 + q * (4 * u * 3))) / (q - u) ^ 3 - lU ^ 2 * (-(2 * (q -
    u) ^ 2 * ((q - 3 * u) * a ^ 4 + 2 * (q - 2 * u) * u ^ 2 + a ^ 2 * ((-4) * q * u + 8 * u ^ 2)))) / ((a ^ 2 - u) ^ 2
    * (q - u) ^ 4) + lU * (-(2 * (a ^ 2 - u) * (q - u) ^ 2 * (3 * q * u - 2 * a ^ 2 * (3 * q + 2 * u) + 7 * a ^ 4))) /
    ((a ^ 2 - q) * (a ^ 2 - u) ^ 2 * (q - u) ^ 3) - a ^ 2 * la * ((-4) * a ^ 2 * (a ^ 2 - q) * (a ^ 2 - u) * (a ^ 2 -
    q - u) * (q - u) ^ 3 + a * q * u * lU * (-(2 * a * (q - u) ^ 2 * ((-2) * a ^ 2 * (q + u) + 2 * a ^ 4 + q ^ 2 + u ^
    2)))) / (q * (a ^ 2 - q) ^ 2 * u * (a ^ 2 - u) ^ 2 * (q - u) ^ 3))

noncomputable def c3 (a q u L lU la D1 D2 : ℝ) : ℝ :=
    16 * (-(32 * a / (q - u) ^ 2) - 2 * D1 * (-(4 * a * (2 * a ^ 2 - q - u) * (a ^ 2 - q) ^ 2)) / ((a ^ 2 - q) ^ 2 *
    (q - u) ^ 3) - 2 * D2 * (4 * a * (2 * a ^ 2 - q - u) * (a ^ 2 - u) ^ 2) / ((a ^ 2 - u) ^ 2 * (q - u) ^ 3) + 2 * L
    * ((q - u) * (8 * a * q * u) / (q * u) - lU * (u * ((-4) * a) + q * ((-4) * a))) / (q - u) ^ 3 - lU ^ 2 * (4 * a *
    (a ^ 2 - u) * (q - u) * (3 * q * u - a ^ 2 * (q + 3 * u) + 2 * a ^ 4 - u ^ 2)) / ((a ^ 2 - u) ^ 2 * (q - u) ^ 4) +
    lU * (-(8 * a * (a ^ 2 - q) * (q + 3 * u) * (a ^ 2 - u) ^ 2)) / ((a ^ 2 - q) * (a ^ 2 - u) ^ 2 * (q - u) ^ 3) - a
    ^ 2 * la * (a * q * u * lU * (-(8 * (a ^ 2 - q) * (a ^ 2 - u) * (4 * q * u - 2 * a ^ 2 * (q + u) + 2 * a ^ 4 - q ^
    2 - u ^ 2)))) / (q * (a ^ 2 - q) ^ 2 * u * (a ^ 2 - u) ^ 2 * (q - u) ^ 3))

noncomputable def c4 (a q u L lU la D1 D2 : ℝ) : ℝ :=
    16 * (-(2 * D1 * (-((2 * a ^ 2 - q - u) * (a ^ 2 - q) ^ 2)) / ((a ^ 2 - q) ^ 2 * (q - u) ^ 3)) - 2 * D2 * ((2 * a
    ^ 2 - q - u) * (a ^ 2 - u) ^ 2) / ((a ^ 2 - u) ^ 2 * (q - u) ^ 3) + 2 * ((-5) * a ^ 2 * q * u * (q + u) + 5 * q ^
    2 * u ^ 2 - a ^ 4 * ((-5) * q * u + q ^ 2 + u ^ 2) + (q + u) * a ^ 6) / ((a ^ 2 - q) * (a ^ 2 - u) * q * u * (q -
    u) ^ 2) + 2 * L * ((q - u) * (2 * q * u * (-3) - a ^ 2 * (u * ((-1) * (-1)) + q)) / (q * u) - lU * (u * 3 + q * 3
    + 2 * a ^ 2)) / (q - u) ^ 3 - lU ^ 2 * ((-8) * q * u * a ^ 4 + ((-4) * q * u + q ^ 2 - 5 * u ^ 2) * u ^ 2 + 2 * (q
    - u) * a ^ 6 + a ^ 2 * ((-2) * u * q ^ 2 + 10 * q * u ^ 2 + 8 * u ^ 3)) / ((a ^ 2 - u) ^ 2 * (q - u) ^ 4) + lU *
    ((-3) * q * (q + 5 * u) * u ^ 2 - a ^ 4 * (15 * q * u + 6 * q ^ 2 + 29 * u ^ 2) + (3 * q + 7 * u) * a ^ 6 + a ^ 2
    * (7 * u * q ^ 2 + 31 * q * u ^ 2 + 16 * u ^ 3) + 4 * a ^ 8) / ((a ^ 2 - q) * (a ^ 2 - u) ^ 2 * (q - u) ^ 3) - a ^
    2 * la * (a * q * u * lU * (a * (q + u) * ((-2) * a ^ 2 * (q + u) + 2 * a ^ 4 + q ^ 2 + u ^ 2)) + 2 * (q - u) *
    ((q + u) ^ 3 * a ^ 4 + (q + u) * q ^ 2 * u ^ 2 - a ^ 2 * q * u * (4 * q * u + q ^ 2 + u ^ 2) - 2 * (q * u + q ^ 2
    + u ^ 2) * a ^ 6 + (q + u) * a ^ 8)) / (q * (a ^ 2 - q) ^ 2 * u * (a ^ 2 - u) ^ 2 * (q - u) ^ 3))

noncomputable def c5 (a q u L lU la D1 D2 : ℝ) : ℝ :=
    16 * (-(lU ^ 2 * (-(4 * a * (a ^ 2 - u) * u * (q + u))) / ((a ^ 2 - u) ^ 2 * (q - u) ^ 4)) + lU * (8 * a * (a ^ 2
    - q) * (a ^ 2 - u) * u) / ((a ^ 2 - q) * (a ^ 2 - u) ^ 2 * (q - u) ^ 3) - a ^ 2 * la * (-(8 * a * (a ^ 2 - q) * q
    * (a ^ 2 - u) * (q - u) * u) + a * q * u * lU * (-(4 * (a ^ 2 - q) * (a ^ 2 - u) * (q + u)))) / (q * (a ^ 2 - q) ^
    2 * u * (a ^ 2 - u) ^ 2 * (q - u) ^ 3))

noncomputable def b0 (a q L la D1 : ℝ) : ℝ :=
    (-8) * (48 * a * D1 * a ^ 3 * q ^ 3 + 4 * la * a ^ 3 * (a ^ 3 * (6 * q ^ 2) + a * (3 * q ^ 3)) + (a ^ 2 - q) * (4
    * (-1 + L) * a ^ 4 * (6 * q ^ 2) - q ^ 2 * (6 * (3 - 4 * L + 6 * L ^ 2) * q ^ 2) + a ^ 2 * (6 * (9 - 8 * L + 6 * L
    ^ 2) * q ^ 3))) / (3 * (a ^ 2 - q) ^ 2 * q ^ 3)

noncomputable def b1 (a q L la D1 : ℝ) : ℝ :=
    (-8) * (48 * (-2) * D1 * a ^ 3 * q ^ 3 + 4 * la * a ^ 3 * (2 * a ^ 2 * q * ((-6) * q) - 12 * q ^ 3) + (a ^ 2 - q)
    * ((-8) * (-1 + L) * q * (6 * q) * a ^ 3 + a * (48 * (-1 + L) * q ^ 3))) / (3 * (a ^ 2 - q) ^ 2 * q ^ 3)

noncomputable def b2 (a q L la D1 : ℝ) : ℝ :=
    (-8) * (4 * la * a ^ 3 * (a ^ 3 * ((-6) * q) + a * (18 * q ^ 2)) + (a ^ 2 - q) * (4 * (-1 + L) * a ^ 4 * ((-6) *
    q) - q ^ 2 * (12 * (-1 + 6 * L) * q) + a ^ 2 * (12 * (-7 + 8 * L) * q ^ 2))) / (3 * (a ^ 2 - q) ^ 2 * q ^ 3)

noncomputable def b3 (a q L la D1 : ℝ) : ℝ :=
    (-8) * (4 * la * a ^ 3 * (2 * a ^ 2 * q - 16 * q ^ 2) + (a ^ 2 - q) * ((-8) * (-1 + L) * q * (-1) * a ^ 3 + a *
    ((-8) * (-8 + L) * q ^ 2))) / (3 * (a ^ 2 - q) ^ 2 * q ^ 3)

noncomputable def b4 (a q L la D1 : ℝ) : ℝ :=
    (-8) * (4 * la * a ^ 3 * (a ^ 3 + a * (-(2 * q))) + (a ^ 2 - q) * (4 * (-1 + L) * a ^ 4 - q ^ 2 * (1 - 6 * L) + a
    ^ 2 * ((9 - 10 * L) * q))) / (3 * (a ^ 2 - q) ^ 2 * q ^ 3)

noncomputable def b5 (a q L la D1 : ℝ) : ℝ :=
    (-8) * (4 * la * a ^ 3 * q + (a ^ 2 - q) * (a * (-(4 * q)))) / (3 * (a ^ 2 - q) ^ 2 * q ^ 3)

/-- the polynomial in `Xt` with coefficients `c0 … c5` -/
noncomputable def lamX (X a q u L lU la D1 D2 : ℝ) : ℝ :=
    c0 a q u L lU la D1 D2 + X * c1 a q u L lU la D1 D2 + X ^ 2 * c2 a q u L lU la D1 D2 + X ^ 3 * c3 a q u L lU la D1
    D2 + X ^ 4 * c4 a q u L lU la D1 D2 + X ^ 5 * c5 a q u L lU la D1 D2

/-- the polynomial in `Xt` with coefficients `b0 … b5` -/
noncomputable def lamQUX (X a q L la D1 : ℝ) : ℝ :=
    b0 a q L la D1 + X * b1 a q L la D1 + X ^ 2 * b2 a q L la D1 + X ^ 3 * b3 a q L la D1 + X ^ 4 * b4 a q L la D1 + X
    ^ 5 * b5 a q L la D1

/-- side conditions of the continuity proofs -/
macro "cdisch" : tactic => `(tactic| first | (norm_num; done) | (simp only [mul_ne_zero_iff, ne_eq, pow_eq_zero_iff, OfNat.ofNat_ne_zero, not_false_eq_true, add_zero, zero_add] at *; first | assumption | tauto | (norm_num at *; tauto)))

theorem lam_split (dl : ℝ → ℝ) (a Q U X L : ℝ) :
    Thr.dLamAtAsGen dl (a ^ 2) (Q ^ 2) (U ^ 2) a Q U X L =
      lamX X a (Q ^ 2) (U ^ 2) L (Real.log (U ^ 2 / Q ^ 2)) (Real.log (a ^ 2 / Q ^ 2)) (dl (1 - a ^ 2 / Q ^ 2)) (dl (1 - a ^ 2 / U ^ 2)) := by
  unfold Thr.dLamAtAsGen lamX c0 c1 c2 c3 c4 c5
  simp only [p2_of (rfl : Q ^ 2 = _), p2_of (rfl : U ^ 2 = _), real_log]
  simp only [real_ofNat, real_ofInt, Himalaya.pow2, Misc.pow2, Misc.pow3, Misc.pow4, Misc.pow5, Misc.pow6, Misc.pow8, Misc.power10]
  push_cast
  generalize Real.log (U ^ 2 / Q ^ 2) = lU
  generalize Real.log (a ^ 2 / Q ^ 2) = la
  generalize dl (1 - a ^ 2 / Q ^ 2) = D1
  generalize dl (1 - a ^ 2 / U ^ 2) = D2
  ring

theorem lamQU_split (dl : ℝ → ℝ) (a Q U X L mU32 : ℝ) :
    Thr.dLamAtAsQU dl (a ^ 2) (Q ^ 2) mU32 a Q U X L =
      lamQUX X a (Q ^ 2) L (Real.log (a ^ 2 / Q ^ 2)) (dl (1 - a ^ 2 / Q ^ 2)) := by
  unfold Thr.dLamAtAsQU lamQUX b0 b1 b2 b3 b4 b5
  simp only [p2_of (rfl : Q ^ 2 = _), real_log]
  simp only [real_ofNat, real_ofInt, Himalaya.pow2, Misc.pow2, Misc.pow3, Misc.pow4, Misc.pow5, Misc.pow6, Misc.pow8, Misc.power10]
  push_cast
  generalize Real.log (a ^ 2 / Q ^ 2) = la
  generalize dl (1 - a ^ 2 / Q ^ 2) = D1
  generalize a ^ 2 - Q ^ 2 = E
  ring
end Himalaya.Cont
