import Mathlib.Analysis.SpecialFunctions.Log.Basic

/-!
# Clausen function: model

Models `clausen_2` of source/himalaya/misc/Li2.cpp in exact real arithmetic.  `std::log` and `std::fmod` are the exact functions.  The
literals `PI`, `p0`, `p1`, on which the case distinctions depend, have the value of the nearest binary64 number, the
coefficients are the decimal numbers of the source.  Rounding of the operations, overflow, NaN and signed zeros are not modelled.
-/

namespace Himalaya.Clausen

/-- `PI = 3.14159265358979324` as a binary64 number; misc/Li2.cpp:226 -/
noncomputable def PI : ℝ := 884279719003555 / 281474976710656
/-- `p0`; misc/Li2.cpp:240 -/
noncomputable def p0 : ℝ := 6.28125
/-- `p1 = 0.0019353071795864769253` as a binary64 number; misc/Li2.cpp:241 -/
noncomputable def p1 : ℝ := 4462514530730549 / 2305843009213693952

/-- `std::fmod(x, y)` for `0 ≤ x`, `0 < y` -/
noncomputable def fmod (x y : ℝ) : ℝ := x - y * ⌊x / y⌋

/-- numerator `p` for `x < PI/2`; misc/Li2.cpp:255-258 and :265 -/
noncomputable def pS (y : ℝ) : ℝ :=
  let y2 := y * y
  1.3888888888888889e-02 + y * (-4.3286930203743071e-04) + y2 * (3.2779814789973427e-06 + y * (-3.6001540369575084e-09))
/-- denominator `q` for `x < PI/2`; misc/Li2.cpp:259-262 and :266 -/
noncomputable def qS (y : ℝ) : ℝ :=
  let y2 := y * y
  1.0000000000000000e+00 + y * (-3.6166589746694121e-02) + y2 * (3.6015827281202639e-04 + y * (-8.3646182842184428e-07))
/-- numerator `p` for `x ≥ PI/2`; misc/Li2.cpp:270-274 and :284-285 -/
noncomputable def pL (z : ℝ) : ℝ :=
  let z2 := z * z
  let z4 := z2 * z2
  6.4005702446195512e-01 + z * (-2.0641655351338783e-01) + z2 * (2.4175305223497718e-02 + z * (-1.2355955287855728e-03)) +
    z4 * (2.5649833551291124e-05 + z * (-1.4783829128773320e-07))
/-- denominator `q` for `x ≥ PI/2`; misc/Li2.cpp:275-279 and :286-287 -/
noncomputable def qL (z : ℝ) : ℝ :=
  let z2 := z * z
  let z4 := z2 * z2
  1.0000000000000000e+00 + z * (-2.5299102015666356e-01) + z2 * (2.2148751048467057e-02 + z * (-7.8183920462457496e-04)) +
    z4 * (9.5432542196310670e-06 + z * (-1.8184302880448247e-08))

/-- argument reduction: the new `x` and `sgn`; misc/Li2.cpp:228-244 -/
noncomputable def reduce (x : ℝ) : ℝ × ℝ :=
  let sgn : ℝ := 1
  let r1 := if x < 0 then (-x, -1) else (x, sgn)
  let x2 := if 2 * PI ≤ r1.1 then fmod r1.1 (2 * PI) else r1.1
  if PI < x2 then ((p0 - x2) + p1, -r1.2) else (x2, r1.2)

/-- the approximations on the reduced range; misc/Li2.cpp:252-290 -/
noncomputable def core (x : ℝ) : ℝ :=
  if x < PI / 2 then
    let y := x * x
    x * (1 - Real.log x + y * pS y / qS y)
  else
    let y := PI - x
    let z := y * y - PI * PI / 8
    y * pL z / qL z

/-- `clausen_2`; misc/Li2.cpp:224-293 -/
noncomputable def clausen2 (x : ℝ) : ℝ :=
  let r := reduce x
  if r.1 = 0 then r.1 else if r.1 = PI then 0 else r.2 * core r.1

end Himalaya.Clausen
