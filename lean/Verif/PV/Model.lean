import Mathlib.Analysis.SpecialFunctions.Complex.Log
import Mathlib.Analysis.SpecialFunctions.Pow.Complex
import Mathlib.Analysis.SpecialFunctions.Trigonometric.Inverse
import Mathlib.Analysis.SpecialFunctions.Sqrt

/-!
# Passarino-Veltman functions

Models source/himalaya/mh2_fo/PV.cpp in exact real (complex) arithmetic: `std::complex<double>` is `ℂ`, `std::sqrt` of a
complex number and `fast_log` are the principal branches, `std::hypot` is `sqrt(x²+y²)`, the literals are the decimal numbers of
the source.  Rounding, overflow and signed zeros are not modelled.
-/

namespace Himalaya.PV

open Real

/-- `EPSTOL`; mh2_fo/PV.cpp:25 -/
noncomputable def EPSTOL : ℝ := 1 / 10 ^ 15

/-- `sign`; mh2_fo/PV.cpp:28-31 -/
noncomputable def sgn (x : ℝ) : ℝ := if 0 ≤ x then 1 else -1

/-- `fast_log`; mh2_fo/PV.cpp:35-42 -/
noncomputable def fastLog (z : ℂ) : ℂ := ⟨1 / 2 * log (z.re * z.re + z.im * z.im), z.arg⟩

/-- `fB`; mh2_fo/PV.cpp:45-66 -/
noncomputable def fB (x : ℂ) : ℝ :=
  if (|x.re| = 0 ∨ |x.re| = 1) ∧ x.im = 0 then -1
  else if |x.re - 1| < 1 / 1000 then
    let d := x - 1
    let logd := fastLog d
    (-1 + d * (1 - logd + d * (1 / 2 - d / 6))).re
  else if 1000 < |x.re| then (-(1 / 2) / x - 1 / (6 * x * x) + fastLog (-x)).re
  else (-1 + fastLog (1 - x) - x * fastLog (1 - 1 / x)).re

/-- `a0`; mh2_fo/PV.cpp:71-79 -/
noncomputable def a0 (m2 q2 : ℝ) : ℝ :=
  if |m2| < EPSTOL then 0 else |m2| * (1 - log (|m2| / q2))

/-- `b0xx` after the first three lines (absolute values); mh2_fo/PV.cpp:97-132 -/
noncomputable def b0xxAbs (p2 m2 q2 : ℝ) : ℝ :=
  if p2 < EPSTOL * q2 ∧ m2 < EPSTOL * q2 then 0
  else if p2 < 1 / 1000 * m2 then
    let d := p2 / m2;
    -log (m2 / q2) + d * (1/6 + d * (1/60 + d * (1/420 + d * (1/2520 + d * (1/13860 + d * (1/72072 + d / 360360))))))
  else if p2 ≤ 4 * m2 then
    2 - log (m2 / q2) - 2 * sqrt (4 * m2 / p2 - 1) * arcsin (sqrt (p2 / (4 * m2)))
  else if p2 < 100 * m2 then
    let sq := sqrt (1 - 4 * m2 / p2)
    2 - log (m2 / q2) + sq * log (p2 * (1 - sq) / (2 * m2) - 1)
  else if p2 * EPSTOL < m2 then
    let d := m2 / p2
    let logd := log d
    2 - log (p2 / q2) + d * (2 * (1 - logd) + d * (-1 - 2 * logd + d * (-(10/3) - 4 * logd + d * (-(59/6) - 10 * logd
      + d * (-(449/15) - 28 * logd + d * (-(1417/15) - 84 * logd + d * (-(32254/105) - 264 * logd
      + d * (-(429697/420) - 858 * logd))))))))
  else 2 - log (p2 / q2)

/-- `b0xx`; mh2_fo/PV.cpp:91-133 -/
noncomputable def b0xx (p2 m2 q2 : ℝ) : ℝ := b0xxAbs |p2| |m2| |q2|

/-- the last branch of `b0`; mh2_fo/PV.cpp:172-178 -/
noncomputable def b0General (p2 m12 m22 q2 : ℝ) : ℝ :=
  let s := p2 - m22 + m12
  let imin : ℂ := ⟨m12, -EPSTOL * m12⟩
  let x : ℂ := ((s : ℂ) ^ 2 - 4 * p2 * imin) ^ ((1 : ℂ) / 2)
  let xp : ℂ := (s + sgn s * x) / (2 * p2)
  let xm : ℂ := imin / (xp * p2);
  -log (p2 / q2) - fB xp - fB xm

/-- `b0` for ordered masses; mh2_fo/PV.cpp:155-179 -/
noncomputable def b0Ordered (p2 m12 m22 q2 : ℝ) : ℝ :=
  if m22 < m12 * (1 + EPSTOL) then b0xx p2 m12 q2
  else if p2 ≤ 1 / 10 ^ 11 * m12 then
    if m12 < EPSTOL * m22 then 1 - log (m22 / q2)
    else 1 - log (m22 / q2) + m12 * log (m22 / m12) / (m12 - m22)
  else if m12 < EPSTOL * EPSTOL * m22 then
    let del := sqrt ((m22 - p2) ^ 2 + (EPSTOL * m22) ^ 2)
    2 - log (m22 / q2) + (m22 - p2) / p2 * log (del / p2)
  else b0General p2 m12 m22 q2

/-- `b0` after the first four lines (absolute values); mh2_fo/PV.cpp:146-153 -/
noncomputable def b0Abs (p2 m12 m22 q2 : ℝ) : ℝ :=
  if p2 < EPSTOL * q2 ∧ m12 < EPSTOL * q2 ∧ m22 < EPSTOL * q2 then 0
  else if m22 < m12 then b0Ordered p2 m22 m12 q2 else b0Ordered p2 m12 m22 q2

/-- `b0`; mh2_fo/PV.cpp:139-179 -/
noncomputable def b0 (p2 m12 m22 q2 : ℝ) : ℝ := b0Abs |p2| |m12| |m22| |q2|

/-- `d1_b0` after the first two lines; mh2_fo/PV.cpp:196-211 -/
noncomputable def d1b0Abs (m12 m22 : ℝ) : ℝ :=
  if ¬((m12 < 1 / 10 ^ 14 * m22) ↔ (m22 < 1 / 10 ^ 14 * m12)) then
    (m12 - m22) * (m12 + m22) / (2 * (m12 - m22) ^ 3)
  else if m12 < EPSTOL ∧ m22 < EPSTOL then 0
  else if |m22 - m12| < 5 / 100 * m12 then
    1 / (6 * m12) + (m12 - m22) / (12 * m12 ^ 2) + (m12 - m22) ^ 2 / (20 * m12 ^ 3) + (m12 - m22) ^ 3 / (30 * m12 ^ 4)
      + (m12 - m22) ^ 4 / (42 * m12 ^ 5) + (m12 - m22) ^ 5 / (56 * m12 ^ 6)
  else ((m12 - m22) * (m12 + m22) + 2 * m12 * m22 * log (m22 / m12)) / (2 * (m12 - m22) ^ 3)

/-- `d1_b0`; mh2_fo/PV.cpp:191-212 -/
noncomputable def d1b0 (m12 m22 : ℝ) : ℝ := d1b0Abs |m12| |m22|

end Himalaya.PV
