import Verif.Li2.Model

/-!
# The Fortran dilogarithm: model

Models source/himalaya/mh2l/Li2.f90 and Li2f.cpp in exact real (complex) arithmetic.  `log` and `datan2` are the exact functions
(`datan2(im, re)` is the argument of `re + i im`), the decimal literals are the decimal numbers of the source.  Rounding, overflow, NaN and
signed zeros are not modelled.
-/

namespace Himalaya.Li2.F
noncomputable section

/-- `PI`; mh2l/Li2.f90:22 and :100 -/
def PI : ℝ := 3.14159265358979324

/-- `p`; mh2l/Li2.f90:23-29, 77-80 -/
def p (y : ℝ) : ℝ :=
  let y2 := y * y
  let y4 := y2 * y2
  0.9999999999999999502 + y * (-2.6883926818565423430) + y2 * (2.6477222699473109692 + y * (-1.1538559607887416355)) +
    y4 * (2.0886077795020607837e-1 + y * (-1.0859777134152463084e-2))

/-- `q`; mh2l/Li2.f90:30-37, 77-82 -/
def q (y : ℝ) : ℝ :=
  let y2 := y * y
  let y4 := y2 * y2
  1.0000000000000000000 + y * (-2.9383926818565635485) + y2 * (3.2712093293018635389 + y * (-1.7076702173954289421)) +
    y4 * (4.1596017228400603836e-1 + y * (-3.9801343754084482956e-2) + y2 * 8.2743668974466659035e-4)

/-- `r + s*y*p/q`; mh2l/Li2.f90:84 -/
def tail (y r s : ℝ) : ℝ := r + s * y * p y / q y

/-- `dli2(x)`; mh2l/Li2.f90:19-86 -/
def dli2 (x : ℝ) : ℝ :=
  if x < -1 then
    let l := Real.log (1 - x)
    tail (1 / (1 - x)) (-PI ^ 2 / 6 + l * (0.5 * l - Real.log (-x))) 1
  else if x = -1 then -PI ^ 2 / 12
  else if x < 0 then tail (x / (x - 1)) (-0.5 * Real.log (1 - x) ^ 2) (-1)
  else if x = 0 then 0
  else if x < 0.5 then tail x 0 1
  else if x < 1 then
    let y := 1 - x
    tail y (PI ^ 2 / 6 - Real.log x * Real.log y) (-1)
  else if x = 1 then PI ^ 2 / 6
  else if x < 2 then
    let l := Real.log x
    let y := 1 - 1 / x
    tail y (PI ^ 2 / 6 - l * (Real.log y + 0.5 * l)) 1
  else tail (1 / x) (PI ^ 2 / 3 - 0.5 * Real.log x ^ 2) (-1)

/-- `fast_cdlog(z)`; mh2l/Li2.f90:176-185.  At zero, where Fortran returns `-∞`, the model returns 0. -/
def fast_cdlog (z : ℂ) : ℂ := ⟨0.5 * Real.log (z.re ^ 2 + z.im ^ 2), Complex.arg ⟨z.re, z.im⟩⟩

/-- `EPSILON(1D0)` -/
def epsilon : ℝ := 1 / 2 ^ 52

/-- `sum`; mh2l/Li2.f90:101-111, 153-164 -/
def sum (u : ℂ) : ℂ :=
  let u2 := u ^ 2
  let u4 := u2 ^ 2
  u + u2 * (-(1 / 4) + u * (1 / 36 + u2 * (-(1 / 3600) + u2 * (1 / 211680) + u4 * (-(1 / 10886400) + u2 * (1 / 526901760)) +
    u4 * u4 * (-4.0647616451442255e-11 + u2 * 8.9216910204564526e-13 + u4 * (-1.9939295860721076e-14 + u2 * 4.5189800296199182e-16)))))

/-- `(u, rest, sgn)`; mh2l/Li2.f90:130-151 -/
def reduce (z : ℂ) : ℂ × ℂ × ℝ :=
  let rz := z.re
  let nz := z.re ^ 2 + z.im ^ 2
  if rz ≤ 0.5 then
    if 1 < nz then (-fast_cdlog (1 - 1 / z), -0.5 * fast_cdlog (-z) ^ 2 - (PI ^ 2 / 6 : ℝ), -1)
    else (-fast_cdlog (1 - z), 0, 1)
  else
    if nz ≤ 2 * rz then
      let u := -fast_cdlog z
      (u, u * fast_cdlog (1 - z) + (PI ^ 2 / 6 : ℝ), -1)
    else (-fast_cdlog (1 - 1 / z), -0.5 * fast_cdlog (-z) ^ 2 - (PI ^ 2 / 6 : ℝ), -1)

/-- `cdli2(z)`; mh2l/Li2.f90:96-168 -/
def cdli2 (z : ℂ) : ℂ :=
  if z.im = 0 then
    if z.re ≤ 1 then ⟨dli2 z.re, 0⟩ else ⟨dli2 z.re, -PI * Real.log z.re⟩
  else if z.re ^ 2 + z.im ^ 2 < epsilon then z * (1 + 0.25 * z)
  else
    let t := reduce z
    (t.2.2 : ℂ) * sum t.1 + t.2.1

/-- `li2c(re_in, im_in, re_out, im_out)`: the values stored in the two output arguments; mh2l/Li2.f90:196-208 -/
def li2c (re_in im_in : ℝ) : ℝ × ℝ :=
  let l := cdli2 ⟨re_in, im_in⟩
  (l.re, l.im)

/-- `himalaya::li2(const std::complex<double>&)`; mh2l/Li2f.cpp:24-34 -/
def li2 (z : ℂ) : ℂ :=
  let out := li2c z.re z.im
  ⟨out.1, out.2⟩

/-- `himalaya::li2(double)`; mh2l/Li2f.cpp:17-21 -/
def li2Real (x : ℝ) : ℝ := (li2 ⟨x, 0⟩).re

end
end Himalaya.Li2.F
