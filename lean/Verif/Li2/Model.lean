import Mathlib.Analysis.SpecialFunctions.Complex.Log
import Mathlib.Analysis.SpecialFunctions.Log.Basic

/-!
# Dilogarithm and Clausen function: model

Models source/himalaya/misc/Li2.cpp in exact real (complex) arithmetic.  `std::log`, `std::log1p` are the exact functions, the
decimal literals are the decimal numbers of the source.  Rounding, overflow, NaN and signed zeros are not modelled.
-/

namespace Himalaya.Li2

/-- `PI`; misc/Li2.cpp:70 and :151 -/
noncomputable def PI : ℝ := 3.1415926535897932

/-- numerator `p`; misc/Li2.cpp:71-78 and :131-134 -/
noncomputable def dilogP (y : ℝ) : ℝ :=
  let y2 := y * y
  let y4 := y2 * y2
  0.9999999999999999502 + y * (-2.6883926818565423430) + y2 * (2.6477222699473109692 + y * (-1.1538559607887416355)) +
    y4 * (0.20886077795020607837 + y * (-0.010859777134152463084))

/-- denominator `q`; misc/Li2.cpp:79-87 and :131-136 -/
noncomputable def dilogQ (y : ℝ) : ℝ :=
  let y2 := y * y
  let y4 := y2 * y2
  1 + y * (-2.9383926818565635485) + y2 * (3.2712093293018635389 + y * (-1.7076702173954289421)) +
    y4 * (0.41596017228400603836 + y * (-0.039801343754084482956) + y2 * 0.00082743668974466659035)

/-- result of the argument reduction: either a final value or the triple `(y, r, s)` -/
inductive Red where
  | value (v : ℝ)
  | rational (y r s : ℝ)

/-- argument reduction of the real dilogarithm; misc/Li2.cpp:89-129 -/
noncomputable def reduce (x : ℝ) : Red :=
  if x < -1 then
    let l := Real.log (1 - x)
    .rational (1 / (1 - x)) (-PI * PI / 6 + l * (0.5 * l - Real.log (-x))) 1
  else if x = -1 then .value (-PI * PI / 12)
  else if x < 0 then
    let l := Real.log (1 + -x)
    .rational (x / (x - 1)) (-0.5 * l * l) (-1)
  else if x = 0 then .value x
  else if x < 0.5 then .rational x 0 1
  else if x < 1 then .rational (1 - x) (PI * PI / 6 - Real.log x * Real.log (1 + -x)) (-1)
  else if x = 1 then .value (PI * PI / 6)
  else if x < 2 then
    let l := Real.log x
    let y := 1 - 1 / x
    .rational y (PI * PI / 6 - l * (Real.log y + 0.5 * l)) 1
  else
    let l := Real.log x
    .rational (1 / x) (PI * PI / 3 - 0.5 * l * l) (-1)

/-- `dilog(double)`; misc/Li2.cpp:68-139 -/
noncomputable def dilog (x : ℝ) : ℝ :=
  match reduce x with
  | .value v => v
  | .rational y r s => r + s * y * dilogP y / dilogQ y

/-- one pass of the loop of `horner`, from the second-highest coefficient downwards; misc/Li2.cpp:31-36.  `cs` are the
remaining coefficients in the order in which they are visited. -/
def hornerLoop (r s : ℝ) : ℝ × ℝ → List ℝ → ℝ × ℝ
  | ab, [] => ab
  | (a, b), c :: cs => hornerLoop r s (b + r * a, c - s * a) cs

/-- `horner<Nstart>(z, coeffs)`; misc/Li2.cpp:22-39.  `rev` lists `coeffs[N-1], coeffs[N-2], ..., coeffs[Nstart]`
(at least two entries, as the `static_assert` and the calls guarantee). -/
noncomputable def horner (z : ℂ) : List ℝ → ℂ
  | c1 :: c0 :: cs =>
    let ab := hornerLoop (z.re + z.re) (z.re ^ 2 + z.im ^ 2) (c1, c0) cs
    ⟨z.re * ab.1 + ab.2, z.im * ab.1⟩
  | [c] => c
  | [] => 0

/-- `log1p(std::complex)`; misc/Li2.cpp:42-54.  `std::log` is the principal branch. -/
noncomputable def clog1p (z : ℂ) : ℂ :=
  let u := 1 + z
  if u.re = 1 ∧ u.im = 0 then z
  else if u.re ≤ 0 then Complex.log u
  else Complex.log u * (z / (u - 1))

/-- `bf`; misc/Li2.cpp:155-166, highest index first, without `bf[0] = -1/4` -/
noncomputable def bfRev : List ℝ :=
  [4.5189800296199182e-16, -1.9939295860721076e-14, 8.9216910204564526e-13, -4.0647616451442255e-11, 1 / 526901760,
    -1 / 10886400, 1 / 211680, -1 / 3600, 1 / 36]

/-- `std::numeric_limits<double>::epsilon()` -/
noncomputable def epsilon : ℝ := 1 / 2 ^ 52

/-- transformation of the complex argument: `(u, rest, sgn)`; misc/Li2.cpp:187-213 -/
noncomputable def creduce (z : ℂ) : ℂ × ℂ × ℝ :=
  let rz := z.re
  let nz := z.re ^ 2 + z.im ^ 2
  if rz ≤ 0.5 then
    if 1 < nz then
      let lz := Complex.log (-z)
      (-clog1p (-1 / z), -0.5 * lz * lz - (PI * PI / 6 : ℝ), -1)
    else (-clog1p (-z), 0, 1)
  else
    if nz ≤ 2 * rz then
      let u := -Complex.log z
      (u, u * clog1p (-z) + (PI * PI / 6 : ℝ), -1)
    else
      let lz := Complex.log (-z)
      (-clog1p (-1 / z), -0.5 * lz * lz - (PI * PI / 6 : ℝ), -1)

/-- `dilog(std::complex<double>)`; misc/Li2.cpp:149-218 -/
noncomputable def cdilog (z : ℂ) : ℂ :=
  if z.im = 0 then
    if z.re ≤ 1 then ⟨dilog z.re, z.im⟩ else ⟨dilog z.re, -PI * Real.log z.re⟩
  else if z.re ^ 2 + z.im ^ 2 < epsilon then z * (1 + 0.25 * z)
  else
    let t := creduce z
    let u := t.1
    let u2 := u * u
    (t.2.2 : ℂ) * (u + u2 * (-(1 / 4) + u * horner u2 bfRev)) + t.2.1

end Himalaya.Li2
