import Verif.Li2.Model
import Verif.Li2.ClModel
import Mathlib.Analysis.SpecialFunctions.Pow.Real
import Mathlib.Analysis.SpecialFunctions.Trigonometric.Inverse

/-!
# The two-loop function `phi_xyz`: model

Models the last part of source/himalaya/mh2_eft/ThresholdLoopFunctions.cpp in exact real arithmetic.  `std::sqrt`, `std::log`,
`std::acos`, `std::asin` are the exact functions; outside `[-1,1]` the last two, which are NaN in C++, are constant.
The decimal literals are the decimal numbers of the source.
-/

namespace Himalaya.TLF.Phi
open Real
noncomputable section

/-- `sort`; ThresholdLoopFunctions.cpp:65-70 -/
def sort (x y z : ℝ) : ℝ × ℝ × ℝ :=
  let (x, y) := if y < x then (y, x) else (x, y)
  let (y, z) := if z < y then (z, y) else (y, z)
  let (x, y) := if y < x then (y, x) else (x, y)
  (x, y, z)

/-- `is_zero(a, prec)`; misc/Numerics.hpp:26-31 (`C44_is_equal` shows that this is the same) -/
def isZero (a prec : ℝ) : Prop := |a| ≤ prec
/-- `is_equal(a, b, prec)`; misc/Numerics.hpp:34-38 -/
def isEqual (a b prec : ℝ) : Prop := |a - b| ≤ prec

instance (a b : ℝ) : Decidable (isZero a b) := Classical.propDecidable _
instance (a b c : ℝ) : Decidable (isEqual a b c) := Classical.propDecidable _

/-- `delta_xyz`; ThresholdLoopFunctions.cpp:1235-1238 -/
def delta_xyz (x y z : ℝ) : ℝ := x * x + y * y + z * z - 2 * (x * y + x * z + y * z)

/-- `eps`; ThresholdLoopFunctions.cpp:1241 -/
def eps : ℝ := 10 * (1 / 2 ^ 52)
/-- `qdrt_eps`; ThresholdLoopFunctions.cpp:1242 -/
def qdrt_eps : ℝ := eps ^ (1 / 4 : ℝ)

/-- `lambda_2`; ThresholdLoopFunctions.cpp:1245-1248 -/
def lambda_2 (u v : ℝ) : ℝ := (1 - u - v) * (1 - u - v) - 4 * u * v

/-- `l00`; ThresholdLoopFunctions.cpp:1251-1254 -/
def l00 (u v : ℝ) : ℝ := v * (1 + u * (1 + u * (1 + u)) + v * (u * (1 + u * (3 + 6 * u)) + u * (1 + u * (6 + 20 * u)) * v))

/-- `l0v`; ThresholdLoopFunctions.cpp:1257-1263 -/
def l0v (u v : ℝ) : ℝ :=
  let a := 1 - v
  let a2 := a * a
  let a3 := a2 * a
  u * (0.5 * (1 + (1 + v) / a) + u * (v + u * v * (1 + v) / a2) / a3)

/-- `lv0`; ThresholdLoopFunctions.cpp:1266-1272 -/
def lv0 (u v : ℝ) : ℝ :=
  let a := 1 - v
  let a2 := a * a
  let a3 := a2 * a
  v + u * (0.5 * (-1 + (1 + v) / a) + u * (v + u * v * (1 + v) / a2) / a3)

/-- `luv`; ThresholdLoopFunctions.cpp:1275-1284 -/
def luv (lambda u v : ℝ) : ℝ × ℝ :=
  if v < qdrt_eps then (l00 u v, l00 v u)
  else if u < qdrt_eps then (l0v u v, lv0 u v)
  else (0.5 * (1 - lambda + u - v), 0.5 * (1 - lambda - u + v))

/-- `phi_pos`; ThresholdLoopFunctions.cpp:1287-1309 -/
def phi_pos (u v : ℝ) : ℝ :=
  if isEqual u 1 eps ∧ isEqual v 1 eps then 2.343907238689459
  else
    let pi23 : ℝ := 3.2898681336964529
    let lambda := √(lambda_2 u v)
    if isEqual u v eps then
      let x := if u < qdrt_eps then u * (1 + u * (1 + u * (2 + 5 * u))) else 0.5 * (1 - lambda)
      (-(log u * log u) + 2 * (log x * log x) - 4 * Li2.dilog x + pi23) / lambda
    else
      let xy := luv lambda u v
      let x := xy.1
      let y := xy.2
      (-log u * log v + 2 * log x * log y - 2 * Li2.dilog x - 2 * Li2.dilog y + pi23) / lambda

/-- `cl2acos`; ThresholdLoopFunctions.cpp:1311-1314 -/
def cl2acos (x : ℝ) : ℝ := Clausen.clausen2 (2 * arccos x)

/-- `phi_neg_1v`; ThresholdLoopFunctions.cpp:1317-1320 -/
def phi_neg_1v (v : ℝ) : ℝ := 2 * (cl2acos (1 - 0.5 * v) + 2 * cl2acos (0.5 * √v))

/-- `phi_neg`; ThresholdLoopFunctions.cpp:1323-1350 -/
def phi_neg (u v : ℝ) : ℝ :=
  if isEqual u 1 eps ∧ isEqual v 1 eps then 2.343907238689459
  else
    let lambda := √(-lambda_2 u v)
    if isEqual u v eps then 4 * Clausen.clausen2 (2 * arcsin √(0.25 / u)) / lambda
    else if isEqual u 1 eps then phi_neg_1v v / lambda
    else if isEqual v 1 eps then phi_neg_1v u / lambda
    else
      let sqrtu := √u
      let sqrtv := √v
      2 * (cl2acos (0.5 * (1 + u - v) / sqrtu) + cl2acos (0.5 * (1 - u + v) / sqrtv) +
        cl2acos (0.5 * (-1 + u + v) / (sqrtu * sqrtv))) / lambda

/-- `phi_uv`; ThresholdLoopFunctions.cpp:1358-1382 -/
def phi_uv (u v : ℝ) : ℝ :=
  let lambda := lambda_2 u v
  if isZero lambda eps then 0
  else if 0 < lambda then
    if u ≤ 1 ∧ v ≤ 1 then phi_pos u v
    else
      let vou := v / u
      if 1 ≤ u ∧ vou ≤ 1 then
        let oou := 1 / u
        phi_pos oou vou * oou
      else
        let oov := 1 / v
        phi_pos oov (1 / vou) * oov
  else phi_neg u v

/-- `phi_xyz`; ThresholdLoopFunctions.cpp:1399-1404 -/
def phi_xyz (x y z : ℝ) : ℝ :=
  let s := sort x y z
  let x := s.1
  let y := s.2.1
  let z := s.2.2
  let u := x / z
  let v := y / z
  phi_uv u v * z * lambda_2 u v / 2

end
end Himalaya.TLF.Phi
