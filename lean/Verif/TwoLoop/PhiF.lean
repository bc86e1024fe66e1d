import Verif.Li2.FModel

/-!
# The Fortran two-loop function: model

Models `phi`, `myphi`, `pLi2`, `CLI2` of source/himalaya/mh2l/DSZHiggs.f in exact real (complex) arithmetic.
-/

namespace Himalaya.TwoLoop.F
noncomputable section
open Real

/-- `CLI2`; mh2l/DSZHiggs.f:5278-5287 -/
def CLI2 (z : ℂ) : ℂ := Li2.F.cdli2 z

/-- `pLi2`; mh2l/DSZHiggs.f:5261-5272 -/
def pLi2 (x : ℝ) : ℝ := (CLI2 ⟨x, 0⟩).re

/-- `Pi`; mh2l/DSZHiggs.f:5192 -/
def Pi : ℝ := 3.1415926535897932

/-- `clam`; mh2l/DSZHiggs.f:5217-5221 -/
def clam (u v : ℝ) : ℂ :=
  if (1 - u - v) ^ 2 ≥ 4 * u * v then ⟨√((1 - u - v) ^ 2 - 4 * u * v), 0⟩ else ⟨0, √(4 * u * v - (1 - u - v) ^ 2)⟩

/-- numerator of `ccphi`; mh2l/DSZHiggs.f:5223-5229 -/
def ccphiNum (u v : ℝ) : ℂ :=
  let cxp := (1 + ((u : ℂ) - v) - clam u v) / 2
  let cxm := (1 - ((u : ℂ) - v) - clam u v) / 2
  2 * Li2.F.fast_cdlog cxp * Li2.F.fast_cdlog cxm - log u * log v - 2 * (CLI2 cxp + CLI2 cxm) + (Pi ^ 2 / 3 : ℝ)

/-- `myphi`; mh2l/DSZHiggs.f:5182-5235.  `none` stands for the non-finite result of the division by a vanishing `clam`. -/
def myphi (x y z : ℝ) : Option ℝ :=
  let u := x / z
  let v := y / z
  if u ≤ 1e-8 then
    if v ≠ 1 then some ((log u * log v + 2 * pLi2 (1 - v)) / (1 - v)) else some (2 - log u)
  else if v ≤ 1e-8 then
    if u ≠ 1 then some ((log v * log u + 2 * pLi2 (1 - u)) / (1 - u)) else some (2 - log v)
  else if clam u v = 0 then none
  else some (ccphiNum u v / clam u v).re

/-- `phi`; mh2l/DSZHiggs.f:5160-5177.  The last case, in which the Fortran variable is not set, does not occur for real numbers. -/
def phi (x y z : ℝ) : Option ℝ :=
  if x ≤ z ∧ y ≤ z then myphi x y z
  else if z ≤ x ∧ y ≤ x then (myphi z y x).map (z / x * ·)
  else if z ≤ y ∧ x ≤ y then (myphi z x y).map (z / y * ·)
  else none

end
end Himalaya.TwoLoop.F
