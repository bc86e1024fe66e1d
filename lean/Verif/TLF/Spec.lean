import Mathlib.Analysis.SpecialFunctions.Log.Basic
import Mathlib.MeasureTheory.Integral.IntervalIntegral.Basic

/-!
# Threshold loop functions: specification

The loop functions of arXiv:1407.4081, appendix, as elementary functions of real arguments.  The formulas are `0/0` when an argument is
`0` or `±1` or when the two arguments coincide; there the loop function is the limit.
-/

namespace Himalaya.TLF.Spec
open Real

noncomputable def F1 (x : ℝ) : ℝ := x * log (x ^ 2) / (x ^ 2 - 1)
noncomputable def F2 (x : ℝ) : ℝ := 6 * x ^ 2 * (2 - 2 * x ^ 2 + (1 + x ^ 2) * log (x ^ 2)) / (x ^ 2 - 1) ^ 3
noncomputable def F3 (x : ℝ) : ℝ := 2 * x * (5 * (1 - x ^ 2) + (1 + 4 * x ^ 2) * log (x ^ 2)) / (3 * (x ^ 2 - 1) ^ 2)
noncomputable def F4 (x : ℝ) : ℝ := 2 * x * (x ^ 2 - 1 - log (x ^ 2)) / (x ^ 2 - 1) ^ 2
noncomputable def F5 (x : ℝ) : ℝ := 3 * x * (1 - x ^ 4 + 2 * x ^ 2 * log (x ^ 2)) / (1 - x ^ 2) ^ 3
noncomputable def F6 (x : ℝ) : ℝ :=
  (x ^ 2 - 3) / (4 * (1 - x ^ 2)) + x ^ 2 * (x ^ 2 - 2) / (2 * (1 - x ^ 2) ^ 2) * log (x ^ 2)
noncomputable def F7 (x : ℝ) : ℝ :=
  -3 * (x ^ 4 - 6 * x ^ 2 + 1) / (2 * (x ^ 2 - 1) ^ 2) + 3 * x ^ 4 * (x ^ 2 - 3) / (x ^ 2 - 1) ^ 3 * log (x ^ 2)
noncomputable def F8 (x y : ℝ) : ℝ :=
  -2 + 2 / (x ^ 2 - y ^ 2) * (x ^ 4 / (x ^ 2 - 1) * log (x ^ 2) - y ^ 4 / (y ^ 2 - 1) * log (y ^ 2))
noncomputable def F9 (x y : ℝ) : ℝ :=
  2 / (x ^ 2 - y ^ 2) * (x ^ 2 / (x ^ 2 - 1) * log (x ^ 2) - y ^ 2 / (y ^ 2 - 1) * log (y ^ 2))

noncomputable def f1 (r : ℝ) : ℝ :=
  6 * (r ^ 2 + 3) * r ^ 2 / (7 * (r ^ 2 - 1) ^ 2) + 6 * (r ^ 2 - 5) * r ^ 4 * log (r ^ 2) / (7 * (r ^ 2 - 1) ^ 3)
noncomputable def f2 (r : ℝ) : ℝ :=
  2 * (r ^ 2 + 11) * r ^ 2 / (9 * (r ^ 2 - 1) ^ 2) + 2 * (5 * r ^ 2 - 17) * r ^ 4 * log (r ^ 2) / (9 * (r ^ 2 - 1) ^ 3)
noncomputable def f3 (r : ℝ) : ℝ :=
  2 * (r ^ 4 + 9 * r ^ 2 + 2) / (3 * (r ^ 2 - 1) ^ 2) + 2 * (r ^ 4 - 7 * r ^ 2 - 6) * r ^ 2 * log (r ^ 2) / (3 * (r ^ 2 - 1) ^ 3)
noncomputable def f4 (r : ℝ) : ℝ :=
  2 * (5 * r ^ 4 + 25 * r ^ 2 + 6) / (7 * (r ^ 2 - 1) ^ 2) + 2 * (r ^ 4 - 19 * r ^ 2 - 18) * r ^ 2 * log (r ^ 2) / (7 * (r ^ 2 - 1) ^ 3)
noncomputable def f5 (r s : ℝ) : ℝ :=
  3 / 4 * ((1 + (r + s) ^ 2 - r ^ 2 * s ^ 2) / ((r ^ 2 - 1) * (s ^ 2 - 1)) + r ^ 3 * (r ^ 2 + 1) * log (r ^ 2) / ((r ^ 2 - 1) ^ 2 * (r - s)) -
    s ^ 3 * (s ^ 2 + 1) * log (s ^ 2) / ((r - s) * (s ^ 2 - 1) ^ 2))
noncomputable def f6 (r s : ℝ) : ℝ :=
  6 / 7 * ((r ^ 2 + s ^ 2 + r * s - r ^ 2 * s ^ 2) / ((r ^ 2 - 1) * (s ^ 2 - 1)) + r ^ 5 * log (r ^ 2) / ((r ^ 2 - 1) ^ 2 * (r - s)) -
    s ^ 5 * log (s ^ 2) / ((r - s) * (s ^ 2 - 1) ^ 2))
noncomputable def f7 (r s : ℝ) : ℝ :=
  6 * ((1 + r * s) / ((r ^ 2 - 1) * (s ^ 2 - 1)) + r ^ 3 * log (r ^ 2) / ((r ^ 2 - 1) ^ 2 * (r - s)) -
    s ^ 3 * log (s ^ 2) / ((r - s) * (s ^ 2 - 1) ^ 2))
noncomputable def f8 (r s : ℝ) : ℝ :=
  3 / 2 * ((r + s) / ((r ^ 2 - 1) * (s ^ 2 - 1)) + r ^ 4 * log (r ^ 2) / ((r ^ 2 - 1) ^ 2 * (r - s)) -
    s ^ 4 * log (s ^ 2) / ((r - s) * (s ^ 2 - 1) ^ 2))

/-! The two-variable functions as one-loop (Feynman parameter) integrals.  These are the continuous extensions of the formulas above to
arguments `±1` and to coinciding arguments; `C32_integrals_extend_formulas` proves that they agree with the formulas wherever those are defined. -/

/-- the propagator denominator `1 - t + t q` -/
def den (q t : ℝ) : ℝ := 1 - t + t * q
noncomputable def F8I (x y : ℝ) : ℝ :=
  -2 + ∫ t in (0:ℝ)..1, 2 * ((1 - t) * (x ^ 2 + y ^ 2) + t * x ^ 2 * y ^ 2) / (den (x ^ 2) t * den (y ^ 2) t)
noncomputable def F9I (x y : ℝ) : ℝ := ∫ t in (0:ℝ)..1, 2 * (1 - t) / (den (x ^ 2) t * den (y ^ 2) t)
noncomputable def f5I (r s : ℝ) : ℝ :=
  3 / 4 * ∫ t in (0:ℝ)..1, (1 - t) * ((1 - t) * (r ^ 2 + r * s + s ^ 2 + 1) + t * r * s * (r * s - 1)) / (den (r ^ 2) t * den (s ^ 2) t)
noncomputable def f6I (r s : ℝ) : ℝ :=
  6 / 7 * ∫ t in (0:ℝ)..1, (1 - t) * ((1 - t) * (r ^ 2 + r * s + s ^ 2) + t * r ^ 2 * s ^ 2) / (den (r ^ 2) t * den (s ^ 2) t)
noncomputable def f7I (r s : ℝ) : ℝ := 6 * ∫ t in (0:ℝ)..1, (1 - t) * ((1 - t) - t * r * s) / (den (r ^ 2) t * den (s ^ 2) t)
noncomputable def f8I (r s : ℝ) : ℝ := 3 / 2 * ∫ t in (0:ℝ)..1, (1 - t) * ((1 - t) * (r + s)) / (den (r ^ 2) t * den (s ^ 2) t)

end Himalaya.TLF.Spec
