import Verif.EFT.Shape

/-!
# The `Xt` terms of the DRbar' to MSbar shift: the checks

The full conversion `MSbar - DRbar'` of the three-loop correction is a polynomial in `Xt` of degree 6.
`getDRbarPrimeToMSbarXtTerms(limit, k)` must be minus its term of order `Xt^k`.
-/

set_option linter.unusedSimpArgs false
set_option linter.unusedVariables false

namespace Himalaya.Drop

open Kron Shape
open scoped Himalaya

set_option maxRecDepth 100000

theorem agreeGen : Agree cfgGen fullGen xtGen = true := by decide +kernel
theorem agreeQU : Agree cfgQU fullQU xtQU = true := by decide +kernel
theorem agreeQG : Agree cfgQG fullQG xtQG = true := by decide +kernel
theorem agreeUG : Agree cfgQG fullUG xtUG = true := by decide +kernel
theorem agreeQUG : Agree cfgQUG fullQUG xtQUG = true := by decide +kernel
theorem agreeDeg : Agree cfgDeg fullDeg xtDeg = true := by decide +kernel
theorem linearGen : Linear cfgGen xtGen = true := by decide +kernel
theorem linearQU : Linear cfgQU xtQU = true := by decide +kernel
theorem linearQG : Linear cfgQG xtQG = true := by decide +kernel
theorem linearUG : Linear cfgQG xtUG = true := by decide +kernel
theorem linearQUG : Linear cfgQUG xtQUG = true := by decide +kernel
theorem linearDeg : Linear cfgDeg xtDeg = true := by decide +kernel

end Himalaya.Drop
