import Verif.FO.Spectrum

/-!
# The one-loop Higgs self-energies

Models `delta_mh2_1loop`, `delta_mh2_1loop_gaugeless` and `delta_mh2_1loop_gaugeless_deriv` of
source/himalaya/mh2_fo/MSSM_mass_eigenstates.cpp.  One definition per `se.. += ..` statement; generated by
tools/gen_oneloop.py.  `pars.Yd(2,2)` etc. of the local declarations are substituted; the loop integrals `A0`, `B0`, `D1B0` are
a parameter (`LoopFns`).
-/

set_option linter.unusedVariables false

namespace Himalaya

open FOps
open scoped Himalaya

/-- `MSSM_mass_eigenstates::A0`, `B0`, `D1B0` (the renormalization scale is fixed); mh2_fo/MSSM_mass_eigenstates.cpp:674-688 -/
structure LoopFns (F : Type) where
  A0 : F → F
  B0 : F → F → F → F
  D1B0 : F → F → F

section
variable {F : Type} [Add F] [Sub F] [Mul F] [Div F] [Neg F] [FOps F]

/-- `pow4`; misc/Powers.hpp -/
def fpow4 (x : F) : F := pow2 (pow2 x)
/-- `SUM(i,0,1,f(i))`; mh2_fo/Sum.hpp:93-101 -/
def sum2 (f : Fin 2 → F) : F := 0 + f 0 + f 1
/-- `SUM(i,0,3,f(i))`; mh2_fo/Sum.hpp:93-101 -/
def sum4 (f : Fin 4 → F) : F := 0 + f 0 + f 1 + f 2 + f 3
/-- `double se{0.}; se += ..; se += ..;` -/
def accumulate (l : List F) : F := l.foldl (fun a b => a + b) 0

/-- mh2_fo/MSSM_mass_eigenstates.cpp:252 -/
def full11_0 (L : LoopFns F) (s : Spec F) (p : Params F) (p2 : F) : F :=
  (-(L.A0 s.M2VWm * pow2 p.g2)) / 2

/-- mh2_fo/MSSM_mass_eigenstates.cpp:253 -/
def full11_1 (L : LoopFns F) (s : Spec F) (p : Params F) (p2 : F) : F :=
  L.A0 s.M2VZ * ((-3) * pow2 p.g1 - 5 * pow2 p.g2) / 20

/-- mh2_fo/MSSM_mass_eigenstates.cpp:254 -/
def full11_2 (L : LoopFns F) (s : Spec F) (p : Params F) (p2 : F) : F :=
  (-(L.B0 p2 s.M2SveL s.M2SveL * pow2 (p.vd * (3 * pow2 p.g1 + 5 * pow2 p.g2)))) / 400

/-- mh2_fo/MSSM_mass_eigenstates.cpp:255 -/
def full11_3 (L : LoopFns F) (s : Spec F) (p : Params F) (p2 : F) : F :=
  (-(L.B0 p2 s.M2SvmL s.M2SvmL * pow2 (p.vd * (3 * pow2 p.g1 + 5 * pow2 p.g2)))) / 400

/-- mh2_fo/MSSM_mass_eigenstates.cpp:256 -/
def full11_4 (L : LoopFns F) (s : Spec F) (p : Params F) (p2 : F) : F :=
  (-(L.B0 p2 s.M2SvtL s.M2SvtL * pow2 (p.vd * (3 * pow2 p.g1 + 5 * pow2 p.g2)))) / 400

/-- mh2_fo/MSSM_mass_eigenstates.cpp:257 -/
def full11_5 (L : LoopFns F) (s : Spec F) (p : Params F) (p2 : F) : F :=
  (-7) * L.B0 p2 s.M2VWm s.M2VWm * fpow4 p.g2 * pow2 p.vd / 8

/-- mh2_fo/MSSM_mass_eigenstates.cpp:258 -/
def full11_6 (L : LoopFns F) (s : Spec F) (p : Params F) (p2 : F) : F :=
  (-7) * L.B0 p2 s.M2VZ s.M2VZ * pow2 (p.vd * (3 * pow2 p.g1 + 5 * pow2 p.g2)) / 400

/-- mh2_fo/MSSM_mass_eigenstates.cpp:259 -/
def full11_7 (L : LoopFns F) (s : Spec F) (p : Params F) (p2 : F) : F :=
  3 * L.B0 p2 (pow2 s.MFb) (pow2 s.MFb) * (-p2 + 4 * pow2 s.MFb) * pow2 (p.Yd 2 2)

/-- mh2_fo/MSSM_mass_eigenstates.cpp:260 -/
def full11_8 (L : LoopFns F) (s : Spec F) (p : Params F) (p2 : F) : F :=
  L.B0 p2 (pow2 s.MFtau) (pow2 s.MFtau) * (-p2 + 4 * pow2 s.MFtau) * pow2 (p.Ye 2 2)

/-- mh2_fo/MSSM_mass_eigenstates.cpp:261 -/
def full11_9 (L : LoopFns F) (s : Spec F) (p : Params F) (p2 : F) : F :=
  (sum2 fun gI1 => (sum2 fun gI2 => (-(L.B0 p2 (s.M2Ah.at gI1) (s.M2Ah.at gI2) * pow2 (p.vd * (3 * pow2 p.g1 + 5 * pow2 p.g2) * (s.ZA.at gI1 0 * s.ZA.at gI2 0 - s.ZA.at gI1 1 * s.ZA.at gI2 1)))) / 800))

/-- mh2_fo/MSSM_mass_eigenstates.cpp:262 -/
def full11_10 (L : LoopFns F) (s : Spec F) (p : Params F) (p2 : F) : F :=
  (sum2 fun gI1 => (sum2 fun gI2 => (-3) * L.B0 p2 (s.M2Sc.at gI1) (s.M2Sc.at gI2) * pow2 (p.vd * ((pow2 p.g1 - 5 * pow2 p.g2) * s.ZC.at gI1 0 * s.ZC.at gI2 0 - 4 * pow2 p.g1 * s.ZC.at gI1 1 * s.ZC.at gI2 1)) / 400))

/-- mh2_fo/MSSM_mass_eigenstates.cpp:263 -/
def full11_11 (L : LoopFns F) (s : Spec F) (p : Params F) (p2 : F) : F :=
  (sum2 fun gI1 => (sum2 fun gI2 => (-3) * L.B0 p2 (s.M2Sd.at gI1) (s.M2Sd.at gI2) * pow2 (p.vd * ((pow2 p.g1 + 5 * pow2 p.g2) * s.ZD.at gI1 0 * s.ZD.at gI2 0 + 2 * pow2 p.g1 * s.ZD.at gI1 1 * s.ZD.at gI2 1)) / 400))

/-- mh2_fo/MSSM_mass_eigenstates.cpp:264 -/
def full11_12 (L : LoopFns F) (s : Spec F) (p : Params F) (p2 : F) : F :=
  (sum2 fun gI1 => (sum2 fun gI2 => (-(L.B0 p2 (s.M2Se.at gI1) (s.M2Se.at gI2) * pow2 (p.vd * ((3 * pow2 p.g1 - 5 * pow2 p.g2) * s.ZE.at gI1 0 * s.ZE.at gI2 0 - 6 * pow2 p.g1 * s.ZE.at gI1 1 * s.ZE.at gI2 1)))) / 400))

/-- mh2_fo/MSSM_mass_eigenstates.cpp:265 -/
def full11_13 (L : LoopFns F) (s : Spec F) (p : Params F) (p2 : F) : F :=
  (sum2 fun gI1 => (sum2 fun gI2 => (-(L.B0 p2 (s.M2Sm.at gI1) (s.M2Sm.at gI2) * pow2 (p.vd * ((3 * pow2 p.g1 - 5 * pow2 p.g2) * s.ZM.at gI1 0 * s.ZM.at gI2 0 - 6 * pow2 p.g1 * s.ZM.at gI1 1 * s.ZM.at gI2 1)))) / 400))

/-- mh2_fo/MSSM_mass_eigenstates.cpp:266 -/
def full11_14 (L : LoopFns F) (s : Spec F) (p : Params F) (p2 : F) : F :=
  (sum2 fun gI1 => (sum2 fun gI2 => (-3) * L.B0 p2 (s.M2Ss.at gI1) (s.M2Ss.at gI2) * pow2 (p.vd * ((pow2 p.g1 + 5 * pow2 p.g2) * s.ZS.at gI1 0 * s.ZS.at gI2 0 + 2 * pow2 p.g1 * s.ZS.at gI1 1 * s.ZS.at gI2 1)) / 400))

/-- mh2_fo/MSSM_mass_eigenstates.cpp:267 -/
def full11_15 (L : LoopFns F) (s : Spec F) (p : Params F) (p2 : F) : F :=
  (sum2 fun gI1 => (sum2 fun gI2 => (-3) * L.B0 p2 (s.M2Su.at gI1) (s.M2Su.at gI2) * pow2 (p.vd * ((pow2 p.g1 - 5 * pow2 p.g2) * s.ZU.at gI1 0 * s.ZU.at gI2 0 - 4 * pow2 p.g1 * s.ZU.at gI1 1 * s.ZU.at gI2 1)) / 400))

/-- mh2_fo/MSSM_mass_eigenstates.cpp:268 -/
def full11_16 (L : LoopFns F) (s : Spec F) (p : Params F) (p2 : F) : F :=
  (sum2 fun gI1 => (sum2 fun gI2 => pow2 p.g2 * (L.A0 (pow2 (s.MCha.at gI1)) + L.A0 (pow2 (s.MCha.at gI2)) + L.B0 p2 (pow2 (s.MCha.at gI1)) (pow2 (s.MCha.at gI2)) * (-p2 + pow2 (s.MCha.at gI1) + pow2 (s.MCha.at gI2))) * (pow2 (s.UM.at gI2 1 * s.UP.at gI1 0) + pow2 (s.UM.at gI1 1 * s.UP.at gI2 0)) / 2) + s.MCha.at gI1 * ((sum2 fun gI2 => 2 * L.B0 p2 (pow2 (s.MCha.at gI1)) (pow2 (s.MCha.at gI2)) * s.MCha.at gI2 * pow2 p.g2 * s.UM.at gI1 1 * s.UM.at gI2 1 * s.UP.at gI1 0 * s.UP.at gI2 0) - 2 * p.g2 * (const .sqrt2) * L.A0 (pow2 (s.MCha.at gI1)) * s.UM.at gI1 1 * s.UP.at gI1 0 / p.vd))

/-- mh2_fo/MSSM_mass_eigenstates.cpp:269 -/
def full11_17 (L : LoopFns F) (s : Spec F) (p : Params F) (p2 : F) : F :=
  (sum2 fun gI1 => (sum2 fun gI2 => (-3) * L.B0 p2 (s.M2Sb.at gI1) (s.M2Sb.at gI2) * pow2 (s.ZB.at gI1 0 * (p.vd * (pow2 p.g1 + 5 * pow2 p.g2 - 20 * pow2 (p.Yd 2 2)) * s.ZB.at gI2 0 - 10 * (p.Ad 2 2) * (const .sqrt2) * (p.Yd 2 2) * s.ZB.at gI2 1) + 2 * s.ZB.at gI1 1 * ((-5) * (p.Ad 2 2) * (const .sqrt2) * (p.Yd 2 2) * s.ZB.at gI2 0 + p.vd * (pow2 p.g1 - 10 * pow2 (p.Yd 2 2)) * s.ZB.at gI2 1)) / 400) + 3 * (p.Ad 2 2) * (const .sqrt2) * (p.Yd 2 2) * L.A0 (s.M2Sb.at gI1) * s.ZB.at gI1 0 * s.ZB.at gI1 1 / p.vd)

/-- mh2_fo/MSSM_mass_eigenstates.cpp:270 -/
def full11_18 (L : LoopFns F) (s : Spec F) (p : Params F) (p2 : F) : F :=
  (sum2 fun gI1 => (-((sum2 fun gI2 => p.vd * L.B0 p2 (s.M2hh.at gI1) (s.M2hh.at gI2) * pow2 ((3 * pow2 p.g1 + 5 * pow2 p.g2) * (s.ZH.at gI1 1 * (p.vu * s.ZH.at gI2 0 + p.vd * s.ZH.at gI2 1) + s.ZH.at gI1 0 * ((-3) * p.vd * s.ZH.at gI2 0 + p.vu * s.ZH.at gI2 1))) / 40) + p.vu * L.A0 (s.M2hh.at gI1) * (3 * pow2 p.g1 + 5 * pow2 p.g2) * s.ZH.at gI1 0 * s.ZH.at gI1 1)) / (20 * p.vd))

/-- mh2_fo/MSSM_mass_eigenstates.cpp:271 -/
def full11_19 (L : LoopFns F) (s : Spec F) (p : Params F) (p2 : F) : F :=
  (sum2 fun gI1 => (sum2 fun gI2 => (-(L.B0 p2 (s.M2Hpm.at gI1) (s.M2Hpm.at gI2) * pow2 (s.ZP.at gI1 0 * (p.vd * (3 * pow2 p.g1 + 5 * pow2 p.g2) * s.ZP.at gI2 0 + 5 * p.vu * pow2 p.g2 * s.ZP.at gI2 1) + s.ZP.at gI1 1 * (5 * p.vu * pow2 p.g2 * s.ZP.at gI2 0 + p.vd * ((-3) * pow2 p.g1 + 5 * pow2 p.g2) * s.ZP.at gI2 1)))) / 400) + p.vu * L.A0 (s.M2Hpm.at gI1) * pow2 p.g2 * s.ZP.at gI1 0 * s.ZP.at gI1 1 / (2 * p.vd))

/-- mh2_fo/MSSM_mass_eigenstates.cpp:272 -/
def full11_20 (L : LoopFns F) (s : Spec F) (p : Params F) (p2 : F) : F :=
  (sum2 fun gI1 => (-3) * ((sum2 fun gI2 => p.vd * L.B0 p2 (s.M2St.at gI1) (s.M2St.at gI2) * pow2 (s.ZT.at gI1 0 * (p.vd * (pow2 p.g1 - 5 * pow2 p.g2) * s.ZT.at gI2 0 + 10 * p.mu * (const .sqrt2) * (p.Yu 2 2) * s.ZT.at gI2 1) + 2 * s.ZT.at gI1 1 * (5 * p.mu * (const .sqrt2) * (p.Yu 2 2) * s.ZT.at gI2 0 - 2 * p.vd * pow2 p.g1 * s.ZT.at gI2 1)) / 400) + p.mu * (const .sqrt2) * (p.Yu 2 2) * L.A0 (s.M2St.at gI1) * s.ZT.at gI1 0 * s.ZT.at gI1 1) / p.vd)

/-- mh2_fo/MSSM_mass_eigenstates.cpp:273 -/
def full11_21 (L : LoopFns F) (s : Spec F) (p : Params F) (p2 : F) : F :=
  (sum2 fun gI1 => (sum2 fun gI2 => (-(L.B0 p2 (s.M2Stau.at gI1) (s.M2Stau.at gI2) * pow2 (s.ZTau.at gI1 0 * (p.vd * (3 * pow2 p.g1 - 5 * pow2 p.g2 + 20 * pow2 (p.Ye 2 2)) * s.ZTau.at gI2 0 + 10 * (p.Ae 2 2) * (const .sqrt2) * (p.Ye 2 2) * s.ZTau.at gI2 1) + 2 * s.ZTau.at gI1 1 * (5 * (p.Ae 2 2) * (const .sqrt2) * (p.Ye 2 2) * s.ZTau.at gI2 0 + p.vd * ((-3) * pow2 p.g1 + 10 * pow2 (p.Ye 2 2)) * s.ZTau.at gI2 1)))) / 400) + (p.Ae 2 2) * (const .sqrt2) * (p.Ye 2 2) * L.A0 (s.M2Stau.at gI1) * s.ZTau.at gI1 0 * s.ZTau.at gI1 1 / p.vd)

/-- mh2_fo/MSSM_mass_eigenstates.cpp:274 -/
def full11_22 (L : LoopFns F) (s : Spec F) (p : Params F) (p2 : F) : F :=
  (sum4 fun gI1 => (sum4 fun gI2 => (L.A0 (pow2 (s.MChi gI1)) + L.A0 (pow2 (s.MChi gI2)) + L.B0 p2 (pow2 (s.MChi gI1)) (pow2 (s.MChi gI2)) * (-p2 + 2 * s.MChi gI1 * s.MChi gI2 + pow2 (s.MChi gI1) + pow2 (s.MChi gI2))) * pow2 (s.ZN gI1 2 * (p.g1 * (const .sqrt15) * s.ZN gI2 0 - 5 * p.g2 * s.ZN gI2 1) + (p.g1 * (const .sqrt15) * s.ZN gI1 0 - 5 * p.g2 * s.ZN gI1 1) * s.ZN gI2 2) / 100) + 2 * L.A0 (pow2 (s.MChi gI1)) * s.MChi gI1 * (p.g1 * (const .sqrt15) * s.ZN gI1 0 - 5 * p.g2 * s.ZN gI1 1) * s.ZN gI1 2 / (5 * p.vd))

/-- mh2_fo/MSSM_mass_eigenstates.cpp:275 -/
def full11_23 (L : LoopFns F) (s : Spec F) (p : Params F) (p2 : F) : F :=
  (sum2 fun gI2 => (2 * L.A0 s.M2VZ - L.A0 (s.M2Ah.at gI2) + L.B0 p2 s.M2VZ (s.M2Ah.at gI2) * (-s.M2VZ + 2 * p2 + 2 * s.M2Ah.at gI2)) * (3 * pow2 p.g1 + 5 * pow2 p.g2) * pow2 (s.ZA.at gI2 0) / 20)

/-- mh2_fo/MSSM_mass_eigenstates.cpp:276 -/
def full11_24 (L : LoopFns F) (s : Spec F) (p : Params F) (p2 : F) : F :=
  (sum2 fun gI2 => (2 * L.A0 s.M2VWm - L.A0 (s.M2Hpm.at gI2) + L.B0 p2 s.M2VWm (s.M2Hpm.at gI2) * (-s.M2VWm + 2 * p2 + 2 * s.M2Hpm.at gI2)) * pow2 (p.g2 * s.ZP.at gI2 0) / 2)

/-- mh2_fo/MSSM_mass_eigenstates.cpp:278 -/
def full12_0 (L : LoopFns F) (s : Spec F) (p : Params F) (p2 : F) : F :=
  p.vd * p.vu * L.B0 p2 s.M2SveL s.M2SveL * pow2 (3 * pow2 p.g1 + 5 * pow2 p.g2) / 400

/-- mh2_fo/MSSM_mass_eigenstates.cpp:279 -/
def full12_1 (L : LoopFns F) (s : Spec F) (p : Params F) (p2 : F) : F :=
  p.vd * p.vu * L.B0 p2 s.M2SvmL s.M2SvmL * pow2 (3 * pow2 p.g1 + 5 * pow2 p.g2) / 400

/-- mh2_fo/MSSM_mass_eigenstates.cpp:280 -/
def full12_2 (L : LoopFns F) (s : Spec F) (p : Params F) (p2 : F) : F :=
  p.vd * p.vu * L.B0 p2 s.M2SvtL s.M2SvtL * pow2 (3 * pow2 p.g1 + 5 * pow2 p.g2) / 400

/-- mh2_fo/MSSM_mass_eigenstates.cpp:281 -/
def full12_3 (L : LoopFns F) (s : Spec F) (p : Params F) (p2 : F) : F :=
  (-7) * p.vd * p.vu * L.B0 p2 s.M2VWm s.M2VWm * fpow4 p.g2 / 8

/-- mh2_fo/MSSM_mass_eigenstates.cpp:282 -/
def full12_4 (L : LoopFns F) (s : Spec F) (p : Params F) (p2 : F) : F :=
  (-7) * p.vd * p.vu * L.B0 p2 s.M2VZ s.M2VZ * pow2 (3 * pow2 p.g1 + 5 * pow2 p.g2) / 400

/-- mh2_fo/MSSM_mass_eigenstates.cpp:283 -/
def full12_5 (L : LoopFns F) (s : Spec F) (p : Params F) (p2 : F) : F :=
  (sum2 fun gI1 => (sum2 fun gI2 => pow2 p.g2 * (2 * L.B0 p2 (pow2 (s.MCha.at gI1)) (pow2 (s.MCha.at gI2)) * s.MCha.at gI1 * s.MCha.at gI2 * (s.UM.at gI1 1 * s.UM.at gI2 0 * s.UP.at gI1 1 * s.UP.at gI2 0 + s.UM.at gI1 0 * s.UM.at gI2 1 * s.UP.at gI1 0 * s.UP.at gI2 1) + (L.A0 (pow2 (s.MCha.at gI1)) + L.A0 (pow2 (s.MCha.at gI2)) + L.B0 p2 (pow2 (s.MCha.at gI1)) (pow2 (s.MCha.at gI2)) * (-p2 + pow2 (s.MCha.at gI1) + pow2 (s.MCha.at gI2))) * (s.UM.at gI2 0 * s.UM.at gI2 1 * s.UP.at gI1 0 * s.UP.at gI1 1 + s.UM.at gI1 0 * s.UM.at gI1 1 * s.UP.at gI2 0 * s.UP.at gI2 1)) / 2))

/-- mh2_fo/MSSM_mass_eigenstates.cpp:284 -/
def full12_6 (L : LoopFns F) (s : Spec F) (p : Params F) (p2 : F) : F :=
  (sum2 fun gI1 => (sum2 fun gI2 => p.vd * p.vu * L.B0 p2 (s.M2Ah.at gI1) (s.M2Ah.at gI2) * pow2 ((3 * pow2 p.g1 + 5 * pow2 p.g2) * (s.ZA.at gI1 0 * s.ZA.at gI2 0 - s.ZA.at gI1 1 * s.ZA.at gI2 1)) / 800))

/-- mh2_fo/MSSM_mass_eigenstates.cpp:285 -/
def full12_7 (L : LoopFns F) (s : Spec F) (p : Params F) (p2 : F) : F :=
  (sum2 fun gI1 => (sum2 fun gI2 => 3 * L.B0 p2 (s.M2Sb.at gI1) (s.M2Sb.at gI2) * (s.ZB.at gI1 0 * (p.vu * (pow2 p.g1 + 5 * pow2 p.g2) * s.ZB.at gI2 0 - 10 * p.mu * (const .sqrt2) * (p.Yd 2 2) * s.ZB.at gI2 1) + 2 * s.ZB.at gI1 1 * ((-5) * p.mu * (const .sqrt2) * (p.Yd 2 2) * s.ZB.at gI2 0 + p.vu * pow2 p.g1 * s.ZB.at gI2 1)) * (s.ZB.at gI1 0 * (p.vd * (pow2 p.g1 + 5 * pow2 p.g2 - 20 * pow2 (p.Yd 2 2)) * s.ZB.at gI2 0 - 10 * (p.Ad 2 2) * (const .sqrt2) * (p.Yd 2 2) * s.ZB.at gI2 1) + 2 * s.ZB.at gI1 1 * ((-5) * (p.Ad 2 2) * (const .sqrt2) * (p.Yd 2 2) * s.ZB.at gI2 0 + p.vd * (pow2 p.g1 - 10 * pow2 (p.Yd 2 2)) * s.ZB.at gI2 1)) / 400))

/-- mh2_fo/MSSM_mass_eigenstates.cpp:286 -/
def full12_8 (L : LoopFns F) (s : Spec F) (p : Params F) (p2 : F) : F :=
  (sum2 fun gI1 => (sum2 fun gI2 => 3 * p.vd * p.vu * L.B0 p2 (s.M2Sc.at gI1) (s.M2Sc.at gI2) * pow2 ((pow2 p.g1 - 5 * pow2 p.g2) * s.ZC.at gI1 0 * s.ZC.at gI2 0 - 4 * pow2 p.g1 * s.ZC.at gI1 1 * s.ZC.at gI2 1) / 400))

/-- mh2_fo/MSSM_mass_eigenstates.cpp:287 -/
def full12_9 (L : LoopFns F) (s : Spec F) (p : Params F) (p2 : F) : F :=
  (sum2 fun gI1 => (sum2 fun gI2 => 3 * p.vd * p.vu * L.B0 p2 (s.M2Sd.at gI1) (s.M2Sd.at gI2) * pow2 ((pow2 p.g1 + 5 * pow2 p.g2) * s.ZD.at gI1 0 * s.ZD.at gI2 0 + 2 * pow2 p.g1 * s.ZD.at gI1 1 * s.ZD.at gI2 1) / 400))

/-- mh2_fo/MSSM_mass_eigenstates.cpp:288 -/
def full12_10 (L : LoopFns F) (s : Spec F) (p : Params F) (p2 : F) : F :=
  (sum2 fun gI1 => (sum2 fun gI2 => p.vd * p.vu * L.B0 p2 (s.M2Se.at gI1) (s.M2Se.at gI2) * pow2 ((3 * pow2 p.g1 - 5 * pow2 p.g2) * s.ZE.at gI1 0 * s.ZE.at gI2 0 - 6 * pow2 p.g1 * s.ZE.at gI1 1 * s.ZE.at gI2 1) / 400))

/-- mh2_fo/MSSM_mass_eigenstates.cpp:289 -/
def full12_11 (L : LoopFns F) (s : Spec F) (p : Params F) (p2 : F) : F :=
  (sum2 fun gI1 => (sum2 fun gI2 => p.vd * p.vu * L.B0 p2 (s.M2Sm.at gI1) (s.M2Sm.at gI2) * pow2 ((3 * pow2 p.g1 - 5 * pow2 p.g2) * s.ZM.at gI1 0 * s.ZM.at gI2 0 - 6 * pow2 p.g1 * s.ZM.at gI1 1 * s.ZM.at gI2 1) / 400))

/-- mh2_fo/MSSM_mass_eigenstates.cpp:290 -/
def full12_12 (L : LoopFns F) (s : Spec F) (p : Params F) (p2 : F) : F :=
  (sum2 fun gI1 => (sum2 fun gI2 => 3 * p.vd * p.vu * L.B0 p2 (s.M2Ss.at gI1) (s.M2Ss.at gI2) * pow2 ((pow2 p.g1 + 5 * pow2 p.g2) * s.ZS.at gI1 0 * s.ZS.at gI2 0 + 2 * pow2 p.g1 * s.ZS.at gI1 1 * s.ZS.at gI2 1) / 400))

/-- mh2_fo/MSSM_mass_eigenstates.cpp:291 -/
def full12_13 (L : LoopFns F) (s : Spec F) (p : Params F) (p2 : F) : F :=
  (sum2 fun gI1 => (sum2 fun gI2 => 3 * L.B0 p2 (s.M2St.at gI1) (s.M2St.at gI2) * (s.ZT.at gI1 0 * (p.vd * (pow2 p.g1 - 5 * pow2 p.g2) * s.ZT.at gI2 0 + 10 * p.mu * (const .sqrt2) * (p.Yu 2 2) * s.ZT.at gI2 1) + 2 * s.ZT.at gI1 1 * (5 * p.mu * (const .sqrt2) * (p.Yu 2 2) * s.ZT.at gI2 0 - 2 * p.vd * pow2 p.g1 * s.ZT.at gI2 1)) * (s.ZT.at gI1 0 * (p.vu * (pow2 p.g1 - 5 * pow2 p.g2 + 20 * pow2 (p.Yu 2 2)) * s.ZT.at gI2 0 + 10 * (p.Au 2 2) * (const .sqrt2) * (p.Yu 2 2) * s.ZT.at gI2 1) + 2 * s.ZT.at gI1 1 * (5 * (p.Au 2 2) * (const .sqrt2) * (p.Yu 2 2) * s.ZT.at gI2 0 - 2 * p.vu * (pow2 p.g1 - 5 * pow2 (p.Yu 2 2)) * s.ZT.at gI2 1)) / 400))

/-- mh2_fo/MSSM_mass_eigenstates.cpp:292 -/
def full12_14 (L : LoopFns F) (s : Spec F) (p : Params F) (p2 : F) : F :=
  (sum2 fun gI1 => (sum2 fun gI2 => L.B0 p2 (s.M2Stau.at gI1) (s.M2Stau.at gI2) * (s.ZTau.at gI1 0 * (p.vu * (3 * pow2 p.g1 - 5 * pow2 p.g2) * s.ZTau.at gI2 0 + 10 * p.mu * (const .sqrt2) * (p.Ye 2 2) * s.ZTau.at gI2 1) + 2 * s.ZTau.at gI1 1 * (5 * p.mu * (const .sqrt2) * (p.Ye 2 2) * s.ZTau.at gI2 0 - 3 * p.vu * pow2 p.g1 * s.ZTau.at gI2 1)) * (s.ZTau.at gI1 0 * (p.vd * (3 * pow2 p.g1 - 5 * pow2 p.g2 + 20 * pow2 (p.Ye 2 2)) * s.ZTau.at gI2 0 + 10 * (p.Ae 2 2) * (const .sqrt2) * (p.Ye 2 2) * s.ZTau.at gI2 1) + 2 * s.ZTau.at gI1 1 * (5 * (p.Ae 2 2) * (const .sqrt2) * (p.Ye 2 2) * s.ZTau.at gI2 0 + p.vd * ((-3) * pow2 p.g1 + 10 * pow2 (p.Ye 2 2)) * s.ZTau.at gI2 1)) / 400))

/-- mh2_fo/MSSM_mass_eigenstates.cpp:293 -/
def full12_15 (L : LoopFns F) (s : Spec F) (p : Params F) (p2 : F) : F :=
  (sum2 fun gI1 => (sum2 fun gI2 => 3 * p.vd * p.vu * L.B0 p2 (s.M2Su.at gI1) (s.M2Su.at gI2) * pow2 ((pow2 p.g1 - 5 * pow2 p.g2) * s.ZU.at gI1 0 * s.ZU.at gI2 0 - 4 * pow2 p.g1 * s.ZU.at gI1 1 * s.ZU.at gI2 1) / 400))

/-- mh2_fo/MSSM_mass_eigenstates.cpp:294 -/
def full12_16 (L : LoopFns F) (s : Spec F) (p : Params F) (p2 : F) : F :=
  (sum2 fun gI1 => (sum2 fun gI2 => (-(L.B0 p2 (s.M2hh.at gI1) (s.M2hh.at gI2) * pow2 (3 * pow2 p.g1 + 5 * pow2 p.g2) * (s.ZH.at gI1 0 * (p.vu * s.ZH.at gI2 0 + p.vd * s.ZH.at gI2 1) + s.ZH.at gI1 1 * (p.vd * s.ZH.at gI2 0 - 3 * p.vu * s.ZH.at gI2 1)) * (s.ZH.at gI1 1 * (p.vu * s.ZH.at gI2 0 + p.vd * s.ZH.at gI2 1) + s.ZH.at gI1 0 * ((-3) * p.vd * s.ZH.at gI2 0 + p.vu * s.ZH.at gI2 1)))) / 800) + L.A0 (s.M2hh.at gI1) * (3 * pow2 p.g1 + 5 * pow2 p.g2) * s.ZH.at gI1 0 * s.ZH.at gI1 1 / 20)

/-- mh2_fo/MSSM_mass_eigenstates.cpp:295 -/
def full12_17 (L : LoopFns F) (s : Spec F) (p : Params F) (p2 : F) : F :=
  (sum2 fun gI1 => (sum2 fun gI2 => (-(L.B0 p2 (s.M2Hpm.at gI1) (s.M2Hpm.at gI2) * (s.ZP.at gI1 0 * (p.vd * (3 * pow2 p.g1 + 5 * pow2 p.g2) * s.ZP.at gI2 0 + 5 * p.vu * pow2 p.g2 * s.ZP.at gI2 1) + s.ZP.at gI1 1 * (5 * p.vu * pow2 p.g2 * s.ZP.at gI2 0 + p.vd * ((-3) * pow2 p.g1 + 5 * pow2 p.g2) * s.ZP.at gI2 1)) * (s.ZP.at gI1 0 * (((-3) * p.vu * pow2 p.g1 + 5 * p.vu * pow2 p.g2) * s.ZP.at gI2 0 + 5 * p.vd * pow2 p.g2 * s.ZP.at gI2 1) + s.ZP.at gI1 1 * (5 * p.vd * pow2 p.g2 * s.ZP.at gI2 0 + p.vu * (3 * pow2 p.g1 + 5 * pow2 p.g2) * s.ZP.at gI2 1)))) / 400) - L.A0 (s.M2Hpm.at gI1) * pow2 p.g2 * s.ZP.at gI1 0 * s.ZP.at gI1 1 / 2)

/-- mh2_fo/MSSM_mass_eigenstates.cpp:296 -/
def full12_18 (L : LoopFns F) (s : Spec F) (p : Params F) (p2 : F) : F :=
  (sum4 fun gI1 => (sum4 fun gI2 => (-((L.A0 (pow2 (s.MChi gI1)) + L.A0 (pow2 (s.MChi gI2)) + L.B0 p2 (pow2 (s.MChi gI1)) (pow2 (s.MChi gI2)) * (-p2 + 2 * s.MChi gI1 * s.MChi gI2 + pow2 (s.MChi gI1) + pow2 (s.MChi gI2))) * (s.ZN gI1 2 * (p.g1 * (const .sqrt15) * s.ZN gI2 0 - 5 * p.g2 * s.ZN gI2 1) + (p.g1 * (const .sqrt15) * s.ZN gI1 0 - 5 * p.g2 * s.ZN gI1 1) * s.ZN gI2 2) * (s.ZN gI1 3 * (p.g1 * (const .sqrt15) * s.ZN gI2 0 - 5 * p.g2 * s.ZN gI2 1) + (p.g1 * (const .sqrt15) * s.ZN gI1 0 - 5 * p.g2 * s.ZN gI1 1) * s.ZN gI2 3))) / 100))

/-- mh2_fo/MSSM_mass_eigenstates.cpp:297 -/
def full12_19 (L : LoopFns F) (s : Spec F) (p : Params F) (p2 : F) : F :=
  (sum2 fun gI2 => (-((2 * L.A0 s.M2VZ - L.A0 (s.M2Ah.at gI2) + L.B0 p2 s.M2VZ (s.M2Ah.at gI2) * (-s.M2VZ + 2 * p2 + 2 * s.M2Ah.at gI2)) * (3 * pow2 p.g1 + 5 * pow2 p.g2) * s.ZA.at gI2 0 * s.ZA.at gI2 1)) / 20)

/-- mh2_fo/MSSM_mass_eigenstates.cpp:298 -/
def full12_20 (L : LoopFns F) (s : Spec F) (p : Params F) (p2 : F) : F :=
  (sum2 fun gI2 => (-((2 * L.A0 s.M2VWm - L.A0 (s.M2Hpm.at gI2) + L.B0 p2 s.M2VWm (s.M2Hpm.at gI2) * (-s.M2VWm + 2 * p2 + 2 * s.M2Hpm.at gI2)) * pow2 p.g2 * s.ZP.at gI2 0 * s.ZP.at gI2 1)) / 2)

/-- mh2_fo/MSSM_mass_eigenstates.cpp:300 -/
def full22_0 (L : LoopFns F) (s : Spec F) (p : Params F) (p2 : F) : F :=
  (-(L.A0 s.M2VWm * pow2 p.g2)) / 2

/-- mh2_fo/MSSM_mass_eigenstates.cpp:301 -/
def full22_1 (L : LoopFns F) (s : Spec F) (p : Params F) (p2 : F) : F :=
  L.A0 s.M2VZ * ((-3) * pow2 p.g1 - 5 * pow2 p.g2) / 20

/-- mh2_fo/MSSM_mass_eigenstates.cpp:302 -/
def full22_2 (L : LoopFns F) (s : Spec F) (p : Params F) (p2 : F) : F :=
  (-(L.B0 p2 s.M2SveL s.M2SveL * pow2 (p.vu * (3 * pow2 p.g1 + 5 * pow2 p.g2)))) / 400

/-- mh2_fo/MSSM_mass_eigenstates.cpp:303 -/
def full22_3 (L : LoopFns F) (s : Spec F) (p : Params F) (p2 : F) : F :=
  (-(L.B0 p2 s.M2SvmL s.M2SvmL * pow2 (p.vu * (3 * pow2 p.g1 + 5 * pow2 p.g2)))) / 400

/-- mh2_fo/MSSM_mass_eigenstates.cpp:304 -/
def full22_4 (L : LoopFns F) (s : Spec F) (p : Params F) (p2 : F) : F :=
  (-(L.B0 p2 s.M2SvtL s.M2SvtL * pow2 (p.vu * (3 * pow2 p.g1 + 5 * pow2 p.g2)))) / 400

/-- mh2_fo/MSSM_mass_eigenstates.cpp:305 -/
def full22_5 (L : LoopFns F) (s : Spec F) (p : Params F) (p2 : F) : F :=
  (-7) * L.B0 p2 s.M2VWm s.M2VWm * fpow4 p.g2 * pow2 p.vu / 8

/-- mh2_fo/MSSM_mass_eigenstates.cpp:306 -/
def full22_6 (L : LoopFns F) (s : Spec F) (p : Params F) (p2 : F) : F :=
  (-7) * L.B0 p2 s.M2VZ s.M2VZ * pow2 (p.vu * (3 * pow2 p.g1 + 5 * pow2 p.g2)) / 400

/-- mh2_fo/MSSM_mass_eigenstates.cpp:307 -/
def full22_7 (L : LoopFns F) (s : Spec F) (p : Params F) (p2 : F) : F :=
  3 * L.B0 p2 (pow2 s.MFt) (pow2 s.MFt) * (-p2 + 4 * pow2 s.MFt) * pow2 (p.Yu 2 2)

/-- mh2_fo/MSSM_mass_eigenstates.cpp:308 -/
def full22_8 (L : LoopFns F) (s : Spec F) (p : Params F) (p2 : F) : F :=
  (sum2 fun gI1 => (sum2 fun gI2 => (-(L.B0 p2 (s.M2Ah.at gI1) (s.M2Ah.at gI2) * pow2 (p.vu * (3 * pow2 p.g1 + 5 * pow2 p.g2) * (s.ZA.at gI1 0 * s.ZA.at gI2 0 - s.ZA.at gI1 1 * s.ZA.at gI2 1)))) / 800))

/-- mh2_fo/MSSM_mass_eigenstates.cpp:309 -/
def full22_9 (L : LoopFns F) (s : Spec F) (p : Params F) (p2 : F) : F :=
  (sum2 fun gI1 => (sum2 fun gI2 => (-3) * L.B0 p2 (s.M2Sc.at gI1) (s.M2Sc.at gI2) * pow2 (p.vu * ((pow2 p.g1 - 5 * pow2 p.g2) * s.ZC.at gI1 0 * s.ZC.at gI2 0 - 4 * pow2 p.g1 * s.ZC.at gI1 1 * s.ZC.at gI2 1)) / 400))

/-- mh2_fo/MSSM_mass_eigenstates.cpp:310 -/
def full22_10 (L : LoopFns F) (s : Spec F) (p : Params F) (p2 : F) : F :=
  (sum2 fun gI1 => (sum2 fun gI2 => (-3) * L.B0 p2 (s.M2Sd.at gI1) (s.M2Sd.at gI2) * pow2 (p.vu * ((pow2 p.g1 + 5 * pow2 p.g2) * s.ZD.at gI1 0 * s.ZD.at gI2 0 + 2 * pow2 p.g1 * s.ZD.at gI1 1 * s.ZD.at gI2 1)) / 400))

/-- mh2_fo/MSSM_mass_eigenstates.cpp:311 -/
def full22_11 (L : LoopFns F) (s : Spec F) (p : Params F) (p2 : F) : F :=
  (sum2 fun gI1 => (sum2 fun gI2 => (-(L.B0 p2 (s.M2Se.at gI1) (s.M2Se.at gI2) * pow2 (p.vu * ((3 * pow2 p.g1 - 5 * pow2 p.g2) * s.ZE.at gI1 0 * s.ZE.at gI2 0 - 6 * pow2 p.g1 * s.ZE.at gI1 1 * s.ZE.at gI2 1)))) / 400))

/-- mh2_fo/MSSM_mass_eigenstates.cpp:312 -/
def full22_12 (L : LoopFns F) (s : Spec F) (p : Params F) (p2 : F) : F :=
  (sum2 fun gI1 => (sum2 fun gI2 => (-(L.B0 p2 (s.M2Sm.at gI1) (s.M2Sm.at gI2) * pow2 (p.vu * ((3 * pow2 p.g1 - 5 * pow2 p.g2) * s.ZM.at gI1 0 * s.ZM.at gI2 0 - 6 * pow2 p.g1 * s.ZM.at gI1 1 * s.ZM.at gI2 1)))) / 400))

/-- mh2_fo/MSSM_mass_eigenstates.cpp:313 -/
def full22_13 (L : LoopFns F) (s : Spec F) (p : Params F) (p2 : F) : F :=
  (sum2 fun gI1 => (sum2 fun gI2 => (-3) * L.B0 p2 (s.M2Ss.at gI1) (s.M2Ss.at gI2) * pow2 (p.vu * ((pow2 p.g1 + 5 * pow2 p.g2) * s.ZS.at gI1 0 * s.ZS.at gI2 0 + 2 * pow2 p.g1 * s.ZS.at gI1 1 * s.ZS.at gI2 1)) / 400))

/-- mh2_fo/MSSM_mass_eigenstates.cpp:314 -/
def full22_14 (L : LoopFns F) (s : Spec F) (p : Params F) (p2 : F) : F :=
  (sum2 fun gI1 => (sum2 fun gI2 => (-3) * L.B0 p2 (s.M2Su.at gI1) (s.M2Su.at gI2) * pow2 (p.vu * ((pow2 p.g1 - 5 * pow2 p.g2) * s.ZU.at gI1 0 * s.ZU.at gI2 0 - 4 * pow2 p.g1 * s.ZU.at gI1 1 * s.ZU.at gI2 1)) / 400))

/-- mh2_fo/MSSM_mass_eigenstates.cpp:315 -/
def full22_15 (L : LoopFns F) (s : Spec F) (p : Params F) (p2 : F) : F :=
  (sum2 fun gI1 => (sum2 fun gI2 => pow2 p.g2 * (L.A0 (pow2 (s.MCha.at gI1)) + L.A0 (pow2 (s.MCha.at gI2)) + L.B0 p2 (pow2 (s.MCha.at gI1)) (pow2 (s.MCha.at gI2)) * (-p2 + pow2 (s.MCha.at gI1) + pow2 (s.MCha.at gI2))) * (pow2 (s.UM.at gI2 0 * s.UP.at gI1 1) + pow2 (s.UM.at gI1 0 * s.UP.at gI2 1)) / 2) + s.MCha.at gI1 * ((sum2 fun gI2 => 2 * L.B0 p2 (pow2 (s.MCha.at gI1)) (pow2 (s.MCha.at gI2)) * s.MCha.at gI2 * pow2 p.g2 * s.UM.at gI1 0 * s.UM.at gI2 0 * s.UP.at gI1 1 * s.UP.at gI2 1) - 2 * p.g2 * (const .sqrt2) * L.A0 (pow2 (s.MCha.at gI1)) * s.UM.at gI1 0 * s.UP.at gI1 1 / p.vu))

/-- mh2_fo/MSSM_mass_eigenstates.cpp:316 -/
def full22_16 (L : LoopFns F) (s : Spec F) (p : Params F) (p2 : F) : F :=
  (sum2 fun gI1 => (-3) * ((sum2 fun gI2 => p.vu * L.B0 p2 (s.M2Sb.at gI1) (s.M2Sb.at gI2) * pow2 (s.ZB.at gI1 0 * (p.vu * (pow2 p.g1 + 5 * pow2 p.g2) * s.ZB.at gI2 0 - 10 * p.mu * (const .sqrt2) * (p.Yd 2 2) * s.ZB.at gI2 1) + 2 * s.ZB.at gI1 1 * ((-5) * p.mu * (const .sqrt2) * (p.Yd 2 2) * s.ZB.at gI2 0 + p.vu * pow2 p.g1 * s.ZB.at gI2 1)) / 400) + p.mu * (const .sqrt2) * (p.Yd 2 2) * L.A0 (s.M2Sb.at gI1) * s.ZB.at gI1 0 * s.ZB.at gI1 1) / p.vu)

/-- mh2_fo/MSSM_mass_eigenstates.cpp:317 -/
def full22_17 (L : LoopFns F) (s : Spec F) (p : Params F) (p2 : F) : F :=
  (sum2 fun gI1 => (-((sum2 fun gI2 => p.vu * L.B0 p2 (s.M2hh.at gI1) (s.M2hh.at gI2) * pow2 ((3 * pow2 p.g1 + 5 * pow2 p.g2) * (s.ZH.at gI1 0 * (p.vu * s.ZH.at gI2 0 + p.vd * s.ZH.at gI2 1) + s.ZH.at gI1 1 * (p.vd * s.ZH.at gI2 0 - 3 * p.vu * s.ZH.at gI2 1))) / 40) + p.vd * L.A0 (s.M2hh.at gI1) * (3 * pow2 p.g1 + 5 * pow2 p.g2) * s.ZH.at gI1 0 * s.ZH.at gI1 1)) / (20 * p.vu))

/-- mh2_fo/MSSM_mass_eigenstates.cpp:318 -/
def full22_18 (L : LoopFns F) (s : Spec F) (p : Params F) (p2 : F) : F :=
  (sum2 fun gI1 => (sum2 fun gI2 => (-(L.B0 p2 (s.M2Hpm.at gI1) (s.M2Hpm.at gI2) * pow2 (s.ZP.at gI1 0 * (p.vu * (3 * pow2 p.g1 - 5 * pow2 p.g2) * s.ZP.at gI2 0 - 5 * p.vd * pow2 p.g2 * s.ZP.at gI2 1) - s.ZP.at gI1 1 * (5 * p.vd * pow2 p.g2 * s.ZP.at gI2 0 + p.vu * (3 * pow2 p.g1 + 5 * pow2 p.g2) * s.ZP.at gI2 1)))) / 400) + p.vd * L.A0 (s.M2Hpm.at gI1) * pow2 p.g2 * s.ZP.at gI1 0 * s.ZP.at gI1 1 / (2 * p.vu))

/-- mh2_fo/MSSM_mass_eigenstates.cpp:319 -/
def full22_19 (L : LoopFns F) (s : Spec F) (p : Params F) (p2 : F) : F :=
  (sum2 fun gI1 => (sum2 fun gI2 => (-3) * L.B0 p2 (s.M2St.at gI1) (s.M2St.at gI2) * pow2 (s.ZT.at gI1 0 * (p.vu * (pow2 p.g1 - 5 * pow2 p.g2 + 20 * pow2 (p.Yu 2 2)) * s.ZT.at gI2 0 + 10 * (p.Au 2 2) * (const .sqrt2) * (p.Yu 2 2) * s.ZT.at gI2 1) + 2 * s.ZT.at gI1 1 * (5 * (p.Au 2 2) * (const .sqrt2) * (p.Yu 2 2) * s.ZT.at gI2 0 - 2 * p.vu * (pow2 p.g1 - 5 * pow2 (p.Yu 2 2)) * s.ZT.at gI2 1)) / 400) + 3 * (p.Au 2 2) * (const .sqrt2) * (p.Yu 2 2) * L.A0 (s.M2St.at gI1) * s.ZT.at gI1 0 * s.ZT.at gI1 1 / p.vu)

/-- mh2_fo/MSSM_mass_eigenstates.cpp:320 -/
def full22_20 (L : LoopFns F) (s : Spec F) (p : Params F) (p2 : F) : F :=
  (sum2 fun gI1 => -(((sum2 fun gI2 => p.vu * L.B0 p2 (s.M2Stau.at gI1) (s.M2Stau.at gI2) * pow2 (s.ZTau.at gI1 0 * (p.vu * (3 * pow2 p.g1 - 5 * pow2 p.g2) * s.ZTau.at gI2 0 + 10 * p.mu * (const .sqrt2) * (p.Ye 2 2) * s.ZTau.at gI2 1) + 2 * s.ZTau.at gI1 1 * (5 * p.mu * (const .sqrt2) * (p.Ye 2 2) * s.ZTau.at gI2 0 - 3 * p.vu * pow2 p.g1 * s.ZTau.at gI2 1)) / 400) + p.mu * (const .sqrt2) * (p.Ye 2 2) * L.A0 (s.M2Stau.at gI1) * s.ZTau.at gI1 0 * s.ZTau.at gI1 1) / p.vu))

/-- mh2_fo/MSSM_mass_eigenstates.cpp:321 -/
def full22_21 (L : LoopFns F) (s : Spec F) (p : Params F) (p2 : F) : F :=
  (sum4 fun gI1 => (sum4 fun gI2 => (L.A0 (pow2 (s.MChi gI1)) + L.A0 (pow2 (s.MChi gI2)) + L.B0 p2 (pow2 (s.MChi gI1)) (pow2 (s.MChi gI2)) * (-p2 + 2 * s.MChi gI1 * s.MChi gI2 + pow2 (s.MChi gI1) + pow2 (s.MChi gI2))) * pow2 (s.ZN gI1 3 * (p.g1 * (const .sqrt15) * s.ZN gI2 0 - 5 * p.g2 * s.ZN gI2 1) + (p.g1 * (const .sqrt15) * s.ZN gI1 0 - 5 * p.g2 * s.ZN gI1 1) * s.ZN gI2 3) / 100) - 2 * L.A0 (pow2 (s.MChi gI1)) * s.MChi gI1 * (p.g1 * (const .sqrt15) * s.ZN gI1 0 - 5 * p.g2 * s.ZN gI1 1) * s.ZN gI1 3 / (5 * p.vu))

/-- mh2_fo/MSSM_mass_eigenstates.cpp:322 -/
def full22_22 (L : LoopFns F) (s : Spec F) (p : Params F) (p2 : F) : F :=
  (sum2 fun gI2 => (2 * L.A0 s.M2VZ - L.A0 (s.M2Ah.at gI2) + L.B0 p2 s.M2VZ (s.M2Ah.at gI2) * (-s.M2VZ + 2 * p2 + 2 * s.M2Ah.at gI2)) * (3 * pow2 p.g1 + 5 * pow2 p.g2) * pow2 (s.ZA.at gI2 1) / 20)

/-- mh2_fo/MSSM_mass_eigenstates.cpp:323 -/
def full22_23 (L : LoopFns F) (s : Spec F) (p : Params F) (p2 : F) : F :=
  (sum2 fun gI2 => (2 * L.A0 s.M2VWm - L.A0 (s.M2Hpm.at gI2) + L.B0 p2 s.M2VWm (s.M2Hpm.at gI2) * (-s.M2VWm + 2 * p2 + 2 * s.M2Hpm.at gI2)) * pow2 (p.g2 * s.ZP.at gI2 1) / 2)

/-- mh2_fo/MSSM_mass_eigenstates.cpp:363 -/
def gl11_0 (L : LoopFns F) (s : Spec F) (p : Params F) (yb ytau : F) : F :=
  12 * L.B0 0 (pow2 s.MFb) (pow2 s.MFb) * pow2 (s.MFb * yb)

/-- mh2_fo/MSSM_mass_eigenstates.cpp:364 -/
def gl11_1 (L : LoopFns F) (s : Spec F) (p : Params F) (yb ytau : F) : F :=
  4 * L.B0 0 (pow2 s.MFtau) (pow2 s.MFtau) * pow2 (s.MFtau * ytau)

/-- mh2_fo/MSSM_mass_eigenstates.cpp:365 -/
def gl11_2 (L : LoopFns F) (s : Spec F) (p : Params F) (yb ytau : F) : F :=
  3 * (p.Ad 2 2) * (const .sqrt2) * yb * L.A0 (s.M2Sb.at 0) * s.ZB.at 0 0 * s.ZB.at 0 1 / p.vd

/-- mh2_fo/MSSM_mass_eigenstates.cpp:366 -/
def gl11_3 (L : LoopFns F) (s : Spec F) (p : Params F) (yb ytau : F) : F :=
  (-6) * L.B0 0 (s.M2Sb.at 0) (s.M2Sb.at 0) * pow2 (yb * (s.MFb * (pow2 (s.ZB.at 0 0) + pow2 (s.ZB.at 0 1)) + (p.Ad 2 2) * s.ZB.at 0 0 * s.ZB.at 0 1))

/-- mh2_fo/MSSM_mass_eigenstates.cpp:367 -/
def gl11_4 (L : LoopFns F) (s : Spec F) (p : Params F) (yb ytau : F) : F :=
  3 * (p.Ad 2 2) * (const .sqrt2) * yb * L.A0 (s.M2Sb.at 1) * s.ZB.at 1 0 * s.ZB.at 1 1 / p.vd

/-- mh2_fo/MSSM_mass_eigenstates.cpp:368 -/
def gl11_5 (L : LoopFns F) (s : Spec F) (p : Params F) (yb ytau : F) : F :=
  (-3) * L.B0 0 (s.M2Sb.at 0) (s.M2Sb.at 1) * pow2 (yb * (2 * s.MFb * s.ZB.at 0 0 * s.ZB.at 1 0 + (p.Ad 2 2) * s.ZB.at 0 1 * s.ZB.at 1 0 + (p.Ad 2 2) * s.ZB.at 0 0 * s.ZB.at 1 1 + 2 * s.MFb * s.ZB.at 0 1 * s.ZB.at 1 1))

/-- mh2_fo/MSSM_mass_eigenstates.cpp:369 -/
def gl11_6 (L : LoopFns F) (s : Spec F) (p : Params F) (yb ytau : F) : F :=
  (-6) * L.B0 0 (s.M2Sb.at 1) (s.M2Sb.at 1) * pow2 (yb * (s.MFb * (pow2 (s.ZB.at 1 0) + pow2 (s.ZB.at 1 1)) + (p.Ad 2 2) * s.ZB.at 1 0 * s.ZB.at 1 1))

/-- mh2_fo/MSSM_mass_eigenstates.cpp:370 -/
def gl11_7 (L : LoopFns F) (s : Spec F) (p : Params F) (yb ytau : F) : F :=
  (-3) * p.mu * (const .sqrt2) * (p.Yu 2 2) * L.A0 (s.M2St.at 0) * s.ZT.at 0 0 * s.ZT.at 0 1 / p.vd

/-- mh2_fo/MSSM_mass_eigenstates.cpp:371 -/
def gl11_8 (L : LoopFns F) (s : Spec F) (p : Params F) (yb ytau : F) : F :=
  (-6) * L.B0 0 (s.M2St.at 0) (s.M2St.at 0) * pow2 (p.mu * (p.Yu 2 2) * s.ZT.at 0 0 * s.ZT.at 0 1)

/-- mh2_fo/MSSM_mass_eigenstates.cpp:372 -/
def gl11_9 (L : LoopFns F) (s : Spec F) (p : Params F) (yb ytau : F) : F :=
  (-3) * p.mu * (const .sqrt2) * (p.Yu 2 2) * L.A0 (s.M2St.at 1) * s.ZT.at 1 0 * s.ZT.at 1 1 / p.vd

/-- mh2_fo/MSSM_mass_eigenstates.cpp:373 -/
def gl11_10 (L : LoopFns F) (s : Spec F) (p : Params F) (yb ytau : F) : F :=
  (-6) * L.B0 0 (s.M2St.at 1) (s.M2St.at 1) * pow2 (p.mu * (p.Yu 2 2) * s.ZT.at 1 0 * s.ZT.at 1 1)

/-- mh2_fo/MSSM_mass_eigenstates.cpp:374 -/
def gl11_11 (L : LoopFns F) (s : Spec F) (p : Params F) (yb ytau : F) : F :=
  (-3) * L.B0 0 (s.M2St.at 0) (s.M2St.at 1) * pow2 (p.mu * (p.Yu 2 2) * (s.ZT.at 0 1 * s.ZT.at 1 0 + s.ZT.at 0 0 * s.ZT.at 1 1))

/-- mh2_fo/MSSM_mass_eigenstates.cpp:375 -/
def gl11_12 (L : LoopFns F) (s : Spec F) (p : Params F) (yb ytau : F) : F :=
  (p.Ae 2 2) * (const .sqrt2) * ytau * L.A0 (s.M2Stau.at 0) * s.ZTau.at 0 0 * s.ZTau.at 0 1 / p.vd

/-- mh2_fo/MSSM_mass_eigenstates.cpp:376 -/
def gl11_13 (L : LoopFns F) (s : Spec F) (p : Params F) (yb ytau : F) : F :=
  (-2) * L.B0 0 (s.M2Stau.at 0) (s.M2Stau.at 0) * pow2 (ytau * (s.MFtau * (pow2 (s.ZTau.at 0 0) + pow2 (s.ZTau.at 0 1)) + (p.Ae 2 2) * s.ZTau.at 0 0 * s.ZTau.at 0 1))

/-- mh2_fo/MSSM_mass_eigenstates.cpp:377 -/
def gl11_14 (L : LoopFns F) (s : Spec F) (p : Params F) (yb ytau : F) : F :=
  (p.Ae 2 2) * (const .sqrt2) * ytau * L.A0 (s.M2Stau.at 1) * s.ZTau.at 1 0 * s.ZTau.at 1 1 / p.vd

/-- mh2_fo/MSSM_mass_eigenstates.cpp:378 -/
def gl11_15 (L : LoopFns F) (s : Spec F) (p : Params F) (yb ytau : F) : F :=
  -(L.B0 0 (s.M2Stau.at 0) (s.M2Stau.at 1) * pow2 (ytau * (2 * s.MFtau * s.ZTau.at 0 0 * s.ZTau.at 1 0 + (p.Ae 2 2) * s.ZTau.at 0 1 * s.ZTau.at 1 0 + (p.Ae 2 2) * s.ZTau.at 0 0 * s.ZTau.at 1 1 + 2 * s.MFtau * s.ZTau.at 0 1 * s.ZTau.at 1 1)))

/-- mh2_fo/MSSM_mass_eigenstates.cpp:379 -/
def gl11_16 (L : LoopFns F) (s : Spec F) (p : Params F) (yb ytau : F) : F :=
  (-2) * L.B0 0 (s.M2Stau.at 1) (s.M2Stau.at 1) * pow2 (ytau * (s.MFtau * (pow2 (s.ZTau.at 1 0) + pow2 (s.ZTau.at 1 1)) + (p.Ae 2 2) * s.ZTau.at 1 0 * s.ZTau.at 1 1))

/-- mh2_fo/MSSM_mass_eigenstates.cpp:381 -/
def gl12_0 (L : LoopFns F) (s : Spec F) (p : Params F) (yb ytau : F) : F :=
  6 * p.mu * L.B0 0 (s.M2Sb.at 0) (s.M2Sb.at 0) * pow2 yb * s.ZB.at 0 0 * s.ZB.at 0 1 * (s.MFb * (pow2 (s.ZB.at 0 0) + pow2 (s.ZB.at 0 1)) + (p.Ad 2 2) * s.ZB.at 0 0 * s.ZB.at 0 1)

/-- mh2_fo/MSSM_mass_eigenstates.cpp:382 -/
def gl12_1 (L : LoopFns F) (s : Spec F) (p : Params F) (yb ytau : F) : F :=
  3 * p.mu * L.B0 0 (s.M2Sb.at 0) (s.M2Sb.at 1) * pow2 yb * (s.ZB.at 0 1 * s.ZB.at 1 0 + s.ZB.at 0 0 * s.ZB.at 1 1) * (2 * s.MFb * s.ZB.at 0 0 * s.ZB.at 1 0 + (p.Ad 2 2) * s.ZB.at 0 1 * s.ZB.at 1 0 + (p.Ad 2 2) * s.ZB.at 0 0 * s.ZB.at 1 1 + 2 * s.MFb * s.ZB.at 0 1 * s.ZB.at 1 1)

/-- mh2_fo/MSSM_mass_eigenstates.cpp:383 -/
def gl12_2 (L : LoopFns F) (s : Spec F) (p : Params F) (yb ytau : F) : F :=
  6 * p.mu * L.B0 0 (s.M2Sb.at 1) (s.M2Sb.at 1) * pow2 yb * s.ZB.at 1 0 * s.ZB.at 1 1 * (s.MFb * (pow2 (s.ZB.at 1 0) + pow2 (s.ZB.at 1 1)) + (p.Ad 2 2) * s.ZB.at 1 0 * s.ZB.at 1 1)

/-- mh2_fo/MSSM_mass_eigenstates.cpp:384 -/
def gl12_3 (L : LoopFns F) (s : Spec F) (p : Params F) (yb ytau : F) : F :=
  6 * p.mu * L.B0 0 (s.M2St.at 0) (s.M2St.at 0) * pow2 (p.Yu 2 2) * s.ZT.at 0 0 * s.ZT.at 0 1 * (s.MFt * (pow2 (s.ZT.at 0 0) + pow2 (s.ZT.at 0 1)) + (p.Au 2 2) * s.ZT.at 0 0 * s.ZT.at 0 1)

/-- mh2_fo/MSSM_mass_eigenstates.cpp:385 -/
def gl12_4 (L : LoopFns F) (s : Spec F) (p : Params F) (yb ytau : F) : F :=
  3 * p.mu * L.B0 0 (s.M2St.at 0) (s.M2St.at 1) * pow2 (p.Yu 2 2) * (s.ZT.at 0 1 * s.ZT.at 1 0 + s.ZT.at 0 0 * s.ZT.at 1 1) * (2 * s.MFt * s.ZT.at 0 0 * s.ZT.at 1 0 + (p.Au 2 2) * s.ZT.at 0 1 * s.ZT.at 1 0 + (p.Au 2 2) * s.ZT.at 0 0 * s.ZT.at 1 1 + 2 * s.MFt * s.ZT.at 0 1 * s.ZT.at 1 1)

/-- mh2_fo/MSSM_mass_eigenstates.cpp:386 -/
def gl12_5 (L : LoopFns F) (s : Spec F) (p : Params F) (yb ytau : F) : F :=
  6 * p.mu * L.B0 0 (s.M2St.at 1) (s.M2St.at 1) * pow2 (p.Yu 2 2) * s.ZT.at 1 0 * s.ZT.at 1 1 * (s.MFt * (pow2 (s.ZT.at 1 0) + pow2 (s.ZT.at 1 1)) + (p.Au 2 2) * s.ZT.at 1 0 * s.ZT.at 1 1)

/-- mh2_fo/MSSM_mass_eigenstates.cpp:387 -/
def gl12_6 (L : LoopFns F) (s : Spec F) (p : Params F) (yb ytau : F) : F :=
  2 * p.mu * L.B0 0 (s.M2Stau.at 0) (s.M2Stau.at 0) * pow2 ytau * s.ZTau.at 0 0 * s.ZTau.at 0 1 * (s.MFtau * (pow2 (s.ZTau.at 0 0) + pow2 (s.ZTau.at 0 1)) + (p.Ae 2 2) * s.ZTau.at 0 0 * s.ZTau.at 0 1)

/-- mh2_fo/MSSM_mass_eigenstates.cpp:388 -/
def gl12_7 (L : LoopFns F) (s : Spec F) (p : Params F) (yb ytau : F) : F :=
  p.mu * L.B0 0 (s.M2Stau.at 0) (s.M2Stau.at 1) * pow2 ytau * (s.ZTau.at 0 1 * s.ZTau.at 1 0 + s.ZTau.at 0 0 * s.ZTau.at 1 1) * (2 * s.MFtau * s.ZTau.at 0 0 * s.ZTau.at 1 0 + (p.Ae 2 2) * s.ZTau.at 0 1 * s.ZTau.at 1 0 + (p.Ae 2 2) * s.ZTau.at 0 0 * s.ZTau.at 1 1 + 2 * s.MFtau * s.ZTau.at 0 1 * s.ZTau.at 1 1)

/-- mh2_fo/MSSM_mass_eigenstates.cpp:389 -/
def gl12_8 (L : LoopFns F) (s : Spec F) (p : Params F) (yb ytau : F) : F :=
  2 * p.mu * L.B0 0 (s.M2Stau.at 1) (s.M2Stau.at 1) * pow2 ytau * s.ZTau.at 1 0 * s.ZTau.at 1 1 * (s.MFtau * (pow2 (s.ZTau.at 1 0) + pow2 (s.ZTau.at 1 1)) + (p.Ae 2 2) * s.ZTau.at 1 0 * s.ZTau.at 1 1)

/-- mh2_fo/MSSM_mass_eigenstates.cpp:391 -/
def gl22_0 (L : LoopFns F) (s : Spec F) (p : Params F) (yb ytau : F) : F :=
  12 * L.B0 0 (pow2 s.MFt) (pow2 s.MFt) * pow2 (s.MFt * (p.Yu 2 2))

/-- mh2_fo/MSSM_mass_eigenstates.cpp:392 -/
def gl22_1 (L : LoopFns F) (s : Spec F) (p : Params F) (yb ytau : F) : F :=
  (-3) * p.mu * (const .sqrt2) * yb * L.A0 (s.M2Sb.at 0) * s.ZB.at 0 0 * s.ZB.at 0 1 / p.vu

/-- mh2_fo/MSSM_mass_eigenstates.cpp:393 -/
def gl22_2 (L : LoopFns F) (s : Spec F) (p : Params F) (yb ytau : F) : F :=
  (-6) * L.B0 0 (s.M2Sb.at 0) (s.M2Sb.at 0) * pow2 (p.mu * yb * s.ZB.at 0 0 * s.ZB.at 0 1)

/-- mh2_fo/MSSM_mass_eigenstates.cpp:394 -/
def gl22_3 (L : LoopFns F) (s : Spec F) (p : Params F) (yb ytau : F) : F :=
  (-3) * p.mu * (const .sqrt2) * yb * L.A0 (s.M2Sb.at 1) * s.ZB.at 1 0 * s.ZB.at 1 1 / p.vu

/-- mh2_fo/MSSM_mass_eigenstates.cpp:395 -/
def gl22_4 (L : LoopFns F) (s : Spec F) (p : Params F) (yb ytau : F) : F :=
  (-6) * L.B0 0 (s.M2Sb.at 1) (s.M2Sb.at 1) * pow2 (p.mu * yb * s.ZB.at 1 0 * s.ZB.at 1 1)

/-- mh2_fo/MSSM_mass_eigenstates.cpp:396 -/
def gl22_5 (L : LoopFns F) (s : Spec F) (p : Params F) (yb ytau : F) : F :=
  (-3) * L.B0 0 (s.M2Sb.at 0) (s.M2Sb.at 1) * pow2 (p.mu * yb * (s.ZB.at 0 1 * s.ZB.at 1 0 + s.ZB.at 0 0 * s.ZB.at 1 1))

/-- mh2_fo/MSSM_mass_eigenstates.cpp:397 -/
def gl22_6 (L : LoopFns F) (s : Spec F) (p : Params F) (yb ytau : F) : F :=
  3 * (p.Au 2 2) * (const .sqrt2) * (p.Yu 2 2) * L.A0 (s.M2St.at 0) * s.ZT.at 0 0 * s.ZT.at 0 1 / p.vu

/-- mh2_fo/MSSM_mass_eigenstates.cpp:398 -/
def gl22_7 (L : LoopFns F) (s : Spec F) (p : Params F) (yb ytau : F) : F :=
  (-6) * L.B0 0 (s.M2St.at 0) (s.M2St.at 0) * pow2 ((p.Yu 2 2) * (s.MFt * (pow2 (s.ZT.at 0 0) + pow2 (s.ZT.at 0 1)) + (p.Au 2 2) * s.ZT.at 0 0 * s.ZT.at 0 1))

/-- mh2_fo/MSSM_mass_eigenstates.cpp:399 -/
def gl22_8 (L : LoopFns F) (s : Spec F) (p : Params F) (yb ytau : F) : F :=
  3 * (p.Au 2 2) * (const .sqrt2) * (p.Yu 2 2) * L.A0 (s.M2St.at 1) * s.ZT.at 1 0 * s.ZT.at 1 1 / p.vu

/-- mh2_fo/MSSM_mass_eigenstates.cpp:400 -/
def gl22_9 (L : LoopFns F) (s : Spec F) (p : Params F) (yb ytau : F) : F :=
  (-3) * L.B0 0 (s.M2St.at 0) (s.M2St.at 1) * pow2 ((p.Yu 2 2) * (2 * s.MFt * s.ZT.at 0 0 * s.ZT.at 1 0 + (p.Au 2 2) * s.ZT.at 0 1 * s.ZT.at 1 0 + (p.Au 2 2) * s.ZT.at 0 0 * s.ZT.at 1 1 + 2 * s.MFt * s.ZT.at 0 1 * s.ZT.at 1 1))

/-- mh2_fo/MSSM_mass_eigenstates.cpp:401 -/
def gl22_10 (L : LoopFns F) (s : Spec F) (p : Params F) (yb ytau : F) : F :=
  (-6) * L.B0 0 (s.M2St.at 1) (s.M2St.at 1) * pow2 ((p.Yu 2 2) * (s.MFt * (pow2 (s.ZT.at 1 0) + pow2 (s.ZT.at 1 1)) + (p.Au 2 2) * s.ZT.at 1 0 * s.ZT.at 1 1))

/-- mh2_fo/MSSM_mass_eigenstates.cpp:402 -/
def gl22_11 (L : LoopFns F) (s : Spec F) (p : Params F) (yb ytau : F) : F :=
  -(p.mu * (const .sqrt2) * ytau * L.A0 (s.M2Stau.at 0) * s.ZTau.at 0 0 * s.ZTau.at 0 1 / p.vu)

/-- mh2_fo/MSSM_mass_eigenstates.cpp:403 -/
def gl22_12 (L : LoopFns F) (s : Spec F) (p : Params F) (yb ytau : F) : F :=
  (-2) * L.B0 0 (s.M2Stau.at 0) (s.M2Stau.at 0) * pow2 (p.mu * ytau * s.ZTau.at 0 0 * s.ZTau.at 0 1)

/-- mh2_fo/MSSM_mass_eigenstates.cpp:404 -/
def gl22_13 (L : LoopFns F) (s : Spec F) (p : Params F) (yb ytau : F) : F :=
  -(p.mu * (const .sqrt2) * ytau * L.A0 (s.M2Stau.at 1) * s.ZTau.at 1 0 * s.ZTau.at 1 1 / p.vu)

/-- mh2_fo/MSSM_mass_eigenstates.cpp:405 -/
def gl22_14 (L : LoopFns F) (s : Spec F) (p : Params F) (yb ytau : F) : F :=
  (-2) * L.B0 0 (s.M2Stau.at 1) (s.M2Stau.at 1) * pow2 (p.mu * ytau * s.ZTau.at 1 0 * s.ZTau.at 1 1)

/-- mh2_fo/MSSM_mass_eigenstates.cpp:406 -/
def gl22_15 (L : LoopFns F) (s : Spec F) (p : Params F) (yb ytau : F) : F :=
  -(L.B0 0 (s.M2Stau.at 0) (s.M2Stau.at 1) * pow2 (p.mu * ytau * (s.ZTau.at 0 1 * s.ZTau.at 1 0 + s.ZTau.at 0 0 * s.ZTau.at 1 1)))

/-- mh2_fo/MSSM_mass_eigenstates.cpp:445 -/
def dv11_0 (L : LoopFns F) (s : Spec F) (p : Params F) (yb ytau : F) : F :=
  (-3) * L.B0 0 (pow2 s.MFb) (pow2 s.MFb) * pow2 yb

/-- mh2_fo/MSSM_mass_eigenstates.cpp:446 -/
def dv11_1 (L : LoopFns F) (s : Spec F) (p : Params F) (yb ytau : F) : F :=
  -(L.B0 0 (pow2 s.MFtau) (pow2 s.MFtau) * pow2 ytau)

/-- mh2_fo/MSSM_mass_eigenstates.cpp:447 -/
def dv11_2 (L : LoopFns F) (s : Spec F) (p : Params F) (yb ytau : F) : F :=
  12 * L.D1B0 (pow2 s.MFb) (pow2 s.MFb) * pow2 (s.MFb * yb)

/-- mh2_fo/MSSM_mass_eigenstates.cpp:448 -/
def dv11_3 (L : LoopFns F) (s : Spec F) (p : Params F) (yb ytau : F) : F :=
  4 * L.D1B0 (pow2 s.MFtau) (pow2 s.MFtau) * pow2 (s.MFtau * ytau)

/-- mh2_fo/MSSM_mass_eigenstates.cpp:449 -/
def dv11_4 (L : LoopFns F) (s : Spec F) (p : Params F) (yb ytau : F) : F :=
  (-6) * L.D1B0 (s.M2Sb.at 0) (s.M2Sb.at 0) * pow2 (yb * (s.MFb * (pow2 (s.ZB.at 0 0) + pow2 (s.ZB.at 0 1)) + (p.Ad 2 2) * s.ZB.at 0 0 * s.ZB.at 0 1))

/-- mh2_fo/MSSM_mass_eigenstates.cpp:450 -/
def dv11_5 (L : LoopFns F) (s : Spec F) (p : Params F) (yb ytau : F) : F :=
  (-3) * L.D1B0 (s.M2Sb.at 0) (s.M2Sb.at 1) * pow2 (yb * (2 * s.MFb * s.ZB.at 0 0 * s.ZB.at 1 0 + (p.Ad 2 2) * s.ZB.at 0 1 * s.ZB.at 1 0 + (p.Ad 2 2) * s.ZB.at 0 0 * s.ZB.at 1 1 + 2 * s.MFb * s.ZB.at 0 1 * s.ZB.at 1 1))

/-- mh2_fo/MSSM_mass_eigenstates.cpp:451 -/
def dv11_6 (L : LoopFns F) (s : Spec F) (p : Params F) (yb ytau : F) : F :=
  (-6) * L.D1B0 (s.M2Sb.at 1) (s.M2Sb.at 1) * pow2 (yb * (s.MFb * (pow2 (s.ZB.at 1 0) + pow2 (s.ZB.at 1 1)) + (p.Ad 2 2) * s.ZB.at 1 0 * s.ZB.at 1 1))

/-- mh2_fo/MSSM_mass_eigenstates.cpp:452 -/
def dv11_7 (L : LoopFns F) (s : Spec F) (p : Params F) (yb ytau : F) : F :=
  (-6) * L.D1B0 (s.M2St.at 0) (s.M2St.at 0) * pow2 (p.mu * (p.Yu 2 2) * s.ZT.at 0 0 * s.ZT.at 0 1)

/-- mh2_fo/MSSM_mass_eigenstates.cpp:453 -/
def dv11_8 (L : LoopFns F) (s : Spec F) (p : Params F) (yb ytau : F) : F :=
  (-6) * L.D1B0 (s.M2St.at 1) (s.M2St.at 1) * pow2 (p.mu * (p.Yu 2 2) * s.ZT.at 1 0 * s.ZT.at 1 1)

/-- mh2_fo/MSSM_mass_eigenstates.cpp:454 -/
def dv11_9 (L : LoopFns F) (s : Spec F) (p : Params F) (yb ytau : F) : F :=
  (-3) * L.D1B0 (s.M2St.at 0) (s.M2St.at 1) * pow2 (p.mu * (p.Yu 2 2) * (s.ZT.at 0 1 * s.ZT.at 1 0 + s.ZT.at 0 0 * s.ZT.at 1 1))

/-- mh2_fo/MSSM_mass_eigenstates.cpp:455 -/
def dv11_10 (L : LoopFns F) (s : Spec F) (p : Params F) (yb ytau : F) : F :=
  (-2) * L.D1B0 (s.M2Stau.at 0) (s.M2Stau.at 0) * pow2 (ytau * (s.MFtau * (pow2 (s.ZTau.at 0 0) + pow2 (s.ZTau.at 0 1)) + (p.Ae 2 2) * s.ZTau.at 0 0 * s.ZTau.at 0 1))

/-- mh2_fo/MSSM_mass_eigenstates.cpp:456 -/
def dv11_11 (L : LoopFns F) (s : Spec F) (p : Params F) (yb ytau : F) : F :=
  -(L.D1B0 (s.M2Stau.at 0) (s.M2Stau.at 1) * pow2 (ytau * (2 * s.MFtau * s.ZTau.at 0 0 * s.ZTau.at 1 0 + (p.Ae 2 2) * s.ZTau.at 0 1 * s.ZTau.at 1 0 + (p.Ae 2 2) * s.ZTau.at 0 0 * s.ZTau.at 1 1 + 2 * s.MFtau * s.ZTau.at 0 1 * s.ZTau.at 1 1)))

/-- mh2_fo/MSSM_mass_eigenstates.cpp:457 -/
def dv11_12 (L : LoopFns F) (s : Spec F) (p : Params F) (yb ytau : F) : F :=
  (-2) * L.D1B0 (s.M2Stau.at 1) (s.M2Stau.at 1) * pow2 (ytau * (s.MFtau * (pow2 (s.ZTau.at 1 0) + pow2 (s.ZTau.at 1 1)) + (p.Ae 2 2) * s.ZTau.at 1 0 * s.ZTau.at 1 1))

/-- mh2_fo/MSSM_mass_eigenstates.cpp:459 -/
def dv12_0 (L : LoopFns F) (s : Spec F) (p : Params F) (yb ytau : F) : F :=
  6 * p.mu * L.D1B0 (s.M2Sb.at 0) (s.M2Sb.at 0) * pow2 yb * s.ZB.at 0 0 * s.ZB.at 0 1 * (s.MFb * (pow2 (s.ZB.at 0 0) + pow2 (s.ZB.at 0 1)) + (p.Ad 2 2) * s.ZB.at 0 0 * s.ZB.at 0 1)

/-- mh2_fo/MSSM_mass_eigenstates.cpp:460 -/
def dv12_1 (L : LoopFns F) (s : Spec F) (p : Params F) (yb ytau : F) : F :=
  3 * p.mu * L.D1B0 (s.M2Sb.at 0) (s.M2Sb.at 1) * pow2 yb * (s.ZB.at 0 1 * s.ZB.at 1 0 + s.ZB.at 0 0 * s.ZB.at 1 1) * (2 * s.MFb * s.ZB.at 0 0 * s.ZB.at 1 0 + (p.Ad 2 2) * s.ZB.at 0 1 * s.ZB.at 1 0 + (p.Ad 2 2) * s.ZB.at 0 0 * s.ZB.at 1 1 + 2 * s.MFb * s.ZB.at 0 1 * s.ZB.at 1 1)

/-- mh2_fo/MSSM_mass_eigenstates.cpp:461 -/
def dv12_2 (L : LoopFns F) (s : Spec F) (p : Params F) (yb ytau : F) : F :=
  6 * p.mu * L.D1B0 (s.M2Sb.at 1) (s.M2Sb.at 1) * pow2 yb * s.ZB.at 1 0 * s.ZB.at 1 1 * (s.MFb * (pow2 (s.ZB.at 1 0) + pow2 (s.ZB.at 1 1)) + (p.Ad 2 2) * s.ZB.at 1 0 * s.ZB.at 1 1)

/-- mh2_fo/MSSM_mass_eigenstates.cpp:462 -/
def dv12_3 (L : LoopFns F) (s : Spec F) (p : Params F) (yb ytau : F) : F :=
  6 * p.mu * L.D1B0 (s.M2St.at 0) (s.M2St.at 0) * pow2 (p.Yu 2 2) * s.ZT.at 0 0 * s.ZT.at 0 1 * (s.MFt * (pow2 (s.ZT.at 0 0) + pow2 (s.ZT.at 0 1)) + (p.Au 2 2) * s.ZT.at 0 0 * s.ZT.at 0 1)

/-- mh2_fo/MSSM_mass_eigenstates.cpp:463 -/
def dv12_4 (L : LoopFns F) (s : Spec F) (p : Params F) (yb ytau : F) : F :=
  3 * p.mu * L.D1B0 (s.M2St.at 0) (s.M2St.at 1) * pow2 (p.Yu 2 2) * (s.ZT.at 0 1 * s.ZT.at 1 0 + s.ZT.at 0 0 * s.ZT.at 1 1) * (2 * s.MFt * s.ZT.at 0 0 * s.ZT.at 1 0 + (p.Au 2 2) * s.ZT.at 0 1 * s.ZT.at 1 0 + (p.Au 2 2) * s.ZT.at 0 0 * s.ZT.at 1 1 + 2 * s.MFt * s.ZT.at 0 1 * s.ZT.at 1 1)

/-- mh2_fo/MSSM_mass_eigenstates.cpp:464 -/
def dv12_5 (L : LoopFns F) (s : Spec F) (p : Params F) (yb ytau : F) : F :=
  6 * p.mu * L.D1B0 (s.M2St.at 1) (s.M2St.at 1) * pow2 (p.Yu 2 2) * s.ZT.at 1 0 * s.ZT.at 1 1 * (s.MFt * (pow2 (s.ZT.at 1 0) + pow2 (s.ZT.at 1 1)) + (p.Au 2 2) * s.ZT.at 1 0 * s.ZT.at 1 1)

/-- mh2_fo/MSSM_mass_eigenstates.cpp:465 -/
def dv12_6 (L : LoopFns F) (s : Spec F) (p : Params F) (yb ytau : F) : F :=
  2 * p.mu * L.D1B0 (s.M2Stau.at 0) (s.M2Stau.at 0) * pow2 ytau * s.ZTau.at 0 0 * s.ZTau.at 0 1 * (s.MFtau * (pow2 (s.ZTau.at 0 0) + pow2 (s.ZTau.at 0 1)) + (p.Ae 2 2) * s.ZTau.at 0 0 * s.ZTau.at 0 1)

/-- mh2_fo/MSSM_mass_eigenstates.cpp:466 -/
def dv12_7 (L : LoopFns F) (s : Spec F) (p : Params F) (yb ytau : F) : F :=
  p.mu * L.D1B0 (s.M2Stau.at 0) (s.M2Stau.at 1) * pow2 ytau * (s.ZTau.at 0 1 * s.ZTau.at 1 0 + s.ZTau.at 0 0 * s.ZTau.at 1 1) * (2 * s.MFtau * s.ZTau.at 0 0 * s.ZTau.at 1 0 + (p.Ae 2 2) * s.ZTau.at 0 1 * s.ZTau.at 1 0 + (p.Ae 2 2) * s.ZTau.at 0 0 * s.ZTau.at 1 1 + 2 * s.MFtau * s.ZTau.at 0 1 * s.ZTau.at 1 1)

/-- mh2_fo/MSSM_mass_eigenstates.cpp:467 -/
def dv12_8 (L : LoopFns F) (s : Spec F) (p : Params F) (yb ytau : F) : F :=
  2 * p.mu * L.D1B0 (s.M2Stau.at 1) (s.M2Stau.at 1) * pow2 ytau * s.ZTau.at 1 0 * s.ZTau.at 1 1 * (s.MFtau * (pow2 (s.ZTau.at 1 0) + pow2 (s.ZTau.at 1 1)) + (p.Ae 2 2) * s.ZTau.at 1 0 * s.ZTau.at 1 1)

/-- mh2_fo/MSSM_mass_eigenstates.cpp:469 -/
def dv22_0 (L : LoopFns F) (s : Spec F) (p : Params F) (yb ytau : F) : F :=
  (-3) * L.B0 0 (pow2 s.MFt) (pow2 s.MFt) * pow2 (p.Yu 2 2)

/-- mh2_fo/MSSM_mass_eigenstates.cpp:470 -/
def dv22_1 (L : LoopFns F) (s : Spec F) (p : Params F) (yb ytau : F) : F :=
  12 * L.D1B0 (pow2 s.MFt) (pow2 s.MFt) * pow2 (s.MFt * (p.Yu 2 2))

/-- mh2_fo/MSSM_mass_eigenstates.cpp:471 -/
def dv22_2 (L : LoopFns F) (s : Spec F) (p : Params F) (yb ytau : F) : F :=
  (-6) * L.D1B0 (s.M2Sb.at 0) (s.M2Sb.at 0) * pow2 (p.mu * yb * s.ZB.at 0 0 * s.ZB.at 0 1)

/-- mh2_fo/MSSM_mass_eigenstates.cpp:472 -/
def dv22_3 (L : LoopFns F) (s : Spec F) (p : Params F) (yb ytau : F) : F :=
  (-6) * L.D1B0 (s.M2Sb.at 1) (s.M2Sb.at 1) * pow2 (p.mu * yb * s.ZB.at 1 0 * s.ZB.at 1 1)

/-- mh2_fo/MSSM_mass_eigenstates.cpp:473 -/
def dv22_4 (L : LoopFns F) (s : Spec F) (p : Params F) (yb ytau : F) : F :=
  (-3) * L.D1B0 (s.M2Sb.at 0) (s.M2Sb.at 1) * pow2 (p.mu * yb * (s.ZB.at 0 1 * s.ZB.at 1 0 + s.ZB.at 0 0 * s.ZB.at 1 1))

/-- mh2_fo/MSSM_mass_eigenstates.cpp:474 -/
def dv22_5 (L : LoopFns F) (s : Spec F) (p : Params F) (yb ytau : F) : F :=
  (-6) * L.D1B0 (s.M2St.at 0) (s.M2St.at 0) * pow2 ((p.Yu 2 2) * (s.MFt * (pow2 (s.ZT.at 0 0) + pow2 (s.ZT.at 0 1)) + (p.Au 2 2) * s.ZT.at 0 0 * s.ZT.at 0 1))

/-- mh2_fo/MSSM_mass_eigenstates.cpp:475 -/
def dv22_6 (L : LoopFns F) (s : Spec F) (p : Params F) (yb ytau : F) : F :=
  (-3) * L.D1B0 (s.M2St.at 0) (s.M2St.at 1) * pow2 ((p.Yu 2 2) * (2 * s.MFt * s.ZT.at 0 0 * s.ZT.at 1 0 + (p.Au 2 2) * s.ZT.at 0 1 * s.ZT.at 1 0 + (p.Au 2 2) * s.ZT.at 0 0 * s.ZT.at 1 1 + 2 * s.MFt * s.ZT.at 0 1 * s.ZT.at 1 1))

/-- mh2_fo/MSSM_mass_eigenstates.cpp:476 -/
def dv22_7 (L : LoopFns F) (s : Spec F) (p : Params F) (yb ytau : F) : F :=
  (-6) * L.D1B0 (s.M2St.at 1) (s.M2St.at 1) * pow2 ((p.Yu 2 2) * (s.MFt * (pow2 (s.ZT.at 1 0) + pow2 (s.ZT.at 1 1)) + (p.Au 2 2) * s.ZT.at 1 0 * s.ZT.at 1 1))

/-- mh2_fo/MSSM_mass_eigenstates.cpp:477 -/
def dv22_8 (L : LoopFns F) (s : Spec F) (p : Params F) (yb ytau : F) : F :=
  (-2) * L.D1B0 (s.M2Stau.at 0) (s.M2Stau.at 0) * pow2 (p.mu * ytau * s.ZTau.at 0 0 * s.ZTau.at 0 1)

/-- mh2_fo/MSSM_mass_eigenstates.cpp:478 -/
def dv22_9 (L : LoopFns F) (s : Spec F) (p : Params F) (yb ytau : F) : F :=
  (-2) * L.D1B0 (s.M2Stau.at 1) (s.M2Stau.at 1) * pow2 (p.mu * ytau * s.ZTau.at 1 0 * s.ZTau.at 1 1)

/-- mh2_fo/MSSM_mass_eigenstates.cpp:479 -/
def dv22_10 (L : LoopFns F) (s : Spec F) (p : Params F) (yb ytau : F) : F :=
  -(L.D1B0 (s.M2Stau.at 0) (s.M2Stau.at 1) * pow2 (p.mu * ytau * (s.ZTau.at 0 1 * s.ZTau.at 1 0 + s.ZTau.at 0 0 * s.ZTau.at 1 1)))

/-- the terms added to `se11` -/
def full11 (L : LoopFns F) (s : Spec F) (p : Params F) (p2 : F) : List F := [
    full11_0 L s p p2, full11_1 L s p p2, full11_2 L s p p2, full11_3 L s p p2, full11_4 L s p p2, full11_5 L s p p2,
    full11_6 L s p p2, full11_7 L s p p2, full11_8 L s p p2, full11_9 L s p p2, full11_10 L s p p2, full11_11 L s p p2,
    full11_12 L s p p2, full11_13 L s p p2, full11_14 L s p p2, full11_15 L s p p2, full11_16 L s p p2,
    full11_17 L s p p2, full11_18 L s p p2, full11_19 L s p p2, full11_20 L s p p2, full11_21 L s p p2,
    full11_22 L s p p2, full11_23 L s p p2, full11_24 L s p p2]

/-- the terms added to `se12` -/
def full12 (L : LoopFns F) (s : Spec F) (p : Params F) (p2 : F) : List F := [
    full12_0 L s p p2, full12_1 L s p p2, full12_2 L s p p2, full12_3 L s p p2, full12_4 L s p p2, full12_5 L s p p2,
    full12_6 L s p p2, full12_7 L s p p2, full12_8 L s p p2, full12_9 L s p p2, full12_10 L s p p2, full12_11 L s p p2,
    full12_12 L s p p2, full12_13 L s p p2, full12_14 L s p p2, full12_15 L s p p2, full12_16 L s p p2,
    full12_17 L s p p2, full12_18 L s p p2, full12_19 L s p p2, full12_20 L s p p2]

/-- the terms added to `se22` -/
def full22 (L : LoopFns F) (s : Spec F) (p : Params F) (p2 : F) : List F := [
    full22_0 L s p p2, full22_1 L s p p2, full22_2 L s p p2, full22_3 L s p p2, full22_4 L s p p2, full22_5 L s p p2,
    full22_6 L s p p2, full22_7 L s p p2, full22_8 L s p p2, full22_9 L s p p2, full22_10 L s p p2, full22_11 L s p p2,
    full22_12 L s p p2, full22_13 L s p p2, full22_14 L s p p2, full22_15 L s p p2, full22_16 L s p p2,
    full22_17 L s p p2, full22_18 L s p p2, full22_19 L s p p2, full22_20 L s p p2, full22_21 L s p p2,
    full22_22 L s p p2, full22_23 L s p p2]

/-- the terms added to `se11` -/
def gl11 (L : LoopFns F) (s : Spec F) (p : Params F) (yb ytau : F) : List F := [
    gl11_0 L s p yb ytau, gl11_1 L s p yb ytau, gl11_2 L s p yb ytau, gl11_3 L s p yb ytau, gl11_4 L s p yb ytau,
    gl11_5 L s p yb ytau, gl11_6 L s p yb ytau, gl11_7 L s p yb ytau, gl11_8 L s p yb ytau, gl11_9 L s p yb ytau,
    gl11_10 L s p yb ytau, gl11_11 L s p yb ytau, gl11_12 L s p yb ytau, gl11_13 L s p yb ytau, gl11_14 L s p yb ytau,
    gl11_15 L s p yb ytau, gl11_16 L s p yb ytau]

/-- the terms added to `se12` -/
def gl12 (L : LoopFns F) (s : Spec F) (p : Params F) (yb ytau : F) : List F := [
    gl12_0 L s p yb ytau, gl12_1 L s p yb ytau, gl12_2 L s p yb ytau, gl12_3 L s p yb ytau, gl12_4 L s p yb ytau,
    gl12_5 L s p yb ytau, gl12_6 L s p yb ytau, gl12_7 L s p yb ytau, gl12_8 L s p yb ytau]

/-- the terms added to `se22` -/
def gl22 (L : LoopFns F) (s : Spec F) (p : Params F) (yb ytau : F) : List F := [
    gl22_0 L s p yb ytau, gl22_1 L s p yb ytau, gl22_2 L s p yb ytau, gl22_3 L s p yb ytau, gl22_4 L s p yb ytau,
    gl22_5 L s p yb ytau, gl22_6 L s p yb ytau, gl22_7 L s p yb ytau, gl22_8 L s p yb ytau, gl22_9 L s p yb ytau,
    gl22_10 L s p yb ytau, gl22_11 L s p yb ytau, gl22_12 L s p yb ytau, gl22_13 L s p yb ytau, gl22_14 L s p yb ytau,
    gl22_15 L s p yb ytau]

/-- the terms added to `se11` -/
def dv11 (L : LoopFns F) (s : Spec F) (p : Params F) (yb ytau : F) : List F := [
    dv11_0 L s p yb ytau, dv11_1 L s p yb ytau, dv11_2 L s p yb ytau, dv11_3 L s p yb ytau, dv11_4 L s p yb ytau,
    dv11_5 L s p yb ytau, dv11_6 L s p yb ytau, dv11_7 L s p yb ytau, dv11_8 L s p yb ytau, dv11_9 L s p yb ytau,
    dv11_10 L s p yb ytau, dv11_11 L s p yb ytau, dv11_12 L s p yb ytau]

/-- the terms added to `se12` -/
def dv12 (L : LoopFns F) (s : Spec F) (p : Params F) (yb ytau : F) : List F := [
    dv12_0 L s p yb ytau, dv12_1 L s p yb ytau, dv12_2 L s p yb ytau, dv12_3 L s p yb ytau, dv12_4 L s p yb ytau,
    dv12_5 L s p yb ytau, dv12_6 L s p yb ytau, dv12_7 L s p yb ytau, dv12_8 L s p yb ytau]

/-- the terms added to `se22` -/
def dv22 (L : LoopFns F) (s : Spec F) (p : Params F) (yb ytau : F) : List F := [
    dv22_0 L s p yb ytau, dv22_1 L s p yb ytau, dv22_2 L s p yb ytau, dv22_3 L s p yb ytau, dv22_4 L s p yb ytau,
    dv22_5 L s p yb ytau, dv22_6 L s p yb ytau, dv22_7 L s p yb ytau, dv22_8 L s p yb ytau, dv22_9 L s p yb ytau,
    dv22_10 L s p yb ytau]

/-- `delta_mh2_1loop`; mh2_fo/MSSM_mass_eigenstates.cpp:199-328.  `s` is `masses`, `p` is `pars`. -/
def deltaMh1L (L : LoopFns F) (s : Spec F) (p : Params F) (p2 : F) : Mat2 F :=
  let se12 := accumulate (full12 L s p p2)
  ⟨accumulate (full11 L s p p2) * const .oneLoop, se12 * const .oneLoop, se12 * const .oneLoop,
   accumulate (full22 L s p p2) * const .oneLoop⟩

/-- `delta_mh2_1loop_gaugeless`; mh2_fo/MSSM_mass_eigenstates.cpp:340-411.  `s` is `gaugeless`; `onlyAtAs` is
`orders.at(CouplingOrders::ONLY_AT_AS) == 1`. -/
def deltaMh1LGaugeless (L : LoopFns F) (s : Spec F) (p : Params F) (onlyAtAs : Bool) : Mat2 F :=
  let yb := if onlyAtAs then 0 else p.Yd 2 2
  let ytau := if onlyAtAs then 0 else p.Ye 2 2
  let se12 := accumulate (gl12 L s p yb ytau)
  ⟨accumulate (gl11 L s p yb ytau) * const .oneLoop, se12 * const .oneLoop, se12 * const .oneLoop,
   accumulate (gl22 L s p yb ytau) * const .oneLoop⟩

/-- `delta_mh2_1loop_gaugeless_deriv`; mh2_fo/MSSM_mass_eigenstates.cpp:424-486 -/
def deltaMh1LDeriv (L : LoopFns F) (s : Spec F) (p : Params F) (onlyAtAs : Bool) : Mat2 F :=
  let yb := if onlyAtAs then 0 else p.Yd 2 2
  let ytau := if onlyAtAs then 0 else p.Ye 2 2
  let se12 := accumulate (dv12 L s p yb ytau)
  ⟨accumulate (dv11 L s p yb ytau) * const .oneLoop, se12 * const .oneLoop, se12 * const .oneLoop,
   accumulate (dv22 L s p yb ytau) * const .oneLoop⟩

end
end Himalaya
