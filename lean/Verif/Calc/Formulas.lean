import Verif.Select.Model

/-!
# Closed formulas of `HierarchyCalculator`

The const member functions of source/himalaya/HierarchyCalculator.cpp that are formulas of the parameters and the selected
hierarchy.  Operator order and association follow the C++ text.  `std::tan(x)` is `sin x / cos x`.
The `unsigned`/`int` loop flags are `Int`.
-/

namespace Himalaya

open FOps
open scoped Himalaya

section
variable {F : Type} [Add F] [Sub F] [Mul F] [Div F] [Neg F] [FOps F]

/-- `pow3`; misc/Powers.hpp:14 -/
def pow3 (x : F) : F := x * x * x
/-- `pow4`; misc/Powers.hpp:15 -/
def pow4 (x : F) : F := pow2 (pow2 x)
/-- `pow5`; misc/Powers.hpp:16 -/
def pow5 (x : F) : F := pow4 x * x
/-- `pow6`; misc/Powers.hpp:17 -/
def pow6 (x : F) : F := pow2 (pow2 x * x)
/-- `std::tan` -/
def ftan (x : F) : F := sin x / cos x
/-- `z2`; misc/Constants.hpp:14 -/
def cz2 : F := const .z2

/-- `calcV2`; HierarchyCalculator.cpp:1301-1304 -/
def calcV2 (p : Params F) : F := pow2 p.vu + pow2 p.vd
/-- `calcV`; HierarchyCalculator.cpp:1295-1298 -/
def calcV (p : Params F) : F := sqrt (calcV2 p)
/-- `calcSinBeta`; HierarchyCalculator.cpp:1271-1274 -/
def calcSinBeta (p : Params F) : F := p.vu / calcV p
/-- `calcCosBeta`; HierarchyCalculator.cpp:1277-1280 -/
def calcCosBeta (p : Params F) : F := p.vd / calcV p
/-- `calcTanBeta`; HierarchyCalculator.cpp:1283-1286 -/
def calcTanBeta (p : Params F) : F := p.vu / p.vd
/-- `calcBeta`; HierarchyCalculator.cpp:1289-1292 -/
def calcBeta (p : Params F) : F := atan (calcTanBeta p)
/-- `calcHiggsMassMatrixPrefactor`; HierarchyCalculator.cpp:1315-1318 -/
def calcPrefactor (p : Params F) : F := 3 / (2 * pow2 (cPi * p.vu))
/-- `calcAsOver4Pi`; HierarchyCalculator.cpp:1321-1324 -/
def calcAsOver4Pi (p : Params F) : F := const .oneLoop * pow2 p.g3

/-- lighter stop/sbottom mass -/
def mst1 (p : Params F) (ho : HObj F) : F := if ho.getIsAlphab then p.MSb.x0 else p.MSt.x0
/-- heavier stop/sbottom mass -/
def mst2 (p : Params F) (ho : HObj F) : F := if ho.getIsAlphab then p.MSb.x1 else p.MSt.x1

/-- `Mst1mod` of mother hierarchy h6; HierarchyCalculator.cpp:852-855 (line 905-908 for `Mst2mod`), `M` the mass
that is shifted. -/
def modH6 (p : Params F) (Mst2 M ka oneLoopFlag twoLoopFlag : F) : F :=
  let Al4p := calcAsOver4Pi p
  let Msq := calcMeanMsq p
  let Mgl := p.MG
  let lmMgl := log (pow2 (p.scale / p.MG))
  let lmMsq := log (pow2 (p.scale / calcMeanMsq p))
  let Dmglst2 := Mgl - Mst2
  let z2 : F := cz2
  (144 * oneLoopFlag * Al4p * (1 + lmMgl) * pow2 Mgl * pow4 Msq + 27 * (1 + ka) * pow4 Msq * pow2 M +
    twoLoopFlag * pow2 Al4p * Mgl * (-5 * (67 + 84 * lmMgl - 84 * lmMsq) * pow5 Mgl
      - 40 * (43 + 30 * lmMgl - 30 * lmMsq) * pow3 Mgl * pow2 Msq +
      288 * Dmglst2 * pow4 Msq * (1 - 2 * z2) + 12 * Mgl * pow4 Msq * (79 + 144 * pow2 lmMgl - 150 * lmMsq +
        90 * pow2 lmMsq - 90 * lmMgl * (-3 + 2 * lmMsq) + 208 * z2))) / (27 * pow4 Msq * pow2 M)

/-- `Mst1mod` of mother hierarchy h6b; HierarchyCalculator.cpp:858-861 (911-914 for `Mst2mod`). -/
def modH6b (p : Params F) (Mst2 M ka oneLoopFlag twoLoopFlag : F) : F :=
  let Al4p := calcAsOver4Pi p
  let Msq := calcMeanMsq p
  let Mgl := p.MG
  let lmMgl := log (pow2 (p.scale / p.MG))
  let lmMsq := log (pow2 (p.scale / calcMeanMsq p))
  let Dmglst2 := Mgl - Mst2
  let z2 : F := cz2
  (48 * oneLoopFlag * Al4p * (1 + lmMgl) * pow2 Mgl + 9 * (1 + ka) * pow2 M +
    8 * twoLoopFlag * pow2 Al4p * (-135 * pow2 Msq + 12 * Dmglst2 * Mgl * (1 - 22 * z2) +
      pow2 Mgl * (77 + 135 * lmMgl + 72 * pow2 lmMgl - 75 * lmMsq -
        90 * lmMgl * lmMsq + 45 * pow2 lmMsq + 104 * z2))) / (9 * pow2 M)

/-- `mdr2mst1ka`; HierarchyCalculator.cpp:841-843 -/
def mdr2mst1ka (p : Params F) (Mst1 Mst2 twoLoopFlag : F) : F :=
  let Msq := calcMeanMsq p
  let lmMst2 := log (pow2 p.scale / pow2 Mst2)
  let lmMsq := log (pow2 (p.scale / calcMeanMsq p))
  (-8 * twoLoopFlag * pow2 (calcAsOver4Pi p)
    * (10 * pow2 Msq * (-1 + 2 * lmMsq + 2 * cz2) + pow2 Mst2
    * (-1 + 2 * lmMst2 + 2 * cz2))) / (3 * pow2 Mst1)

/-- `mdr2mst2ka`; HierarchyCalculator.cpp:895-896 -/
def mdr2mst2ka (p : Params F) (Mst2 twoLoopFlag : F) : F :=
  let Msq := calcMeanMsq p
  let lmMsq := log (pow2 (p.scale / calcMeanMsq p))
  (-80 * twoLoopFlag * pow2 (calcAsOver4Pi p)
    * pow2 Msq * (-1 + 2 * lmMsq + 2 * cz2)) / (3 * pow2 Mst2)

/-- `switch` of lines 845-868 (898-921) of HierarchyCalculator.cpp; `default` leaves the value 0. -/
def shiftMod (p : Params F) (mother : Int) (Mst2 M ka f1 f2 : F) : F :=
  match mother with
  | 0 => 1 + ka
  | 3 => 1 + ka
  | 4 => 1 + ka
  | 6 => modH6 p Mst2 M ka f1 f2
  | 7 => modH6b p Mst2 M ka f1 f2
  | 12 => 1 + ka
  | _ => 0

/-- `shiftMst1ToMDR`; HierarchyCalculator.cpp:824-871 -/
def shiftMst1ToMDR (p : Params F) (ho : HObj F) (oneLoopFlag twoLoopFlag : Int) : Except String F := do
  let m ← getMotherHierarchy ho.getSuitableHierarchy
  let f1 : F := ofInt oneLoopFlag
  let f2 : F := ofInt twoLoopFlag
  let Mst1 := mst1 p ho
  let Mst2 := mst2 p ho
  return Mst1 * sqrt (shiftMod p m Mst2 Mst1 (mdr2mst1ka p Mst1 Mst2 f2) f1 f2)

/-- `shiftMst2ToMDR`; HierarchyCalculator.cpp:880-924 -/
def shiftMst2ToMDR (p : Params F) (ho : HObj F) (oneLoopFlag twoLoopFlag : Int) : Except String F := do
  let m ← getMotherHierarchy ho.getSuitableHierarchy
  let f1 : F := ofInt oneLoopFlag
  let f2 : F := ofInt twoLoopFlag
  let Mst2 := mst2 p ho
  return Mst2 * sqrt (shiftMod p m Mst2 Mst2 (mdr2mst2ka p Mst2 f2) f1 f2)

/-- `calcMsfMDRFlag`; HierarchyCalculator.cpp:442-457 -/
def calcMsfMDRFlag (p : Params F) (ho : HObj F) (loopOrder : Int) : Except String (F × F) :=
  if loopOrder = 1 then do
    return (← shiftMst1ToMDR p ho 0 0, ← shiftMst2ToMDR p ho 0 0)
  else if loopOrder = 2 then do
    return (← shiftMst1ToMDR p ho ho.getMDRFlag 0, ← shiftMst2ToMDR p ho ho.getMDRFlag 0)
  else if loopOrder = 3 then do
    return (← shiftMst1ToMDR p ho ho.getMDRFlag ho.getMDRFlag, ← shiftMst2ToMDR p ho ho.getMDRFlag ho.getMDRFlag)
  else .error "There are no tree-level hierarchies included!"

/-- `truncateXt`; HierarchyCalculator.cpp:938-945, 1056-1063: 0 for h3, h32q2g, h3q22g, h9, h9q2, else 1 -/
def truncateXt (h : Int) : Int :=
  if h = Hier.h3 ∨ h = Hier.h32q2g ∨ h = Hier.h3q22g ∨ h = Hier.h9 ∨ h = Hier.h9q2 then 0 else 1

/-- `Xt` used by the scheme shifts; HierarchyCalculator.cpp:953-954 -/
def shiftXt (p : Params F) (h : Int) : F :=
  if h = Hier.h4 then 0 else p.Au 2 2 - p.mu / calcTanBeta p

/-- `std::abs(Mst1 - Mst2) < eps` with `eps = Mst1*0.01`, and the comparison of the deviations from the limit;
HierarchyCalculator.cpp:977-998, 1095-1119 -/
def isDegenerateCase (Mst1 Mst2 lim exact exactShifted : F) : Bool :=
  lt (abs (Mst1 - Mst2)) (Mst1 * lit (1/100)) &&
  (le (abs (exact - lim)) (abs (exactShifted - lim)) || !isFinite exact || !isFinite exactShifted)

/-- The general (`exact`) element (0,0) of the H3m shift as a function of the masses; HierarchyCalculator.cpp:985-988,
1014-1017 -/
def h3mExact00 (Mst1 Mst2 Mgl Msq2 Xt mu lmMst1 lmMst2 lmMsq lmMgl : F) : F :=
  let Xt2 := pow2 Xt
  (16*Xt2*(-6*(1 + lmMgl)*pow2 Mgl + 10*(1 + lmMsq)*Msq2 + (1 + lmMst1)*pow2 Mst1 + (1 + lmMst2)*pow2 Mst2)*pow2 mu
    *(-4*log (Mst1/Mst2)*pow2 Mst1*pow2 Mst2 + pow4 Mst1 - pow4 Mst2))
    /(pow2 Mst1*pow2 Mst2*pow3 (pow2 Mst1 - pow2 Mst2))

/-- The limit `Mst2 -> Mst1` of element (0,0); HierarchyCalculator.cpp:982-983, 1003-1004 -/
def h3mLim00 (Mst1 Mgl Msq2 Xt mu lmMst1 lmMsq lmMgl : F) : F :=
  let Xt2 := pow2 Xt
  (32*Xt2*(-3*(1 + lmMgl)*pow2 Mgl + 5*(1 + lmMsq)*Msq2 + (1 + lmMst1)*pow2 Mst1)*pow2 mu)/(3*pow6 Mst1)

/-- Element (1,0), limit; HierarchyCalculator.cpp:1005-1007 -/
def h3mLim10 (Mst1 Mgl Msq2 Xt mu tb lmMst1 lmMsq lmMgl : F) : F :=
  let Xt2 := pow2 Xt
  (-32*mu*(-3*(1 + lmMgl)*pow2 Mgl + 5*(1 + lmMsq)*Msq2 + (1 + lmMst1)*pow2 Mst1)
    *(mu*Xt2 - 3*tb*Xt*pow2 Mst1 + tb*pow3 Xt))/(3*tb*pow6 Mst1)

/-- Element (1,1), limit; HierarchyCalculator.cpp:1009-1012 -/
def h3mLim11 (Mst1 Mgl Msq2 Xt mu tb truncXt lmMst1 lmMsq lmMgl : F) : F :=
  let Xt2 := pow2 Xt
  (32*(-3*(1 + lmMgl)*pow2 Mgl + 5*(1 + lmMsq)*Msq2 + (1 + lmMst1)*pow2 Mst1)
    *(-6*tb*(mu*Xt + tb*Xt2)*pow2 Mst1 + Xt2*pow2 mu + truncXt*pow2 tb*pow2 Xt2 + 2*mu*tb*pow3 Xt
      + 6*pow2 tb*pow4 Mst1))/(3*pow2 tb*pow6 Mst1)

/-- Element (1,0), general; HierarchyCalculator.cpp:1018-1023 -/
def h3mExact10 (Mst1 Mst2 Mgl Msq2 Xt mu tb lmMst1 lmMst2 lmMsq lmMgl : F) : F :=
  let Xt2 := pow2 Xt
  (16*mu*(-6*(1 + lmMgl)*pow2 Mgl + 10*(1 + lmMsq)*Msq2 + (1 + lmMst1)*pow2 Mst1 + (1 + lmMst2)*pow2 Mst2)
    *(4*log (Mst1/Mst2)*pow2 Mst1*pow2 Mst2*(mu*Xt2 + tb*pow3 Xt) + mu*Xt2*(-pow4 Mst1 + pow4 Mst2)
      + tb*Xt*(pow3 (pow2 Mst1 - pow2 Mst2) + pow2 Xt*(-pow4 Mst1 + pow4 Mst2))))
    /(tb*pow2 Mst1*pow2 Mst2*pow3 (pow2 Mst1 - pow2 Mst2))

/-- Element (1,1), general; HierarchyCalculator.cpp:1025-1034 -/
def h3mExact11 (Mst1 Mst2 Mgl Msq2 Xt mu tb truncXt lmMst1 lmMst2 lmMsq lmMgl : F) : F :=
  let Xt2 := pow2 Xt
  (16*(-6*(1 + lmMgl)*pow2 Mgl + 10*(1 + lmMsq)*Msq2 + (1 + lmMst1)*pow2 Mst1 + (1 + lmMst2)*pow2 Mst2)
    *(-4*log (Mst1/Mst2)*pow2 Mst1*pow2 Mst2*(Xt2*pow2 mu + truncXt*pow2 tb*pow2 Xt2 + 2*mu*tb*pow3 Xt)
      + Xt2*(-2*pow2 tb*pow3 (pow2 Mst1 - pow2 Mst2) + pow2 mu*(pow4 Mst1 - pow4 Mst2))
      + tb*(-2*mu*Xt*pow3 (pow2 Mst1 - pow2 Mst2) + tb*(pow2 Mst1 + pow2 Mst2)*pow3 (pow2 Mst1 - pow2 Mst2)
        + 2*mu*pow3 Xt*(pow4 Mst1 - pow4 Mst2))
      + truncXt*pow2 tb*pow2 Xt2*(pow4 Mst1 - pow4 Mst2)))
    /(pow2 Mst1*pow2 Mst2*pow2 tb*pow3 (pow2 Mst1 - pow2 Mst2))

/-- `shiftH3mToDRbarPrime`; HierarchyCalculator.cpp:932-1041.  (The two shifts are evaluated, and can throw, before
anything else that can throw.) -/
def shiftH3mToDRbarPrime (p : Params F) (ho : HObj F) : Except String (Mat2 F) := do
  let h := ho.getSuitableHierarchy
  let trunc : F := ofInt (truncateXt h)
  let tb := calcTanBeta p
  let Mst1 ← shiftMst1ToMDR p ho ho.getMDRFlag ho.getMDRFlag
  let Mst2 ← shiftMst2ToMDR p ho ho.getMDRFlag ho.getMDRFlag
  let Xt := shiftXt p h
  let Mst12 := pow2 Mst1
  let Mgl := p.MG
  let Msq2 := pow2 (calcMeanMsq p)
  let scale2 := pow2 p.scale
  let Mst22 := pow2 Mst2
  let Dmst12 := Mst12 - Mst22
  let lmMst1 := log (scale2 / Mst12)
  let lmMst2 := log (scale2 / Mst22)
  let lmMsq := log (scale2 / Msq2)
  let lmMgl := log (scale2 / pow2 p.MG)
  let Mst2shift := Mst1 + lit (1/2) * sqrt (abs Dmst12)
  let lmMst2shift := log (scale2 / pow2 Mst2shift)
  let lim := h3mLim00 Mst1 Mgl Msq2 Xt p.mu lmMst1 lmMsq lmMgl
  let exact := h3mExact00 Mst1 Mst2 Mgl Msq2 Xt p.mu lmMst1 lmMst2 lmMsq lmMgl
  let exactShifted := h3mExact00 Mst1 Mst2shift Mgl Msq2 Xt p.mu lmMst1 lmMst2shift lmMsq lmMgl
  let shift : Mat2 F :=
    if isDegenerateCase Mst1 Mst2 lim exact exactShifted then
      let s10 := h3mLim10 Mst1 Mgl Msq2 Xt p.mu tb lmMst1 lmMsq lmMgl
      ⟨lim, s10, s10, h3mLim11 Mst1 Mgl Msq2 Xt p.mu tb trunc lmMst1 lmMsq lmMgl⟩
    else
      let s10 := h3mExact10 Mst1 Mst2 Mgl Msq2 Xt p.mu tb lmMst1 lmMst2 lmMsq lmMgl
      ⟨exact, s10, s10, h3mExact11 Mst1 Mst2 Mgl Msq2 Xt p.mu tb trunc lmMst1 lmMst2 lmMsq lmMgl⟩
  let yt := const .sqrt2 * p.Mt / p.vu
  let prefac := const .threeLoop * pow2 (pow2 p.g3 * p.Mt * yt)
  return Mat2.smul prefac shift

/-- General mass case of `shiftH3mToDRbarPrimeMh2`; HierarchyCalculator.cpp:1103-1108, 1128-1133 -/
def h3mMh2Exact (Mst1 Mst2 Mgl Msq2 Xt truncXt lmMst1 lmMst2 lmMsq lmMgl : F) : F :=
  let Xt2 := pow2 Xt
  (16*(-6*(1 + lmMgl)*pow2 Mgl + 10*(1 + lmMsq)*Msq2 + (1 + lmMst1)*pow2 Mst1 + (1 + lmMst2)*pow2 Mst2)
    *(4*truncXt*log (Mst2/Mst1)*pow2 Mst1*pow2 Mst2*pow2 Xt2 - 2*Xt2*pow3 (pow2 Mst1 - pow2 Mst2)
      + (pow2 Mst1 + pow2 Mst2)*pow3 (pow2 Mst1 - pow2 Mst2)
      + truncXt*pow2 Xt2*(pow4 Mst1 - pow4 Mst2)))
    /(pow2 Mst1*pow2 Mst2*pow3 (pow2 Mst1 - pow2 Mst2))

/-- Degenerate limit of `shiftH3mToDRbarPrimeMh2`; HierarchyCalculator.cpp:1099-1101, 1124-1126 -/
def h3mMh2Lim (Mst1 Mgl Msq2 Xt truncXt lmMst1 lmMsq lmMgl : F) : F :=
  let Xt2 := pow2 Xt
  (32*(-3*(1 + lmMgl)*pow2 Mgl + 5*(1 + lmMsq)*Msq2 + (1 + lmMst1)*pow2 Mst1)
    *(-6*Xt2*pow2 Mst1 + truncXt*pow2 Xt2 + 6*pow4 Mst1))/(3*pow6 Mst1)

/-- `shiftH3mToDRbarPrimeMh2`; HierarchyCalculator.cpp:1050-1137 -/
def shiftH3mToDRbarPrimeMh2 (p : Params F) (ho : HObj F) (omitLogs : Int) : F :=
  let h := ho.getSuitableHierarchy
  let trunc : F := ofInt (truncateXt h)
  let Mst1 := p.MSt.x0
  let Mst2 := p.MSt.x1
  let Xt := shiftXt p h
  let Mst12 := pow2 Mst1
  let Mgl := p.MG
  let Mgl2 := pow2 p.MG
  let Msq2 := pow2 (calcMeanMsq p)
  let scale2 := pow2 p.scale
  let Mst22 := pow2 Mst2
  let Dmst12 := Mst12 - Mst22
  let om : F := ofInt omitLogs
  let lmMst1 := om * log (scale2 / Mst12)
  let lmMst2 := om * log (scale2 / Mst12) - log (Mst22 / Mst12)
  let lmMsq := om * log (scale2 / Mst12) - log (Msq2 / Mst12)
  let lmMgl := om * log (scale2 / Mst12) - log (Mgl2 / Mst12)
  let Mst2shift := Mst1 + lit (1/2) * sqrt (abs Dmst12)
  let lmMst2shift := log (scale2 / pow2 Mst2shift)
  let lim := h3mMh2Lim Mst1 Mgl Msq2 Xt trunc lmMst1 lmMsq lmMgl
  let exact := h3mMh2Exact Mst1 Mst2 Mgl Msq2 Xt trunc lmMst1 lmMst2 lmMsq lmMgl
  let exactShifted := h3mMh2Exact Mst1 Mst2shift Mgl Msq2 Xt trunc lmMst1 lmMst2shift lmMsq lmMgl
  if isDegenerateCase Mst1 Mst2 lim exact exactShifted then lim else exact

/-- the common factor of the one-loop matrix elements -/
def mt41LogTerm (Mst1 Mst2 : F) : F :=
  -pow2 Mst1 + pow2 Mst2 + pow2 Mst1 * log Mst1 + pow2 Mst2 * log Mst1 - pow2 Mst1 * log Mst2
    - pow2 Mst2 * log Mst2

/-- `getMt41L` as a function of the masses; HierarchyCalculator.cpp:1163-1206 -/
def mt41Matrix (Mt s2t mu beta sbeta cbeta Mst1 Mst2 : F) : Mat2 F :=
  let L := mt41LogTerm Mst1 Mst2
  let m00 := (-pow2 Mt * pow2 mu * L * pow2 s2t) / (4 * (pow2 Mst1 - pow2 Mst2))
  let m01 := (-(pow3 Mt * mu * (log Mst1 - log Mst2) * s2t) / 2 +
      (pow2 Mt * pow2 mu * 1 / ftan beta * L * pow2 s2t) / (4 * (pow2 Mst1 - pow2 Mst2)) +
      (Mt * mu * L * pow3 s2t) / 8)
  let m11 := (pow4 Mt * (log Mst1 + log Mst2 - 2 * log Mt) +
      pow3 Mt * mu * 1 / ftan beta * (log Mst1 - log Mst2) * s2t +
      (pow2 Mt * pow2 (1 / sbeta) *
      (pow2 Mst1 * pow2 mu * pow2 cbeta -
      pow2 Mst2 * pow2 mu * pow2 cbeta -
      pow2 Mst1 * pow2 mu * pow2 cbeta * log Mst1 -
      pow2 Mst2 * pow2 mu * pow2 cbeta * log Mst1 +
      pow2 Mst1 * pow2 mu * pow2 cbeta * log Mst2 +
      pow2 Mst2 * pow2 mu * pow2 cbeta * log Mst2 +
      2 * pow4 Mst1 * log Mst1 * pow2 sbeta -
      4 * pow2 Mst1 * pow2 Mst2 * log Mst1 * pow2 sbeta +
      2 * pow4 Mst2 * log Mst1 * pow2 sbeta -
      2 * pow4 Mst1 * log Mst2 * pow2 sbeta +
      4 * pow2 Mst1 * pow2 Mst2 * log Mst2 * pow2 sbeta -
      2 * pow4 Mst2 * log Mst2 * pow2 sbeta) * pow2 s2t) /
      (4 * (pow2 Mst1 - pow2 Mst2)) -
      (Mt * mu * 1 / ftan beta * L * pow3 s2t) / 4 -
      ((pow2 Mst1 - pow2 Mst2) * L * pow4 s2t) / 16)
  ⟨m00, m01, m01, m11⟩

/-- `getMt41L`; HierarchyCalculator.cpp:1147-1209 -/
def getMt41L (p : Params F) (ho : HObj F) (shiftOneLoop shiftTwoLoop : Int) : Except String (Mat2 F) := do
  let Mst1 ← shiftMst1ToMDR p ho shiftOneLoop shiftTwoLoop
  let Mst2 ← shiftMst2ToMDR p ho shiftOneLoop shiftTwoLoop
  let Mt := if ho.getIsAlphab then p.Mb else p.Mt
  let s2t := if ho.getIsAlphab then p.s2b else p.s2t
  return Mat2.smul (calcPrefactor p)
    (mt41Matrix Mt s2t p.mu (calcBeta p) (calcSinBeta p) (calcCosBeta p) Mst1 Mst2)

/-- Tree-level matrix of `compareHierarchies`; HierarchyCalculator.cpp:318-326 -/
def treeLevel (p : Params F) : Mat2 F :=
  let s2b := sin (2 * calcBeta p)
  let tb := calcTanBeta p
  let m10 := lit (1/2) * s2b * (-pow2 p.MZ - pow2 p.MA)
  ⟨lit (1/2) * s2b * (pow2 p.MZ / tb + pow2 p.MA * tb), m10, m10,
   lit (1/2) * s2b * (pow2 p.MZ * tb + pow2 p.MA / tb)⟩

end
end Himalaya
