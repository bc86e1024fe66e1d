import Verif.EFT.Formulas
import Verif.Base.Orders

/-!
# Threshold and EFT calculators

Models the classes `ThresholdCalculator` (source/himalaya/mh2_eft/ThresholdCalculator.cpp) and `Mh2EFTCalculator`
(source/himalaya/mh2_eft/Mh2EFTCalculator.cpp).  The bodies of `getDeltaMh2EFT{1,2,3}Loop` are generated by tools/gen_eft.py.

Parameters of the model (`ThrFns`): the dilogarithm, the corrections `getDeltaYtAlphas2`, `getDeltaLambdaAlphatAlphas2`,
`getDRbarPrimeToMSbarXtTerms`, and the corrections that have no mass limits and no scheme conversion.
-/

namespace Himalaya

open FOps
open scoped Himalaya

/-- `enum class ThresholdCouplingOrders`; mh2_eft/EFTFlags.hpp:35-81 -/
inductive ThrOrder where
  | G3_AS | YT_AS | YT_AS2 | LAMBDA_AT | LAMBDA_AT_AS | LAMBDA_AT_AS2 | LAMBDA_YB2_G12 | LAMBDA_G14 | LAMBDA_REG_G14 |
  LAMBDA_CHI_G14 | LAMBDA_CHI_G24 | LAMBDA_G24 | LAMBDA_REG_G24 | LAMBDA_G12_G22 | LAMBDA_REG_G12_G22 |
  LAMBDA_CHI_G12_G22 | LAMBDA_YB2_G22 | LAMBDA_YB4 | LAMBDA_YT2_G12 | LAMBDA_YT2_G22 | LAMBDA_YTAU2_G12 |
  LAMBDA_YTAU2_G22 | LAMBDA_YTAU4 | G1_G1 | G2_G2 | VEV_YT2 | YT_YB | YT_YT | YTAU_YTAU | LAMBDA_YB4_G32 | LAMBDA_YB6 |
  LAMBDA_YT6 | LAMBDA_YTAU6 | LAMBDA_YT2_YB4 | LAMBDA_YT4_YB2 | VEV_YB2 | VEV_YTAU2 | VEV_G12 | VEV_G22 | YTAU_YB |
  LAMBDA_YTAU4_YB2 | LAMBDA_YTAU2_YB4 | YB_YT | YB_AS | YB_YB
deriving DecidableEq, Repr

/-- `enum class Limits`; mh2_eft/EFTFlags.hpp:85-93; `other i` stands for a value outside the enumeration. -/
inductive Limit where
  | general | qu | qg | ug | qug | degenerate | other (i : Int)
deriving DecidableEq, Repr

/-- `static_cast<Limits>(i)` -/
def Limit.ofInt (i : Int) : Limit :=
  if i = 0 then .general else if i = 1 then .qu else if i = 2 then .qg else if i = 3 then .ug else if i = 4 then .qug
  else if i = 5 then .degenerate else .other i
/-- `static_cast<int>(limit)` -/
def Limit.toInt : Limit → Int
  | .general => 0 | .qu => 1 | .qg => 2 | .ug => 3 | .qug => 4 | .degenerate => 5 | .other i => i

/-- `enum class RenSchemes`, the members that the calculators distinguish; mh2_eft/EFTFlags.hpp:22-31 -/
inductive Scheme where
  | H3m | DRBARPRIME | H3mMDRBAR | MDRBARPRIME | TEST
deriving DecidableEq, Repr

/-- data members of `ThresholdCalculator`; ThresholdCalculator.hpp -/
structure TcObj (F : Type) where
  p : Params F
  msq2 : F
  xtOrder : Int

/-- code called by `ThresholdCalculator` that is not expanded here -/
structure ThrFns (F : Type) where
  dilog : F → F
  ytAs2 : TcObj F → Limit → Int → Except String F
  lamAtAs2 : TcObj F → Limit → Int → Except String F
  xtTerms : TcObj F → Limit → Int → Int → Except String F
  other : TcObj F → ThrOrder → Int → Except String F

section
variable {F : Type} [Add F] [Sub F] [Mul F] [Div F] [Neg F] [FOps F]

/-- the exception at the end of every function with mass limits; e.g. ThresholdCalculator.cpp:3172 -/
def limitError : String := "Mass limit not included!"

/-- `calcTanBeta`; ThresholdCalculator.cpp:5963-5966, Mh2EFTCalculator.cpp:771-774 -/
def eftTanBeta (p : Params F) : F := p.vu / p.vd
/-- `calcBeta`; ThresholdCalculator.cpp:5958-5961, Mh2EFTCalculator.cpp:766-769 -/
def eftBeta (p : Params F) : F := atan (eftTanBeta p)
/-- `calcV2`; ThresholdCalculator.cpp:5973-5976, Mh2EFTCalculator.cpp:781-784 -/
def eftV2 (p : Params F) : F := pow2 p.vu + pow2 p.vd
/-- `calcV`; ThresholdCalculator.cpp:5968-5971, Mh2EFTCalculator.cpp:776-779 -/
def eftV (p : Params F) : F := sqrt (eftV2 p)
/-- `calcSinBeta`; ThresholdCalculator.cpp:5978-5981, Mh2EFTCalculator.cpp:786-789 -/
def eftSinBeta (p : Params F) : F := p.vu / eftV p
/-- `calcCosBeta`; ThresholdCalculator.cpp:5983-5986, Mh2EFTCalculator.cpp:791-794 -/
def eftCosBeta (p : Params F) : F := p.vd / eftV p
/-- `calcXt`; ThresholdCalculator.cpp:5988-5991 -/
def calcXt (p : Params F) : F := p.Au 2 2 - p.mu / eftTanBeta p

/-- `omitLogs * log(Mst12/MR2) + log(m2/Mst12)`; e.g. ThresholdCalculator.cpp:3109-3115, 3137 -/
def logMR (p : Params F) (omitLogs : Int) (m2 : F) : F :=
  ofInt omitLogs * log (pow2 p.MSt.x0 / pow2 p.scale) + log (m2 / pow2 p.MSt.x0)

/-- `getDeltaG3Alphas`; ThresholdCalculator.cpp:3103-3118 -/
def TcObj.dG3 (c : TcObj F) (omitLogs : Int) : F :=
  1 / 2 - logMR c.p omitLogs (pow2 c.p.MG)
    - (logMR c.p omitLogs (c.p.mq2 2 2) + 10 * logMR c.p omitLogs c.msq2 + logMR c.p omitLogs (c.p.mu2 2 2)) / 12

/-- `getDeltaYtAlphas`; ThresholdCalculator.cpp:3124-3173 -/
def TcObj.dYtAs (c : TcObj F) (limit : Limit) (omitLogs : Int) : Except String F :=
  let m32 := pow2 c.p.MG
  let mU32 := c.p.mu2 2 2
  let mQ32 := c.p.mq2 2 2
  let m3 := sqrt m32
  let mU3 := sqrt mU32
  let mQ3 := sqrt mQ32
  let Xt := calcXt c.p
  let lmQ3MR := logMR c.p omitLogs mQ32
  let limit := if limit = .degenerate then .qug else limit
  match limit with
  | .general => .ok (Thr.dYtAsGen m32 mQ32 mU32 m3 mQ3 mU3 Xt lmQ3MR)
  | .qu => .ok (Thr.dYtAsQU m32 mQ32 mU32 m3 mQ3 mU3 Xt lmQ3MR)
  | .qg => .ok (Thr.dYtAsQG m32 mQ32 mU32 m3 mQ3 mU3 Xt lmQ3MR)
  | .ug => .ok (Thr.dYtAsUG m32 mQ32 mU32 m3 mQ3 mU3 Xt lmQ3MR)
  | .qug => .ok (Thr.dYtAsQUG m32 mQ32 mU32 m3 mQ3 mU3 Xt lmQ3MR)
  | _ => .error limitError

/-- `getDeltaLambdaAlphat`; ThresholdCalculator.cpp:3637-3666 -/
def TcObj.dLamAt (c : TcObj F) (limit : Limit) (omitLogs : Int) : Except String F :=
  let mU32 := c.p.mu2 2 2
  let mQ32 := c.p.mq2 2 2
  let Xt := calcXt c.p
  let lmQ3MR := logMR c.p omitLogs mQ32
  let limit := if limit = .degenerate then .qug else limit
  let limit := if limit = .qg ∨ limit = .ug then .general else limit
  let limit := if limit = .qug then .qu else limit
  match limit with
  | .general => .ok (Thr.dLamAtGen (pow2 c.p.MG) mQ32 mU32 (sqrt (pow2 c.p.MG)) (sqrt mQ32) (sqrt mU32) Xt lmQ3MR)
  | .qu => .ok (Thr.dLamAtQU (pow2 c.p.MG) mQ32 mU32 (sqrt (pow2 c.p.MG)) (sqrt mQ32) (sqrt mU32) Xt lmQ3MR)
  | _ => .error limitError

/-- `getDeltaLambdaAlphatAlphas`; ThresholdCalculator.cpp:3674-3818 -/
def TcObj.dLamAtAs (T : ThrFns F) (c : TcObj F) (limit : Limit) (omitLogs : Int) : Except String F :=
  let m32 := pow2 c.p.MG
  let mU32 := c.p.mu2 2 2
  let mQ32 := c.p.mq2 2 2
  let m3 := sqrt m32
  let mU3 := sqrt mU32
  let mQ3 := sqrt mQ32
  let Xt := calcXt c.p
  let lmQ3MR := logMR c.p omitLogs mQ32
  let limit := if limit = .degenerate then .qug else limit
  match limit with
  | .general => .ok (Thr.dLamAtAsGen T.dilog m32 mQ32 mU32 m3 mQ3 mU3 Xt lmQ3MR)
  | .qu => .ok (Thr.dLamAtAsQU T.dilog m32 mQ32 mU32 m3 mQ3 mU3 Xt lmQ3MR)
  | .qg => .ok (Thr.dLamAtAsQG T.dilog m32 mQ32 mU32 m3 mQ3 mU3 Xt lmQ3MR)
  | .ug => .ok (Thr.dLamAtAsUG T.dilog m32 mQ32 mU32 m3 mQ3 mU3 Xt lmQ3MR)
  | .qug => .ok (Thr.dLamAtAsQUG T.dilog m32 mQ32 mU32 m3 mQ3 mU3 Xt lmQ3MR)
  | _ => .error limitError

/-- `static_cast<Limits>(p.massLimit3LThreshold)`; ThresholdCalculator.cpp:210, `getLimit` :5949-5952 -/
def TcObj.limit (c : TcObj F) : Limit := Limit.ofInt c.p.massLimit3LThreshold

/-- `getThresholdCorrection`; ThresholdCalculator.cpp:206-416 (the message for other schemes is not modelled) -/
def TcObj.thr (T : ThrFns F) (c : TcObj F) (o : ThrOrder) (s : Scheme) (omitLogs : Int) : Except String F :=
  match o with
  | .G3_AS => .ok (if s = .DRBARPRIME then -c.dG3 omitLogs else c.dG3 omitLogs)
  | .YT_AS => do
    let t ← c.dYtAs c.limit omitLogs
    if s = .DRBARPRIME then return -t else return t
  | .YT_AS2 => do
    let t ← T.ytAs2 c c.limit omitLogs
    if s = .DRBARPRIME then
      let dytas ← c.dYtAs c.limit omitLogs
      return 2 * c.dG3 omitLogs * dytas + pow2 dytas - t
    else return t
  | .LAMBDA_AT => c.dLamAt c.limit omitLogs
  | .LAMBDA_AT_AS => do
    let t ← c.dLamAtAs T c.limit omitLogs
    if s = .DRBARPRIME then
      let l ← c.dLamAt c.limit omitLogs
      let y ← c.dYtAs c.limit omitLogs
      return t - 4 * l * y
    else return t
  | .LAMBDA_AT_AS2 => do
    let t ← T.lamAtAs2 c c.limit omitLogs
    if s = .DRBARPRIME then
      let dg3as := c.dG3 omitLogs
      let dytas ← c.dYtAs c.limit omitLogs
      let l2 ← c.dLamAtAs T c.limit omitLogs
      let l1 ← c.dLamAt c.limit omitLogs
      let y2 ← T.ytAs2 c c.limit omitLogs
      return t + (l2 * (-2 * dg3as - 4 * dytas) + l1 * (8 * dg3as * dytas + 10 * pow2 dytas - 4 * y2))
    else return t
  | o => T.other c o omitLogs

/-- `getDRbarPrimeToMSbarShift`; ThresholdCalculator.cpp:4328-4351 -/
def TcObj.shift (T : ThrFns F) (c : TcObj F) (xtOrder omitLogs omitXtLogs : Int) : Except String F := do
  let xt ← (if xtOrder ≤ 3 then do
      let x4 ← T.xtTerms c c.limit 4 omitXtLogs
      let x5 ← T.xtTerms c c.limit 5 omitXtLogs
      let x6 ← T.xtTerms c c.limit 6 omitXtLogs
      return x4 + x5 + x6
    else do
      let x5 ← T.xtTerms c c.limit 5 omitXtLogs
      let x6 ← T.xtTerms c c.limit 6 omitXtLogs
      return x5 + x6 : Except String F)
  let g3as := c.dG3 omitLogs
  let ytas ← c.dYtAs c.limit omitLogs
  let ytas2 ← T.ytAs2 c c.limit omitLogs
  let lambdaat ← c.dLamAt c.limit omitLogs
  let lambdaatas ← c.dLamAtAs T c.limit omitLogs
  return -(-2 * (lambdaat * (3 * pow2 ytas + 2 * ytas2) + (lambdaatas - 4 * ytas * lambdaat) * (g3as + 2 * ytas)) - xt)

/-- `setLimit`; ThresholdCalculator.cpp:5940-5943 -/
def TcObj.setLimit (c : TcObj F) (l : Limit) : TcObj F :=
  { c with
    p := { c.p with massLimit3LThreshold := l.toInt } }
/-- `setXtOrderOfDeltaLambdaAtAs2`; ThresholdCalculator.cpp:5954-5957 -/
def TcObj.setXtOrder (c : TcObj F) (x : Int) : TcObj F := { c with xtOrder := x }

/-- `isGeneralStable`; ThresholdCalculator.cpp:91-101 -/
def isGeneralStable (exact shifted limit : F) : Bool :=
  if !isFinite exact || !isFinite shifted || (lt 1 (abs exact) && lt 1 (abs shifted)) then false
  else lt (abs (shifted - limit)) (abs (exact - limit))

/-- the object while `tmp_set_mU32`, `tmp_set_m3` (and `tmp_set_msq2`) are alive; ThresholdCalculator.cpp:151-159, 166-167.
The destructors restore the three members at the end of the block (`Verif.Raii`), so that only the assignment to
`massLimit3LThreshold` survives. -/
def TcObj.shifted (c : TcObj F) (mU32 m3 msq2 : F) : TcObj F :=
  { c with
    p := { c.p with mu2 := c.p.mu2.set22 mU32, MG := m3 }, msq2 := msq2 }

/-- the block `lim`, `exact`, `exactShifted`, `isGeneralStable`; e.g. ThresholdCalculator.cpp:155-163 -/
def TcObj.tryLimit (T : ThrFns F) (c : TcObj F) (pref : F) (l : Limit) (sh : TcObj F) : Except String (TcObj F) := do
  let lim ← T.ytAs2 c l 1
  let exact ← T.ytAs2 c .general 1
  let exactShifted ← T.ytAs2 sh .general 1
  if isGeneralStable (pref * exact) (pref * exactShifted) (pref * lim) then return c else return c.setLimit l

/-- body of the constructor after `validate`; ThresholdCalculator.cpp:139-197 -/
def TcObj.selectLimit (T : ThrFns F) (c : TcObj F) : Except String (TcObj F) :=
  let mQ3 := sqrt (c.p.mq2 2 2)
  let mU3 := sqrt (c.p.mu2 2 2)
  let m3 := c.p.MG
  let eps := mQ3 * lit (1 / 100)
  let eps2 := mU3 * lit (1 / 100)
  let v := eftV c.p
  let pref := const .twoLoop * const .sqrt2 * c.p.Mt * Misc.pow4 c.p.g3 / v
  let smU32 := pow2 (mQ3 + abs (mU3 - mQ3) / 2)
  let smsq2 := pow2 (mQ3 + abs (sqrt c.msq2 - mQ3) / 2)
  let sm3 := mQ3 + abs (m3 - mQ3) / 2
  if lt (abs (mQ3 - mU3)) eps && lt (abs (mU3 - m3)) eps && lt (abs (m3 - sqrt c.msq2)) eps then
    c.tryLimit T pref .degenerate (c.shifted smU32 sm3 smsq2)
  else if lt (abs (mQ3 - mU3)) eps && lt (abs (mU3 - m3)) eps then
    c.tryLimit T pref .qug (c.shifted smU32 sm3 c.msq2)
  else if lt (abs (mQ3 - mU3)) eps then c.tryLimit T pref .qu (c.shifted smU32 sm3 c.msq2)
  else if lt (abs (mQ3 - m3)) eps then c.tryLimit T pref .qg (c.shifted smU32 sm3 c.msq2)
  else if lt (abs (mU3 - m3)) eps2 then c.tryLimit T pref .ug (c.shifted smU32 sm3 c.msq2)
  else .ok c

/-- `ThresholdCalculator(p_, verbose, check)`; ThresholdCalculator.cpp:132-198: `msq2` is initialised before `validate` runs. -/
def thresholdCalculator (X : Ext F) (T : ThrFns F) (p : Params F) (check : Bool) : Except String (TcObj F) :=
  match validate X p with
  | (.error e, _) => .error e
  | (.ok _, q) =>
    let c : TcObj F := { p := q, msq2 := calculateMsq2 p, xtOrder := 6 }
    if check then .ok c else c.selectLimit T

/-! ### `Mh2EFTCalculator` -/

/-- data members of `Mh2EFTCalculator`; Mh2EFTCalculator.hpp -/
structure EftCalc (F : Type) where
  p : Params F
  orders : Flags

/-- `orders.at(o)` used as a condition -/
def EftCalc.on (c : EftCalc F) (o : Order) : Bool := c.orders o != 0

/-- `CALC_IF(cond, expr)` with an expression that may throw; Mh2EFTCalculator.cpp:24 -/
def calcIf (b : Bool) (e : Except String F) : Except String F := if b then e else .ok 0
/-- `CALC_IF(cond, expr)`; Mh2EFTCalculator.cpp:24 -/
def zeroIf (b : Bool) (x : F) : F := if b then x else 0
/-- `discardNaN`; Mh2EFTCalculator.cpp:31-39 -/
def discardNaN (x : F) : F := if isNaN x then 0 else x

/-- `eps` of the constructor; Mh2EFTCalculator.cpp:63 -/
def eftEps : F := lit (1 / 10 ^ 10)

/-- orders switched off at the end of the constructor; Mh2EFTCalculator.cpp:113-134 -/
def eftDisabled : List Order :=
  [.G14, .G24, .G12G22, .G12YT2, .G22YT2, .G12YB2, .G22YB2, .G12YTAU2, .G22YTAU2, .YB4, .YTAU4,
   .G32YB4, .YB6, .YTAU2YB4, .YT2YB4, .YB2YT4, .YTAU4YB2, .YTAU6]

/-- assignments to `orders` in the constructor; Mh2EFTCalculator.cpp:60-134 -/
def eftOrders (p : Params F) : Flags :=
  let o : Flags := fun _ => 1
  let o := if lt (abs p.g1) eftEps then o.off [.G12G22, .G12YB2, .G14, .G12YB2, .G12YTAU2, .G12YT2] else o
  let o := if lt (abs p.g2) eftEps then o.off [.G24, .G22YB2, .G22YTAU2, .G22YT2] else o
  let o := if lt (abs p.Mt) eftEps then o.off [.G12YT2, .G22YT2, .YT4, .G32YT4, .YT6, .YTAU2YT4, .YT2YB4, .YB2YT4] else o
  let o := if lt (abs p.Mb) eftEps then
      o.off [.G12YB2, .G22YB2, .YB4, .G32YB4, .YB6, .YTAU2YB4, .YT2YB4, .YB2YT4, .YTAU4YB2, .YT6] else o
  let o := if lt (abs p.Mtau) eftEps then
      ((o.put .G12YTAU2 1).put .G22YTAU2 1).off [.YTAU4, .YTAU2YB4, .YTAU2YT4, .YTAU6, .YTAU4YB2] else o
  o.off eftDisabled

/-- `Mh2EFTCalculator(p_, verbose)`; Mh2EFTCalculator.cpp:54-135 -/
def mh2EftCalculator (X : Ext F) (p : Params F) : Except String (EftCalc F) :=
  match validate X p with
  | (.error e, _) => .error e
  | (.ok _, q) => .ok { p := q, orders := eftOrders q }

/-- `setCorrectionFlag`; Mh2EFTCalculator.cpp:137-143 (the message for other values is not modelled) -/
def EftCalc.setFlag (c : EftCalc F) (o : Order) (flag : Int) : EftCalc F := { c with orders := c.orders.put o flag }

/-- `disable_non_as_terms`; HierarchyCalculator.cpp:60-82 -/
def disableNonAs (c : EftCalc F) : EftCalc F :=
  { c with
    orders := c.orders.off [.G12G22, .G12YB2, .G14, .G24, .G12YB2, .G22YB2, .YB4, .G12YTAU2, .G22YTAU2, .YTAU4, .G12YT2,
      .G22YT2, .G32YB4, .YB6, .YT6, .YTAU2YB4, .YTAU6, .YT2YB4, .YB2YT4, .YTAU4YB2] }

/-- `getDeltaMh2EFT0Loop`; Mh2EFTCalculator.cpp:149-152 -/
def EftCalc.loop0 (c : EftCalc F) : F := pow2 (c.p.MZ * cos (2 * eftBeta c.p))

/-- `getDeltaMh2EFT1Loop`; Mh2EFTCalculator.cpp:161-433.  `thr o omitMSSMLogs` is
`thresholdCalculator.getThresholdCorrection(o, RenSchemes::DRBARPRIME, omitMSSMLogs)` and `fB` is `mh2_fo::b0xx`. -/
def EftCalc.loop1 (thr : ThrOrder → Int → Except String F) (fB : F → F → F → F) (c : EftCalc F)
    (omitSMLogs omitMSSMLogs : Int) : Except String F := do
  let lmMt := (ofInt omitSMLogs) * log (pow2 (c.p.scale / c.p.Mt))
  let v2 := (eftV2 c.p)
  let gt := (const .sqrt2) * c.p.Mt / (eftV c.p)
  let pref_at := (const .oneLoop) * pow2 (c.p.Mt * gt)
  let q2 := pow2 c.p.Mt
  let beta := (eftBeta c.p)
  let cbeta := (eftCosBeta c.p)
  let c2beta := cos (2 * beta)
  let sbeta := (eftSinBeta c.p)
  let mhtree2 := pow2 (c2beta * c.p.MZ)
  let yt := (const .sqrt2) * c.p.Mt / c.p.vu
  let yb := (const .sqrt2) * c.p.Mb / c.p.vd
  let ytau := (const .sqrt2) * c.p.Mtau / c.p.vd
  let dlambdayb2g12 ← calcIf (c.on .G12YB2) (thr .LAMBDA_YB2_G12 omitMSSMLogs)
  let dlambdag14 ← calcIf (c.on .G14) (thr .LAMBDA_G14 omitMSSMLogs)
  let dlambdaregg14 ← calcIf (c.on .G14) (thr .LAMBDA_REG_G14 omitMSSMLogs)
  let dlambdachig14 ← calcIf (c.on .G14) (thr .LAMBDA_CHI_G14 omitMSSMLogs)
  let dg1g1 ← calcIf (c.on .G14) (thr .G1_G1 omitMSSMLogs)
  let dlambdachig24 ← calcIf (c.on .G24) (thr .LAMBDA_CHI_G24 omitMSSMLogs)
  let dlambdag24 ← calcIf (c.on .G24) (thr .LAMBDA_G24 omitMSSMLogs)
  let dg2g2 ← calcIf (c.on .G24) (thr .G2_G2 omitMSSMLogs)
  let dlambdaregg24 ← calcIf (c.on .G24) (thr .LAMBDA_REG_G24 omitMSSMLogs)
  let dlambdag12g22 ← calcIf (c.on .G12G22) (thr .LAMBDA_G12_G22 omitMSSMLogs)
  let dlambdaregg12g22 ← calcIf (c.on .G12G22) (thr .LAMBDA_REG_G12_G22 omitMSSMLogs)
  let dlambdachig12g22 ← calcIf (c.on .G12G22) (thr .LAMBDA_CHI_G12_G22 omitMSSMLogs)
  let dlambdayb2g22 ← calcIf (c.on .G22YB2) (thr .LAMBDA_YB2_G22 omitMSSMLogs)
  let dlambdayb4 ← calcIf (c.on .YB4) (thr .LAMBDA_YB4 omitMSSMLogs)
  let dlambdayt2g12 ← calcIf (c.on .G12YT2) (thr .LAMBDA_YT2_G12 omitMSSMLogs)
  let dlambdayt2g22 ← calcIf (c.on .G22YT2) (thr .LAMBDA_YT2_G22 omitMSSMLogs)
  let dlambdaytau2g12 ← calcIf (c.on .G12YTAU2) (thr .LAMBDA_YTAU2_G12 omitMSSMLogs)
  let dlambdaytau2g22 ← calcIf (c.on .G22YTAU2) (thr .LAMBDA_YTAU2_G22 omitMSSMLogs)
  let dlambdaytau4 ← calcIf (c.on .YTAU4) (thr .LAMBDA_YTAU4 omitMSSMLogs)
  let dvg12 := 0
  let dvg22 := 0
  let dvyt2 ← calcIf (c.on .G12YT2 || c.on .G22YT2) (thr .VEV_YT2 omitMSSMLogs)
  let dvyb2 ← calcIf (c.on .G12YB2 || c.on .G22YB2) (thr .VEV_YB2 omitMSSMLogs)
  let dvytau2 ← calcIf (c.on .G12YTAU2 || c.on .G22YTAU2) (thr .VEV_YTAU2 omitMSSMLogs)
  let bbhDR := fB mhtree2 mhtree2 q2
  let bbwDR := fB mhtree2 (pow2 c.p.MW) q2
  let bbzDR := fB mhtree2 (pow2 c.p.MZ) q2
  let B00DR := fB mhtree2 0 q2
  let dmh2g12g22 := zeroIf (c.on .G12G22) (discardNaN (v2 * (24 + 40 * dlambdachig12g22 + 40 * dlambdag12g22 + 40 *
    dlambdaregg12g22 - 36 * lmMt + 40 * dvg12 * pow2 c2beta + 24 * dvg22 * pow2 c2beta + 36 * lmMt * pow2 c2beta - 12 * lmMt
    * 1 * pow2 c2beta - 6 * bbwDR * (-2 + pow2 c2beta) * pow2 c2beta - 6 * Misc.pow4 c2beta - 27 * bbhDR * Misc.pow4 c2beta
    - 36 * lmMt * Misc.pow4 c2beta - 3 * bbzDR * (12 - 4 * pow2 c2beta + Misc.pow4 c2beta)) / 80))
  let dmh2g14 := zeroIf (c.on .G14) (discardNaN ((-(v2 * ((-4) * (18 + 100 * dlambdachig14 + 100 * dlambdag14 + 100 *
    dlambdaregg14 - 27 * lmMt) + 6 * (40 * dg1g1 - 40 * dvg12 + 3 * lmMt * (-3 + 1)) * pow2 c2beta + 9 * (9 * bbhDR + 2 * (1
    + bbwDR + 6 * lmMt)) * Misc.pow4 c2beta + 9 * bbzDR * (12 - 4 * pow2 c2beta + Misc.pow4 c2beta)))) / 800))
  let dmh2g24 := zeroIf (c.on .G24) (discardNaN ((-(v2 * (-24 - 16 * dlambdachig24 - 16 * dlambdag24 - 16 * dlambdaregg24 +
    36 * lmMt + 16 * dg2g2 * pow2 c2beta - 16 * dvg22 * pow2 c2beta - 18 * lmMt * pow2 c2beta + 6 * lmMt * 1 * pow2 c2beta +
    2 * Misc.pow4 c2beta + 9 * bbhDR * Misc.pow4 c2beta + 12 * lmMt * Misc.pow4 c2beta + 2 * bbwDR * (12 - 4 * pow2 c2beta +
    Misc.pow4 c2beta) + bbzDR * (12 - 4 * pow2 c2beta + Misc.pow4 c2beta)))) / 32))
  let dmh2g12yb2 := zeroIf (c.on .G12YB2) (discardNaN ((10 * dlambdayb2g12 - 3 * (3 * B00DR - 2 * dvyb2 + 3 * lmMt) * pow2
    c2beta) * pow2 cbeta * v2 / 20))
  let dmh2g22yb2 := zeroIf (c.on .G22YB2) (discardNaN ((2 * dlambdayb2g22 + ((-3) * B00DR + 2 * dvyb2 - 3 * lmMt) * pow2
    c2beta) * pow2 cbeta * v2 / 4))
  let dmh2yb4 := zeroIf (c.on .YB4) (discardNaN ((12 * B00DR + dlambdayb4 + 12 * lmMt) * v2 * Misc.pow4 cbeta / 2))
  let dmh2g12yt2 := zeroIf (c.on .G12YT2) (discardNaN ((10 * dlambdayt2g12 + (6 + 6 * dvyt2 - 9 * lmMt) * pow2 c2beta) *
    pow2 sbeta * v2 / 20))
  let dmh2g22yt2 := zeroIf (c.on .G22YT2) (discardNaN ((2 * dlambdayt2g22 + (2 + 2 * dvyt2 - 3 * lmMt) * pow2 c2beta) * pow2
    sbeta * v2 / 4))
  let tdmh2yt4 ← calcIf (c.on .YT4) (thr .LAMBDA_AT omitMSSMLogs)
  let dmh2yt4 := zeroIf (c.on .YT4) (discardNaN (pref_at * (12 * lmMt + tdmh2yt4)))
  let dmh2g12ytau2 := zeroIf (c.on .G12YTAU2) (discardNaN ((-(((-10) * dlambdaytau2g12 + 3 * B00DR * pow2 c2beta + 3 * ((-2)
    * dvytau2 + lmMt) * pow2 c2beta) * pow2 cbeta * v2)) / 20))
  let dmh2g22ytau2 := zeroIf (c.on .G22YTAU2) (discardNaN ((-(((-2) * dlambdaytau2g22 + B00DR * pow2 c2beta + ((-2) *
    dvytau2 + lmMt) * pow2 c2beta) * pow2 cbeta * v2)) / 4))
  let dmh2ytau4 := zeroIf (c.on .YTAU4) (discardNaN ((4 * B00DR + dlambdaytau4 + 4 * lmMt) * v2 * Misc.pow4 cbeta / 2))
  return dmh2yt4 + (const .oneLoop) * (pow2 (c.p.g1 * c.p.g2) * dmh2g12g22 + Misc.pow4 c.p.g1 * dmh2g14 + Misc.pow4 c.p.g2 *
    dmh2g24 + pow2 (c.p.g1 * yb) * dmh2g12yb2 + pow2 (c.p.g2 * yb) * dmh2g22yb2 + Misc.pow4 yb * dmh2yb4 + pow2 (c.p.g1 *
    ytau) * dmh2g12ytau2 + pow2 (c.p.g2 * ytau) * dmh2g22ytau2 + Misc.pow4 ytau * dmh2ytau4 + pow2 (c.p.g1 * yt) *
    dmh2g12yt2 + pow2 (c.p.g2 * yt) * dmh2g22yt2)

/-- `getDeltaMh2EFT2Loop`; Mh2EFTCalculator.cpp:441-690 -/
def EftCalc.loop2 (thr : ThrOrder → Int → Except String F) (c : EftCalc F)
    (omitSMLogs omitMSSMLogs : Int) : Except String F := do
  let lmMt := (ofInt omitSMLogs) * log (pow2 (c.p.scale / c.p.Mt))
  let v2 := (eftV2 c.p)
  let gt := (const .sqrt2) * c.p.Mt / (eftV c.p)
  let g32 := pow2 c.p.g3
  let yt2 := 2 * pow2 (c.p.Mt / c.p.vu)
  let yb2 := 2 * pow2 (c.p.Mb / c.p.vd)
  let ytau2 := 2 * pow2 (c.p.Mtau / c.p.vd)
  let yt4 := pow2 yt2
  let yb4 := pow2 yb2
  let yt6 := Misc.pow3 yt2
  let yb6 := Misc.pow3 yb2
  let ytau4 := pow2 ytau2
  let ytau6 := Misc.pow3 ytau2
  let cbeta := (eftCosBeta c.p)
  let sbeta := (eftSinBeta c.p)
  let lmbMt := log (pow2 (c.p.Mb / c.p.Mt))
  let pref := (const .twoLoop) * pow2 (c.p.Mt * gt * c.p.g3)
  let B00DR := 0
  let dytas ← calcIf (c.on .G32YT4) (thr .YT_AS omitMSSMLogs)
  let dlambdayb4g32 ← calcIf (c.on .G32YB4) (thr .LAMBDA_YB4_G32 omitMSSMLogs)
  let dlambdayb4 ← calcIf (c.on .YB6 || c.on .YTAU2YB4 || c.on .YT2YB4 || c.on .G32YB4) (thr .LAMBDA_YB4 omitMSSMLogs)
  let dlambdayb6 ← calcIf (c.on .YB6) (thr .LAMBDA_YB6 omitMSSMLogs)
  let dlambdayt4 ← calcIf (c.on .YT6 || c.on .YB2YT4) (thr .LAMBDA_AT omitMSSMLogs)
  let dytyt ← calcIf (c.on .YT6) (thr .YT_YT omitMSSMLogs)
  let dlambdayt6 ← calcIf (c.on .YT6) (thr .LAMBDA_YT6 omitMSSMLogs)
  let dvyt2 ← calcIf (c.on .YT6 || c.on .YT2YB4) (thr .VEV_YT2 omitMSSMLogs)
  let dytauytau ← calcIf (c.on .YTAU6) (thr .YTAU_YTAU omitMSSMLogs)
  let dlambdaytau4 ← calcIf (c.on .YTAU4YB2 || c.on .YTAU6) (thr .LAMBDA_YTAU4 omitMSSMLogs)
  let dlambdaytau6 ← calcIf (c.on .YTAU6) (thr .LAMBDA_YTAU6 omitMSSMLogs)
  let dlambdayt2yb4 ← calcIf (c.on .YT2YB4) (thr .LAMBDA_YT2_YB4 omitMSSMLogs)
  let dlambdayt4yb2 ← calcIf (c.on .YB2YT4) (thr .LAMBDA_YT4_YB2 omitMSSMLogs)
  let dytyb ← calcIf (c.on .YB2YT4) (thr .YT_YB omitMSSMLogs)
  let dvytau2 ← calcIf (c.on .YTAU2YB4 || c.on .YTAU6) (thr .VEV_YTAU2 omitMSSMLogs)
  let dvyb2 ← calcIf (c.on .YB6 || c.on .YTAU4YB2 || c.on .YB2YT4) (thr .VEV_YB2 omitMSSMLogs)
  let dytauyb ← calcIf (c.on .YTAU4YB2) (thr .YTAU_YB omitMSSMLogs)
  let dlambdayb4ytau2 ← calcIf (c.on .YTAU2YB4) (thr .LAMBDA_YTAU2_YB4 omitMSSMLogs)
  let dlambdayb2ytau4 ← calcIf (c.on .YTAU4YB2) (thr .LAMBDA_YTAU4_YB2 omitMSSMLogs)
  let dybyt ← calcIf (c.on .YT2YB4) (thr .YB_YT omitMSSMLogs)
  let dybas ← calcIf (c.on .G32YB4) (thr .YB_AS omitMSSMLogs)
  let dybyb ← calcIf (c.on .YB6) (thr .YB_YB omitMSSMLogs)
  let tdmh2yt4g32 ← calcIf (c.on .G32YT4) (thr .LAMBDA_AT_AS omitMSSMLogs)
  let dmh2yt4g32 := zeroIf (c.on .G32YT4) (discardNaN (pref * (96 * pow2 lmMt + (-32 + 48 * dytas) * lmMt - 24 * dytas +
    tdmh2yt4g32)))
  let dmh2yb4g32 := zeroIf (c.on .G32YB4) (discardNaN ((dlambdayb4g32 + 16 * (3 * B00DR * (dybas + 16 * lmMt) + lmMt * (-2 +
    3 * dybas + 24 * lmMt))) * v2 * Misc.pow4 cbeta / 2))
  let dmh2yb6 := zeroIf (c.on .YB6) (discardNaN ((-(((-144) * dybyb * (B00DR + lmMt) + pow2 cbeta * (-49 - 3 * dlambdayb6 +
    72 * dvyb2 - 72 * B00DR * dvyb2 - 60 * lmbMt + 234 * lmMt + 1296 * B00DR * lmMt - 72 * dvyb2 * lmMt + dlambdayb4 * (-9 +
    9 * B00DR - 6 * dvyb2 + 9 * lmMt) + 36 * pow2 lmbMt + 648 * pow2 lmMt - 6 * pow2 (const .pi))) * v2 * Misc.pow4 cbeta))
    / 6))
  let dmh2yt6 := zeroIf (c.on .YT6) (discardNaN (v2 * (4 * dytyt * (-6 + dlambdayt4 + 12 * lmMt) + (-12 + dlambdayt6 +
    dlambdayt4 * (2 + 2 * dvyt2 - 3 * lmMt) + 24 * dvyt2 * (-1 + lmMt) - 18 * lmMt * (1 + 3 * lmMt) - 2 * pow2 (const .pi))
    * pow2 sbeta) * Misc.pow4 sbeta / 2))
  let dmh2yb4ytau2 := zeroIf (c.on .YTAU2YB4) (discardNaN ((dlambdayb4ytau2 - 96 * B00DR * lmMt - dlambdayb4 * (-1 + B00DR +
    lmMt) + 2 * dvytau2 * (-12 + 12 * B00DR + dlambdayb4 + 12 * lmMt) - 48 * pow2 lmMt) * v2 * Misc.pow6 cbeta / 2))
  let dmh2yb2ytau4 := zeroIf (c.on .YTAU4YB2) (discardNaN ((4 * dytauyb * (4 * B00DR + dlambdaytau4 + 4 * lmMt) + pow2 cbeta
    * (dlambdayb2ytau4 - 8 * dvyb2 + 8 * B00DR * dvyb2 + dlambdaytau4 * (3 - 3 * B00DR + 2 * dvyb2 - 3 * lmMt) - 6 * lmMt -
    24 * B00DR * lmMt + 8 * dvyb2 * lmMt - 12 * pow2 lmMt)) * v2 * Misc.pow4 cbeta / 2))
  let dmh2ytau6 := zeroIf (c.on .YTAU6) (discardNaN ((-(((-12) * dytauytau * (4 * B00DR + dlambdaytau4 + 4 * lmMt) + pow2
    cbeta * ((-3) * dlambdaytau6 + 3 * dlambdaytau4 * (-1 + B00DR - 2 * dvytau2 + lmMt) + 2 * (6 + 30 * (1 + B00DR) * lmMt -
    12 * dvytau2 * (-1 + B00DR + lmMt) + 15 * pow2 lmMt + pow2 (const .pi)))) * v2 * Misc.pow4 cbeta)) / 6))
  let dmh2yt2yb4 := zeroIf (c.on .YT2YB4) (discardNaN ((48 * dybyt * lmMt + (dlambdayt2yb4 + dlambdayb4 * (2 + 2 * dvyt2 - 3
    * lmMt) + 3 * (-15 + 8 * lmbMt + 8 * dvyt2 * (-1 + lmMt) + 18 * lmMt - 24 * pow2 lmMt - 2 * pow2 (const .pi))) * pow2
    sbeta + 12 * B00DR * (4 * dybyt + (2 * dvyt2 - 9 * lmMt) * pow2 sbeta)) * v2 * Misc.pow4 cbeta / 2))
  let dmh2yt4yb2 := zeroIf (c.on .YB2YT4) (discardNaN ((4 * dytyb * (-6 + dlambdayt4 + 12 * lmMt) + pow2 cbeta *
    (dlambdayt4yb2 + dlambdayt4 * (3 - 3 * B00DR + 2 * dvyb2 - 3 * lmMt) - 6 * (4 * dvyb2 + lmMt + 6 * B00DR * lmMt - 4 *
    dvyb2 * lmMt + 3 * pow2 lmMt - pow2 (const .pi)))) * v2 * Misc.pow4 sbeta / 2))
  return (const .twoLoop) * (g32 * yb4 * dmh2yb4g32 + yb6 * dmh2yb6 + yt6 * dmh2yt6 + yb4 * ytau2 * dmh2yb4ytau2 + yb2 *
    ytau4 * dmh2yb2ytau4 + ytau6 * dmh2ytau6 + yt2 * yb4 * dmh2yt2yb4 + yt4 * yb2 * dmh2yt4yb2) + dmh2yt4g32

/-- `z3`; misc/Constants.hpp:15 -/
def z3 : F := lit (120205690315959429 / 10 ^ 17)

/-- `getDeltaMh2EFT3Loop`; Mh2EFTCalculator.cpp:700-729 -/
def EftCalc.loop3 (thr : ThrOrder → Int → Except String F) (c : EftCalc F)
    (omitSMLogs omitMSSMLogs omitDeltaLambda3L : Int) : Except String F := do
  let catas2 := lit (2481215180432007/10000000000000)
  let lmMt := (ofInt omitSMLogs) * log (pow2 (c.p.scale / c.p.Mt))
  let dytas ← thr .YT_AS omitMSSMLogs
  let dytas2 ← thr .YT_AS2 omitMSSMLogs
  let dg3as ← thr .G3_AS omitMSSMLogs
  let gt := (const .sqrt2) * c.p.Mt / sqrt ((eftV2 c.p))
  let pref := (const .threeLoop) * pow2 (c.p.Mt * gt * pow2 c.p.g3)
  let tlam ← thr .LAMBDA_AT_AS2 omitMSSMLogs
  return pref * (736 * Misc.pow3 lmMt + (160 + 192 * dg3as + 384 * dytas) * pow2 lmMt + ((-128) * z3 - 2056 / 3 + (-64) *
    dg3as - 512 * dytas + 72 * pow2 dytas + 48 * dytas2) * lmMt + 64 * dytas - 84 * pow2 dytas - 24 * dytas2 + catas2 +
    (ofInt omitDeltaLambda3L) * tlam)

/-- `thresholdCalculator` of the EFT calculator; Mh2EFTCalculator.cpp:163, 443, 703 -/
def EftCalc.thr (X : Ext F) (T : ThrFns F) (c : EftCalc F) (o : ThrOrder) (omitLogs : Int) : Except String F := do
  let t ← thresholdCalculator X T c.p false
  t.thr T o .DRBARPRIME omitLogs

/-- `getDeltaLambdaDegenerate`; Mh2EFTCalculator.cpp:741-765 -/
def EftCalc.lambdaDegenerate (c : EftCalc F) (scale mst1 Xt : F) (omitlogs : Int) : F :=
  let LS := ofInt omitlogs * log (pow2 (scale / c.p.MSt.x0)) + log (pow2 (c.p.MSt.x0 / mst1))
  let v2 := eftV2 c.p
  let gt := const .sqrt2 * c.p.Mt / eftV c.p
  let pref := const .threeLoop * pow2 (c.p.Mt * gt * pow2 c.p.g3)
  let xt := Xt / mst1
  let catas2 := lit (2481215180432007/10000000000000)
  2 / 27 * pref * (6082 - 27832 * LS + 14856 * pow2 LS - 4032 * Misc.pow3 LS - 15408 * z3 + 1728 * z3 * LS - 27 * catas2 / 2
    + xt * (7616 * LS - 11712 * pow2 LS + 32 * (-940 + 477 * z3)) + pow2 xt * (28848 - 2640 * LS + 1008 * pow2 LS - 11880 * z3)
    + Misc.pow3 xt * (160 * LS + 864 * pow2 LS + 8 * (2722 - 2259 * z3))) / v2

end

end Himalaya
