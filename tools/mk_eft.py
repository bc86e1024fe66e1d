exec(open('/verif/tools/gen_eft.py').read().split("if __name__")[0])
thrs=re.findall(r'^\s+([A-Z0-9_]+),',open(D+'EFTFlags.hpp').read().split('enum class ThresholdCouplingOrders')[1].split('NUMBER_OF')[0],re.M)
rest={}
i=thr.index('ThresholdCalculator::getThresholdCorrection('); 
for m in re.finditer(r'case ThresholdCouplingOrders::(\w+):\{\s*return (\w+)\((\w*)\)',thr): rest[m.group(1)]=(m.group(2),m.group(3))
ctor=['G3_AS','YT_AS','YT_AS2','LAMBDA_AT','LAMBDA_AT_AS','LAMBDA_AT_AS2']
assert set(thrs)==set(rest)|set(ctor), (set(thrs)^(set(rest)|set(ctor)))
enum='\n'.join(textwrap.wrap(' '.join('| '+t for t in thrs),120,initial_indent='  ',subsequent_indent='  '))
loops={f:gen_loop(f) for f in ['getDeltaMh2EFT1Loop','getDeltaMh2EFT2Loop','getDeltaMh2EFT3Loop']}
MODEL=f'''import Verif.EFT.Formulas
import Verif.Base.Orders

/-!
# Threshold and EFT calculators

Models the classes `ThresholdCalculator` (source/himalaya/mh2_eft/ThresholdCalculator.cpp) and `Mh2EFTCalculator`
(source/himalaya/mh2_eft/Mh2EFTCalculator.cpp).  The bodies of `getDeltaMh2EFT{{1,2,3}}Loop` are generated by tools/gen_eft.py.

Parameters of the model (`ThrFns`): the dilogarithm, the corrections `getDeltaYtAlphas2`, `getDeltaLambdaAlphatAlphas2`,
`getDRbarPrimeToMSbarXtTerms`, and the corrections that have no mass limits and no scheme conversion.
-/

namespace Himalaya

open FOps
open scoped Himalaya

/-- `enum class ThresholdCouplingOrders`; mh2_eft/EFTFlags.hpp:35-81 -/
inductive ThrOrder where
{enum}
deriving DecidableEq, Repr

/-- `enum class Limits`; mh2_eft/EFTFlags.hpp:85-93; `other i` stands for a value outside the enumeration. -/
inductive Limit where
  | general | qu | qg | ug | qug | degenerate | other (i : Int)
deriving DecidableEq, Repr

/-- `static_cast<Limits>(i)` -/
def Limit.ofInt (i : Int) : Limit :=
  if i = 0 then .general else if i = 1 then .qu else if i = 2 then .qg else if i = 3 then .ug else if i = 4 then .qug
  else if i = 5 then .degenerate else .other i
/-- `static_cast<int>(limit)` -/
def Limit.toInt : Limit → Int
  | .general => 0 | .qu => 1 | .qg => 2 | .ug => 3 | .qug => 4 | .degenerate => 5 | .other i => i

/-- `enum class RenSchemes`, the members that the calculators distinguish; mh2_eft/EFTFlags.hpp:22-31 -/
inductive Scheme where
  | H3m | DRBARPRIME | H3mMDRBAR | MDRBARPRIME | TEST
deriving DecidableEq, Repr

/-- data members of `ThresholdCalculator`; ThresholdCalculator.hpp -/
structure TcObj (F : Type) where
  p : Params F
  msq2 : F
  xtOrder : Int

/-- code called by `ThresholdCalculator` that is not expanded here -/
structure ThrFns (F : Type) where
  dilog : F → F
  ytAs2 : TcObj F → Limit → Int → Except String F
  lamAtAs2 : TcObj F → Limit → Int → Except String F
  xtTerms : TcObj F → Limit → Int → Int → Except String F
  other : TcObj F → ThrOrder → Int → Except String F

section
variable {{F : Type}} [Add F] [Sub F] [Mul F] [Div F] [Neg F] [FOps F]

/-- the exception at the end of every function with mass limits; e.g. ThresholdCalculator.cpp:3172 -/
def limitError : String := "Mass limit not included!"

/-- `calcTanBeta`; ThresholdCalculator.cpp:5963-5966, Mh2EFTCalculator.cpp:771-774 -/
def eftTanBeta (p : Params F) : F := p.vu / p.vd
/-- `calcBeta`; ThresholdCalculator.cpp:5958-5961, Mh2EFTCalculator.cpp:766-769 -/
def eftBeta (p : Params F) : F := atan (eftTanBeta p)
/-- `calcV2`; ThresholdCalculator.cpp:5973-5976, Mh2EFTCalculator.cpp:781-784 -/
def eftV2 (p : Params F) : F := pow2 p.vu + pow2 p.vd
/-- `calcV`; ThresholdCalculator.cpp:5968-5971, Mh2EFTCalculator.cpp:776-779 -/
def eftV (p : Params F) : F := sqrt (eftV2 p)
/-- `calcSinBeta`; ThresholdCalculator.cpp:5978-5981, Mh2EFTCalculator.cpp:786-789 -/
def eftSinBeta (p : Params F) : F := p.vu / eftV p
/-- `calcCosBeta`; ThresholdCalculator.cpp:5983-5986, Mh2EFTCalculator.cpp:791-794 -/
def eftCosBeta (p : Params F) : F := p.vd / eftV p
/-- `calcXt`; ThresholdCalculator.cpp:5988-5991 -/
def calcXt (p : Params F) : F := p.Au 2 2 - p.mu / eftTanBeta p

/-- `omitLogs * log(Mst12/MR2) + log(m2/Mst12)`; e.g. ThresholdCalculator.cpp:3109-3115, 3137 -/
def logMR (p : Params F) (omitLogs : Int) (m2 : F) : F :=
  ofInt omitLogs * log (pow2 p.MSt.x0 / pow2 p.scale) + log (m2 / pow2 p.MSt.x0)

/-- `getDeltaG3Alphas`; ThresholdCalculator.cpp:3103-3118 -/
def TcObj.dG3 (c : TcObj F) (omitLogs : Int) : F :=
  1 / 2 - logMR c.p omitLogs (pow2 c.p.MG)
    - (logMR c.p omitLogs (c.p.mq2 2 2) + 10 * logMR c.p omitLogs c.msq2 + logMR c.p omitLogs (c.p.mu2 2 2)) / 12

/-- `getDeltaYtAlphas`; ThresholdCalculator.cpp:3124-3173 -/
def TcObj.dYtAs (c : TcObj F) (limit : Limit) (omitLogs : Int) : Except String F :=
  let m32 := pow2 c.p.MG
  let mU32 := c.p.mu2 2 2
  let mQ32 := c.p.mq2 2 2
  let m3 := sqrt m32
  let mU3 := sqrt mU32
  let mQ3 := sqrt mQ32
  let Xt := calcXt c.p
  let lmQ3MR := logMR c.p omitLogs mQ32
  let limit := if limit = .degenerate then .qug else limit
  match limit with
  | .general => .ok (Thr.dYtAsGen m32 mQ32 mU32 m3 mQ3 mU3 Xt lmQ3MR)
  | .qu => .ok (Thr.dYtAsQU m32 mQ32 mU32 m3 mQ3 mU3 Xt lmQ3MR)
  | .qg => .ok (Thr.dYtAsQG m32 mQ32 mU32 m3 mQ3 mU3 Xt lmQ3MR)
  | .ug => .ok (Thr.dYtAsUG m32 mQ32 mU32 m3 mQ3 mU3 Xt lmQ3MR)
  | .qug => .ok (Thr.dYtAsQUG m32 mQ32 mU32 m3 mQ3 mU3 Xt lmQ3MR)
  | _ => .error limitError

/-- `getDeltaLambdaAlphat`; ThresholdCalculator.cpp:3637-3666 -/
def TcObj.dLamAt (c : TcObj F) (limit : Limit) (omitLogs : Int) : Except String F :=
  let mU32 := c.p.mu2 2 2
  let mQ32 := c.p.mq2 2 2
  let Xt := calcXt c.p
  let lmQ3MR := logMR c.p omitLogs mQ32
  let limit := if limit = .degenerate then .qug else limit
  let limit := if limit = .qg ∨ limit = .ug then .general else limit
  let limit := if limit = .qug then .qu else limit
  match limit with
  | .general => .ok (Thr.dLamAtGen (pow2 c.p.MG) mQ32 mU32 (sqrt (pow2 c.p.MG)) (sqrt mQ32) (sqrt mU32) Xt lmQ3MR)
  | .qu => .ok (Thr.dLamAtQU (pow2 c.p.MG) mQ32 mU32 (sqrt (pow2 c.p.MG)) (sqrt mQ32) (sqrt mU32) Xt lmQ3MR)
  | _ => .error limitError

/-- `getDeltaLambdaAlphatAlphas`; ThresholdCalculator.cpp:3674-3818 -/
def TcObj.dLamAtAs (T : ThrFns F) (c : TcObj F) (limit : Limit) (omitLogs : Int) : Except String F :=
  let m32 := pow2 c.p.MG
  let mU32 := c.p.mu2 2 2
  let mQ32 := c.p.mq2 2 2
  let m3 := sqrt m32
  let mU3 := sqrt mU32
  let mQ3 := sqrt mQ32
  let Xt := calcXt c.p
  let lmQ3MR := logMR c.p omitLogs mQ32
  let limit := if limit = .degenerate then .qug else limit
  match limit with
  | .general => .ok (Thr.dLamAtAsGen T.dilog m32 mQ32 mU32 m3 mQ3 mU3 Xt lmQ3MR)
  | .qu => .ok (Thr.dLamAtAsQU T.dilog m32 mQ32 mU32 m3 mQ3 mU3 Xt lmQ3MR)
  | .qg => .ok (Thr.dLamAtAsQG T.dilog m32 mQ32 mU32 m3 mQ3 mU3 Xt lmQ3MR)
  | .ug => .ok (Thr.dLamAtAsUG T.dilog m32 mQ32 mU32 m3 mQ3 mU3 Xt lmQ3MR)
  | .qug => .ok (Thr.dLamAtAsQUG T.dilog m32 mQ32 mU32 m3 mQ3 mU3 Xt lmQ3MR)
  | _ => .error limitError

/-- `static_cast<Limits>(p.massLimit3LThreshold)`; ThresholdCalculator.cpp:210, `getLimit` :5949-5952 -/
def TcObj.limit (c : TcObj F) : Limit := Limit.ofInt c.p.massLimit3LThreshold

/-- `getThresholdCorrection`; ThresholdCalculator.cpp:206-416 (the message for other schemes is not modelled) -/
def TcObj.thr (T : ThrFns F) (c : TcObj F) (o : ThrOrder) (s : Scheme) (omitLogs : Int) : Except String F :=
  match o with
  | .G3_AS => .ok (if s = .DRBARPRIME then -c.dG3 omitLogs else c.dG3 omitLogs)
  | .YT_AS => do
    let t ← c.dYtAs c.limit omitLogs
    if s = .DRBARPRIME then return -t else return t
  | .YT_AS2 => do
    let t ← T.ytAs2 c c.limit omitLogs
    if s = .DRBARPRIME then
      let dytas ← c.dYtAs c.limit omitLogs
      return 2 * c.dG3 omitLogs * dytas + pow2 dytas - t
    else return t
  | .LAMBDA_AT => c.dLamAt c.limit omitLogs
  | .LAMBDA_AT_AS => do
    let t ← c.dLamAtAs T c.limit omitLogs
    if s = .DRBARPRIME then
      let l ← c.dLamAt c.limit omitLogs
      let y ← c.dYtAs c.limit omitLogs
      return t - 4 * l * y
    else return t
  | .LAMBDA_AT_AS2 => do
    let t ← T.lamAtAs2 c c.limit omitLogs
    if s = .DRBARPRIME then
      let dg3as := c.dG3 omitLogs
      let dytas ← c.dYtAs c.limit omitLogs
      let l2 ← c.dLamAtAs T c.limit omitLogs
      let l1 ← c.dLamAt c.limit omitLogs
      let y2 ← T.ytAs2 c c.limit omitLogs
      return t + (l2 * (-2 * dg3as - 4 * dytas) + l1 * (8 * dg3as * dytas + 10 * pow2 dytas - 4 * y2))
    else return t
  | o => T.other c o omitLogs

/-- `getDRbarPrimeToMSbarShift`; ThresholdCalculator.cpp:4328-4351 -/
def TcObj.shift (T : ThrFns F) (c : TcObj F) (xtOrder omitLogs omitXtLogs : Int) : Except String F := do
  let xt ← (if xtOrder ≤ 3 then do
      let x4 ← T.xtTerms c c.limit 4 omitXtLogs
      let x5 ← T.xtTerms c c.limit 5 omitXtLogs
      let x6 ← T.xtTerms c c.limit 6 omitXtLogs
      return x4 + x5 + x6
    else do
      let x5 ← T.xtTerms c c.limit 5 omitXtLogs
      let x6 ← T.xtTerms c c.limit 6 omitXtLogs
      return x5 + x6 : Except String F)
  let g3as := c.dG3 omitLogs
  let ytas ← c.dYtAs c.limit omitLogs
  let ytas2 ← T.ytAs2 c c.limit omitLogs
  let lambdaat ← c.dLamAt c.limit omitLogs
  let lambdaatas ← c.dLamAtAs T c.limit omitLogs
  return -(-2 * (lambdaat * (3 * pow2 ytas + 2 * ytas2) + (lambdaatas - 4 * ytas * lambdaat) * (g3as + 2 * ytas)) - xt)

/-- `setLimit`; ThresholdCalculator.cpp:5940-5943 -/
def TcObj.setLimit (c : TcObj F) (l : Limit) : TcObj F :=
  {{ c with
    p := {{ c.p with massLimit3LThreshold := l.toInt }} }}
/-- `setXtOrderOfDeltaLambdaAtAs2`; ThresholdCalculator.cpp:5954-5957 -/
def TcObj.setXtOrder (c : TcObj F) (x : Int) : TcObj F := {{ c with xtOrder := x }}

/-- `isGeneralStable`; ThresholdCalculator.cpp:91-101 -/
def isGeneralStable (exact shifted limit : F) : Bool :=
  if !isFinite exact || !isFinite shifted || (lt 1 (abs exact) && lt 1 (abs shifted)) then false
  else lt (abs (shifted - limit)) (abs (exact - limit))

/-- the object while `tmp_set_mU32`, `tmp_set_m3` (and `tmp_set_msq2`) are alive; ThresholdCalculator.cpp:151-159, 166-167.
The destructors restore the three members at the end of the block (`Verif.Raii`), so that only the assignment to
`massLimit3LThreshold` survives. -/
def TcObj.shifted (c : TcObj F) (mU32 m3 msq2 : F) : TcObj F :=
  {{ c with
    p := {{ c.p with mu2 := c.p.mu2.set22 mU32, MG := m3 }}, msq2 := msq2 }}

/-- the block `lim`, `exact`, `exactShifted`, `isGeneralStable`; e.g. ThresholdCalculator.cpp:155-163 -/
def TcObj.tryLimit (T : ThrFns F) (c : TcObj F) (pref : F) (l : Limit) (sh : TcObj F) : Except String (TcObj F) := do
  let lim ← T.ytAs2 c l 1
  let exact ← T.ytAs2 c .general 1
  let exactShifted ← T.ytAs2 sh .general 1
  if isGeneralStable (pref * exact) (pref * exactShifted) (pref * lim) then return c else return c.setLimit l

/-- body of the constructor after `validate`; ThresholdCalculator.cpp:139-197 -/
def TcObj.selectLimit (T : ThrFns F) (c : TcObj F) : Except String (TcObj F) :=
  let mQ3 := sqrt (c.p.mq2 2 2)
  let mU3 := sqrt (c.p.mu2 2 2)
  let m3 := c.p.MG
  let eps := mQ3 * lit (1 / 100)
  let eps2 := mU3 * lit (1 / 100)
  let v := eftV c.p
  let pref := const .twoLoop * const .sqrt2 * c.p.Mt * Misc.pow4 c.p.g3 / v
  let smU32 := pow2 (mQ3 + abs (mU3 - mQ3) / 2)
  let smsq2 := pow2 (mQ3 + abs (sqrt c.msq2 - mQ3) / 2)
  let sm3 := mQ3 + abs (m3 - mQ3) / 2
  if lt (abs (mQ3 - mU3)) eps && lt (abs (mU3 - m3)) eps && lt (abs (m3 - sqrt c.msq2)) eps then
    c.tryLimit T pref .degenerate (c.shifted smU32 sm3 smsq2)
  else if lt (abs (mQ3 - mU3)) eps && lt (abs (mU3 - m3)) eps then
    c.tryLimit T pref .qug (c.shifted smU32 sm3 c.msq2)
  else if lt (abs (mQ3 - mU3)) eps then c.tryLimit T pref .qu (c.shifted smU32 sm3 c.msq2)
  else if lt (abs (mQ3 - m3)) eps then c.tryLimit T pref .qg (c.shifted smU32 sm3 c.msq2)
  else if lt (abs (mU3 - m3)) eps2 then c.tryLimit T pref .ug (c.shifted smU32 sm3 c.msq2)
  else .ok c

/-- `ThresholdCalculator(p_, verbose, check)`; ThresholdCalculator.cpp:132-198: `msq2` is initialised before `validate` runs. -/
def thresholdCalculator (X : Ext F) (T : ThrFns F) (p : Params F) (check : Bool) : Except String (TcObj F) :=
  match validate X p with
  | (.error e, _) => .error e
  | (.ok _, q) =>
    let c : TcObj F := {{ p := q, msq2 := calculateMsq2 p, xtOrder := 6 }}
    if check then .ok c else c.selectLimit T

/-! ### `Mh2EFTCalculator` -/

/-- data members of `Mh2EFTCalculator`; Mh2EFTCalculator.hpp -/
structure EftCalc (F : Type) where
  p : Params F
  orders : Flags

/-- `orders.at(o)` used as a condition -/
def EftCalc.on (c : EftCalc F) (o : Order) : Bool := c.orders o != 0

/-- `CALC_IF(cond, expr)` with an expression that may throw; Mh2EFTCalculator.cpp:24 -/
def calcIf (b : Bool) (e : Except String F) : Except String F := if b then e else .ok 0
/-- `CALC_IF(cond, expr)`; Mh2EFTCalculator.cpp:24 -/
def zeroIf (b : Bool) (x : F) : F := if b then x else 0
/-- `discardNaN`; Mh2EFTCalculator.cpp:31-39 -/
def discardNaN (x : F) : F := if isNaN x then 0 else x

/-- `eps` of the constructor; Mh2EFTCalculator.cpp:63 -/
def eftEps : F := lit (1 / 10 ^ 10)

/-- orders switched off at the end of the constructor; Mh2EFTCalculator.cpp:113-134 -/
def eftDisabled : List Order :=
  [.G14, .G24, .G12G22, .G12YT2, .G22YT2, .G12YB2, .G22YB2, .G12YTAU2, .G22YTAU2, .YB4, .YTAU4,
   .G32YB4, .YB6, .YTAU2YB4, .YT2YB4, .YB2YT4, .YTAU4YB2, .YTAU6]

/-- assignments to `orders` in the constructor; Mh2EFTCalculator.cpp:60-134 -/
def eftOrders (p : Params F) : Flags :=
  let o : Flags := fun _ => 1
  let o := if lt (abs p.g1) eftEps then o.off [.G12G22, .G12YB2, .G14, .G12YB2, .G12YTAU2, .G12YT2] else o
  let o := if lt (abs p.g2) eftEps then o.off [.G24, .G22YB2, .G22YTAU2, .G22YT2] else o
  let o := if lt (abs p.Mt) eftEps then o.off [.G12YT2, .G22YT2, .YT4, .G32YT4, .YT6, .YTAU2YT4, .YT2YB4, .YB2YT4] else o
  let o := if lt (abs p.Mb) eftEps then
      o.off [.G12YB2, .G22YB2, .YB4, .G32YB4, .YB6, .YTAU2YB4, .YT2YB4, .YB2YT4, .YTAU4YB2, .YT6] else o
  let o := if lt (abs p.Mtau) eftEps then
      ((o.put .G12YTAU2 1).put .G22YTAU2 1).off [.YTAU4, .YTAU2YB4, .YTAU2YT4, .YTAU6, .YTAU4YB2] else o
  o.off eftDisabled

/-- `Mh2EFTCalculator(p_, verbose)`; Mh2EFTCalculator.cpp:54-135 -/
def mh2EftCalculator (X : Ext F) (p : Params F) : Except String (EftCalc F) :=
  match validate X p with
  | (.error e, _) => .error e
  | (.ok _, q) => .ok {{ p := q, orders := eftOrders q }}

/-- `setCorrectionFlag`; Mh2EFTCalculator.cpp:137-143 (the message for other values is not modelled) -/
def EftCalc.setFlag (c : EftCalc F) (o : Order) (flag : Int) : EftCalc F := {{ c with orders := c.orders.put o flag }}

/-- `disable_non_as_terms`; HierarchyCalculator.cpp:60-82 -/
def disableNonAs (c : EftCalc F) : EftCalc F :=
  {{ c with
    orders := c.orders.off [.G12G22, .G12YB2, .G14, .G24, .G12YB2, .G22YB2, .YB4, .G12YTAU2, .G22YTAU2, .YTAU4, .G12YT2,
      .G22YT2, .G32YB4, .YB6, .YT6, .YTAU2YB4, .YTAU6, .YT2YB4, .YB2YT4, .YTAU4YB2] }}

/-- `getDeltaMh2EFT0Loop`; Mh2EFTCalculator.cpp:149-152 -/
def EftCalc.loop0 (c : EftCalc F) : F := pow2 (c.p.MZ * cos (2 * eftBeta c.p))

/-- `getDeltaMh2EFT1Loop`; Mh2EFTCalculator.cpp:161-433.  `thr o omitMSSMLogs` is
`thresholdCalculator.getThresholdCorrection(o, RenSchemes::DRBARPRIME, omitMSSMLogs)` and `fB` is `mh2_fo::b0xx`. -/
def EftCalc.loop1 (thr : ThrOrder → Int → Except String F) (fB : F → F → F → F) (c : EftCalc F)
    (omitSMLogs omitMSSMLogs : Int) : Except String F := do
{loops['getDeltaMh2EFT1Loop']}

/-- `getDeltaMh2EFT2Loop`; Mh2EFTCalculator.cpp:441-690 -/
def EftCalc.loop2 (thr : ThrOrder → Int → Except String F) (c : EftCalc F)
    (omitSMLogs omitMSSMLogs : Int) : Except String F := do
{loops['getDeltaMh2EFT2Loop']}

/-- `z3`; misc/Constants.hpp:15 -/
def z3 : F := lit (120205690315959429 / 10 ^ 17)

/-- `getDeltaMh2EFT3Loop`; Mh2EFTCalculator.cpp:700-729 -/
def EftCalc.loop3 (thr : ThrOrder → Int → Except String F) (c : EftCalc F)
    (omitSMLogs omitMSSMLogs omitDeltaLambda3L : Int) : Except String F := do
{loops['getDeltaMh2EFT3Loop']}

/-- `thresholdCalculator` of the EFT calculator; Mh2EFTCalculator.cpp:163, 443, 703 -/
def EftCalc.thr (X : Ext F) (T : ThrFns F) (c : EftCalc F) (o : ThrOrder) (omitLogs : Int) : Except String F := do
  let t ← thresholdCalculator X T c.p false
  t.thr T o .DRBARPRIME omitLogs

/-- `getDeltaLambdaDegenerate`; Mh2EFTCalculator.cpp:741-765 -/
def EftCalc.lambdaDegenerate (c : EftCalc F) (scale mst1 Xt : F) (omitlogs : Int) : F :=
  let LS := ofInt omitlogs * log (pow2 (scale / c.p.MSt.x0)) + log (pow2 (c.p.MSt.x0 / mst1))
  let v2 := eftV2 c.p
  let gt := const .sqrt2 * c.p.Mt / eftV c.p
  let pref := const .threeLoop * pow2 (c.p.Mt * gt * pow2 c.p.g3)
  let xt := Xt / mst1
  let catas2 := lit (2481215180432007/10000000000000)
  2 / 27 * pref * (6082 - 27832 * LS + 14856 * pow2 LS - 4032 * Misc.pow3 LS - 15408 * z3 + 1728 * z3 * LS - 27 * catas2 / 2
    + xt * (7616 * LS - 11712 * pow2 LS + 32 * (-940 + 477 * z3)) + pow2 xt * (28848 - 2640 * LS + 1008 * pow2 LS - 11880 * z3)
    + Misc.pow3 xt * (160 * LS + 864 * pow2 LS + 8 * (2722 - 2259 * z3))) / v2

end

end Himalaya
'''
open('/verif/lean/Verif/EFT/Model.lean','w').write(MODEL)
