import Verif.EFT.Model
import Verif.EFT.Formulas2

/-!
# Model of the threshold corrections of O(at as^2)
-/

namespace Himalaya

open FOps
open scoped Himalaya

section
variable {F : Type} [Add F] [Sub F] [Mul F] [Div F] [Neg F] [FOps F]

/-- `getDeltaYtAlphas2`; ThresholdCalculator.cpp:3181-3628.  (`DEGENERATE` is a case of its own here.) -/
def TcObj.dYtAs2 (dilog : F → F) (c : TcObj F) (limit : Limit) (omitLogs : Int) : Except String F :=
  let m32 := pow2 c.p.MG
  let mU32 := c.p.mu2 2 2
  let mQ32 := c.p.mq2 2 2
  let m3 := sqrt m32
  let mU3 := sqrt mU32
  let mQ3 := sqrt mQ32
  let msq2 := c.msq2
  let msq := sqrt msq2
  let Xt := calcXt c.p
  let lmQ3MR := logMR c.p omitLogs mQ32
  match limit with
  | .general => .ok (Thr.dYtAs2Gen dilog m32 mQ32 mU32 msq2 m3 mQ3 mU3 msq Xt lmQ3MR)
  | .qu => .ok (Thr.dYtAs2QU dilog m32 mQ32 mU32 msq2 m3 mQ3 mU3 msq Xt lmQ3MR)
  | .qg => .ok (Thr.dYtAs2QG dilog m32 mQ32 mU32 msq2 m3 mQ3 mU3 msq Xt lmQ3MR)
  | .ug => .ok (Thr.dYtAs2UG dilog m32 mQ32 mU32 msq2 m3 mQ3 mU3 msq Xt lmQ3MR)
  | .qug => .ok (Thr.dYtAs2QUG dilog m32 mQ32 mU32 msq2 m3 mQ3 mU3 msq Xt lmQ3MR)
  | .degenerate => .ok (Thr.dYtAs2Deg dilog m32 mQ32 mU32 msq2 m3 mQ3 mU3 msq Xt lmQ3MR)
  | .other _ => .error limitError

/-- `getDRbarPrimeToMSbarXtTerms`; ThresholdCalculator.cpp:4358-5932 -/
def TcObj.dXtTerms (dilog : F → F) (c : TcObj F) (limit : Limit) (xtOrder omitLogs : Int) : Except String F :=
  let m32 := pow2 c.p.MG
  let mU32 := c.p.mu2 2 2
  let mQ32 := c.p.mq2 2 2
  let m3 := sqrt m32
  let mU3 := sqrt mU32
  let mQ3 := sqrt mQ32
  let msq2 := c.msq2
  let msq := sqrt msq2
  let Xt := calcXt c.p
  let Xt4 := if xtOrder ≠ 4 then 0 else Misc.pow4 Xt
  let Xt5 := if xtOrder ≠ 5 then 0 else Misc.pow5 Xt
  let Xt6 := if xtOrder ≠ 6 then 0 else Misc.pow6 Xt
  let lmQ3MR := logMR c.p omitLogs mQ32
  match limit with
  | .general => .ok (Thr.xtTermsGen dilog m32 mQ32 mU32 msq2 m3 mQ3 mU3 msq lmQ3MR Xt4 Xt5 Xt6)
  | .qu => .ok (Thr.xtTermsQU dilog m32 mQ32 mU32 msq2 m3 mQ3 mU3 msq lmQ3MR Xt4 Xt5 Xt6)
  | .qg => .ok (Thr.xtTermsQG dilog m32 mQ32 mU32 msq2 m3 mQ3 mU3 msq lmQ3MR Xt4 Xt5 Xt6)
  | .ug => .ok (Thr.xtTermsUG dilog m32 mQ32 mU32 msq2 m3 mQ3 mU3 msq lmQ3MR Xt4 Xt5 Xt6)
  | .qug => .ok (Thr.xtTermsQUG dilog m32 mQ32 mU32 msq2 m3 mQ3 mU3 msq lmQ3MR Xt4 Xt5 Xt6)
  | .degenerate => .ok (Thr.xtTermsDeg dilog m32 mQ32 mU32 msq2 m3 mQ3 mU3 msq lmQ3MR Xt4 Xt5 Xt6)
  | .other _ => .error limitError

/-- the decimal constant `z3`; ThresholdCalculator.cpp:3862 -/
def z3Lit : F := lit (1202056903159594 / 1000000000000000)

/-- `getDeltaLambdaAlphatAlphas2`; ThresholdCalculator.cpp:3847-4320 -/
def TcObj.dLamAtAs2 (dilog : F → F) (c : TcObj F) (limit : Limit) (omitLogs : Int) : Except String F :=
  let m32 := pow2 c.p.MG
  let mU32 := c.p.mu2 2 2
  let mQ32 := c.p.mq2 2 2
  let m3 := sqrt m32
  let mU3 := sqrt mU32
  let mQ3 := sqrt mQ32
  let msq2 := c.msq2
  let Xt := calcXt c.p
  let lmQ3MR := logMR c.p omitLogs mQ32
  let dlatas2Const := 0
  let z3 := z3Lit
  let Xt4 := if c.xtOrder < 4 then 0 else Misc.pow4 Xt
  let Xt5 := if c.xtOrder < 5 then 0 else Misc.pow5 Xt
  let limit := if limit = .degenerate then .qug else limit
  match limit with
  | .general => .ok (Thr.dLamAtAs2Gen dilog m32 mQ32 mU32 msq2 m3 mQ3 mU3 Xt lmQ3MR z3 dlatas2Const Xt4 Xt5)
  | .qu => .ok (Thr.dLamAtAs2QU dilog m32 mQ32 mU32 msq2 m3 mQ3 mU3 Xt lmQ3MR z3 dlatas2Const Xt4 Xt5)
  | .qg => .ok (Thr.dLamAtAs2QG dilog m32 mQ32 mU32 msq2 m3 mQ3 mU3 Xt lmQ3MR z3 dlatas2Const Xt4 Xt5)
  | .ug => .ok (Thr.dLamAtAs2UG dilog m32 mQ32 mU32 msq2 m3 mQ3 mU3 Xt lmQ3MR z3 dlatas2Const Xt4 Xt5)
  | .qug => .ok (Thr.dLamAtAs2QUG dilog m32 mQ32 mU32 msq2 m3 mQ3 mU3 Xt lmQ3MR z3 dlatas2Const Xt4 Xt5)
  | _ => .error limitError

/-- the corrections of O(at as^2), expanded; the corrections without mass limits (`other`) remain a parameter -/
def thrFns (dilog : F → F) (other : TcObj F → ThrOrder → Int → Except String F) : ThrFns F where
  dilog := dilog
  ytAs2 c l n := c.dYtAs2 dilog l n
  lamAtAs2 c l n := c.dLamAtAs2 dilog l n
  xtTerms c l k n := c.dXtTerms dilog l k n
  other := other

end

end Himalaya
