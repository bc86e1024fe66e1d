import sys; sys.path.insert(0,'/verif/tools')
import gen_yt6
out,hd=gen_yt6.main()
H='''import Verif.EFT.Other
import Verif.Misc.Model

/-!
# Model of the two-loop threshold correction of order `yt^6`

Mechanical transcription (tools/gen_yt6.py) of `getDeltaLambdaYt6` and `getDeltaLambdaYt6_SUSYHD`, ThresholdCalculator.cpp:1334-1771.
The dilogarithm and `phixyz` are arguments.
-/

set_option linter.unusedVariables false

namespace Himalaya

open FOps
open scoped Himalaya

section
variable {F : Type} [Add F] [Sub F] [Mul F] [Div F] [Neg F] [FOps F]

namespace Yt6

/-- local variables of `getDeltaLambdaYt6`; ThresholdCalculator.cpp:1379-1405 -/
structure Arg (F : Type) where
  mQ32 : F
  mU32 : F
  mQ3 : F
  mU3 : F
  mA : F
  mA2 : F
  Mu : F
  Mu2 : F
  sbeta : F
  cbeta : F
  Xt : F
  Yt : F
  Xt2 : F
  Xt4 : F
  Xt6 : F

/-- `deltaxyz`; ThresholdCalculator.cpp:103-106 and ThresholdLoopFunctions.cpp:1235-1238 -/
def deltaxyz (x y z : F) : F := pow2 x + pow2 y + pow2 z - 2 * (x * y + x * z + y * z)

'''
M='''
end Yt6

/-- `f1HD`; ThresholdCalculator.cpp:34-43 -/
def f1HD (x : F) : F :=
  let x2 := pow2 x
  let den := 1 - x2
  if lt (abs den) (lit (1 / 100000)) then -1 else x2 / den * log x2

/-- `f2HD`; ThresholdCalculator.cpp:46-55 -/
def f2HD (x : F) : F :=
  let x2 := pow2 x
  let den := 1 - x2
  if lt (abs den) (lit (1 / 100000)) then lit (1 / 2) else (1 + x2 / den * log x2) / den

/-- `f3HD`; ThresholdCalculator.cpp:58-77; the real part of the complex logarithm of `den` is `log |den|` -/
def f3HD (dilog : F → F) (x : F) : F :=
  let x2 := pow2 x
  let den := 1 - x2
  if lt (abs den) (lit (1 / 100000)) then -9 / 4 else
  let logx2 := log x2;
  (-1 + x2 * (2 + 2 * x2)) / pow2 den * (logx2 * log (abs den) + dilog x2 - const .z2 - x2 * logx2)

'''
T='''
/-- `getDeltaLambdaYt6`; ThresholdCalculator.cpp:1376-1771 -/
def TcObj.dLamYt6 (dilog : F → F) (phi : F → F → F → F) (c : TcObj F) (omitLogs : Int) : F :=
  let MR2 := pow2 c.p.scale
  let mQ32 := c.p.mq2 2 2
  let mU32 := c.p.mu2 2 2
  let mA := c.p.MA
  let mA2 := pow2 mA
  let Xt := calcXt c.p
  let Xt2 := pow2 Xt
  let lmQ3MR := ofInt omitLogs * log (mQ32 / MR2)
  if Misc.isEqualRel mQ32 mU32 (lit (1 / 10)) && (Misc.isEqualRel mQ32 mA2 (lit (1 / 10)) || Misc.isEqualRel mU32 mA2 (lit (1 / 10)))
  then c.dLamYt6HD dilog omitLogs
  else
    let mQ32 := c.p.mq2 2 2 * lit (102 / 100)
    let mU32 := c.p.mu2 2 2 * lit (98 / 100)
    let Mu := c.p.mu * sqrt (lit (103 / 100))
    let Mu2 := pow2 Mu
    let lmUMR := ofInt omitLogs * log (Mu2 / MR2)
    Yt6.formula dilog phi
      { mQ32 := mQ32, mU32 := mU32, mQ3 := sqrt mQ32, mU3 := sqrt mU32, mA := mA, mA2 := mA2, Mu := Mu, Mu2 := Mu2,
        sbeta := eftSinBeta c.p, cbeta := eftCosBeta c.p, Xt := Xt, Yt := calcYt c.p, Xt2 := Xt2, Xt4 := pow2 Xt2,
        Xt6 := Misc.pow3 Xt2 }
      (log (mA2 / MR2)) lmQ3MR lmUMR (log (mU32 / mQ32))

/-- `getThresholdCorrection` for `LAMBDA_YT6`; ThresholdCalculator.cpp:294-411.  `rest` stands for the other two-loop corrections of
the Yukawa couplings. -/
def yt6Fns (dilog : F → F) (phi : F → F → F → F) (rest : TcObj F → ThrOrder → Int → Except String F) (c : TcObj F) (o : ThrOrder)
    (n : Int) : Except String F :=
  match o with
  | .LAMBDA_YT6 => .ok (c.dLamYt6 dilog phi n)
  | o => rest c o n

/-- all threshold corrections but those in `rest` -/
def thrFns3 (dilog : F → F) (phi : F → F → F → F) (rest : TcObj F → ThrOrder → Int → Except String F) : ThrFns F :=
  thrFns2 dilog (yt6Fns dilog phi rest)

end

end Himalaya
'''
open('/verif/lean/Verif/EFT/Yt6.lean','w').write(H+'\n'.join(out)+M+hd+T)
