import Verif.EFT.Model2
import Verif.TLF.Model

/-!
# Model of the threshold corrections without dedicated mass limits

Mechanical transcription (tools/gen_other.py) of ThresholdCalculator.cpp:418-910; local variables keep their names.  The functions
without the argument `omitLogs` in the code ignore the argument here.
-/

set_option linter.unusedVariables false

namespace Himalaya

open FOps
open scoped Himalaya

section
variable {F : Type} [Add F] [Sub F] [Mul F] [Div F] [Neg F] [FOps F]

/-- `calcXb`; ThresholdCalculator.cpp:5993-5996 -/
def calcXb (p : Params F) : F := p.Ad 2 2 - p.mu * eftTanBeta p
/-- `calcXtau`; ThresholdCalculator.cpp:5998-6001 -/
def calcXtau (p : Params F) : F := p.Ae 2 2 - p.mu * eftTanBeta p
/-- `calcYt`; ThresholdCalculator.cpp:6003-6006 -/
def calcYt (p : Params F) : F := p.Au 2 2 + p.mu * eftTanBeta p
/-- `calcYb`; ThresholdCalculator.cpp:6008-6011 -/
def calcYb (p : Params F) : F := p.Ad 2 2 + p.mu / eftTanBeta p
/-- `calcYtau`; ThresholdCalculator.cpp:6013-6016 -/
def calcYtau (p : Params F) : F := p.Ae 2 2 + p.mu / eftTanBeta p

/-- `getDeltaLambdaYb2G12`; mh2_eft/ThresholdCalculator.cpp:418-432 -/
def TcObj.dLamYb2G12 (c : TcObj F) (omitLogs : Int) : F :=
  let MR2 := pow2 c.p.scale
  let mQ32 := (c.p.mq2 2 2)
  let mD32 := (c.p.md2 2 2)
  let mQ3 := sqrt mQ32
  let mD3 := sqrt mD32
  let Xb2 := pow2 ((calcXb c.p))
  let c2beta := cos (2 * (eftBeta c.p))
  let lmD3MR := (ofInt omitLogs) * log (mD32 / MR2)
  let lmQ3MR := (ofInt omitLogs) * log (mQ32 / MR2)
  (-3) * c2beta * (Xb2 * (3 * (TLF.F3 (mQ3 / mD3) + TLF.F4 (mQ3 / mD3)) + 2 * c2beta * TLF.F5 (mQ3 / mD3)) + 4 * mD3 * mQ3 *
    (2 * lmD3MR + lmQ3MR)) / (20 * mD3 * mQ3)

/-- `getDeltaLambdaG14`; mh2_eft/ThresholdCalculator.cpp:434-463 -/
def TcObj.dLamG14 (c : TcObj F) (omitLogs : Int) : F :=
  let MR2 := pow2 c.p.scale
  let beta := (eftBeta c.p)
  let c2beta := cos (2 * beta)
  let c4beta := cos (4 * beta)
  let c8beta := cos (8 * beta)
  let s4beta2 := pow2 (sin (4 * beta))
  let lmAMR := (ofInt omitLogs) * log (pow2 c.p.MA / MR2)
  let lmD1MR := (ofInt omitLogs) * log ((c.p.md2 0 0) / MR2)
  let lmD2MR := (ofInt omitLogs) * log ((c.p.md2 1 1) / MR2)
  let lmD3MR := (ofInt omitLogs) * log ((c.p.md2 2 2) / MR2)
  let lmE1MR := (ofInt omitLogs) * log ((c.p.me2 0 0) / MR2)
  let lmE2MR := (ofInt omitLogs) * log ((c.p.me2 1 1) / MR2)
  let lmE3MR := (ofInt omitLogs) * log ((c.p.me2 2 2) / MR2)
  let lmL1MR := (ofInt omitLogs) * log ((c.p.ml2 0 0) / MR2)
  let lmL2MR := (ofInt omitLogs) * log ((c.p.ml2 1 1) / MR2)
  let lmL3MR := (ofInt omitLogs) * log ((c.p.ml2 2 2) / MR2)
  let lmQ1MR := (ofInt omitLogs) * log ((c.p.mq2 0 0) / MR2)
  let lmQ2MR := (ofInt omitLogs) * log ((c.p.mq2 1 1) / MR2)
  let lmQ3MR := (ofInt omitLogs) * log ((c.p.mq2 2 2) / MR2)
  let lmU1MR := (ofInt omitLogs) * log ((c.p.mu2 0 0) / MR2)
  let lmU2MR := (ofInt omitLogs) * log ((c.p.mu2 1 1) / MR2)
  let lmU3MR := (ofInt omitLogs) * log ((c.p.mu2 2 2) / MR2)
  ((-108) * s4beta2 - 3 * (-29 + 4 * c4beta + 9 * c8beta) * lmAMR + 16 * pow2 c2beta * (2 * (lmD1MR + lmD2MR + lmD3MR + 3 *
    (lmE1MR + lmE2MR + lmE3MR)) + 3 * (lmL1MR + lmL2MR + lmL3MR) + lmQ1MR + lmQ2MR + lmQ3MR + 8 * (lmU1MR + lmU2MR +
    lmU3MR))) / 800

/-- `getDeltaLambdaRegG14`; mh2_eft/ThresholdCalculator.cpp:465-468 -/
def TcObj.dLamRegG14 (c : TcObj F) (omitLogs : Int) : F :=
  (-9) / 50

/-- `getDeltaLambdaChiG14`; mh2_eft/ThresholdCalculator.cpp:470-482 -/
def TcObj.dLamChiG14 (c : TcObj F) (omitLogs : Int) : F :=
  let MR2 := pow2 c.p.scale
  let beta := (eftBeta c.p)
  let c4be := cos (4 * beta)
  let s2be := sin (2 * beta)
  let s6be := sin (6 * beta)
  let lmUMR := (ofInt omitLogs) * log (pow2 c.p.mu / MR2)
  (-3) * (22 * lmUMR - 2 * c4be * lmUMR + 7 * (3 + c4be) * TLF.f1 (c.p.M1 / c.p.mu) - 9 * (-1 + c4be) * TLF.f3 (c.p.M1 /
    c.p.mu) + 31 * s2be * TLF.F5 (c.p.M1 / c.p.mu) - 2 * TLF.F7 (c.p.M1 / c.p.mu) - 2 * c4be * TLF.F7 (c.p.M1 / c.p.mu) -
    TLF.F5 (c.p.M1 / c.p.mu) * s6be) / 200

/-- `getDeltaLambdaChiG24`; mh2_eft/ThresholdCalculator.cpp:484-498 -/
def TcObj.dLamChiG24 (c : TcObj F) (omitLogs : Int) : F :=
  let MR2 := pow2 c.p.scale
  let beta := (eftBeta c.p)
  let c4beta := cos (4 * beta)
  let s2beta := sin (2 * beta)
  let s6beta := sin (6 * beta)
  let lm2MR := (ofInt omitLogs) * log (pow2 c.p.M2 / MR2)
  let lmUMR := (ofInt omitLogs) * log (pow2 c.p.mu / MR2)
  ((-82) * lmUMR - 10 * c4beta * lmUMR - 27 * (3 + c4beta) * TLF.f2 (c.p.M2 / c.p.mu) - 93 * s2beta * TLF.F5 (c.p.M2 /
    c.p.mu) + 6 * TLF.F7 (c.p.M2 / c.p.mu) + 6 * c4beta * TLF.F7 (c.p.M2 / c.p.mu) - 8 * lm2MR - 8 * c4beta * lm2MR - 42 *
    TLF.f4 (c.p.M2 / c.p.mu) * pow2 s2beta + 3 * TLF.F5 (c.p.M2 / c.p.mu) * s6beta) / 24

/-- `getDeltaLambdaG24`; mh2_eft/ThresholdCalculator.cpp:500-518 -/
def TcObj.dLamG24 (c : TcObj F) (omitLogs : Int) : F :=
  let MR2 := pow2 c.p.scale
  let beta := (eftBeta c.p)
  let c2beta := cos (2 * beta)
  let c4beta := cos (4 * beta)
  let c8beta := cos (8 * beta)
  let s4beta := sin (4 * beta)
  let lmAMR := (ofInt omitLogs) * log (pow2 c.p.MA / MR2)
  let lmL1MR := (ofInt omitLogs) * log ((c.p.ml2 0 0) / MR2)
  let lmL2MR := (ofInt omitLogs) * log ((c.p.ml2 1 1) / MR2)
  let lmL3MR := (ofInt omitLogs) * log ((c.p.ml2 2 2) / MR2)
  let lmQ1MR := (ofInt omitLogs) * log ((c.p.mq2 0 0) / MR2)
  let lmQ2MR := (ofInt omitLogs) * log ((c.p.mq2 1 1) / MR2)
  let lmQ3MR := (ofInt omitLogs) * log ((c.p.mq2 2 2) / MR2)
  ((-36) * pow2 s4beta + (53 - 28 * c4beta - 9 * c8beta) * lmAMR + 16 * pow2 c2beta * (lmL1MR + lmL2MR + lmL3MR + 3 *
    (lmQ1MR + lmQ2MR + lmQ3MR))) / 96

/-- `getDeltaLambdaRegG24`; mh2_eft/ThresholdCalculator.cpp:520-526 -/
def TcObj.dLamRegG24 (c : TcObj F) (omitLogs : Int) : F :=
  let beta := (eftBeta c.p)
  let c2beta := cos (2 * beta)
  (-9 + 2 * pow2 c2beta) / 6

/-- `getDeltaLambdaG12G22`; mh2_eft/ThresholdCalculator.cpp:528-538 -/
def TcObj.dLamG12G22 (c : TcObj F) (omitLogs : Int) : F :=
  let MR2 := pow2 c.p.scale
  let beta := (eftBeta c.p)
  let c4beta := cos (4 * beta)
  let c8beta := cos (8 * beta)
  let s4beta := sin (4 * beta)
  let lmAMR := (ofInt omitLogs) * log (pow2 c.p.MA / MR2)
  (-3) * (12 * pow2 s4beta + (-7 + 4 * c4beta + 3 * c8beta) * lmAMR) / 80

/-- `getDeltaLambdaRegG12G22`; mh2_eft/ThresholdCalculator.cpp:540-543 -/
def TcObj.dLamRegG12G22 (c : TcObj F) (omitLogs : Int) : F :=
  (-3) / 5

/-- `getDeltaLambdaChiG12G22`; mh2_eft/ThresholdCalculator.cpp:545-562 -/
def TcObj.dLamChiG12G22 (c : TcObj F) (omitLogs : Int) : F :=
  let MR2 := pow2 c.p.scale
  let beta := (eftBeta c.p)
  let c2beta := cos (2 * beta)
  let c4beta := cos (4 * beta)
  let s2beta := sin (2 * beta)
  let s6beta := sin (6 * beta)
  let m1mu := c.p.M1 / c.p.mu
  let m2mu := c.p.M2 / c.p.mu
  let lmUMR := (ofInt omitLogs) * log (pow2 c.p.mu / MR2)
  ((-24) * lmUMR + 24 * c4beta * lmUMR + 3 * s2beta * TLF.F5 m2mu - 42 * TLF.f6 m1mu m2mu - 14 * c4beta * TLF.f6 m1mu m2mu +
    6 * TLF.F7 m2mu + 6 * c4beta * TLF.F7 m2mu - 64 * s2beta * TLF.f8 m1mu m2mu + 4 * TLF.F7 m1mu * pow2 c2beta - 32 *
    TLF.f5 m1mu m2mu * pow2 s2beta - 4 * TLF.f7 m1mu m2mu * pow2 s2beta + 3 * TLF.F5 m2mu * s6beta + TLF.F5 m1mu * (s2beta +
    s6beta)) / 40

/-- `getDeltaLambdaYb2G22`; mh2_eft/ThresholdCalculator.cpp:564-578 -/
def TcObj.dLamYb2G22 (c : TcObj F) (omitLogs : Int) : F :=
  let MR2 := pow2 c.p.scale
  let Xb2 := pow2 ((calcXb c.p))
  let mQ32 := (c.p.mq2 2 2)
  let mD32 := (c.p.md2 2 2)
  let mQ3 := sqrt mQ32
  let mD3 := sqrt mD32
  let beta := (eftBeta c.p)
  let c2beta := cos (2 * beta)
  let lmQ3MR := (ofInt omitLogs) * log (mQ32 / MR2)
  (-(c2beta * Xb2 * (3 * TLF.F4 (mQ3 / mD3) + c2beta * TLF.F5 (mQ3 / mD3)))) / (2 * mD3 * mQ3) - 3 * c2beta * lmQ3MR

/-- `getDeltaLambdaYb4`; mh2_eft/ThresholdCalculator.cpp:580-593 -/
def TcObj.dLamYb4 (c : TcObj F) (omitLogs : Int) : F :=
  let MR2 := pow2 c.p.scale
  let Xb2 := pow2 ((calcXb c.p))
  let mQ32 := (c.p.mq2 2 2)
  let mD32 := (c.p.md2 2 2)
  let mQ3 := sqrt mQ32
  let mD3 := sqrt mD32
  let lmQ3MR := (ofInt omitLogs) * log (mQ32 / MR2)
  let lmD3MR := (ofInt omitLogs) * log (mD32 / MR2)
  (12 * mD3 * mQ3 * Xb2 * TLF.F1 (mQ3 / mD3) - pow2 Xb2 * TLF.F2 (mQ3 / mD3)) / (mD32 * mQ32) + 6 * (lmD3MR + lmQ3MR)

/-- `getDeltaLambdaYt2G12`; mh2_eft/ThresholdCalculator.cpp:595-610 -/
def TcObj.dLamYt2G12 (c : TcObj F) (omitLogs : Int) : F :=
  let MR2 := pow2 c.p.scale
  let Xt2 := pow2 ((calcXt c.p))
  let mQ32 := (c.p.mq2 2 2)
  let mU32 := (c.p.mu2 2 2)
  let mQ3 := sqrt mQ32
  let mU3 := sqrt mU32
  let beta := (eftBeta c.p)
  let c2beta := cos (2 * beta)
  let lmQ3MR := (ofInt omitLogs) * log (mQ32 / MR2)
  let lmU3MR := (ofInt omitLogs) * log (mU32 / MR2)
  (-3) * c2beta * ((-3) * Xt2 * TLF.F3 (mQ3 / mU3) + c2beta * Xt2 * TLF.F5 (mQ3 / mU3) + 2 * mQ3 * mU3 * (lmQ3MR - 4 *
    lmU3MR)) / (10 * mQ3 * mU3)

/-- `getDeltaLambdaYt2G22`; mh2_eft/ThresholdCalculator.cpp:612-626 -/
def TcObj.dLamYt2G22 (c : TcObj F) (omitLogs : Int) : F :=
  let MR2 := pow2 c.p.scale
  let Xt2 := pow2 ((calcXt c.p))
  let mQ32 := (c.p.mq2 2 2)
  let mU32 := (c.p.mu2 2 2)
  let mQ3 := sqrt mQ32
  let mU3 := sqrt mU32
  let beta := (eftBeta c.p)
  let c2beta := cos (2 * beta)
  let lmQ3MR := (ofInt omitLogs) * log (mQ32 / MR2)
  (-c2beta) * Xt2 * ((-3) * TLF.F4 (mQ3 / mU3) + c2beta * TLF.F5 (mQ3 / mU3)) / (2 * mQ3 * mU3) + 3 * c2beta * lmQ3MR

/-- `getDeltaLambdaYtau2G12`; mh2_eft/ThresholdCalculator.cpp:628-643 -/
def TcObj.dLamYtau2G12 (c : TcObj F) (omitLogs : Int) : F :=
  let MR2 := pow2 c.p.scale
  let Xtau2 := pow2 ((calcXtau c.p))
  let mL32 := (c.p.ml2 2 2)
  let mE32 := (c.p.me2 2 2)
  let mL3 := sqrt mL32
  let mE3 := sqrt mE32
  let beta := (eftBeta c.p)
  let c2beta := cos (2 * beta)
  let lmE3MR := (ofInt omitLogs) * log (mE32 / MR2)
  let lmL3MR := (ofInt omitLogs) * log (mL32 / MR2)
  c2beta * (Xtau2 * ((-9) * TLF.F3 (mL3 / mE3) + 3 * TLF.F4 (mL3 / mE3) - 2 * c2beta * TLF.F5 (mL3 / mE3)) / (mE3 * mL3) +
    12 * ((-2) * lmE3MR + lmL3MR)) / 20

/-- `getDeltaLambdaYtau2G22`; mh2_eft/ThresholdCalculator.cpp:645-659 -/
def TcObj.dLamYtau2G22 (c : TcObj F) (omitLogs : Int) : F :=
  let MR2 := pow2 c.p.scale
  let Xtau2 := pow2 ((calcXtau c.p))
  let mL32 := (c.p.ml2 2 2)
  let mE32 := (c.p.me2 2 2)
  let mL3 := sqrt mL32
  let mE3 := sqrt mE32
  let beta := (eftBeta c.p)
  let c2beta := cos (2 * beta)
  let lmL3MR := (ofInt omitLogs) * log (mL32 / MR2)
  (-c2beta) * Xtau2 * (3 * TLF.F4 (mL3 / mE3) + c2beta * TLF.F5 (mL3 / mE3)) / (6 * mE3 * mL3) - c2beta * lmL3MR

/-- `getDeltaLambdaYtau4`; mh2_eft/ThresholdCalculator.cpp:661-674 -/
def TcObj.dLamYtau4 (c : TcObj F) (omitLogs : Int) : F :=
  let MR2 := pow2 c.p.scale
  let Xtau2 := pow2 ((calcXtau c.p))
  let mL32 := (c.p.ml2 2 2)
  let mE32 := (c.p.me2 2 2)
  let mL3 := sqrt mL32
  let mE3 := sqrt mE32
  let lmE3MR := (ofInt omitLogs) * log (mE32 / MR2)
  let lmL3MR := (ofInt omitLogs) * log (mL32 / MR2)
  (12 * mE3 * mL3 * Xtau2 * TLF.F1 (mL3 / mE3) - pow2 Xtau2 * TLF.F2 (mL3 / mE3)) / (3 * mE32 * mL32) + 2 * (lmE3MR +
    lmL3MR)

/-- `getDeltaG1G1`; mh2_eft/ThresholdCalculator.cpp:676-700 -/
def TcObj.dG1G1 (c : TcObj F) (omitLogs : Int) : F :=
  let MR2 := pow2 c.p.scale
  let lmAMR := (ofInt omitLogs) * log (pow2 c.p.MA / MR2)
  let lmUMR := (ofInt omitLogs) * log (pow2 c.p.mu / MR2)
  let lmD1MR := (ofInt omitLogs) * log ((c.p.md2 0 0) / MR2)
  let lmD2MR := (ofInt omitLogs) * log ((c.p.md2 1 1) / MR2)
  let lmD3MR := (ofInt omitLogs) * log ((c.p.md2 2 2) / MR2)
  let lmE1MR := (ofInt omitLogs) * log ((c.p.me2 0 0) / MR2)
  let lmE2MR := (ofInt omitLogs) * log ((c.p.me2 1 1) / MR2)
  let lmE3MR := (ofInt omitLogs) * log ((c.p.me2 2 2) / MR2)
  let lmL1MR := (ofInt omitLogs) * log ((c.p.ml2 0 0) / MR2)
  let lmL2MR := (ofInt omitLogs) * log ((c.p.ml2 1 1) / MR2)
  let lmL3MR := (ofInt omitLogs) * log ((c.p.ml2 2 2) / MR2)
  let lmQ1MR := (ofInt omitLogs) * log ((c.p.mq2 0 0) / MR2)
  let lmQ2MR := (ofInt omitLogs) * log ((c.p.mq2 1 1) / MR2)
  let lmQ3MR := (ofInt omitLogs) * log ((c.p.mq2 2 2) / MR2)
  let lmU1MR := (ofInt omitLogs) * log ((c.p.mu2 0 0) / MR2)
  let lmU2MR := (ofInt omitLogs) * log ((c.p.mu2 1 1) / MR2)
  let lmU3MR := (ofInt omitLogs) * log ((c.p.mu2 2 2) / MR2)
  ((-3) * lmAMR - 2 * (lmD1MR + lmD2MR + lmD3MR + 3 * (lmE1MR + lmE2MR + lmE3MR)) - 3 * (lmL1MR + lmL2MR + lmL3MR) - lmQ1MR
    - lmQ2MR - lmQ3MR - 12 * lmUMR - 8 * (lmU1MR + lmU2MR + lmU3MR)) / 60

/-- `getDeltaG2G2`; mh2_eft/ThresholdCalculator.cpp:702-717 -/
def TcObj.dG2G2 (c : TcObj F) (omitLogs : Int) : F :=
  let MR2 := pow2 c.p.scale
  let lm2MR := (ofInt omitLogs) * log (pow2 c.p.M2 / MR2)
  let lmAMR := (ofInt omitLogs) * log (pow2 c.p.MA / MR2)
  let lmUMR := (ofInt omitLogs) * log (pow2 c.p.mu / MR2)
  let lmL1MR := (ofInt omitLogs) * log ((c.p.ml2 0 0) / MR2)
  let lmL2MR := (ofInt omitLogs) * log ((c.p.ml2 1 1) / MR2)
  let lmL3MR := (ofInt omitLogs) * log ((c.p.ml2 2 2) / MR2)
  let lmQ1MR := (ofInt omitLogs) * log ((c.p.mq2 0 0) / MR2)
  let lmQ2MR := (ofInt omitLogs) * log ((c.p.mq2 1 1) / MR2)
  let lmQ3MR := (ofInt omitLogs) * log ((c.p.mq2 2 2) / MR2)
  (4 - 8 * lm2MR - lmAMR - lmL1MR - lmL2MR - lmL3MR - 3 * (lmQ1MR + lmQ2MR + lmQ3MR) - 4 * lmUMR) / 12

/-- `getDeltaYtYt`; mh2_eft/ThresholdCalculator.cpp:719-732 -/
def TcObj.dYtYt (c : TcObj F) (omitLogs : Int) : F :=
  let MR2 := pow2 c.p.scale
  let cbeta := (eftCosBeta c.p)
  let sbeta := (eftSinBeta c.p)
  let Xt2 := pow2 ((calcXt c.p))
  let mQ3 := sqrt ((c.p.mq2 2 2))
  let mU3 := sqrt ((c.p.mu2 2 2))
  let lmAMR := (ofInt omitLogs) * log (pow2 c.p.MA / MR2)
  let lmUMR := (ofInt omitLogs) * log (pow2 c.p.mu / MR2)
  ((-2) * pow2 sbeta * Xt2 * TLF.F5 (mQ3 / mU3) / (mQ3 * mU3) + 8 * TLF.F6 (mQ3 / c.p.mu) + 4 * TLF.F6 (mU3 / c.p.mu) + pow2
    cbeta * (-3 + 6 * lmAMR) + 6 * lmUMR) / 8

/-- `getDeltaYtauYtau`; mh2_eft/ThresholdCalculator.cpp:734-747 -/
def TcObj.dYtauYtau (c : TcObj F) (omitLogs : Int) : F :=
  let MR2 := pow2 c.p.scale
  let cbeta := (eftCosBeta c.p)
  let sbeta := (eftSinBeta c.p)
  let Xtau2 := pow2 ((calcXtau c.p))
  let mL3 := sqrt ((c.p.ml2 2 2))
  let mE3 := sqrt ((c.p.me2 2 2))
  let lmAMR := (ofInt omitLogs) * log (pow2 c.p.MA / MR2)
  let lmUMR := (ofInt omitLogs) * log (pow2 c.p.mu / MR2)
  (-(pow2 cbeta)) * Xtau2 * TLF.F5 (mL3 / mE3) / (12 * mE3 * mL3) + (4 * TLF.F6 (mE3 / c.p.mu) + 8 * TLF.F6 (mL3 / c.p.mu) +
    pow2 sbeta * (-3 + 6 * lmAMR) + 6 * lmUMR) / 8

/-- `getDeltaYbYb`; mh2_eft/ThresholdCalculator.cpp:749-762 -/
def TcObj.dYbYb (c : TcObj F) (omitLogs : Int) : F :=
  let cbeta := (eftCosBeta c.p)
  let sbeta := (eftSinBeta c.p)
  let mA2 := pow2 c.p.MA
  let MR2 := pow2 c.p.scale
  let mQ3 := sqrt ((c.p.mq2 2 2))
  let mD3 := sqrt ((c.p.md2 2 2))
  let Xb2 := pow2 ((calcXb c.p))
  let lmUMR := (ofInt omitLogs) * log (pow2 c.p.mu / MR2)
  (6 * lmUMR + 4 * TLF.F6 (mD3 / c.p.mu) + 8 * TLF.F6 (mQ3 / c.p.mu) - 2 * Xb2 * TLF.F5 (mQ3 / mD3) * pow2 cbeta / (mD3 *
    mQ3 * pow2 sbeta) + 3 * (-1 + 2 * (ofInt omitLogs) * log (mA2 / MR2)) * pow2 sbeta) / 8

/-- `getDeltaYbYt`; mh2_eft/ThresholdCalculator.cpp:764-786 -/
def TcObj.dYbYt (c : TcObj F) (omitLogs : Int) : F :=
  let tbe := (eftTanBeta c.p)
  let cbeta := (eftCosBeta c.p)
  let sbeta := (eftSinBeta c.p)
  let mA2 := pow2 c.p.MA
  let MR2 := pow2 c.p.scale
  let mU3 := sqrt ((c.p.mu2 2 2))
  let mQ3 := sqrt ((c.p.mq2 2 2))
  let mD3 := sqrt ((c.p.md2 2 2))
  let Xb2 := pow2 ((calcXb c.p))
  let Xt := (calcXt c.p)
  let lmUMR := (ofInt omitLogs) * log (pow2 c.p.mu / MR2)
  let lmAMR := (ofInt omitLogs) * log (mA2 / MR2)
  (2 * lmUMR + 4 * TLF.F6 (mU3 / c.p.mu) + 4 * tbe * Xt * TLF.F9 (mQ3 / c.p.mu) (mU3 / c.p.mu) / c.p.mu + (-1 + 2 * lmAMR) *
    pow2 cbeta - 2 * Xb2 * TLF.F5 (mQ3 / mD3) * pow2 cbeta / (mD3 * mQ3 * pow2 sbeta) - 4 * pow2 Xt * TLF.F5 (mQ3 / mU3) *
    pow2 sbeta / (mQ3 * mU3) + 8 * (-1 + lmAMR) * pow2 sbeta) / 8

/-- `getDeltaYbAs`; mh2_eft/ThresholdCalculator.cpp:788-798 -/
def TcObj.dYbAs (c : TcObj F) (omitLogs : Int) : F :=
  let MR2 := pow2 c.p.scale
  let mD3 := sqrt ((c.p.md2 2 2))
  let mQ3 := sqrt ((c.p.mq2 2 2))
  let Xb := (calcXb c.p)
  let m3 := c.p.MG
  4 * (1 + TLF.F6 (mD3 / m3) + TLF.F6 (mQ3 / m3) - Xb * TLF.F9 (mQ3 / m3) (mD3 / m3) / m3 + (ofInt omitLogs) * log (pow2 m3
    / MR2)) / 3

/-- `getDeltaYtYb`; mh2_eft/ThresholdCalculator.cpp:800-818 -/
def TcObj.dYtYb (c : TcObj F) (omitLogs : Int) : F :=
  let MR2 := pow2 c.p.scale
  let cbeta := (eftCosBeta c.p)
  let sbeta := (eftSinBeta c.p)
  let mD3 := sqrt ((c.p.md2 2 2))
  let mQ3 := sqrt ((c.p.mq2 2 2))
  let mU3 := sqrt ((c.p.mu2 2 2))
  let Xb := (calcXb c.p)
  let Xt := (calcXt c.p)
  let lmAMR := (ofInt omitLogs) * log (pow2 c.p.MA / MR2)
  let lmUMR := (ofInt omitLogs) * log (pow2 c.p.mu / MR2)
  ((-2) * c.p.mu * mU3 * pow2 Xb * TLF.F5 (mQ3 / mD3) * pow2 cbeta * (1 + pow2 sbeta) + mD3 * pow2 sbeta * ((-2) * c.p.mu *
    pow2 Xt * TLF.F5 (mQ3 / mU3) * pow2 sbeta + mQ3 * mU3 * (4 * c.p.mu * TLF.F6 (mD3 / c.p.mu) + 4 * c.p.vd / c.p.vu * Xb *
    TLF.F9 (mQ3 / c.p.mu) (mD3 / c.p.mu) + c.p.mu * (2 * lmUMR - 8 * pow2 cbeta - pow2 sbeta + 2 * lmAMR * (4 * pow2 cbeta +
    pow2 sbeta))))) / (8 * mD3 * mQ3 * c.p.mu * mU3 * pow2 sbeta)

/-- `getDeltaYtauYb`; mh2_eft/ThresholdCalculator.cpp:902-910 -/
def TcObj.dYtauYb (c : TcObj F) (omitLogs : Int) : F :=
  let Xt2 := pow2 ((calcXt c.p))
  let mQ3 := sqrt ((c.p.mq2 2 2))
  let mU3 := sqrt ((c.p.mu2 2 2))
  let sbeta := (eftSinBeta c.p)
  (-(pow2 sbeta * Xt2 * TLF.F5 (mQ3 / mU3))) / (4 * mQ3 * mU3)


/-- `getDeltaVevYt2`; ThresholdCalculator.cpp:820-835 -/
def TcObj.dVevYt2 (c : TcObj F) (limit : Limit) : F :=
  let Xt2 := pow2 (calcXt c.p)
  let mQ32 := c.p.mq2 2 2
  let mU32 := c.p.mu2 2 2
  let limit := if limit = .qg ∨ limit = .ug then .general else limit
  match limit with
  | .general => 3 * Xt2 * ((-2) * mQ32 * mU32 * log (mQ32 / mU32) + pow2 mQ32 - pow2 mU32) / (4 * Misc.pow3 (mQ32 - mU32))
  | _ => Xt2 / (4 * mQ32)

/-- `getDeltaVevYb2`; ThresholdCalculator.cpp:837-860 -/
def TcObj.dVevYb2 (c : TcObj F) : F :=
  let Xb2 := pow2 (calcXb c.p)
  let mQ32 := c.p.mq2 2 2
  let mD32 := c.p.md2 2 2
  let eps := mQ32 * lit (1 / 100)
  let exact := 3 * Xb2 * (2 * mD32 * mQ32 * log (mQ32 / mD32) + pow2 mD32 - pow2 mQ32) / (4 * Misc.pow3 (mD32 - mQ32))
  if lt (abs (mQ32 - mD32)) eps then Xb2 / (4 * mQ32) else exact

/-- `getDeltaVevYtau2`; ThresholdCalculator.cpp:862-884 -/
def TcObj.dVevYtau2 (c : TcObj F) : F :=
  let Xtau2 := pow2 (calcXtau c.p)
  let mL32 := c.p.ml2 2 2
  let mE32 := c.p.me2 2 2
  let eps := mL32 * lit (1 / 100)
  let exact := Xtau2 * (2 * log (mL32 / mE32) * mE32 * mL32 + pow2 mE32 - pow2 mL32) / (4 * Misc.pow3 (mE32 - mL32))
  if lt (abs (mL32 - mE32)) eps then Xtau2 / (12 * mL32) else exact

/-- the cases of `getThresholdCorrection` without scheme conversion; ThresholdCalculator.cpp:294-411.  `rest` stands for the
two-loop corrections of the Yukawa couplings (`getDeltaLambdaYb6` etc., lines 912-3101) and for `getDeltaVevG12`,
`getDeltaVevG22`, which return NaN. -/
def otherFns (rest : TcObj F → ThrOrder → Int → Except String F) (c : TcObj F) (o : ThrOrder) (n : Int) : Except String F :=
  match o with
  | .LAMBDA_YB2_G12 => .ok (c.dLamYb2G12 n)
  | .LAMBDA_G14 => .ok (c.dLamG14 n)
  | .LAMBDA_REG_G14 => .ok (c.dLamRegG14 n)
  | .LAMBDA_CHI_G14 => .ok (c.dLamChiG14 n)
  | .LAMBDA_CHI_G24 => .ok (c.dLamChiG24 n)
  | .LAMBDA_G24 => .ok (c.dLamG24 n)
  | .LAMBDA_REG_G24 => .ok (c.dLamRegG24 n)
  | .LAMBDA_G12_G22 => .ok (c.dLamG12G22 n)
  | .LAMBDA_REG_G12_G22 => .ok (c.dLamRegG12G22 n)
  | .LAMBDA_CHI_G12_G22 => .ok (c.dLamChiG12G22 n)
  | .LAMBDA_YB2_G22 => .ok (c.dLamYb2G22 n)
  | .LAMBDA_YB4 => .ok (c.dLamYb4 n)
  | .LAMBDA_YT2_G12 => .ok (c.dLamYt2G12 n)
  | .LAMBDA_YT2_G22 => .ok (c.dLamYt2G22 n)
  | .LAMBDA_YTAU2_G12 => .ok (c.dLamYtau2G12 n)
  | .LAMBDA_YTAU2_G22 => .ok (c.dLamYtau2G22 n)
  | .LAMBDA_YTAU4 => .ok (c.dLamYtau4 n)
  | .G1_G1 => .ok (c.dG1G1 n)
  | .G2_G2 => .ok (c.dG2G2 n)
  | .VEV_YT2 => .ok (c.dVevYt2 c.limit)
  | .YT_YB => .ok (c.dYtYb n)
  | .YT_YT => .ok (c.dYtYt n)
  | .YTAU_YTAU => .ok (c.dYtauYtau n)
  | .YB_YB => .ok (c.dYbYb n)
  | .YB_YT => .ok (c.dYbYt n)
  | .YB_AS => .ok (c.dYbAs n)
  | .VEV_YB2 => .ok c.dVevYb2
  | .VEV_YTAU2 => .ok c.dVevYtau2
  | .YTAU_YB => .ok (c.dYtauYb n)
  | o => rest c o n

/-- all threshold corrections but those in `rest` -/
def thrFns2 (dilog : F → F) (rest : TcObj F → ThrOrder → Int → Except String F) : ThrFns F := thrFns dilog (otherFns rest)

end

end Himalaya
