import Verif.EFT.Other
import Verif.Misc.Model

/-!
# Model of the two-loop threshold correction of order `yt^6`

Mechanical transcription (tools/gen_yt6.py) of `getDeltaLambdaYt6` and `getDeltaLambdaYt6_SUSYHD`, ThresholdCalculator.cpp:1334-1771.
The dilogarithm and `phixyz` are arguments.
-/

set_option linter.unusedVariables false

namespace Himalaya

open FOps
open scoped Himalaya

section
variable {F : Type} [Add F] [Sub F] [Mul F] [Div F] [Neg F] [FOps F]

namespace Yt6

/-- local variables of `getDeltaLambdaYt6`; ThresholdCalculator.cpp:1379-1405 -/
structure Arg (F : Type) where
  mQ32 : F
  mU32 : F
  mQ3 : F
  mU3 : F
  mA : F
  mA2 : F
  Mu : F
  Mu2 : F
  sbeta : F
  cbeta : F
  Xt : F
  Yt : F
  Xt2 : F
  Xt4 : F
  Xt6 : F

/-- `deltaxyz`; ThresholdCalculator.cpp:103-106 and ThresholdLoopFunctions.cpp:1235-1238 -/
def deltaxyz (x y z : F) : F := pow2 x + pow2 y + pow2 z - 2 * (x * y + x * z + y * z)

/-- a part of the formula; ThresholdCalculator.cpp:1407-1771 -/
def k1 (a : Arg F) : F :=
  let mQ32 := a.mQ32; let mU32 := a.mU32; let sbeta := a.sbeta; let cbeta := a.cbeta;
  let Xt := a.Xt; let Yt := a.Yt;
  288 * Yt * pow2 cbeta * Misc.pow3 Xt / (pow2 (mQ32 - mU32) * pow2 sbeta)

/-- a part of the formula; ThresholdCalculator.cpp:1407-1771 -/
def k2 (dilog : F → F) (a : Arg F) : F :=
  let mQ32 := a.mQ32; let mU32 := a.mU32; let mQ3 := a.mQ3; let mU3 := a.mU3;
  let Xt6 := a.Xt6;
  6 * Xt6 * (11 * mQ32 * mU32 + 2 * mQ32 * mU32 * dilog (1 - mQ32 / mU32) - 4 * mQ32 * mU32 * dilog (1 - mU32 / mQ32) + 2 *
    Misc.pow4 mQ3 - Misc.pow4 mU3) / (mQ32 * mU32 * Misc.pow3 (mQ32 - mU32))

/-- a part of the formula; ThresholdCalculator.cpp:1407-1771 -/
def k3 (phi : F → F → F → F) (a : Arg F) : F :=
  let mQ32 := a.mQ32; let mU32 := a.mU32; let mQ3 := a.mQ3; let mU3 := a.mU3;
  let mA2 := a.mA2; let sbeta := a.sbeta; let cbeta := a.cbeta; let Xt := a.Xt;
  let Yt := a.Yt; let Xt2 := a.Xt2; let Xt4 := a.Xt4;
  3 * phi mA2 mU32 mQ32 * pow2 cbeta * (4 * (mA2 + mQ32 - mU32) * Xt * Yt / (mQ32 - mU32) + pow2 Yt + 2 * mA2 * Xt2 * pow2
    Yt / pow2 (mQ32 - mU32) - pow2 (mA2 + mQ32 - mU32) * pow2 (-mQ32 + mU32 + Xt2) * pow2 Yt / (deltaxyz mA2 mU32 mQ32 *
    pow2 (mQ32 - mU32)) - (4 * mA2 + 3 * mQ32 - 3 * mU32) * Xt4 * pow2 Yt / Misc.pow3 (mQ32 - mU32) - 4 * (mA2 + mQ32 -
    mU32) * Yt * Misc.pow3 Xt / pow2 (mQ32 - mU32) + 2 * Xt2 * deltaxyz mA2 mU32 mQ32 * ((-4) * mU32 * Xt * Yt - 2 * mQ32 *
    (mU32 - 2 * Xt * Yt) + 3 * Xt2 * pow2 Yt + Misc.pow4 mQ3 + Misc.pow4 mU3) / Misc.pow4 (mQ32 - mU32)) / (mQ32 * pow2
    sbeta)

/-- a part of the formula; ThresholdCalculator.cpp:1407-1771 -/
def k4 (dilog : F → F) (a : Arg F) : F :=
  let mQ32 := a.mQ32; let mU32 := a.mU32; let mQ3 := a.mQ3; let mU3 := a.mU3;
  let mA2 := a.mA2; let Mu2 := a.Mu2; let sbeta := a.sbeta; let cbeta := a.cbeta;
  let Yt := a.Yt; let Xt2 := a.Xt2;
  6 * Xt2 * (12 * mQ32 * Mu2 * mU32 + 4 * mQ32 * (-mQ32 + Mu2) * mU32 * dilog (1 - mQ32 / Mu2) - 4 * mQ32 * Mu2 * mU32 *
    dilog (1 - mU32 / Mu2) - 6 * mA2 * mQ32 * mU32 * pow2 cbeta + 6 * mQ32 * mU32 * (-mQ32 + mU32) * dilog (1 - mQ32 / mU32)
    * pow2 sbeta - 6 * mQ32 * mU32 * pow2 cbeta * pow2 Yt - 8 * Mu2 * Misc.pow4 mQ3 + 2 * mU32 * Misc.pow4 mQ3 + 4 * mU32 *
    dilog (1 - mU32 / Mu2) * Misc.pow4 mQ3 + 4 * mA2 * pow2 cbeta * Misc.pow4 mQ3 - 4 * mU32 * pow2 cbeta * Misc.pow4 mQ3 -
    mU32 * pow2 sbeta * Misc.pow4 mQ3 + 4 * pow2 cbeta * pow2 Yt * Misc.pow4 mQ3 - 8 * mQ32 * Misc.pow4 mU3 - 4 * Mu2 *
    Misc.pow4 mU3 + 2 * mA2 * pow2 cbeta * Misc.pow4 mU3 + 4 * mQ32 * pow2 cbeta * Misc.pow4 mU3 + 4 * mQ32 * pow2 sbeta *
    Misc.pow4 mU3 + 2 * pow2 cbeta * pow2 Yt * Misc.pow4 mU3 + 4 * Misc.pow6 mQ3 - 2 * pow2 sbeta * Misc.pow6 mQ3 + 2 *
    Misc.pow6 mU3 - pow2 sbeta * Misc.pow6 mU3) / (mQ32 * mU32 * pow2 (mQ32 - mU32) * pow2 sbeta)

/-- a part of the formula; ThresholdCalculator.cpp:1407-1771 -/
def k5 (a : Arg F) : F :=
  let mQ32 := a.mQ32; let mU32 := a.mU32; let mU3 := a.mU3; let mA := a.mA;
  let mA2 := a.mA2; let Yt := a.Yt; let Xt2 := a.Xt2;
  pow2 (-mQ32 + mU32 + Xt2) * pow2 Yt * (-(pow2 (mQ32 - mU32)) + Misc.pow4 mA) / (deltaxyz mA2 mU32 mQ32 * pow2 (-(mQ32 *
    mU3) + Misc.pow3 mU3))

/-- a part of the formula; ThresholdCalculator.cpp:1407-1771 -/
def k6 (a : Arg F) : F :=
  let mQ32 := a.mQ32; let mU32 := a.mU32; let mQ3 := a.mQ3; let mU3 := a.mU3;
  let mA2 := a.mA2; let Yt := a.Yt; let Xt2 := a.Xt2;
  2 * Xt2 * (-(mA2 * (mQ32 * (4 * mU32 + pow2 Yt) - 2 * Misc.pow4 mU3)) + pow2 Yt * ((-3) * mQ32 * mU32 + Misc.pow4 mQ3 +
    Misc.pow4 mU3)) / (mQ32 * (mQ32 - mU32) * Misc.pow4 mU3)

/-- a part of the formula; ThresholdCalculator.cpp:1407-1771 -/
def k7 (a : Arg F) : F :=
  let mQ32 := a.mQ32; let mU32 := a.mU32; let mQ3 := a.mQ3; let mU3 := a.mU3;
  let mA2 := a.mA2; let Yt := a.Yt;
  (mA2 * (mU32 * (2 * mU32 + pow2 Yt) + mQ32 * (4 * mU32 + pow2 Yt)) - pow2 Yt * Misc.pow4 mQ3 - pow2 Yt * Misc.pow4 mU3 +
    mQ32 * (3 * mU32 * pow2 Yt + 14 * Misc.pow4 mU3)) / (mQ32 * Misc.pow4 mU3)

/-- a part of the formula; ThresholdCalculator.cpp:1407-1771 -/
def k8 (a : Arg F) : F :=
  let mQ32 := a.mQ32; let mU32 := a.mU32; let mQ3 := a.mQ3; let mU3 := a.mU3;
  let mA := a.mA; let mA2 := a.mA2; let Yt := a.Yt; let Xt2 := a.Xt2;
  let Xt4 := a.Xt4;
  pow2 Yt * (-(mA2 * (3 * mQ32 + 5 * mU32) * pow2 (mQ32 - mU32)) + Misc.pow4 mA * (4 * mQ32 * mU32 + 3 * Misc.pow4 mQ3 + 5 *
    Misc.pow4 mU3) + Misc.pow4 (mQ32 - mU32) - (mQ32 + mU32) * Misc.pow6 mA - 2 * Xt2 * (Misc.pow4 mA * (2 * mQ32 * mU32 + 3
    * Misc.pow4 mQ3 - Misc.pow4 mU3) + Misc.pow4 (mQ32 - mU32) - mQ32 * Misc.pow6 mA + mA2 * (2 * mU32 * Misc.pow4 mQ3 +
    mQ32 * Misc.pow4 mU3 - 3 * Misc.pow6 mQ3)) / (mQ32 - mU32) - Xt4 * ((-3) * (mQ32 + mU32) * Misc.pow4 mA + 3 * mU32 *
    Misc.pow4 mQ3 + mQ32 * Misc.pow4 mU3 + mA2 * (3 * Misc.pow4 mQ3 + 5 * Misc.pow4 mU3) + Misc.pow6 mA - Misc.pow6 mQ3 - 3
    * Misc.pow6 mU3) / (mQ32 - mU32)) / (mQ32 * deltaxyz mA2 mQ32 mU32 * Misc.pow4 mU3)

/-- a part of the formula; ThresholdCalculator.cpp:1407-1771 -/
def k9 (a : Arg F) : F :=
  let mQ32 := a.mQ32; let mU32 := a.mU32; let mQ3 := a.mQ3; let mU3 := a.mU3;
  let mA2 := a.mA2; let Yt := a.Yt; let Xt4 := a.Xt4;
  Xt4 * (4 * mU32 * ((-3) * mU32 + pow2 Yt) * Misc.pow4 mQ3 - pow2 Yt * Misc.pow6 mQ3 + mA2 * ((4 * mU32 + pow2 Yt) *
    Misc.pow4 mQ3 + pow2 Yt * Misc.pow4 mU3 + 2 * mQ32 * (-(mU32 * pow2 Yt) + 5 * Misc.pow4 mU3) - 2 * Misc.pow6 mU3) + 12 *
    mQ32 * Misc.pow6 mU3 - 3 * pow2 Yt * Misc.pow6 mU3) / (mQ32 * Misc.pow3 (mQ32 - mU32) * Misc.pow4 mU3)

/-- a part of the formula; ThresholdCalculator.cpp:1407-1771 -/
def k10 (dilog : F → F) (a : Arg F) : F :=
  let mQ32 := a.mQ32; let mU32 := a.mU32; let mQ3 := a.mQ3; let mU3 := a.mU3;
  let mA2 := a.mA2; let Mu := a.Mu; let Mu2 := a.Mu2; let sbeta := a.sbeta;
  let cbeta := a.cbeta; let Yt := a.Yt;
  3 * ((-4) * dilog (1 - mQ32 / Mu2) * ((-2) * mQ32 * Mu2 + Misc.pow4 mQ3 - 3 * Misc.pow4 Mu) - (mQ32 - Mu2) * ((-4) * mQ32
    * (mQ32 - Mu2) * mU32 * dilog (1 - mU32 / Mu2) * (2 * Mu2 * mU32 + Misc.pow4 Mu - Misc.pow4 mU3) + (Mu2 - mU32) * ((mQ32
    - Mu2) * (Mu2 - mU32) * pow2 cbeta * (2 * mA2 * (2 * mQ32 + mU32) + 2 * mU32 * pow2 Yt + mQ32 * (-(mU32 * (3 + 2 * pow2
    (const .pi))) + 4 * pow2 Yt)) + 17 * Mu2 * mU32 * Misc.pow4 mQ3 - 10 * Mu2 * mU32 * pow2 sbeta * Misc.pow4 mQ3 - 21 *
    mQ32 * mU32 * Misc.pow4 Mu + 10 * mQ32 * mU32 * pow2 sbeta * Misc.pow4 Mu - 12 * Misc.pow4 mQ3 * Misc.pow4 Mu + 13 *
    mQ32 * Mu2 * Misc.pow4 mU3 - 10 * mQ32 * Mu2 * pow2 sbeta * Misc.pow4 mU3 - 3 * Misc.pow4 mQ3 * Misc.pow4 mU3 + 10 *
    pow2 sbeta * Misc.pow4 mQ3 * Misc.pow4 mU3 - 6 * Misc.pow4 Mu * Misc.pow4 mU3 + 4 * Mu2 * Misc.pow6 mQ3 - 4 * mU32 *
    Misc.pow6 mQ3 + 8 * mQ32 * Misc.pow6 Mu + 4 * mU32 * Misc.pow6 Mu - 2 * mQ32 * Misc.pow6 mU3 + 2 * Mu2 * Misc.pow6 mU3))
    / (mQ32 * mU32 * pow2 (Mu2 - mU32))) / (pow2 (mQ32 - Mu2) * pow2 sbeta)

/-- a part of the formula; ThresholdCalculator.cpp:1407-1771 -/
def k11 (phi : F → F → F → F) (a : Arg F) : F :=
  let mQ32 := a.mQ32; let mU32 := a.mU32; let mQ3 := a.mQ3; let mU3 := a.mU3;
  let mA := a.mA; let mA2 := a.mA2; let sbeta := a.sbeta; let cbeta := a.cbeta;
  let Xt := a.Xt; let Yt := a.Yt; let Xt2 := a.Xt2; let Xt4 := a.Xt4;
  6 * phi mA2 mQ32 mQ32 * pow2 cbeta * (mA2 * (mA2 - 7 * mQ32) * Xt2 * (mQ32 - mU32 + pow2 Yt) / (pow2 (mQ32 - mU32) *
    Misc.pow4 mQ3) + mA2 * (mA2 - 7 * mQ32) * Xt4 * pow2 Yt / (Misc.pow3 (mQ32 - mU32) * Misc.pow4 mQ3) + 2 * mA2 * (mA2 - 7
    * mQ32) * Yt * Misc.pow3 Xt / (pow2 (mQ32 - mU32) * Misc.pow4 mQ3) + ((-7) * mA2 * mQ32 + Misc.pow4 mA) / Misc.pow4 mQ3
    + 2 * Xt * Yt * ((-7) * mA2 * mQ32 + Misc.pow4 mA) / (-(mU32 * Misc.pow4 mQ3) + Misc.pow6 mQ3) - deltaxyz mA2 mQ32 mQ32
    * ((mU32 - Xt2) * pow2 (-(mU3 * Xt * Yt) + Misc.pow3 mU3) + Misc.pow4 mQ3 * (Xt2 * Yt * (10 * Xt + Yt) - mU32 * Xt * (5
    * Xt + 6 * Yt) + 6 * Misc.pow4 mU3) + 2 * ((-2) * mU32 + Xt * (Xt + Yt)) * Misc.pow6 mQ3 - 2 * mQ32 * (mU32 * Xt2 * Yt *
    (6 * Xt + Yt) - 4 * Xt4 * pow2 Yt - Xt * (2 * Xt + 3 * Yt) * Misc.pow4 mU3 + 2 * Misc.pow6 mU3) + Misc.pow8 mQ3) /
    Misc.pow4 (-(mQ3 * mU32) + Misc.pow3 mQ3)) / pow2 sbeta

/-- a part of the formula; ThresholdCalculator.cpp:1407-1771 -/
def k12 (a : Arg F) : F :=
  let mQ32 := a.mQ32; let mU32 := a.mU32; let mQ3 := a.mQ3; let mU3 := a.mU3;
  let Mu := a.Mu; let Mu2 := a.Mu2;
  2 * mQ32 * Mu2 * mU32 * (mQ32 + mU32) - Misc.pow4 mQ3 * Misc.pow4 mU3 + Misc.pow4 Mu * ((-4) * mQ32 * mU32 + Misc.pow4
    mU3) - 2 * mU32 * Misc.pow6 Mu + 2 * Misc.pow8 Mu

/-- a part of the formula; ThresholdCalculator.cpp:1407-1771 -/
def k13 (a : Arg F) : F :=
  let mQ32 := a.mQ32; let mU32 := a.mU32; let mQ3 := a.mQ3; let mU3 := a.mU3;
  let Mu := a.Mu; let Mu2 := a.Mu2; let sbeta := a.sbeta; let cbeta := a.cbeta;
  5 * (pow2 cbeta + pow2 sbeta) * Misc.pow4 Mu * Misc.pow4 mU3 + Misc.pow4 mQ3 * ((-2) * Mu2 * mU32 * (-4 + 5 * pow2 cbeta +
    5 * pow2 sbeta) + (-2 + 5 * pow2 cbeta + 5 * pow2 sbeta) * Misc.pow4 Mu + (-4 + 5 * pow2 cbeta + 5 * pow2 sbeta) *
    Misc.pow4 mU3) - 10 * mU32 * (pow2 cbeta + pow2 sbeta) * Misc.pow6 Mu - 2 * mQ32 * ((-2) * mU32 * (-4 + 5 * pow2 cbeta +
    5 * pow2 sbeta) * Misc.pow4 Mu + Mu2 * (-4 + 5 * pow2 cbeta + 5 * pow2 sbeta) * Misc.pow4 mU3 + (-2 + 5 * pow2 cbeta + 5
    * pow2 sbeta) * Misc.pow6 Mu) + (2 + 5 * pow2 cbeta + 5 * pow2 sbeta) * Misc.pow8 Mu

/-- a part of the formula; ThresholdCalculator.cpp:1407-1771 -/
def k14 (a : Arg F) : F :=
  let mQ32 := a.mQ32; let mU32 := a.mU32; let mQ3 := a.mQ3; let mU3 := a.mU3;
  let Mu := a.Mu; let Mu2 := a.Mu2; let Xt2 := a.Xt2; let Xt4 := a.Xt4;
  4 * (mQ32 - Mu2) * (Mu2 - mU32) * Xt2 * ((Mu2 - mU32) * mU32 * Misc.pow4 Mu + Misc.pow4 mQ3 * (-(Mu2 * mU32) + 2 *
    Misc.pow4 Mu) + mQ32 * (mU32 * Misc.pow4 Mu - 2 * Misc.pow6 Mu)) / (mQ32 - mU32) - Mu2 * (2 * mU32 * pow2 (Mu2 - mU32) *
    Misc.pow4 Mu + ((-3) * Mu2 * mU32 + 4 * Misc.pow4 Mu + 2 * Misc.pow4 mU3) * Misc.pow6 mQ3 + Misc.pow4 mQ3 * (8 * mU32 *
    Misc.pow4 Mu - 8 * Mu2 * Misc.pow4 mU3 - 8 * Misc.pow6 Mu + 2 * Misc.pow6 mU3) + mQ32 * ((-2) * Misc.pow4 Mu * Misc.pow4
    mU3 - mU32 * Misc.pow6 Mu + 2 * Mu2 * Misc.pow6 mU3 + 4 * Misc.pow8 Mu)) - 2 * Mu2 * Xt4 * (-(pow2 (Mu2 - mU32) *
    Misc.pow4 Mu * Misc.pow4 mU3) + Misc.pow6 mQ3 * (8 * mU32 * Misc.pow4 Mu - 9 * Mu2 * Misc.pow4 mU3 - 4 * Misc.pow6 Mu +
    2 * Misc.pow6 mU3) + ((-3) * Mu2 * mU32 + 2 * Misc.pow4 Mu + 2 * Misc.pow4 mU3) * Misc.pow8 mQ3 + mQ32 * ((-5) *
    Misc.pow4 mU3 * Misc.pow6 Mu + 2 * Misc.pow4 Mu * Misc.pow6 mU3 + 2 * mU32 * Misc.pow8 Mu) + Misc.pow4 mQ3 * (7 *
    Misc.pow4 Mu * Misc.pow4 mU3 - 5 * mU32 * Misc.pow6 Mu + 2 * Misc.pow8 Mu - Misc.pow8 mU3)) / Misc.pow3 (mQ32 - mU32)

/-- a part of the formula; ThresholdCalculator.cpp:1407-1771 -/
def k15 (a : Arg F) : F :=
  let mQ32 := a.mQ32; let mU32 := a.mU32; let Mu2 := a.Mu2; let sbeta := a.sbeta;
  mQ32 * mU32 * pow2 (mQ32 - Mu2) * pow2 (Mu2 - mU32) * pow2 sbeta

/-- a part of the formula; ThresholdCalculator.cpp:1407-1771 -/
def k16 (phi : F → F → F → F) (a : Arg F) : F :=
  let mQ32 := a.mQ32; let mU32 := a.mU32; let mQ3 := a.mQ3; let mU3 := a.mU3;
  let mA := a.mA; let mA2 := a.mA2; let sbeta := a.sbeta; let cbeta := a.cbeta;
  let Xt := a.Xt; let Yt := a.Yt; let Xt2 := a.Xt2; let Xt4 := a.Xt4;
  6 * phi mA2 mU32 mU32 * pow2 cbeta * (mA2 * (mA2 - 6 * mU32) * Xt2 * (-mQ32 + mU32 + pow2 Yt) / (pow2 (mQ32 - mU32) *
    Misc.pow4 mU3) + mA2 * (mA2 - 6 * mU32) * Xt4 * pow2 Yt / (Misc.pow3 (-mQ32 + mU32) * Misc.pow4 mU3) + 2 * mA2 * (mA2 -
    6 * mU32) * Yt * Misc.pow3 Xt / (pow2 (mQ32 - mU32) * Misc.pow4 mU3) + ((-6) * mA2 * mU32 + Misc.pow4 mA) / Misc.pow4
    mU3 + 2 * Xt * Yt * ((-6) * mA2 * mU32 + Misc.pow4 mA) / (-(mQ32 * Misc.pow4 mU3) + Misc.pow6 mU3) - deltaxyz mA2 mU32
    mU32 * (5 * mU32 * Xt4 * pow2 Yt + Xt2 * Yt * (6 * Xt + Yt) * Misc.pow4 mU3 + Misc.pow4 mQ3 * (Xt2 * Yt * (2 * Xt + Yt)
    + 3 * mU32 * Xt * (Xt + 2 * Yt) + 6 * Misc.pow4 mU3) - (4 * mU32 + Xt * (Xt + 2 * Yt)) * Misc.pow6 mQ3 + Xt * (Xt + 2 *
    Yt) * Misc.pow6 mU3 - mQ32 * (2 * mU32 * Xt2 * Yt * (4 * Xt + Yt) + Xt4 * pow2 Yt + 3 * Xt * (Xt + 2 * Yt) * Misc.pow4
    mU3 + 4 * Misc.pow6 mU3) + Misc.pow8 mQ3 + Misc.pow8 mU3) / Misc.pow4 (-(mQ32 * mU3) + Misc.pow3 mU3)) / pow2 sbeta

/-- a part of the formula; ThresholdCalculator.cpp:1407-1771 -/
def k17 (a : Arg F) : F :=
  let mQ32 := a.mQ32; let mU32 := a.mU32; let mQ3 := a.mQ3; let mU3 := a.mU3;
  let mA2 := a.mA2; let Mu := a.Mu; let Mu2 := a.Mu2; let sbeta := a.sbeta;
  let cbeta := a.cbeta; let Xt := a.Xt; let Yt := a.Yt; let Xt2 := a.Xt2;
  let Xt4 := a.Xt4; let Xt6 := a.Xt6;
  (-24) * Xt * Yt * pow2 cbeta / ((mQ32 - mU32) * pow2 sbeta) + 24 * (-mA2 + mQ32 + mU32) * Yt * pow2 cbeta * Misc.pow3 Xt /
    (pow2 sbeta * Misc.pow3 (mQ32 - mU32)) + 6 * (2 + 2 * pow2 cbeta / pow2 sbeta + 2 * Mu2 * mU32 / (pow2 (Mu2 - mU32) *
    pow2 sbeta) - Misc.pow4 mU3 / (pow2 (Mu2 - mU32) * pow2 sbeta)) + Xt2 * (12 * pow2 cbeta * pow2 (Mu2 - mU32) * (-mQ32 +
    mU32 + pow2 Yt) - 6 * mQ32 * (2 * Mu2 * mU32 * (2 - 9 * pow2 sbeta) + 9 * pow2 sbeta * Misc.pow4 Mu + (-2 + 9 * pow2
    sbeta) * Misc.pow4 mU3) + 6 * mU32 * ((-2) * Mu2 * mU32 * (14 + 9 * pow2 sbeta) + (16 + 9 * pow2 sbeta) * Misc.pow4 Mu +
    (14 + 9 * pow2 sbeta) * Misc.pow4 mU3)) / (pow2 (mQ32 - mU32) * pow2 (Mu2 - mU32) * pow2 sbeta) - 6 * (3 * mQ32 + 5 *
    mU32) * Xt6 / Misc.pow4 (mQ32 - mU32) + 6 * Xt4 * (2 * mQ32 * pow2 (Mu2 - mU32) * (mU32 * (-8 + pow2 sbeta) - pow2 cbeta
    * pow2 Yt) + 4 * mA2 * pow2 cbeta * pow2 Yt * Misc.pow4 mU3 + Misc.pow4 mQ3 * (2 * Mu2 * mU32 * (1 - 3 * pow2 sbeta) + 3
    * pow2 sbeta * Misc.pow4 Mu + (-1 + 3 * pow2 sbeta) * Misc.pow4 mU3) - Misc.pow4 Mu * ((-4) * mA2 * pow2 cbeta * pow2 Yt
    + 6 * mU32 * pow2 cbeta * pow2 Yt + (16 + 5 * pow2 sbeta) * Misc.pow4 mU3) - 6 * pow2 cbeta * pow2 Yt * Misc.pow6 mU3 +
    2 * Mu2 * ((-4) * mA2 * mU32 * pow2 cbeta * pow2 Yt + 6 * pow2 cbeta * pow2 Yt * Misc.pow4 mU3 + 5 * (3 + pow2 sbeta) *
    Misc.pow6 mU3) - 15 * Misc.pow8 mU3 - 5 * pow2 sbeta * Misc.pow8 mU3) / (pow2 (Mu2 - mU32) * pow2 sbeta * Misc.pow4
    (mQ32 - mU32))

/-- a part of the formula; ThresholdCalculator.cpp:1407-1771 -/
def k18 (phi : F → F → F → F) (a : Arg F) : F :=
  let mQ32 := a.mQ32; let mU32 := a.mU32; let mQ3 := a.mQ3; let mU3 := a.mU3;
  let mA := a.mA; let mA2 := a.mA2; let sbeta := a.sbeta; let cbeta := a.cbeta;
  let Yt := a.Yt; let Xt2 := a.Xt2; let Xt4 := a.Xt4;
  3 * phi mA2 mQ32 mU32 * pow2 cbeta * pow2 Yt * ((-3) * ((-2) * mA2 * (mQ32 + mU32) + pow2 (mQ32 - mU32) + Misc.pow4 mA) +
    2 * Xt2 * ((3 * mQ32 - 5 * mU32) * pow2 (mQ32 - mU32) + (3 * mQ32 - 5 * mU32) * Misc.pow4 mA + mA2 * (4 * mQ32 * mU32 -
    6 * Misc.pow4 mQ3 + 14 * Misc.pow4 mU3)) / pow2 (mQ32 - mU32) + 2 * deltaxyz mA2 mQ32 mU32 * (1 - 2 * (mQ32 - 2 * mU32)
    * Xt2 / pow2 (mQ32 - mU32) + Xt4 * ((-5) * mQ32 * mU32 + Misc.pow4 mQ3 + 12 * Misc.pow4 mU3) / Misc.pow4 (mQ32 - mU32))
    + Xt4 * (3 * (mQ32 - 3 * mU32) * Misc.pow4 mA - 15 * mU32 * Misc.pow4 mQ3 - 6 * mA2 * ((-2) * mQ32 * mU32 + Misc.pow4
    mQ3 - 3 * Misc.pow4 mU3) + 29 * mQ32 * Misc.pow4 mU3 + 3 * Misc.pow6 mQ3 - 17 * Misc.pow6 mU3) / Misc.pow3 (-mQ32 +
    mU32) + ((-4) * (mQ32 + mU32) * pow2 (-mQ32 + mU32 + Xt2) * Misc.pow6 mA - 4 * mA2 * pow2 (mQ32 - mU32) * (-((mU32 + 2 *
    Xt2) * Misc.pow4 mQ3) + mQ32 * (Xt4 - Misc.pow4 mU3) + mU32 * (Xt4 + Misc.pow4 mU3) + Misc.pow6 mQ3) + pow2 (-mQ32 +
    mU32 + Xt2) * Misc.pow8 mA + pow2 (mQ32 - mU32) * ((-3) * Xt4 * Misc.pow4 mU3 - 2 * mQ32 * mU32 * (3 * mU32 * Xt2 + Xt4
    + 2 * Misc.pow4 mU3) + Misc.pow4 mQ3 * (6 * mU32 * Xt2 + Xt4 + 6 * Misc.pow4 mU3) - 2 * (2 * mU32 + Xt2) * Misc.pow6 mQ3
    + 2 * Xt2 * Misc.pow6 mU3 + Misc.pow8 mQ3 + Misc.pow8 mU3) + 2 * Misc.pow4 mA * ((2 * mU32 * Xt2 + 3 * Xt4) * Misc.pow4
    mQ3 + 3 * Xt4 * Misc.pow4 mU3 + mQ32 * (2 * mU32 * Xt4 - 2 * Xt2 * Misc.pow4 mU3) - 2 * (2 * mU32 + 3 * Xt2) * Misc.pow6
    mQ3 + 6 * Xt2 * Misc.pow6 mU3 + 3 * Misc.pow8 mQ3 + Misc.pow8 mU3)) / (deltaxyz mA2 mQ32 mU32 * pow2 (mQ32 - mU32))) /
    (pow2 sbeta * Misc.pow6 mU3)

/-- a part of the formula; ThresholdCalculator.cpp:1407-1771 -/
def k19 (a : Arg F) : F :=
  let mQ32 := a.mQ32; let mU32 := a.mU32; let mA2 := a.mA2; let sbeta := a.sbeta;
  let cbeta := a.cbeta; let Xt := a.Xt; let Yt := a.Yt; let Xt2 := a.Xt2;
  72 * Xt * Yt * pow2 cbeta / ((mQ32 - mU32) * pow2 sbeta) - 6 * (mA2 + mQ32 - mU32) * pow2 cbeta * pow2 (-mQ32 + mU32 +
    Xt2) * pow2 Yt / (deltaxyz mA2 mU32 mQ32 * pow2 (mQ32 - mU32) * pow2 sbeta) - 72 * (mQ32 + 3 * mU32) * Yt * pow2 cbeta *
    Misc.pow3 Xt / (pow2 sbeta * Misc.pow3 (mQ32 - mU32))

/-- a part of the formula; ThresholdCalculator.cpp:1407-1771 -/
def k20 (a : Arg F) : F :=
  let mQ32 := a.mQ32; let mU32 := a.mU32; let mA2 := a.mA2; let Xt := a.Xt;
  let Yt := a.Yt; let Xt2 := a.Xt2; let Xt4 := a.Xt4;
  -3 - 2 * Xt * Yt / (mQ32 - mU32) - Xt2 * (mA2 - 5 * mQ32 + 5 * mU32 + pow2 Yt) / pow2 (mQ32 - mU32) + 2 * (6 * mA2 - mQ32
    + mU32) * Yt * Misc.pow3 Xt / Misc.pow3 (mQ32 - mU32) + 3 * Xt4 * (mA2 * (2 * mQ32 + pow2 Yt) - (mQ32 - mU32) * (mQ32 +
    mU32 + pow2 Yt)) / Misc.pow4 (mQ32 - mU32)

/-- a part of the formula; ThresholdCalculator.cpp:1407-1771 -/
def k21 (a : Arg F) : F :=
  let mQ32 := a.mQ32; let mU32 := a.mU32; let mQ3 := a.mQ3; let mU3 := a.mU3;
  let Xt6 := a.Xt6;
  6 * Xt6 * ((-3) * mQ32 * mU32 - 10 * Misc.pow4 mQ3 + Misc.pow4 mU3) / (mQ32 * Misc.pow4 (mQ32 - mU32))

/-- a part of the formula; ThresholdCalculator.cpp:1407-1771 -/
def k22 (a : Arg F) : F :=
  let mQ32 := a.mQ32; let mU32 := a.mU32; let mQ3 := a.mQ3; let mU3 := a.mU3;
  let mA := a.mA; let mA2 := a.mA2; let sbeta := a.sbeta; let cbeta := a.cbeta;
  let Yt := a.Yt; let Xt2 := a.Xt2; let Xt4 := a.Xt4;
  3 * pow2 cbeta * pow2 Yt * (Misc.pow3 (mQ32 - mU32) - (mQ32 + 5 * mU32) * Misc.pow4 mA - 2 * Xt2 * ((2 * mQ32 - mU32) *
    pow2 (mQ32 - mU32) + (2 * mQ32 + mU32) * Misc.pow4 mA - 4 * mA2 * (2 * mQ32 * mU32 + Misc.pow4 mQ3)) / (mQ32 - mU32) -
    mA2 * (4 * mQ32 * mU32 + Misc.pow4 mQ3 - 5 * Misc.pow4 mU3) + Misc.pow6 mA - Xt4 * (-((5 * mQ32 + 3 * mU32) * Misc.pow4
    mA) + 11 * mU32 * Misc.pow4 mQ3 - 5 * mQ32 * Misc.pow4 mU3 + mA2 * (4 * mQ32 * mU32 + 7 * Misc.pow4 mQ3 + 5 * Misc.pow4
    mU3) + Misc.pow6 mA - 3 * Misc.pow6 mQ3 - 3 * Misc.pow6 mU3) / pow2 (mQ32 - mU32)) / (mQ32 * mU32 * deltaxyz mA2 mQ32
    mU32 * pow2 sbeta)

/-- a part of the formula; ThresholdCalculator.cpp:1407-1771 -/
def k23 (a : Arg F) : F :=
  let mQ32 := a.mQ32; let mU32 := a.mU32; let mQ3 := a.mQ3; let mU3 := a.mU3;
  let mA2 := a.mA2; let Mu := a.Mu; let Mu2 := a.Mu2; let sbeta := a.sbeta;
  let cbeta := a.cbeta; let Yt := a.Yt; let Xt2 := a.Xt2;
  6 * Xt2 * (pow2 cbeta * (2 * mA2 * mQ32 * mU32 + (mU32 + 2 * pow2 Yt) * Misc.pow4 mQ3 + mQ32 * (mU32 * pow2 Yt - 5 *
    Misc.pow4 mU3) - pow2 Yt * Misc.pow4 mU3) / mU32 - (Mu2 * (Mu2 - mU32) * (-2 + pow2 sbeta) * Misc.pow4 mU3 + Misc.pow4
    mQ3 * (Mu2 * mU32 * (-16 + 5 * pow2 sbeta) + (13 + 16 * pow2 sbeta) * Misc.pow4 Mu - 3 * (3 + 7 * pow2 sbeta) *
    Misc.pow4 mU3) + (-(Mu2 * (13 + 16 * pow2 sbeta)) + mU32 * (19 + 16 * pow2 sbeta)) * Misc.pow6 mQ3 + mQ32 * (mU32 * (5 -
    21 * pow2 sbeta) * Misc.pow4 Mu + Mu2 * (7 + 20 * pow2 sbeta) * Misc.pow4 mU3 - 4 * Misc.pow6 Mu + (-2 + pow2 sbeta) *
    Misc.pow6 mU3)) / ((mQ32 - Mu2) * (Mu2 - mU32))) / (mQ32 * pow2 (mQ32 - mU32) * pow2 sbeta)

/-- a part of the formula; ThresholdCalculator.cpp:1407-1771 -/
def k24 (a : Arg F) : F :=
  let mQ32 := a.mQ32; let mU32 := a.mU32; let mQ3 := a.mQ3; let mU3 := a.mU3;
  let mA2 := a.mA2; let Mu := a.Mu; let Mu2 := a.Mu2; let sbeta := a.sbeta;
  let cbeta := a.cbeta; let Yt := a.Yt;
  3 * (pow2 (-(Mu * mU32) + Misc.pow3 Mu) * (-(mA2 * pow2 cbeta * pow2 Yt) + 3 * mU32 * pow2 cbeta * pow2 Yt + 2 * Misc.pow4
    mU3) + Misc.pow4 mQ3 * ((mU32 * (-9 + 5 * pow2 cbeta + 8 * pow2 sbeta) + pow2 cbeta * pow2 Yt) * Misc.pow4 Mu + pow2
    cbeta * pow2 Yt * Misc.pow4 mU3 - 2 * Mu2 * (mU32 * pow2 cbeta * pow2 Yt + (-2 + 5 * pow2 cbeta + 8 * pow2 sbeta) *
    Misc.pow4 mU3) + (-1 + 5 * pow2 cbeta + 8 * pow2 sbeta) * Misc.pow6 mU3) - mQ32 * (-(mA2 * pow2 cbeta * pow2 Yt *
    Misc.pow4 mU3) + Misc.pow4 Mu * (-(mA2 * pow2 cbeta * pow2 Yt) + mU32 * pow2 cbeta * pow2 Yt - 2 * (-7 + 5 * pow2 cbeta
    + 8 * pow2 sbeta) * Misc.pow4 mU3) + (mU32 * (-13 + 5 * pow2 cbeta + 8 * pow2 sbeta) + pow2 cbeta * pow2 Yt) * Misc.pow6
    Mu + 3 * pow2 cbeta * pow2 Yt * Misc.pow6 mU3 + Mu2 * (2 * mA2 * mU32 * pow2 cbeta * pow2 Yt - 5 * pow2 cbeta * pow2 Yt
    * Misc.pow4 mU3 + (-9 + 5 * pow2 cbeta + 8 * pow2 sbeta) * Misc.pow6 mU3) + 2 * Misc.pow8 mU3)) / (mQ32 * (mQ32 - Mu2) *
    mU32 * pow2 (Mu2 - mU32) * pow2 sbeta)

/-- a part of the formula; ThresholdCalculator.cpp:1407-1771 -/
def k25 (a : Arg F) : F :=
  let mQ32 := a.mQ32; let mU32 := a.mU32; let mQ3 := a.mQ3; let mU3 := a.mU3;
  let mA2 := a.mA2; let Mu := a.Mu; let Mu2 := a.Mu2; let sbeta := a.sbeta;
  let cbeta := a.cbeta; let Xt := a.Xt; let Yt := a.Yt; let Xt2 := a.Xt2;
  let Xt4 := a.Xt4; let Xt6 := a.Xt6;
  (-10) * Xt * Yt * pow2 cbeta / ((mQ32 - mU32) * pow2 sbeta) + 2 * ((-6) * mA2 + 7 * mQ32 + 5 * mU32) * Yt * pow2 cbeta *
    Misc.pow3 Xt / (pow2 sbeta * Misc.pow3 (mQ32 - mU32)) + 6 * mQ32 * Xt6 / Misc.pow4 (mQ32 - mU32) - Xt2 * (pow2 cbeta *
    pow2 (mQ32 - Mu2) * pow2 (Mu2 - mU32) * (mA2 + 3 * mQ32 - 5 * mU32 + pow2 Yt) - 2 * mU32 * Misc.pow4 Mu * ((-2) * Mu2 *
    mU32 * (7 + 9 * pow2 sbeta) + (8 + 9 * pow2 sbeta) * Misc.pow4 Mu + (7 + 9 * pow2 sbeta) * Misc.pow4 mU3) + 2 * ((-4) *
    Mu2 * mU32 * (3 + 4 * pow2 sbeta) + (7 + 8 * pow2 sbeta) * Misc.pow4 Mu + 2 * (3 + 4 * pow2 sbeta) * Misc.pow4 mU3) *
    Misc.pow6 mQ3 - 2 * Misc.pow4 mQ3 * (-(mU32 * (18 + 23 * pow2 sbeta) * Misc.pow4 Mu) - 2 * Mu2 * (-1 + pow2 sbeta) *
    Misc.pow4 mU3 + 2 * (7 + 8 * pow2 sbeta) * Misc.pow6 Mu + (5 + 9 * pow2 sbeta) * Misc.pow6 mU3) + 2 * mQ32 * Mu2 * (2 *
    mU32 * (-2 + pow2 sbeta) * Misc.pow4 Mu - 4 * Mu2 * (3 + 7 * pow2 sbeta) * Misc.pow4 mU3 + (9 + 8 * pow2 sbeta) *
    Misc.pow6 Mu + 2 * (5 + 9 * pow2 sbeta) * Misc.pow6 mU3)) / (pow2 (mQ32 - Mu2) * pow2 (mQ32 - mU32) * pow2 (Mu2 - mU32)
    * pow2 sbeta) + (4 * pow2 cbeta * pow2 (mQ32 - Mu2) * pow2 (Mu2 - mU32) - 2 * mQ32 * Mu2 * mU32 * (mQ32 + mU32) * (-3 +
    4 * pow2 sbeta) + (-3 + 4 * pow2 sbeta) * Misc.pow4 mQ3 * Misc.pow4 mU3 + Misc.pow4 Mu * (4 * mQ32 * mU32 * (-3 + 4 *
    pow2 sbeta) + 4 * pow2 sbeta * Misc.pow4 mQ3 + (-1 + 4 * pow2 sbeta) * Misc.pow4 mU3) + (mU32 * (2 - 8 * pow2 sbeta) - 8
    * mQ32 * pow2 sbeta) * Misc.pow6 Mu + (2 + 4 * pow2 sbeta) * Misc.pow8 Mu) / (pow2 (mQ32 - Mu2) * pow2 (Mu2 - mU32) *
    pow2 sbeta) + Xt4 * (Misc.pow6 mQ3 * ((mU32 * (70 + 44 * pow2 sbeta) + 9 * pow2 cbeta * pow2 Yt) * Misc.pow4 Mu + 9 *
    pow2 cbeta * pow2 Yt * Misc.pow4 mU3 - 2 * Mu2 * (9 * mU32 * pow2 cbeta * pow2 Yt + (19 + 14 * pow2 sbeta) * Misc.pow4
    mU3) - 4 * (9 + 5 * pow2 sbeta) * Misc.pow6 Mu + (2 + 4 * pow2 sbeta) * Misc.pow6 mU3) + (Mu2 - mU32) * Misc.pow4 mQ3 *
    (3 * mA2 * mU32 * pow2 cbeta * pow2 Yt - 2 * (mU32 * (11 + 9 * pow2 sbeta) + 9 * pow2 cbeta * pow2 Yt) * Misc.pow4 Mu +
    3 * pow2 cbeta * pow2 Yt * Misc.pow4 mU3 - 3 * Mu2 * (mA2 * pow2 cbeta * pow2 Yt - 5 * mU32 * pow2 cbeta * pow2 Yt + (3
    + 2 * pow2 sbeta) * Misc.pow4 mU3) + 10 * (2 + pow2 sbeta) * Misc.pow6 Mu + (13 + 14 * pow2 sbeta) * Misc.pow6 mU3) +
    ((-2) * Mu2 * mU32 * (17 + 10 * pow2 sbeta) + 2 * (9 + 5 * pow2 sbeta) * Misc.pow4 Mu + (17 + 10 * pow2 sbeta) *
    Misc.pow4 mU3) * Misc.pow8 mQ3 - Misc.pow4 Mu * (3 * mA2 * pow2 cbeta * pow2 Yt * Misc.pow4 mU3 + Misc.pow4 Mu * (3 *
    mA2 * pow2 cbeta * pow2 Yt + 3 * mU32 * pow2 cbeta * pow2 Yt + 2 * (8 + 7 * pow2 sbeta) * Misc.pow4 mU3) + 3 * pow2
    cbeta * pow2 Yt * Misc.pow6 mU3 - 2 * Mu2 * (3 * mA2 * mU32 * pow2 cbeta * pow2 Yt + 3 * pow2 cbeta * pow2 Yt *
    Misc.pow4 mU3 + (15 + 14 * pow2 sbeta) * Misc.pow6 mU3) + (15 + 14 * pow2 sbeta) * Misc.pow8 mU3) + mQ32 * Mu2 * (6 *
    mA2 * pow2 cbeta * pow2 Yt * Misc.pow4 mU3 + 2 * Misc.pow4 Mu * (3 * mA2 * pow2 cbeta * pow2 Yt - 6 * mU32 * pow2 cbeta
    * pow2 Yt + 2 * (6 + 5 * pow2 sbeta) * Misc.pow4 mU3) + (mU32 * (2 + 4 * pow2 sbeta) + 9 * pow2 cbeta * pow2 Yt) *
    Misc.pow6 Mu + 6 * pow2 cbeta * pow2 Yt * Misc.pow6 mU3 - Mu2 * (12 * mA2 * mU32 * pow2 cbeta * pow2 Yt + 3 * pow2 cbeta
    * pow2 Yt * Misc.pow4 mU3 + (50 + 52 * pow2 sbeta) * Misc.pow6 mU3) + (26 + 28 * pow2 sbeta) * Misc.pow8 mU3)) / (pow2
    (mQ32 - Mu2) * pow2 (Mu2 - mU32) * pow2 sbeta * Misc.pow4 (mQ32 - mU32))

/-- a part of the formula; ThresholdCalculator.cpp:1407-1771 -/
def k26 (a : Arg F) : F :=
  let mQ32 := a.mQ32; let mU32 := a.mU32; let mQ3 := a.mQ3; let mU3 := a.mU3;
  let mA2 := a.mA2; let Mu := a.Mu; let Mu2 := a.Mu2; let sbeta := a.sbeta;
  let cbeta := a.cbeta; let Yt := a.Yt; let Xt4 := a.Xt4;
  3 * Xt4 * (-(pow2 cbeta * (7 * mU32 * pow2 Yt * Misc.pow4 mQ3 + mA2 * (2 * mQ32 * mU32 * pow2 Yt + (12 * mU32 - pow2 Yt) *
    Misc.pow4 mQ3 - pow2 Yt * Misc.pow4 mU3) - 3 * (mU32 - pow2 Yt) * Misc.pow6 mQ3 + pow2 Yt * Misc.pow6 mU3 + mQ32 * (13 *
    pow2 Yt * Misc.pow4 mU3 + 3 * Misc.pow6 mU3)) / mU32) - ((-2) * (-1 + 2 * pow2 sbeta) * pow2 (-(Mu * mU32) + Misc.pow3
    Mu) * Misc.pow6 mU3 + Misc.pow6 mQ3 * (2 * mU32 * (113 + 50 * pow2 sbeta) * Misc.pow4 Mu - Mu2 * (233 + 164 * pow2
    sbeta) * Misc.pow4 mU3 - 3 * (21 + 4 * pow2 sbeta) * Misc.pow6 Mu + 2 * (41 + 38 * pow2 sbeta) * Misc.pow6 mU3) + ((-24)
    * Mu2 * mU32 * (4 + pow2 sbeta) + (43 + 12 * pow2 sbeta) * Misc.pow4 Mu + (49 + 12 * pow2 sbeta) * Misc.pow4 mU3) *
    Misc.pow8 mQ3 + mQ32 * mU32 * ((-2) * (83 + 90 * pow2 sbeta) * Misc.pow4 Mu * Misc.pow4 mU3 + mU32 * (67 + 92 * pow2
    sbeta) * Misc.pow6 Mu + 3 * Mu2 * (31 + 28 * pow2 sbeta) * Misc.pow6 mU3 + 12 * Misc.pow8 Mu + 2 * (-1 + 2 * pow2 sbeta)
    * Misc.pow8 mU3) + Misc.pow4 mQ3 * (3 * (39 + 20 * pow2 sbeta) * Misc.pow4 Mu * Misc.pow4 mU3 - 2 * mU32 * (75 + 38 *
    pow2 sbeta) * Misc.pow6 Mu + 18 * Mu2 * (5 + 6 * pow2 sbeta) * Misc.pow6 mU3 + 24 * Misc.pow8 Mu - (93 + 92 * pow2
    sbeta) * Misc.pow8 mU3)) / ((mQ32 - Mu2) * pow2 (Mu2 - mU32))) / (mQ32 * pow2 sbeta * Misc.pow4 (mQ32 - mU32))

/-- a part of the formula; ThresholdCalculator.cpp:1407-1771 -/
def k27 (a : Arg F) : F :=
  let mQ32 := a.mQ32; let mU32 := a.mU32; let mQ3 := a.mQ3; let mU3 := a.mU3;
  let Mu := a.Mu; let Mu2 := a.Mu2; let Xt2 := a.Xt2; let Xt4 := a.Xt4;
  -(Misc.pow4 mQ3 * (4 * Mu2 * mU32 + Misc.pow4 Mu - 2 * Misc.pow4 mU3)) + 2 * mQ32 * (4 * mU32 * Misc.pow4 Mu - 2 * Mu2 *
    Misc.pow4 mU3 + Misc.pow6 Mu) - 3 * Misc.pow8 Mu + Xt4 * (Misc.pow6 mQ3 * (44 * mU32 * Misc.pow4 Mu - 28 * Mu2 *
    Misc.pow4 mU3 - 18 * Misc.pow6 Mu + 4 * Misc.pow6 mU3) + ((-8) * Mu2 * mU32 + 3 * Misc.pow4 Mu + 4 * Misc.pow4 mU3) *
    Misc.pow8 mQ3 + Misc.pow4 mU3 * Misc.pow8 Mu - 2 * mQ32 * Mu2 * (9 * Misc.pow4 Mu * Misc.pow4 mU3 - 14 * mU32 *
    Misc.pow6 Mu + 2 * Mu2 * Misc.pow6 mU3 + 6 * Misc.pow8 Mu - 2 * Misc.pow8 mU3) + Misc.pow4 mQ3 * (41 * Misc.pow4 Mu *
    Misc.pow4 mU3 - 60 * mU32 * Misc.pow6 Mu - 4 * Mu2 * Misc.pow6 mU3 + 25 * Misc.pow8 Mu - 2 * Misc.pow8 mU3)) / Misc.pow4
    (mQ32 - mU32) - 2 * Xt2 * (((-4) * Mu2 * mU32 + Misc.pow4 Mu + 2 * Misc.pow4 mU3) * Misc.pow6 mQ3 + Misc.pow4 mQ3 * (13
    * mU32 * Misc.pow4 Mu - 6 * Mu2 * Misc.pow4 mU3 - 4 * Misc.pow6 Mu) - 6 * Misc.pow4 mU3 * Misc.pow6 Mu + 2 * Misc.pow4
    Mu * Misc.pow6 mU3 + 7 * mU32 * Misc.pow8 Mu + mQ32 * (4 * Misc.pow4 Mu * Misc.pow4 mU3 - 10 * mU32 * Misc.pow6 Mu + 3 *
    Misc.pow8 Mu) - 2 * Misc.power10 Mu) / pow2 (mQ32 - mU32)

/-- a part of the formula; ThresholdCalculator.cpp:1407-1771 -/
def k28 (dilog : F → F) (a : Arg F) : F :=
  let mQ32 := a.mQ32; let mU32 := a.mU32; let mQ3 := a.mQ3; let mU3 := a.mU3;
  let mA2 := a.mA2; let Mu := a.Mu; let Mu2 := a.Mu2; let sbeta := a.sbeta;
  let cbeta := a.cbeta; let Yt := a.Yt; let Xt4 := a.Xt4;
  6 * Xt4 * ((-6) * mQ32 * (mQ32 - Mu2) * (Mu2 - mU32) * mU32 * dilog (1 - mQ32 / mU32) * pow2 (mQ32 - mU32) * pow2 sbeta +
    3 * mA2 * mU32 * pow2 cbeta * Misc.pow4 mQ3 * Misc.pow4 Mu + 9 * mU32 * pow2 cbeta * pow2 Yt * Misc.pow4 mQ3 * Misc.pow4
    Mu + 2 * mQ32 * (mQ32 - Mu2) * (Mu2 - mU32) * mU32 * dilog (1 - mQ32 / Mu2) * (mQ32 * ((-6) * Mu2 + 2 * mU32) + 2 *
    Misc.pow4 mQ3 + 3 * Misc.pow4 Mu - Misc.pow4 mU3) + 3 * mA2 * Mu2 * pow2 cbeta * Misc.pow4 mQ3 * Misc.pow4 mU3 + 3 * Mu2
    * pow2 cbeta * pow2 Yt * Misc.pow4 mQ3 * Misc.pow4 mU3 - 6 * mA2 * mQ32 * pow2 cbeta * Misc.pow4 Mu * Misc.pow4 mU3 - 12
    * mQ32 * pow2 cbeta * pow2 Yt * Misc.pow4 Mu * Misc.pow4 mU3 - 73 * Misc.pow4 mQ3 * Misc.pow4 Mu * Misc.pow4 mU3 + 22 *
    dilog (1 - mU32 / Mu2) * Misc.pow4 mQ3 * Misc.pow4 Mu * Misc.pow4 mU3 + 6 * pow2 cbeta * Misc.pow4 mQ3 * Misc.pow4 Mu *
    Misc.pow4 mU3 - 114 * pow2 sbeta * Misc.pow4 mQ3 * Misc.pow4 Mu * Misc.pow4 mU3 - 5 * mA2 * Mu2 * mU32 * pow2 cbeta *
    Misc.pow6 mQ3 - 11 * Mu2 * mU32 * pow2 cbeta * pow2 Yt * Misc.pow6 mQ3 + 56 * mU32 * Misc.pow4 Mu * Misc.pow6 mQ3 + 16 *
    mU32 * dilog (1 - mU32 / Mu2) * Misc.pow4 Mu * Misc.pow6 mQ3 + 2 * mA2 * pow2 cbeta * Misc.pow4 Mu * Misc.pow6 mQ3 - 3 *
    mU32 * pow2 cbeta * Misc.pow4 Mu * Misc.pow6 mQ3 + 62 * mU32 * pow2 sbeta * Misc.pow4 Mu * Misc.pow6 mQ3 + 2 * pow2
    cbeta * pow2 Yt * Misc.pow4 Mu * Misc.pow6 mQ3 + 21 * Mu2 * Misc.pow4 mU3 * Misc.pow6 mQ3 - 20 * Mu2 * dilog (1 - mU32 /
    Mu2) * Misc.pow4 mU3 * Misc.pow6 mQ3 + 3 * mA2 * pow2 cbeta * Misc.pow4 mU3 * Misc.pow6 mQ3 - 3 * Mu2 * pow2 cbeta *
    Misc.pow4 mU3 * Misc.pow6 mQ3 + 52 * Mu2 * pow2 sbeta * Misc.pow4 mU3 * Misc.pow6 mQ3 + 9 * pow2 cbeta * pow2 Yt *
    Misc.pow4 mU3 * Misc.pow6 mQ3 - 12 * mU32 * Misc.pow4 mQ3 * Misc.pow6 Mu - 18 * mU32 * dilog (1 - mU32 / Mu2) *
    Misc.pow4 mQ3 * Misc.pow6 Mu + 18 * mQ32 * Misc.pow4 mU3 * Misc.pow6 Mu - 6 * mQ32 * dilog (1 - mU32 / Mu2) * Misc.pow4
    mU3 * Misc.pow6 Mu - 4 * Misc.pow6 mQ3 * Misc.pow6 Mu + 5 * mA2 * mQ32 * Mu2 * pow2 cbeta * Misc.pow6 mU3 + 11 * mQ32 *
    Mu2 * pow2 cbeta * pow2 Yt * Misc.pow6 mU3 + 61 * Mu2 * Misc.pow4 mQ3 * Misc.pow6 mU3 - 2 * Mu2 * dilog (1 - mU32 / Mu2)
    * Misc.pow4 mQ3 * Misc.pow6 mU3 - 6 * mA2 * pow2 cbeta * Misc.pow4 mQ3 * Misc.pow6 mU3 - 3 * Mu2 * pow2 cbeta *
    Misc.pow4 mQ3 * Misc.pow6 mU3 + 56 * Mu2 * pow2 sbeta * Misc.pow4 mQ3 * Misc.pow6 mU3 - 12 * pow2 cbeta * pow2 Yt *
    Misc.pow4 mQ3 * Misc.pow6 mU3 + 8 * mQ32 * Misc.pow4 Mu * Misc.pow6 mU3 - 2 * mQ32 * dilog (1 - mU32 / Mu2) * Misc.pow4
    Mu * Misc.pow6 mU3 + mA2 * pow2 cbeta * Misc.pow4 Mu * Misc.pow6 mU3 - 3 * mQ32 * pow2 cbeta * Misc.pow4 Mu * Misc.pow6
    mU3 + 58 * mQ32 * pow2 sbeta * Misc.pow4 Mu * Misc.pow6 mU3 + pow2 cbeta * pow2 Yt * Misc.pow4 Mu * Misc.pow6 mU3 - 79 *
    Misc.pow6 mQ3 * Misc.pow6 mU3 + 4 * dilog (1 - mU32 / Mu2) * Misc.pow6 mQ3 * Misc.pow6 mU3 + 6 * pow2 cbeta * Misc.pow6
    mQ3 * Misc.pow6 mU3 - 114 * pow2 sbeta * Misc.pow6 mQ3 * Misc.pow6 mU3 - 2 * Misc.pow6 Mu * Misc.pow6 mU3 - 50 * Mu2 *
    mU32 * Misc.pow8 mQ3 - 4 * Mu2 * mU32 * dilog (1 - mU32 / Mu2) * Misc.pow8 mQ3 - 2 * mA2 * Mu2 * pow2 cbeta * Misc.pow8
    mQ3 + 2 * mA2 * mU32 * pow2 cbeta * Misc.pow8 mQ3 + 3 * Mu2 * mU32 * pow2 cbeta * Misc.pow8 mQ3 - 58 * Mu2 * mU32 * pow2
    sbeta * Misc.pow8 mQ3 - 2 * Mu2 * pow2 cbeta * pow2 Yt * Misc.pow8 mQ3 + 2 * mU32 * pow2 cbeta * pow2 Yt * Misc.pow8 mQ3
    + 6 * Misc.pow4 Mu * Misc.pow8 mQ3 - 4 * pow2 sbeta * Misc.pow4 Mu * Misc.pow8 mQ3 + 46 * Misc.pow4 mU3 * Misc.pow8 mQ3
    + 4 * dilog (1 - mU32 / Mu2) * Misc.pow4 mU3 * Misc.pow8 mQ3 - 3 * pow2 cbeta * Misc.pow4 mU3 * Misc.pow8 mQ3 + 62 *
    pow2 sbeta * Misc.pow4 mU3 * Misc.pow8 mQ3 + 6 * mQ32 * mU32 * dilog (1 - mU32 / Mu2) * Misc.pow8 Mu - 29 * mQ32 * Mu2 *
    Misc.pow8 mU3 + 2 * mQ32 * Mu2 * dilog (1 - mU32 / Mu2) * Misc.pow8 mU3 + mA2 * mQ32 * pow2 cbeta * Misc.pow8 mU3 - mA2
    * Mu2 * pow2 cbeta * Misc.pow8 mU3 + 3 * mQ32 * Mu2 * pow2 cbeta * Misc.pow8 mU3 - 56 * mQ32 * Mu2 * pow2 sbeta *
    Misc.pow8 mU3 + mQ32 * pow2 cbeta * pow2 Yt * Misc.pow8 mU3 - Mu2 * pow2 cbeta * pow2 Yt * Misc.pow8 mU3 + 30 *
    Misc.pow4 mQ3 * Misc.pow8 mU3 - 2 * dilog (1 - mU32 / Mu2) * Misc.pow4 mQ3 * Misc.pow8 mU3 - 3 * pow2 cbeta * Misc.pow4
    mQ3 * Misc.pow8 mU3 + 58 * pow2 sbeta * Misc.pow4 mQ3 * Misc.pow8 mU3 + 3 * Misc.pow4 Mu * Misc.pow8 mU3 - 2 * pow2
    sbeta * Misc.pow4 Mu * Misc.pow8 mU3 - 2 * Mu2 * Misc.power10 mQ3 + 2 * mU32 * Misc.power10 mQ3 + 4 * Mu2 * pow2 sbeta *
    Misc.power10 mQ3 - 4 * mU32 * pow2 sbeta * Misc.power10 mQ3 + mQ32 * Misc.power10 mU3 - Mu2 * Misc.power10 mU3 - 2 *
    mQ32 * pow2 sbeta * Misc.power10 mU3 + 2 * Mu2 * pow2 sbeta * Misc.power10 mU3) / (mQ32 * (mQ32 - Mu2) * (Mu2 - mU32) *
    mU32 * pow2 sbeta * Misc.pow4 (mQ32 - mU32))

/-- a part of the formula; ThresholdCalculator.cpp:1407-1771 -/
def k29 (a : Arg F) : F :=
  let mQ32 := a.mQ32; let mU32 := a.mU32; let mQ3 := a.mQ3; let mU3 := a.mU3;
  let mA := a.mA; let mA2 := a.mA2; let sbeta := a.sbeta; let cbeta := a.cbeta;
  let Xt := a.Xt; let Yt := a.Yt; let Xt2 := a.Xt2; let Xt4 := a.Xt4;
  let Xt6 := a.Xt6;
  48 * Yt * pow2 cbeta * Misc.pow3 Xt / (pow2 (mQ32 - mU32) * pow2 sbeta) + pow2 cbeta * pow2 (-mQ32 + mU32 + Xt2) * pow2 Yt
    * (pow2 (mQ32 - mU32) - Misc.pow4 mA) / (mU32 * deltaxyz mA2 mU32 mQ32 * pow2 (mQ32 - mU32) * pow2 sbeta) + 2 * Xt6 * (5
    * mQ32 * mU32 + 2 * Misc.pow4 mQ3 - Misc.pow4 mU3) / (mQ32 * mU32 * Misc.pow3 (mQ32 - mU32)) + pow2 cbeta * pow2 Yt *
    (mA2 * (3 * mQ32 + 5 * mU32) * pow2 (mQ32 - mU32) - Misc.pow4 mA * (4 * mQ32 * mU32 + 3 * Misc.pow4 mQ3 + 5 * Misc.pow4
    mU3) - Misc.pow4 (mQ32 - mU32) + (mQ32 + mU32) * Misc.pow6 mA + 2 * Xt2 * (Misc.pow4 mA * (2 * mQ32 * mU32 + 3 *
    Misc.pow4 mQ3 - Misc.pow4 mU3) + Misc.pow4 (mQ32 - mU32) - mQ32 * Misc.pow6 mA + mA2 * (2 * mU32 * Misc.pow4 mQ3 + mQ32
    * Misc.pow4 mU3 - 3 * Misc.pow6 mQ3)) / (mQ32 - mU32) + Xt4 * ((-3) * (mQ32 + mU32) * Misc.pow4 mA + 3 * mU32 *
    Misc.pow4 mQ3 + mQ32 * Misc.pow4 mU3 + mA2 * (3 * Misc.pow4 mQ3 + 5 * Misc.pow4 mU3) + Misc.pow6 mA - Misc.pow6 mQ3 - 3
    * Misc.pow6 mU3) / (mQ32 - mU32)) / (mQ32 * deltaxyz mA2 mQ32 mU32 * pow2 sbeta * Misc.pow4 mU3)

/-- a part of the formula; ThresholdCalculator.cpp:1407-1771 -/
def k30 (a : Arg F) : F :=
  let mQ32 := a.mQ32; let mU32 := a.mU32; let mQ3 := a.mQ3; let mU3 := a.mU3;
  let Mu := a.Mu; let Mu2 := a.Mu2;
  2 * mQ32 * Mu2 * mU32 * (mQ32 + mU32) - Misc.pow4 mQ3 * Misc.pow4 mU3 + Misc.pow4 Mu * ((-4) * mQ32 * mU32 + Misc.pow4
    mU3) - 2 * mU32 * Misc.pow6 Mu + 2 * Misc.pow8 Mu

/-- a part of the formula; ThresholdCalculator.cpp:1407-1771 -/
def k31 (a : Arg F) : F :=
  let mQ32 := a.mQ32; let mU32 := a.mU32; let mQ3 := a.mQ3; let mU3 := a.mU3;
  let mA2 := a.mA2; let Mu := a.Mu; let Mu2 := a.Mu2; let sbeta := a.sbeta;
  let cbeta := a.cbeta; let Yt := a.Yt; let Xt2 := a.Xt2;
  2 * Xt2 * (Mu2 * (Mu2 - mU32) * (mU32 * (-2 + pow2 sbeta) - pow2 cbeta * pow2 Yt) * Misc.pow4 mU3 + (Mu2 - mU32) * (2 *
    mU32 * (-2 + pow2 sbeta) - pow2 cbeta * pow2 Yt) * Misc.pow6 mQ3 + Misc.pow4 mQ3 * (-(mA2 * mU32 * pow2 cbeta * pow2 Yt)
    + ((-2) * mU32 * (-2 + pow2 sbeta) + pow2 cbeta * pow2 Yt) * Misc.pow4 Mu + pow2 cbeta * pow2 Yt * Misc.pow4 mU3 + Mu2 *
    (mA2 * pow2 cbeta * pow2 Yt - 2 * mU32 * pow2 cbeta * pow2 Yt + (-12 + 2 * pow2 cbeta + 3 * pow2 sbeta) * Misc.pow4 mU3)
    - (-4 + 2 * pow2 cbeta + pow2 sbeta) * Misc.pow6 mU3) + mQ32 * (-(Misc.pow4 Mu * (mA2 * pow2 cbeta * pow2 Yt - mU32 *
    pow2 cbeta * pow2 Yt + (-4 + 2 * pow2 cbeta + pow2 sbeta) * Misc.pow4 mU3)) - pow2 cbeta * pow2 Yt * Misc.pow6 mU3 + Mu2
    * (mA2 * mU32 * pow2 cbeta * pow2 Yt + 2 * (1 + pow2 cbeta) * Misc.pow6 mU3) + (-2 + pow2 sbeta) * Misc.pow8 mU3)) /
    (mQ32 * (mQ32 - Mu2) * (mQ32 - mU32) * (Mu2 - mU32) * pow2 sbeta * Misc.pow4 mU3)

/-- a part of the formula; ThresholdCalculator.cpp:1407-1771 -/
def k32 (a : Arg F) : F :=
  let mQ32 := a.mQ32; let mU32 := a.mU32; let mQ3 := a.mQ3; let mU3 := a.mU3;
  let mA2 := a.mA2; let Mu := a.Mu; let Mu2 := a.Mu2; let sbeta := a.sbeta;
  let cbeta := a.cbeta; let Yt := a.Yt; let Xt4 := a.Xt4;
  Xt4 * (-(pow2 (Mu2 - mU32) * Misc.pow4 Mu * Misc.pow4 mU3 * (-(mA2 * pow2 cbeta * pow2 Yt) + mU32 * pow2 cbeta * pow2 Yt +
    (-2 + 4 * pow2 sbeta) * Misc.pow4 mU3)) + Misc.pow8 mQ3 * (mA2 * pow2 cbeta * pow2 Yt * Misc.pow4 mU3 + Misc.pow4 Mu *
    (mA2 * pow2 cbeta * pow2 Yt - 4 * mU32 * pow2 cbeta * pow2 Yt - 2 * (47 + 18 * pow2 sbeta) * Misc.pow4 mU3) + 2 * (mU32
    * (4 - 8 * pow2 sbeta) + pow2 cbeta * pow2 Yt) * Misc.pow6 Mu + 2 * Mu2 * (-(mA2 * mU32 * pow2 cbeta * pow2 Yt) + pow2
    cbeta * pow2 Yt * Misc.pow4 mU3 + (78 + 60 * pow2 sbeta) * Misc.pow6 mU3) - 2 * (37 + 34 * pow2 sbeta) * Misc.pow8 mU3)
    + Misc.pow6 mQ3 * (2 * (-(mA2 * pow2 cbeta * pow2 Yt) + mU32 * pow2 cbeta * pow2 Yt + (88 + 60 * pow2 sbeta) * Misc.pow4
    mU3) * Misc.pow6 Mu + 2 * (-(mA2 * pow2 cbeta * pow2 Yt) - 5 * mU32 * pow2 cbeta * pow2 Yt + (26 + 32 * pow2 sbeta) *
    Misc.pow4 mU3) * Misc.pow6 mU3 - Misc.pow4 Mu * ((-2) * mA2 * mU32 * pow2 cbeta * pow2 Yt + 11 * pow2 cbeta * pow2 Yt *
    Misc.pow4 mU3 + 4 * (67 + 50 * pow2 sbeta) * Misc.pow6 mU3) + (mU32 * (-4 + 8 * pow2 sbeta) - pow2 cbeta * pow2 Yt) *
    Misc.pow8 Mu + 2 * Mu2 * (mA2 * pow2 cbeta * pow2 Yt * Misc.pow4 mU3 + 10 * pow2 cbeta * pow2 Yt * Misc.pow6 mU3 + 4 *
    (7 + pow2 sbeta) * Misc.pow8 mU3)) + Misc.pow4 mQ3 * ((-2) * Mu2 * (-(mA2 * pow2 cbeta * pow2 Yt) - 11 * mU32 * pow2
    cbeta * pow2 Yt + 6 * (9 + 10 * pow2 sbeta) * Misc.pow4 mU3) * Misc.pow6 mU3 + 2 * Misc.pow6 Mu * (mA2 * mU32 * pow2
    cbeta * pow2 Yt + 10 * pow2 cbeta * pow2 Yt * Misc.pow4 mU3 + (50 + 4 * pow2 sbeta) * Misc.pow6 mU3) + (mA2 * pow2 cbeta
    * pow2 Yt - 2 * (55 + 34 * pow2 sbeta) * Misc.pow4 mU3) * Misc.pow8 Mu + (mA2 * pow2 cbeta * pow2 Yt - mU32 * pow2 cbeta
    * pow2 Yt + (2 - 4 * pow2 sbeta) * Misc.pow4 mU3) * Misc.pow8 mU3 + Misc.pow4 Mu * ((-6) * mA2 * pow2 cbeta * pow2 Yt *
    Misc.pow4 mU3 - 41 * pow2 cbeta * pow2 Yt * Misc.pow6 mU3 + 8 * (13 + 23 * pow2 sbeta) * Misc.pow8 mU3)) + 2 * mQ32 *
    Mu2 * mU32 * ((-(mA2 * pow2 cbeta * pow2 Yt) - 5 * mU32 * pow2 cbeta * pow2 Yt + 4 * (5 + 8 * pow2 sbeta) * Misc.pow4
    mU3) * Misc.pow6 Mu + (-(mA2 * pow2 cbeta * pow2 Yt) + mU32 * pow2 cbeta * pow2 Yt + (-2 + 4 * pow2 sbeta) * Misc.pow4
    mU3) * Misc.pow6 mU3 + Misc.pow4 Mu * (mA2 * mU32 * pow2 cbeta * pow2 Yt + 11 * pow2 cbeta * pow2 Yt * Misc.pow4 mU3 - 4
    * (14 + 15 * pow2 sbeta) * Misc.pow6 mU3) + 6 * mU32 * Misc.pow8 Mu + Mu2 * (mA2 * pow2 cbeta * pow2 Yt * Misc.pow4 mU3
    - 7 * pow2 cbeta * pow2 Yt * Misc.pow6 mU3 + (34 + 24 * pow2 sbeta) * Misc.pow8 mU3)) + pow2 (Mu2 - mU32) * (mU32 * (-4
    + 8 * pow2 sbeta) - pow2 cbeta * pow2 Yt) * Misc.power10 mQ3) / (mQ32 * pow2 (mQ32 - Mu2) * pow2 (Mu2 - mU32) * pow2
    sbeta * Misc.pow3 (mQ32 - mU32) * Misc.pow4 mU3)

/-- a part of the formula; ThresholdCalculator.cpp:1407-1771 -/
def k33 (a : Arg F) : F :=
  let mQ32 := a.mQ32; let mU32 := a.mU32; let mQ3 := a.mQ3; let mU3 := a.mU3;
  let mA2 := a.mA2; let Mu := a.Mu; let Mu2 := a.Mu2; let sbeta := a.sbeta;
  let cbeta := a.cbeta; let Yt := a.Yt;
  (mU32 * pow2 (Mu2 - mU32) * Misc.pow4 Mu * (-(mA2 * pow2 cbeta * pow2 Yt) + 3 * mU32 * pow2 cbeta * pow2 Yt + 2 *
    Misc.pow4 mU3) + pow2 (Mu2 - mU32) * (4 * mU32 + pow2 cbeta * pow2 Yt) * Misc.pow8 mQ3 - Misc.pow6 mQ3 * (mA2 * pow2
    cbeta * pow2 Yt * Misc.pow4 mU3 + Misc.pow4 Mu * (mA2 * pow2 cbeta * pow2 Yt - 5 * mU32 * pow2 cbeta * pow2 Yt + 2 *
    (-16 + 7 * pow2 cbeta + 10 * pow2 sbeta) * Misc.pow4 mU3) + 2 * (4 * mU32 + pow2 cbeta * pow2 Yt) * Misc.pow6 Mu - pow2
    cbeta * pow2 Yt * Misc.pow6 mU3 - 2 * Mu2 * (mA2 * mU32 * pow2 cbeta * pow2 Yt - 2 * pow2 cbeta * pow2 Yt * Misc.pow4
    mU3 + 2 * (-6 + 7 * pow2 cbeta + 10 * pow2 sbeta) * Misc.pow6 mU3) + 2 * (-3 + 7 * pow2 cbeta + 10 * pow2 sbeta) *
    Misc.pow8 mU3) + Misc.pow4 mQ3 * (2 * (mA2 * pow2 cbeta * pow2 Yt - 2 * mU32 * pow2 cbeta * pow2 Yt + 2 * (-10 + 7 *
    pow2 cbeta + 10 * pow2 sbeta) * Misc.pow4 mU3) * Misc.pow6 Mu + (-(mA2 * pow2 cbeta * pow2 Yt) + 3 * mU32 * pow2 cbeta *
    pow2 Yt + 2 * Misc.pow4 mU3) * Misc.pow6 mU3 + Misc.pow4 Mu * ((-5) * mA2 * mU32 * pow2 cbeta * pow2 Yt + 8 * pow2 cbeta
    * pow2 Yt * Misc.pow4 mU3 + (38 - 56 * pow2 cbeta - 80 * pow2 sbeta) * Misc.pow6 mU3) + (4 * mU32 + pow2 cbeta * pow2
    Yt) * Misc.pow8 Mu + 4 * Mu2 * (mA2 * pow2 cbeta * pow2 Yt * Misc.pow4 mU3 - 2 * pow2 cbeta * pow2 Yt * Misc.pow6 mU3 +
    (-4 + 7 * pow2 cbeta + 10 * pow2 sbeta) * Misc.pow8 mU3)) - mQ32 * Mu2 * ((mA2 * pow2 cbeta * pow2 Yt - mU32 * pow2
    cbeta * pow2 Yt + 2 * (-14 + 7 * pow2 cbeta + 10 * pow2 sbeta) * Misc.pow4 mU3) * Misc.pow6 Mu - 2 * mA2 * pow2 cbeta *
    pow2 Yt * Misc.pow6 mU3 - 4 * Misc.pow4 Mu * (mA2 * mU32 * pow2 cbeta * pow2 Yt - 2 * pow2 cbeta * pow2 Yt * Misc.pow4
    mU3 + (-11 + 7 * pow2 cbeta + 10 * pow2 sbeta) * Misc.pow6 mU3) + 6 * pow2 cbeta * pow2 Yt * Misc.pow8 mU3 + Mu2 * (5 *
    mA2 * pow2 cbeta * pow2 Yt * Misc.pow4 mU3 - 13 * pow2 cbeta * pow2 Yt * Misc.pow6 mU3 + 2 * (-13 + 7 * pow2 cbeta + 10
    * pow2 sbeta) * Misc.pow8 mU3) + 4 * Misc.power10 mU3)) / (mQ32 * pow2 (mQ32 - Mu2) * pow2 (Mu2 - mU32) * pow2 sbeta *
    Misc.pow4 mU3)

/-- the formula in the general case; ThresholdCalculator.cpp:1407-1771.  The largest subexpressions without logarithms are
the parts `k1` … `k33`; `lA` stands for `log(mA2/MR2)`, `lUQ` for `log(mU32/mQ32)`. -/
def formula (dilog : F → F) (phi : F → F → F → F) (a : Arg F) (lA lmQ3MR lmUMR lUQ : F) : F :=
  18 * pow2 a.cbeta * pow2 lA / pow2 a.sbeta - (k1 a) - (k2 dilog a) + (k3 phi a) + (k4 dilog a) + 3 * lA * pow2 a.cbeta *
    ((-12) * lmQ3MR + (k5 a) + (k6 a) + (k7 a) + (k8 a) + (k9 a)) / pow2 a.sbeta + (k10 dilog a) + (k11 phi a) + 12 * pow2
    lmUMR * (k12 a) / (pow2 (a.mQ32 - a.Mu2) * pow2 (a.Mu2 - a.mU32) * pow2 a.sbeta) + 6 * pow2 lmQ3MR * (k13 a) / (pow2
    (a.mQ32 - a.Mu2) * pow2 (a.Mu2 - a.mU32) * pow2 a.sbeta) + 6 * lmUMR * (k14 a) / (k15 a) + (k16 phi a) + pow2 lUQ * (k17
    a) + (k18 phi a) + lUQ * ((k19 a) + 6 * lA * pow2 a.cbeta * (k20 a) / pow2 a.sbeta + (k21 a) + (k22 a) + (k23 a) - (k24
    a) + 6 * lmQ3MR * (k25 a) + (k26 a) + 6 * lmUMR * (k27 a) / (pow2 (a.mQ32 - a.Mu2) * pow2 (a.Mu2 - a.mU32) * pow2
    a.sbeta)) + (k28 dilog a) + 3 * lmQ3MR * ((k29 a) - 8 * lmUMR * (k30 a) / (pow2 (a.mQ32 - a.Mu2) * pow2 (a.Mu2 - a.mU32)
    * pow2 a.sbeta) + (k31 a) - (k32 a) + (k33 a))

end Yt6

/-- `f1HD`; ThresholdCalculator.cpp:34-43 -/
def f1HD (x : F) : F :=
  let x2 := pow2 x
  let den := 1 - x2
  if lt (abs den) (lit (1 / 100000)) then -1 else x2 / den * log x2

/-- `f2HD`; ThresholdCalculator.cpp:46-55 -/
def f2HD (x : F) : F :=
  let x2 := pow2 x
  let den := 1 - x2
  if lt (abs den) (lit (1 / 100000)) then lit (1 / 2) else (1 + x2 / den * log x2) / den

/-- `f3HD`; ThresholdCalculator.cpp:58-77; the real part of the complex logarithm of `den` is `log |den|` -/
def f3HD (dilog : F → F) (x : F) : F :=
  let x2 := pow2 x
  let den := 1 - x2
  if lt (abs den) (lit (1 / 100000)) then -9 / 4 else
  let logx2 := log x2;
  (-1 + x2 * (2 + 2 * x2)) / pow2 den * (logx2 * log (abs den) + dilog x2 - const .z2 - x2 * logx2)

/-- `getDeltaLambdaYt6_SUSYHD`; ThresholdCalculator.cpp:1334-1374 -/
def TcObj.dLamYt6HD (dilog : F → F) (c : TcObj F) (omitLogs : Int) : F :=
  let mQ32 := (c.p.mq2 2 2)
  let mU32 := (c.p.mu2 2 2)
  let mQ3 := sqrt mQ32
  let mU3 := sqrt mU32
  let Xt := (calcXt c.p)
  let mst2 := mQ3 * mU3
  let mst := sqrt mst2
  let xt := Xt / mst
  let muhat := c.p.mu / mst
  let beta := (eftBeta c.p)
  let cb2 := pow2 ((eftCosBeta c.p))
  let sb2 := pow2 ((eftSinBeta c.p))
  let s2b := sin (2 * beta)
  let Q2 := pow2 c.p.scale
  let lmst2Q2 := (ofInt omitLogs) * log (mst2 / Q2)
  let dlam := 3 * (lit (1/2) - lit (104374144986383/12500000000000) * cb2 - 4 * lmst2Q2 + 13 * cb2 * lmst2Q2 + 12 * cb2 *
    (lit (4173653333333327/100000000000000000) + lmst2Q2) * xt * (2 * muhat / s2b + xt) - 8 * f1HD muhat + 4 * f3HD dilog
    muhat + 3 * pow2 lmst2Q2 - 3 * cb2 * pow2 lmst2Q2 + 6 * pow2 muhat - 6 * lmst2Q2 * pow2 muhat - 2 * f1HD muhat * pow2
    muhat + 3 * f2HD muhat * pow2 muhat + 3 * cb2 * (lit (4173653333333327/100000000000000000) + lmst2Q2) * pow2 (2 * muhat
    / s2b + xt) + pow2 xt * (-7 + lit (3076221/156250) * cb2 + 27 * lmst2Q2 - 24 * cb2 * lmst2Q2 + 4 * f1HD muhat - 4 * f2HD
    muhat - 6 * pow2 muhat + 6 * lmst2Q2 * pow2 muhat - 6 * f1HD muhat * pow2 muhat - 6 * f2HD muhat * pow2 muhat - 3 * cb2
    * (lit (7049244444444251/1000000000000000000) + lmst2Q2) * pow2 (2 * muhat / s2b + xt)) - 2 * cb2 * (-(lit
    (4373952000000001/10000000000000000)) + lmst2Q2) * (2 * muhat / s2b + xt) * Misc.pow3 xt + (22 - 25 * cb2 - 26 * lmst2Q2
    + 24 * cb2 * lmst2Q2 - 2 * f1HD muhat + 2 * f2HD muhat + 4 * pow2 muhat - 4 * lmst2Q2 * pow2 muhat + 4 * f1HD muhat *
    pow2 muhat + 2 * f2HD muhat * pow2 muhat + 2 * cb2 * (-(lit (4145706666666671/100000000000000000)) + lmst2Q2) * pow2 (2
    * muhat + s2b * xt) / pow2 s2b) * Misc.pow4 xt / 4 - (-1 + cb2) * (-1 + lmst2Q2) * Misc.pow6 xt / 2) / sb2
  2 * dlam

/-- `getDeltaLambdaYt6`; ThresholdCalculator.cpp:1376-1771 -/
def TcObj.dLamYt6 (dilog : F → F) (phi : F → F → F → F) (c : TcObj F) (omitLogs : Int) : F :=
  let MR2 := pow2 c.p.scale
  let mQ32 := c.p.mq2 2 2
  let mU32 := c.p.mu2 2 2
  let mA := c.p.MA
  let mA2 := pow2 mA
  let Xt := calcXt c.p
  let Xt2 := pow2 Xt
  let lmQ3MR := ofInt omitLogs * log (mQ32 / MR2)
  if Misc.isEqualRel mQ32 mU32 (lit (1 / 10)) && (Misc.isEqualRel mQ32 mA2 (lit (1 / 10)) || Misc.isEqualRel mU32 mA2 (lit (1 / 10)))
  then c.dLamYt6HD dilog omitLogs
  else
    let mQ32 := c.p.mq2 2 2 * lit (102 / 100)
    let mU32 := c.p.mu2 2 2 * lit (98 / 100)
    let Mu := c.p.mu * sqrt (lit (103 / 100))
    let Mu2 := pow2 Mu
    let lmUMR := ofInt omitLogs * log (Mu2 / MR2)
    Yt6.formula dilog phi
      { mQ32 := mQ32, mU32 := mU32, mQ3 := sqrt mQ32, mU3 := sqrt mU32, mA := mA, mA2 := mA2, Mu := Mu, Mu2 := Mu2,
        sbeta := eftSinBeta c.p, cbeta := eftCosBeta c.p, Xt := Xt, Yt := calcYt c.p, Xt2 := Xt2, Xt4 := pow2 Xt2,
        Xt6 := Misc.pow3 Xt2 }
      (log (mA2 / MR2)) lmQ3MR lmUMR (log (mU32 / mQ32))

/-- `getThresholdCorrection` for `LAMBDA_YT6`; ThresholdCalculator.cpp:294-411.  `rest` stands for the other two-loop corrections of
the Yukawa couplings. -/
def yt6Fns (dilog : F → F) (phi : F → F → F → F) (rest : TcObj F → ThrOrder → Int → Except String F) (c : TcObj F) (o : ThrOrder)
    (n : Int) : Except String F :=
  match o with
  | .LAMBDA_YT6 => .ok (c.dLamYt6 dilog phi n)
  | o => rest c o n

/-- all threshold corrections but those in `rest` -/
def thrFns3 (dilog : F → F) (phi : F → F → F → F) (rest : TcObj F → ThrOrder → Int → Except String F) : ThrFns F :=
  thrFns2 dilog (yt6Fns dilog phi rest)

end

end Himalaya
