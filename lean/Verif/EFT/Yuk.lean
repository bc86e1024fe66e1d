import Verif.EFT.Yt6

/-!
# Model of the two-loop threshold corrections with bottom and tau Yukawa couplings

Mechanical transcription (tools/gen_yuk.py) of `getDeltaLambdaYb4G32`, `getDeltaLambdaYb6`, `getDeltaLambdaYtau6`,
`getDeltaLambdaYt2Yb4`, `getDeltaLambdaYt4Yb2`, `getDeltaLambdaYtau4Yb2` and `getDeltaLambdaYtau2Yb4`.  The dilogarithm and `phixyz`
are arguments.  Simplification: `std::pow(x, 1.5)` is modelled as `x * sqrt x`.
-/

set_option linter.unusedVariables false

namespace Himalaya

open FOps
open scoped Himalaya

section
variable {F : Type} [Add F] [Sub F] [Mul F] [Div F] [Neg F] [FOps F]

namespace Yb4G32

/-- local variables of `getDeltaLambdaYb4G32` and values of the functions called in the last `return` statement; ThresholdCalculator.cpp:912-1070 -/
structure Arg (F : Type) where
  Xb : F
  lMR : F
  m3 : F
  m32 : F
  mD3 : F
  mD32 : F
  mQ3 : F
  mQ32 : F
  /-- `log mD3` -/
  log_mD3 : F
  /-- `dilog (1 - m32 / mD32)` -/
  dilog_m32_mD32 : F
  /-- `dilog (1 - m32 / mQ32)` -/
  dilog_m32_mQ32 : F
  /-- `log m3` -/
  log_m3 : F
  /-- `log mQ3` -/
  log_mQ3 : F

/-- the general formula, the last `return` statement of `getDeltaLambdaYb4G32`; ThresholdCalculator.cpp:1022-1069 -/
def formula (a : Arg F) : F :=
  16 * ((-2) * pow2 a.lMR + 16 * a.Xb * (a.m3 * (a.m32 - a.mD32) * (a.m32 - a.mQ32) * a.log_mD3 - (a.m32 - a.mQ32) *
    a.dilog_m32_mD32 * Misc.pow3 a.m3 + (a.m32 - a.mD32) * a.dilog_m32_mQ32 * Misc.pow3 a.m3 + a.lMR * (a.m32 - a.mQ32) *
    a.log_mD3 * Misc.pow3 a.m3 + a.log_m3 * (a.lMR * (-a.mD32 + a.mQ32) + 2 * (a.m32 - a.mQ32) * a.log_mD3 - 2 * (a.m32 -
    a.mD32) * a.log_mQ3) * Misc.pow3 a.m3 - 2 * (a.m32 - a.mQ32) * pow2 a.log_mD3 * Misc.pow3 a.m3 + 2 * (a.m32 - a.mD32) *
    pow2 a.log_mQ3 * Misc.pow3 a.m3 - (a.m32 - a.mD32) * a.log_mQ3 * (-(a.m3 * a.mQ32) + (1 + a.lMR) * Misc.pow3 a.m3)) /
    ((a.m32 - a.mD32) * (a.m32 - a.mQ32) * (a.mD32 - a.mQ32)) - 8 * a.m3 * ((2 * a.m32 - a.mD32 - a.mQ32) * a.dilog_m32_mD32
    + ((-2) * a.m32 + a.mD32 + a.mQ32) * a.dilog_m32_mQ32 + 2 * (-((2 + a.lMR) * (a.mD32 - a.mQ32)) + ((3 + a.lMR) * a.mD32
    + (1 + a.lMR) * a.mQ32 - 4 * a.m32 * a.log_m3) * a.log_mD3 - ((1 + a.lMR) * a.mD32 + (3 + a.lMR) * a.mQ32 - 4 * a.m32 *
    a.log_m3) * a.log_mQ3 + (2 * a.m32 - a.mD32 - a.mQ32) * pow2 a.log_mD3 + ((-2) * a.m32 + a.mD32 + a.mQ32) * pow2
    a.log_mQ3)) * Misc.pow3 a.Xb / Misc.pow3 (a.mD32 - a.mQ32) - 4 * a.dilog_m32_mD32 * Misc.pow4 a.m3 / pow2 (a.m32 -
    a.mD32) - 4 * a.dilog_m32_mQ32 * Misc.pow4 a.m3 / pow2 (a.m32 - a.mQ32) + 2 * pow2 a.Xb * ((-2) * a.m32 / (a.mD32 *
    a.mQ32) - 2 * a.lMR * a.m32 / (a.mD32 * a.mQ32) + 8 * a.lMR * a.log_mD3 / (a.mD32 - a.mQ32) + 4 * (3 * a.m32 - 2 *
    a.mD32) * a.log_mD3 / ((a.m32 - a.mD32) * (a.mD32 - a.mQ32)) - 8 * a.lMR * a.log_mQ3 / (a.mD32 - a.mQ32) + 4 * (3 *
    a.m32 - 2 * a.mQ32) * a.log_mQ3 / ((a.m32 - a.mQ32) * (-a.mD32 + a.mQ32)) + 8 * (a.mD32 + a.mQ32) * a.log_mD3 *
    a.log_mQ3 / pow2 (a.mD32 - a.mQ32) - 4 * (3 * a.mD32 - a.mQ32) * pow2 a.log_mD3 / pow2 (a.mD32 - a.mQ32) + 4 * (a.mD32 -
    3 * a.mQ32) * pow2 a.log_mQ3 / pow2 (a.mD32 - a.mQ32) + 4 * (a.m32 - a.mD32 - a.mQ32) * a.log_m3 * Misc.pow4 a.m3 /
    ((a.m32 - a.mD32) * a.mD32 * (a.m32 - a.mQ32) * a.mQ32)) + 6 * a.log_mD3 * ((-2) * a.m32 * a.mD32 + 2 * Misc.pow4 a.m3 +
    Misc.pow4 a.mD3) / pow2 (a.m32 - a.mD32) - 4 * pow2 a.log_mD3 * ((-2) * a.m32 * a.mD32 + 3 * Misc.pow4 a.m3 + Misc.pow4
    a.mD3) / pow2 (a.m32 - a.mD32) + 2 * (3 + 2 * a.lMR) * a.log_mQ3 * ((-2) * a.m32 * a.mQ32 + 2 * Misc.pow4 a.m3 +
    Misc.pow4 a.mQ3) / pow2 (a.m32 - a.mQ32) - 4 * pow2 a.log_mQ3 * ((-2) * a.m32 * a.mQ32 + 3 * Misc.pow4 a.m3 + Misc.pow4
    a.mQ3) / pow2 (a.m32 - a.mQ32) + 2 * (-(a.mD32 * (a.mD32 - a.mQ32) * a.mQ32 * ((-2) * a.m32 + a.mD32 + a.mQ32) *
    a.dilog_m32_mD32) + a.mD32 * (a.mD32 - a.mQ32) * a.mQ32 * ((-2) * a.m32 + a.mD32 + a.mQ32) * a.dilog_m32_mQ32 - 2 *
    a.mD32 * (a.mD32 - a.mQ32) * a.mQ32 * (2 * a.m32 + 7 * a.mD32 + 3 * a.mQ32) * a.log_mD3 + a.lMR * (a.mD32 - a.mQ32) *
    ((a.mD32 - a.mQ32) * (4 * a.mD32 * a.mQ32 + a.m32 * (a.mD32 + a.mQ32)) - 4 * a.mD32 * a.mQ32 * (a.m32 + a.mD32 + a.mQ32)
    * a.log_mD3) + (6 * a.mD32 * a.mQ32 + a.m32 * (a.mD32 + a.mQ32)) * pow2 (a.mD32 - a.mQ32) - 2 * a.m32 * (a.mD32 +
    a.mQ32) * a.log_m3 * pow2 (a.mD32 - a.mQ32) + 2 * a.mD32 * a.mQ32 * a.log_mQ3 * ((a.mD32 - a.mQ32) * (2 * (1 + a.lMR) *
    a.m32 + (3 + 2 * a.lMR) * a.mD32 + (7 + 2 * a.lMR) * a.mQ32) - 4 * a.log_mD3 * pow2 (a.mD32 + a.mQ32)) + 4 * a.mD32 *
    a.mQ32 * (a.m32 * (a.mD32 - a.mQ32) + 2 * a.mD32 * (a.mD32 + a.mQ32)) * pow2 a.log_mD3 + 4 * a.mD32 * a.mQ32 * (a.m32 *
    (-a.mD32 + a.mQ32) + 2 * a.mQ32 * (a.mD32 + a.mQ32)) * pow2 a.log_mQ3) * Misc.pow4 a.Xb / (a.mD32 * a.mQ32 * Misc.pow4
    (a.mD32 - a.mQ32)) + ((-6) * a.m32 * a.mD32 * a.mQ32 * (a.mD32 + a.mQ32) + 3 * Misc.pow4 a.mD3 * Misc.pow4 a.mQ3 +
    Misc.pow4 a.m3 * (9 * a.mD32 * a.mQ32 + 2 * Misc.pow4 a.mD3 + 2 * Misc.pow4 a.mQ3) - 2 * (a.mD32 + a.mQ32) * Misc.pow6
    a.m3) / (a.mD32 * (-a.m32 + a.mD32) * (a.m32 - a.mQ32) * a.mQ32) - 2 * a.log_m3 * Misc.pow4 a.m3 * ((-4) * a.mD32 *
    a.mQ32 * a.log_mQ3 * pow2 (a.m32 - a.mD32) - 4 * a.mD32 * a.mQ32 * a.log_mD3 * pow2 (a.m32 - a.mQ32) + 2 * a.m32 *
    (a.mD32 + a.mQ32) * pow2 (a.mD32 - a.mQ32) + Misc.pow4 a.m3 * (2 * a.mD32 * a.mQ32 - 4 * Misc.pow4 a.mD3 - 4 * Misc.pow4
    a.mQ3) + a.mD32 * a.mQ32 * (Misc.pow4 a.mD3 + Misc.pow4 a.mQ3) + 2 * a.lMR * a.mD32 * a.mQ32 * ((-2) * a.m32 * (a.mD32 +
    a.mQ32) + 2 * Misc.pow4 a.m3 + Misc.pow4 a.mD3 + Misc.pow4 a.mQ3) + 2 * (a.mD32 + a.mQ32) * Misc.pow6 a.m3) / (a.mD32 *
    a.mQ32 * pow2 (a.m32 - a.mD32) * pow2 (a.m32 - a.mQ32)) + 2 * a.lMR * (2 * a.log_mD3 * ((-2) * a.m32 * a.mD32 + 2 *
    Misc.pow4 a.m3 + Misc.pow4 a.mD3) + (a.m32 - a.mD32) * (3 * a.m32 * a.mD32 * a.mQ32 * (a.mD32 + a.mQ32) - 3 * Misc.pow4
    a.mD3 * Misc.pow4 a.mQ3 - Misc.pow4 a.m3 * (3 * a.mD32 * a.mQ32 + Misc.pow4 a.mD3 + Misc.pow4 a.mQ3) + (a.mD32 + a.mQ32)
    * Misc.pow6 a.m3) / (a.mD32 * (a.m32 - a.mQ32) * a.mQ32)) / pow2 (a.m32 - a.mD32))

end Yb4G32

/-- `getDeltaLambdaYb4G32`; ThresholdCalculator.cpp:912-1070 -/
def TcObj.dLamYb4G32 (dilog : F → F) (c : TcObj F) (omitLogs : Int) : F :=
  let MR2 := pow2 c.p.scale
  let lMR := (ofInt omitLogs) * log MR2
  let mQ32 := (c.p.mq2 2 2)
  let mD32 := (c.p.md2 2 2)
  let m32 := pow2 c.p.MG
  let mQ3 := sqrt mQ32
  let mD3 := sqrt mD32
  let m3 := sqrt m32
  let Xb := (calcXb c.p)
  let Xb2 := pow2 Xb
  let eps := lit (1/100) * mQ3
  let lmQ3MR := log mQ32 - lMR
  let lmD3MR := log mD32 - lMR
  if lt (abs (mQ3 - m3)) eps && lt (abs (mD3 - m3)) eps && lt (abs (mQ3 - mD3)) eps then
    (-8) * (Xb * ((-12) * mQ32 * Xb + 4 * mQ3 * pow2 Xb - 24 * Misc.pow3 mQ3 + Misc.pow3 Xb) + 8 * mQ3 * lMR * ((-3) * mQ32
      * Xb - 3 * mQ3 * pow2 Xb + 3 * Misc.pow3 mQ3 + Misc.pow3 Xb) - 16 * mQ3 * log mQ3 * ((-3) * mQ32 * Xb - 3 * mQ3 * pow2
      Xb + 3 * Misc.pow3 mQ3 + 3 * lMR * Misc.pow3 mQ3 + Misc.pow3 Xb) + 48 * pow2 (log mQ3) * Misc.pow4 mQ3 + 12 * pow2 lMR
      * Misc.pow4 mQ3) / (3 * Misc.pow4 mQ3)
  else
  if lt (abs (mD3 - mQ3)) eps then
    (-4) * ((-48) * Misc.pow3 m3 * Misc.pow3 Xb * Misc.pow4 mQ3 + 156 * lmQ3MR * Misc.pow3 m3 * Misc.pow3 Xb * Misc.pow4 mQ3
      - 124 * log (m32 / MR2) * Misc.pow3 m3 * Misc.pow3 Xb * Misc.pow4 mQ3 - 192 * Xb2 * Misc.pow4 m3 * Misc.pow4 mQ3 + 96
      * lmQ3MR * Xb2 * Misc.pow4 m3 * Misc.pow4 mQ3 + 96 * Xb2 * log (m32 / MR2) * Misc.pow4 m3 * Misc.pow4 mQ3 + 24 * mQ32
      * Misc.pow4 m3 * Misc.pow4 Xb + 54 * lmQ3MR * mQ32 * Misc.pow4 m3 * Misc.pow4 Xb - 78 * mQ32 * log (m32 / MR2) *
      Misc.pow4 m3 * Misc.pow4 Xb - 20 * m32 * Misc.pow4 mQ3 * Misc.pow4 Xb - 15 * lmQ3MR * m32 * Misc.pow4 mQ3 * Misc.pow4
      Xb + 39 * m32 * log (m32 / MR2) * Misc.pow4 mQ3 * Misc.pow4 Xb + 16 * mQ32 * Misc.pow3 Xb * Misc.pow5 m3 - 264 *
      lmQ3MR * mQ32 * Misc.pow3 Xb * Misc.pow5 m3 + 248 * mQ32 * log (m32 / MR2) * Misc.pow3 Xb * Misc.pow5 m3 - 96 * Xb *
      Misc.pow4 mQ3 * Misc.pow5 m3 + 192 * lmQ3MR * Xb * Misc.pow4 mQ3 * Misc.pow5 m3 - 96 * Xb * log (m32 / MR2) *
      Misc.pow4 mQ3 * Misc.pow5 m3 + m32 * Xb * log (m32 / mQ32) * (66 * m32 * mQ32 * Misc.pow3 Xb - 31 * Misc.pow3 Xb *
      Misc.pow4 m3 + 156 * m3 * Xb2 * Misc.pow4 mQ3 - 39 * Misc.pow3 Xb * Misc.pow4 mQ3 + 24 * Misc.pow3 m3 * ((-11) * mQ32
      * Xb2 + 8 * Misc.pow4 mQ3) + 124 * Xb2 * Misc.pow5 m3) + 48 * mQ32 * Xb2 * Misc.pow6 m3 - 48 * mQ32 * Xb2 * log (m32 /
      MR2) * Misc.pow6 m3 - 48 * Misc.pow4 mQ3 * Misc.pow6 m3 + 48 * log (m32 / MR2) * Misc.pow4 mQ3 * Misc.pow6 m3 - 8 *
      Misc.pow4 Xb * Misc.pow6 m3 - 31 * lmQ3MR * Misc.pow4 Xb * Misc.pow6 m3 + 39 * log (m32 / MR2) * Misc.pow4 Xb *
      Misc.pow6 m3 + 192 * m32 * Xb2 * Misc.pow6 mQ3 - 240 * lmQ3MR * m32 * Xb2 * Misc.pow6 mQ3 + 192 * Xb * Misc.pow3 m3 *
      Misc.pow6 mQ3 - 192 * lmQ3MR * Xb * Misc.pow3 m3 * Misc.pow6 mQ3 + 96 * (m3 + 2 * Xb) * dilog (1 - m32 / mQ32) *
      Misc.pow3 m3 * Misc.pow6 mQ3 + 96 * Xb * log (m32 / MR2) * Misc.pow3 m3 * Misc.pow6 mQ3 - 96 * lmQ3MR * Xb * log (m32
      / MR2) * Misc.pow3 m3 * Misc.pow6 mQ3 + 96 * Xb * pow2 lmQ3MR * Misc.pow3 m3 * Misc.pow6 mQ3 + 32 * m3 * Misc.pow3 Xb
      * Misc.pow6 mQ3 - 16 * lmQ3MR * m3 * Misc.pow3 Xb * Misc.pow6 mQ3 + 156 * Misc.pow4 m3 * Misc.pow6 mQ3 - 144 * lmQ3MR
      * Misc.pow4 m3 * Misc.pow6 mQ3 + 24 * log (m32 / MR2) * Misc.pow4 m3 * Misc.pow6 mQ3 - 48 * lmQ3MR * log (m32 / MR2) *
      Misc.pow4 m3 * Misc.pow6 mQ3 + 72 * pow2 lmQ3MR * Misc.pow4 m3 * Misc.pow6 mQ3 + 4 * Misc.pow4 Xb * Misc.pow6 mQ3 - 8
      * lmQ3MR * Misc.pow4 Xb * Misc.pow6 mQ3 + 124 * lmQ3MR * Misc.pow3 Xb * Misc.pow7 m3 - 124 * log (m32 / MR2) *
      Misc.pow3 Xb * Misc.pow7 m3 - 144 * m32 * Misc.pow8 mQ3 + 144 * lmQ3MR * m32 * Misc.pow8 mQ3 - 96 * m3 * Xb *
      Misc.pow8 mQ3 - 48 * Xb2 * Misc.pow8 mQ3 + 96 * lmQ3MR * Xb2 * Misc.pow8 mQ3 - 48 * m32 * pow2 lmQ3MR * Misc.pow8 mQ3
      + 36 * Misc.power10 mQ3 - 72 * lmQ3MR * Misc.power10 mQ3 + 24 * pow2 lmQ3MR * Misc.power10 mQ3) / (3 * pow2 (m32 -
      mQ32) * Misc.pow6 mQ3)
  else
  if lt (abs (m3 - mQ3)) eps then
    12 - 8 * lmQ3MR + 8 * ((-13) * mD32 + 13 * mQ32 + 2 * lmQ3MR * (3 * mD32 - mQ3 * (3 * mQ3 + 8 * Xb)) + 8 * Xb2) / (mD32
      - mQ32) - 2 * pow2 lmQ3MR * ((-2) * mD32 * mQ3 * (27 * mQ3 + 40 * Xb) + (43 * mQ3 + 16 * Xb) * Misc.pow3 mQ3 + 27 *
      Misc.pow4 mD3) / pow2 (mD32 - mQ32) + lmQ3MR * ((-16) * mQ32 * Xb2 - 6 * mD32 * (43 * mQ32 + 8 * Xb2) - 256 * mQ3 *
      Misc.pow3 Xb + 129 * Misc.pow4 mD3 + 177 * Misc.pow4 mQ3 - 128 * Misc.pow4 Xb) / pow2 (mD32 - mQ32) + lmQ3MR * ((-32)
      * pow2 (-(mQ3 * Xb2) + Misc.pow3 mQ3) + 2 * (89 * mQ32 + 56 * Xb2) * Misc.pow4 mD3 + 2 * lmQ3MR * mD32 * ((-2) * mD32
      * mQ3 * (11 * mQ3 + 40 * Xb) + (27 * mQ3 + 16 * Xb) * Misc.pow3 mQ3 + 11 * Misc.pow4 mD3) - mD32 * (112 * mQ32 * Xb2 +
      105 * Misc.pow4 mQ3 + 32 * Misc.pow4 Xb) - 89 * Misc.pow6 mD3) / pow2 (-(mD3 * mQ32) + Misc.pow3 mD3) + 4 * (8 * pow2
      (-(mQ3 * Xb2) + Misc.pow3 mQ3) - 2 * (11 * mQ32 + 32 * mQ3 * Xb + 8 * Xb2) * Misc.pow4 mD3 - 8 * mD32 * dilog (1 -
      mQ32 / mD32) * ((-8) * Xb * Misc.pow3 mQ3 - 4 * mQ3 * Misc.pow3 Xb + 2 * Misc.pow4 mQ3 + Misc.pow4 Xb) + mD32 * (32 *
      mQ32 * Xb2 + 64 * Xb * Misc.pow3 mQ3 + 128 * mQ3 * Misc.pow3 Xb - 3 * Misc.pow4 mQ3 + 56 * Misc.pow4 Xb) + 17 *
      Misc.pow6 mD3) / pow2 (-(mD3 * mQ32) + Misc.pow3 mD3) - 16 * log (mD32 / mQ32) * ((9 * mQ32 - 8 * mQ3 * Xb - 8 * Xb2)
      * Misc.pow4 mD3 + 2 * mQ32 * ((-6) * mQ32 * Xb2 - 4 * Xb * Misc.pow3 mQ3 + 4 * mQ3 * Misc.pow3 Xb + 3 * Misc.pow4 mQ3
      + 5 * Misc.pow4 Xb) + 2 * mD32 * (10 * mQ32 * Xb2 + 8 * Xb * Misc.pow3 mQ3 + 12 * mQ3 * Misc.pow3 Xb - 6 * Misc.pow4
      mQ3 + 7 * Misc.pow4 Xb) - 3 * Misc.pow6 mD3 + 2 * lmQ3MR * (((-3) * mQ32 + 4 * Xb2) * Misc.pow4 mD3 + mD32 * ((-8) *
      mQ32 * Xb2 - 4 * Xb * Misc.pow3 mQ3 - 4 * mQ3 * Misc.pow3 Xb + 4 * Misc.pow4 mQ3 - 2 * Misc.pow4 Xb) - 2 * mQ32 *
      ((-2) * mQ32 * Xb2 - 2 * Xb * Misc.pow3 mQ3 + 2 * mQ3 * Misc.pow3 Xb + Misc.pow4 mQ3 + 2 * Misc.pow4 Xb) + Misc.pow6
      mD3)) / Misc.pow3 (mD32 - mQ32) - 16 * pow2 (log (mD32 / mQ32)) * (2 * mD32 * mQ32 * (5 * mQ32 * Xb2 + 8 * Xb *
      Misc.pow3 mQ3 + 4 * mQ3 * Misc.pow3 Xb - 4 * Misc.pow4 mQ3 - 3 * Misc.pow4 Xb) + 2 * Misc.pow4 mD3 * ((-7) * mQ32 *
      Xb2 - 4 * Xb * Misc.pow3 mQ3 - 2 * mQ3 * Misc.pow3 Xb + 4 * Misc.pow4 mQ3 - 2 * Misc.pow4 Xb) + Misc.pow4 mQ3 * ((-2)
      * mQ32 * Xb2 - 8 * Xb * Misc.pow3 mQ3 - 4 * mQ3 * Misc.pow3 Xb + 3 * Misc.pow4 mQ3 + 2 * Misc.pow4 Xb) + ((-4) * mQ32
      + 6 * Xb2) * Misc.pow6 mD3 + Misc.pow8 mD3) / Misc.pow4 (mD32 - mQ32)
  else
  if lt (abs (m3 - mD3)) eps then
    12 - 8 * lmQ3MR + 8 * ((-13) * mD32 + 13 * mQ32 + 2 * lmQ3MR * (3 * mD32 - 3 * mQ32 + 8 * mD3 * Xb) - 8 * Xb2) / (mD32 -
      mQ32) - 2 * pow2 lmQ3MR * ((-54) * mD32 * mQ32 - 80 * mD3 * mQ32 * Xb + 16 * Xb * Misc.pow3 mD3 + 43 * Misc.pow4 mD3 +
      27 * Misc.pow4 mQ3) / pow2 (mD32 - mQ32) + lmQ3MR * ((-48) * mQ32 * Xb2 - 2 * mD32 * (129 * mQ32 + 8 * Xb2) - 256 *
      mD3 * Misc.pow3 Xb + 177 * Misc.pow4 mD3 + 129 * Misc.pow4 mQ3 - 128 * Misc.pow4 Xb) / pow2 (mD32 - mQ32) + 16 * pow2
      (log (mD32 / mQ32)) * (-(lit (19/8)) - 10 * mD3 * Xb / (mD32 - mQ32) - 2 * (3 * mD32 - mQ32) * Xb2 / pow2 (mD32 -
      mQ32) - 4 * mD3 * Misc.pow3 Xb / pow2 (mD32 - mQ32) + 2 * mD32 * (3 * mD32 + mQ32) * Misc.pow4 Xb / Misc.pow4 (mD32 -
      mQ32)) + log (mD32 / mQ32) * ((-352) * mD32 * mQ32 * Xb2 - 512 * mQ32 * Xb * Misc.pow3 mD3 - 128 * mD3 * mQ32 *
      Misc.pow3 Xb - 384 * Misc.pow3 mD3 * Misc.pow3 Xb - 363 * mQ32 * Misc.pow4 mD3 + 176 * Xb2 * Misc.pow4 mD3 + 363 *
      mD32 * Misc.pow4 mQ3 + 256 * mD3 * Xb * Misc.pow4 mQ3 + 176 * Xb2 * Misc.pow4 mQ3 - 288 * mD32 * Misc.pow4 Xb - 96 *
      mQ32 * Misc.pow4 Xb + 256 * Xb * Misc.pow5 mD3 + 121 * Misc.pow6 mD3 - 4 * lmQ3MR * ((-32) * Misc.pow3 mD3 * (5 * mQ32
      * Xb - Misc.pow3 Xb) + ((-57) * mQ32 + 32 * Xb2) * Misc.pow4 mD3 + 32 * Xb2 * Misc.pow4 mQ3 + 16 * mD3 * ((-2) * mQ32
      * Misc.pow3 Xb + 5 * Xb * Misc.pow4 mQ3) + mD32 * ((-64) * mQ32 * Xb2 + 57 * Misc.pow4 mQ3 - 32 * Misc.pow4 Xb) - 16 *
      mQ32 * Misc.pow4 Xb + 80 * Xb * Misc.pow5 mD3 + 19 * Misc.pow6 mD3 - 19 * Misc.pow6 mQ3) + 2 * lmD3MR * ((-32) *
      Misc.pow3 mD3 * (5 * mQ32 * Xb - 4 * Misc.pow3 Xb) - 33 * mQ32 * Misc.pow4 mD3 + 33 * mD32 * Misc.pow4 mQ3 + 80 * mD3
      * Xb * Misc.pow4 mQ3 + 80 * Xb * Misc.pow5 mD3 + 11 * Misc.pow6 mD3 - 11 * Misc.pow6 mQ3) - 121 * Misc.pow6 mQ3) /
      Misc.pow3 (mD32 - mQ32) + 4 * ((-64) * mD3 * mQ32 * Xb * (mQ32 - 2 * Xb2) + 64 * mQ32 * Xb * Misc.pow3 mD3 - (3 * mQ32
      + 16 * Xb2) * Misc.pow4 mD3 - 16 * Xb2 * Misc.pow4 mQ3 + 56 * mQ32 * Misc.pow4 Xb - 8 * mQ32 * dilog (1 - mD32 / mQ32)
      * ((-8) * Xb * Misc.pow3 mD3 - 4 * mD3 * Misc.pow3 Xb + 2 * Misc.pow4 mD3 + Misc.pow4 Xb) + mD32 * (32 * mQ32 * Xb2 -
      22 * Misc.pow4 mQ3 + 8 * Misc.pow4 Xb) + 8 * Misc.pow6 mD3 + 17 * Misc.pow6 mQ3) / pow2 (-(mD32 * mQ3) + Misc.pow3
      mQ3) - lmD3MR * ((105 * mQ32 - 64 * Xb2) * Misc.pow4 mD3 - 112 * Xb2 * Misc.pow4 mQ3 - 2 * lmQ3MR * mQ32 * ((-22) *
      mD32 * mQ32 - 80 * mD3 * mQ32 * Xb + 16 * Xb * Misc.pow3 mD3 + 27 * Misc.pow4 mD3 + 11 * Misc.pow4 mQ3) + 32 * mQ32 *
      Misc.pow4 Xb + mD32 * (112 * mQ32 * Xb2 - 178 * Misc.pow4 mQ3 + 32 * Misc.pow4 Xb) + 32 * Misc.pow6 mD3 + 89 *
      Misc.pow6 mQ3) / pow2 (-(mD32 * mQ3) + Misc.pow3 mQ3)
  else
  Yb4G32.formula
    { Xb := Xb, lMR := lMR, m3 := m3, m32 := m32, mD3 := mD3, mD32 := mD32, mQ3 := mQ3, mQ32 := mQ32, log_mD3 := log mD3,
      dilog_m32_mD32 := dilog (1 - m32 / mD32), dilog_m32_mQ32 := dilog (1 - m32 / mQ32), log_m3 := log m3,
      log_mQ3 := log mQ3 }

namespace Yb6

/-- local variables of `getDeltaLambdaYb6` and values of the functions called in the last `return` statement; ThresholdCalculator.cpp:1072-1319 -/
structure Arg (F : Type) where
  Mu : F
  Mu2 : F
  Xb : F
  Xb2 : F
  Yb : F
  cbeta : F
  lmQ3MR : F
  lmUMR : F
  mA : F
  mA2 : F
  mD3 : F
  mD32 : F
  mQ3 : F
  mQ32 : F
  sbeta : F
  /-- `log (mA2 / MR2)` -/
  log_mA2_MR2 : F
  /-- `dilog (1 - Mu2 / mD32)` -/
  dilog_Mu2_mD32 : F
  /-- `dilog (1 - Mu2 / mQ32)` -/
  dilog_Mu2_mQ32 : F
  /-- `dilog (1 - mD32 / mQ32)` -/
  dilog_mD32_mQ32 : F
  /-- `log (mD32 / mQ32)` -/
  log_mD32_mQ32 : F
  /-- `phi mA2 mD32 mD32` -/
  phixyz_mA2_mD32_mD32 : F
  /-- `phi mA2 mQ32 mD32` -/
  phixyz_mA2_mQ32_mD32 : F
  /-- `phi mA2 mQ32 mQ32` -/
  phixyz_mA2_mQ32_mQ32 : F

/-- the general formula, the last `return` statement of `getDeltaLambdaYb6`; ThresholdCalculator.cpp:1106-1318 -/
def formula (a : Arg F) : F :=
  3 * (10 - 5 / pow2 a.cbeta - 2 * a.mD32 / (a.mQ32 * pow2 a.cbeta) - 4 * a.mQ32 / (a.mD32 * pow2 a.cbeta) + 2 * a.mD32 /
    ((a.mD32 - a.Mu2) * pow2 a.cbeta) + 8 * a.Mu2 / (a.mD32 * pow2 a.cbeta) + 4 * a.Mu2 / (a.mQ32 * pow2 a.cbeta) + 4 *
    a.Mu2 / ((a.mQ32 - a.Mu2) * pow2 a.cbeta) + 3 * pow2 a.sbeta / pow2 a.cbeta - 4 * a.mA2 * pow2 a.sbeta / (a.mD32 * pow2
    a.cbeta) - 2 * a.mA2 * pow2 a.sbeta / (a.mQ32 * pow2 a.cbeta) + 2 * pow2 (const .pi) * pow2 a.sbeta / pow2 a.cbeta - 4 *
    pow2 a.sbeta * pow2 a.Yb / (a.mD32 * pow2 a.cbeta) - 2 * pow2 a.sbeta * pow2 a.Yb / (a.mQ32 * pow2 a.cbeta) + 6 * pow2
    a.sbeta * pow2 a.log_mA2_MR2 / pow2 a.cbeta - 96 * a.Yb * pow2 a.sbeta * Misc.pow3 a.Xb / (pow2 a.cbeta * pow2 (a.mD32 -
    a.mQ32)) + 4 * a.dilog_Mu2_mD32 * ((-2) * a.mD32 * a.Mu2 + Misc.pow4 a.mD3 - Misc.pow4 a.Mu) / (pow2 a.cbeta * pow2
    (a.mD32 - a.Mu2)) + 4 * a.dilog_Mu2_mQ32 * (1 - 4 * Misc.pow4 a.Mu / pow2 (a.mQ32 - a.Mu2)) / pow2 a.cbeta + 2 * pow2
    a.lmQ3MR * (5 + (3 - 2 * a.mD32 * a.Mu2 / pow2 (a.mD32 - a.Mu2) + 5 * pow2 a.sbeta + Misc.pow4 a.mD3 / pow2 (a.mD32 -
    a.Mu2) + (-(1 / pow2 (a.mD32 - a.Mu2)) - 4 / pow2 (a.mQ32 - a.Mu2)) * Misc.pow4 a.Mu) / pow2 a.cbeta) + 2 * a.lmUMR *
    a.Mu2 * ((-2) / a.mQ32 + 4 * ((1 / a.mQ32 + 1 / (-a.mD32 + a.mQ32)) / a.mD32 + 1 / ((a.mD32 - a.Mu2) * (-a.mQ32 +
    a.Mu2))) * a.Xb2 - 2 * a.mD32 / pow2 (a.mD32 - a.Mu2) + a.Mu2 * (3 / pow2 (a.mD32 - a.Mu2) - 6 / pow2 (a.mQ32 - a.Mu2) -
    4 * a.Mu2 / pow2 (-(a.mD3 * a.Mu2) + Misc.pow3 a.mD3)) - 2 * ((-2) * a.mD32 * a.mQ32 + Misc.pow4 a.mD3 - 2 * Misc.pow4
    a.mQ3) * Misc.pow4 a.Xb / (a.mD32 * a.mQ32 * Misc.pow3 (a.mD32 - a.mQ32))) / pow2 a.cbeta - 2 * a.Xb2 * ((-12) * a.mD32
    * a.mQ32 * a.Mu2 + 4 * a.mD32 * a.mQ32 * (a.mQ32 - a.Mu2) * a.dilog_Mu2_mD32 + 4 * a.mD32 * a.mQ32 * a.Mu2 *
    a.dilog_Mu2_mQ32 + 6 * a.mD32 * (a.mD32 - a.mQ32) * a.mQ32 * a.dilog_mD32_mQ32 * pow2 a.cbeta + 6 * a.mA2 * a.mD32 *
    a.mQ32 * pow2 a.sbeta + 6 * a.mD32 * a.mQ32 * pow2 a.sbeta * pow2 a.Yb + 8 * a.mQ32 * Misc.pow4 a.mD3 + 4 * a.Mu2 *
    Misc.pow4 a.mD3 - 4 * a.mQ32 * pow2 a.cbeta * Misc.pow4 a.mD3 - 2 * a.mA2 * pow2 a.sbeta * Misc.pow4 a.mD3 - 4 * a.mQ32
    * pow2 a.sbeta * Misc.pow4 a.mD3 - 2 * pow2 a.sbeta * pow2 a.Yb * Misc.pow4 a.mD3 - 2 * a.mD32 * Misc.pow4 a.mQ3 + 8 *
    a.Mu2 * Misc.pow4 a.mQ3 - 4 * a.mD32 * a.dilog_Mu2_mQ32 * Misc.pow4 a.mQ3 + a.mD32 * pow2 a.cbeta * Misc.pow4 a.mQ3 - 4
    * a.mA2 * pow2 a.sbeta * Misc.pow4 a.mQ3 + 4 * a.mD32 * pow2 a.sbeta * Misc.pow4 a.mQ3 - 4 * pow2 a.sbeta * pow2 a.Yb *
    Misc.pow4 a.mQ3 - 2 * Misc.pow6 a.mD3 + pow2 a.cbeta * Misc.pow6 a.mD3 - 4 * Misc.pow6 a.mQ3 + 2 * pow2 a.cbeta *
    Misc.pow6 a.mQ3) / (a.mD32 * a.mQ32 * pow2 a.cbeta * pow2 (a.mD32 - a.mQ32)) - 2 * (6 * a.mD32 * (a.mD32 - a.mQ32) *
    a.mQ32 * a.dilog_mD32_mQ32 - 6 * a.mQ32 * Misc.pow4 a.mD3 + 15 * a.mD32 * Misc.pow4 a.mQ3 + Misc.pow6 a.mD3 + 2 *
    Misc.pow6 a.mQ3) * Misc.pow6 a.Xb / (a.mD32 * a.mQ32 * Misc.pow4 (a.mD32 - a.mQ32)) + 2 * pow2 a.log_mD32_mQ32 * (4 *
    a.Xb * a.Yb * pow2 a.sbeta / ((a.mD32 - a.mQ32) * pow2 a.cbeta) - 4 * (-a.mA2 + a.mD32 + a.mQ32) * a.Yb * pow2 a.sbeta *
    Misc.pow3 a.Xb / (pow2 a.cbeta * Misc.pow3 (a.mD32 - a.mQ32)) + 2 * a.Xb2 * (a.mQ32 * (-a.Mu2 + a.mQ32 * (1 + 3 * pow2
    a.cbeta + pow2 a.sbeta) - pow2 a.sbeta * pow2 a.Yb) + a.mD32 * (a.Mu2 - a.mQ32 * (9 + 3 * pow2 a.cbeta + 2 * pow2
    a.sbeta) + pow2 a.sbeta * pow2 a.Yb) + (8 + 3 * pow2 a.cbeta + pow2 a.sbeta) * Misc.pow4 a.mD3) / (pow2 a.cbeta *
    Misc.pow3 (a.mD32 - a.mQ32)) + ((-2) * a.mD32 * a.Mu2 * (1 + 2 * pow2 a.cbeta + 2 * pow2 a.sbeta) + (1 + 2 * pow2
    a.cbeta + 2 * pow2 a.sbeta) * Misc.pow4 a.mD3 + (-1 + 2 * pow2 a.cbeta + 2 * pow2 a.sbeta) * Misc.pow4 a.Mu) / (pow2
    a.cbeta * pow2 (a.mD32 - a.Mu2)) - ((-4) * a.mA2 * pow2 a.sbeta * pow2 a.Yb + 2 * a.mQ32 * (3 * a.Mu2 + pow2 a.sbeta *
    pow2 a.Yb) + a.mD32 * (a.mQ32 * (14 - 8 * pow2 a.cbeta) + 6 * pow2 a.sbeta * pow2 a.Yb) + (17 + 2 * pow2 a.cbeta) *
    Misc.pow4 a.mD3 - 2 * (1 + 3 * pow2 a.cbeta) * Misc.pow4 a.mQ3 - 3 * Misc.pow4 a.Mu) * Misc.pow4 a.Xb / (pow2 a.cbeta *
    Misc.pow4 (a.mD32 - a.mQ32)) - 2 * ((-2) * a.mQ32 * Misc.pow4 a.mD3 + 4 * a.mD32 * Misc.pow4 a.mQ3 + 3 * Misc.pow6 a.mD3
    + Misc.pow6 a.mQ3) * Misc.pow6 a.Xb / Misc.pow6 (a.mD32 - a.mQ32)) + 2 * a.phixyz_mA2_mD32_mD32 * pow2 a.sbeta * (a.mA2
    * (a.mA2 - 6 * a.mD32) * a.Xb2 * (a.mD32 - a.mQ32 + pow2 a.Yb) / (pow2 (a.mD32 - a.mQ32) * Misc.pow4 a.mD3) + 2 * a.mA2
    * (a.mA2 - 6 * a.mD32) * a.Yb * Misc.pow3 a.Xb / (pow2 (a.mD32 - a.mQ32) * Misc.pow4 a.mD3) + ((-6) * a.mA2 * a.mD32 +
    Misc.pow4 a.mA) / Misc.pow4 a.mD3 + a.mA2 * (a.mA2 - 6 * a.mD32) * pow2 a.Yb * Misc.pow4 a.Xb / (Misc.pow3 (a.mD32 -
    a.mQ32) * Misc.pow4 a.mD3) + 2 * a.Xb * a.Yb * ((-6) * a.mA2 * a.mD32 + Misc.pow4 a.mA) / (-(a.mQ32 * Misc.pow4 a.mD3) +
    Misc.pow6 a.mD3) - Yt6.deltaxyz a.mA2 a.mD32 a.mD32 * ((a.mQ32 - a.Xb2) * pow2 (-(a.mQ3 * a.Xb * a.Yb) + Misc.pow3
    a.mQ3) + Misc.pow4 a.mD3 * (a.Xb2 * a.Yb * (6 * a.Xb + a.Yb) - 3 * a.mQ32 * a.Xb * (a.Xb + 2 * a.Yb) + 6 * Misc.pow4
    a.mQ3) + ((-4) * a.mQ32 + a.Xb * (a.Xb + 2 * a.Yb)) * Misc.pow6 a.mD3 + a.mD32 * ((-2) * a.mQ32 * a.Xb2 * a.Yb * (4 *
    a.Xb + a.Yb) + 3 * a.Xb * (a.Xb + 2 * a.Yb) * Misc.pow4 a.mQ3 + 5 * pow2 a.Yb * Misc.pow4 a.Xb - 4 * Misc.pow6 a.mQ3) +
    Misc.pow8 a.mD3) / Misc.pow4 (-(a.mD3 * a.mQ32) + Misc.pow3 a.mD3)) / pow2 a.cbeta + a.log_mD32_mQ32 * (-8 + 24 * a.Xb *
    a.Yb * pow2 a.sbeta / ((-a.mD32 + a.mQ32) * pow2 a.cbeta) + 24 * (3 * a.mD32 + a.mQ32) * a.Yb * pow2 a.sbeta * Misc.pow3
    a.Xb / (pow2 a.cbeta * Misc.pow3 (a.mD32 - a.mQ32)) - 2 * a.Xb * a.log_mA2_MR2 * pow2 a.sbeta * (a.mA2 * a.Xb * ((-6) *
    a.mQ32 * a.Xb * (a.Xb + 2 * a.Yb) - 2 * a.mD32 * (a.mQ32 - 6 * a.Xb * a.Yb) - 3 * a.Xb2 * pow2 a.Yb + Misc.pow4 a.mD3 +
    Misc.pow4 a.mQ3) - (a.mD32 - a.mQ32) * (a.mQ32 * a.Xb * a.Yb * (2 * a.Xb + a.Yb) - a.mD32 * (a.Xb * a.Yb * (2 * a.Xb +
    a.Yb) + 2 * a.mQ32 * (a.Xb + 2 * a.Yb)) + 3 * pow2 a.Yb * Misc.pow3 a.Xb + (a.Xb + 2 * a.Yb) * Misc.pow4 a.mD3 + (a.Xb +
    2 * a.Yb) * Misc.pow4 a.mQ3)) / (pow2 a.cbeta * Misc.pow4 (a.mD32 - a.mQ32)) + (a.mD32 * (2 / a.mQ32 + 4 * a.Mu2 / pow2
    (a.mD32 - a.Mu2)) - (a.mA2 + 3 * a.mQ32) * pow2 a.sbeta * pow2 a.Yb / (a.mD32 * a.mQ32) + pow2 a.sbeta * (-8 + 3 * pow2
    a.Yb / a.mQ32) - 2 * Misc.pow4 a.mD3 / pow2 (a.mD32 - a.Mu2) + 4 * Misc.pow4 a.Mu / pow2 (a.mD32 - a.Mu2)) / pow2
    a.cbeta + 4 * a.lmUMR * Misc.pow4 a.Mu * (1 / pow2 (a.mD32 - a.Mu2) - 3 * Misc.pow4 a.Xb / Misc.pow4 (a.mD32 - a.mQ32))
    / pow2 a.cbeta + pow2 a.sbeta * pow2 a.Yb * (((-5) * a.mD32 + a.mQ32) * Misc.pow4 a.mA + 7 * a.mQ32 * Misc.pow4 a.mD3 +
    5 * a.mA2 * ((-2) * a.mD32 * a.mQ32 + Misc.pow4 a.mD3 - Misc.pow4 a.mQ3) - 9 * a.mD32 * Misc.pow4 a.mQ3 + Misc.pow6 a.mA
    - Misc.pow6 a.mD3 - Misc.pow4 a.Xb * (-((3 * a.mD32 + 7 * a.mQ32) * Misc.pow4 a.mA) - 9 * a.mQ32 * Misc.pow4 a.mD3 + 17
    * a.mD32 * Misc.pow4 a.mQ3 + a.mA2 * (10 * a.mD32 * a.mQ32 + 5 * Misc.pow4 a.mD3 + 11 * Misc.pow4 a.mQ3) + Misc.pow6
    a.mA - 3 * Misc.pow6 a.mD3 - 5 * Misc.pow6 a.mQ3) / pow2 (a.mD32 - a.mQ32) + 3 * Misc.pow6 a.mQ3 + 2 * a.Xb2 * ((a.mD32
    + 4 * a.mQ32) * Misc.pow4 a.mA + 8 * a.mQ32 * Misc.pow4 a.mD3 - 11 * a.mD32 * Misc.pow4 a.mQ3 - 2 * a.mA2 * (7 * a.mD32
    * a.mQ32 + 4 * Misc.pow4 a.mQ3) - Misc.pow6 a.mD3 + 4 * Misc.pow6 a.mQ3) / (a.mD32 - a.mQ32)) / (a.mD32 * a.mQ32 *
    Yt6.deltaxyz a.mA2 a.mQ32 a.mD32 * pow2 a.cbeta) - 2 * (-(a.mQ32 * Misc.pow4 a.mD3) + 11 * a.mD32 * Misc.pow4 a.mQ3 +
    Misc.pow6 a.mD3 + 13 * Misc.pow6 a.mQ3) * Misc.pow6 a.Xb / (a.mQ32 * Misc.pow5 (-a.mD32 + a.mQ32)) + 2 * a.lmQ3MR * (10
    * a.Xb * a.Yb * pow2 a.sbeta / ((a.mD32 - a.mQ32) * pow2 a.cbeta) + 2 * (6 * a.mA2 - 5 * a.mD32 - 7 * a.mQ32) * a.Yb *
    pow2 a.sbeta * Misc.pow3 a.Xb / (pow2 a.cbeta * Misc.pow3 (a.mD32 - a.mQ32)) + a.Xb2 * (a.mQ32 * ((-4) * a.Mu2 + a.mQ32
    * (22 + 16 * pow2 a.cbeta + 3 * pow2 a.sbeta) + pow2 a.sbeta * (a.mA2 + pow2 a.Yb)) - a.mD32 * ((-4) * a.Mu2 + a.mQ32 *
    (38 + 22 * pow2 a.cbeta + 8 * pow2 a.sbeta) + pow2 a.sbeta * (a.mA2 + pow2 a.Yb)) + (16 + 18 * pow2 a.cbeta + 5 * pow2
    a.sbeta) * Misc.pow4 a.mD3) / (pow2 a.cbeta * Misc.pow3 (a.mD32 - a.mQ32)) + 4 * ((-2) * a.mD32 * a.Mu2 * (1 + pow2
    a.cbeta + pow2 a.sbeta) + (1 + pow2 a.cbeta + pow2 a.sbeta) * Misc.pow4 a.mD3 + (pow2 a.cbeta + pow2 a.sbeta) *
    Misc.pow4 a.Mu) / (pow2 a.cbeta * pow2 (a.mD32 - a.Mu2)) - (3 * a.mA2 * pow2 a.sbeta * pow2 a.Yb + 3 * a.mQ32 * (4 *
    a.Mu2 - 3 * pow2 a.sbeta * pow2 a.Yb) + a.mD32 * ((-2) * a.mQ32 * (3 + 2 * pow2 a.cbeta) + 3 * pow2 a.sbeta * pow2 a.Yb)
    + 2 * (9 + 7 * pow2 a.cbeta) * Misc.pow4 a.mD3 - 2 * (12 + 5 * pow2 a.cbeta) * Misc.pow4 a.mQ3 - 6 * Misc.pow4 a.Mu) *
    Misc.pow4 a.Xb / (pow2 a.cbeta * Misc.pow4 (a.mD32 - a.mQ32)) + 6 * a.mQ32 * Misc.pow6 a.Xb / Misc.pow4 (a.mD32 -
    a.mQ32)) + 2 * a.Xb2 * ((-4) * a.Mu2 * pow2 a.sbeta * pow2 a.Yb * Misc.pow4 a.mQ3 + Misc.pow4 a.mD3 * (a.mQ32 * (4 *
    a.Mu2 * (1 + 6 * pow2 a.cbeta + 2 * pow2 a.sbeta) + pow2 a.sbeta * (2 * a.mA2 - pow2 a.Yb)) + a.Mu2 * pow2 a.sbeta *
    pow2 a.Yb + (22 + 13 * pow2 a.cbeta + 4 * pow2 a.sbeta) * Misc.pow4 a.mQ3) + a.mD32 * a.mQ32 * (a.Mu2 * pow2 a.sbeta *
    ((-2) * a.mA2 + pow2 a.Yb) - a.mQ32 * (a.Mu2 * (18 + 13 * pow2 a.cbeta + 4 * pow2 a.sbeta) - 4 * pow2 a.sbeta * pow2
    a.Yb) + 4 * Misc.pow4 a.Mu) - (a.Mu2 * (-2 + pow2 a.cbeta) + 4 * a.mQ32 * (3 + 6 * pow2 a.cbeta + 2 * pow2 a.sbeta) +
    pow2 a.sbeta * pow2 a.Yb) * Misc.pow6 a.mD3 + (-2 + pow2 a.cbeta) * Misc.pow8 a.mD3) / (a.mD32 * a.mQ32 * (a.mD32 -
    a.Mu2) * pow2 a.cbeta * pow2 (a.mD32 - a.mQ32)) - Misc.pow4 a.Xb * ((-a.mA2 + 5 * a.mQ32) * pow2 a.sbeta * pow2 a.Yb *
    Misc.pow4 a.mQ3 + Misc.pow4 a.mD3 * (-(a.mA2 * pow2 a.sbeta * pow2 a.Yb) - 3 * a.mQ32 * (4 * a.Mu2 - 5 * pow2 a.sbeta *
    pow2 a.Yb) + (90 + 76 * pow2 a.cbeta) * Misc.pow4 a.mQ3) + ((-20) * a.mQ32 * (5 + 4 * pow2 a.cbeta) + pow2 a.sbeta *
    pow2 a.Yb) * Misc.pow6 a.mD3 + a.mD32 * (2 * a.mA2 * a.mQ32 * pow2 a.sbeta * pow2 a.Yb + 3 * ((-8) * a.Mu2 + pow2
    a.sbeta * (4 * a.mA2 + pow2 a.Yb)) * Misc.pow4 a.mQ3 + 48 * Misc.pow6 a.mQ3) + (-2 + 4 * pow2 a.cbeta) * Misc.pow8
    a.mD3) / (a.mD32 * a.mQ32 * pow2 a.cbeta * Misc.pow4 (a.mD32 - a.mQ32))) + a.log_mA2_MR2 * pow2 a.sbeta * (4 * a.mD32 *
    a.mQ32 * pow2 a.Yb + a.mA2 * (a.mD32 + 2 * a.mQ32) * (2 * a.mD32 + pow2 a.Yb) + (14 * a.mQ32 - pow2 a.Yb) * Misc.pow4
    a.mD3 - 2 * pow2 a.Yb * Misc.pow4 a.mQ3 - 2 * a.Xb2 * (2 * a.mA2 * ((-2) * a.mD32 * a.mQ32 - a.mQ32 * pow2 a.Yb +
    Misc.pow4 a.mD3) + pow2 a.Yb * ((-4) * a.mD32 * a.mQ32 + Misc.pow4 a.mD3 + 2 * Misc.pow4 a.mQ3)) / (a.mD32 - a.mQ32) +
    Misc.pow4 a.Xb * (a.mA2 * (-((10 * a.mQ32 + pow2 a.Yb) * Misc.pow4 a.mD3) + a.mD32 * (3 * a.mQ32 * pow2 a.Yb - 4 *
    Misc.pow4 a.mQ3) - 2 * pow2 a.Yb * Misc.pow4 a.mQ3 + 2 * Misc.pow6 a.mD3) + pow2 a.Yb * (a.mQ32 * Misc.pow4 a.mD3 - 6 *
    a.mD32 * Misc.pow4 a.mQ3 + 3 * Misc.pow6 a.mD3 + 2 * Misc.pow6 a.mQ3)) / Misc.pow3 (a.mD32 - a.mQ32) + pow2 a.Yb *
    (-(Misc.pow6 a.mA * (2 * pow2 (-(a.mQ3 * a.Xb2) + Misc.pow3 a.mQ3) - a.mD32 * ((-4) * a.mQ32 * a.Xb2 + 3 * Misc.pow4
    a.mQ3 + Misc.pow4 a.Xb) + Misc.pow6 a.mD3)) + pow2 (a.mD32 - a.mQ32) * (2 * pow2 (a.mQ32 - a.Xb2) * Misc.pow4 a.mQ3 +
    Misc.pow4 a.mD3 * ((-10) * a.mQ32 * a.Xb2 + 11 * Misc.pow4 a.mQ3 - 3 * Misc.pow4 a.Xb) - 4 * a.mD32 * a.mQ32 * ((-3) *
    a.mQ32 * a.Xb2 + 2 * Misc.pow4 a.mQ3 + Misc.pow4 a.Xb) + ((-6) * a.mQ32 + 2 * a.Xb2) * Misc.pow6 a.mD3 + Misc.pow8
    a.mD3) + Misc.pow4 a.mA * (6 * pow2 (a.mQ32 - a.Xb2) * Misc.pow4 a.mQ3 - Misc.pow4 a.mD3 * ((-10) * a.mQ32 * a.Xb2 +
    Misc.pow4 a.mQ3 + 3 * Misc.pow4 a.Xb) - 2 * (2 * a.mQ32 + a.Xb2) * Misc.pow6 a.mD3 + a.mD32 * (4 * a.Xb2 * Misc.pow4
    a.mQ3 + 2 * a.mQ32 * Misc.pow4 a.Xb - 6 * Misc.pow6 a.mQ3) + 5 * Misc.pow8 a.mD3) - a.mA2 * (a.mD32 - a.mQ32) * ((-6) *
    pow2 (a.mQ32 - a.Xb2) * Misc.pow4 a.mQ3 + Misc.pow4 a.mD3 * ((-4) * a.mQ32 * a.Xb2 + 5 * Misc.pow4 a.mQ3 - 5 * Misc.pow4
    a.Xb) - 13 * a.mQ32 * Misc.pow6 a.mD3 + a.mD32 * ((-8) * a.Xb2 * Misc.pow4 a.mQ3 - a.mQ32 * Misc.pow4 a.Xb + 9 *
    Misc.pow6 a.mQ3) + 5 * Misc.pow8 a.mD3)) / (Yt6.deltaxyz a.mA2 a.mQ32 a.mD32 * pow2 (a.mD32 - a.mQ32))) / (a.mQ32 * pow2
    a.cbeta * Misc.pow4 a.mD3) + a.phixyz_mA2_mQ32_mD32 * pow2 a.sbeta * (4 * a.mD32 * a.Xb * a.Yb * ((-3) * a.mD32 * a.mQ32
    - a.mA2 * (3 * a.mD32 + 2 * a.mQ32) + Misc.pow4 a.mA + 2 * Misc.pow4 a.mD3 + Misc.pow4 a.mQ3) / (a.mD32 - a.mQ32) + 4 *
    a.mD32 * a.Yb * Misc.pow3 a.Xb * ((-3) * a.mD32 * a.mQ32 - a.mA2 * (3 * a.mD32 + 2 * a.mQ32) + Misc.pow4 a.mA + 2 *
    Misc.pow4 a.mD3 + Misc.pow4 a.mQ3) / pow2 (a.mD32 - a.mQ32) - pow2 a.Yb * ((-12) * a.mD32 * a.mQ32 - 12 * a.mA2 *
    (a.mD32 + a.mQ32) + 6 * Misc.pow4 a.mA + 5 * Misc.pow4 a.mD3 + 6 * Misc.pow4 a.mQ3) - 2 * a.Xb2 * pow2 a.Yb * (3 * (3 *
    a.mD32 - 2 * a.mQ32) * pow2 (a.mD32 - a.mQ32) + (9 * a.mD32 - 6 * a.mQ32) * Misc.pow4 a.mA + a.mA2 * ((-6) * a.mD32 *
    a.mQ32 - 23 * Misc.pow4 a.mD3 + 12 * Misc.pow4 a.mQ3)) / pow2 (a.mD32 - a.mQ32) + 2 * Yt6.deltaxyz a.mA2 a.mQ32 a.mD32 *
    ((-2) * a.mD32 * a.Xb * a.Yb / (a.mD32 - a.mQ32) + 2 * pow2 a.Yb - 2 * a.mD32 * (3 * a.mD32 - a.mQ32) * a.Yb * Misc.pow3
    a.Xb / Misc.pow3 (a.mD32 - a.mQ32) + a.Xb2 * (7 * a.mD32 * pow2 a.Yb - 4 * a.mQ32 * pow2 a.Yb + Misc.pow4 a.mD3) / pow2
    (a.mD32 - a.mQ32) + pow2 a.Yb * ((-9) * a.mD32 * a.mQ32 + 18 * Misc.pow4 a.mD3 + 2 * Misc.pow4 a.mQ3) * Misc.pow4 a.Xb /
    Misc.pow4 (a.mD32 - a.mQ32)) - pow2 a.Yb * Misc.pow4 a.Xb * (2 * (8 * a.mD32 - 3 * a.mQ32) * Misc.pow4 a.mA - 49 *
    a.mQ32 * Misc.pow4 a.mD3 - 4 * a.mA2 * (5 * a.mD32 * a.mQ32 + 9 * Misc.pow4 a.mD3 - 3 * Misc.pow4 a.mQ3) + 28 * a.mD32 *
    Misc.pow4 a.mQ3 + 27 * Misc.pow6 a.mD3 - 6 * Misc.pow6 a.mQ3) / Misc.pow3 (a.mD32 - a.mQ32) + pow2 a.Yb * ((-8) *
    (a.mD32 + a.mQ32) * pow2 (a.mD32 - a.mQ32 + a.Xb2) * Misc.pow6 a.mA + 2 * pow2 (a.mD32 - a.mQ32 + a.Xb2) * Misc.pow8
    a.mA + pow2 (a.mD32 - a.mQ32) * (2 * pow2 (a.mQ32 - a.Xb2) * Misc.pow4 a.mQ3 + Misc.pow4 a.mD3 * ((-10) * a.mQ32 * a.Xb2
    + 11 * Misc.pow4 a.mQ3 - 3 * Misc.pow4 a.Xb) - 4 * a.mD32 * a.mQ32 * ((-3) * a.mQ32 * a.Xb2 + 2 * Misc.pow4 a.mQ3 +
    Misc.pow4 a.Xb) + ((-6) * a.mQ32 + 2 * a.Xb2) * Misc.pow6 a.mD3 + Misc.pow8 a.mD3) - 2 * a.mA2 * (a.mD32 - a.mQ32) *
    ((-4) * pow2 (a.mQ32 - a.Xb2) * Misc.pow4 a.mQ3 - Misc.pow4 a.mD3 * (2 * a.mQ32 * a.Xb2 + Misc.pow4 a.mQ3 - 3 *
    Misc.pow4 a.Xb) + ((-6) * a.mQ32 + 2 * a.Xb2) * Misc.pow6 a.mD3 + 8 * a.mD32 * (-(a.Xb2 * Misc.pow4 a.mQ3) + Misc.pow6
    a.mQ3) + 3 * Misc.pow8 a.mD3) + Misc.pow4 a.mA * (12 * pow2 (a.mQ32 - a.Xb2) * Misc.pow4 a.mQ3 + 8 * a.mD32 * a.mQ32 *
    (a.mQ32 * a.Xb2 - 2 * Misc.pow4 a.mQ3 + Misc.pow4 a.Xb) + Misc.pow4 a.mD3 * ((-6) * a.mQ32 * a.Xb2 + 3 * Misc.pow4 a.mQ3
    + 11 * Misc.pow4 a.Xb) + ((-6) * a.mQ32 + 22 * a.Xb2) * Misc.pow6 a.mD3 + 7 * Misc.pow8 a.mD3)) / (Yt6.deltaxyz a.mA2
    a.mQ32 a.mD32 * pow2 (a.mD32 - a.mQ32))) / (pow2 a.cbeta * Misc.pow6 a.mD3) + 2 * Misc.pow4 a.Xb * (6 * a.mD32 * a.mQ32
    * a.dilog_mD32_mQ32 * pow2 a.cbeta * pow2 (a.mD32 - a.mQ32) - 18 * a.mQ32 * a.Mu2 * Misc.pow4 a.mD3 + 6 * a.mA2 * a.mQ32
    * pow2 a.sbeta * Misc.pow4 a.mD3 + 12 * a.mQ32 * pow2 a.sbeta * pow2 a.Yb * Misc.pow4 a.mD3 + 12 * a.mD32 * a.Mu2 *
    Misc.pow4 a.mQ3 + 12 * a.mD32 * a.Mu2 * a.dilog_Mu2_mQ32 * Misc.pow4 a.mQ3 - 3 * a.mA2 * a.mD32 * pow2 a.sbeta *
    Misc.pow4 a.mQ3 - 9 * a.mD32 * pow2 a.sbeta * pow2 a.Yb * Misc.pow4 a.mQ3 + 85 * Misc.pow4 a.mD3 * Misc.pow4 a.mQ3 - 4 *
    a.dilog_Mu2_mQ32 * Misc.pow4 a.mD3 * Misc.pow4 a.mQ3 + 114 * pow2 a.cbeta * Misc.pow4 a.mD3 * Misc.pow4 a.mQ3 - 2 *
    a.mD32 * a.mQ32 * a.dilog_Mu2_mD32 * ((-2) * a.mD32 * a.mQ32 + 6 * a.mQ32 * a.Mu2 + Misc.pow4 a.mD3 - 2 * Misc.pow4
    a.mQ3 - 3 * Misc.pow4 a.Mu) - 6 * a.mD32 * a.mQ32 * a.dilog_Mu2_mQ32 * Misc.pow4 a.Mu - 33 * a.mQ32 * Misc.pow6 a.mD3 +
    2 * a.Mu2 * Misc.pow6 a.mD3 + 2 * a.mQ32 * a.dilog_Mu2_mQ32 * Misc.pow6 a.mD3 - 58 * a.mQ32 * pow2 a.cbeta * Misc.pow6
    a.mD3 - a.mA2 * pow2 a.sbeta * Misc.pow6 a.mD3 - pow2 a.sbeta * pow2 a.Yb * Misc.pow6 a.mD3 - 49 * a.mD32 * Misc.pow6
    a.mQ3 + 4 * a.Mu2 * Misc.pow6 a.mQ3 - 4 * a.mD32 * a.dilog_Mu2_mQ32 * Misc.pow6 a.mQ3 - 62 * a.mD32 * pow2 a.cbeta *
    Misc.pow6 a.mQ3 - 2 * a.mA2 * pow2 a.sbeta * Misc.pow6 a.mQ3 - 2 * pow2 a.sbeta * pow2 a.Yb * Misc.pow6 a.mQ3 -
    Misc.pow8 a.mD3 + 2 * pow2 a.cbeta * Misc.pow8 a.mD3 - 2 * Misc.pow8 a.mQ3 + 4 * pow2 a.cbeta * Misc.pow8 a.mQ3) /
    (a.mD32 * a.mQ32 * pow2 a.cbeta * Misc.pow4 (a.mD32 - a.mQ32)) + 2 * a.phixyz_mA2_mQ32_mQ32 * pow2 a.sbeta * (a.mA2 * (2
    * a.mA2 - 11 * a.mQ32) * a.Xb2 * (-a.mD32 + a.mQ32 + pow2 a.Yb) / (pow2 (a.mD32 - a.mQ32) * Misc.pow4 a.mQ3) + 2 * a.mA2
    * (2 * a.mA2 - 11 * a.mQ32) * a.Yb * Misc.pow3 a.Xb / (pow2 (a.mD32 - a.mQ32) * Misc.pow4 a.mQ3) + ((-11) * a.mA2 *
    a.mQ32 + 2 * Misc.pow4 a.mA) / Misc.pow4 a.mQ3 + a.mA2 * (2 * a.mA2 - 11 * a.mQ32) * pow2 a.Yb * Misc.pow4 a.Xb /
    (Misc.pow3 (-a.mD32 + a.mQ32) * Misc.pow4 a.mQ3) + 2 * a.Xb * a.Yb * ((-11) * a.mA2 * a.mQ32 + 2 * Misc.pow4 a.mA) /
    (-(a.mD32 * Misc.pow4 a.mQ3) + Misc.pow6 a.mQ3) - Yt6.deltaxyz a.mA2 a.mQ32 a.mQ32 * (2 * a.Xb2 * a.Yb * (6 * a.Xb +
    a.Yb) * Misc.pow4 a.mQ3 + Misc.pow4 a.mD3 * (2 * a.Xb2 * a.Yb * (2 * a.Xb + a.Yb) + a.mQ32 * a.Xb * (7 * a.Xb + 12 *
    a.Yb) + 12 * Misc.pow4 a.mQ3) + 9 * a.mQ32 * pow2 a.Yb * Misc.pow4 a.Xb - 2 * (4 * a.mQ32 + a.Xb * (a.Xb + 2 * a.Yb)) *
    Misc.pow6 a.mD3 + a.Xb * (3 * a.Xb + 4 * a.Yb) * Misc.pow6 a.mQ3 - 2 * a.mD32 * (2 * a.mQ32 * a.Xb2 * a.Yb * (4 * a.Xb +
    a.Yb) + 2 * a.Xb * (2 * a.Xb + 3 * a.Yb) * Misc.pow4 a.mQ3 + pow2 a.Yb * Misc.pow4 a.Xb + 4 * Misc.pow6 a.mQ3) + 2 *
    Misc.pow8 a.mD3 + 2 * Misc.pow8 a.mQ3) / Misc.pow4 (-(a.mD32 * a.mQ3) + Misc.pow3 a.mQ3)) / pow2 a.cbeta + a.lmQ3MR *
    (-20 + 48 * a.Yb * pow2 a.sbeta * Misc.pow3 a.Xb / (pow2 a.cbeta * pow2 (a.mD32 - a.mQ32)) + 4 * a.lmUMR * (1 / pow2
    (a.mD32 - a.Mu2) + 2 / pow2 (a.mQ32 - a.Mu2)) * Misc.pow4 a.Mu / pow2 a.cbeta + (a.mD32 * (2 / a.mQ32 + 4 * a.Mu2 / pow2
    (a.mD32 - a.Mu2)) + 4 * a.mQ32 * a.Mu2 / pow2 (a.mQ32 - a.Mu2) - 20 * pow2 a.sbeta + 3 * pow2 a.sbeta * pow2 a.Yb /
    a.mQ32 + 2 * (-a.mA2 + a.mQ32) * pow2 a.sbeta * pow2 a.Yb / Misc.pow4 a.mD3 - 2 * Misc.pow4 a.mD3 / pow2 (a.mD32 -
    a.Mu2) + 2 * Misc.pow4 a.mQ3 / pow2 (a.mQ32 - a.Mu2) + (-(a.mA2 * pow2 a.sbeta * pow2 a.Yb) + 4 * Misc.pow4 a.mQ3) /
    (a.mD32 * a.mQ32) + (4 / pow2 (a.mD32 - a.Mu2) + 6 / pow2 (a.mQ32 - a.Mu2)) * Misc.pow4 a.Mu) / pow2 a.cbeta + 2 * ((-5)
    * a.mD32 * a.mQ32 + Misc.pow4 a.mD3 - 2 * Misc.pow4 a.mQ3) * Misc.pow6 a.Xb / (a.mD32 * a.mQ32 * Misc.pow3 (a.mD32 -
    a.mQ32)) - Misc.pow4 a.Xb * (2 * (-a.mA2 + a.mQ32) * pow2 a.sbeta * pow2 a.Yb * Misc.pow4 a.mQ3 + Misc.pow4 a.mD3 *
    (-(a.mA2 * pow2 a.sbeta * pow2 a.Yb) + a.mQ32 * ((-12) * a.Mu2 + 11 * pow2 a.sbeta * pow2 a.Yb) + (86 + 68 * pow2
    a.cbeta) * Misc.pow4 a.mQ3) + ((-64) * a.mQ32 * (1 + pow2 a.cbeta) + pow2 a.sbeta * pow2 a.Yb) * Misc.pow6 a.mD3 +
    a.mD32 * (3 * a.mA2 * a.mQ32 * pow2 a.sbeta * pow2 a.Yb - 2 * pow2 a.sbeta * pow2 a.Yb * Misc.pow4 a.mQ3 + (4 - 8 * pow2
    a.cbeta) * Misc.pow6 a.mQ3) + (-2 + 4 * pow2 a.cbeta) * Misc.pow8 a.mD3) / (a.mQ32 * pow2 a.cbeta * Misc.pow3 (a.mD32 -
    a.mQ32) * Misc.pow4 a.mD3) + pow2 a.sbeta * pow2 a.Yb * (Misc.pow6 a.mA * (2 * pow2 (-(a.mQ3 * a.Xb2) + Misc.pow3 a.mQ3)
    - a.mD32 * ((-4) * a.mQ32 * a.Xb2 + 3 * Misc.pow4 a.mQ3 + Misc.pow4 a.Xb) + Misc.pow6 a.mD3) + Misc.pow4 a.mA * ((-6) *
    pow2 (a.mQ32 - a.Xb2) * Misc.pow4 a.mQ3 + Misc.pow4 a.mD3 * ((-10) * a.mQ32 * a.Xb2 + Misc.pow4 a.mQ3 + 3 * Misc.pow4
    a.Xb) + 2 * (2 * a.mQ32 + a.Xb2) * Misc.pow6 a.mD3 + a.mD32 * ((-4) * a.Xb2 * Misc.pow4 a.mQ3 - 2 * a.mQ32 * Misc.pow4
    a.Xb + 6 * Misc.pow6 a.mQ3) - 5 * Misc.pow8 a.mD3) - pow2 (a.mD32 - a.mQ32) * (2 * pow2 (a.mQ32 - a.Xb2) * Misc.pow4
    a.mQ3 + Misc.pow4 a.mD3 * ((-10) * a.mQ32 * a.Xb2 + 11 * Misc.pow4 a.mQ3 - 3 * Misc.pow4 a.Xb) - 4 * a.mD32 * a.mQ32 *
    ((-3) * a.mQ32 * a.Xb2 + 2 * Misc.pow4 a.mQ3 + Misc.pow4 a.Xb) + ((-6) * a.mQ32 + 2 * a.Xb2) * Misc.pow6 a.mD3 +
    Misc.pow8 a.mD3) + a.mA2 * (a.mD32 - a.mQ32) * ((-6) * pow2 (a.mQ32 - a.Xb2) * Misc.pow4 a.mQ3 + Misc.pow4 a.mD3 * ((-4)
    * a.mQ32 * a.Xb2 + 5 * Misc.pow4 a.mQ3 - 5 * Misc.pow4 a.Xb) - 13 * a.mQ32 * Misc.pow6 a.mD3 + a.mD32 * ((-8) * a.Xb2 *
    Misc.pow4 a.mQ3 - a.mQ32 * Misc.pow4 a.Xb + 9 * Misc.pow6 a.mQ3) + 5 * Misc.pow8 a.mD3)) / (a.mQ32 * Yt6.deltaxyz a.mA2
    a.mQ32 a.mD32 * pow2 a.cbeta * pow2 (a.mD32 - a.mQ32) * Misc.pow4 a.mD3) + 2 * a.Xb2 * (2 * (-a.mA2 + a.mQ32) * (a.mQ32
    - a.Mu2) * a.Mu2 * pow2 a.sbeta * pow2 a.Yb * Misc.pow4 a.mQ3 - 2 * a.mD32 * a.mQ32 * (a.mQ32 - a.Mu2) * (-(a.mA2 *
    a.Mu2 * pow2 a.sbeta * pow2 a.Yb) + a.mQ32 * (-a.mA2 + a.Mu2) * pow2 a.sbeta * pow2 a.Yb + (a.Mu2 * (-2 + pow2 a.cbeta)
    + pow2 a.sbeta * pow2 a.Yb) * Misc.pow4 a.mQ3) + Misc.pow6 a.mD3 * (((-14) * a.Mu2 + pow2 a.sbeta * pow2 a.Yb) *
    Misc.pow4 a.mQ3 - 2 * a.mQ32 * (-3 + pow2 a.sbeta) * Misc.pow4 a.Mu - pow2 a.sbeta * pow2 a.Yb * Misc.pow4 a.Mu + pow2
    a.cbeta * (15 * a.Mu2 * Misc.pow4 a.mQ3 - 8 * a.mQ32 * Misc.pow4 a.Mu - 7 * Misc.pow6 a.mQ3) + 2 * pow2 a.sbeta *
    Misc.pow6 a.mQ3) + (a.mQ32 * (7 * a.Mu2 * pow2 a.cbeta + pow2 a.sbeta * (2 * a.Mu2 - pow2 a.Yb)) + a.Mu2 * pow2 a.sbeta
    * pow2 a.Yb - 2 * (-3 + 4 * pow2 a.cbeta + pow2 a.sbeta) * Misc.pow4 a.mQ3 + (-2 + pow2 a.cbeta) * Misc.pow4 a.Mu) *
    Misc.pow8 a.mD3 + Misc.pow4 a.mD3 * (a.mQ32 * a.Mu2 * (2 * a.mA2 + a.Mu2) * pow2 a.sbeta * pow2 a.Yb - Misc.pow4 a.mQ3 *
    (pow2 a.sbeta * (2 * a.mA2 * pow2 a.Yb + 3 * a.Mu2 * pow2 a.Yb - 2 * Misc.pow4 a.Mu) + 7 * pow2 a.cbeta * Misc.pow4
    a.Mu) + (a.Mu2 * (8 + 5 * pow2 a.cbeta - 2 * pow2 a.sbeta) + 2 * pow2 a.sbeta * pow2 a.Yb) * Misc.pow6 a.mQ3 + 2 * (-2 +
    pow2 a.cbeta) * Misc.pow8 a.mQ3) + (a.mQ32 - a.Mu2) * (-2 + pow2 a.cbeta) * Misc.power10 a.mD3) / (a.mQ32 * (a.mD32 -
    a.Mu2) * (a.mQ32 - a.Mu2) * pow2 a.cbeta * pow2 (a.mD32 - a.mQ32) * Misc.pow4 a.mD3)))

end Yb6

/-- `getDeltaLambdaYb6`; ThresholdCalculator.cpp:1072-1319 -/
def TcObj.dLamYb6 (dilog : F → F) (phi : F → F → F → F) (c : TcObj F) (omitLogs : Int) : F :=
  let MR2 := pow2 c.p.scale
  let mQ32 := (c.p.mq2 2 2)
  let mD32 := (c.p.md2 2 2)
  let mQ3 := sqrt mQ32
  let mD3 := sqrt mD32
  let mA := c.p.MA
  let sbeta := (eftSinBeta c.p)
  let cbeta := (eftCosBeta c.p)
  let Xb := (calcXb c.p)
  let Yb := (calcYb c.p)
  let Mu := c.p.mu
  let Xb2 := pow2 Xb
  let mA2 := pow2 mA
  let Mu2 := pow2 Mu
  let lmQ3MR := (ofInt omitLogs) * log (mQ32 / MR2)
  let lmUMR := (ofInt omitLogs) * log (Mu2 / MR2)
  let eps := mQ3 * lit (1/100)
  if lt (abs (mD3 - mQ3)) eps && lt (abs (mA - mQ3)) eps && lt (abs (Mu - mQ3)) eps then
    let M := sqrt (mQ3 * mD3)
    30 * Misc.pow4 cbeta * (Xb2 * pow2 M * (Xb2 * (lit (1/5) + lit (7/10) * pow2 cbeta - lit (1/10) * pow2 sbeta) + lit
      (4373952000000001/25000000000000000) * Xb * Yb * pow2 sbeta - lit (4229546666666551/1000000000000000000) * pow2 sbeta
      * pow2 Yb) + (Xb2 * (-(lit (2/5)) - lit (14/5) * pow2 cbeta + lit (5375628799999999/10000000000000000) * pow2 sbeta) +
      lit (10016767999999983/100000000000000000) * Xb * Yb * pow2 sbeta + lit (25041919999999957/1000000000000000000) * pow2
      sbeta * pow2 Yb) * Misc.pow4 M - lit (8291413333333341/2000000000000000000) * pow2 sbeta * pow2 Yb * Misc.pow4 Xb +
      (lit (4/5) + pow2 cbeta - lit (6699863197821283/10000000000000000) * pow2 sbeta) * Misc.pow6 M - lit
      (6666666666666667/100000000000000000) * pow2 cbeta * Misc.pow6 Xb) / Misc.pow6 M
  else
  Yb6.formula
    { Mu := Mu, Mu2 := Mu2, Xb := Xb, Xb2 := Xb2, Yb := Yb, cbeta := cbeta, lmQ3MR := lmQ3MR, lmUMR := lmUMR, mA := mA,
      mA2 := mA2, mD3 := mD3, mD32 := mD32, mQ3 := mQ3, mQ32 := mQ32, sbeta := sbeta, log_mA2_MR2 := log (mA2 / MR2),
      dilog_Mu2_mD32 := dilog (1 - Mu2 / mD32), dilog_Mu2_mQ32 := dilog (1 - Mu2 / mQ32),
      dilog_mD32_mQ32 := dilog (1 - mD32 / mQ32), log_mD32_mQ32 := log (mD32 / mQ32),
      phixyz_mA2_mD32_mD32 := phi mA2 mD32 mD32, phixyz_mA2_mQ32_mD32 := phi mA2 mQ32 mD32,
      phixyz_mA2_mQ32_mQ32 := phi mA2 mQ32 mQ32 }

namespace Ytau6

/-- local variables of `getDeltaLambdaYtau6` and values of the functions called in the last `return` statement; ThresholdCalculator.cpp:1773-2187 -/
structure Arg (F : Type) where
  Mu : F
  Xtau : F
  Ytau : F
  cbeta : F
  lMR : F
  mA : F
  mE3 : F
  mL3 : F
  sbeta : F
  /-- `log mE3` -/
  log_mE3 : F
  /-- `log mL3` -/
  log_mL3 : F
  /-- `dilog (1 - pow2 mL3 / pow2 mE3)` -/
  dilog_mL32_mE32 : F
  /-- `dilog (1 - pow2 mE3 / pow2 mL3)` -/
  dilog_mE32_mL32 : F
  /-- `log mA` -/
  log_mA : F
  /-- `phi (pow2 mA) (pow2 mE3) (pow2 mE3)` -/
  phixyz_mA2_mE32_mE32 : F
  /-- `phi (pow2 mA) (pow2 mL3) (pow2 mL3)` -/
  phixyz_mA2_mL32_mL32 : F
  /-- `phi (pow2 mA) (pow2 mE3) (pow2 mL3)` -/
  phixyz_mA2_mE32_mL32 : F
  /-- `log (mE3 / mL3)` -/
  log_mE3_mL3 : F
  /-- `phi (pow2 mA) (pow2 mL3) (pow2 mE3)` -/
  phixyz_mA2_mL32_mE32 : F
  /-- `log (pow2 mL3 / pow2 mE3)` -/
  log_mL32_mE32 : F
  /-- `dilog (1 - pow2 mL3 / pow2 Mu)` -/
  dilog_mL32_Mu2 : F
  /-- `dilog (1 - pow2 mE3 / pow2 Mu)` -/
  dilog_mE32_Mu2 : F
  /-- `log (pow2 Mu)` -/
  log_Mu2 : F

/-- the general formula, the last `return` statement of `getDeltaLambdaYtau6`; ThresholdCalculator.cpp:1810-2186 -/
def formula (a : Arg F) : F :=
  2 * (5 + a.lMR * (10 - 8 * a.log_mE3) - 8 * a.log_mE3 - 12 * (1 + a.lMR) * a.log_mL3 + 5 * pow2 a.lMR + 8 * pow2 a.log_mE3
    + 12 * pow2 a.log_mL3 - pow2 a.Xtau * ((-36) * pow2 a.mE3 * (pow2 a.mE3 - pow2 a.mL3) * pow2 a.mL3 * pow2 a.log_mE3 - 4
    * pow2 a.mL3 * Misc.pow4 a.mE3 - 2 * a.lMR * pow2 a.mL3 * Misc.pow4 a.mE3 - 38 * a.log_mL3 * pow2 a.mL3 * Misc.pow4
    a.mE3 - 36 * a.lMR * a.log_mL3 * pow2 a.mL3 * Misc.pow4 a.mE3 + 36 * pow2 a.mL3 * pow2 a.log_mL3 * Misc.pow4 a.mE3 +
    pow2 a.mE3 * Misc.pow4 a.mL3 - a.lMR * pow2 a.mE3 * Misc.pow4 a.mL3 + 34 * a.log_mL3 * pow2 a.mE3 * Misc.pow4 a.mL3 + 32
    * a.lMR * a.log_mL3 * pow2 a.mE3 * Misc.pow4 a.mL3 - 28 * pow2 a.mE3 * pow2 a.log_mL3 * Misc.pow4 a.mL3 - 2 * a.log_mE3
    * pow2 a.mE3 * ((-3) * (7 + 6 * a.lMR) * pow2 a.mE3 * pow2 a.mL3 + Misc.pow4 a.mE3 + 16 * (1 + a.lMR) * Misc.pow4 a.mL3
    + 4 * a.log_mL3 * Misc.pow4 a.mL3) + a.dilog_mL32_mE32 * ((-6) * pow2 a.mL3 * Misc.pow4 a.mE3 + 6 * pow2 a.mE3 *
    Misc.pow4 a.mL3) + Misc.pow6 a.mE3 + a.lMR * Misc.pow6 a.mE3 + 2 * Misc.pow6 a.mL3 + 2 * a.lMR * Misc.pow6 a.mL3 - 4 *
    a.log_mL3 * Misc.pow6 a.mL3) / (pow2 a.mE3 * pow2 a.mL3 * pow2 (pow2 a.mE3 - pow2 a.mL3)) + 2 * Misc.pow4 a.Xtau *
    ((-28) * pow2 a.mL3 * Misc.pow4 a.mE3 - 16 * a.lMR * pow2 a.mL3 * Misc.pow4 a.mE3 - 12 * a.log_mL3 * pow2 a.mL3 *
    Misc.pow4 a.mE3 - 14 * a.lMR * a.log_mL3 * pow2 a.mL3 * Misc.pow4 a.mE3 + 18 * pow2 a.mL3 * pow2 a.log_mL3 * Misc.pow4
    a.mE3 + 29 * pow2 a.mE3 * Misc.pow4 a.mL3 + 17 * a.lMR * pow2 a.mE3 * Misc.pow4 a.mL3 - 40 * a.log_mL3 * pow2 a.mE3 *
    Misc.pow4 a.mL3 - 10 * a.lMR * a.log_mL3 * pow2 a.mE3 * Misc.pow4 a.mL3 + 14 * pow2 a.mE3 * pow2 a.log_mL3 * Misc.pow4
    a.mL3 - 2 * a.log_mE3 * pow2 a.mE3 * (-((22 + 7 * a.lMR) * pow2 a.mE3 * pow2 a.mL3) + 4 * a.log_mL3 * pow2 a.mL3 * (pow2
    a.mE3 + pow2 a.mL3) + Misc.pow4 a.mE3 - (3 + 5 * a.lMR) * Misc.pow4 a.mL3) + a.dilog_mL32_mE32 * ((-3) * pow2 a.mL3 *
    Misc.pow4 a.mE3 + 3 * pow2 a.mE3 * Misc.pow4 a.mL3) - 2 * pow2 a.log_mE3 * (5 * pow2 a.mL3 * Misc.pow4 a.mE3 + 3 * pow2
    a.mE3 * Misc.pow4 a.mL3) + Misc.pow6 a.mE3 + a.lMR * Misc.pow6 a.mE3 - 2 * Misc.pow6 a.mL3 - 2 * a.lMR * Misc.pow6 a.mL3
    + 4 * a.log_mL3 * Misc.pow6 a.mL3) / (pow2 a.mE3 * pow2 a.mL3 * Misc.pow3 (pow2 a.mE3 - pow2 a.mL3)) - (4 *
    a.dilog_mE32_mL32 * pow2 a.mE3 * (pow2 a.mE3 - pow2 a.mL3) * pow2 a.mL3 - 12 * pow2 a.mL3 * Misc.pow4 a.mE3 - 6 * a.lMR
    * pow2 a.mL3 * Misc.pow4 a.mE3 + 6 * a.log_mE3 * pow2 a.mL3 * Misc.pow4 a.mE3 + 6 * a.log_mL3 * pow2 a.mL3 * Misc.pow4
    a.mE3 - 40 * a.log_mE3 * a.log_mL3 * pow2 a.mL3 * Misc.pow4 a.mE3 + 20 * pow2 a.mL3 * pow2 a.log_mE3 * Misc.pow4 a.mE3 +
    20 * pow2 a.mL3 * pow2 a.log_mL3 * Misc.pow4 a.mE3 + 9 * pow2 a.mE3 * Misc.pow4 a.mL3 + 3 * a.lMR * pow2 a.mE3 *
    Misc.pow4 a.mL3 + 20 * a.log_mE3 * pow2 a.mE3 * Misc.pow4 a.mL3 + 12 * a.lMR * a.log_mE3 * pow2 a.mE3 * Misc.pow4 a.mL3
    - 26 * a.log_mL3 * pow2 a.mE3 * Misc.pow4 a.mL3 - 12 * a.lMR * a.log_mL3 * pow2 a.mE3 * Misc.pow4 a.mL3 - 48 * a.log_mE3
    * a.log_mL3 * pow2 a.mE3 * Misc.pow4 a.mL3 + 12 * pow2 a.mE3 * pow2 a.log_mE3 * Misc.pow4 a.mL3 + 36 * pow2 a.mE3 * pow2
    a.log_mL3 * Misc.pow4 a.mL3 + a.dilog_mL32_mE32 * ((-2) * pow2 a.mL3 * Misc.pow4 a.mE3 + 2 * pow2 a.mE3 * Misc.pow4
    a.mL3) + Misc.pow6 a.mE3 + a.lMR * Misc.pow6 a.mE3 - 2 * a.log_mE3 * Misc.pow6 a.mE3 + 2 * Misc.pow6 a.mL3 + 2 * a.lMR *
    Misc.pow6 a.mL3 - 4 * a.log_mL3 * Misc.pow6 a.mL3) * Misc.pow6 a.Xtau / (pow2 a.mE3 * pow2 a.mL3 * Misc.pow4 (pow2 a.mE3
    - pow2 a.mL3)) + pow2 a.sbeta * (lit (3/2) - 5 * a.log_mE3 - 3 * (3 + 2 * a.lMR) * a.log_mL3 + 2 * pow2 a.lMR - 2 * pow2
    a.mA / pow2 a.mE3 + a.lMR * ((-2) * a.log_mE3 + pow2 a.mA * ((-2) / pow2 a.mE3 - 1 / pow2 a.mL3)) + 2 * a.log_mA * (7 -
    6 * a.log_mE3 - 6 * a.log_mL3 + pow2 a.mA * (2 / pow2 a.mE3 + 1 / pow2 a.mL3)) - pow2 a.mA / pow2 a.mL3 + pow2 (const
    .pi) + 12 * pow2 a.log_mA + 8 * pow2 a.log_mE3 + 12 * pow2 a.log_mL3 + a.phixyz_mA2_mE32_mE32 * (-(Yt6.deltaxyz (pow2
    a.mA) (pow2 a.mE3) (pow2 a.mE3)) - 6 * pow2 a.mA * pow2 a.mE3 + Misc.pow4 a.mA) / Misc.pow4 a.mE3 +
    a.phixyz_mA2_mL32_mL32 * (-(Yt6.deltaxyz (pow2 a.mA) (pow2 a.mL3) (pow2 a.mL3)) - 7 * pow2 a.mA * pow2 a.mL3 + Misc.pow4
    a.mA) / Misc.pow4 a.mL3 + 2 * a.Xtau * a.Ytau * (a.phixyz_mA2_mE32_mE32 * (-(Yt6.deltaxyz (pow2 a.mA) (pow2 a.mE3) (pow2
    a.mE3)) - 6 * pow2 a.mA * pow2 a.mE3 + Misc.pow4 a.mA) * Misc.pow4 a.mL3 + Misc.pow4 a.mE3 * (-(a.phixyz_mA2_mE32_mL32 *
    pow2 a.mL3 * (pow2 a.mA - pow2 a.mE3 + pow2 a.mL3)) + a.phixyz_mA2_mL32_mL32 * (Yt6.deltaxyz (pow2 a.mA) (pow2 a.mL3)
    (pow2 a.mL3) + 7 * pow2 a.mA * pow2 a.mL3 - Misc.pow4 a.mA) + 4 * a.log_mE3_mL3 * (-3 - 3 * a.lMR + a.log_mA + 2 *
    a.log_mE3 + 3 * a.log_mL3) * Misc.pow4 a.mL3)) / ((pow2 a.mE3 - pow2 a.mL3) * Misc.pow4 a.mE3 * Misc.pow4 a.mL3) + 2 *
    a.Ytau * Misc.pow3 a.Xtau * (a.phixyz_mA2_mE32_mE32 * (pow2 a.mA * (pow2 a.mA - 6 * pow2 a.mE3) * (pow2 a.mE3 - pow2
    a.mL3) + Yt6.deltaxyz (pow2 a.mA) (pow2 a.mE3) (pow2 a.mE3) * ((-3) * pow2 a.mE3 + pow2 a.mL3)) * Misc.pow4 a.mL3 +
    Misc.pow4 a.mE3 * (a.phixyz_mA2_mL32_mL32 * (-(Yt6.deltaxyz (pow2 a.mA) (pow2 a.mL3) (pow2 a.mL3) * (pow2 a.mE3 - 5 *
    pow2 a.mL3)) + pow2 a.mA * (pow2 a.mA - 7 * pow2 a.mL3) * (pow2 a.mE3 - pow2 a.mL3)) + a.phixyz_mA2_mE32_mL32 * pow2
    a.mL3 * ((-2) * Yt6.deltaxyz (pow2 a.mA) (pow2 a.mE3) (pow2 a.mL3) - (pow2 a.mE3 - pow2 a.mL3) * (pow2 a.mA - pow2 a.mE3
    + pow2 a.mL3)) + 4 * ((-3) * (2 + a.lMR) * (pow2 a.mE3 - pow2 a.mL3) + a.log_mE3 * (3 * (3 + a.lMR) * pow2 a.mE3 +
    a.log_mL3 * (2 * pow2 a.mA - pow2 a.mE3 - 3 * pow2 a.mL3) + 3 * (1 + a.lMR) * pow2 a.mL3 + a.log_mA * ((-6) * pow2 a.mA
    - pow2 a.mE3 + pow2 a.mL3)) - a.log_mL3 * (3 * (1 + a.lMR) * pow2 a.mE3 + 3 * (3 + a.lMR) * pow2 a.mL3 + a.log_mA *
    ((-6) * pow2 a.mA - pow2 a.mE3 + pow2 a.mL3)) + 2 * (pow2 a.mA - pow2 a.mE3 - pow2 a.mL3) * pow2 a.log_mE3 + ((-4) *
    pow2 a.mA + 3 * pow2 a.mE3 + 5 * pow2 a.mL3) * pow2 a.log_mL3) * Misc.pow4 a.mL3)) / (Misc.pow3 (pow2 a.mE3 - pow2
    a.mL3) * Misc.pow4 a.mE3 * Misc.pow4 a.mL3) + pow2 a.Ytau * ((-4) / pow2 a.mE3 + a.lMR * ((-4) / pow2 a.mE3 - 2 / pow2
    a.mL3) - 2 / pow2 a.mL3 + a.phixyz_mA2_mE32_mL32 * (Yt6.deltaxyz (pow2 a.mA) (pow2 a.mE3) (pow2 a.mL3) - pow2 (pow2 a.mA
    - pow2 a.mE3 + pow2 a.mL3)) / (Yt6.deltaxyz (pow2 a.mA) (pow2 a.mE3) (pow2 a.mL3) * pow2 a.mL3) + 2 * a.log_mL3 *
    (-(pow2 a.mA) + 2 * pow2 a.mE3 + pow2 a.mL3 - pow2 a.mE3 * ((-2) * pow2 a.mA * pow2 a.mE3 + Misc.pow4 a.mA + Misc.pow4
    a.mE3 - Misc.pow4 a.mL3) / Yt6.deltaxyz (pow2 a.mA) (pow2 a.mE3) (pow2 a.mL3) + (Misc.pow3 (pow2 a.mE3 - pow2 a.mL3) - 3
    * (pow2 a.mE3 + pow2 a.mL3) * Misc.pow4 a.mA - 3 * pow2 a.mA * (Misc.pow4 a.mE3 - Misc.pow4 a.mL3) + Misc.pow6 a.mA) /
    Yt6.deltaxyz (pow2 a.mA) (pow2 a.mL3) (pow2 a.mE3)) / Misc.pow4 a.mE3 + 2 * a.log_mE3 * (-(pow2 a.mA) + 3 * pow2 a.mE3 -
    pow2 a.mL3 - 2 * pow2 a.mE3 * pow2 a.mL3 * (pow2 a.mA - pow2 a.mE3 + pow2 a.mL3) / Yt6.deltaxyz (pow2 a.mA) (pow2 a.mE3)
    (pow2 a.mL3) + (Misc.pow3 (-(pow2 a.mE3) + pow2 a.mL3) - (5 * pow2 a.mE3 + pow2 a.mL3) * Misc.pow4 a.mA - pow2 a.mA * (4
    * pow2 a.mE3 * pow2 a.mL3 - 5 * Misc.pow4 a.mE3 + Misc.pow4 a.mL3) + Misc.pow6 a.mA) / Yt6.deltaxyz (pow2 a.mA) (pow2
    a.mL3) (pow2 a.mE3)) / (pow2 a.mE3 * pow2 a.mL3) + 2 * a.log_mA * (3 * pow2 a.mE3 * pow2 a.mL3 + pow2 a.mA * (pow2 a.mE3
    + pow2 a.mL3) - pow2 a.mE3 * pow2 a.mL3 * (pow2 (pow2 a.mE3 - pow2 a.mL3) - Misc.pow4 a.mA) / Yt6.deltaxyz (pow2 a.mA)
    (pow2 a.mE3) (pow2 a.mL3) - Misc.pow4 a.mE3 - Misc.pow4 a.mL3 + (-(pow2 a.mA * (5 * pow2 a.mE3 + 3 * pow2 a.mL3) * pow2
    (pow2 a.mE3 - pow2 a.mL3)) + Misc.pow4 a.mA * (4 * pow2 a.mE3 * pow2 a.mL3 + 5 * Misc.pow4 a.mE3 + 3 * Misc.pow4 a.mL3)
    + Misc.pow4 (pow2 a.mE3 - pow2 a.mL3) - (pow2 a.mE3 + pow2 a.mL3) * Misc.pow6 a.mA) / Yt6.deltaxyz (pow2 a.mA) (pow2
    a.mL3) (pow2 a.mE3)) / (pow2 a.mL3 * Misc.pow4 a.mE3) + a.phixyz_mA2_mL32_mE32 * (2 * pow2 (Yt6.deltaxyz (pow2 a.mA)
    (pow2 a.mL3) (pow2 a.mE3)) - 4 * pow2 a.mA * (pow2 a.mE3 + pow2 a.mL3) * pow2 (pow2 a.mE3 - pow2 a.mL3) - 3 *
    Yt6.deltaxyz (pow2 a.mA) (pow2 a.mL3) (pow2 a.mE3) * ((-2) * pow2 a.mA * (pow2 a.mE3 + pow2 a.mL3) + pow2 (pow2 a.mE3 -
    pow2 a.mL3) + Misc.pow4 a.mA) + 2 * Misc.pow4 a.mA * (2 * pow2 a.mE3 * pow2 a.mL3 + Misc.pow4 a.mE3 + 3 * Misc.pow4
    a.mL3) + Misc.pow4 (pow2 a.mE3 - pow2 a.mL3) - 4 * (pow2 a.mE3 + pow2 a.mL3) * Misc.pow6 a.mA + Misc.pow8 a.mA) /
    (Yt6.deltaxyz (pow2 a.mA) (pow2 a.mL3) (pow2 a.mE3) * Misc.pow6 a.mE3)) / 2 + Misc.pow4 a.Xtau * (((-3) * pow2 a.mE3 + 3
    * pow2 a.mL3 + pow2 a.mA * (-5 + pow2 a.mE3 / pow2 a.mL3 - 2 * pow2 a.mL3 / pow2 a.mE3)) / Misc.pow3 (-(pow2 a.mE3) +
    pow2 a.mL3) - 3 * a.log_mE3 * (4 * pow2 a.mA * pow2 a.mL3 + Misc.pow4 a.mE3 - Misc.pow4 a.mL3) / Misc.pow4 (pow2 a.mE3 -
    pow2 a.mL3) + 3 * a.log_mL3 * (4 * (1 + a.lMR) * pow2 a.mA * pow2 a.mL3 + (1 + 2 * a.lMR) * Misc.pow4 a.mE3 - (1 + 2 *
    a.lMR) * Misc.pow4 a.mL3) / Misc.pow4 (pow2 a.mE3 - pow2 a.mL3) + 2 * a.log_mA * (6 * a.log_mE3 * pow2 a.mE3 * pow2
    a.mL3 * (2 * pow2 a.mA * pow2 a.mL3 + Misc.pow4 a.mE3 - Misc.pow4 a.mL3) - 6 * a.log_mL3 * pow2 a.mE3 * pow2 a.mL3 * (2
    * pow2 a.mA * pow2 a.mL3 + Misc.pow4 a.mE3 - Misc.pow4 a.mL3) + (pow2 a.mE3 - pow2 a.mL3) * ((-6) * pow2 a.mL3 *
    Misc.pow4 a.mE3 + pow2 a.mA * ((-5) * pow2 a.mE3 * pow2 a.mL3 + Misc.pow4 a.mE3 - 2 * Misc.pow4 a.mL3) + 6 * pow2 a.mE3
    * Misc.pow4 a.mL3)) / (pow2 a.mE3 * pow2 a.mL3 * Misc.pow4 (pow2 a.mE3 - pow2 a.mL3)) + a.lMR * ((-6) * a.log_mE3 * (2 *
    pow2 a.mA * pow2 a.mL3 + Misc.pow4 a.mE3 - Misc.pow4 a.mL3) + (-(pow2 a.mE3) + pow2 a.mL3) * ((-6) * pow2 a.mL3 *
    Misc.pow4 a.mE3 + pow2 a.mA * ((-5) * pow2 a.mE3 * pow2 a.mL3 + Misc.pow4 a.mE3 - 2 * Misc.pow4 a.mL3) + 6 * pow2 a.mE3
    * Misc.pow4 a.mL3) / (pow2 a.mE3 * pow2 a.mL3)) / Misc.pow4 (pow2 a.mE3 - pow2 a.mL3) + pow2 a.Ytau * (((-11) * pow2
    a.mE3 * pow2 a.mL3 + Misc.pow4 a.mE3 - 2 * Misc.pow4 a.mL3) / (pow2 a.mE3 * pow2 a.mL3 * Misc.pow3 (-(pow2 a.mE3) + pow2
    a.mL3)) - 8 * ((-2) * pow2 a.mA + 3 * pow2 a.mE3 + pow2 a.mL3) * pow2 a.log_mE3 / Misc.pow4 (pow2 a.mE3 - pow2 a.mL3) +
    4 * (7 * pow2 a.mA - 3 * pow2 a.mE3 - 11 * pow2 a.mL3) * pow2 a.log_mL3 / Misc.pow4 (pow2 a.mE3 - pow2 a.mL3) -
    a.phixyz_mA2_mE32_mL32 * (Yt6.deltaxyz (pow2 a.mA) (pow2 a.mE3) (pow2 a.mL3) * (-(pow2 a.mE3) + pow2 a.mL3) * (4 * pow2
    a.mA - 3 * pow2 a.mE3 + 3 * pow2 a.mL3) - 6 * pow2 (Yt6.deltaxyz (pow2 a.mA) (pow2 a.mE3) (pow2 a.mL3)) + pow2 (pow2
    a.mE3 - pow2 a.mL3) * pow2 (pow2 a.mA - pow2 a.mE3 + pow2 a.mL3)) / (2 * Yt6.deltaxyz (pow2 a.mA) (pow2 a.mE3) (pow2
    a.mL3) * pow2 a.mL3 * Misc.pow4 (pow2 a.mE3 - pow2 a.mL3)) + a.phixyz_mA2_mE32_mE32 * (pow2 a.mA * (pow2 a.mA - 6 * pow2
    a.mE3) * (pow2 a.mE3 - pow2 a.mL3) + Yt6.deltaxyz (pow2 a.mA) (pow2 a.mE3) (pow2 a.mE3) * ((-5) * pow2 a.mE3 + pow2
    a.mL3)) / Misc.pow4 (-(a.mE3 * pow2 a.mL3) + Misc.pow3 a.mE3) + a.phixyz_mA2_mL32_mL32 * (Yt6.deltaxyz (pow2 a.mA) (pow2
    a.mL3) (pow2 a.mL3) * (pow2 a.mE3 - 8 * pow2 a.mL3) + pow2 a.mA * (pow2 a.mA - 7 * pow2 a.mL3) * (-(pow2 a.mE3) + pow2
    a.mL3)) / Misc.pow4 (-(a.mL3 * pow2 a.mE3) + Misc.pow3 a.mL3) - a.lMR * ((-6) * pow2 a.mL3 * Misc.pow4 a.mE3 + 3 * pow2
    a.mE3 * Misc.pow4 a.mL3 + 12 * a.log_mE3 * pow2 a.mE3 * Misc.pow4 a.mL3 + Misc.pow6 a.mE3 + 2 * Misc.pow6 a.mL3) / (pow2
    a.mE3 * pow2 a.mL3 * Misc.pow4 (pow2 a.mE3 - pow2 a.mL3)) + a.log_mA * (12 * a.log_mE3 * (pow2 a.mA + pow2 a.mE3 - pow2
    a.mL3) - 12 * a.log_mL3 * (pow2 a.mA + pow2 a.mE3 - pow2 a.mL3) - pow2 (pow2 a.mE3 - pow2 a.mL3) * (pow2 a.mE3 * pow2
    a.mL3 * (pow2 (pow2 a.mE3 - pow2 a.mL3) - Misc.pow4 a.mA) + Yt6.deltaxyz (pow2 a.mA) (pow2 a.mE3) (pow2 a.mL3) * (pow2
    a.mA * (pow2 a.mE3 - pow2 a.mL3) - 3 * pow2 a.mE3 * pow2 a.mL3 - 3 * Misc.pow4 a.mE3 + Misc.pow4 a.mL3)) / (Yt6.deltaxyz
    (pow2 a.mA) (pow2 a.mE3) (pow2 a.mL3) * pow2 a.mL3 * Misc.pow4 a.mE3) + Misc.pow3 (-(pow2 a.mE3) + pow2 a.mL3) * (3 *
    (pow2 a.mE3 + pow2 a.mL3) * Misc.pow4 a.mA - pow2 a.mL3 * Misc.pow4 a.mE3 - 3 * pow2 a.mE3 * Misc.pow4 a.mL3 - pow2 a.mA
    * (5 * Misc.pow4 a.mE3 + 3 * Misc.pow4 a.mL3) - Misc.pow6 a.mA + 3 * Misc.pow6 a.mE3 + Misc.pow6 a.mL3) / (Yt6.deltaxyz
    (pow2 a.mA) (pow2 a.mL3) (pow2 a.mE3) * pow2 a.mL3 * Misc.pow4 a.mE3)) / Misc.pow4 (pow2 a.mE3 - pow2 a.mL3) + a.log_mL3
    * (12 * a.lMR * pow2 a.mL3 + 4 * a.log_mE3 * ((-11) * pow2 a.mA + 9 * pow2 a.mE3 + 13 * pow2 a.mL3) + pow2 (pow2 a.mE3 -
    pow2 a.mL3) * (-((5 * pow2 a.mE3 + 3 * pow2 a.mL3) * Misc.pow4 a.mA) + 9 * pow2 a.mL3 * Misc.pow4 a.mE3 + pow2 a.mE3 *
    Misc.pow4 a.mL3 + pow2 a.mA * (4 * pow2 a.mE3 * pow2 a.mL3 + 9 * Misc.pow4 a.mE3 + 3 * Misc.pow4 a.mL3) + Misc.pow6 a.mA
    - 9 * Misc.pow6 a.mE3 - Misc.pow6 a.mL3) / (Yt6.deltaxyz (pow2 a.mA) (pow2 a.mL3) (pow2 a.mE3) * Misc.pow4 a.mE3) +
    (-(pow2 a.mA * pow2 (pow2 a.mE3 - pow2 a.mL3)) + 17 * pow2 a.mL3 * Misc.pow4 a.mE3 - pow2 (-(a.mE3 * pow2 a.mL3) +
    Misc.pow3 a.mE3) * ((-2) * pow2 a.mA * pow2 a.mE3 + Misc.pow4 a.mA + Misc.pow4 a.mE3 - Misc.pow4 a.mL3) / Yt6.deltaxyz
    (pow2 a.mA) (pow2 a.mE3) (pow2 a.mL3) + 2 * pow2 a.mE3 * Misc.pow4 a.mL3 + 4 * Misc.pow6 a.mE3 + Misc.pow6 a.mL3) /
    Misc.pow4 a.mE3) / Misc.pow4 (pow2 a.mE3 - pow2 a.mL3) + a.log_mE3 * (pow2 a.mA * pow2 (pow2 a.mE3 - pow2 a.mL3) - 2 *
    pow2 a.mE3 * pow2 a.mL3 * (pow2 a.mA - pow2 a.mE3 + pow2 a.mL3) * pow2 (pow2 a.mE3 - pow2 a.mL3) / Yt6.deltaxyz (pow2
    a.mA) (pow2 a.mE3) (pow2 a.mL3) - 13 * pow2 a.mL3 * Misc.pow4 a.mE3 - 7 * pow2 a.mE3 * Misc.pow4 a.mL3 - Misc.pow6 a.mE3
    - 3 * Misc.pow6 a.mL3 + pow2 (pow2 a.mE3 - pow2 a.mL3) * ((3 * pow2 a.mE3 + 5 * pow2 a.mL3) * Misc.pow4 a.mA + 5 * pow2
    a.mL3 * Misc.pow4 a.mE3 - 11 * pow2 a.mE3 * Misc.pow4 a.mL3 - pow2 a.mA * (4 * pow2 a.mE3 * pow2 a.mL3 + 5 * Misc.pow4
    a.mE3 + 7 * Misc.pow4 a.mL3) - Misc.pow6 a.mA + 3 * Misc.pow6 a.mE3 + 3 * Misc.pow6 a.mL3) / Yt6.deltaxyz (pow2 a.mA)
    (pow2 a.mL3) (pow2 a.mE3)) / (pow2 a.mE3 * pow2 a.mL3 * Misc.pow4 (pow2 a.mE3 - pow2 a.mL3)) + a.phixyz_mA2_mL32_mE32 *
    (2 * pow2 (Yt6.deltaxyz (pow2 a.mA) (pow2 a.mL3) (pow2 a.mE3)) * ((-5) * pow2 a.mE3 * pow2 a.mL3 + 12 * Misc.pow4 a.mE3
    + Misc.pow4 a.mL3) - Yt6.deltaxyz (pow2 a.mA) (pow2 a.mL3) (pow2 a.mE3) * (-(pow2 a.mE3) + pow2 a.mL3) * (3 * ((-3) *
    pow2 a.mE3 + pow2 a.mL3) * Misc.pow4 a.mA + 29 * pow2 a.mL3 * Misc.pow4 a.mE3 + 6 * pow2 a.mA * (2 * pow2 a.mE3 * pow2
    a.mL3 + 3 * Misc.pow4 a.mE3 - Misc.pow4 a.mL3) - 15 * pow2 a.mE3 * Misc.pow4 a.mL3 - 17 * Misc.pow6 a.mE3 + 3 *
    Misc.pow6 a.mL3) + pow2 (pow2 a.mE3 - pow2 a.mL3) * ((-4) * pow2 a.mA * (pow2 a.mE3 + pow2 a.mL3) * pow2 (pow2 a.mE3 -
    pow2 a.mL3) + pow2 (pow2 a.mE3 - pow2 a.mL3) * ((-2) * pow2 a.mE3 * pow2 a.mL3 - 3 * Misc.pow4 a.mE3 + Misc.pow4 a.mL3)
    + Misc.pow4 a.mA * (4 * pow2 a.mE3 * pow2 a.mL3 + 6 * Misc.pow4 a.mE3 + 6 * Misc.pow4 a.mL3) - 4 * (pow2 a.mE3 + pow2
    a.mL3) * Misc.pow6 a.mA + Misc.pow8 a.mA)) / (2 * Yt6.deltaxyz (pow2 a.mA) (pow2 a.mL3) (pow2 a.mE3) * Misc.pow4 (pow2
    a.mE3 - pow2 a.mL3) * Misc.pow6 a.mE3))) + pow2 a.Xtau * ((2 * pow2 a.mA * (pow2 a.mE3 - 2 * pow2 a.mL3) + 4 * pow2
    a.mE3 * pow2 a.mL3) / (pow2 a.mE3 * (pow2 a.mE3 - pow2 a.mL3) * pow2 a.mL3) + 8 * pow2 a.log_mE3 / (pow2 a.mE3 - pow2
    a.mL3) + 2 * a.log_mE3 * (2 * pow2 a.mA - 5 * pow2 a.mE3 + pow2 a.mL3) / pow2 (pow2 a.mE3 - pow2 a.mL3) + 2 * a.log_mL3
    * ((-2) * (1 + a.lMR) * pow2 a.mA + 3 * pow2 a.mE3 + pow2 a.mL3 + 2 * a.lMR * pow2 a.mL3 + 2 * a.log_mE3 * (-(pow2 a.mA)
    + pow2 a.mE3 + pow2 a.mL3)) / pow2 (pow2 a.mE3 - pow2 a.mL3) + 2 * a.lMR * (pow2 a.mE3 + 2 * a.log_mE3 * (pow2 a.mA -
    pow2 a.mL3) - pow2 a.mL3 + pow2 a.mA * (-3 + pow2 a.mE3 / pow2 a.mL3 + 2 * pow2 a.mL3 / pow2 a.mE3)) / pow2 (pow2 a.mE3
    - pow2 a.mL3) + 4 * (pow2 a.mA - 3 * pow2 a.mE3 + pow2 a.mL3) * pow2 a.log_mL3 / pow2 (pow2 a.mE3 - pow2 a.mL3) +
    Yt6.deltaxyz (pow2 a.mA) (pow2 a.mE3) (pow2 a.mL3) * a.phixyz_mA2_mE32_mL32 / pow2 (-(a.mL3 * pow2 a.mE3) + Misc.pow3
    a.mL3) + a.phixyz_mA2_mL32_mL32 * (Yt6.deltaxyz (pow2 a.mA) (pow2 a.mL3) (pow2 a.mL3) * (pow2 a.mE3 - 2 * pow2 a.mL3) +
    pow2 a.mA * (pow2 a.mA - 7 * pow2 a.mL3) * (-(pow2 a.mE3) + pow2 a.mL3)) / (pow2 (pow2 a.mE3 - pow2 a.mL3) * Misc.pow4
    a.mL3) - 4 * a.log_mA * (a.log_mE3 * pow2 a.mE3 * (pow2 a.mA + 5 * pow2 a.mE3 - 5 * pow2 a.mL3) * pow2 a.mL3 - a.log_mL3
    * pow2 a.mE3 * (pow2 a.mA + 5 * pow2 a.mE3 - 5 * pow2 a.mL3) * pow2 a.mL3 + pow2 a.mA * ((-3) * pow2 a.mE3 * pow2 a.mL3
    + Misc.pow4 a.mE3 + 2 * Misc.pow4 a.mL3)) / (pow2 a.mE3 * pow2 a.mL3 * pow2 (pow2 a.mE3 - pow2 a.mL3)) +
    a.phixyz_mA2_mE32_mE32 * (-(Yt6.deltaxyz (pow2 a.mA) (pow2 a.mE3) (pow2 a.mE3)) - 6 * pow2 a.mA * pow2 a.mE3 + Misc.pow4
    a.mA) / (-(pow2 a.mL3 * Misc.pow4 a.mE3) + Misc.pow6 a.mE3) + pow2 a.Ytau * (8 * pow2 a.log_mE3 / pow2 (pow2 a.mE3 -
    pow2 a.mL3) + 12 * pow2 a.log_mL3 / pow2 (pow2 a.mE3 - pow2 a.mL3) + a.phixyz_mA2_mE32_mL32 * (Yt6.deltaxyz (pow2 a.mA)
    (pow2 a.mE3) (pow2 a.mL3) * pow2 a.mA - (pow2 a.mE3 - pow2 a.mL3) * pow2 (pow2 a.mA - pow2 a.mE3 + pow2 a.mL3)) /
    (Yt6.deltaxyz (pow2 a.mA) (pow2 a.mE3) (pow2 a.mL3) * pow2 (-(a.mL3 * pow2 a.mE3) + Misc.pow3 a.mL3)) +
    a.phixyz_mA2_mE32_mE32 * (-(Yt6.deltaxyz (pow2 a.mA) (pow2 a.mE3) (pow2 a.mE3)) - 6 * pow2 a.mA * pow2 a.mE3 + Misc.pow4
    a.mA) / (pow2 (pow2 a.mE3 - pow2 a.mL3) * Misc.pow4 a.mE3) + a.phixyz_mA2_mL32_mL32 * (-(Yt6.deltaxyz (pow2 a.mA) (pow2
    a.mL3) (pow2 a.mL3)) - 7 * pow2 a.mA * pow2 a.mL3 + Misc.pow4 a.mA) / (pow2 (pow2 a.mE3 - pow2 a.mL3) * Misc.pow4 a.mL3)
    + 2 * a.lMR * ((-3) * pow2 a.mE3 * pow2 a.mL3 + 2 * a.log_mE3 * pow2 a.mE3 * pow2 a.mL3 + Misc.pow4 a.mE3 + 2 *
    Misc.pow4 a.mL3) / (pow2 a.mE3 * pow2 a.mL3 * pow2 (pow2 a.mE3 - pow2 a.mL3)) + (2 * pow2 a.mE3 - 4 * pow2 a.mL3) /
    (pow2 a.mL3 * Misc.pow4 a.mE3 - pow2 a.mE3 * Misc.pow4 a.mL3) + 2 * a.log_mE3 * (pow2 a.mE3 * pow2 a.mL3 + 2 * pow2
    a.mE3 * pow2 a.mL3 * (-(pow2 a.mE3) + pow2 a.mL3) * (pow2 a.mA - pow2 a.mE3 + pow2 a.mL3) / Yt6.deltaxyz (pow2 a.mA)
    (pow2 a.mE3) (pow2 a.mL3) - Misc.pow4 a.mE3 + 2 * Misc.pow4 a.mL3 + (pow2 a.mE3 - pow2 a.mL3) * (-((pow2 a.mE3 - 2 *
    pow2 a.mL3) * pow2 (pow2 a.mE3 - pow2 a.mL3)) + (pow2 a.mE3 + 2 * pow2 a.mL3) * Misc.pow4 a.mA - 4 * pow2 a.mA * (2 *
    pow2 a.mE3 * pow2 a.mL3 + Misc.pow4 a.mL3)) / Yt6.deltaxyz (pow2 a.mA) (pow2 a.mL3) (pow2 a.mE3)) / (pow2 a.mE3 * pow2
    a.mL3 * pow2 (pow2 a.mE3 - pow2 a.mL3)) + 2 * a.log_mL3 * ((-2) * a.lMR - 10 * a.log_mE3 + ((-2) * pow2 a.mE3 * pow2
    a.mL3 + pow2 a.mA * (-(pow2 a.mE3) + pow2 a.mL3) + Misc.pow4 a.mE3 - pow2 a.mE3 * (pow2 a.mE3 - pow2 a.mL3) * ((-2) *
    pow2 a.mA * pow2 a.mE3 + Misc.pow4 a.mA + Misc.pow4 a.mE3 - Misc.pow4 a.mL3) / Yt6.deltaxyz (pow2 a.mA) (pow2 a.mE3)
    (pow2 a.mL3) - Misc.pow4 a.mL3) / Misc.pow4 a.mE3 - (pow2 a.mE3 - pow2 a.mL3) * (pow2 (-(a.mL3 * pow2 a.mE3) + Misc.pow3
    a.mL3) + (4 * pow2 a.mE3 + 3 * pow2 a.mL3) * Misc.pow4 a.mA - pow2 a.mA * (2 * pow2 a.mE3 * pow2 a.mL3 + 7 * Misc.pow4
    a.mE3 + 3 * Misc.pow4 a.mL3) - Misc.pow6 a.mA) / (Yt6.deltaxyz (pow2 a.mA) (pow2 a.mL3) (pow2 a.mE3) * Misc.pow4 a.mE3))
    / pow2 (pow2 a.mE3 - pow2 a.mL3) + 2 * a.log_mA * (a.log_mL32_mE32 + (-(pow2 a.mE3) + pow2 a.mL3) * (Yt6.deltaxyz (pow2
    a.mA) (pow2 a.mL3) (pow2 a.mE3) * (pow2 a.mE3 * pow2 a.mL3 * (pow2 (pow2 a.mE3 - pow2 a.mL3) - Misc.pow4 a.mA) +
    Yt6.deltaxyz (pow2 a.mA) (pow2 a.mE3) (pow2 a.mL3) * (-(pow2 a.mA * pow2 a.mL3) - 3 * pow2 a.mE3 * pow2 a.mL3 +
    Misc.pow4 a.mE3 + Misc.pow4 a.mL3)) + Yt6.deltaxyz (pow2 a.mA) (pow2 a.mE3) (pow2 a.mL3) * (Misc.pow4 a.mA * ((-2) *
    pow2 a.mE3 * pow2 a.mL3 + Misc.pow4 a.mE3 - 3 * Misc.pow4 a.mL3) - pow2 a.mA * pow2 a.mL3 * (2 * pow2 a.mE3 * pow2 a.mL3
    + Misc.pow4 a.mE3 - 3 * Misc.pow4 a.mL3) - Misc.pow4 (pow2 a.mE3 - pow2 a.mL3) + pow2 a.mL3 * Misc.pow6 a.mA)) /
    (Yt6.deltaxyz (pow2 a.mA) (pow2 a.mE3) (pow2 a.mL3) * Yt6.deltaxyz (pow2 a.mA) (pow2 a.mL3) (pow2 a.mE3) * pow2 a.mL3 *
    Misc.pow4 a.mE3)) / pow2 (pow2 a.mE3 - pow2 a.mL3) + a.phixyz_mA2_mL32_mE32 * ((-2) * ((-2) * pow2 a.mE3 + pow2 a.mL3) *
    pow2 (Yt6.deltaxyz (pow2 a.mA) (pow2 a.mL3) (pow2 a.mE3)) + Yt6.deltaxyz (pow2 a.mA) (pow2 a.mL3) (pow2 a.mE3) * (((-5)
    * pow2 a.mE3 + 3 * pow2 a.mL3) * pow2 (pow2 a.mE3 - pow2 a.mL3) + ((-5) * pow2 a.mE3 + 3 * pow2 a.mL3) * Misc.pow4 a.mA
    + 2 * pow2 a.mA * (2 * pow2 a.mE3 * pow2 a.mL3 + 7 * Misc.pow4 a.mE3 - 3 * Misc.pow4 a.mL3)) + (pow2 a.mE3 - pow2 a.mL3)
    * (4 * pow2 a.mA * (pow2 a.mE3 - pow2 a.mL3) * Misc.pow4 a.mL3 + Misc.pow4 a.mA * (4 * pow2 a.mE3 * pow2 a.mL3 + 6 *
    Misc.pow4 a.mE3 + 6 * Misc.pow4 a.mL3) + Misc.pow4 (pow2 a.mE3 - pow2 a.mL3) - 4 * (pow2 a.mE3 + pow2 a.mL3) * Misc.pow6
    a.mA + Misc.pow8 a.mA)) / (Yt6.deltaxyz (pow2 a.mA) (pow2 a.mL3) (pow2 a.mE3) * pow2 (pow2 a.mE3 - pow2 a.mL3) *
    Misc.pow6 a.mE3)))) / pow2 a.cbeta + ((-2) * pow2 a.lMR + a.lMR * (2 * a.log_mE3 - (pow2 a.mE3 + 2 * pow2 a.mL3) * (pow2
    a.mE3 + pow2 a.mL3 - 2 * pow2 a.Mu) / (pow2 a.mE3 * pow2 a.mL3)) - 4 * pow2 a.mE3 * (pow2 a.mE3 - 2 * pow2 a.Mu) * pow2
    a.log_mE3 / pow2 (pow2 a.mE3 - pow2 a.Mu) - 8 * pow2 a.mL3 * (pow2 a.mL3 - 2 * pow2 a.Mu) * pow2 a.log_mL3 / pow2 (pow2
    a.mL3 - pow2 a.Mu) + 4 * a.dilog_mL32_Mu2 * Misc.pow4 a.Mu / pow2 (pow2 a.mL3 - pow2 a.Mu) + 2 * a.dilog_mE32_Mu2 * (2 *
    pow2 a.mE3 * pow2 a.Mu - Misc.pow4 a.mE3 + Misc.pow4 a.Mu) / pow2 (pow2 a.mE3 - pow2 a.Mu) + 2 * a.dilog_mL32_Mu2 * (2 *
    pow2 a.mL3 * pow2 a.Mu - Misc.pow4 a.mL3 + Misc.pow4 a.Mu) / pow2 (pow2 a.mL3 - pow2 a.Mu) + (-(pow2 a.mE3 * pow2 a.mL3
    * (3 * pow2 a.mE3 * pow2 a.mL3 + 2 * Misc.pow4 a.mE3 + 4 * Misc.pow4 a.mL3)) - 3 * (7 * pow2 a.mE3 * pow2 a.mL3 + 2 *
    Misc.pow4 a.mE3 + 4 * Misc.pow4 a.mL3) * Misc.pow4 a.Mu + pow2 a.Mu * (13 * pow2 a.mL3 * Misc.pow4 a.mE3 + 17 * pow2
    a.mE3 * Misc.pow4 a.mL3 + 2 * Misc.pow6 a.mE3 + 4 * Misc.pow6 a.mL3) + 4 * (pow2 a.mE3 + 2 * pow2 a.mL3) * Misc.pow6
    a.Mu) / (2 * pow2 a.mE3 * pow2 a.mL3 * (-(pow2 a.mE3) + pow2 a.Mu) * (-(pow2 a.mL3) + pow2 a.Mu)) + a.log_mE3 * (9 *
    Misc.pow4 a.mL3 * Misc.pow4 a.Mu + Misc.pow4 a.mE3 * ((-9) * pow2 a.mL3 * pow2 a.Mu + Misc.pow4 a.mL3 + 4 * Misc.pow4
    a.Mu) + 2 * (pow2 a.mL3 - pow2 a.Mu) * Misc.pow6 a.mE3 - 13 * pow2 a.mL3 * Misc.pow6 a.Mu - 2 * pow2 a.mE3 * (2 * pow2
    a.Mu * Misc.pow4 a.mL3 - 7 * pow2 a.mL3 * Misc.pow4 a.Mu + Misc.pow6 a.Mu)) / (pow2 a.mL3 * (pow2 a.mL3 - pow2 a.Mu) *
    pow2 (pow2 a.mE3 - pow2 a.Mu)) + a.log_Mu2 * (2 * a.log_mE3 * pow2 a.mE3 * pow2 a.mL3 * (2 * Misc.pow4 a.mE3 * ((-2) *
    pow2 a.mL3 * pow2 a.Mu + Misc.pow4 a.mL3) - Misc.pow4 a.Mu * ((-2) * pow2 a.mL3 * pow2 a.Mu + Misc.pow4 a.mL3 + 3 *
    Misc.pow4 a.Mu) + pow2 a.mE3 * ((-4) * pow2 a.Mu * Misc.pow4 a.mL3 + 8 * pow2 a.mL3 * Misc.pow4 a.Mu)) + pow2 a.Mu *
    ((-4) * pow2 (-(a.mL3 * pow2 a.Mu) + Misc.pow3 a.mL3) * Misc.pow4 a.Mu - 2 * (pow2 a.mL3 * pow2 a.Mu + Misc.pow4 a.mL3 +
    Misc.pow4 a.Mu) * Misc.pow6 a.mE3 + Misc.pow4 a.mE3 * (8 * pow2 a.Mu * Misc.pow4 a.mL3 + 2 * pow2 a.mL3 * Misc.pow4 a.Mu
    - 2 * Misc.pow6 a.mL3 + 4 * Misc.pow6 a.Mu) + pow2 a.mE3 * ((-8) * Misc.pow4 a.mL3 * Misc.pow4 a.Mu + 3 * pow2 a.Mu *
    Misc.pow6 a.mL3 + pow2 a.mL3 * Misc.pow6 a.Mu - 2 * Misc.pow8 a.Mu))) / (pow2 a.mE3 * pow2 a.mL3 * pow2 (pow2 a.mE3 -
    pow2 a.Mu) * pow2 (pow2 a.mL3 - pow2 a.Mu)) + 2 * pow2 a.log_Mu2 * ((-2) * pow2 a.mE3 * pow2 a.Mu * (2 * pow2 a.mL3 *
    pow2 a.Mu - Misc.pow4 a.mL3 + Misc.pow4 a.Mu) + Misc.pow4 a.mE3 * (2 * pow2 a.mL3 * pow2 a.Mu - Misc.pow4 a.mL3 +
    Misc.pow4 a.Mu) + 2 * Misc.pow8 a.Mu) / (pow2 (pow2 a.mE3 - pow2 a.Mu) * pow2 (pow2 a.mL3 - pow2 a.Mu)) + a.log_mL3 * (2
    * a.log_Mu2 * pow2 a.mE3 * (2 * Misc.pow4 a.mE3 * ((-2) * pow2 a.mL3 * pow2 a.Mu + Misc.pow4 a.mL3 - 2 * Misc.pow4 a.Mu)
    + ((-2) * pow2 a.mL3 * pow2 a.Mu + Misc.pow4 a.mL3 - 5 * Misc.pow4 a.Mu) * Misc.pow4 a.Mu + pow2 a.mE3 * ((-4) * pow2
    a.Mu * Misc.pow4 a.mL3 + 8 * pow2 a.mL3 * Misc.pow4 a.Mu + 8 * Misc.pow6 a.Mu)) + (pow2 a.mE3 - pow2 a.Mu) * ((-4) *
    pow2 a.mL3 * pow2 a.Mu * pow2 (pow2 a.mL3 - pow2 a.Mu) + Misc.pow4 a.mE3 * ((-6) * (1 + 2 * a.lMR) * pow2 a.mL3 * pow2
    a.Mu + (5 + 6 * a.lMR) * Misc.pow4 a.mL3 + (13 + 6 * a.lMR) * Misc.pow4 a.Mu) + pow2 a.mE3 * ((-3) * (5 + 2 * a.lMR) *
    pow2 a.Mu * Misc.pow4 a.mL3 + 2 * (7 + 6 * a.lMR) * pow2 a.mL3 * Misc.pow4 a.Mu + 4 * Misc.pow6 a.mL3 - 3 * (5 + 2 *
    a.lMR) * Misc.pow6 a.Mu)) + a.log_mE3 * ((-8) * pow2 a.Mu * Misc.pow4 a.mE3 * (2 * pow2 a.mL3 * pow2 a.Mu - Misc.pow4
    a.mL3 + Misc.pow4 a.Mu) + (8 * pow2 a.mL3 * pow2 a.Mu - 4 * Misc.pow4 a.mL3 + 4 * Misc.pow4 a.Mu) * Misc.pow6 a.mE3 + 8
    * pow2 a.mE3 * Misc.pow8 a.Mu)) / (pow2 a.mE3 * pow2 (pow2 a.mE3 - pow2 a.Mu) * pow2 (pow2 a.mL3 - pow2 a.Mu)) + pow2
    a.Xtau * (4 * a.dilog_mE32_Mu2 * (pow2 a.mL3 - pow2 a.Mu) / pow2 (pow2 a.mE3 - pow2 a.mL3) - 4 * a.dilog_mL32_Mu2 *
    (pow2 a.mL3 - pow2 a.Mu) / pow2 (pow2 a.mE3 - pow2 a.mL3) + 2 * a.lMR * ((-2) * a.log_mE3 * (pow2 a.mE3 - 4 * pow2 a.mL3
    + 2 * pow2 a.Mu) + (pow2 a.mE3 - pow2 a.mL3) * (4 * pow2 a.mL3 * pow2 a.Mu - 2 * pow2 a.mE3 * (pow2 a.mL3 + pow2 a.Mu) +
    Misc.pow4 a.mE3 - 2 * Misc.pow4 a.mL3) / (pow2 a.mE3 * pow2 a.mL3)) / pow2 (pow2 a.mE3 - pow2 a.mL3) + (4 * pow2 a.mL3 *
    (pow2 a.mL3 - 2 * pow2 a.Mu) + pow2 a.mE3 * (6 * pow2 a.mL3 + 4 * pow2 a.Mu) - 2 * Misc.pow4 a.mE3) / (-(pow2 a.mL3 *
    Misc.pow4 a.mE3) + pow2 a.mE3 * Misc.pow4 a.mL3) + 8 * pow2 a.mE3 * pow2 a.log_mE3 * (pow2 a.mE3 * (pow2 a.mL3 - 6 *
    pow2 a.Mu) - 2 * pow2 a.mL3 * pow2 a.Mu + 3 * Misc.pow4 a.mE3 + 4 * Misc.pow4 a.Mu) / (pow2 (pow2 a.mE3 - pow2 a.mL3) *
    pow2 (pow2 a.mE3 - pow2 a.Mu)) + 8 * pow2 a.mL3 * pow2 a.log_mL3 * (2 * pow2 a.mE3 * (pow2 a.mL3 - 2 * pow2 a.Mu) - 6 *
    pow2 a.mL3 * pow2 a.Mu + 3 * Misc.pow4 a.mL3 + 5 * Misc.pow4 a.Mu) / (pow2 (pow2 a.mE3 - pow2 a.mL3) * pow2 (pow2 a.mL3
    - pow2 a.Mu)) - 2 * a.log_mE3 * ((-5) * Misc.pow4 a.mL3 * Misc.pow4 a.Mu + Misc.pow4 a.mE3 * (pow2 a.mL3 * pow2 a.Mu +
    Misc.pow4 a.mL3 + 2 * Misc.pow4 a.Mu) + 2 * (pow2 a.mL3 - pow2 a.Mu) * Misc.pow6 a.mE3 + pow2 a.mE3 * (16 * pow2 a.Mu *
    Misc.pow4 a.mL3 - 13 * pow2 a.mL3 * Misc.pow4 a.Mu - 11 * Misc.pow6 a.mL3) + 5 * pow2 a.Mu * Misc.pow6 a.mL3 + 4 * pow2
    a.mL3 * Misc.pow6 a.Mu) / ((pow2 a.mE3 - pow2 a.Mu) * (pow2 a.mL3 - pow2 a.Mu) * pow2 (-(a.mL3 * pow2 a.mE3) + Misc.pow3
    a.mL3)) + 2 * a.log_mL3 * ((pow2 a.mE3 - pow2 a.Mu) * (pow2 a.mL3 - pow2 a.Mu) * (4 * (pow2 a.mL3 - pow2 a.Mu) * pow2
    a.Mu * Misc.pow4 a.mL3 - Misc.pow4 a.mE3 * ((-2) * (1 + 5 * a.lMR) * pow2 a.mL3 * pow2 a.Mu + (11 + 8 * a.lMR) *
    Misc.pow4 a.mL3 + (7 + 2 * a.lMR) * Misc.pow4 a.Mu) + ((7 + 2 * a.lMR) * pow2 a.mL3 + (1 - 2 * a.lMR) * pow2 a.Mu) *
    Misc.pow6 a.mE3 + pow2 a.mE3 * ((13 + 8 * a.lMR) * pow2 a.Mu * Misc.pow4 a.mL3 - (5 + 12 * a.lMR) * pow2 a.mL3 *
    Misc.pow4 a.Mu - 4 * Misc.pow6 a.mL3 + 4 * (1 + a.lMR) * Misc.pow6 a.Mu)) - 4 * a.log_mE3 * pow2 a.mE3 * (((-10) * pow2
    a.mL3 * pow2 a.Mu + 5 * Misc.pow4 a.mL3 + 3 * Misc.pow4 a.Mu) * Misc.pow6 a.mE3 + 3 * Misc.pow4 a.Mu * Misc.pow6 a.mL3 +
    2 * Misc.pow4 a.mE3 * ((-9) * pow2 a.Mu * Misc.pow4 a.mL3 + 13 * pow2 a.mL3 * Misc.pow4 a.Mu + 2 * Misc.pow6 a.mL3 - 3 *
    Misc.pow6 a.Mu) - 6 * Misc.pow4 a.mL3 * Misc.pow6 a.Mu + 5 * pow2 a.mL3 * Misc.pow8 a.Mu + pow2 a.mE3 * (22 * Misc.pow4
    a.mL3 * Misc.pow4 a.Mu - 8 * pow2 a.Mu * Misc.pow6 a.mL3 - 24 * pow2 a.mL3 * Misc.pow6 a.Mu + 4 * Misc.pow8 a.Mu)) + 2 *
    a.log_Mu2 * pow2 a.mE3 * (2 * Misc.pow4 a.Mu * Misc.pow6 a.mE3 + 2 * Misc.pow4 a.mE3 * ((-3) * pow2 a.Mu * Misc.pow4
    a.mL3 + 2 * pow2 a.mL3 * Misc.pow4 a.Mu + Misc.pow6 a.mL3 - 3 * Misc.pow6 a.Mu) + Misc.pow4 a.Mu * ((-4) * pow2 a.Mu *
    Misc.pow4 a.mL3 + 3 * pow2 a.mL3 * Misc.pow4 a.Mu + Misc.pow6 a.mL3 - 2 * Misc.pow6 a.Mu) + pow2 a.mE3 * (13 * Misc.pow4
    a.mL3 * Misc.pow4 a.Mu - 4 * pow2 a.Mu * Misc.pow6 a.mL3 - 10 * pow2 a.mL3 * Misc.pow6 a.Mu + 7 * Misc.pow8 a.Mu))) /
    (pow2 a.mE3 * pow2 (pow2 a.mE3 - pow2 a.mL3) * pow2 (pow2 a.mE3 - pow2 a.Mu) * pow2 (pow2 a.mL3 - pow2 a.Mu)) - 4 *
    a.log_Mu2 * ((pow2 a.mE3 - pow2 a.mL3) * (pow2 a.mE3 - pow2 a.Mu) * (pow2 a.mL3 - pow2 a.Mu) * pow2 a.Mu * (pow2 a.Mu *
    Misc.pow4 a.mE3 - 2 * pow2 a.Mu * Misc.pow4 a.mL3 + pow2 a.mE3 * (-(pow2 a.mL3 * pow2 a.Mu) + Misc.pow4 a.mL3 -
    Misc.pow4 a.Mu) + 2 * pow2 a.mL3 * Misc.pow4 a.Mu) + a.log_mE3 * pow2 a.mE3 * pow2 a.mL3 * (2 * Misc.pow4 a.Mu *
    Misc.pow6 a.mE3 + 2 * Misc.pow4 a.mE3 * ((-3) * pow2 a.Mu * Misc.pow4 a.mL3 + 2 * pow2 a.mL3 * Misc.pow4 a.Mu +
    Misc.pow6 a.mL3 - 3 * Misc.pow6 a.Mu) + Misc.pow4 a.Mu * ((-4) * pow2 a.Mu * Misc.pow4 a.mL3 + 3 * pow2 a.mL3 *
    Misc.pow4 a.Mu + Misc.pow6 a.mL3 - 2 * Misc.pow6 a.Mu) + pow2 a.mE3 * (13 * Misc.pow4 a.mL3 * Misc.pow4 a.Mu - 4 * pow2
    a.Mu * Misc.pow6 a.mL3 - 10 * pow2 a.mL3 * Misc.pow6 a.Mu + 7 * Misc.pow8 a.Mu))) / (pow2 a.mE3 * pow2 a.mL3 * pow2
    (pow2 a.mE3 - pow2 a.mL3) * pow2 (pow2 a.mE3 - pow2 a.Mu) * pow2 (pow2 a.mL3 - pow2 a.Mu))) + Misc.pow4 a.Xtau * (2 *
    a.dilog_mE32_Mu2 * ((-2) * pow2 a.mE3 * pow2 a.mL3 + 6 * pow2 a.mL3 * pow2 a.Mu + Misc.pow4 a.mE3 - 2 * Misc.pow4 a.mL3
    - 3 * Misc.pow4 a.Mu) + a.dilog_mL32_Mu2 * (4 * pow2 a.mL3 * (pow2 a.mE3 - 3 * pow2 a.Mu) - 2 * Misc.pow4 a.mE3 + 4 *
    Misc.pow4 a.mL3 + 6 * Misc.pow4 a.Mu) - 4 * pow2 a.mE3 * (pow2 a.mE3 + pow2 a.mL3) * pow2 a.log_mE3 * (pow2 a.mE3 *
    (pow2 a.mL3 - 14 * pow2 a.Mu) - 2 * pow2 a.mL3 * pow2 a.Mu + 7 * Misc.pow4 a.mE3 + 8 * Misc.pow4 a.Mu) / pow2 (pow2
    a.mE3 - pow2 a.Mu) + a.lMR * (2 * a.log_mE3 * ((-6) * pow2 a.mE3 * pow2 a.mL3 + 12 * pow2 a.mL3 * pow2 a.Mu + 7 *
    Misc.pow4 a.mE3 - 13 * Misc.pow4 a.mL3) + (-(pow2 a.mE3) + pow2 a.mL3) * (10 * pow2 a.mE3 * pow2 a.mL3 * (pow2 a.mE3 +
    pow2 a.Mu) - 2 * pow2 a.Mu * Misc.pow4 a.mE3 + ((-21) * pow2 a.mE3 + 4 * pow2 a.Mu) * Misc.pow4 a.mL3 + Misc.pow6 a.mE3
    - 2 * Misc.pow6 a.mL3) / (pow2 a.mE3 * pow2 a.mL3)) - 8 * pow2 a.mL3 * pow2 a.log_mL3 * (5 * pow2 a.mE3 * pow2 (pow2
    a.mL3 - pow2 a.Mu) + (pow2 a.mL3 - 2 * pow2 a.Mu) * Misc.pow4 a.mE3 - 10 * pow2 a.Mu * Misc.pow4 a.mL3 + 6 * pow2 a.mL3
    * Misc.pow4 a.Mu + 5 * Misc.pow6 a.mL3) / pow2 (pow2 a.mL3 - pow2 a.Mu) + (pow2 a.mE3 - pow2 a.mL3) * ((-2) * pow2 a.Mu
    * Misc.pow4 a.mL3 * ((-3) * pow2 a.mL3 * pow2 a.Mu + Misc.pow4 a.mL3 + 2 * Misc.pow4 a.Mu) + (14 * pow2 a.mL3 * pow2
    a.Mu - 15 * Misc.pow4 a.mL3 - 3 * Misc.pow4 a.Mu) * Misc.pow6 a.mE3 + Misc.pow4 a.mE3 * ((-31) * pow2 a.Mu * Misc.pow4
    a.mL3 + 5 * pow2 a.mL3 * Misc.pow4 a.Mu + 32 * Misc.pow6 a.mL3 + 2 * Misc.pow6 a.Mu) + (-(pow2 a.mL3) + pow2 a.Mu) *
    Misc.pow8 a.mE3 + 2 * pow2 a.mE3 * (23 * Misc.pow4 a.mL3 * Misc.pow4 a.Mu - 18 * pow2 a.Mu * Misc.pow6 a.mL3 - 8 * pow2
    a.mL3 * Misc.pow6 a.Mu + Misc.pow8 a.mL3)) / (pow2 a.mE3 * pow2 a.mL3 * (pow2 a.mE3 - pow2 a.Mu) * (pow2 a.mL3 - pow2
    a.Mu)) + a.log_mE3 * ((-2) * pow2 a.Mu * pow2 (pow2 a.mE3 - pow2 a.Mu) * Misc.pow6 a.mE3 + Misc.pow6 a.mL3 * (153 * pow2
    a.Mu * Misc.pow4 a.mE3 - 162 * pow2 a.mE3 * Misc.pow4 a.Mu - 50 * Misc.pow6 a.mE3 + 47 * Misc.pow6 a.Mu) + (64 * pow2
    a.mE3 * pow2 a.Mu - 33 * Misc.pow4 a.mE3 - 27 * Misc.pow4 a.Mu) * Misc.pow8 a.mL3 + Misc.pow4 a.mL3 * ((-101) *
    Misc.pow4 a.mE3 * Misc.pow4 a.Mu - 26 * pow2 a.Mu * Misc.pow6 a.mE3 + 118 * pow2 a.mE3 * Misc.pow6 a.Mu + 45 * Misc.pow8
    a.mE3 - 24 * Misc.pow8 a.Mu) + pow2 a.mE3 * pow2 a.mL3 * (70 * Misc.pow4 a.mE3 * Misc.pow4 a.Mu - 45 * pow2 a.Mu *
    Misc.pow6 a.mE3 - 19 * pow2 a.mE3 * Misc.pow6 a.Mu + 2 * Misc.pow8 a.mE3 - 12 * Misc.pow8 a.Mu)) / (pow2 a.mL3 * (pow2
    a.mL3 - pow2 a.Mu) * pow2 (pow2 a.mE3 - pow2 a.Mu)) - a.log_mL3 * ((pow2 a.mE3 - pow2 a.Mu) * (4 * pow2 a.Mu * pow2
    (pow2 a.mL3 - pow2 a.Mu) * Misc.pow6 a.mL3 + pow2 a.mL3 * Misc.pow4 a.mE3 * (2 * (81 + 44 * a.lMR) * pow2 a.Mu *
    Misc.pow4 a.mL3 - (123 + 98 * a.lMR) * pow2 a.mL3 * Misc.pow4 a.Mu - (71 + 26 * a.lMR) * Misc.pow6 a.mL3 + 4 * (2 + 9 *
    a.lMR) * Misc.pow6 a.Mu) + Misc.pow6 a.mE3 * ((-49 + 10 * a.lMR) * pow2 a.Mu * Misc.pow4 a.mL3 + 2 * (37 + 8 * a.lMR) *
    pow2 a.mL3 * Misc.pow4 a.Mu - 12 * (-1 + a.lMR) * Misc.pow6 a.mL3 - (13 + 14 * a.lMR) * Misc.pow6 a.Mu) + ((-2) * (25 +
    14 * a.lMR) * pow2 a.mL3 * pow2 a.Mu + (27 + 14 * a.lMR) * Misc.pow4 a.mL3 + (15 + 14 * a.lMR) * Misc.pow4 a.Mu) *
    Misc.pow8 a.mE3 + pow2 a.mE3 * pow2 a.mL3 * ((-2) * (87 + 38 * a.lMR) * Misc.pow4 a.mL3 * Misc.pow4 a.Mu + (77 + 26 *
    a.lMR) * pow2 a.Mu * Misc.pow6 a.mL3 + (145 + 74 * a.lMR) * pow2 a.mL3 * Misc.pow6 a.Mu - 4 * Misc.pow8 a.mL3 - 12 * (3
    + 2 * a.lMR) * Misc.pow8 a.Mu)) - 4 * a.log_mE3 * pow2 a.mE3 * (2 * Misc.pow4 a.mL3 * Misc.pow4 a.Mu * ((-10) * pow2
    a.mL3 * pow2 a.Mu + 5 * Misc.pow4 a.mL3 + 6 * Misc.pow4 a.Mu) + 2 * Misc.pow6 a.mE3 * ((-27) * pow2 a.Mu * Misc.pow4
    a.mL3 + 27 * pow2 a.mL3 * Misc.pow4 a.Mu + 9 * Misc.pow6 a.mL3 - 7 * Misc.pow6 a.Mu) + ((-18) * pow2 a.mL3 * pow2 a.Mu +
    9 * Misc.pow4 a.mL3 + 7 * Misc.pow4 a.Mu) * Misc.pow8 a.mE3 + Misc.pow4 a.mE3 * (95 * Misc.pow4 a.mL3 * Misc.pow4 a.Mu -
    58 * pow2 a.Mu * Misc.pow6 a.mL3 - 56 * pow2 a.mL3 * Misc.pow6 a.Mu + 11 * Misc.pow8 a.mL3 + 8 * Misc.pow8 a.Mu) + pow2
    a.mE3 * (62 * Misc.pow4 a.Mu * Misc.pow6 a.mL3 - 62 * Misc.pow4 a.mL3 * Misc.pow6 a.Mu - 22 * pow2 a.Mu * Misc.pow8
    a.mL3 + 18 * pow2 a.mL3 * Misc.pow8 a.Mu)) - 2 * a.log_Mu2 * pow2 a.mE3 * (4 * pow2 a.mL3 * (pow2 a.mL3 * pow2 a.Mu -
    Misc.pow4 a.mL3 + Misc.pow4 a.Mu) * Misc.pow6 a.mE3 + 18 * Misc.pow6 a.mL3 * Misc.pow6 a.Mu + 2 * ((-2) * pow2 a.mL3 *
    pow2 a.Mu + Misc.pow4 a.mL3) * Misc.pow8 a.mE3 - 3 * Misc.pow4 a.Mu * Misc.pow8 a.mL3 - 25 * Misc.pow4 a.mL3 * Misc.pow8
    a.Mu - Misc.pow4 a.mE3 * (41 * Misc.pow4 a.mL3 * Misc.pow4 a.Mu - 28 * pow2 a.Mu * Misc.pow6 a.mL3 - 18 * pow2 a.mL3 *
    Misc.pow6 a.Mu + 4 * Misc.pow8 a.mL3 + Misc.pow8 a.Mu) + 4 * pow2 a.mE3 * ((-11) * Misc.pow4 a.Mu * Misc.pow6 a.mL3 + 15
    * Misc.pow4 a.mL3 * Misc.pow6 a.Mu + 2 * pow2 a.Mu * Misc.pow8 a.mL3 - 7 * pow2 a.mL3 * Misc.pow8 a.Mu) + 12 * pow2
    a.mL3 * Misc.power10 a.Mu)) / (pow2 a.mE3 * pow2 (pow2 a.mE3 - pow2 a.Mu) * pow2 (pow2 a.mL3 - pow2 a.Mu)) - 2 *
    a.log_Mu2 * ((pow2 a.mE3 - pow2 a.mL3) * pow2 a.Mu * ((-2) * pow2 (pow2 a.mL3 - pow2 a.Mu) * Misc.pow4 a.mL3 * Misc.pow4
    a.Mu - 2 * Misc.pow6 a.mE3 * (pow2 a.mL3 * Misc.pow4 a.Mu + Misc.pow6 a.mL3 + Misc.pow6 a.Mu) + (Misc.pow4 a.mL3 +
    Misc.pow4 a.Mu) * Misc.pow8 a.mE3 + Misc.pow4 a.mE3 * ((-7) * Misc.pow4 a.mL3 * Misc.pow4 a.Mu + 9 * pow2 a.Mu *
    Misc.pow6 a.mL3 + 5 * pow2 a.mL3 * Misc.pow6 a.Mu - 2 * Misc.pow8 a.mL3 + Misc.pow8 a.Mu) + pow2 a.mE3 * ((-8) *
    Misc.pow4 a.Mu * Misc.pow6 a.mL3 + 5 * Misc.pow4 a.mL3 * Misc.pow6 a.Mu + 3 * pow2 a.Mu * Misc.pow8 a.mL3 - 2 * pow2
    a.mL3 * Misc.pow8 a.Mu)) + a.log_mE3 * pow2 a.mE3 * pow2 a.mL3 * (4 * pow2 a.mL3 * (pow2 a.mL3 * pow2 a.Mu - Misc.pow4
    a.mL3 + Misc.pow4 a.Mu) * Misc.pow6 a.mE3 + 18 * Misc.pow6 a.mL3 * Misc.pow6 a.Mu + 2 * ((-2) * pow2 a.mL3 * pow2 a.Mu +
    Misc.pow4 a.mL3) * Misc.pow8 a.mE3 - 3 * Misc.pow4 a.Mu * Misc.pow8 a.mL3 - 25 * Misc.pow4 a.mL3 * Misc.pow8 a.Mu -
    Misc.pow4 a.mE3 * (41 * Misc.pow4 a.mL3 * Misc.pow4 a.Mu - 28 * pow2 a.Mu * Misc.pow6 a.mL3 - 18 * pow2 a.mL3 *
    Misc.pow6 a.Mu + 4 * Misc.pow8 a.mL3 + Misc.pow8 a.Mu) + 4 * pow2 a.mE3 * ((-11) * Misc.pow4 a.Mu * Misc.pow6 a.mL3 + 15
    * Misc.pow4 a.mL3 * Misc.pow6 a.Mu + 2 * pow2 a.Mu * Misc.pow8 a.mL3 - 7 * pow2 a.mL3 * Misc.pow8 a.Mu) + 12 * pow2
    a.mL3 * Misc.power10 a.Mu)) / (pow2 a.mE3 * pow2 a.mL3 * pow2 (pow2 a.mE3 - pow2 a.Mu) * pow2 (pow2 a.mL3 - pow2 a.Mu)))
    / Misc.pow4 (pow2 a.mE3 - pow2 a.mL3)) / pow2 a.cbeta)

end Ytau6

/-- `getDeltaLambdaYtau6`; ThresholdCalculator.cpp:1773-2187 -/
def TcObj.dLamYtau6 (dilog : F → F) (phi : F → F → F → F) (c : TcObj F) (omitLogs : Int) : F :=
  let MR2 := pow2 c.p.scale
  let lMR := (ofInt omitLogs) * log MR2
  let mL32 := (c.p.ml2 2 2)
  let mE32 := (c.p.me2 2 2)
  let mL3 := sqrt mL32
  let mE3 := sqrt mE32
  let mA := c.p.MA
  let sbeta := (eftSinBeta c.p)
  let cbeta := (eftCosBeta c.p)
  let sbe := sbeta
  let cbe := cbeta
  let Xtau := (calcXtau c.p)
  let Ytau := (calcYtau c.p)
  let Mu := c.p.mu
  if lt (abs (mE3 - mL3)) (lit (1/10) * mE3) then
    let lMS := log (mL32 / MR2)
    let M := mL3
    let Xtau2 := pow2 Xtau
    pow2 cbe * (cbe * (lit (624371200000001/125000000000000) - 48 * lMS) * sbe * Misc.pow3 M * Misc.pow3 Xtau + Xtau2 *
      Misc.pow4 M * (-(lit (253772799999993/2000000000000000)) + pow2 cbe * (lMS * (99 - lit (81/2) * pow2 sbe) + lit
      (2588317440000001/100000000000000) * pow2 sbe) + (-96 + lit (27/4) * lMS) * Misc.pow4 cbe + lMS * (lit (297/4) - 99 *
      pow2 sbe + lit (27/4) * Misc.pow4 sbe)) + pow2 M * (-(lit (12437120000000013/100000000000000000)) + pow2 cbe * (lit
      (1324371200000001/200000000000000) * pow2 sbe + lMS * (-(lit (45/2)) + lit (9/2) * pow2 sbe)) + (39 - lit (3/4) * lMS)
      * Misc.pow4 cbe + lMS * (-(lit (75/4)) + lit (45/2) * pow2 sbe - lit (3/4) * Misc.pow4 sbe)) * Misc.pow4 Xtau + cbe *
      (lit (4507545599999993/1000000000000000) + 108 * lMS) * sbe * Xtau * Misc.pow5 M + cbe * (-(lit
      (994969600000001/4000000000000000)) + 6 * lMS) * M * sbe * Misc.pow5 Xtau + (lit (7512575999999989/10000000000000000)
      + pow2 cbe * (lit (39004104065361593/10000000000000000) * pow2 sbe + lMS * (-30 + lit (117/2) * pow2 sbe)) + (54 - lit
      (39/4) * lMS + 18 * pow2 lMS) * Misc.pow4 cbe + lMS * (-(lit (9/4)) + 30 * pow2 sbe - lit (39/4) * Misc.pow4 sbe)) *
      Misc.pow6 M + (lMS * (lit (3/2) - lit (3/2) * pow2 sbe) + pow2 cbe * (lit (3/2) * lMS - lit
      (12437120000000013/100000000000000000) * pow2 sbe) - 3 * Misc.pow4 cbe) * Misc.pow6 Xtau) / Misc.pow6 M
  else
  Ytau6.formula
    { Mu := Mu, Xtau := Xtau, Ytau := Ytau, cbeta := cbeta, lMR := lMR, mA := mA, mE3 := mE3, mL3 := mL3, sbeta := sbeta,
      log_mE3 := log mE3, log_mL3 := log mL3, dilog_mL32_mE32 := dilog (1 - pow2 mL3 / pow2 mE3),
      dilog_mE32_mL32 := dilog (1 - pow2 mE3 / pow2 mL3), log_mA := log mA,
      phixyz_mA2_mE32_mE32 := phi (pow2 mA) (pow2 mE3) (pow2 mE3),
      phixyz_mA2_mL32_mL32 := phi (pow2 mA) (pow2 mL3) (pow2 mL3),
      phixyz_mA2_mE32_mL32 := phi (pow2 mA) (pow2 mE3) (pow2 mL3), log_mE3_mL3 := log (mE3 / mL3),
      phixyz_mA2_mL32_mE32 := phi (pow2 mA) (pow2 mL3) (pow2 mE3), log_mL32_mE32 := log (pow2 mL3 / pow2 mE3),
      dilog_mL32_Mu2 := dilog (1 - pow2 mL3 / pow2 Mu), dilog_mE32_Mu2 := dilog (1 - pow2 mE3 / pow2 Mu),
      log_Mu2 := log (pow2 Mu) }

namespace Yt2Yb4

/-- local variables of `getDeltaLambdaYt2Yb4` and values of the functions called in the last `return` statement; ThresholdCalculator.cpp:2189-2587 -/
structure Arg (F : Type) where
  Mu : F
  Mu2 : F
  Xb : F
  Xb2 : F
  Xt : F
  Xt2 : F
  Yb : F
  Yt : F
  cbeta : F
  lmQ3MR : F
  lmUMR : F
  mA : F
  mA2 : F
  mD3 : F
  mD32 : F
  mQ3 : F
  mQ32 : F
  mU3 : F
  mU32 : F
  sbeta : F
  /-- `abs Mu` -/
  abs_Mu : F
  /-- `dilog (1 - Mu2 / mD32)` -/
  dilog_Mu2_mD32 : F
  /-- `dilog (1 - Mu2 / mQ32)` -/
  dilog_Mu2_mQ32 : F
  /-- `dilog (1 - Mu2 / mU32)` -/
  dilog_Mu2_mU32 : F
  /-- `log (mA2 / MR2)` -/
  log_mA2_MR2 : F
  /-- `log (mU32 / mQ32)` -/
  log_mU32_mQ32 : F
  /-- `Mu2 * sqrt Mu2` -/
  pow_Mu2_15 : F
  /-- `dilog (1 - mD32 / mQ32)` -/
  dilog_mD32_mQ32 : F
  /-- `log (mD32 / mQ32)` -/
  log_mD32_mQ32 : F
  /-- `phi mA2 mU32 mD32` -/
  phixyz_mA2_mU32_mD32 : F
  /-- `phi mA2 mQ32 mD32` -/
  phixyz_mA2_mQ32_mD32 : F
  /-- `phi mA2 mQ32 mQ32` -/
  phixyz_mA2_mQ32_mQ32 : F
  /-- `phi mA2 mU32 mQ32` -/
  phixyz_mA2_mU32_mQ32 : F
  /-- `dilog (1 - mQ32 / mU32)` -/
  dilog_mQ32_mU32 : F
  /-- `dilog (1 - mD32 / mU32)` -/
  dilog_mD32_mU32 : F

/-- the general formula, the last `return` statement of `getDeltaLambdaYt2Yb4`; ThresholdCalculator.cpp:2245-2586 -/
def formula (a : Arg F) : F :=
  -6 + 48 * a.Xb * a.abs_Mu * (a.dilog_Mu2_mD32 - a.dilog_Mu2_mQ32) / (a.cbeta * (a.mD32 - a.mQ32) * a.sbeta) + 48 * a.Xt *
    a.abs_Mu * ((a.mQ32 + a.Mu2) * (a.Mu2 - a.mU32) * a.dilog_Mu2_mQ32 + (a.mQ32 - a.Mu2) * (a.Mu2 + a.mU32) *
    a.dilog_Mu2_mU32) / (a.cbeta * (-a.mQ32 + a.Mu2) * (a.mQ32 - a.mU32) * (a.Mu2 - a.mU32) * a.sbeta) - 24 *
    a.dilog_Mu2_mD32 / pow2 a.cbeta + 8 * pow2 (const .pi) + 12 * a.dilog_Mu2_mQ32 * ((-2) / pow2 a.cbeta + 1 / pow2
    a.sbeta) - 3 / pow2 a.sbeta + 12 * a.Mu2 / (a.mQ32 * pow2 a.sbeta) - 6 * a.mU32 / (a.mQ32 * pow2 a.sbeta) + 6 * a.Mu2 /
    ((-a.Mu2 + a.mU32) * pow2 a.sbeta) + 12 * a.dilog_Mu2_mU32 / pow2 a.sbeta + 3 * pow2 a.cbeta / pow2 a.sbeta - 6 * a.mA2
    * pow2 a.cbeta / (a.mQ32 * pow2 a.sbeta) + 2 * pow2 a.cbeta * pow2 (const .pi) / pow2 a.sbeta - 6 * pow2 a.cbeta * pow2
    a.Yt / (a.mQ32 * pow2 a.sbeta) + (24 + 6 * pow2 a.cbeta / pow2 a.sbeta) * pow2 a.log_mA2_MR2 + 48 * ((-a.mD32 - a.mQ32 +
    2 * a.Mu2) * a.sbeta * a.abs_Mu * a.dilog_Mu2_mD32 + (a.mD32 + a.mQ32 - 2 * a.Mu2) * a.sbeta * a.abs_Mu *
    a.dilog_Mu2_mQ32 - 2 * (a.mD32 - a.mQ32) * (2 * a.sbeta * a.abs_Mu + a.cbeta * (a.Yb + a.Yt) * pow2 a.sbeta + a.Yt *
    Misc.pow3 a.cbeta)) * Misc.pow3 a.Xb / (a.cbeta * pow2 a.sbeta * Misc.pow3 (a.mD32 - a.mQ32)) - 24 * a.dilog_Mu2_mU32 *
    Misc.pow4 a.Mu / (pow2 (a.Mu2 - a.mU32) * pow2 a.sbeta) + pow2 a.log_mU32_mQ32 * (24 * (a.Mu2 + a.mU32) * a.Xt *
    a.abs_Mu / (a.cbeta * (a.Mu2 - a.mU32) * (-a.mQ32 + a.mU32) * a.sbeta) - 6 * a.Xt2 * (2 * a.mU32 + 3 * (a.mQ32 - a.mU32
    + a.Xb2) * pow2 a.cbeta) / (pow2 a.cbeta * pow2 (a.mQ32 - a.mU32)) + (6 - 12 * Misc.pow4 a.Mu / pow2 (a.Mu2 - a.mU32)) /
    pow2 a.sbeta) + 6 * pow2 a.lmQ3MR * (3 + 8 * a.pow_Mu2_15 * a.Xt / (a.cbeta * (-a.mQ32 + a.Mu2) * (a.Mu2 - a.mU32) *
    a.sbeta) + 2 * (-1 + pow2 a.sbeta) / pow2 a.cbeta + pow2 a.cbeta / pow2 a.sbeta + (2 - 2 * Misc.pow4 a.Mu / pow2 (a.Mu2
    - a.mU32)) / pow2 a.sbeta) + 12 * a.Xb2 * (3 * a.mD32 * a.mQ32 * pow2 a.cbeta - 2 * a.mD32 * a.Mu2 * pow2 a.cbeta + 2 *
    a.mQ32 * a.Mu2 * pow2 a.cbeta + a.mD32 * a.mU32 * pow2 a.cbeta - a.mQ32 * a.mU32 * pow2 a.cbeta - 2 * a.mD32 * a.mQ32 *
    a.dilog_Mu2_mQ32 * pow2 a.cbeta + 2 * a.mQ32 * a.Mu2 * a.dilog_Mu2_mQ32 * pow2 a.cbeta + 2 * a.mD32 * a.mQ32 * pow2
    a.sbeta - 4 * a.mD32 * a.mQ32 * pow2 a.cbeta * pow2 a.sbeta + 6 * (a.mD32 - a.mQ32) * a.mQ32 * a.dilog_mD32_mQ32 * pow2
    a.cbeta * pow2 a.sbeta + 2 * a.mQ32 * a.dilog_Mu2_mD32 * ((a.mD32 - a.Mu2) * pow2 a.cbeta + a.mQ32 * pow2 a.sbeta) +
    a.mA2 * a.mD32 * Misc.pow4 a.cbeta - a.mA2 * a.mQ32 * Misc.pow4 a.cbeta - 2 * a.mD32 * a.mQ32 * Misc.pow4 a.cbeta +
    a.mD32 * pow2 a.Yt * Misc.pow4 a.cbeta - a.mQ32 * pow2 a.Yt * Misc.pow4 a.cbeta - 3 * pow2 a.cbeta * Misc.pow4 a.mQ3 - 2
    * pow2 a.sbeta * Misc.pow4 a.mQ3 - 2 * a.dilog_Mu2_mQ32 * pow2 a.sbeta * Misc.pow4 a.mQ3 + 4 * pow2 a.cbeta * pow2
    a.sbeta * Misc.pow4 a.mQ3 + 2 * Misc.pow4 a.cbeta * Misc.pow4 a.mQ3 - 2 * a.mD32 * a.mQ32 * Misc.pow4 a.sbeta + 2 *
    Misc.pow4 a.mQ3 * Misc.pow4 a.sbeta) / (a.mQ32 * pow2 a.cbeta * pow2 (a.mD32 - a.mQ32) * pow2 a.sbeta) + 6 * a.lmUMR *
    a.Mu2 * (4 * (1 / (a.mD32 - a.Mu2) + 1 / (a.mQ32 - a.Mu2)) / pow2 a.cbeta + 4 * a.Xt2 / ((a.mQ32 - a.Mu2) * (a.mQ32 -
    a.mU32) * pow2 a.cbeta) + 4 * a.Xb2 * (1 / ((a.mD32 - a.Mu2) * pow2 a.cbeta) + 1 / (a.mQ32 * pow2 a.sbeta)) / (a.mD32 -
    a.mQ32) - (2 / a.mQ32 + (a.Mu2 + 2 * a.mU32) / pow2 (a.Mu2 - a.mU32)) / pow2 a.sbeta + 2 * (a.mD32 + 2 * a.mQ32) *
    Misc.pow4 a.Xb / (a.mQ32 * pow2 a.sbeta * Misc.pow3 (-a.mD32 + a.mQ32))) + 6 * pow2 a.log_mD32_mQ32 * (4 * a.Xb *
    a.abs_Mu / (a.cbeta * a.mD32 * a.sbeta - a.cbeta * a.mQ32 * a.sbeta) - 2 / pow2 a.cbeta + 2 * a.Xb2 * ((a.mD32 - a.Mu2)
    * pow2 a.cbeta + a.mQ32 * pow2 a.sbeta) / (pow2 a.cbeta * pow2 (a.mD32 - a.mQ32) * pow2 a.sbeta) - 4 * (a.mD32 + a.mQ32
    - 2 * a.Mu2) * a.abs_Mu * Misc.pow3 a.Xb / (a.cbeta * a.sbeta * Misc.pow3 (a.mD32 - a.mQ32)) - (a.mD32 + 2 * a.mQ32 - 3
    * a.Mu2) * (a.mD32 - a.Mu2) * Misc.pow4 a.Xb / (pow2 a.sbeta * Misc.pow4 (a.mD32 - a.mQ32))) + 6 *
    a.phixyz_mA2_mU32_mD32 * (2 * a.Xb * a.Yt * (pow2 a.cbeta + pow2 a.sbeta) * ((-3) * a.mD32 * a.mU32 - a.mA2 * (3 *
    a.mD32 + 2 * a.mU32) + Misc.pow4 a.mA + 2 * Misc.pow4 a.mD3 + Misc.pow4 a.mU3) / ((a.mD32 - a.mQ32) * pow2 a.sbeta) - 2
    * (a.mD32 - a.mQ32 + a.Xb2) * a.Xt * a.Yb * ((a.mD32 - a.mQ32 + a.Xb * a.Yt) * pow2 a.cbeta + (a.mD32 - a.mQ32) * pow2
    a.sbeta) * ((-3) * a.mD32 * a.mU32 - a.mA2 * (3 * a.mD32 + 2 * a.mU32) + Misc.pow4 a.mA + 2 * Misc.pow4 a.mD3 +
    Misc.pow4 a.mU3) / ((a.mQ32 - a.mU32) * pow2 a.cbeta * pow2 (a.mD32 - a.mQ32)) + (a.mD32 - a.mQ32 + a.Xb2) * a.Xt2 *
    pow2 a.sbeta * pow2 a.Yb * ((-3) * a.mD32 * a.mU32 - a.mA2 * (3 * a.mD32 + 2 * a.mU32) + Misc.pow4 a.mA + 2 * Misc.pow4
    a.mD3 + Misc.pow4 a.mU3) / ((a.mD32 - a.mQ32) * pow2 a.cbeta * pow2 (a.mQ32 - a.mU32)) + pow2 (pow2 a.cbeta + pow2
    a.sbeta) * ((-3) * a.mD32 * a.mU32 - a.mA2 * (3 * a.mD32 + 2 * a.mU32) + Misc.pow4 a.mA + 2 * Misc.pow4 a.mD3 +
    Misc.pow4 a.mU3) / (pow2 a.cbeta * pow2 a.sbeta) + 2 * a.Yt * (pow2 a.cbeta + pow2 a.sbeta) * Misc.pow3 a.Xb * ((-3) *
    a.mD32 * a.mU32 - a.mA2 * (3 * a.mD32 + 2 * a.mU32) + Misc.pow4 a.mA + 2 * Misc.pow4 a.mD3 + Misc.pow4 a.mU3) / (pow2
    (a.mD32 - a.mQ32) * pow2 a.sbeta) + a.Xb2 * ((-3) * a.mD32 * a.mU32 - a.mA2 * (3 * a.mD32 + 2 * a.mU32) + Misc.pow4 a.mA
    + 2 * Misc.pow4 a.mD3 + Misc.pow4 a.mU3) * (2 * (a.mD32 - a.mQ32) * pow2 a.cbeta * pow2 a.sbeta + (a.mD32 - a.mQ32 +
    pow2 a.Yt) * Misc.pow4 a.cbeta + (a.mD32 - a.mQ32) * Misc.pow4 a.sbeta) / (pow2 a.cbeta * pow2 (a.mD32 - a.mQ32) * pow2
    a.sbeta) + pow2 a.cbeta * pow2 a.Yt * ((-3) * a.mD32 * a.mU32 - a.mA2 * (3 * a.mD32 + 2 * a.mU32) + Misc.pow4 a.mA + 2 *
    Misc.pow4 a.mD3 + Misc.pow4 a.mU3) * Misc.pow4 a.Xb / (pow2 a.sbeta * Misc.pow3 (a.mD32 - a.mQ32)) + Yt6.deltaxyz a.mA2
    a.mU32 a.mD32 * ((-2) * a.Xb * a.Yt * (pow2 a.cbeta + pow2 a.sbeta) / ((a.mD32 - a.mQ32) * pow2 a.sbeta) - pow2 (pow2
    a.cbeta + pow2 a.sbeta) / (pow2 a.cbeta * pow2 a.sbeta) - 2 * (3 * a.mD32 - a.mQ32) * a.Yt * (pow2 a.cbeta + pow2
    a.sbeta) * Misc.pow3 a.Xb / (pow2 a.sbeta * Misc.pow3 (a.mD32 - a.mQ32)) + 2 * a.Xt * (-(a.Xb * pow2 (a.mD32 - a.mQ32) *
    ((a.mD32 - a.Yb * a.Yt) * pow2 a.cbeta + a.mD32 * pow2 a.sbeta)) + (a.mD32 - a.mQ32) * a.Xb2 * (-((a.mQ32 * a.Yb +
    a.mD32 * ((-2) * a.Yb + a.Yt)) * pow2 a.cbeta) + (2 * a.mD32 - a.mQ32) * a.Yb * pow2 a.sbeta) + a.Yb * (pow2 a.cbeta +
    pow2 a.sbeta) * Misc.pow3 (a.mD32 - a.mQ32) + (3 * a.mD32 - a.mQ32) * a.Yb * a.Yt * pow2 a.cbeta * Misc.pow3 a.Xb) /
    ((a.mQ32 - a.mU32) * pow2 a.cbeta * Misc.pow3 (a.mD32 - a.mQ32)) - a.Xt2 * a.Yb * pow2 a.sbeta * (a.mQ32 * (a.mQ32 -
    a.Xb2) * a.Yb + 2 * a.mD32 * (a.mQ32 * (a.Xb - a.Yb) + a.Xb2 * a.Yb) + ((-2) * a.Xb + a.Yb) * Misc.pow4 a.mD3) / (pow2
    a.cbeta * pow2 (a.mD32 - a.mQ32) * pow2 (a.mQ32 - a.mU32)) - a.Xb2 * (2 * (2 * a.mD32 - a.mQ32) * pow2 a.cbeta * pow2
    a.sbeta + (2 * a.mD32 - a.mQ32 + pow2 a.Yt) * Misc.pow4 a.cbeta + (2 * a.mD32 - a.mQ32) * Misc.pow4 a.sbeta) / (pow2
    a.cbeta * pow2 (a.mD32 - a.mQ32) * pow2 a.sbeta) - (4 * a.mD32 - a.mQ32) * pow2 a.cbeta * pow2 a.Yt * Misc.pow4 a.Xb /
    (pow2 a.sbeta * Misc.pow4 (a.mD32 - a.mQ32)))) / Misc.pow4 a.mD3 + 6 * a.phixyz_mA2_mQ32_mD32 * ((a.mA2 - a.mQ32) * pow2
    a.sbeta * pow2 a.Yb / pow2 a.cbeta + a.Xb2 * (a.mA2 * (2 * a.mD32 - a.mQ32) + pow2 (a.mD32 - a.mQ32)) * pow2 a.sbeta *
    pow2 a.Yb / (pow2 a.cbeta * pow2 (a.mD32 - a.mQ32)) + Yt6.deltaxyz a.mA2 a.mQ32 a.mD32 * (2 * a.mD32 * (a.mD32 - a.mQ32)
    * a.Xb2 - 2 * a.Xb * a.Yb * pow2 (a.mD32 - a.mQ32) - 2 * (3 * a.mD32 - a.mQ32) * a.Yb * Misc.pow3 a.Xb - 2 * a.Xt *
    (-(a.Xb * pow2 (a.mD32 - a.mQ32) * ((a.mD32 - a.Yb * a.Yt) * pow2 a.cbeta + a.mD32 * pow2 a.sbeta)) - (a.mD32 - a.mQ32)
    * a.Xb2 * ((a.mQ32 * a.Yb + a.mD32 * ((-2) * a.Yb + a.Yt)) * pow2 a.cbeta + ((-2) * a.mD32 + a.mQ32) * a.Yb * pow2
    a.sbeta) + a.Yb * (pow2 a.cbeta + pow2 a.sbeta) * Misc.pow3 (a.mD32 - a.mQ32) + (3 * a.mD32 - a.mQ32) * a.Yb * a.Yt *
    pow2 a.cbeta * Misc.pow3 a.Xb) / ((a.mQ32 - a.mU32) * pow2 a.cbeta) + (a.mD32 - a.mQ32) * a.Xt2 * a.Yb * pow2 a.sbeta *
    (a.mQ32 * (a.mQ32 - a.Xb2) * a.Yb + 2 * a.mD32 * (a.mQ32 * (a.Xb - a.Yb) + a.Xb2 * a.Yb) + ((-2) * a.Xb + a.Yb) *
    Misc.pow4 a.mD3) / (pow2 a.cbeta * pow2 (a.mQ32 - a.mU32))) / Misc.pow3 (a.mD32 - a.mQ32) + 2 * (a.mD32 - a.mQ32 +
    a.Xb2) * a.Xt * a.Yb * ((a.mD32 - a.mQ32 + a.Xb * a.Yt) * pow2 a.cbeta + (a.mD32 - a.mQ32) * pow2 a.sbeta) * ((-3) *
    a.mD32 * a.mQ32 - a.mA2 * (3 * a.mD32 + 2 * a.mQ32) + Misc.pow4 a.mA + 2 * Misc.pow4 a.mD3 + Misc.pow4 a.mQ3) / ((a.mQ32
    - a.mU32) * pow2 a.cbeta * pow2 (a.mD32 - a.mQ32)) + 2 * a.Yb * Misc.pow3 a.Xb * ((-3) * a.mD32 * a.mQ32 - a.mA2 * (3 *
    a.mD32 + 2 * a.mQ32) + Misc.pow4 a.mA + 2 * Misc.pow4 a.mD3 + Misc.pow4 a.mQ3) / pow2 (a.mD32 - a.mQ32) + 2 * a.Xb *
    a.Yb * (-(a.mD32 * (a.mA2 + a.mD32 - a.mQ32) * pow2 a.sbeta) + pow2 a.cbeta * ((-3) * a.mD32 * a.mQ32 - a.mA2 * (3 *
    a.mD32 + 2 * a.mQ32) + Misc.pow4 a.mA + 2 * Misc.pow4 a.mD3 + Misc.pow4 a.mQ3)) / ((a.mD32 - a.mQ32) * pow2 a.cbeta) -
    a.Xt2 * a.Yb * pow2 a.sbeta * (2 * a.mD32 * (a.mD32 - a.mQ32) * (a.mA2 + a.mD32 - a.mQ32) * (a.mQ32 - a.mU32) * a.Xb +
    a.Xb2 * a.Yb * ((2 * a.mD32 - 2 * a.mQ32 + a.mU32) * pow2 (a.mD32 - a.mQ32) + (a.mD32 - a.mQ32) * Misc.pow4 a.mA - a.mA2
    * (a.mD32 * (a.mQ32 - 2 * a.mU32) + a.mQ32 * a.mU32 + 3 * Misc.pow4 a.mD3 - 3 * Misc.pow4 a.mQ3)) + a.Yb * pow2 (a.mD32
    - a.mQ32) * ((-3) * a.mD32 * a.mQ32 - a.mQ32 * a.mU32 + a.mA2 * ((-3) * a.mD32 - 3 * a.mQ32 + a.mU32) + Misc.pow4 a.mA +
    2 * Misc.pow4 a.mD3 + 2 * Misc.pow4 a.mQ3)) / (pow2 a.cbeta * pow2 (a.mD32 - a.mQ32) * pow2 (a.mQ32 - a.mU32)) + (a.mD32
    - a.mQ32 + a.Xb2) * (a.mQ32 - a.mU32 + a.Xt2) * pow2 a.sbeta * pow2 a.Yb * (pow2 (-(a.mD32 * a.mQ3) + Misc.pow3 a.mQ3) +
    3 * a.mQ32 * Misc.pow4 a.mA + a.mA2 * (2 * a.mD32 * a.mQ32 + Misc.pow4 a.mD3 - 3 * Misc.pow4 a.mQ3) - Misc.pow6 a.mA) /
    ((a.mD32 - a.mQ32) * (a.mQ32 - a.mU32) * Yt6.deltaxyz a.mA2 a.mQ32 a.mD32 * pow2 a.cbeta)) / Misc.pow4 a.mD3 + 3 *
    a.log_mA2_MR2 * (Misc.pow4 a.cbeta * (2 * a.mQ32 * pow2 a.Yt - a.mU32 * pow2 a.Yt + a.mA2 * (2 * a.mQ32 + pow2 a.Yt) + 2
    * Misc.pow4 a.mQ3) / Misc.pow4 a.mQ3 - 2 * (a.mD32 - a.mQ32 + a.Xb2) * a.Xt2 * pow2 a.Yb * Misc.pow4 a.sbeta / (a.mD32 *
    (a.mD32 - a.mQ32) * (a.mQ32 - a.mU32)) + 2 * (a.mD32 - a.mQ32 + a.Xb2) * (a.mQ32 - a.mU32 + a.Xt2) * pow2 (a.mA2 +
    a.mD32 - a.mQ32) * pow2 a.Yb * Misc.pow4 a.sbeta / (a.mD32 * (a.mD32 - a.mQ32) * (a.mQ32 - a.mU32) * Yt6.deltaxyz a.mA2
    a.mQ32 a.mD32) + 2 * (4 - pow2 a.Yb / a.mD32) * Misc.pow4 a.sbeta - 2 * a.Xb2 * (a.mD32 * ((2 * a.mQ32 - a.mU32) * pow2
    a.Yt + a.mA2 * (2 * a.mQ32 + pow2 a.Yt)) * Misc.pow4 a.cbeta + pow2 a.Yb * Misc.pow4 a.mQ3 * Misc.pow4 a.sbeta) /
    (a.mD32 * (a.mD32 - a.mQ32) * Misc.pow4 a.mQ3) + Misc.pow4 a.cbeta * ((a.mD32 - a.mQ32) * (2 * a.mQ32 - a.mU32) * pow2
    a.Yt + a.mA2 * (-(a.mQ32 * pow2 a.Yt) + a.mD32 * (2 * a.mQ32 + pow2 a.Yt) + 10 * Misc.pow4 a.mQ3)) * Misc.pow4 a.Xb /
    (Misc.pow3 (a.mD32 - a.mQ32) * Misc.pow4 a.mQ3) - pow2 (-a.mD32 + a.mQ32 + a.Xb2) * pow2 a.Yt * Misc.pow4 a.cbeta * ((2
    * a.mQ32 - a.mU32) * pow2 (a.mQ32 - a.mU32) - (2 * a.mQ32 + 3 * a.mU32) * Misc.pow4 a.mA - a.mA2 * (2 * a.mQ32 * a.mU32
    + Misc.pow4 a.mQ3 - 3 * Misc.pow4 a.mU3) + Misc.pow6 a.mA) / (Yt6.deltaxyz a.mA2 a.mU32 a.mQ32 * pow2 (a.mD32 - a.mQ32)
    * Misc.pow4 a.mQ3)) / (pow2 a.cbeta * pow2 a.sbeta) - 6 * Misc.pow4 a.Xb * ((-14) * a.mD32 * a.mQ32 * a.Mu2 + 4 * a.mD32
    * a.mQ32 * a.mU32 + 2 * a.mQ32 * (a.mD32 + 2 * a.mQ32 - 3 * a.Mu2) * (a.mD32 - a.Mu2) * a.dilog_Mu2_mD32 + 8 * a.mD32 *
    a.mQ32 * a.Mu2 * a.dilog_Mu2_mQ32 + 4 * a.mA2 * a.mD32 * a.mQ32 * pow2 a.cbeta + 6 * a.mQ32 * a.dilog_mD32_mQ32 * pow2
    (a.mD32 - a.mQ32) * pow2 a.sbeta + 10 * a.mD32 * a.mQ32 * pow2 a.cbeta * pow2 a.Yt + 9 * a.mQ32 * Misc.pow4 a.mD3 - 2 *
    a.Mu2 * Misc.pow4 a.mD3 + a.mU32 * Misc.pow4 a.mD3 - 2 * a.mQ32 * a.dilog_Mu2_mQ32 * Misc.pow4 a.mD3 + a.mA2 * pow2
    a.cbeta * Misc.pow4 a.mD3 - 16 * a.mQ32 * pow2 a.sbeta * Misc.pow4 a.mD3 + pow2 a.cbeta * pow2 a.Yt * Misc.pow4 a.mD3 -
    6 * a.mD32 * Misc.pow4 a.mQ3 + 16 * a.Mu2 * Misc.pow4 a.mQ3 - 5 * a.mU32 * Misc.pow4 a.mQ3 - 4 * a.mD32 *
    a.dilog_Mu2_mQ32 * Misc.pow4 a.mQ3 + 4 * a.Mu2 * a.dilog_Mu2_mQ32 * Misc.pow4 a.mQ3 - 5 * a.mA2 * pow2 a.cbeta *
    Misc.pow4 a.mQ3 + 32 * a.mD32 * pow2 a.sbeta * Misc.pow4 a.mQ3 - 11 * pow2 a.cbeta * pow2 a.Yt * Misc.pow4 a.mQ3 - 6 *
    a.mQ32 * a.dilog_Mu2_mQ32 * Misc.pow4 a.Mu - 3 * Misc.pow6 a.mQ3 - 16 * pow2 a.sbeta * Misc.pow6 a.mQ3) / (a.mQ32 * pow2
    a.sbeta * Misc.pow4 (a.mD32 - a.mQ32)) + 6 * a.phixyz_mA2_mQ32_mQ32 * (2 * a.mA2 * (a.mA2 - 5 * a.mQ32) * (-a.mD32 +
    a.mQ32 + a.Xb2) * a.Xt * (-a.mD32 + a.mQ32 + a.Xb * a.Yb) * a.Yt / ((a.mQ32 - a.mU32) * pow2 (a.mD32 - a.mQ32)) - a.mA2
    * a.mQ32 * (10 * pow2 a.cbeta + pow2 a.sbeta) / pow2 a.cbeta + 2 * a.mA2 * a.Xb * a.Yb * ((a.mA2 - 5 * a.mQ32) * pow2
    a.cbeta - a.mQ32 * pow2 a.sbeta) / ((-a.mD32 + a.mQ32) * pow2 a.cbeta) - a.mA2 * a.Xb2 * (2 * (a.mA2 - 5 * a.mQ32) *
    (a.mD32 - a.mQ32) * pow2 a.cbeta + a.mQ32 * pow2 a.sbeta * pow2 a.Yb) / (pow2 a.cbeta * pow2 (a.mD32 - a.mQ32)) - a.mA2
    * a.mQ32 * a.Xt2 * pow2 a.sbeta * pow2 (-a.mD32 + a.mQ32 + a.Xb * a.Yb) / ((a.mQ32 - a.mU32) * pow2 a.cbeta * pow2
    (a.mD32 - a.mQ32)) + 2 * a.mA2 * (a.mA2 - 5 * a.mQ32) * a.Yb * Misc.pow3 a.Xb / pow2 (a.mD32 - a.mQ32) + 2 * Misc.pow4
    a.mA + Yt6.deltaxyz a.mA2 a.mQ32 a.mQ32 * (-2 + 2 * a.Xb * a.Yb / (a.mD32 - a.mQ32) + 2 * (a.mD32 - 2 * a.mQ32) * a.Xb2
    / pow2 (a.mD32 - a.mQ32) - a.mQ32 * a.Xt2 * pow2 a.sbeta * pow2 (-a.mD32 + a.mQ32 + a.Xb * a.Yb) / (pow2 a.cbeta * pow2
    (a.mD32 - a.mQ32) * pow2 (a.mQ32 - a.mU32)) + 2 * (a.mD32 - 3 * a.mQ32) * a.Yb * Misc.pow3 a.Xb / Misc.pow3 (-a.mD32 +
    a.mQ32) + 2 * a.Xt * (a.mQ32 * (-a.mD32 + a.mQ32) * a.Xb * (-a.mD32 + a.mQ32 + a.Xb * a.Yb) * pow2 a.sbeta + pow2
    a.cbeta * ((-3) * a.mQ32 * a.Yb * a.Yt * Misc.pow3 a.Xb + (a.mQ32 * (a.Xb - 3 * a.Yt) - a.Xb * (a.Xb + a.Yb) * a.Yt) *
    Misc.pow4 a.mD3 + a.Xb * (a.Xb * a.Yb - 2 * a.Xb * a.Yt - a.Yb * a.Yt) * Misc.pow4 a.mQ3 + a.mD32 * (a.mQ32 * a.Xb *
    (-(a.Xb * a.Yb) + 3 * a.Xb * a.Yt + 2 * a.Yb * a.Yt) + a.Yb * a.Yt * Misc.pow3 a.Xb + ((-2) * a.Xb + 3 * a.Yt) *
    Misc.pow4 a.mQ3) + a.Yt * Misc.pow6 a.mD3 + (a.Xb - a.Yt) * Misc.pow6 a.mQ3)) / ((a.mQ32 - a.mU32) * pow2 a.cbeta *
    Misc.pow3 (-a.mD32 + a.mQ32)))) / Misc.pow4 a.mQ3 + a.lmQ3MR * ((-6) * (a.mD32 - a.mQ32 + a.Xb2) * (a.mQ32 - a.mU32 +
    a.Xt2) * pow2 (a.mA2 + a.mD32 - a.mQ32) * pow2 a.sbeta * pow2 a.Yb / (a.mD32 * (a.mD32 - a.mQ32) * (a.mQ32 - a.mU32) *
    Yt6.deltaxyz a.mA2 a.mQ32 a.mD32 * pow2 a.cbeta) + 48 * (2 * a.sbeta * a.abs_Mu + a.cbeta * (a.Yb + a.Yt) * pow2 a.sbeta
    + a.Yt * Misc.pow3 a.cbeta) * Misc.pow3 a.Xb / (a.cbeta * pow2 (a.mD32 - a.mQ32) * pow2 a.sbeta) + 6 * a.Xb2 * (4 + (-4
    - 2 * a.mU32 / a.mQ32) / pow2 a.sbeta + (-(a.Mu2 * pow2 a.sbeta * pow2 a.Yb) + a.mD32 * ((-2) * a.Mu2 * (1 + pow2
    a.sbeta) + pow2 a.sbeta * pow2 a.Yb) + 2 * (-1 + pow2 a.sbeta) * Misc.pow4 a.mD3) / (a.mD32 * (a.mD32 - a.Mu2) * pow2
    a.cbeta) + pow2 a.cbeta * ((a.mA2 - a.mU32) * pow2 a.Yt + 2 * Misc.pow4 a.mQ3) / (pow2 a.sbeta * Misc.pow4 a.mQ3)) /
    (a.mD32 - a.mQ32) + 12 * a.lmUMR * ((-4) * a.pow_Mu2_15 * (a.Mu2 - a.mU32) * a.sbeta * a.Xt / (a.cbeta * (-a.mQ32 +
    a.Mu2)) + Misc.pow4 a.Mu) / (pow2 (a.Mu2 - a.mU32) * pow2 a.sbeta) + 3 * ((8 * a.Mu2 * (1 / (-a.mD32 + a.Mu2) + 1 /
    (-a.mQ32 + a.Mu2)) + 2 * pow2 a.sbeta * (-4 + pow2 a.Yb / a.mD32)) / pow2 a.cbeta - pow2 a.cbeta * ((a.mA2 - a.mU32) *
    pow2 a.Yt + 4 * Misc.pow4 a.mQ3) / (pow2 a.sbeta * Misc.pow4 a.mQ3) + (2 * pow2 (-(a.Mu2 * a.mU3) + Misc.pow3 a.mU3) - 2
    * a.mQ32 * ((-4) * a.Mu2 * a.mU32 * (1 + 3 * pow2 a.sbeta) + (1 + 6 * pow2 a.sbeta) * Misc.pow4 a.Mu + 6 * pow2 a.sbeta
    * Misc.pow4 a.mU3)) / (a.mQ32 * pow2 (a.Mu2 - a.mU32) * pow2 a.sbeta)) + 3 * pow2 a.cbeta * pow2 (-a.mD32 + a.mQ32 +
    a.Xb2) * pow2 a.Yt * ((2 * a.mQ32 - a.mU32) * pow2 (a.mQ32 - a.mU32) - (2 * a.mQ32 + 3 * a.mU32) * Misc.pow4 a.mA -
    a.mA2 * (2 * a.mQ32 * a.mU32 + Misc.pow4 a.mQ3 - 3 * Misc.pow4 a.mU3) + Misc.pow6 a.mA) / (Yt6.deltaxyz a.mA2 a.mU32
    a.mQ32 * pow2 (a.mD32 - a.mQ32) * pow2 a.sbeta * Misc.pow4 a.mQ3) - 3 * Misc.pow4 a.Xb * (a.mQ32 * (a.mA2 - a.mU32) *
    pow2 a.cbeta * pow2 a.Yt - 2 * (6 * a.Mu2 - 5 * a.mU32 - 6 * pow2 a.cbeta * pow2 a.Yt) * Misc.pow4 a.mQ3 + a.mD32 * (2 *
    a.mQ32 * a.mU32 + (-a.mA2 + a.mU32) * pow2 a.cbeta * pow2 a.Yt - 2 * (-5 + 8 * pow2 a.sbeta) * Misc.pow4 a.mQ3) + 2 * (1
    + 8 * pow2 a.sbeta) * Misc.pow6 a.mQ3) / (pow2 a.sbeta * Misc.pow3 (-a.mD32 + a.mQ32) * Misc.pow4 a.mQ3) + a.Xt2 * (6 *
    a.Xb2 * (2 * a.mD32 * (-a.mQ32 + a.mU32) * pow2 a.cbeta + a.mQ32 * pow2 a.sbeta * pow2 a.Yb) / (a.mD32 * (a.mD32 -
    a.mQ32) * a.mQ32 * (a.mQ32 - a.mU32) * pow2 a.cbeta) - 6 * (a.mD32 + 5 * a.mQ32) * Misc.pow4 a.Xb / (a.mQ32 * Misc.pow3
    (-a.mD32 + a.mQ32)) + 6 * ((a.mQ32 - a.mU32) * pow2 a.sbeta * pow2 a.Yb / a.mD32 - ((2 * a.mU32 * (-1 + 5 * pow2 a.cbeta
    + pow2 a.sbeta) + a.Mu2 * (2 - 3 * pow2 a.cbeta + 2 * pow2 a.sbeta)) * Misc.pow4 a.mQ3 + a.Mu2 * pow2 a.cbeta *
    Misc.pow4 a.mU3 - a.mQ32 * (2 * a.Mu2 * a.mU32 * (1 + 5 * pow2 a.cbeta + pow2 a.sbeta) + pow2 a.cbeta * Misc.pow4 a.mU3)
    + (2 + 3 * pow2 a.cbeta - 2 * pow2 a.sbeta) * Misc.pow6 a.mQ3) / (a.mQ32 * (a.mQ32 - a.Mu2))) / (pow2 a.cbeta * pow2
    (a.mQ32 - a.mU32)))) + a.log_mU32_mQ32 * (6 * a.Xb2 * ((-a.mA2 + a.mU32) * pow2 a.cbeta * pow2 a.Yt + 2 * a.mQ32 *
    (a.mU32 + pow2 a.cbeta * pow2 a.Yt)) / ((-a.mD32 + a.mQ32) * pow2 a.sbeta * Misc.pow4 a.mQ3) + 12 * a.lmUMR * ((-4) *
    a.pow_Mu2_15 * (a.Mu2 - a.mU32) * a.sbeta * a.Xt / (a.cbeta * (-a.mQ32 + a.mU32)) + Misc.pow4 a.Mu) / (pow2 (a.Mu2 -
    a.mU32) * pow2 a.sbeta) + 3 * (2 * (a.mU32 + pow2 a.cbeta * pow2 a.Yt) / a.mQ32 + (-a.mA2 + a.mU32) * pow2 a.cbeta *
    pow2 a.Yt / Misc.pow4 a.mQ3 + 2 * (2 * a.Mu2 * a.mU32 + Misc.pow4 a.mU3) / pow2 (a.Mu2 - a.mU32)) / pow2 a.sbeta + 6 *
    a.lmQ3MR * (2 + pow2 a.sbeta / pow2 a.cbeta + 2 * a.Xt * (4 * a.cbeta * (a.Mu2 + a.mU32) * a.abs_Mu + (a.Mu2 - a.mU32) *
    a.sbeta * (a.Xb + a.Yb + a.Yt) * pow2 a.cbeta + (a.Mu2 - a.mU32) * (a.Xb + a.Yb) * Misc.pow3 a.sbeta) / ((a.mQ32 -
    a.mU32) * (-a.Mu2 + a.mU32) * a.sbeta * pow2 a.cbeta) + (2 + pow2 a.cbeta - 4 * Misc.pow4 a.Mu / pow2 (a.Mu2 - a.mU32))
    / pow2 a.sbeta - a.Xt2 * (a.mQ32 * (2 * a.mU32 * (1 + 5 * pow2 a.cbeta) + (a.mA2 - a.Yb * (2 * a.Xb + a.Yb)) * pow2
    a.sbeta) + a.mU32 * pow2 a.sbeta * (-a.mA2 + 2 * a.Xb * a.Yb + pow2 a.Yb) - pow2 a.sbeta * Misc.pow4 a.mQ3 + (-2 + 2 *
    pow2 a.cbeta + pow2 a.sbeta) * Misc.pow4 a.mU3) / (pow2 a.cbeta * Misc.pow3 (a.mQ32 - a.mU32))) - 6 * a.log_mA2_MR2 * (2
    * (a.mQ32 - a.mU32) * (a.mQ32 - a.mU32 - a.Xt * (a.Xb + a.Yb + a.Yt)) * pow2 a.cbeta * pow2 a.sbeta + pow2 (a.mQ32 -
    a.mU32) * Misc.pow4 a.cbeta + (a.mQ32 * ((-2) * a.mU32 + a.Xt * ((-2) * a.Xb + a.Xt - 2 * a.Yb)) + a.mU32 * a.Xt * (2 *
    a.Xb - a.Xt + 2 * a.Yb) + a.Xt2 * (-a.mA2 + 2 * a.Xb * a.Yb + pow2 a.Yb) + Misc.pow4 a.mQ3 + Misc.pow4 a.mU3) *
    Misc.pow4 a.sbeta) / (pow2 a.cbeta * pow2 (a.mQ32 - a.mU32) * pow2 a.sbeta) - 3 * (a.mQ32 * (a.mA2 - a.mU32) * pow2
    a.cbeta * pow2 a.Yt + a.mD32 * ((-a.mA2 + a.mU32) * pow2 a.cbeta * pow2 a.Yt + 2 * a.mQ32 * (a.mU32 + pow2 a.cbeta *
    pow2 a.Yt)) + 2 * (5 * a.mU32 - pow2 a.cbeta * pow2 a.Yt) * Misc.pow4 a.mQ3) * Misc.pow4 a.Xb / (pow2 a.sbeta *
    Misc.pow3 (-a.mD32 + a.mQ32) * Misc.pow4 a.mQ3) + a.Xt2 * ((a.mQ32 - a.mU32) * ((-6) * a.mQ32 * a.mU32 * (-4 + 5 * pow2
    a.cbeta + 4 * pow2 a.sbeta) + 6 * pow2 a.cbeta * Misc.pow4 a.mU3) / (a.mQ32 * pow2 a.cbeta) + (a.mQ32 - a.mU32) * a.Xb2
    * ((-12) * a.mQ32 * a.mU32 * (1 + pow2 a.cbeta) + 12 * pow2 a.cbeta * Misc.pow4 a.mU3) / (a.mQ32 * (-a.mD32 + a.mQ32) *
    pow2 a.cbeta) - 6 * a.mU32 * ((-2) * a.mQ32 * a.mU32 + 13 * Misc.pow4 a.mQ3 + Misc.pow4 a.mU3) * Misc.pow4 a.Xb / pow2
    (-(a.mD32 * a.mQ3) + Misc.pow3 a.mQ3)) / Misc.pow3 (a.mQ32 - a.mU32) + 3 * pow2 a.cbeta * pow2 (-a.mD32 + a.mQ32 +
    a.Xb2) * pow2 a.Yt * (-((4 * a.mQ32 + 3 * a.mU32) * Misc.pow4 a.mA) + a.mU32 * Misc.pow4 a.mQ3 + 2 * a.mQ32 * Misc.pow4
    a.mU3 + a.mA2 * (2 * a.mQ32 * a.mU32 + 5 * Misc.pow4 a.mQ3 + 3 * Misc.pow4 a.mU3) + Misc.pow6 a.mA - 2 * Misc.pow6 a.mQ3
    - Misc.pow6 a.mU3) / (Yt6.deltaxyz a.mA2 a.mU32 a.mQ32 * pow2 (a.mD32 - a.mQ32) * pow2 a.sbeta * Misc.pow4 a.mQ3)) +
    a.log_mD32_mQ32 * (12 * (-2 + (2 * a.Mu2 / (-a.mD32 + a.Mu2) - pow2 a.sbeta) / pow2 a.cbeta - pow2 a.cbeta / pow2
    a.sbeta) - 12 * (a.mA2 + a.mD32 - a.mQ32) * (a.mD32 - a.mQ32 + a.Xb2) * (a.mQ32 - a.mU32 + a.Xt2) * pow2 a.sbeta * pow2
    a.Yb / ((a.mD32 - a.mQ32) * (a.mQ32 - a.mU32) * Yt6.deltaxyz a.mA2 a.mQ32 a.mD32 * pow2 a.cbeta) - 24 * a.Xb * (2 *
    a.sbeta * a.abs_Mu + a.cbeta * (a.Yb + a.Yt) * pow2 a.sbeta + a.Yt * Misc.pow3 a.cbeta) / (a.cbeta * (a.mD32 - a.mQ32) *
    pow2 a.sbeta) + 24 * (3 * a.mD32 + a.mQ32) * (2 * a.sbeta * a.abs_Mu + a.cbeta * (a.Yb + a.Yt) * pow2 a.sbeta + a.Yt *
    Misc.pow3 a.cbeta) * Misc.pow3 a.Xb / (a.cbeta * pow2 a.sbeta * Misc.pow3 (a.mD32 - a.mQ32)) - 12 * a.Xb2 * (-((a.mD32 -
    a.Mu2) * pow2 a.cbeta * (2 * a.Mu2 - a.mU32 + 3 * a.mD32 * (-1 + pow2 a.sbeta) + a.mQ32 * pow2 a.sbeta)) + (a.mD32 -
    a.Mu2) * (a.mA2 - a.mD32 - a.mQ32 + pow2 a.Yt) * Misc.pow4 a.cbeta + pow2 a.sbeta * (a.mQ32 * a.Mu2 * (-2 + pow2
    a.sbeta) + a.mD32 * (-a.mQ32 + a.Mu2) * pow2 a.sbeta - (-2 + pow2 a.sbeta) * Misc.pow4 a.mD3)) / ((a.mD32 - a.Mu2) *
    pow2 a.cbeta * pow2 (a.mD32 - a.mQ32) * pow2 a.sbeta) + 12 * a.lmUMR * Misc.pow3 a.Xb * ((-8) * a.mD32 * a.pow_Mu2_15 *
    a.sbeta + 8 * a.mQ32 * a.pow_Mu2_15 * a.sbeta + 3 * a.cbeta * a.Xb * Misc.pow4 a.Mu) / (a.cbeta * pow2 a.sbeta *
    Misc.pow4 (a.mD32 - a.mQ32)) + 12 * (a.mQ32 * ((-2) * a.Mu2 + a.mU32 + a.mQ32 * pow2 a.sbeta) + a.mD32 * ((-7) * a.Mu2 +
    2 * a.mU32 + a.mQ32 * (3 + 6 * pow2 a.sbeta)) + pow2 a.cbeta * (a.mA2 * (2 * a.mD32 + a.mQ32) + (5 * a.mD32 + a.mQ32) *
    pow2 a.Yt) + (3 - 7 * pow2 a.sbeta) * Misc.pow4 a.mD3) * Misc.pow4 a.Xb / (pow2 a.sbeta * Misc.pow4 (a.mD32 - a.mQ32)) -
    6 * a.log_mA2_MR2 * (2 * (a.mD32 - a.mQ32) * a.Xb * a.Xt * pow2 a.sbeta * ((-2) * a.Xb2 * a.Yb * a.Yt * pow2 a.cbeta +
    pow2 (a.mD32 - a.mQ32) * (pow2 a.cbeta + pow2 a.sbeta) - (a.mD32 - a.mQ32) * a.Xb * ((a.Yb - a.Yt) * pow2 a.cbeta + a.Yb
    * pow2 a.sbeta)) - 2 * (a.mD32 - a.mQ32) * pow2 a.cbeta * (-(a.mQ32 * a.Yt * pow2 a.cbeta) + 2 * a.mU32 * a.Yt * pow2
    a.cbeta + a.mQ32 * a.Yb * pow2 a.sbeta - a.mQ32 * a.Yt * pow2 a.sbeta + 2 * a.mU32 * a.Yt * pow2 a.sbeta - 2 * a.mA2 *
    (a.Yt * pow2 a.cbeta + (a.Yb + a.Yt) * pow2 a.sbeta) - a.mD32 * (a.Yt * pow2 a.cbeta + (a.Yb + a.Yt) * pow2 a.sbeta)) *
    Misc.pow3 a.Xb - pow2 (pow2 a.cbeta + pow2 a.sbeta) * Misc.pow4 (a.mD32 - a.mQ32) + 2 * a.Xb * Misc.pow3 (a.mD32 -
    a.mQ32) * (-((a.Yb + a.Yt) * pow2 a.cbeta * pow2 a.sbeta) - a.Yt * Misc.pow4 a.cbeta + a.Yb * Misc.pow4 a.sbeta) - a.Xb2
    * pow2 (a.mD32 - a.mQ32) * (2 * (a.mD32 - 2 * a.mQ32 + a.mU32) * pow2 a.cbeta * pow2 a.sbeta + (a.mA2 - a.mQ32 + a.mU32
    + pow2 a.Yt) * Misc.pow4 a.cbeta + (-a.mA2 - a.mQ32 + a.mU32 + pow2 a.Yb) * Misc.pow4 a.sbeta) + ((2 * a.mD32 + a.mQ32 -
    3 * a.mU32) * pow2 a.Yt + a.mA2 * (4 * a.mD32 + 2 * a.mQ32 + 3 * pow2 a.Yt)) * Misc.pow4 a.cbeta * Misc.pow4 a.Xb) /
    (pow2 a.cbeta * pow2 a.sbeta * Misc.pow4 (a.mD32 - a.mQ32)) + 6 * a.lmQ3MR * (2 * (a.mD32 - a.mQ32) * a.Xb * a.Xt * pow2
    a.sbeta * ((-2) * a.Xb2 * a.Yb * a.Yt * pow2 a.cbeta + pow2 (a.mD32 - a.mQ32) * (pow2 a.cbeta + pow2 a.sbeta) - (a.mD32
    - a.mQ32) * a.Xb * ((a.Yb - a.Yt) * pow2 a.cbeta + a.Yb * pow2 a.sbeta)) + 2 * a.cbeta * (a.mD32 - a.mQ32) * (8 *
    a.pow_Mu2_15 * a.sbeta + 2 * a.cbeta * (-(a.mU32 * a.Yt) + a.mA2 * (a.Yb + a.Yt)) * pow2 a.sbeta + 2 * (a.mA2 - a.mU32)
    * a.Yt * Misc.pow3 a.cbeta - a.mD32 * (4 * a.sbeta * a.abs_Mu + a.cbeta * (a.Yb + a.Yt) * pow2 a.sbeta + a.Yt *
    Misc.pow3 a.cbeta) - a.mQ32 * (4 * a.sbeta * a.abs_Mu + a.cbeta * (3 * a.Yb + a.Yt) * pow2 a.sbeta + a.Yt * Misc.pow3
    a.cbeta)) * Misc.pow3 a.Xb + Misc.pow4 (a.mD32 - a.mQ32) * ((-2) * pow2 a.sbeta + 2 * pow2 a.cbeta * pow2 a.sbeta +
    Misc.pow4 a.cbeta + Misc.pow4 a.sbeta) + 2 * a.Xb * Misc.pow3 (a.mD32 - a.mQ32) * (4 * a.cbeta * a.sbeta * a.abs_Mu +
    (a.Yb + a.Yt) * pow2 a.cbeta * pow2 a.sbeta + a.Yt * Misc.pow4 a.cbeta + a.Yb * Misc.pow4 a.sbeta) - a.Xb2 * pow2
    (a.mD32 - a.mQ32) * (a.mQ32 * (-2 + pow2 a.sbeta) * pow2 a.sbeta + 2 * pow2 a.cbeta * (2 * a.Mu2 - a.mU32 - 2 * a.mQ32 *
    pow2 a.sbeta + a.mU32 * pow2 a.sbeta + a.mD32 * (-2 + 3 * pow2 a.sbeta)) + (-a.mA2 + a.mQ32 + a.mU32 - pow2 a.Yt) *
    Misc.pow4 a.cbeta + (-a.mA2 + a.mU32 + pow2 a.Yb) * Misc.pow4 a.sbeta) - pow2 a.cbeta * ((-3) * a.mA2 * pow2 a.cbeta *
    pow2 a.Yt + 3 * a.mU32 * pow2 a.cbeta * pow2 a.Yt + a.mQ32 * ((-4) * a.Mu2 + 2 * a.mU32 + pow2 a.cbeta * pow2 a.Yt) + 2
    * a.mD32 * (2 * a.mQ32 - 4 * a.Mu2 + 2 * a.mU32 + pow2 a.cbeta * pow2 a.Yt) + (2 - 4 * pow2 a.sbeta) * Misc.pow4 a.mD3 +
    4 * pow2 a.sbeta * Misc.pow4 a.mQ3 + 6 * Misc.pow4 a.Mu) * Misc.pow4 a.Xb + 2 * a.Xt2 * pow2 a.cbeta * pow2 a.sbeta *
    (a.Xb2 * pow2 (a.mD32 - a.mQ32) - (2 * a.mD32 + a.mQ32) * Misc.pow4 a.Xb)) / (pow2 a.cbeta * pow2 a.sbeta * Misc.pow4
    (a.mD32 - a.mQ32)) + 6 * a.Xt2 * (-((a.mQ32 * (-2 + 3 * pow2 a.cbeta) + a.mU32 * (2 + 3 * pow2 a.cbeta)) / pow2 a.cbeta)
    - 2 * a.Xb2 * (-(a.mQ32 * a.mU32) + Misc.pow4 a.mQ3 + pow2 a.cbeta * ((-4) * a.mQ32 * a.mU32 + 2 * a.mD32 * (2 * a.mQ32
    + a.mU32) - 3 * Misc.pow4 a.mQ3 + Misc.pow4 a.mU3)) / (pow2 a.cbeta * pow2 (a.mD32 - a.mQ32)) + Misc.pow4 a.Xb *
    ((a.mQ32 + 5 * a.mU32) * Misc.pow4 a.mD3 - 5 * a.mU32 * Misc.pow4 a.mQ3 + 2 * a.mQ32 * Misc.pow4 a.mU3 + 2 * a.mD32 *
    ((-12) * a.mQ32 * a.mU32 + 7 * Misc.pow4 a.mQ3 + 5 * Misc.pow4 a.mU3) - 3 * Misc.pow6 a.mQ3) / Misc.pow4 (a.mD32 -
    a.mQ32)) / pow2 (a.mQ32 - a.mU32) + a.log_mU32_mQ32 * (12 * a.Xb * a.Yt * (pow2 a.cbeta + pow2 a.sbeta) / ((a.mD32 -
    a.mQ32) * pow2 a.sbeta) + 6 * pow2 (pow2 a.cbeta + pow2 a.sbeta) / (pow2 a.cbeta * pow2 a.sbeta) - 12 * ((-2) * a.mA2 +
    a.mD32 + a.mQ32 + 2 * a.mU32) * a.Yt * (pow2 a.cbeta + pow2 a.sbeta) * Misc.pow3 a.Xb / (pow2 a.sbeta * Misc.pow3
    (a.mD32 - a.mQ32)) - 12 * a.Xt * (a.Xb * pow2 (a.mD32 - a.mQ32) * ((-a.mA2 + a.mD32 + a.mU32 + a.Yb * a.Yt) * pow2
    a.cbeta + (-a.mA2 + a.mD32 + a.mU32) * pow2 a.sbeta) + (a.mD32 - a.mQ32) * a.Xb2 * ((-(a.mQ32 * a.Yb) - a.mU32 * a.Yb +
    a.mA2 * (a.Yb - a.Yt) + a.mD32 * a.Yt + a.mU32 * a.Yt) * pow2 a.cbeta + (a.mA2 - a.mQ32 - a.mU32) * a.Yb * pow2 a.sbeta)
    + a.Yb * (pow2 a.cbeta + pow2 a.sbeta) * Misc.pow3 (a.mD32 - a.mQ32) + (2 * a.mA2 - a.mD32 - a.mQ32 - 2 * a.mU32) * a.Yb
    * a.Yt * pow2 a.cbeta * Misc.pow3 a.Xb) / ((a.mQ32 - a.mU32) * pow2 a.cbeta * Misc.pow3 (a.mD32 - a.mQ32)) - 6 * a.Xb2 *
    (2 * pow2 a.cbeta * (a.mU32 * (-1 + pow2 a.sbeta) + (-a.mA2 + a.mQ32) * pow2 a.sbeta) + (-a.mA2 + a.mQ32 + a.mU32 - pow2
    a.Yt) * Misc.pow4 a.cbeta + (-a.mA2 + a.mQ32 + a.mU32) * Misc.pow4 a.sbeta) / (pow2 a.cbeta * pow2 (a.mD32 - a.mQ32) *
    pow2 a.sbeta) - 6 * (3 * (-a.mA2 + a.mU32) * pow2 a.cbeta * pow2 a.Yt + 2 * a.mD32 * (2 * a.mU32 + pow2 a.cbeta * pow2
    a.Yt) + a.mQ32 * (2 * a.mU32 + pow2 a.cbeta * pow2 a.Yt)) * Misc.pow4 a.Xb / (pow2 a.sbeta * Misc.pow4 (a.mD32 -
    a.mQ32)) - a.Xt2 * ((-12) * (a.mQ32 - a.mU32) * (-a.mA2 + a.mD32 + a.mU32) * a.Xb * a.Yb * pow2 a.sbeta * Misc.pow3
    (a.mD32 - a.mQ32) + 6 * Misc.pow4 (a.mD32 - a.mQ32) * (a.mU32 * pow2 a.sbeta * pow2 a.Yb + a.mQ32 * (a.mU32 * (-2 + 6 *
    pow2 a.cbeta) - pow2 a.sbeta * pow2 a.Yb) + 2 * Misc.pow4 a.mU3) - a.Xb2 * pow2 (a.mD32 - a.mQ32) * ((-6) * (a.mQ32 -
    a.mU32) * ((-a.mA2 + a.mU32) * pow2 a.sbeta * pow2 a.Yb + a.mQ32 * (2 * a.mU32 + pow2 a.sbeta * pow2 a.Yb)) + 12 * pow2
    a.cbeta * (3 * (a.mQ32 - a.mU32) * Misc.pow4 a.mD3 + 6 * a.mU32 * Misc.pow4 a.mQ3 + a.mQ32 * Misc.pow4 a.mU3 + a.mD32 *
    ((-10) * a.mQ32 * a.mU32 + 4 * Misc.pow4 a.mU3) - Misc.pow6 a.mU3)) + 12 * pow2 a.cbeta * Misc.pow4 a.Xb * (Misc.pow4
    a.mQ3 * Misc.pow4 a.mU3 + Misc.pow4 a.mD3 * ((-8) * a.mQ32 * a.mU32 + 3 * Misc.pow4 a.mQ3 + 2 * Misc.pow4 a.mU3) + 3 *
    a.mU32 * Misc.pow6 a.mQ3 - a.mQ32 * Misc.pow6 a.mU3 - 2 * a.mD32 * (2 * a.mU32 * Misc.pow4 a.mQ3 - 3 * a.mQ32 *
    Misc.pow4 a.mU3 + Misc.pow6 a.mU3))) / (pow2 a.cbeta * Misc.pow3 (a.mQ32 - a.mU32) * Misc.pow4 (a.mD32 - a.mQ32)))) + 3
    * a.phixyz_mA2_mU32_mQ32 * ((-4) * a.mQ32 * (-a.mD32 + a.mQ32 + a.Xb2) * a.Xt * (-a.mD32 + a.mQ32 + a.Xb * a.Yb) * a.Yt
    * ((-3) * a.mQ32 * a.mU32 - a.mA2 * (3 * a.mQ32 + 2 * a.mU32) + Misc.pow4 a.mA + 2 * Misc.pow4 a.mQ3 + Misc.pow4 a.mU3)
    / ((a.mQ32 - a.mU32) * pow2 (a.mD32 - a.mQ32)) + 4 * a.mQ32 * a.Xb * a.Yt * (pow2 a.cbeta + pow2 a.sbeta) * ((-3) *
    a.mQ32 * a.mU32 - a.mA2 * (3 * a.mQ32 + 2 * a.mU32) + Misc.pow4 a.mA + 2 * Misc.pow4 a.mQ3 + Misc.pow4 a.mU3) /
    ((-a.mD32 + a.mQ32) * pow2 a.sbeta) + 4 * a.mQ32 * a.Yt * (pow2 a.cbeta + pow2 a.sbeta) * Misc.pow3 a.Xb * ((-3) *
    a.mQ32 * a.mU32 - a.mA2 * (3 * a.mQ32 + 2 * a.mU32) + Misc.pow4 a.mA + 2 * Misc.pow4 a.mQ3 + Misc.pow4 a.mU3) / (pow2
    (a.mD32 - a.mQ32) * pow2 a.sbeta) - pow2 a.cbeta * pow2 a.Yt * ((-6) * a.mQ32 * a.mU32 - 6 * a.mA2 * (a.mQ32 + a.mU32) +
    3 * Misc.pow4 a.mA + 2 * Misc.pow4 a.mQ3 + 3 * Misc.pow4 a.mU3) / pow2 a.sbeta + pow2 a.cbeta * pow2 a.Yt * Misc.pow4
    a.Xb * ((3 * a.mD32 - 7 * a.mQ32) * Misc.pow4 a.mA - 2 * a.mA2 * ((-7) * a.mQ32 * a.mU32 + 3 * a.mD32 * (a.mQ32 +
    a.mU32) - 9 * Misc.pow4 a.mQ3) + 18 * a.mU32 * Misc.pow4 a.mQ3 - 7 * a.mQ32 * Misc.pow4 a.mU3 + a.mD32 * ((-6) * a.mQ32
    * a.mU32 + 2 * Misc.pow4 a.mQ3 + 3 * Misc.pow4 a.mU3) - 10 * Misc.pow6 a.mQ3) / (pow2 a.sbeta * Misc.pow3 (-a.mD32 +
    a.mQ32)) + 2 * a.Xb2 * pow2 a.cbeta * pow2 a.Yt * ((3 * a.mD32 - 4 * a.mQ32) * Misc.pow4 a.mA + 9 * a.mU32 * Misc.pow4
    a.mQ3 + a.mA2 * (8 * a.mQ32 * a.mU32 - 6 * a.mD32 * (a.mQ32 + a.mU32) + 9 * Misc.pow4 a.mQ3) - 4 * a.mQ32 * Misc.pow4
    a.mU3 + a.mD32 * ((-6) * a.mQ32 * a.mU32 + 2 * Misc.pow4 a.mQ3 + 3 * Misc.pow4 a.mU3) - 4 * Misc.pow6 a.mQ3) / (pow2
    (a.mD32 - a.mQ32) * pow2 a.sbeta) + 2 * Yt6.deltaxyz a.mA2 a.mU32 a.mQ32 * (2 * a.mQ32 * a.Xb * a.Yt * (pow2 a.cbeta +
    pow2 a.sbeta) / ((a.mD32 - a.mQ32) * pow2 a.sbeta) + pow2 a.cbeta * pow2 a.Yt / pow2 a.sbeta + 2 * (a.mD32 - 3 * a.mQ32)
    * a.mQ32 * a.Yt * (pow2 a.cbeta + pow2 a.sbeta) * Misc.pow3 a.Xb / (pow2 a.sbeta * Misc.pow3 (-a.mD32 + a.mQ32)) + a.Xt2
    * pow2 a.sbeta * pow2 (-a.mD32 + a.mQ32 + a.Xb * a.Yb) * Misc.pow4 a.mQ3 / (pow2 a.cbeta * pow2 (a.mD32 - a.mQ32) * pow2
    (a.mQ32 - a.mU32)) + a.Xb2 * (2 * pow2 a.cbeta * pow2 a.sbeta * Misc.pow4 a.mQ3 + Misc.pow4 a.cbeta * ((-2) * a.mD32 *
    pow2 a.Yt + 3 * a.mQ32 * pow2 a.Yt + Misc.pow4 a.mQ3) + Misc.pow4 a.mQ3 * Misc.pow4 a.sbeta) / (pow2 a.cbeta * pow2
    (a.mD32 - a.mQ32) * pow2 a.sbeta) + pow2 a.cbeta * pow2 a.Yt * ((-4) * a.mD32 * a.mQ32 + Misc.pow4 a.mD3 + 6 * Misc.pow4
    a.mQ3) * Misc.pow4 a.Xb / (pow2 a.sbeta * Misc.pow4 (a.mD32 - a.mQ32)) + 2 * a.mQ32 * a.Xt * (a.mQ32 * (-a.mD32 +
    a.mQ32) * a.Xb * (-a.mD32 + a.mQ32 + a.Xb * a.Yb) * pow2 a.sbeta + pow2 a.cbeta * ((-3) * a.mQ32 * a.Yb * a.Yt *
    Misc.pow3 a.Xb + (a.mQ32 * (a.Xb - 3 * a.Yt) - a.Xb * (a.Xb + a.Yb) * a.Yt) * Misc.pow4 a.mD3 + a.Xb * (a.Xb * a.Yb - 2
    * a.Xb * a.Yt - a.Yb * a.Yt) * Misc.pow4 a.mQ3 + a.mD32 * (a.mQ32 * a.Xb * (-(a.Xb * a.Yb) + 3 * a.Xb * a.Yt + 2 * a.Yb
    * a.Yt) + a.Yb * a.Yt * Misc.pow3 a.Xb + ((-2) * a.Xb + 3 * a.Yt) * Misc.pow4 a.mQ3) + a.Yt * Misc.pow6 a.mD3 + (a.Xb -
    a.Yt) * Misc.pow6 a.mQ3)) / ((a.mQ32 - a.mU32) * pow2 a.cbeta * Misc.pow3 (a.mD32 - a.mQ32))) + pow2 a.cbeta * pow2
    (-a.mD32 + a.mQ32 + a.Xb2) * pow2 a.Yt * (((-2) * a.mQ32 + a.mU32) * pow2 (-(a.mQ32 * a.mU3) + Misc.pow3 a.mU3) +
    Misc.pow4 a.mA * (4 * a.mQ32 * a.mU32 + 5 * Misc.pow4 a.mQ3 + 6 * Misc.pow4 a.mU3) - 4 * (a.mQ32 + a.mU32) * Misc.pow6
    a.mA - 2 * a.mA2 * (-(a.mU32 * Misc.pow4 a.mQ3) - 2 * a.mQ32 * Misc.pow4 a.mU3 + Misc.pow6 a.mQ3 + 2 * Misc.pow6 a.mU3)
    + Misc.pow8 a.mA) / (Yt6.deltaxyz a.mA2 a.mU32 a.mQ32 * pow2 (a.mD32 - a.mQ32) * pow2 a.sbeta)) / Misc.pow6 a.mQ3 +
    a.Xt2 * ((-12) * a.Xb2 * (3 * a.mQ32 * (-a.mD32 + a.mQ32) * (a.mD32 + a.mQ32 - 2 * a.mU32) * a.dilog_mD32_mQ32 * pow2
    a.cbeta + (a.mQ32 - a.mU32) * (3 * a.mQ32 * ((-2) * a.mD32 + a.mQ32 + a.mU32) * a.dilog_mQ32_mU32 * pow2 a.cbeta +
    (-a.mD32 + a.mQ32) * (-(a.mU32 * pow2 a.cbeta) + a.mQ32 * (1 + pow2 a.cbeta))) + 3 * a.mQ32 * a.dilog_mD32_mU32 * pow2
    a.cbeta * pow2 (a.mD32 - a.mU32)) / (a.mQ32 * pow2 a.cbeta * pow2 (a.mD32 - a.mQ32) * pow2 (a.mQ32 - a.mU32)) - 6 * (4 *
    a.mQ32 * a.mU32 - 4 * a.mQ32 * a.mU32 * a.dilog_Mu2_mQ32 + 4 * a.mQ32 * a.mU32 * a.dilog_Mu2_mU32 - 6 * a.mQ32 * a.mU32
    * pow2 a.cbeta + 6 * a.mQ32 * (a.mQ32 - a.mU32) * a.dilog_mQ32_mU32 * pow2 a.cbeta - 4 * a.mQ32 * a.mU32 * pow2 a.sbeta
    - 4 * Misc.pow4 a.mQ3 + 5 * pow2 a.cbeta * Misc.pow4 a.mQ3 + 4 * pow2 a.sbeta * Misc.pow4 a.mQ3 + pow2 a.cbeta *
    Misc.pow4 a.mU3) / (a.mQ32 * pow2 a.cbeta * pow2 (a.mQ32 - a.mU32)) - 6 * Misc.pow4 a.Xb * ((-6) * a.mQ32 * (a.mQ32 -
    a.mU32) * a.dilog_mD32_mU32 * pow2 (a.mD32 - a.mU32) + 6 * (a.mQ32 - a.mU32) * a.dilog_mD32_mQ32 * pow2 (-(a.mD32 *
    a.mQ3) + Misc.pow3 a.mQ3) + 4 * a.mQ32 * a.mU32 * Misc.pow4 a.mD3 - 6 * a.mQ32 * a.mU32 * a.dilog_mQ32_mU32 * Misc.pow4
    a.mD3 - 32 * a.mD32 * a.mU32 * Misc.pow4 a.mQ3 - 12 * a.mD32 * a.mU32 * a.dilog_mQ32_mU32 * Misc.pow4 a.mQ3 + 7 *
    Misc.pow4 a.mD3 * Misc.pow4 a.mQ3 + 6 * a.dilog_mQ32_mU32 * Misc.pow4 a.mD3 * Misc.pow4 a.mQ3 + 10 * a.mD32 * a.mQ32 *
    Misc.pow4 a.mU3 + 12 * a.mD32 * a.mQ32 * a.dilog_mQ32_mU32 * Misc.pow4 a.mU3 + Misc.pow4 a.mD3 * Misc.pow4 a.mU3 - 11 *
    Misc.pow4 a.mQ3 * Misc.pow4 a.mU3 + 6 * a.dilog_mQ32_mU32 * Misc.pow4 a.mQ3 * Misc.pow4 a.mU3 - 2 * a.mD32 * Misc.pow6
    a.mQ3 + 28 * a.mU32 * Misc.pow6 a.mQ3 - 6 * a.mQ32 * a.dilog_mQ32_mU32 * Misc.pow6 a.mU3 - 5 * Misc.pow8 a.mQ3) / (pow2
    (-(a.mQ3 * a.mU32) + Misc.pow3 a.mQ3) * Misc.pow4 (a.mD32 - a.mQ32)))

end Yt2Yb4

/-- `getDeltaLambdaYt2Yb4`; ThresholdCalculator.cpp:2189-2587 -/
def TcObj.dLamYt2Yb4 (dilog : F → F) (phi : F → F → F → F) (c : TcObj F) (omitLogs : Int) : F :=
  let MR2 := pow2 c.p.scale
  let mQ32 := (c.p.mq2 2 2)
  let mD32 := (c.p.md2 2 2)
  let mU32 := (c.p.mu2 2 2)
  let mQ3 := sqrt mQ32
  let mU3 := sqrt mU32
  let mD3 := sqrt mD32
  let mA := c.p.MA
  let sbeta := (eftSinBeta c.p)
  let cbeta := (eftCosBeta c.p)
  let Xt := (calcXt c.p)
  let Yt := (calcYt c.p)
  let Xb := (calcXb c.p)
  let Yb := (calcYb c.p)
  let Mu := c.p.mu
  let Mu2 := pow2 Mu
  let Xt2 := pow2 Xt
  let mA2 := pow2 mA
  let Xb2 := pow2 Xb
  let lmQ3MR := (ofInt omitLogs) * log (mQ32 / MR2)
  let lmUMR := (ofInt omitLogs) * log (Mu2 / MR2)
  let eps := mQ3 * lit (1/100)
  if lt (abs (mU3 - mQ3)) eps && lt (abs (mD3 - mQ3)) eps && lt (abs (Mu - mQ3)) eps then
    let M := sqrt (mQ3 * mD3)
    lit (535153120435743/200000000000000) * pow2 cbeta * (cbeta * (lit (14948992530373513/10000000000000000) * sbeta *
      Misc.pow3 M * Misc.pow3 Xb - lit (896939551822411/100000000000000) * sbeta * Xt * Misc.pow5 M) + Misc.pow4 cbeta *
      (Xb2 * pow2 M * ((-(lit (1868624066296689/5000000000000000))) * Xb2 - lit (34273774426277803/100000000000000000) * Xb
      * Yt - lit (514106616394167/1000000000000000) * pow2 Yt) + (lit (17519525612344349/5000000000000000) * Xb2 + lit
      (5046224971651371/1000000000000000) * Xb * Yt + lit (12615562429128429/10000000000000000) * pow2 Yt) * Misc.pow4 M +
      lit (1039168917554059/20000000000000000) * pow2 Yt * Misc.pow4 Xb + 1 * Misc.pow6 M) + pow2 sbeta * ((-(lit
      (10117797056397451/50000000000000000))) * Xb2 * Xt2 * pow2 sbeta * pow2 Yb + pow2 M * (lit
      (14948992530373513/10000000000000000) * Xb * Xt2 * Yb * pow2 sbeta + lit (1868624066296689/2500000000000000) * Xt2 *
      pow2 sbeta * pow2 Yb + Xb2 * (lit (11211744397780137/10000000000000000) * Xt2 + lit
      (14948992530373513/10000000000000000) * Xt * Yb * pow2 sbeta + lit (1868624066296689/2500000000000000) * pow2 sbeta *
      pow2 Yb)) + (Xb * ((-(lit (14015620489875479/2000000000000000))) * Xt - lit (14015620489875479/2000000000000000) * Yb)
      * pow2 sbeta - lit (14015620489875479/2000000000000000) * Xt * Yb * pow2 sbeta + Xb2 * (-(lit
      (11211744397780137/5000000000000000)) + lit (6307781214564213/5000000000000000) * pow2 sbeta) + Xt2 * (-(lit
      (11211744397780137/5000000000000000)) + lit (6307781214564213/5000000000000000) * pow2 sbeta) - lit
      (17519525612344349/5000000000000000) * pow2 sbeta * pow2 Yb) * Misc.pow4 M + (-(lit (896939551822411/50000000000000))
      - lit (10511715367406609/1000000000000000) * pow2 sbeta) * Misc.pow6 M) + pow2 cbeta * (Xt * (lit
      (1868624066296689/2500000000000000) * Xb * Xt - lit (3062728328833549/5000000000000000) * Yb * Yt) * pow2 sbeta *
      Misc.pow3 Xb + Xb * pow2 M * (Xb2 * ((-(lit (171368872131389/500000000000000))) * Yb - lit
      (34273774426277803/100000000000000000) * Yt) * pow2 sbeta + lit (1195919402429881/400000000000000) * Xt * Yb * Yt *
      pow2 sbeta + Xb * Xt * ((-(lit (3363523319334041/500000000000000))) * Xt + lit (14948992530373513/10000000000000000) *
      Yb + lit (14948992530373513/10000000000000000) * Yt) * pow2 sbeta + (lit (1868624066296689/5000000000000000) + lit
      (1868624066296689/5000000000000000) * pow2 sbeta) * Misc.pow3 Xb) + ((-(lit (4203934152842397/500000000000000))) * Xb2
      + Xt * (lit (896939551822411/100000000000000) * Xt - lit (14015620489875479/2000000000000000) * Yb - lit
      (14015620489875479/2000000000000000) * Yt) + Xb * ((-(lit (14015620489875479/2000000000000000))) * Xt + lit
      (10092449943302741/2000000000000000) * Yb + lit (10092449943302741/2000000000000000) * Yt)) * pow2 sbeta * Misc.pow4 M
      + (lit (8969395518224111/1000000000000000) + lit (6242348879556027/1000000000000000) * pow2 sbeta) * Misc.pow6 M)) /
      Misc.pow6 M
  else
  Yt2Yb4.formula
    { Mu := Mu, Mu2 := Mu2, Xb := Xb, Xb2 := Xb2, Xt := Xt, Xt2 := Xt2, Yb := Yb, Yt := Yt, cbeta := cbeta,
      lmQ3MR := lmQ3MR, lmUMR := lmUMR, mA := mA, mA2 := mA2, mD3 := mD3, mD32 := mD32, mQ3 := mQ3, mQ32 := mQ32,
      mU3 := mU3, mU32 := mU32, sbeta := sbeta, abs_Mu := abs Mu, dilog_Mu2_mD32 := dilog (1 - Mu2 / mD32),
      dilog_Mu2_mQ32 := dilog (1 - Mu2 / mQ32), dilog_Mu2_mU32 := dilog (1 - Mu2 / mU32), log_mA2_MR2 := log (mA2 / MR2),
      log_mU32_mQ32 := log (mU32 / mQ32), pow_Mu2_15 := Mu2 * sqrt Mu2, dilog_mD32_mQ32 := dilog (1 - mD32 / mQ32),
      log_mD32_mQ32 := log (mD32 / mQ32), phixyz_mA2_mU32_mD32 := phi mA2 mU32 mD32,
      phixyz_mA2_mQ32_mD32 := phi mA2 mQ32 mD32, phixyz_mA2_mQ32_mQ32 := phi mA2 mQ32 mQ32,
      phixyz_mA2_mU32_mQ32 := phi mA2 mU32 mQ32, dilog_mQ32_mU32 := dilog (1 - mQ32 / mU32),
      dilog_mD32_mU32 := dilog (1 - mD32 / mU32) }

namespace Yt4Yb2

/-- local variables of `getDeltaLambdaYt4Yb2` and values of the functions called in the last `return` statement; ThresholdCalculator.cpp:2589-3005 -/
structure Arg (F : Type) where
  Mu : F
  Mu2 : F
  Xb : F
  Xb2 : F
  Xt : F
  Xt2 : F
  Xt4 : F
  Yb : F
  Yt : F
  cbeta : F
  lmQ3MR : F
  lmUMR : F
  mA : F
  mA2 : F
  mD3 : F
  mD32 : F
  mQ3 : F
  mQ32 : F
  mU3 : F
  mU32 : F
  sbeta : F
  /-- `abs Mu` -/
  abs_Mu : F
  /-- `dilog (1 - Mu2 / mD32)` -/
  dilog_Mu2_mD32 : F
  /-- `dilog (1 - Mu2 / mQ32)` -/
  dilog_Mu2_mQ32 : F
  /-- `dilog (1 - Mu2 / mU32)` -/
  dilog_Mu2_mU32 : F
  /-- `log (mA2 / MR2)` -/
  log_mA2_MR2 : F
  /-- `dilog (1 - mD32 / mQ32)` -/
  dilog_mD32_mQ32 : F
  /-- `phi mA2 mQ32 mQ32` -/
  phixyz_mA2_mQ32_mQ32 : F
  /-- `log (mD32 / mQ32)` -/
  log_mD32_mQ32 : F
  /-- `Mu2 * sqrt Mu2` -/
  pow_Mu2_15 : F
  /-- `log (mU32 / mQ32)` -/
  log_mU32_mQ32 : F
  /-- `phi mA2 mQ32 mD32` -/
  phixyz_mA2_mQ32_mD32 : F
  /-- `dilog (1 - mD32 / mU32)` -/
  dilog_mD32_mU32 : F
  /-- `dilog (1 - mQ32 / mU32)` -/
  dilog_mQ32_mU32 : F
  /-- `phi mA2 mU32 mD32` -/
  phixyz_mA2_mU32_mD32 : F
  /-- `phi mA2 mU32 mQ32` -/
  phixyz_mA2_mU32_mQ32 : F

/-- the general formula, the last `return` statement of `getDeltaLambdaYt4Yb2`; ThresholdCalculator.cpp:2645-3004 -/
def formula (a : Arg F) : F :=
  -4 + 48 * a.Xb * a.abs_Mu * ((a.mD32 + a.Mu2) * (-a.mQ32 + a.Mu2) * a.dilog_Mu2_mD32 + (a.mD32 - a.Mu2) * (a.mQ32 + a.Mu2)
    * a.dilog_Mu2_mQ32) / (a.cbeta * (a.mD32 - a.mQ32) * (a.mD32 - a.Mu2) * (a.mQ32 - a.Mu2) * a.sbeta) + 48 * a.Xt *
    a.abs_Mu * (a.dilog_Mu2_mQ32 - a.dilog_Mu2_mU32) / (a.cbeta * (a.mQ32 - a.mU32) * a.sbeta) - 9 / pow2 a.cbeta - 6 *
    a.mD32 / (a.mQ32 * pow2 a.cbeta) + 6 * a.mD32 / ((a.mD32 - a.Mu2) * pow2 a.cbeta) + 12 * a.Mu2 / (a.mQ32 * pow2 a.cbeta)
    + 8 * pow2 (const .pi) + 12 * a.dilog_Mu2_mQ32 * (1 / pow2 a.cbeta - 2 / pow2 a.sbeta) - 24 * a.dilog_Mu2_mU32 / pow2
    a.sbeta + 3 * pow2 a.sbeta / pow2 a.cbeta - 6 * a.mA2 * pow2 a.sbeta / (a.mQ32 * pow2 a.cbeta) + 2 * pow2 (const .pi) *
    pow2 a.sbeta / pow2 a.cbeta + 6 * pow2 a.lmQ3MR * (3 + 2 * (-1 + pow2 a.cbeta) / pow2 a.sbeta + pow2 a.sbeta / pow2
    a.cbeta) - 6 * pow2 a.sbeta * pow2 a.Yb / (a.mQ32 * pow2 a.cbeta) + (24 + 6 * pow2 a.sbeta / pow2 a.cbeta) * pow2
    a.log_mA2_MR2 + 48 * (a.cbeta * (-a.mQ32 + 2 * a.Mu2 - a.mU32) * a.abs_Mu * a.dilog_Mu2_mQ32 + a.cbeta * (a.mQ32 - 2 *
    a.Mu2 + a.mU32) * a.abs_Mu * a.dilog_Mu2_mU32 - 2 * (a.mQ32 - a.mU32) * (2 * a.cbeta * a.abs_Mu + a.sbeta * (a.Yb +
    a.Yt) * pow2 a.cbeta + a.Yb * Misc.pow3 a.sbeta)) * Misc.pow3 a.Xt / (a.sbeta * pow2 a.cbeta * Misc.pow3 (a.mQ32 -
    a.mU32)) - 6 * a.Xb2 * (4 * a.mD32 * a.mQ32 + 4 * a.mD32 * a.mQ32 * a.dilog_Mu2_mD32 - 4 * a.mD32 * a.mQ32 *
    a.dilog_Mu2_mQ32 - 4 * a.mD32 * a.mQ32 * pow2 a.cbeta - 6 * a.mD32 * a.mQ32 * pow2 a.sbeta + 6 * (a.mD32 - a.mQ32) *
    a.mQ32 * a.dilog_mD32_mQ32 * pow2 a.sbeta + pow2 a.sbeta * Misc.pow4 a.mD3 - 4 * Misc.pow4 a.mQ3 + 4 * pow2 a.cbeta *
    Misc.pow4 a.mQ3 + 5 * pow2 a.sbeta * Misc.pow4 a.mQ3) / (a.mQ32 * pow2 (a.mD32 - a.mQ32) * pow2 a.sbeta) + 6 *
    a.phixyz_mA2_mQ32_mQ32 * (2 * a.mA2 * a.Xb * a.Yb / ((a.mD32 - a.mQ32) * a.mQ32) - 2 * a.mA2 * (a.mD32 - a.mQ32 - a.Xb *
    a.Yb) * a.Yt * Misc.pow3 a.Xt / ((a.mD32 - a.mQ32) * pow2 (-(a.mQ3 * a.mU32) + Misc.pow3 a.mQ3)) + a.mA2 * (a.mA2 - 5 *
    a.mQ32) * a.Xb2 * pow2 a.cbeta / ((-a.mD32 + a.mQ32) * pow2 a.sbeta * Misc.pow4 a.mQ3) + a.mA2 * ((a.mA2 - 5 * a.mQ32) *
    pow2 a.cbeta - 2 * a.mQ32 * pow2 a.sbeta) / (pow2 a.sbeta * Misc.pow4 a.mQ3) - 2 * a.mA2 * a.Xt * a.Yt * (-((a.mA2 - 5 *
    a.mQ32) * (-a.mD32 + a.mQ32 + a.Xb2) * pow2 a.cbeta) + a.mQ32 * (-a.mD32 + a.mQ32 + a.Xb * a.Yb) * pow2 a.sbeta) /
    ((-a.mD32 + a.mQ32) * (a.mQ32 - a.mU32) * pow2 a.sbeta * Misc.pow4 a.mQ3) - Yt6.deltaxyz a.mA2 a.mQ32 a.mQ32 * (2 * a.Xt
    * pow2 (a.mQ32 - a.mU32) * (-((a.mD32 - 2 * a.mQ32) * a.Xb2 * a.Yt * pow2 a.cbeta) + a.Yt * pow2 a.cbeta * pow2 (a.mD32
    - a.mQ32) + (a.mD32 - a.mQ32) * a.mQ32 * a.Xb * (pow2 a.cbeta + pow2 a.sbeta)) - (a.mQ32 - a.mU32) * a.Xt2 * ((-2) *
    (a.mD32 - a.mQ32) * a.mQ32 * a.Xb * (a.Yt * pow2 a.cbeta + (-a.Yb + a.Yt) * pow2 a.sbeta) + (a.mD32 - 2 * a.mQ32) *
    a.Xb2 * pow2 a.cbeta * pow2 a.Yt - pow2 (a.mD32 - a.mQ32) * (2 * a.mQ32 * pow2 a.sbeta + pow2 a.cbeta * pow2 a.Yt)) -
    (a.mD32 - 2 * a.mQ32) * a.Xb2 * pow2 a.cbeta * Misc.pow3 (a.mQ32 - a.mU32) + pow2 a.cbeta * pow2 (a.mD32 - a.mQ32) *
    Misc.pow3 (a.mQ32 - a.mU32) + 4 * a.mQ32 * (-a.mD32 + a.mQ32) * (-a.mD32 + a.mQ32 + a.Xb * a.Yb) * a.Yt * pow2 a.sbeta *
    Misc.pow3 a.Xt) / (pow2 (a.mD32 - a.mQ32) * pow2 a.sbeta * Misc.pow3 (a.mQ32 - a.mU32) * Misc.pow4 a.mQ3) + a.mA2 *
    a.Xt2 * (2 * a.mQ32 * (a.mQ32 - a.mU32) * a.Xb * a.Yb * pow2 a.sbeta - (a.mA2 - 5 * a.mQ32) * a.Xb2 * pow2 a.cbeta *
    pow2 a.Yt - (a.mD32 - a.mQ32) * (-(a.mA2 * pow2 a.cbeta * pow2 a.Yt) + a.mQ32 * ((-2) * a.mU32 * pow2 a.sbeta + 5 * pow2
    a.cbeta * pow2 a.Yt) + 2 * pow2 a.sbeta * Misc.pow4 a.mQ3)) / ((a.mD32 - a.mQ32) * pow2 (a.mQ32 - a.mU32) * pow2 a.sbeta
    * Misc.pow4 a.mQ3)) + 6 * pow2 a.log_mD32_mQ32 * ((-4) * (a.mD32 + a.Mu2) * a.Xb * a.abs_Mu / (a.cbeta * (a.mD32 -
    a.mQ32) * (a.mD32 - a.Mu2) * a.sbeta) - 2 * a.mD32 * a.Xb2 / (pow2 (a.mD32 - a.mQ32) * pow2 a.sbeta) + ((-2) * a.mD32 *
    a.Mu2 + Misc.pow4 a.mD3 - Misc.pow4 a.Mu) / (pow2 a.cbeta * pow2 (a.mD32 - a.Mu2))) + 12 * a.dilog_Mu2_mD32 * ((-2) *
    a.mD32 * a.Mu2 + Misc.pow4 a.mD3 - Misc.pow4 a.Mu) / (pow2 a.cbeta * pow2 (a.mD32 - a.Mu2)) + 6 * a.lmUMR * (a.Mu2 *
    (-((2 / a.mQ32 + (2 * a.mD32 + a.Mu2) / pow2 (a.mD32 - a.Mu2)) / pow2 a.cbeta) + 4 * (1 / (a.mQ32 - a.Mu2) + 1 / (-a.Mu2
    + a.mU32)) / pow2 a.sbeta) + 4 * a.Mu2 * a.Xb2 / ((a.mD32 - a.mQ32) * (-a.mQ32 + a.Mu2) * pow2 a.sbeta) + 4 * a.Mu2 *
    a.Xt2 * (1 / ((a.mQ32 - a.mU32) * (a.Mu2 - a.mU32) * pow2 a.sbeta) - 1 / (pow2 a.cbeta * (-(a.mQ32 * a.mU32) + Misc.pow4
    a.mQ3))) + 2 * a.Xt4 * (4 * a.cbeta * a.pow_Mu2_15 * (-a.mD32 + a.Mu2) * (a.mQ32 - a.mU32) * a.Xb / ((-a.mQ32 + a.Mu2) *
    a.sbeta) + (a.Mu2 * (2 * a.mQ32 + a.mU32) * Misc.pow4 a.mD3 - 2 * a.mD32 * (2 * a.mQ32 + a.mU32) * Misc.pow4 a.Mu +
    (a.Mu2 * a.mU32 + a.mQ32 * (2 * a.Mu2 + a.mU32) - Misc.pow4 a.mQ3) * Misc.pow4 a.Mu) / a.mQ32) / (pow2 a.cbeta * pow2
    (a.mD32 - a.Mu2) * Misc.pow3 (a.mQ32 - a.mU32))) + 6 * pow2 a.log_mU32_mQ32 * ((-4) * a.Xt * a.abs_Mu / (a.cbeta *
    a.mQ32 * a.sbeta - a.cbeta * a.mU32 * a.sbeta) - 2 / pow2 a.sbeta + a.Xt2 * (2 * (-a.Mu2 + a.mU32) * pow2 a.sbeta + pow2
    a.cbeta * (3 * ((-2) * a.mU32 + a.Xb2) * pow2 a.sbeta + a.mQ32 * (2 + 6 * pow2 a.sbeta))) / (pow2 a.cbeta * pow2 (a.mQ32
    - a.mU32) * pow2 a.sbeta) + 4 * (a.mQ32 - 2 * a.Mu2 + a.mU32) * a.abs_Mu * Misc.pow3 a.Xt / (a.cbeta * a.sbeta *
    Misc.pow3 (a.mQ32 - a.mU32)) + a.Xt4 * ((a.Mu2 - a.mU32) * (2 * a.mQ32 - 3 * a.Mu2 + a.mU32) + 3 * pow2 a.cbeta *
    (a.mD32 * a.Xb2 - 2 * a.mU32 * a.Xb2 + a.mQ32 * ((-2) * a.mU32 + a.Xb2) + Misc.pow4 a.mQ3 + Misc.pow4 a.mU3)) / (pow2
    a.cbeta * Misc.pow4 (a.mQ32 - a.mU32))) + 3 * a.phixyz_mA2_mQ32_mD32 * (2 * a.Xt2 * a.Yb * ((-2) * (a.mA2 + a.mD32 -
    a.mQ32) * (a.mQ32 - a.mU32) * a.Xb / (a.mD32 - a.mQ32) + (a.mA2 + a.mD32 - a.mU32) * a.Yb * pow2 a.sbeta / pow2 a.cbeta)
    / (a.mD32 * pow2 (a.mQ32 - a.mU32)) - 4 * (a.mA2 + a.mD32 - a.mQ32) * a.Xt * a.Yb * (a.Xb * a.Yt * pow2 a.cbeta +
    (a.mD32 - a.mQ32) * (pow2 a.cbeta + pow2 a.sbeta)) / (a.mD32 * (a.mD32 - a.mQ32) * (a.mQ32 - a.mU32) * pow2 a.cbeta) +
    pow2 a.sbeta * pow2 a.Yb / (a.mD32 * pow2 a.cbeta) - pow2 (a.mA2 + a.mD32 - a.mQ32) * pow2 a.sbeta * pow2 (a.mQ32 -
    a.mU32 + a.Xt2) * pow2 a.Yb / (a.mD32 * Yt6.deltaxyz a.mA2 a.mQ32 a.mD32 * pow2 a.cbeta * pow2 (a.mQ32 - a.mU32)) + (4 *
    a.mA2 + 4 * a.mD32 - 3 * a.mQ32 - a.mU32) * a.Xt4 * pow2 a.sbeta * pow2 a.Yb / (a.mD32 * pow2 a.cbeta * Misc.pow3
    (a.mQ32 - a.mU32)) - 4 * (a.mA2 + a.mD32 - a.mQ32) * a.Yb * (a.Xb * a.Yt * pow2 a.cbeta + (a.mD32 - a.mQ32) * (pow2
    a.cbeta + pow2 a.sbeta)) * Misc.pow3 a.Xt / (a.mD32 * (a.mD32 - a.mQ32) * pow2 a.cbeta * pow2 (a.mQ32 - a.mU32)) - 4 *
    (a.mA2 + a.mD32 - a.mQ32) * a.Xb * a.Yb / (-(a.mD32 * a.mQ32) + Misc.pow4 a.mD3) + 2 * Yt6.deltaxyz a.mA2 a.mQ32 a.mD32
    * (2 * a.Xb * a.Xt * pow2 a.cbeta * (a.Xb * a.Yt * pow2 a.cbeta + (a.mD32 - a.mQ32) * (pow2 a.cbeta + pow2 a.sbeta)) *
    Misc.pow3 (a.mQ32 - a.mU32) - 4 * (a.mD32 - a.mQ32) * (a.mQ32 - a.mU32) * a.Yb * pow2 a.sbeta * (a.Xb * a.Yt * pow2
    a.cbeta + (a.mD32 - a.mQ32) * (pow2 a.cbeta + pow2 a.sbeta)) * Misc.pow3 a.Xt + a.Xt2 * pow2 (a.mQ32 - a.mU32) * (2 *
    (a.mD32 - a.mQ32) * a.Xb * pow2 a.cbeta * (a.Yt * pow2 a.cbeta + (-a.Yb + a.Yt) * pow2 a.sbeta) + pow2 (a.mD32 - a.mQ32)
    * pow2 (pow2 a.cbeta + pow2 a.sbeta) + a.Xb2 * pow2 a.Yt * Misc.pow4 a.cbeta) + a.Xb2 * Misc.pow4 a.cbeta * Misc.pow4
    (a.mQ32 - a.mU32) + 3 * a.Xt4 * pow2 (a.mD32 - a.mQ32) * pow2 a.Yb * Misc.pow4 a.sbeta) / (a.mD32 * pow2 a.cbeta * pow2
    (a.mD32 - a.mQ32) * pow2 a.sbeta * Misc.pow4 (a.mQ32 - a.mU32))) + 12 * a.Xt2 * (a.Xb2 * (3 * a.mQ32 * (-a.mD32 +
    a.mQ32) * (a.mD32 + a.mQ32 - 2 * a.mU32) * a.dilog_mD32_mQ32 * pow2 a.sbeta + 3 * a.mQ32 * a.dilog_mD32_mU32 * pow2
    (a.mD32 - a.mU32) * pow2 a.sbeta - (a.mQ32 - a.mU32) * ((-3) * a.mQ32 * ((-2) * a.mD32 + a.mQ32 + a.mU32) *
    a.dilog_mQ32_mU32 * pow2 a.sbeta + (a.mD32 - a.mQ32) * (a.mD32 * pow2 a.sbeta - a.mQ32 * (1 + pow2 a.sbeta)))) / pow2
    (a.mD32 - a.mQ32) + (2 * a.mQ32 * a.mU32 * pow2 a.cbeta - a.mD32 * a.mQ32 * pow2 a.sbeta + 2 * a.mQ32 * a.Mu2 * pow2
    a.sbeta + a.mD32 * a.mU32 * pow2 a.sbeta + 3 * a.mQ32 * a.mU32 * pow2 a.sbeta - 2 * a.Mu2 * a.mU32 * pow2 a.sbeta - 2 *
    a.mQ32 * a.Mu2 * a.dilog_Mu2_mU32 * pow2 a.sbeta + 2 * a.mQ32 * a.mU32 * a.dilog_Mu2_mU32 * pow2 a.sbeta - 4 * a.mQ32 *
    a.mU32 * pow2 a.cbeta * pow2 a.sbeta + 6 * a.mQ32 * (a.mQ32 - a.mU32) * a.dilog_mQ32_mU32 * pow2 a.cbeta * pow2 a.sbeta
    - 2 * a.mQ32 * a.mU32 * Misc.pow4 a.cbeta - 2 * pow2 a.cbeta * Misc.pow4 a.mQ3 + 2 * a.dilog_Mu2_mU32 * pow2 a.cbeta *
    Misc.pow4 a.mQ3 - 3 * pow2 a.sbeta * Misc.pow4 a.mQ3 + 4 * pow2 a.cbeta * pow2 a.sbeta * Misc.pow4 a.mQ3 + 2 * Misc.pow4
    a.cbeta * Misc.pow4 a.mQ3 - 2 * a.dilog_Mu2_mQ32 * (a.mQ32 * (-a.Mu2 + a.mU32) * pow2 a.sbeta + pow2 a.cbeta * Misc.pow4
    a.mQ3) - a.mA2 * a.mQ32 * Misc.pow4 a.sbeta + a.mA2 * a.mU32 * Misc.pow4 a.sbeta - 2 * a.mQ32 * a.mU32 * Misc.pow4
    a.sbeta - a.mQ32 * pow2 a.Yb * Misc.pow4 a.sbeta + a.mU32 * pow2 a.Yb * Misc.pow4 a.sbeta + 2 * Misc.pow4 a.mQ3 *
    Misc.pow4 a.sbeta) / pow2 a.cbeta) / (a.mQ32 * pow2 (a.mQ32 - a.mU32) * pow2 a.sbeta) + 3 * a.log_mA2_MR2 * ((-4) *
    a.lmQ3MR * (4 * pow2 a.cbeta + pow2 a.sbeta) + 2 * a.Xb2 * pow2 a.Yt * Misc.pow4 a.cbeta / ((a.mD32 - a.mQ32) * a.mQ32 *
    pow2 a.sbeta) + 2 * (-a.mD32 + a.mQ32 + a.Xb2) * (a.mQ32 - a.mU32 - a.Xt2) * pow2 (a.mA2 + a.mQ32 - a.mU32) * pow2 a.Yt
    * Misc.pow4 a.cbeta / (a.mQ32 * (-a.mD32 + a.mQ32) * (a.mQ32 - a.mU32) * Yt6.deltaxyz a.mA2 a.mU32 a.mQ32 * pow2
    a.sbeta) + pow2 a.sbeta * pow2 (a.mQ32 - a.mU32 + a.Xt2) * pow2 a.Yb * (-(pow2 (a.mD32 - a.mQ32)) + Misc.pow4 a.mA) /
    (Yt6.deltaxyz a.mA2 a.mQ32 a.mD32 * pow2 (-(a.mQ3 * a.mU32) + Misc.pow3 a.mQ3)) - a.Xt4 * (pow2 a.sbeta * (2 * a.mA2 *
    (5 * a.mQ32 + a.mU32) + (a.mQ32 - a.mU32) * (4 * a.mQ32 - pow2 a.Yb)) + 16 * pow2 a.cbeta * (-(a.mQ32 * a.mU32) +
    Misc.pow4 a.mQ3)) / (a.mQ32 * Misc.pow3 (a.mQ32 - a.mU32)) + ((8 * a.mQ32 - 2 * pow2 a.Yt) * Misc.pow4 a.cbeta + (2 *
    a.mA2 + 2 * a.mQ32 + pow2 a.Yb) * Misc.pow4 a.sbeta) / (a.mQ32 * pow2 a.sbeta) - 2 * a.Xt2 * (a.Xb2 * pow2 a.Yt *
    Misc.pow4 a.cbeta - (a.mD32 - a.mQ32) * (pow2 a.Yt * Misc.pow4 a.cbeta + 2 * a.mA2 * Misc.pow4 a.sbeta + pow2 a.Yb *
    Misc.pow4 a.sbeta)) / ((a.mD32 - a.mQ32) * a.mQ32 * (a.mQ32 - a.mU32) * pow2 a.sbeta)) / pow2 a.cbeta - 6 *
    a.phixyz_mA2_mU32_mD32 * ((-2) * (a.mD32 - a.mQ32) * (a.mA2 + a.mD32 - a.mU32) * a.Xt * a.Yb * pow2 a.sbeta * (a.Xb *
    a.Yt * pow2 a.cbeta + (a.mD32 - a.mQ32) * (pow2 a.cbeta + pow2 a.sbeta)) * Misc.pow3 (a.mQ32 - a.mU32) + 2 * (a.mD32 -
    a.mQ32) * (a.mA2 + a.mD32 - a.mU32) * a.Yb * pow2 (a.mQ32 - a.mU32) * pow2 a.sbeta * (a.Xb * a.Yt * pow2 a.cbeta +
    (a.mD32 - a.mQ32) * (pow2 a.cbeta + pow2 a.sbeta)) * Misc.pow3 a.Xt + 2 * (a.mD32 - a.mQ32) * (a.mA2 + a.mD32 - a.mU32)
    * a.Xb * a.Yt * pow2 a.cbeta * (pow2 a.cbeta + pow2 a.sbeta) * Misc.pow4 (a.mQ32 - a.mU32) + (a.mA2 + a.mD32 - a.mU32) *
    pow2 (a.mD32 - a.mQ32) * pow2 (pow2 a.cbeta + pow2 a.sbeta) * Misc.pow4 (a.mQ32 - a.mU32) + (a.mA2 + a.mD32 - a.mU32) *
    a.Xb2 * pow2 a.Yt * Misc.pow4 a.cbeta * Misc.pow4 (a.mQ32 - a.mU32) - (a.mA2 + a.mD32 - a.mU32) * (a.mQ32 - a.mU32) *
    a.Xt4 * pow2 (a.mD32 - a.mQ32) * pow2 a.Yb * Misc.pow4 a.sbeta + a.Xt * Yt6.deltaxyz a.mA2 a.mU32 a.mD32 * ((-4) *
    (a.mD32 - a.mQ32) * (a.mQ32 - a.mU32) * a.Xt2 * a.Yb * pow2 a.sbeta * (a.Xb * a.Yt * pow2 a.cbeta + (a.mD32 - a.mQ32) *
    (pow2 a.cbeta + pow2 a.sbeta)) + 2 * a.Xb * pow2 a.cbeta * (a.Xb * a.Yt * pow2 a.cbeta + (a.mD32 - a.mQ32) * (pow2
    a.cbeta + pow2 a.sbeta)) * Misc.pow3 (a.mQ32 - a.mU32) + a.Xt * pow2 (a.mQ32 - a.mU32) * (2 * (a.mD32 - a.mQ32) * a.Xb *
    pow2 a.cbeta * (a.Yt * pow2 a.cbeta + (-a.Yb + a.Yt) * pow2 a.sbeta) + pow2 (a.mD32 - a.mQ32) * pow2 (pow2 a.cbeta +
    pow2 a.sbeta) + a.Xb2 * pow2 a.Yt * Misc.pow4 a.cbeta) + 3 * pow2 (a.mD32 - a.mQ32) * pow2 a.Yb * Misc.pow3 a.Xt *
    Misc.pow4 a.sbeta) + (a.mA2 + a.mD32 - a.mU32) * a.Xt2 * pow2 (a.mQ32 - a.mU32) * ((-2) * (a.mD32 - a.mQ32) * (a.mQ32 -
    a.mU32) * a.Xb * a.Yt * pow2 a.cbeta * (pow2 a.cbeta + pow2 a.sbeta) - (a.mQ32 - a.mU32) * a.Xb2 * pow2 a.Yt * Misc.pow4
    a.cbeta + pow2 (a.mD32 - a.mQ32) * (2 * (-a.mQ32 + a.mU32) * pow2 a.cbeta * pow2 a.sbeta + (-a.mQ32 + a.mU32) *
    Misc.pow4 a.cbeta + (-a.mQ32 + a.mU32 + pow2 a.Yb) * Misc.pow4 a.sbeta))) / (a.mD32 * pow2 a.cbeta * pow2 (a.mD32 -
    a.mQ32) * pow2 a.sbeta * Misc.pow4 (a.mQ32 - a.mU32)) + 6 * a.phixyz_mA2_mU32_mQ32 * (2 * (a.mA2 + a.mQ32 - a.mU32) *
    a.Xb * a.Yt * (pow2 a.cbeta + pow2 a.sbeta) / ((a.mD32 - a.mQ32) * a.mQ32 * pow2 a.sbeta) + 2 * (a.mA2 + a.mQ32 -
    a.mU32) * (-a.mD32 + a.mQ32 + a.Xb * a.Yb) * a.Yt * Misc.pow3 a.Xt / ((a.mD32 - a.mQ32) * pow2 (-(a.mQ3 * a.mU32) +
    Misc.pow3 a.mQ3)) + (a.mA2 - a.mU32) * pow2 a.cbeta * pow2 a.Yt / (pow2 a.sbeta * Misc.pow4 a.mQ3) + a.Xt * Yt6.deltaxyz
    a.mA2 a.mU32 a.mQ32 * (4 * a.mQ32 * (-a.mD32 + a.mQ32) * a.Xt2 * (-a.mD32 + a.mQ32 + a.Xb * a.Yb) * a.Yt * pow2 a.sbeta
    + 2 * pow2 (a.mQ32 - a.mU32) * (-((a.mD32 - 2 * a.mQ32) * a.Xb2 * a.Yt * pow2 a.cbeta) + a.Yt * pow2 a.cbeta * pow2
    (a.mD32 - a.mQ32) + (a.mD32 - a.mQ32) * a.mQ32 * a.Xb * (pow2 a.cbeta + pow2 a.sbeta)) - (a.mQ32 - a.mU32) * a.Xt *
    ((-2) * (a.mD32 - a.mQ32) * a.mQ32 * a.Xb * (a.Yt * pow2 a.cbeta + (-a.Yb + a.Yt) * pow2 a.sbeta) + (a.mD32 - 2 *
    a.mQ32) * a.Xb2 * pow2 a.cbeta * pow2 a.Yt - pow2 (a.mD32 - a.mQ32) * (2 * a.mQ32 * pow2 a.sbeta + pow2 a.cbeta * pow2
    a.Yt))) / (pow2 (a.mD32 - a.mQ32) * pow2 a.sbeta * Misc.pow3 (a.mQ32 - a.mU32) * Misc.pow4 a.mQ3) + a.Xb2 * pow2 a.cbeta
    * pow2 a.Yt * (-(a.mA2 * (a.mD32 - 2 * a.mQ32)) + a.mD32 * a.mU32 - 2 * a.mQ32 * a.mU32 + Misc.pow4 a.mQ3) / (pow2
    (a.mD32 - a.mQ32) * pow2 a.sbeta * Misc.pow4 a.mQ3) - a.Xt2 * a.Yt * (2 * (a.mD32 - a.mQ32) * a.mQ32 * (a.mQ32 - a.mU32)
    * (a.mA2 + a.mQ32 - a.mU32) * a.Xb * (pow2 a.cbeta + pow2 a.sbeta) + a.Yt * pow2 a.cbeta * pow2 (a.mD32 - a.mQ32) *
    (-(a.mA2 * (2 * a.mQ32 + 3 * a.mU32)) + 2 * pow2 (a.mQ32 - a.mU32) + Misc.pow4 a.mA) - a.Xb2 * a.Yt * pow2 a.cbeta * ((2
    * a.mD32 - 3 * a.mQ32) * pow2 (a.mQ32 - a.mU32) + (a.mD32 - a.mQ32) * Misc.pow4 a.mA + a.mA2 * (4 * a.mQ32 * a.mU32 -
    a.mD32 * (2 * a.mQ32 + 3 * a.mU32) + Misc.pow4 a.mQ3))) / (pow2 (a.mD32 - a.mQ32) * pow2 (a.mQ32 - a.mU32) * pow2
    a.sbeta * Misc.pow4 a.mQ3) + 2 * a.Xt * a.Yt * (a.mQ32 * (a.mA2 + a.mQ32 - a.mU32) * (-a.mD32 + a.mQ32 + a.Xb * a.Yb) *
    pow2 a.sbeta - (-a.mD32 + a.mQ32 + a.Xb2) * pow2 a.cbeta * ((-3) * a.mQ32 * a.mU32 - a.mA2 * (3 * a.mQ32 + 2 * a.mU32) +
    Misc.pow4 a.mA + 2 * Misc.pow4 a.mQ3 + Misc.pow4 a.mU3)) / ((-a.mD32 + a.mQ32) * (a.mQ32 - a.mU32) * pow2 a.sbeta *
    Misc.pow4 a.mQ3) + (-a.mD32 + a.mQ32 + a.Xb2) * (a.mQ32 - a.mU32 - a.Xt2) * pow2 a.cbeta * pow2 a.Yt * (pow2 (-(a.mQ32 *
    a.mU3) + Misc.pow3 a.mU3) + 3 * a.mU32 * Misc.pow4 a.mA + a.mA2 * (2 * a.mQ32 * a.mU32 + Misc.pow4 a.mQ3 - 3 * Misc.pow4
    a.mU3) - Misc.pow6 a.mA) / ((-a.mD32 + a.mQ32) * (a.mQ32 - a.mU32) * Yt6.deltaxyz a.mA2 a.mU32 a.mQ32 * pow2 a.sbeta *
    Misc.pow4 a.mQ3)) + 3 * a.lmQ3MR * (4 + 8 * a.Mu2 * (1 / (-a.mQ32 + a.Mu2) + 1 / (a.Mu2 - a.mU32)) / pow2 a.sbeta - 2 *
    (-a.mD32 + a.mQ32 + a.Xb2) * (a.mQ32 - a.mU32 - a.Xt2) * pow2 a.cbeta * pow2 (a.mA2 + a.mQ32 - a.mU32) * pow2 a.Yt /
    (a.mQ32 * (-a.mD32 + a.mQ32) * (a.mQ32 - a.mU32) * Yt6.deltaxyz a.mA2 a.mU32 a.mQ32 * pow2 a.sbeta) + 2 * pow2 a.cbeta *
    (-4 + pow2 a.Yt / a.mQ32) / pow2 a.sbeta + 16 * (2 * a.cbeta * a.abs_Mu + a.sbeta * (a.Yb + a.Yt) * pow2 a.cbeta + a.Yb
    * Misc.pow3 a.sbeta) * Misc.pow3 a.Xt / (a.sbeta * pow2 a.cbeta * pow2 (a.mQ32 - a.mU32)) + 2 * a.Xt2 * (a.Xb2 * (2 *
    a.mD32 * pow2 a.sbeta - 2 * a.mQ32 * pow2 a.sbeta + pow2 a.cbeta * pow2 a.Yt) / (a.mD32 - a.mQ32) + (2 * a.mQ32 * pow2
    a.cbeta * (a.mU32 * (1 - 2 * pow2 a.sbeta) + a.Mu2 * (1 + 2 * pow2 a.sbeta)) - (a.Mu2 - a.mU32) * pow2 a.sbeta * (2 *
    a.mD32 - 2 * a.mQ32 * (-2 + pow2 a.sbeta) + pow2 a.sbeta * pow2 a.Yb) + (a.Mu2 - a.mU32) * (2 * a.mQ32 + pow2 a.Yt) *
    Misc.pow4 a.cbeta) / ((-a.Mu2 + a.mU32) * pow2 a.cbeta)) / (a.mQ32 * (a.mQ32 - a.mU32) * pow2 a.sbeta) + pow2 a.sbeta *
    pow2 (a.mQ32 - a.mU32 + a.Xt2) * pow2 a.Yb * (pow2 (a.mD32 - a.mQ32) - Misc.pow4 a.mA) / (a.mQ32 * Yt6.deltaxyz a.mA2
    a.mQ32 a.mD32 * pow2 a.cbeta * pow2 (a.mQ32 - a.mU32)) + (4 + a.mD32 * (2 / a.mQ32 + 8 * a.Mu2 / pow2 (a.mD32 - a.Mu2))
    + pow2 a.sbeta * (-2 + pow2 a.Yb / a.mQ32) - 2 * Misc.pow4 a.mD3 / pow2 (a.mD32 - a.Mu2)) / pow2 a.cbeta + 2 * a.Xb2 *
    (a.Mu2 * (a.mD32 * pow2 a.sbeta - pow2 a.cbeta * pow2 a.Yt) - a.mQ32 * (a.mD32 * pow2 a.sbeta + a.Mu2 * (2 + 2 * pow2
    a.cbeta + 3 * pow2 a.sbeta) - pow2 a.cbeta * pow2 a.Yt) + (-2 + 2 * pow2 a.cbeta + 3 * pow2 a.sbeta) * Misc.pow4 a.mQ3)
    / (a.mQ32 * (-a.mD32 + a.mQ32) * (a.mQ32 - a.Mu2) * pow2 a.sbeta) + a.Xt4 * ((-16) * a.pow_Mu2_15 * (a.mQ32 - a.mU32) *
    a.Xb / (a.cbeta * (-a.mD32 + a.Mu2) * (-a.mQ32 + a.Mu2) * a.sbeta) - 2 * (5 * a.mQ32 + a.mU32) * a.Xb2 / a.mQ32 -
    (Misc.pow4 a.mD3 * (a.mU32 * ((-4) * a.Mu2 + pow2 a.sbeta * pow2 a.Yb) + a.mQ32 * ((-32) * a.Mu2 + a.mU32 * (6 - 16 *
    pow2 a.cbeta) + 11 * pow2 a.sbeta * pow2 a.Yb) + 2 * (3 + 8 * pow2 a.cbeta) * Misc.pow4 a.mQ3) - 2 * a.mD32 * a.Mu2 *
    (a.mU32 * (-a.Mu2 + pow2 a.sbeta * pow2 a.Yb) + a.mQ32 * ((-17) * a.Mu2 + a.mU32 * (6 - 16 * pow2 a.cbeta) + 11 * pow2
    a.sbeta * pow2 a.Yb) + 2 * (3 + 8 * pow2 a.cbeta) * Misc.pow4 a.mQ3) + (a.mU32 * pow2 a.sbeta * pow2 a.Yb + a.mQ32 *
    ((-12) * a.Mu2 - 2 * a.mU32 * (-5 + 8 * pow2 a.cbeta) + 11 * pow2 a.sbeta * pow2 a.Yb) + 2 * (1 + 8 * pow2 a.cbeta) *
    Misc.pow4 a.mQ3) * Misc.pow4 a.Mu + 2 * (5 * a.mQ32 + a.mU32) * Misc.pow6 a.mD3) / (a.mQ32 * pow2 a.cbeta * pow2 (a.mD32
    - a.Mu2))) / Misc.pow3 (a.mQ32 - a.mU32)) + a.log_mU32_mQ32 * ((9 + 6 * a.mD32 / (-a.mD32 + a.Mu2) - 9 * pow2 a.sbeta) /
    pow2 a.cbeta + 24 * a.Mu2 / ((a.Mu2 - a.mU32) * pow2 a.sbeta) - 6 * pow2 a.cbeta * (2 * a.mQ32 - pow2 a.Yt) / (a.mQ32 *
    pow2 a.sbeta) + 6 * a.Xb2 * (2 * a.mQ32 + pow2 a.cbeta * pow2 a.Yt) / (a.mQ32 * (-a.mD32 + a.mQ32) * pow2 a.sbeta) + 24
    * a.Xt * (2 * a.cbeta * a.abs_Mu + a.sbeta * (a.Yb + a.Yt) * pow2 a.cbeta + a.Yb * Misc.pow3 a.sbeta) / ((a.mQ32 -
    a.mU32) * a.sbeta * pow2 a.cbeta) - 24 * (a.mQ32 + 3 * a.mU32) * (2 * a.cbeta * a.abs_Mu + a.sbeta * (a.Yb + a.Yt) *
    pow2 a.cbeta + a.Yb * Misc.pow3 a.sbeta) * Misc.pow3 a.Xt / (a.sbeta * pow2 a.cbeta * Misc.pow3 (a.mQ32 - a.mU32)) - 6 *
    (-a.mD32 + a.mQ32 + a.Xb2) * (a.mQ32 - a.mU32 - a.Xt2) * pow2 a.cbeta * pow2 a.Yt * ((-2) * a.mA2 * a.mU32 + Misc.pow4
    a.mA - Misc.pow4 a.mQ3 + Misc.pow4 a.mU3) / (a.mQ32 * (-a.mD32 + a.mQ32) * (a.mQ32 - a.mU32) * Yt6.deltaxyz a.mA2 a.mU32
    a.mQ32 * pow2 a.sbeta) + 6 * a.Xt2 * ((a.mD32 * (6 * a.Mu2 - 5 * a.mU32 + a.mQ32 * (-1 + pow2 a.sbeta) - 2 * a.mA2 *
    pow2 a.sbeta + 3 * a.mU32 * pow2 a.sbeta - 2 * pow2 a.sbeta * pow2 a.Yb) + a.Mu2 * ((-4) * a.Mu2 + 3 * a.mU32 - a.mQ32 *
    (-3 + pow2 a.sbeta) + 2 * a.mA2 * pow2 a.sbeta - 3 * a.mU32 * pow2 a.sbeta + 2 * pow2 a.sbeta * pow2 a.Yb) - 2 *
    Misc.pow4 a.mD3) / ((a.mD32 - a.Mu2) * pow2 a.cbeta) + pow2 a.cbeta * (a.mQ32 * (2 * a.mU32 - pow2 a.Yt) + a.mU32 * pow2
    a.Yt + 2 * Misc.pow4 a.mQ3) / (a.mQ32 * pow2 a.sbeta) - a.Xb2 * (-(a.mU32 * pow2 a.cbeta * pow2 a.Yt) + a.mQ32 * ((-2) *
    a.mD32 * pow2 a.sbeta + 2 * a.mU32 * pow2 a.sbeta + pow2 a.cbeta * pow2 a.Yt) + 2 * Misc.pow4 a.mQ3) / (a.mQ32 *
    (-a.mD32 + a.mQ32) * pow2 a.sbeta) + 2 * (7 * a.Mu2 * a.mU32 * pow2 a.sbeta + a.mQ32 * (3 * a.mU32 * pow2 a.sbeta -
    a.Mu2 * (2 + 3 * pow2 a.sbeta)) + (2 - 7 * pow2 a.sbeta) * Misc.pow4 a.mU3) / ((a.Mu2 - a.mU32) * pow2 a.sbeta)) / pow2
    (a.mQ32 - a.mU32) + 3 * a.Xt4 * ((4 * (a.mQ32 + 2 * a.mU32) * Misc.pow4 a.mD3 + a.mD32 * (4 * a.mQ32 * ((-3) * a.Mu2 +
    a.mU32 * (3 + 6 * pow2 a.cbeta) + pow2 a.sbeta * (a.mA2 + pow2 a.Yb)) + a.mU32 * ((-36) * a.Mu2 - a.mU32 * (-11 + 36 *
    pow2 a.cbeta + pow2 a.sbeta) + 4 * pow2 a.sbeta * (2 * a.mA2 + 5 * pow2 a.Yb)) + (1 + 12 * pow2 a.cbeta + pow2 a.sbeta)
    * Misc.pow4 a.mQ3) + a.Mu2 * (4 * a.mQ32 * (2 * a.Mu2 - 3 * a.mU32 * (1 + 2 * pow2 a.cbeta) - pow2 a.sbeta * (a.mA2 +
    pow2 a.Yb)) + a.mU32 * (28 * a.Mu2 + a.mU32 * (-9 + 36 * pow2 a.cbeta + pow2 a.sbeta) - 4 * pow2 a.sbeta * (2 * a.mA2 +
    5 * pow2 a.Yb)) - (3 + 12 * pow2 a.cbeta + pow2 a.sbeta) * Misc.pow4 a.mQ3)) / ((a.mD32 - a.Mu2) * pow2 a.cbeta) + 4 *
    a.Xb2 * ((-7) * a.mQ32 * a.mU32 + a.mD32 * (a.mQ32 + 5 * a.mU32) + Misc.pow4 a.mU3) / (a.mD32 - a.mQ32)) / Misc.pow4
    (a.mQ32 - a.mU32) + 6 * a.lmUMR * (16 * a.cbeta * (a.mQ32 - a.Mu2) * a.pow_Mu2_15 * (a.mQ32 - a.mU32) * pow2 (a.mD32 -
    a.Mu2) * Misc.pow3 a.Xt + 2 * a.Xt2 * Misc.pow3 (a.mQ32 - a.mU32) * (4 * a.cbeta * a.pow_Mu2_15 * (-a.mD32 + a.Mu2) *
    a.Xb + (a.mQ32 - a.Mu2) * a.sbeta * Misc.pow4 a.Mu) + a.Xt4 * (4 * a.cbeta * (a.mD32 - a.Mu2) * a.pow_Mu2_15 * (a.mQ32 -
    a.mU32) * (a.mQ32 + a.mU32) * a.Xb + (a.mQ32 - a.Mu2) * a.sbeta * Misc.pow4 a.Mu * ((-12) * a.mD32 * a.Mu2 + 6 *
    Misc.pow4 a.mD3 - Misc.pow4 a.mQ3 + 6 * Misc.pow4 a.Mu + Misc.pow4 a.mU3)) + 4 * a.cbeta * (a.mD32 - a.Mu2) *
    a.pow_Mu2_15 * a.Xb * Misc.pow4 (a.mQ32 - a.mU32) + (-a.mQ32 + a.Mu2) * a.sbeta * Misc.pow4 a.Mu * Misc.pow4 (a.mQ32 -
    a.mU32)) / ((a.mQ32 - a.Mu2) * a.sbeta * pow2 a.cbeta * pow2 (a.mD32 - a.Mu2) * Misc.pow4 (a.mQ32 - a.mU32)) + 6 *
    a.log_mA2_MR2 * (-2 + pow2 a.cbeta / pow2 a.sbeta + 2 * (((-2) * a.mD32 * a.Yb + a.mQ32 * a.Yb + a.mU32 * a.Yb - a.mQ32
    * a.Yt + a.mU32 * a.Yt - 2 * a.Xb * a.Yb * a.Yt + 2 * a.mA2 * (a.Yb + a.Yt)) * pow2 a.cbeta + (2 * a.mA2 - 2 * a.mD32 +
    a.mQ32 + a.mU32) * a.Yb * pow2 a.sbeta) * Misc.pow3 a.Xt / (pow2 a.cbeta * Misc.pow3 (a.mQ32 - a.mU32)) - a.Xt4 * (4 *
    pow2 a.cbeta * (Misc.pow4 a.mQ3 - Misc.pow4 a.mU3) + pow2 a.sbeta * ((-3) * a.mD32 * pow2 a.Yb + a.mQ32 * pow2 a.Yb + 2
    * a.mU32 * pow2 a.Yb + a.mA2 * (2 * a.mQ32 + 4 * a.mU32 + 3 * pow2 a.Yb) + Misc.pow4 a.mQ3 - Misc.pow4 a.mU3)) / (pow2
    a.cbeta * Misc.pow4 (a.mQ32 - a.mU32)) + 2 * a.Xt * ((a.Xb - a.Yb - a.Yt) * pow2 a.cbeta * pow2 a.sbeta + (a.Xb + a.Yt)
    * Misc.pow4 a.cbeta - a.Yb * Misc.pow4 a.sbeta) / ((a.mQ32 - a.mU32) * pow2 a.cbeta * pow2 a.sbeta) - a.Xt2 * ((-2) *
    (a.mD32 + 2 * a.mQ32 - 3 * a.mU32 - a.Xb * a.Yb + a.Xb * a.Yt) * pow2 a.cbeta * pow2 a.sbeta + (a.mA2 - a.mD32 + a.mQ32
    - 2 * a.Xb * a.Yt - pow2 a.Yt) * Misc.pow4 a.cbeta - (a.mA2 + a.mD32 + a.mQ32 - 2 * a.mU32 + pow2 a.Yb) * Misc.pow4
    a.sbeta) / (pow2 a.cbeta * pow2 (a.mQ32 - a.mU32) * pow2 a.sbeta)) + 6 * a.lmQ3MR * (2 - 4 * a.pow_Mu2_15 * a.Xb /
    (a.cbeta * (-a.mD32 + a.Mu2) * (-a.mQ32 + a.Mu2) * a.sbeta) - 2 / pow2 a.sbeta + pow2 a.cbeta / pow2 a.sbeta + 2 * (4 *
    a.cbeta * (a.mQ32 - 2 * a.Mu2 + a.mU32) * a.abs_Mu + a.sbeta * (2 * a.mD32 * a.Yb + a.mQ32 * a.Yb + a.mU32 * a.Yb + 3 *
    a.mQ32 * a.Yt + a.mU32 * a.Yt + 2 * a.Xb * a.Yb * a.Yt - 2 * a.mA2 * (a.Yb + a.Yt)) * pow2 a.cbeta + ((-2) * a.mA2 + 2 *
    a.mD32 + a.mQ32 + a.mU32) * a.Yb * Misc.pow3 a.sbeta) * Misc.pow3 a.Xt / (a.sbeta * pow2 a.cbeta * Misc.pow3 (a.mQ32 -
    a.mU32)) + (2 * a.mD32 * a.Mu2 / pow2 (a.mD32 - a.Mu2) + pow2 a.sbeta - Misc.pow4 a.mD3 / pow2 (a.mD32 - a.Mu2)) / pow2
    a.cbeta - 2 * a.Xt * (4 * a.cbeta * a.sbeta * a.abs_Mu + (a.Xb + a.Yb + a.Yt) * pow2 a.cbeta * pow2 a.sbeta + (a.Xb +
    a.Yt) * Misc.pow4 a.cbeta + a.Yb * Misc.pow4 a.sbeta) / ((a.mQ32 - a.mU32) * pow2 a.cbeta * pow2 a.sbeta) + a.Xt2 *
    ((-2) * a.mD32 - 6 * a.mU32 + 2 * a.Xb2 + a.mQ32 * (4 + 2 / pow2 a.sbeta) - pow2 a.cbeta * (-a.mA2 + a.mD32 + a.mQ32 +
    pow2 a.Yt) / pow2 a.sbeta + 2 * a.Xb * (4 * a.pow_Mu2_15 * a.mU32 * a.sbeta + a.cbeta * a.Mu2 * (-a.mD32 + a.Mu2) *
    (a.Yt * pow2 a.cbeta + (-a.Yb + a.Yt) * pow2 a.sbeta) - a.mQ32 * (4 * a.pow_Mu2_15 * a.sbeta + a.cbeta * (a.mD32 -
    a.Mu2) * (a.Yb - a.Yt) * pow2 a.sbeta + (-a.mD32 + a.Mu2) * a.Yt * Misc.pow3 a.cbeta)) / (a.cbeta * (a.mD32 - a.Mu2) *
    (-a.mQ32 + a.Mu2) * pow2 a.sbeta) + (-(a.mD32 * a.Mu2 * (4 * a.mU32 + a.Mu2 * (-10 + pow2 a.sbeta) - 2 * a.mQ32 * (-2 +
    pow2 a.sbeta) + 2 * pow2 a.sbeta * (a.mA2 + pow2 a.Yb))) + (2 * a.mU32 + 2 * a.Mu2 * (-4 + pow2 a.sbeta) - a.mQ32 * (-2
    + pow2 a.sbeta) + a.mA2 * pow2 a.sbeta + pow2 a.sbeta * pow2 a.Yb) * Misc.pow4 a.mD3 + ((-4) * a.Mu2 + 4 * a.mU32 + pow2
    a.sbeta * (a.mA2 - a.mQ32 + pow2 a.Yb)) * Misc.pow4 a.Mu - (-2 + pow2 a.sbeta) * Misc.pow6 a.mD3) / (pow2 a.cbeta * pow2
    (a.mD32 - a.Mu2))) / pow2 (a.mQ32 - a.mU32) + a.Xt4 * ((-4) * a.pow_Mu2_15 * (a.mQ32 - a.mU32) * (a.mQ32 + a.mU32) *
    a.Xb / (a.cbeta * (-a.mD32 + a.Mu2) * (-a.mQ32 + a.Mu2) * a.sbeta) - 2 * (a.mQ32 + 2 * a.mU32) * a.Xb2 - (Misc.pow4 a.Mu
    * ((-8) * a.Mu2 * a.mU32 - 3 * a.mA2 * pow2 a.sbeta * pow2 a.Yb + 2 * a.mU32 * pow2 a.sbeta * pow2 a.Yb + a.mQ32 * ((-4)
    * a.Mu2 + 4 * a.mU32 + pow2 a.sbeta * pow2 a.Yb) + 6 * Misc.pow4 a.Mu + 4 * pow2 a.cbeta * (Misc.pow4 a.mQ3 - Misc.pow4
    a.mU3) + 2 * Misc.pow4 a.mU3) - a.mD32 * a.Mu2 * ((-6) * a.mA2 * pow2 a.sbeta * pow2 a.Yb + 4 * a.mU32 * pow2 a.sbeta *
    pow2 a.Yb + a.mQ32 * ((-10) * a.Mu2 + 8 * a.mU32 + 2 * pow2 a.sbeta * pow2 a.Yb) - a.Mu2 * (20 * a.mU32 + 3 * pow2
    a.sbeta * pow2 a.Yb) + (2 + 8 * pow2 a.cbeta) * Misc.pow4 a.mQ3 + 12 * Misc.pow4 a.Mu + 2 * Misc.pow4 a.mU3 - 8 * pow2
    a.cbeta * Misc.pow4 a.mU3) + Misc.pow4 a.mD3 * ((-3) * a.mA2 * pow2 a.sbeta * pow2 a.Yb + 2 * a.mU32 * pow2 a.sbeta *
    pow2 a.Yb + a.mQ32 * ((-8) * a.Mu2 + 4 * a.mU32 + pow2 a.sbeta * pow2 a.Yb) - 2 * a.Mu2 * (8 * a.mU32 + 3 * pow2 a.sbeta
    * pow2 a.Yb) + (1 + 4 * pow2 a.cbeta) * Misc.pow4 a.mQ3 + 6 * Misc.pow4 a.Mu + Misc.pow4 a.mU3 - 4 * pow2 a.cbeta *
    Misc.pow4 a.mU3) + (2 * a.mQ32 + 4 * a.mU32 + 3 * pow2 a.sbeta * pow2 a.Yb) * Misc.pow6 a.mD3) / (pow2 a.cbeta * pow2
    (a.mD32 - a.Mu2))) / Misc.pow4 (a.mQ32 - a.mU32))) + a.log_mD32_mQ32 * (6 * a.Xt2 * (2 * a.mD32 * a.Xb2 * (a.mD32 * pow2
    a.sbeta - a.mQ32 * (1 + pow2 a.sbeta)) / (pow2 (a.mD32 - a.mQ32) * pow2 a.sbeta) + (2 * a.mD32 + pow2 a.sbeta * pow2
    a.Yb) / pow2 a.cbeta) / (a.mQ32 * (a.mQ32 - a.mU32)) + 3 * (a.mD32 * (2 / a.mQ32 + 4 * a.Mu2 / pow2 (a.mD32 - a.Mu2)) +
    pow2 a.sbeta * pow2 a.Yb / a.mQ32 + 2 * Misc.pow4 a.mD3 / pow2 (a.mD32 - a.Mu2)) / pow2 a.cbeta + 6 * a.Xb2 * (a.mD32 *
    a.mQ32 * (4 - 4 * pow2 a.cbeta - 5 * pow2 a.sbeta) + pow2 a.sbeta * Misc.pow4 a.mD3) / (a.mQ32 * pow2 (a.mD32 - a.mQ32)
    * pow2 a.sbeta) - 3 * pow2 a.sbeta * pow2 (a.mQ32 - a.mU32 + a.Xt2) * pow2 a.Yb * ((-2) * a.mA2 * a.mQ32 + Misc.pow4
    a.mA - Misc.pow4 a.mD3 + Misc.pow4 a.mQ3) / (a.mQ32 * Yt6.deltaxyz a.mA2 a.mQ32 a.mD32 * pow2 a.cbeta * pow2 (a.mQ32 -
    a.mU32)) + 12 * a.lmUMR * (4 * a.cbeta * (a.mD32 - a.Mu2) * a.pow_Mu2_15 * a.Xb / ((a.mD32 - a.mQ32) * a.sbeta) +
    Misc.pow4 a.Mu) / (pow2 a.cbeta * pow2 (a.mD32 - a.Mu2)) + 6 * a.lmQ3MR * (2 + pow2 a.cbeta / pow2 a.sbeta + 2 * a.Xb *
    a.Xt * ((a.mD32 - a.mQ32 + a.Xb * a.Yt) * pow2 a.cbeta + (a.mD32 - a.mQ32) * pow2 a.sbeta) / (pow2 (a.mD32 - a.mQ32) *
    pow2 a.sbeta) + a.Xb2 * (2 * a.mD32 * (-1 + pow2 a.sbeta) + pow2 a.cbeta * (-a.mA2 + a.mD32 + a.mQ32 + pow2 a.Yt)) /
    (pow2 (a.mD32 - a.mQ32) * pow2 a.sbeta) + 2 * a.Xb * ((-4) * a.pow_Mu2_15 * a.sbeta + a.cbeta * (a.mD32 - a.Mu2) * (a.Yb
    + a.Yt) * pow2 a.sbeta + (a.mD32 - a.Mu2) * a.Yt * Misc.pow3 a.cbeta) / (a.cbeta * (a.mD32 - a.mQ32) * (a.mD32 - a.Mu2)
    * pow2 a.sbeta) + (pow2 a.sbeta - 2 * Misc.pow4 a.Mu / pow2 (a.mD32 - a.Mu2)) / pow2 a.cbeta) - 6 * a.log_mA2_MR2 * (2 *
    (a.mD32 - a.mQ32) * (a.mD32 - a.mQ32 + a.Xb * (a.Xt + a.Yb + a.Yt)) * pow2 a.cbeta * pow2 a.sbeta + Misc.pow4 a.cbeta *
    (a.mQ32 * a.Xb * (a.Xb - 2 * (a.Xt + a.Yt)) + a.Xb2 * (-a.mA2 + a.Yt * (2 * a.Xt + a.Yt)) - a.mD32 * (2 * a.mQ32 + a.Xb
    * (a.Xb - 2 * (a.Xt + a.Yt))) + Misc.pow4 a.mD3 + Misc.pow4 a.mQ3) + pow2 (a.mD32 - a.mQ32) * Misc.pow4 a.sbeta) / (pow2
    a.cbeta * pow2 (a.mD32 - a.mQ32) * pow2 a.sbeta) + a.Xt4 * (48 * a.mD32 * a.Xb * a.abs_Mu / (a.cbeta * (a.mD32 - a.mQ32)
    * (a.mD32 - a.Mu2) * a.sbeta * pow2 (a.mQ32 - a.mU32)) + 6 * a.mD32 * a.Xb2 / ((a.mD32 - a.mQ32) * pow2 (-(a.mQ3 *
    a.mU32) + Misc.pow3 a.mQ3)) - 3 * (2 * a.mD32 * a.Mu2 * (a.mU32 * (a.Mu2 - pow2 a.sbeta * pow2 a.Yb) + a.mQ32 * (5 *
    a.Mu2 + 4 * a.mU32 + pow2 a.sbeta * pow2 a.Yb) - 4 * Misc.pow4 a.mQ3) + Misc.pow4 a.mD3 * (a.mU32 * ((-4) * a.Mu2 + pow2
    a.sbeta * pow2 a.Yb) - a.mQ32 * (20 * a.Mu2 + 4 * a.mU32 + pow2 a.sbeta * pow2 a.Yb) + 4 * Misc.pow4 a.mQ3) + (-a.mQ32 +
    a.mU32) * pow2 a.sbeta * pow2 a.Yb * Misc.pow4 a.Mu + 2 * (5 * a.mQ32 + a.mU32) * Misc.pow6 a.mD3) / (a.mQ32 * pow2
    a.cbeta * pow2 (a.mD32 - a.Mu2) * Misc.pow3 (a.mQ32 - a.mU32))) + 6 * a.log_mU32_mQ32 * ((-2) * a.Xt * pow2 (a.mD32 -
    a.Mu2) * ((a.mD32 - a.mQ32 + a.Xb * a.Yt) * pow2 a.cbeta + (a.mD32 - a.mQ32) * pow2 a.sbeta) * ((-a.mA2 + a.mD32 +
    a.mU32) * a.Xb * pow2 a.cbeta + (a.mD32 - a.mQ32) * a.Yb * pow2 a.sbeta) * Misc.pow3 (a.mQ32 - a.mU32) - 2 * (a.mD32 -
    a.mQ32) * (2 * a.mA2 - 2 * a.mD32 - a.mQ32 - a.mU32) * (a.mQ32 - a.mU32) * a.Yb * pow2 (a.mD32 - a.Mu2) * pow2 a.sbeta *
    (a.Xb * a.Yt * pow2 a.cbeta + (a.mD32 - a.mQ32) * (pow2 a.cbeta + pow2 a.sbeta)) * Misc.pow3 a.Xt + a.Xb2 * pow2 a.cbeta
    * pow2 (a.mD32 - a.Mu2) * (2 * a.mD32 + pow2 a.cbeta * pow2 a.Yt) * Misc.pow4 (a.mQ32 - a.mU32) - 2 * a.cbeta * (a.mD32
    - a.mQ32) * (a.mD32 - a.Mu2) * a.Xb * (a.cbeta * a.Mu2 * a.Yt * (pow2 a.cbeta + pow2 a.sbeta) - a.mD32 * (2 * a.sbeta *
    a.abs_Mu + a.cbeta * a.Yt * pow2 a.sbeta + a.Yt * Misc.pow3 a.cbeta)) * Misc.pow4 (a.mQ32 - a.mU32) + pow2 (a.mD32 -
    a.mQ32) * (2 * pow2 a.cbeta * pow2 (a.mD32 - a.Mu2) * pow2 a.sbeta + pow2 (a.mD32 - a.Mu2) * Misc.pow4 a.cbeta + pow2
    a.sbeta * ((-2) * a.mD32 * a.Mu2 * (-1 + pow2 a.sbeta) + (-1 + pow2 a.sbeta) * Misc.pow4 a.mD3 + pow2 a.sbeta *
    Misc.pow4 a.Mu)) * Misc.pow4 (a.mQ32 - a.mU32) + a.sbeta * a.Xt4 * (4 * a.cbeta * a.mD32 * (a.mD32 - a.mQ32) * (a.mD32 -
    a.Mu2) * (a.mQ32 - a.mU32) * (a.mQ32 + a.mU32) * a.Xb * a.abs_Mu - 2 * a.mD32 * (a.mD32 - a.mU32) * (3 * a.mD32 - 2 *
    a.mQ32 - a.mU32) * a.sbeta * a.Xb2 * pow2 a.cbeta * pow2 (a.mD32 - a.Mu2) - a.sbeta * pow2 (a.mD32 - a.mQ32) * (((-3) *
    a.mA2 + a.mQ32 + 2 * a.mU32) * pow2 a.sbeta * pow2 a.Yb * Misc.pow4 a.Mu + Misc.pow4 a.mD3 * ((-3) * a.mA2 * pow2
    a.sbeta * pow2 a.Yb + 2 * a.mU32 * pow2 a.sbeta * pow2 a.Yb + a.mQ32 * ((-4) * a.Mu2 + pow2 a.sbeta * pow2 a.Yb) - 2 *
    a.Mu2 * (4 * a.mU32 + 3 * pow2 a.sbeta * pow2 a.Yb) + Misc.pow4 a.mQ3 - Misc.pow4 a.mU3) + a.mD32 * a.Mu2 * (2 * a.mQ32
    * (a.Mu2 - pow2 a.sbeta * pow2 a.Yb) + a.Mu2 * (4 * a.mU32 + 3 * pow2 a.sbeta * pow2 a.Yb) - 2 * Misc.pow4 a.mQ3 + 2 *
    (3 * a.mA2 * pow2 a.sbeta * pow2 a.Yb - 2 * a.mU32 * pow2 a.sbeta * pow2 a.Yb + Misc.pow4 a.mU3)) + (2 * a.mQ32 + 4 *
    a.mU32 + 3 * pow2 a.sbeta * pow2 a.Yb) * Misc.pow6 a.mD3)) + a.Xt2 * pow2 (a.mQ32 - a.mU32) * (-(a.Xb2 * pow2 a.cbeta *
    pow2 (a.mD32 - a.Mu2) * ((-a.mA2 + a.mQ32) * pow2 a.cbeta * pow2 a.Yt + a.mD32 * (2 * a.mQ32 - 4 * a.mU32 * pow2 a.sbeta
    + pow2 a.cbeta * pow2 a.Yt) + 4 * pow2 a.sbeta * Misc.pow4 a.mD3)) - 2 * a.cbeta * (a.mD32 - a.mQ32) * (a.mD32 - a.Mu2)
    * a.Xb * (-(a.cbeta * a.Mu2 * (-(a.mU32 * a.Yb * pow2 a.sbeta) + a.mQ32 * a.Yt * (pow2 a.cbeta + pow2 a.sbeta) + a.mA2 *
    (-(a.Yt * pow2 a.cbeta) + (a.Yb - a.Yt) * pow2 a.sbeta))) - a.mD32 * (a.mU32 * a.sbeta * (a.cbeta * a.sbeta * a.Yb + 4 *
    a.abs_Mu) + a.cbeta * (a.mA2 + a.Mu2) * (a.Yt * pow2 a.cbeta + (-a.Yb + a.Yt) * pow2 a.sbeta) - a.mQ32 * (4 * a.sbeta *
    a.abs_Mu + a.cbeta * a.Yt * pow2 a.sbeta + a.Yt * Misc.pow3 a.cbeta)) + (a.cbeta * (-a.Yb + a.Yt) * pow2 a.sbeta + a.Yt
    * Misc.pow3 a.cbeta) * Misc.pow4 a.mD3) + pow2 (a.mD32 - a.mQ32) * (2 * (a.mA2 - a.mD32 - a.mQ32) * pow2 a.cbeta * pow2
    (a.mD32 - a.Mu2) * pow2 a.sbeta + (a.mA2 - a.mD32 - a.mQ32) * pow2 (a.mD32 - a.Mu2) * Misc.pow4 a.cbeta - pow2 a.sbeta *
    (a.mD32 * a.Mu2 * ((-4) * a.mU32 - 2 * a.mQ32 * (-2 + pow2 a.sbeta) + a.Mu2 * (-2 + pow2 a.sbeta) + 2 * pow2 a.sbeta *
    (a.mA2 + pow2 a.Yb)) - ((-2) * a.mU32 - a.mQ32 * (-2 + pow2 a.sbeta) + 2 * a.Mu2 * (-2 + pow2 a.sbeta) + a.mA2 * pow2
    a.sbeta + pow2 a.sbeta * pow2 a.Yb) * Misc.pow4 a.mD3 - pow2 a.sbeta * (a.mA2 - a.mQ32 + pow2 a.Yb) * Misc.pow4 a.Mu +
    (-2 + pow2 a.sbeta) * Misc.pow6 a.mD3)))) / (pow2 a.cbeta * pow2 (a.mD32 - a.mQ32) * pow2 (a.mD32 - a.Mu2) * pow2
    a.sbeta * Misc.pow4 (a.mQ32 - a.mU32))) + 6 * a.Xt4 * (a.Xb2 * (6 * a.mQ32 * a.dilog_mD32_mQ32 * pow2 (a.mD32 - a.mU32)
    - 6 * a.mQ32 * a.dilog_mD32_mU32 * pow2 (a.mD32 - a.mU32) + (a.mQ32 - a.mU32) * ((-a.mD32 + a.mQ32) * (11 * a.mQ32 +
    a.mU32) + 6 * a.dilog_mQ32_mU32 * (-(a.mQ32 * a.mU32) + Misc.pow4 a.mQ3))) / (-a.mD32 + a.mQ32) + (18 * a.mD32 * a.mQ32
    * a.Mu2 * a.mU32 - 2 * a.mQ32 * (a.mD32 - a.Mu2) * (a.Mu2 - a.mU32) * (2 * a.mQ32 - 3 * a.Mu2 + a.mU32) *
    a.dilog_Mu2_mQ32 + 8 * a.mD32 * a.mQ32 * a.Mu2 * a.mU32 * a.dilog_Mu2_mU32 + 6 * a.mQ32 * (a.mD32 - a.Mu2) *
    a.dilog_mQ32_mU32 * pow2 a.cbeta * pow2 (a.mQ32 - a.mU32) - 4 * a.mA2 * a.mD32 * a.mQ32 * a.mU32 * pow2 a.sbeta + 4 *
    a.mA2 * a.mQ32 * a.Mu2 * a.mU32 * pow2 a.sbeta - 10 * a.mD32 * a.mQ32 * a.mU32 * pow2 a.sbeta * pow2 a.Yb + 10 * a.mQ32
    * a.Mu2 * a.mU32 * pow2 a.sbeta * pow2 a.Yb - 4 * a.mQ32 * a.mU32 * Misc.pow4 a.mD3 - 21 * a.mD32 * a.Mu2 * Misc.pow4
    a.mQ3 + 4 * a.mD32 * a.mU32 * Misc.pow4 a.mQ3 + 4 * a.mD32 * a.Mu2 * a.dilog_Mu2_mU32 * Misc.pow4 a.mQ3 - 4 * a.mD32 *
    a.mU32 * a.dilog_Mu2_mU32 * Misc.pow4 a.mQ3 + 4 * a.Mu2 * a.mU32 * a.dilog_Mu2_mU32 * Misc.pow4 a.mQ3 - 48 * a.mD32 *
    a.mU32 * pow2 a.cbeta * Misc.pow4 a.mQ3 + 48 * a.Mu2 * a.mU32 * pow2 a.cbeta * Misc.pow4 a.mQ3 + 5 * a.mA2 * a.mD32 *
    pow2 a.sbeta * Misc.pow4 a.mQ3 - 5 * a.mA2 * a.Mu2 * pow2 a.sbeta * Misc.pow4 a.mQ3 - 2 * a.mD32 * a.mU32 * pow2 a.sbeta
    * Misc.pow4 a.mQ3 + 2 * a.Mu2 * a.mU32 * pow2 a.sbeta * Misc.pow4 a.mQ3 + 11 * a.mD32 * pow2 a.sbeta * pow2 a.Yb *
    Misc.pow4 a.mQ3 - 11 * a.Mu2 * pow2 a.sbeta * pow2 a.Yb * Misc.pow4 a.mQ3 + 5 * Misc.pow4 a.mD3 * Misc.pow4 a.mQ3 - 14 *
    a.mQ32 * a.mU32 * Misc.pow4 a.Mu - 6 * a.mD32 * a.mQ32 * a.dilog_Mu2_mU32 * Misc.pow4 a.Mu - 8 * a.mQ32 * a.mU32 *
    a.dilog_Mu2_mU32 * Misc.pow4 a.Mu + 16 * Misc.pow4 a.mQ3 * Misc.pow4 a.Mu - 4 * a.dilog_Mu2_mU32 * Misc.pow4 a.mQ3 *
    Misc.pow4 a.Mu - 8 * a.mD32 * a.mQ32 * Misc.pow4 a.mU3 + 3 * a.mD32 * a.Mu2 * Misc.pow4 a.mU3 + 6 * a.mQ32 * a.Mu2 *
    Misc.pow4 a.mU3 - 2 * a.mD32 * a.mQ32 * a.dilog_Mu2_mU32 * Misc.pow4 a.mU3 + 2 * a.mQ32 * a.Mu2 * a.dilog_Mu2_mU32 *
    Misc.pow4 a.mU3 + 24 * a.mD32 * a.mQ32 * pow2 a.cbeta * Misc.pow4 a.mU3 - 24 * a.mQ32 * a.Mu2 * pow2 a.cbeta * Misc.pow4
    a.mU3 - a.mA2 * a.mD32 * pow2 a.sbeta * Misc.pow4 a.mU3 + a.mD32 * a.mQ32 * pow2 a.sbeta * Misc.pow4 a.mU3 + a.mA2 *
    a.Mu2 * pow2 a.sbeta * Misc.pow4 a.mU3 - a.mQ32 * a.Mu2 * pow2 a.sbeta * Misc.pow4 a.mU3 - a.mD32 * pow2 a.sbeta * pow2
    a.Yb * Misc.pow4 a.mU3 + a.Mu2 * pow2 a.sbeta * pow2 a.Yb * Misc.pow4 a.mU3 - Misc.pow4 a.mD3 * Misc.pow4 a.mU3 - 2 *
    Misc.pow4 a.Mu * Misc.pow4 a.mU3 + 4 * a.mD32 * Misc.pow6 a.mQ3 - 6 * a.Mu2 * Misc.pow6 a.mQ3 + 24 * a.mD32 * pow2
    a.cbeta * Misc.pow6 a.mQ3 - 24 * a.Mu2 * pow2 a.cbeta * Misc.pow6 a.mQ3 + a.mD32 * pow2 a.sbeta * Misc.pow6 a.mQ3 -
    a.Mu2 * pow2 a.sbeta * Misc.pow6 a.mQ3 + 6 * a.mQ32 * a.dilog_Mu2_mU32 * Misc.pow6 a.Mu) / ((a.mD32 - a.Mu2) * pow2
    a.cbeta)) / (a.mQ32 * Misc.pow4 (a.mQ32 - a.mU32))

end Yt4Yb2

/-- `getDeltaLambdaYt4Yb2`; ThresholdCalculator.cpp:2589-3005 -/
def TcObj.dLamYt4Yb2 (dilog : F → F) (phi : F → F → F → F) (c : TcObj F) (omitLogs : Int) : F :=
  let MR2 := pow2 c.p.scale
  let mQ32 := (c.p.mq2 2 2)
  let mD32 := (c.p.md2 2 2)
  let mU32 := (c.p.mu2 2 2)
  let mQ3 := sqrt mQ32
  let mU3 := sqrt mU32
  let mD3 := sqrt mD32
  let mA := c.p.MA
  let sbeta := (eftSinBeta c.p)
  let cbeta := (eftCosBeta c.p)
  let Xt := (calcXt c.p)
  let Yt := (calcYt c.p)
  let Xb := (calcXb c.p)
  let Yb := (calcYb c.p)
  let Mu := c.p.mu
  let Mu2 := pow2 Mu
  let Xt2 := pow2 Xt
  let Xt4 := pow2 Xt2
  let mA2 := pow2 mA
  let Xb2 := pow2 Xb
  let lmQ3MR := (ofInt omitLogs) * log (mQ32 / MR2)
  let lmUMR := (ofInt omitLogs) * log (Mu2 / MR2)
  let eps := mQ3 * lit (1/100)
  if lt (abs (mU3 - mQ3)) eps && lt (abs (mD3 - mQ3)) eps && lt (abs (Mu - mQ3)) eps then
    let M := sqrt (mQ3 * mU3)
    lit (535153120435743/200000000000000) * pow2 sbeta * (cbeta * M * sbeta * ((-(lit (1868624066296689/2500000000000000)))
      * Xb * Xt4 + (lit (896939551822411/100000000000000) * Xb + lit (14948992530373513/10000000000000000) * Xt) * Xt2 *
      pow2 M - lit (896939551822411/100000000000000) * Xb * Misc.pow4 M) + Misc.pow4 cbeta * (Yt * (lit
      (14948992530373513/10000000000000000) * Xb * Xt2 + Xb2 * (lit (14948992530373513/10000000000000000) * Xt + lit
      (1868624066296689/2500000000000000) * Yt) + lit (1868624066296689/2500000000000000) * Xt2 * Yt) * pow2 M - lit
      (10117797056397451/50000000000000000) * Xb2 * Xt2 * pow2 Yt + (lit (6307781214564213/5000000000000000) * Xb2 - lit
      (14015620489875479/2000000000000000) * Xb * Xt + lit (6307781214564213/5000000000000000) * Xt2 - lit
      (14015620489875479/2000000000000000) * Xb * Yt - lit (14015620489875479/2000000000000000) * Xt * Yt - lit
      (17519525612344349/5000000000000000) * pow2 Yt) * Misc.pow4 M - lit (10511715367406609/1000000000000000) * Misc.pow6
      M) + pow2 sbeta * (lit (1039168917554059/20000000000000000) * Xt4 * pow2 sbeta * pow2 Yb + Xt2 * pow2 M * (Xt2 * (lit
      (1868624066296689/5000000000000000) - lit (560587219889007/1000000000000000) * pow2 sbeta) - lit
      (171368872131389/500000000000000) * Xt * Yb * pow2 sbeta - lit (514106616394167/1000000000000000) * pow2 sbeta * pow2
      Yb) + pow2 sbeta * (lit (5746254002024897/1000000000000000) * Xt2 + lit (5046224971651371/1000000000000000) * Xt * Yb
      + lit (12615562429128429/10000000000000000) * pow2 Yb) * Misc.pow4 M + (lit (8969395518224111/1000000000000000) + 1 *
      pow2 sbeta) * Misc.pow6 M) + pow2 cbeta * (Xt * pow2 M * (Xb2 * Xt * (lit (11211744397780137/10000000000000000) - lit
      (11211744397780137/5000000000000000) * pow2 sbeta) + Xt2 * ((-(lit (11211744397780137/10000000000000000))) * Xt - lit
      (171368872131389/500000000000000) * Yb - lit (171368872131389/500000000000000) * Yt) * pow2 sbeta + Xb * (lit
      (14948992530373513/10000000000000000) * Xt * Yb + lit (14948992530373513/10000000000000000) * Xt * Yt + lit
      (1195919402429881/400000000000000) * Yb * Yt) * pow2 sbeta) + Xb * (lit (1868624066296689/5000000000000000) * Xb * Xt
      - lit (3062728328833549/5000000000000000) * Yb * Yt) * pow2 sbeta * Misc.pow3 Xt + (Xb * ((-(lit
      (14015620489875479/2000000000000000))) * Xt - lit (14015620489875479/2000000000000000) * Yb - lit
      (14015620489875479/2000000000000000) * Yt) * pow2 sbeta + Xb2 * (-(lit (11211744397780137/5000000000000000)) + lit
      (896939551822411/100000000000000) * pow2 sbeta) + Xt * ((lit (10092449943302741/2000000000000000) * Yb + lit
      (10092449943302741/2000000000000000) * Yt) * pow2 sbeta + Xt * (-(lit (11211744397780137/5000000000000000)) + lit
      (381236909230537/40000000000000) * pow2 sbeta))) * Misc.pow4 M + (-(lit (896939551822411/50000000000000)) + lit
      (6242348879556027/1000000000000000) * pow2 sbeta) * Misc.pow6 M)) / Misc.pow6 M
  else
  Yt4Yb2.formula
    { Mu := Mu, Mu2 := Mu2, Xb := Xb, Xb2 := Xb2, Xt := Xt, Xt2 := Xt2, Xt4 := Xt4, Yb := Yb, Yt := Yt, cbeta := cbeta,
      lmQ3MR := lmQ3MR, lmUMR := lmUMR, mA := mA, mA2 := mA2, mD3 := mD3, mD32 := mD32, mQ3 := mQ3, mQ32 := mQ32,
      mU3 := mU3, mU32 := mU32, sbeta := sbeta, abs_Mu := abs Mu, dilog_Mu2_mD32 := dilog (1 - Mu2 / mD32),
      dilog_Mu2_mQ32 := dilog (1 - Mu2 / mQ32), dilog_Mu2_mU32 := dilog (1 - Mu2 / mU32), log_mA2_MR2 := log (mA2 / MR2),
      dilog_mD32_mQ32 := dilog (1 - mD32 / mQ32), phixyz_mA2_mQ32_mQ32 := phi mA2 mQ32 mQ32,
      log_mD32_mQ32 := log (mD32 / mQ32), pow_Mu2_15 := Mu2 * sqrt Mu2, log_mU32_mQ32 := log (mU32 / mQ32),
      phixyz_mA2_mQ32_mD32 := phi mA2 mQ32 mD32, dilog_mD32_mU32 := dilog (1 - mD32 / mU32),
      dilog_mQ32_mU32 := dilog (1 - mQ32 / mU32), phixyz_mA2_mU32_mD32 := phi mA2 mU32 mD32,
      phixyz_mA2_mU32_mQ32 := phi mA2 mU32 mQ32 }

/-- `getDeltaLambdaYtau4Yb2`; ThresholdCalculator.cpp:3007-3049 -/
def TcObj.dLamYtau4Yb2 (c : TcObj F) (omitLogs : Int) : F :=
  let Xb := (calcXb c.p)
  let Xtau := (calcXtau c.p)
  let Xtau2 := pow2 Xtau
  let mQ32 := (c.p.mq2 2 2)
  let mD32 := (c.p.md2 2 2)
  let mD3 := sqrt mD32
  let mQ3 := sqrt mQ32
  let mL3 := sqrt ((c.p.ml2 2 2))
  let mE3 := sqrt ((c.p.me2 2 2))
  let cbeta := (eftCosBeta c.p)
  let sbeta := (eftSinBeta c.p)
  let lmQ3MR := (ofInt omitLogs) * log (mQ32 / pow2 c.p.scale)
  let eps := mQ3 * lit (1/100)
  if lt (abs (mE3 - mL3)) eps && lt (abs (mD3 - mQ3)) eps then
    (-4) * lmQ3MR * Xb * Xtau * ((-6) * pow2 mL3 + Xtau2) / (cbeta * sbeta * Misc.pow4 mL3)
  else
  if lt (abs (mE3 - mL3)) eps then
    (-4) * Xb * Xtau * ((-6) * pow2 mL3 + Xtau2) * ((-1 + lmQ3MR) * (mD32 - mQ32) + mD32 * log (mD32 / mQ32)) / (cbeta *
      (mD32 - mQ32) * sbeta * Misc.pow4 mL3)
  else
  if lt (abs (mD3 - mQ3)) eps then
    let mE32 := pow2 mE3
    let mL32 := pow2 mL3
    (-24) * lmQ3MR * Xb * Xtau * (2 * (-mE32 + mL32) * Xtau2 + log (mE32 / mL32) * (mL32 * Xtau2 + mE32 * (2 * mL32 + Xtau2)
      - Misc.pow4 mE3 - Misc.pow4 mL3)) / (cbeta * sbeta * Misc.pow3 (mE32 - mL32))
  else
  let exact := (-24) * Xb * Xtau * ((-1 + lmQ3MR) * (mD32 - mQ32) + mD32 * log (mD32 / mQ32)) * (2 * Xtau2 * (-(pow2 mE3) +
    pow2 mL3) + log (pow2 mE3 / pow2 mL3) * (Xtau2 * pow2 mL3 + pow2 mE3 * (Xtau2 + 2 * pow2 mL3) - Misc.pow4 mE3 -
    Misc.pow4 mL3)) / (cbeta * (mD32 - mQ32) * sbeta * Misc.pow3 (pow2 mE3 - pow2 mL3))
  exact

/-- `getDeltaLambdaYtau2Yb4`; ThresholdCalculator.cpp:3051-3095 -/
def TcObj.dLamYtau2Yb4 (c : TcObj F) (omitLogs : Int) : F :=
  let Xb := (calcXb c.p)
  let Xtau := (calcXtau c.p)
  let Xb2 := pow2 Xb
  let mL3 := sqrt ((c.p.ml2 2 2))
  let mE3 := sqrt ((c.p.me2 2 2))
  let mQ32 := (c.p.mq2 2 2)
  let mD32 := (c.p.md2 2 2)
  let mD3 := sqrt mD32
  let mQ3 := sqrt mQ32
  let lmE3MR := (ofInt omitLogs) * log (pow2 mE3 / pow2 c.p.scale)
  let lmL3MR := (ofInt omitLogs) * log (pow2 mL3 / pow2 c.p.scale)
  let lmD3MR := (ofInt omitLogs) * log (pow2 mD3 / pow2 c.p.scale)
  let lmQ3MR := (ofInt omitLogs) * log (mQ32 / pow2 c.p.scale)
  let cbeta := (eftCosBeta c.p)
  let sbeta := (eftSinBeta c.p)
  let eps := mQ3 * lit (1/100)
  if lt (abs (mE3 - mL3)) eps && lt (abs (mD3 - mQ3)) eps then
    (-4) * lmL3MR * Xb * ((-6) * mQ32 + Xb2) * Xtau / (cbeta * sbeta * Misc.pow4 mQ3)
  else
  if lt (abs (mE3 - mL3)) eps then
    24 * lmL3MR * Xb * Xtau * (2 * (mD32 - mQ32) * Xb2 + lmQ3MR * (mQ32 * Xb2 + mD32 * (2 * mQ32 + Xb2) - Misc.pow4 mD3 -
      Misc.pow4 mQ3) + lmD3MR * (-(mQ32 * Xb2) - mD32 * (2 * mQ32 + Xb2) + Misc.pow4 mD3 + Misc.pow4 mQ3)) / (cbeta * sbeta
      * Misc.pow3 (mD32 - mQ32))
  else
  if lt (abs (mD3 - mQ3)) eps then
    let mE32 := pow2 mE3
    let mL32 := pow2 mL3
    (-4) * (-mE32 + lmE3MR * mE32 + mL32 - lmL3MR * mL32) * Xb * ((-6) * mQ32 + Xb2) * Xtau / (cbeta * (mE32 - mL32) * sbeta
      * Misc.pow4 mQ3)
  else
  let exact := 24 * Xb * Xtau * (-(pow2 mE3) + lmE3MR * pow2 mE3 + pow2 mL3 - lmL3MR * pow2 mL3) * (2 * (mD32 - mQ32) * Xb2
    + lmQ3MR * (mQ32 * Xb2 + mD32 * (2 * mQ32 + Xb2) - Misc.pow4 mD3 - Misc.pow4 mQ3) + lmD3MR * (-(mQ32 * Xb2) - mD32 * (2
    * mQ32 + Xb2) + Misc.pow4 mD3 + Misc.pow4 mQ3)) / (cbeta * sbeta * (pow2 mE3 - pow2 mL3) * Misc.pow3 (mD32 - mQ32))
  exact

/-- `getThresholdCorrection` for the two-loop corrections with bottom and tau Yukawa couplings; ThresholdCalculator.cpp:294-411.
`getDeltaVevG12` and `getDeltaVevG22` return NaN (lines 886-900; here `0/0`).  All other orders are handled by the functions which
call this one, so that the last case (the `default` of the `switch`, which returns 0) is not reached. -/
def yukFns (dilog : F → F) (phi : F → F → F → F) (c : TcObj F) (o : ThrOrder) (n : Int) : Except String F :=
  match o with
  | .LAMBDA_YB4_G32 => .ok (c.dLamYb4G32 dilog n)
  | .LAMBDA_YB6 => .ok (c.dLamYb6 dilog phi n)
  | .LAMBDA_YTAU6 => .ok (c.dLamYtau6 dilog phi n)
  | .LAMBDA_YT2_YB4 => .ok (c.dLamYt2Yb4 dilog phi n)
  | .LAMBDA_YT4_YB2 => .ok (c.dLamYt4Yb2 dilog phi n)
  | .LAMBDA_YTAU4_YB2 => .ok (c.dLamYtau4Yb2 n)
  | .LAMBDA_YTAU2_YB4 => .ok (c.dLamYtau2Yb4 n)
  | .VEV_G12 => .ok (0 / 0)
  | .VEV_G22 => .ok (0 / 0)
  | _ => .ok 0

/-- all threshold corrections -/
def thrFns4 (dilog : F → F) (phi : F → F → F → F) : ThrFns F := thrFns3 dilog phi (yukFns dilog phi)

end

end Himalaya

