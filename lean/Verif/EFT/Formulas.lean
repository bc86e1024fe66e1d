import Verif.Iface.Model
import Verif.Misc.Model

/-!
# Threshold corrections of O(at as^n): the formulas

Generated by tools/gen_eft.py from source/himalaya/mh2_eft/ThresholdCalculator.cpp.  Each definition is one `case` of one member
function; the local variables it reads are its arguments (`m32 = MG^2`, `m3 = sqrt(m32)`, `mQ32 = mq2(2,2)`, ...).
-/

set_option linter.unusedVariables false

namespace Himalaya.Thr

open FOps
open scoped Himalaya

section
variable {F : Type} [Add F] [Sub F] [Mul F] [Div F] [Neg F] [FOps F]

/-- `getDeltaYtAlphas`, case `GENERAL`; mh2_eft/ThresholdCalculator.cpp:3144-3150 -/
def dYtAsGen (m32 mQ32 mU32 m3 mQ3 mU3 Xt lmQ3MR : F) : F :=
    2 * ((-2) * lmQ3MR + mQ32 * mU32 / ((-m32 + mQ32) * (m32 - mU32)) + Misc.pow4 m3 / ((m32 - mQ32) * (m32 - mU32)) - mU32 *
    log (mU32 / pow2 mQ3) * (2 * m32 * (mQ32 - mU32) - mQ32 * mU32 - 4 * m3 * mU32 * Xt + 4 * Xt * Misc.pow3 m3 + Misc.pow4
    mU3) / ((-mQ32 + mU32) * pow2 (m32 - mU32)) - log (m32 / pow2 mQ3) * Misc.pow3 m3 * ((-4) * mQ32 * mU32 * Xt + 4 * m32 *
    (mQ32 + mU32) * Xt - 2 * (mQ32 + mU32) * Misc.pow3 m3 - 4 * Xt * Misc.pow4 m3 + m3 * (Misc.pow4 mQ3 + Misc.pow4 mU3) + 2 *
    Misc.pow5 m3) / (pow2 (m32 - mQ32) * pow2 (m32 - mU32))) / 3

/-- `getDeltaYtAlphas`, case `MQ3_EQ_MU3`; mh2_eft/ThresholdCalculator.cpp:3153-3154 -/
def dYtAsQU (m32 mQ32 mU32 m3 mQ3 mU3 Xt lmQ3MR : F) : F :=
    (-2) * ((m32 - mQ32) * ((-1 + 2 * lmQ3MR) * m32 - (1 + 2 * lmQ3MR) * mQ32 + 4 * m3 * Xt) + 2 * (m3 - 2 * Xt) * log (m32 /
    pow2 mQ3) * Misc.pow3 m3) / (3 * pow2 (m32 - mQ32))

/-- `getDeltaYtAlphas`, case `MQ3_EQ_M3`; mh2_eft/ThresholdCalculator.cpp:3157-3158 -/
def dYtAsQG (m32 mQ32 mU32 m3 mQ3 mU3 Xt lmQ3MR : F) : F :=
    ((-4) * lmQ3MR - ((mQ32 - mU32) * (mQ32 - 3 * mU32 - 8 * mQ3 * Xt) + 2 * mU32 * ((-2) * mQ32 + mU32 - 4 * mQ3 * Xt) * log
    (mU32 / pow2 mQ3)) / pow2 (mQ32 - mU32)) / 3

/-- `getDeltaYtAlphas`, case `MU3_EQ_M3`; mh2_eft/ThresholdCalculator.cpp:3161-3163 -/
def dYtAsUG (m32 mQ32 mU32 m3 mQ3 mU3 Xt lmQ3MR : F) : F :=
    2 * ((-2) * lmQ3MR + ((-3) * mQ32 + mU3 * (mU3 - 8 * Xt)) / (2 * (mQ32 - mU32)) - log (mU32 / pow2 mQ3) * ((-2) * mQ32 *
    mU3 * (mU3 - 2 * Xt) + Misc.pow4 mQ3 + 2 * Misc.pow4 mU3) / pow2 (mQ32 - mU32)) / 3

/-- `getDeltaYtAlphas`, case `MQ3_EQ_MU3_EQ_M3`; mh2_eft/ThresholdCalculator.cpp:3166-3166 -/
def dYtAsQUG (m32 mQ32 mU32 m3 mQ3 mU3 Xt lmQ3MR : F) : F :=
    (-4) * (mQ3 + lmQ3MR * mQ3 - Xt) / (3 * mQ3)

/-- `getDeltaLambdaAlphat`, case `GENERAL`; mh2_eft/ThresholdCalculator.cpp:3656-3657 -/
def dLamAtGen (m32 mQ32 mU32 m3 mQ3 mU3 Xt lmQ3MR : F) : F :=
    12 * Misc.pow4 Xt / pow2 (mQ32 - mU32) + 12 * lmQ3MR + (6 - 12 * pow2 Xt / (mQ32 - mU32) + 6 * (mQ32 + mU32) / Misc.pow3
    (mQ32 - mU32) * Misc.pow4 Xt) * log (mU32 / mQ32)

/-- `getDeltaLambdaAlphat`, case `MQ3_EQ_MU3`; mh2_eft/ThresholdCalculator.cpp:3660-3660 -/
def dLamAtQU (m32 mQ32 mU32 m3 mQ3 mU3 Xt lmQ3MR : F) : F :=
    12 * lmQ3MR + 12 * pow2 Xt / mQ32 - Misc.pow4 Xt / pow2 mQ32

/-- `getDeltaLambdaAlphatAlphas`, case `GENERAL`; mh2_eft/ThresholdCalculator.cpp:3695-3752 -/
def dLamAtAsGen (dilog : F → F) (m32 mQ32 mU32 m3 mQ3 mU3 Xt lmQ3MR : F) : F :=
    16 * ((-6) * pow2 lmQ3MR - 4 * m32 * pow2 Xt / (pow2 mQ3 * pow2 mU3) - 32 * m3 * Misc.pow3 Xt / pow2 (mQ32 - mU32) - 2 *
    dilog (1 - m32 / pow2 mQ3) * ((-8) * (m32 - mQ32) * Xt * pow2 (mQ32 - mU32) * Misc.pow3 m3 - 4 * m3 * (2 * m32 - mQ32 -
    mU32) * pow2 (m32 - mQ32) * Misc.pow3 Xt + 2 * Misc.pow3 (mQ32 - mU32) * Misc.pow4 m3 - (2 * m32 - mQ32 - mU32) * pow2
    (m32 - mQ32) * Misc.pow4 Xt) / (pow2 (m32 - mQ32) * Misc.pow3 (mQ32 - mU32)) - 2 * dilog (1 - m32 / pow2 mU3) * (8 * (m32
    - mU32) * Xt * pow2 (mQ32 - mU32) * Misc.pow3 m3 + 4 * m3 * (2 * m32 - mQ32 - mU32) * pow2 (m32 - mU32) * Misc.pow3 Xt + 2
    * Misc.pow3 (mQ32 - mU32) * Misc.pow4 m3 + (2 * m32 - mQ32 - mU32) * pow2 (m32 - mU32) * Misc.pow4 Xt) / (pow2 (m32 -
    mU32) * Misc.pow3 (mQ32 - mU32)) + ((-6) * m32 * mQ32 * mU32 * (mQ32 + mU32) + 3 * Misc.pow4 mQ3 * Misc.pow4 mU3 +
    Misc.pow4 m3 * (9 * mQ32 * mU32 + 2 * Misc.pow4 mQ3 + 2 * Misc.pow4 mU3) - 2 * (mQ32 + mU32) * Misc.pow6 m3) / ((-m32 +
    mQ32) * (m32 - mU32) * pow2 mQ3 * pow2 mU3) + 2 * Misc.pow4 Xt * ((-5) * m32 * mQ32 * mU32 * (mQ32 + mU32) + 5 * Misc.pow4
    mQ3 * Misc.pow4 mU3 - Misc.pow4 m3 * ((-5) * mQ32 * mU32 + Misc.pow4 mQ3 + Misc.pow4 mU3) + (mQ32 + mU32) * Misc.pow6 m3)
    / ((m32 - mQ32) * (m32 - mU32) * pow2 mQ3 * pow2 mU3 * pow2 (mQ32 - mU32)) + 2 * lmQ3MR * ((mQ32 - mU32) * (8 * m3 * mQ32
    * mU32 * Misc.pow3 Xt + 2 * mQ32 * mU32 * ((-2) * mQ32 * mU32 + Misc.pow4 mQ3 + Misc.pow4 mU3 - 3 * Misc.pow4 Xt) - m32 *
    (pow2 (-(mU3 * pow2 Xt) + Misc.pow3 mU3) - (mU32 + 2 * pow2 Xt) * Misc.pow4 mQ3 + mQ32 * (4 * mU32 * pow2 Xt - Misc.pow4
    mU3 + Misc.pow4 Xt) + Misc.pow6 mQ3)) / (pow2 mQ3 * pow2 mU3) - log (mU32 / pow2 mQ3) * (mU32 * ((-4) * m3 + 3 * Xt) *
    Misc.pow3 Xt + ((-9) * mU32 + 4 * m3 * Xt - 6 * pow2 Xt) * Misc.pow4 mQ3 + 2 * (2 * m3 - 3 * Xt) * Xt * Misc.pow4 mU3 +
    mQ32 * (4 * mU32 * Xt * ((-2) * m3 + 3 * Xt) + ((-4) * m3 + 3 * Xt) * Misc.pow3 Xt + 9 * Misc.pow4 mU3) + 2 * m32 *
    Misc.pow4 Xt + 3 * Misc.pow6 mQ3 - 3 * Misc.pow6 mU3)) / Misc.pow3 (mQ32 - mU32) - pow2 (log (mU32 / pow2 mQ3)) * (4 *
    (m32 - mU32) * Xt * (-(m3 * mU32) + 2 * Misc.pow3 m3) * Misc.pow3 (mQ32 - mU32) + 4 * m3 * (m32 - mU32) * (mQ32 - mU32) *
    Misc.pow3 Xt * (3 * mQ32 * mU32 - m32 * (mQ32 + 3 * mU32) + 2 * Misc.pow4 m3 - Misc.pow4 mU3) - 2 * pow2 (mQ32 - mU32) *
    pow2 Xt * ((mQ32 - 3 * mU32) * Misc.pow4 m3 + 2 * (mQ32 - 2 * mU32) * Misc.pow4 mU3 + m32 * ((-4) * mQ32 * mU32 + 8 *
    Misc.pow4 mU3)) + ((-4) * m32 * mU32 + 3 * Misc.pow4 m3 + 2 * Misc.pow4 mU3) * Misc.pow4 (mQ32 - mU32) - 4 * m3 * (m32 -
    mU32) * mU32 * (mQ32 + mU32) * Misc.pow5 Xt + Misc.pow4 Xt * ((-8) * mQ32 * mU32 * Misc.pow4 m3 + ((-4) * mQ32 * mU32 +
    Misc.pow4 mQ3 - 5 * Misc.pow4 mU3) * Misc.pow4 mU3 + 2 * (mQ32 - mU32) * Misc.pow6 m3 + m32 * ((-2) * mU32 * Misc.pow4 mQ3
    + 10 * mQ32 * Misc.pow4 mU3 + 8 * Misc.pow6 mU3))) / (pow2 (m32 - mU32) * Misc.pow4 (mQ32 - mU32)) + log (mU32 / pow2 mQ3)
    * (8 * m3 * (m32 - mQ32) * Xt * pow2 (m32 - mU32) * pow2 (mQ32 - mU32) - 8 * m3 * (m32 - mQ32) * (mQ32 + 3 * mU32) * pow2
    (m32 - mU32) * Misc.pow3 Xt - 2 * (m32 - mU32) * pow2 (mQ32 - mU32) * pow2 Xt * (3 * mQ32 * mU32 - 2 * m32 * (3 * mQ32 + 2
    * mU32) + 7 * Misc.pow4 m3) + 8 * m3 * (m32 - mQ32) * (m32 - mU32) * mU32 * Misc.pow5 Xt + Misc.pow3 (mQ32 - mU32) * (-((6
    * mQ32 + 7 * mU32) * Misc.pow4 m3) - 2 * mQ32 * Misc.pow4 mU3 + m32 * (5 * mQ32 * mU32 + 3 * Misc.pow4 mU3) + 7 *
    Misc.pow6 m3) + Misc.pow4 Xt * ((-3) * mQ32 * (mQ32 + 5 * mU32) * Misc.pow4 mU3 - Misc.pow4 m3 * (15 * mQ32 * mU32 + 6 *
    Misc.pow4 mQ3 + 29 * Misc.pow4 mU3) + (3 * mQ32 + 7 * mU32) * Misc.pow6 m3 + m32 * (7 * mU32 * Misc.pow4 mQ3 + 31 * mQ32 *
    Misc.pow4 mU3 + 16 * Misc.pow6 mU3) + 4 * Misc.pow8 m3)) / ((m32 - mQ32) * pow2 (m32 - mU32) * Misc.pow3 (mQ32 - mU32)) -
    m32 * log (m32 / pow2 mQ3) * ((-4) * m32 * (m32 - mQ32) * (m32 - mU32) * (m32 - mQ32 - mU32) * pow2 Xt * Misc.pow3 (mQ32 -
    mU32) - 8 * m3 * (m32 - mQ32) * mQ32 * (m32 - mU32) * (mQ32 - mU32) * mU32 * Misc.pow5 Xt + m3 * mQ32 * mU32 * log (mU32 /
    pow2 mQ3) * ((-4) * (m32 - mQ32) * (m32 - mU32) * (2 * m32 - mQ32 - mU32) * Xt * pow2 (mQ32 - mU32) - 8 * (m32 - mQ32) *
    (m32 - mU32) * Misc.pow3 Xt * (4 * mQ32 * mU32 - 2 * m32 * (mQ32 + mU32) + 2 * Misc.pow4 m3 - Misc.pow4 mQ3 - Misc.pow4
    mU3) - 2 * m3 * pow2 (mQ32 - mU32) * pow2 Xt * ((-2) * m32 * (mQ32 + mU32) + 2 * Misc.pow4 m3 + Misc.pow4 mQ3 + Misc.pow4
    mU3) + m3 * (2 * m32 - mQ32 - mU32) * Misc.pow4 (mQ32 - mU32) + m3 * (mQ32 + mU32) * ((-2) * m32 * (mQ32 + mU32) + 2 *
    Misc.pow4 m3 + Misc.pow4 mQ3 + Misc.pow4 mU3) * Misc.pow4 Xt - 4 * (m32 - mQ32) * (m32 - mU32) * (mQ32 + mU32) * Misc.pow5
    Xt) + m32 * Misc.pow3 (mQ32 - mU32) * (2 * m32 * (mQ32 + mU32) * pow2 (mQ32 - mU32) + Misc.pow4 m3 * (2 * mQ32 * mU32 - 4
    * Misc.pow4 mQ3 - 4 * Misc.pow4 mU3) + mQ32 * mU32 * (Misc.pow4 mQ3 + Misc.pow4 mU3) + 2 * (mQ32 + mU32) * Misc.pow6 m3) +
    2 * (mQ32 - mU32) * Misc.pow4 Xt * (Misc.pow3 (mQ32 + mU32) * Misc.pow4 m3 + (mQ32 + mU32) * Misc.pow4 mQ3 * Misc.pow4 mU3
    - m32 * mQ32 * mU32 * (4 * mQ32 * mU32 + Misc.pow4 mQ3 + Misc.pow4 mU3) - 2 * (mQ32 * mU32 + Misc.pow4 mQ3 + Misc.pow4
    mU3) * Misc.pow6 m3 + (mQ32 + mU32) * Misc.pow8 m3)) / (pow2 mQ3 * pow2 (m32 - mQ32) * pow2 mU3 * pow2 (m32 - mU32) *
    Misc.pow3 (mQ32 - mU32)))

/-- `getDeltaLambdaAlphatAlphas`, case `MQ3_EQ_MU3`; mh2_eft/ThresholdCalculator.cpp:3755-3766 -/
def dLamAtAsQU (dilog : F → F) (m32 mQ32 mU32 m3 mQ3 mU3 Xt lmQ3MR : F) : F :=
    (-8) * (48 * (m3 - 2 * Xt) * dilog (1 - m32 / pow2 mQ3) * Misc.pow3 m3 * Misc.pow6 mQ3 + 4 * log (m32 / pow2 mQ3) *
    Misc.pow3 m3 * (2 * m32 * mQ32 * Xt * ((-6) * mQ32 + pow2 Xt) - 16 * Misc.pow3 Xt * Misc.pow4 mQ3 + Misc.pow3 m3 * ((-6) *
    mQ32 * pow2 Xt + 6 * Misc.pow4 mQ3 + Misc.pow4 Xt) + mQ32 * Misc.pow5 Xt - 12 * Xt * Misc.pow6 mQ3 + m3 * (18 * pow2 Xt *
    Misc.pow4 mQ3 - 2 * mQ32 * Misc.pow4 Xt + 3 * Misc.pow6 mQ3)) + (m32 - mQ32) * ((-8) * (-1 + lmQ3MR) * mQ32 * Xt * (6 *
    mQ32 - pow2 Xt) * Misc.pow3 m3 + 4 * (-1 + lmQ3MR) * Misc.pow4 m3 * ((-6) * mQ32 * pow2 Xt + 6 * Misc.pow4 mQ3 + Misc.pow4
    Xt) - Misc.pow4 mQ3 * (12 * (-1 + 6 * lmQ3MR) * mQ32 * pow2 Xt + 6 * (3 - 4 * lmQ3MR + 6 * pow2 lmQ3MR) * Misc.pow4 mQ3 +
    (1 - 6 * lmQ3MR) * Misc.pow4 Xt) + m3 * ((-8) * (-8 + lmQ3MR) * Misc.pow3 Xt * Misc.pow4 mQ3 - 4 * mQ32 * Misc.pow5 Xt +
    48 * (-1 + lmQ3MR) * Xt * Misc.pow6 mQ3) + m32 * (12 * (-7 + 8 * lmQ3MR) * pow2 Xt * Misc.pow4 mQ3 + (9 - 10 * lmQ3MR) *
    mQ32 * Misc.pow4 Xt + 6 * (9 - 8 * lmQ3MR + 6 * pow2 lmQ3MR) * Misc.pow6 mQ3))) / (3 * pow2 (m32 - mQ32) * Misc.pow6 mQ3)

/-- `getDeltaLambdaAlphatAlphas`, case `MQ3_EQ_M3`; mh2_eft/ThresholdCalculator.cpp:3769-3796 -/
def dLamAtAsQG (dilog : F → F) (m32 mQ32 mU32 m3 mQ3 mU3 Xt lmQ3MR : F) : F :=
    4 * (-23 + 8 * (3 * mQ32 - 3 * mU32 - 8 * mQ3 * Xt) / (mQ32 - mU32) - 24 * pow2 lmQ3MR - 16 * pow2 Xt / (mQ32 - mU32) - 16
    * pow2 Xt / pow2 mU3 - 128 * mQ3 * Misc.pow3 Xt / pow2 (mQ32 - mU32) + ((-19) * mQ32 * mU32 + 8 * Misc.pow4 mQ3 + 7 *
    Misc.pow4 mU3) / (mQ32 * mU32 - Misc.pow4 mU3) - 10 * Misc.pow4 Xt / pow2 (mQ32 - mU32) + 2 * (27 * mQ32 * mU32 + 4 *
    Misc.pow4 mQ3 - 27 * Misc.pow4 mU3) * Misc.pow4 Xt / (pow2 mU3 * Misc.pow3 (mQ32 - mU32)) - 8 * dilog (1 - mQ32 / pow2
    mU3) * (8 * Xt * Misc.pow3 mQ3 + 4 * mQ3 * Misc.pow3 Xt + 2 * Misc.pow4 mQ3 + Misc.pow4 Xt) / pow2 (mQ32 - mU32) + log
    (mU32 / pow2 mQ3) * ((-2) * pow2 (mQ32 - mU32) * pow2 Xt + Misc.pow3 (mQ32 - mU32) + (mQ32 + mU32) * Misc.pow4 Xt) /
    Misc.pow3 (mQ32 - mU32) + 8 * lmQ3MR * (1 - mQ32 / pow2 mU3 + 2 * pow2 Xt / pow2 mU3 + 8 * mQ3 * Misc.pow3 Xt / pow2 (mQ32
    - mU32) - (mQ32 + 7 * mU32) * Misc.pow4 Xt / pow2 (-(mQ32 * mU3) + Misc.pow3 mU3) - log (mU32 / pow2 mQ3) * (4 * mQ3 * Xt
    * pow2 (mQ32 - mU32) - 6 * pow2 (mQ32 - mU32) * pow2 Xt + 3 * Misc.pow3 (mQ32 - mU32) - 4 * mQ3 * mU32 * Misc.pow3 Xt - 4
    * Misc.pow3 mQ3 * Misc.pow3 Xt + 5 * mQ32 * Misc.pow4 Xt + 3 * mU32 * Misc.pow4 Xt) / Misc.pow3 (mQ32 - mU32)) + 32 * mQ3
    * Misc.pow5 Xt / Misc.pow3 (mQ32 - mU32) + log (mU32 / pow2 mQ3) * ((-6) * (9 * mQ32 - 5 * mU32) * pow2 (mQ32 - mU32) *
    pow2 Xt + 32 * mQ3 * Xt * Misc.pow3 (mQ32 - mU32) - 32 * mQ3 * (mQ32 - mU32) * (mQ32 + 3 * mU32) * Misc.pow3 Xt + pow2
    (mQ32 - mU32) * ((-26) * mQ32 * mU32 + 27 * Misc.pow4 mQ3 + 11 * Misc.pow4 mU3) + (36 * mQ32 * mU32 + 43 * Misc.pow4 mQ3 -
    63 * Misc.pow4 mU3) * Misc.pow4 Xt + 32 * mQ3 * mU32 * Misc.pow5 Xt) / Misc.pow4 (mQ32 - mU32) - 2 * log (mU32 / pow2 mQ3)
    * ((-8) * mQ3 * Xt * Misc.pow3 (mQ32 - mU32) - 6 * pow2 Xt * Misc.pow3 (mQ32 - mU32) + 16 * mQ3 * pow2 (mQ32 - mU32) *
    Misc.pow3 Xt + 3 * Misc.pow4 (mQ32 - mU32) + 3 * (Misc.pow4 mQ3 - Misc.pow4 mU3) * Misc.pow4 Xt - 8 * mQ3 * (mQ32 + mU32)
    * Misc.pow5 Xt) / Misc.pow4 (mQ32 - mU32) - 4 * pow2 (log (mU32 / pow2 mQ3)) * (4 * Xt * (-(mQ3 * mU32) + 2 * Misc.pow3
    mQ3) * Misc.pow3 (mQ32 - mU32) + 4 * mQ3 * (mQ32 + mU32) * pow2 (mQ32 - mU32) * Misc.pow3 Xt + Misc.pow3 (mQ32 - mU32) *
    ((-4) * mQ32 * mU32 + 3 * Misc.pow4 mQ3 + 2 * Misc.pow4 mU3) - 2 * pow2 (mQ32 - mU32) * pow2 Xt * ((-6) * mQ32 * mU32 +
    Misc.pow4 mQ3 + 4 * Misc.pow4 mU3) - 4 * mQ3 * mU32 * (mQ32 + mU32) * Misc.pow5 Xt + Misc.pow4 Xt * ((-10) * mU32 *
    Misc.pow4 mQ3 + mQ32 * Misc.pow4 mU3 + 2 * Misc.pow6 mQ3 + 5 * Misc.pow6 mU3)) / Misc.pow5 (mQ32 - mU32))

/-- `getDeltaLambdaAlphatAlphas`, case `MU3_EQ_M3`; mh2_eft/ThresholdCalculator.cpp:3799-3827 -/
def dLamAtAsUG (dilog : F → F) (m32 mQ32 mU32 m3 mQ3 mU3 Xt lmQ3MR : F) : F :=
    (-8) * (4 * mQ32 * dilog (1 - mU32 / pow2 mQ3) * Misc.pow3 (mQ32 - mU32) * (8 * Xt * Misc.pow3 mU3 + 4 * mU3 * Misc.pow3
    Xt + 2 * Misc.pow4 mU3 + Misc.pow4 Xt) + pow2 (mQ32 - mU32) * ((-4) * (-1 + lmQ3MR) * pow2 (mU32 - pow2 Xt) * Misc.pow4
    mU3 + Misc.pow4 mQ3 * (8 * (-1 + 3 * lmQ3MR) * mU32 * pow2 Xt + 64 * Xt * Misc.pow3 mU3 - 32 * (-2 + lmQ3MR) * mU3 *
    Misc.pow3 Xt + (25 - 24 * lmQ3MR + 36 * pow2 lmQ3MR) * Misc.pow4 mU3 + 2 * (-11 + 14 * lmQ3MR) * Misc.pow4 Xt) + mQ32 *
    mU3 * ((-8) * (-2 + 3 * lmQ3MR) * pow2 Xt * Misc.pow3 mU3 + 32 * (-2 + lmQ3MR) * mU32 * Misc.pow3 Xt - 32 * Xt * Misc.pow4
    mU3 + 2 * (11 - 12 * lmQ3MR) * mU3 * Misc.pow4 Xt + (-17 + 16 * lmQ3MR - 12 * pow2 lmQ3MR) * Misc.pow5 mU3 + 16 *
    Misc.pow5 Xt) - (32 * mU3 * Xt + mU32 * (15 - 16 * lmQ3MR + 36 * pow2 lmQ3MR) + 8 * lmQ3MR * pow2 Xt) * Misc.pow6 mQ3 + (3
    - 4 * lmQ3MR + 12 * pow2 lmQ3MR) * Misc.pow8 mQ3) + 2 * mQ32 * pow2 (log (mU32 / pow2 mQ3)) * (mU3 * Misc.pow4 mQ3 *
    ((-38) * pow2 Xt * Misc.pow3 mU3 + 12 * mU32 * Misc.pow3 Xt + 12 * Xt * Misc.pow4 mU3 - 3 * mU3 * Misc.pow4 Xt - 23 *
    Misc.pow5 mU3 + 4 * Misc.pow5 Xt) + mQ32 * Misc.pow3 mU3 * (32 * pow2 Xt * Misc.pow3 mU3 + 12 * mU32 * Misc.pow3 Xt - 4 *
    Xt * Misc.pow4 mU3 - 4 * mU3 * Misc.pow4 Xt + 13 * Misc.pow5 mU3 + 4 * Misc.pow5 Xt) + (20 * mU32 * pow2 Xt - 12 * Xt *
    Misc.pow3 mU3 - 12 * mU3 * Misc.pow3 Xt + 21 * Misc.pow4 mU3 + Misc.pow4 Xt) * Misc.pow6 mQ3 - (10 * mU32 * pow2 Xt + 12 *
    mU3 * Misc.pow3 Xt + 3 * Misc.pow4 mU3 - 8 * Misc.pow4 Xt) * Misc.pow6 mU3 - 2 * (5 * mU32 - 2 * mU3 * Xt + 2 * pow2 Xt) *
    Misc.pow8 mQ3 + 2 * Misc.power10 mQ3) + (mQ32 - mU32) * log (mU32 / pow2 mQ3) * (mQ32 * Misc.pow3 mU3 * (2 * (5 + 12 *
    lmQ3MR) * pow2 Xt * Misc.pow3 mU3 + 16 * (-4 + lmQ3MR) * mU32 * Misc.pow3 Xt - 8 * (-3 + 2 * lmQ3MR) * Xt * Misc.pow4 mU3
    + (39 - 20 * lmQ3MR) * mU3 * Misc.pow4 Xt + 3 * (-3 + 4 * lmQ3MR) * Misc.pow5 mU3 + 8 * Misc.pow5 Xt) + 2 * mU3 *
    Misc.pow4 mQ3 * (3 * (1 - 12 * lmQ3MR) * pow2 Xt * Misc.pow3 mU3 + 32 * mU32 * Misc.pow3 Xt + 12 * (-3 + 2 * lmQ3MR) * Xt
    * Misc.pow4 mU3 + (-17 + 4 * lmQ3MR) * mU3 * Misc.pow4 Xt + (5 - 24 * lmQ3MR) * Misc.pow5 mU3 + 12 * Misc.pow5 Xt) + (2 *
    (-5 + 36 * lmQ3MR) * mU32 * pow2 Xt + 24 * (3 - 2 * lmQ3MR) * Xt * Misc.pow3 mU3 - 16 * lmQ3MR * mU3 * Misc.pow3 Xt + 2 *
    (-5 + 36 * lmQ3MR) * Misc.pow4 mU3 + (-1 + 12 * lmQ3MR) * Misc.pow4 Xt) * Misc.pow6 mQ3 + 4 * pow2 (mU32 - pow2 Xt) *
    Misc.pow6 mU3 + 2 * ((3 - 24 * lmQ3MR) * mU32 + 4 * (-3 + 2 * lmQ3MR) * mU3 * Xt + (1 - 12 * lmQ3MR) * pow2 Xt) *
    Misc.pow8 mQ3 + (-1 + 12 * lmQ3MR) * Misc.power10 mQ3)) / (pow2 mQ3 * Misc.pow5 (mQ32 - mU32))

/-- `getDeltaLambdaAlphatAlphas`, case `MQ3_EQ_MU3_EQ_M3`; mh2_eft/ThresholdCalculator.cpp:3830-3832 -/
def dLamAtAsQUG (dilog : F → F) (m32 mQ32 mU32 m3 mQ3 mU3 Xt lmQ3MR : F) : F :=
    (-8) * ((-2) * lmQ3MR * mQ3 * Xt * ((-24) * mQ32 * Xt - 4 * mQ3 * pow2 Xt + 24 * Misc.pow3 mQ3 + Misc.pow3 Xt) + Xt *
    ((-28) * mQ32 * pow2 Xt + 12 * Xt * Misc.pow3 mQ3 - mQ3 * Misc.pow3 Xt + 24 * Misc.pow4 mQ3 + 2 * Misc.pow4 Xt) + 36 *
    pow2 lmQ3MR * Misc.pow5 mQ3) / (3 * Misc.pow5 mQ3)

end

end Himalaya.Thr
