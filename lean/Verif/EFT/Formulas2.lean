import Verif.EFT.Formulas

/-!
# Threshold corrections of O(at as^2): the formulas

Generated by tools/gen_eft2.py from source/himalaya/mh2_eft/ThresholdCalculator.cpp.  Each definition is one `case` of one member
function; the local variables of the function are the arguments (`m32 = MG^2`, `m3 = sqrt(m32)`, `mQ32 = mq2(2,2)`,
`msq = sqrt(msq2)`, ...), those of the case are the `let`s.
-/

set_option linter.unusedVariables false

namespace Himalaya.Thr

open FOps
open scoped Himalaya

section
variable {F : Type} [Add F] [Sub F] [Mul F] [Div F] [Neg F] [FOps F]

/-- `getDeltaYtAlphas2`, case `GENERAL`; mh2_eft/ThresholdCalculator.cpp:3199-3375 -/
def dYtAs2Gen (dilog : F → F) (m32 mQ32 mU32 msq2 m3 mQ3 mU3 msq Xt lmQ3MR : F) : F :=
    let logmqQ3 := log (msq2 / mQ32)
    let logU3Q3 := log (mU32 / mQ32)
    let logm3Q3 := log (m32 / mQ32)
    (4 * pow2 lmQ3MR - 60 * pow2 logmqQ3 - 16 * Xt * ((-3) * m3 * (mQ32 + 10 * msq2 + mU32) + 14 * Misc.pow3 m3) / ((m32 -
    mQ32) * (m32 - mU32)) + 60 * (mQ32 - msq2) * dilog (1 - msq2 / mQ32) * ((-3) * m32 * (mQ32 - msq2) + mQ32 * (mQ32 + msq2)
    + 8 * m3 * (m32 - mQ32) * (mQ32 - msq2) * Xt / (mQ32 - mU32) - 2 * Misc.pow4 m3) / Misc.pow3 (m32 - mQ32) + 60 * (msq2 -
    mU32) * dilog (1 - msq2 / mU32) * ((-3) * m32 * (msq2 - mU32) - mU32 * (msq2 + mU32) + 8 * m3 * (m32 - mU32) * (msq2 -
    mU32) * Xt / (-mQ32 + mU32) + 2 * Misc.pow4 m3) / Misc.pow3 (m32 - mU32) + 60 * (m32 - msq2) * dilog (1 - msq2 / m32) * (1
    / (-m32 + mQ32) + 1 / (-m32 + mU32) + 3 * mU32 / pow2 (m32 - mU32) - 8 * m3 * (mQ32 * (msq2 - 2 * mU32) + msq2 * mU32 +
    m32 * (mQ32 - 2 * msq2 + mU32)) * Xt / (pow2 (m32 - mQ32) * pow2 (m32 - mU32)) + mQ32 * ((-3) * m32 + 3 * mQ32 + 4 * msq2)
    / Misc.pow3 (-m32 + mQ32) - msq2 * (3 * (1 / pow2 (m32 - mQ32) + 1 / pow2 (m32 - mU32)) + 4 * mU32 / Misc.pow3 (m32 -
    mU32)) + 4 * Misc.pow4 mQ3 / Misc.pow3 (m32 - mQ32) + 4 * Misc.pow4 mU3 / Misc.pow3 (m32 - mU32)) - 20 * logmqQ3 * ((-24)
    * m3 * mQ32 * msq2 * mU32 * Xt + 24 * msq2 * (mQ32 + mU32) * Xt * Misc.pow3 m3 + 3 * mQ32 * msq2 * Misc.pow4 mU3 +
    Misc.pow4 mQ3 * (3 * msq2 * mU32 + 10 * Misc.pow4 mU3) + Misc.pow4 m3 * ((-15) * msq2 * mU32 + mQ32 * ((-15) * msq2 + 44 *
    mU32) + 11 * Misc.pow4 mQ3 + 11 * Misc.pow4 mU3) + 3 * m32 * ((3 * msq2 - 7 * mU32) * Misc.pow4 mQ3 + 3 * msq2 * Misc.pow4
    mU3 - mQ32 * (4 * msq2 * mU32 + 7 * Misc.pow4 mU3)) - 24 * msq2 * Xt * Misc.pow5 m3 + ((-23) * mQ32 + 18 * msq2 - 23 *
    mU32) * Misc.pow6 m3 + 12 * Misc.pow8 m3) / (pow2 (m32 - mQ32) * pow2 (m32 - mU32)) + (-(mQ32 * mU32 * (6 * mU32 * (10 *
    msq2 + mU32) + mQ32 * (60 * msq2 + 169 * mU32) + 6 * Misc.pow4 mQ3)) + Misc.pow4 m3 * (4 * mQ32 * (75 * msq2 - 28 * mU32)
    + 300 * msq2 * mU32 + 93 * Misc.pow4 mQ3 + 93 * Misc.pow4 mU3) - 6 * (47 * mQ32 + 60 * msq2 + 47 * mU32) * Misc.pow6 m3 -
    2 * m32 * (2 * (45 * msq2 - 52 * mU32) * Misc.pow4 mQ3 + 9 * (10 * msq2 + mU32) * Misc.pow4 mU3 - 8 * mQ32 * (15 * msq2 *
    mU32 + 13 * Misc.pow4 mU3) + 9 * Misc.pow6 mQ3) + 291 * Misc.pow8 m3) / (pow2 (m32 - mQ32) * pow2 (m32 - mU32)) - 2 *
    (mQ32 - mU32) * dilog (1 - mU32 / mQ32) * ((-8) * m3 * mQ32 * mU32 * Xt * (-(mQ32 * mU32) + 3 * Misc.pow4 mQ3 + 3 *
    Misc.pow4 mU3) - 16 * Xt * (7 * mQ32 * mU32 + 4 * Misc.pow4 mQ3 + 4 * Misc.pow4 mU3) * Misc.pow5 m3 + ((-76) * mQ32 * mU32
    + 34 * Misc.pow4 mQ3 + 34 * Misc.pow4 mU3) * Misc.pow6 m3 + 7 * Misc.pow4 mU3 * Misc.pow6 mQ3 + Misc.pow4 m3 * (65 * mU32
    * Misc.pow4 mQ3 + 65 * mQ32 * Misc.pow4 mU3 - 29 * Misc.pow6 mQ3 - 29 * Misc.pow6 mU3) + 7 * Misc.pow4 mQ3 * Misc.pow6 mU3
    + 8 * Xt * Misc.pow3 m3 * (7 * mU32 * Misc.pow4 mQ3 + 7 * mQ32 * Misc.pow4 mU3 + 3 * Misc.pow6 mQ3 + 3 * Misc.pow6 mU3) +
    80 * (mQ32 + mU32) * Xt * Misc.pow7 m3 - 14 * (mQ32 + mU32) * Misc.pow8 m3 + 3 * mU32 * Misc.pow8 mQ3 + 3 * mQ32 *
    Misc.pow8 mU3 + m32 * ((-34) * Misc.pow4 mQ3 * Misc.pow4 mU3 - 26 * mU32 * Misc.pow6 mQ3 - 26 * mQ32 * Misc.pow6 mU3 + 9 *
    Misc.pow8 mQ3 + 9 * Misc.pow8 mU3) - 40 * Xt * Misc.pow9 m3 + 12 * Misc.power10 m3) / (Misc.pow3 (m32 - mQ32) * Misc.pow3
    (m32 - mU32)) + pow2 logU3Q3 * (128 * m32 * pow2 (m32 - mU32) * pow2 Xt * Misc.pow4 mU3 / pow2 (mQ32 - mU32) + Xt * (8 *
    m3 * (mQ32 - mU32) * pow2 (m32 - mU32) * (-(mQ32 * mU32) - 5 * m32 * (mQ32 + mU32) + 5 * Misc.pow4 m3 + 3 * Misc.pow4 mQ3
    + 3 * Misc.pow4 mU3) / pow2 (m32 - mQ32) - 8 * (m32 - mU32) * ((69 * mQ32 * mU32 + Misc.pow4 mQ3 - 86 * Misc.pow4 mU3) *
    Misc.pow5 m3 + m3 * mU32 * (10 * mU32 * Misc.pow4 mQ3 + 30 * mU32 * Misc.pow4 msq - 60 * msq2 * Misc.pow4 mU3 + mQ32 * (60
    * msq2 * mU32 - 30 * Misc.pow4 msq + 4 * Misc.pow4 mU3) - 3 * Misc.pow6 mQ3 - 27 * Misc.pow6 mU3) + Misc.pow3 m3 * ((-11)
    * mU32 * Misc.pow4 mQ3 - 30 * mU32 * Misc.pow4 msq + mQ32 * ((-60) * msq2 * mU32 + 30 * Misc.pow4 msq - 59 * Misc.pow4
    mU3) + 60 * msq2 * Misc.pow4 mU3 + 3 * Misc.pow6 mQ3 + 99 * Misc.pow6 mU3) - 18 * (mQ32 - mU32) * Misc.pow7 m3) / pow2
    (mQ32 - mU32)) + ((mQ32 - mU32) * Misc.pow4 mU3 * (4 * mQ32 * mU32 + 3 * Misc.pow4 mQ3 + 30 * Misc.pow4 msq + 21 *
    Misc.pow4 mU3) + 2 * (mQ32 * (30 * msq2 - 34 * mU32) - 30 * msq2 * mU32 + Misc.pow4 mQ3 - 351 * Misc.pow4 mU3) * Misc.pow6
    m3 - 2 * m32 * mU32 * (18 * mU32 * Misc.pow4 mQ3 + 6 * mU32 * ((-15) * msq2 * mU32 + 5 * Misc.pow4 msq + 4 * Misc.pow4
    mU3) + mQ32 * (90 * msq2 * mU32 - 30 * Misc.pow4 msq + 25 * Misc.pow4 mU3) - 3 * Misc.pow6 mQ3) + Misc.pow4 m3 * (33 *
    mU32 * Misc.pow4 mQ3 + 90 * mU32 * Misc.pow4 msq - 120 * msq2 * Misc.pow4 mU3 + mQ32 * (120 * msq2 * mU32 - 90 * Misc.pow4
    msq + 141 * Misc.pow4 mU3) - 9 * Misc.pow6 mQ3 + 347 * Misc.pow6 mU3) + ((-44) * mQ32 + 556 * mU32) * Misc.pow8 m3 - 128 *
    Misc.power10 m3) / (mQ32 - mU32) + (m32 - mU32) * (-mQ32 + mU32) * (((-76) * mQ32 * mU32 + 34 * Misc.pow4 mQ3 + 34 *
    Misc.pow4 mU3) * Misc.pow6 m3 + 7 * Misc.pow4 mU3 * Misc.pow6 mQ3 + Misc.pow4 m3 * (65 * mU32 * Misc.pow4 mQ3 + 65 * mQ32
    * Misc.pow4 mU3 - 29 * Misc.pow6 mQ3 - 29 * Misc.pow6 mU3) + 7 * Misc.pow4 mQ3 * Misc.pow6 mU3 - 14 * (mQ32 + mU32) *
    Misc.pow8 m3 + 3 * mU32 * Misc.pow8 mQ3 + 3 * mQ32 * Misc.pow8 mU3 + m32 * ((-34) * Misc.pow4 mQ3 * Misc.pow4 mU3 - 26 *
    mU32 * Misc.pow6 mQ3 - 26 * mQ32 * Misc.pow6 mU3 + 9 * Misc.pow8 mQ3 + 9 * Misc.pow8 mU3) + 12 * Misc.power10 m3) /
    Misc.pow3 (m32 - mQ32)) / Misc.pow4 (m32 - mU32) + 2 * logU3Q3 * (10 * logmqQ3 * ((-2) * (3 * msq2 + mU32) * Misc.pow4 m3
    + 3 * mU32 * Misc.pow4 msq + 4 * m3 * (m32 - mU32) * Xt * (m32 * mU32 + 12 * msq2 * mU32 - 6 * Misc.pow4 msq - Misc.pow4
    mU3) / (-mQ32 + mU32) + 3 * m32 * ((-6) * msq2 * mU32 + 3 * Misc.pow4 msq + Misc.pow4 mU3) - Misc.pow6 mU3) + 8 * (m32 -
    mU32) * Xt * (-(mU32 * (53 * mQ32 + 30 * msq2 + 61 * mU32) * Misc.pow3 m3) + m3 * mU32 * (mQ32 * (30 * msq2 + 53 * mU32) +
    3 * Misc.pow4 mQ3 + 3 * Misc.pow4 mU3) + ((-16) * mQ32 + 55 * mU32) * Misc.pow5 m3 + 16 * Misc.pow7 m3) / ((m32 - mQ32) *
    (mQ32 - mU32)) + (-(mQ32 * (mQ32 - mU32) * (2 * mQ32 * (15 * msq2 - 64 * mU32) + 3 * Misc.pow4 mQ3 - 3 * Misc.pow4 mU3) *
    Misc.pow4 mU3) + mU32 * Misc.pow4 m3 * (6 * (30 * msq2 + 157 * mU32) * Misc.pow4 mQ3 - 5 * mQ32 * (42 * msq2 * mU32 - 5 *
    Misc.pow4 mU3) + 30 * msq2 * Misc.pow4 mU3 + 163 * Misc.pow6 mQ3 - 106 * Misc.pow6 mU3) + Misc.pow6 m3 * ((-622) * mU32 *
    Misc.pow4 mQ3 - 5 * mQ32 * (18 * msq2 * mU32 + 197 * Misc.pow4 mU3) + 53 * Misc.pow6 mQ3 + 18 * (5 * msq2 * Misc.pow4 mU3
    + Misc.pow6 mU3)) + (764 * mQ32 * mU32 - 105 * Misc.pow4 mQ3 + 365 * Misc.pow4 mU3) * Misc.pow8 m3 - m32 * mU32 * ((-6) *
    Misc.pow4 mQ3 * (25 * msq2 * mU32 - 41 * Misc.pow4 mU3) + (90 * msq2 + 271 * mU32) * Misc.pow6 mQ3 + 3 * mQ32 * (20 * msq2
    * Misc.pow4 mU3 - 93 * Misc.pow6 mU3) + 9 * Misc.pow8 mQ3 + 9 * Misc.pow8 mU3) + 4 * (13 * mQ32 - 77 * mU32) *
    Misc.power10 m3) / ((mQ32 - mU32) * pow2 (m32 - mQ32))) / Misc.pow3 (m32 - mU32) - 4 * lmQ3MR * (20 * logmqQ3 + 8 * Xt *
    Misc.pow3 m3 / ((m32 - mQ32) * (m32 - mU32)) - logU3Q3 * (8 * mU32 * (mQ32 + 15 * mU32) * Misc.pow4 m3 - 200 * Xt *
    Misc.pow3 m3 * Misc.pow4 mU3 + (34 * mQ32 - 98 * mU32) * Misc.pow6 m3 + 23 * (mQ32 - mU32) * Misc.pow6 mU3 + 136 * m3 * Xt
    * Misc.pow6 mU3 + m32 * ((-69) * mQ32 * Misc.pow4 mU3 + 5 * Misc.pow6 mU3) + 64 * Xt * Misc.pow7 m3) / ((-mQ32 + mU32) *
    Misc.pow3 (m32 - mU32)) + ((-463) * m32 * mQ32 * mU32 * (mQ32 + mU32) + 202 * Misc.pow4 mQ3 * Misc.pow4 mU3 + Misc.pow4 m3
    * (1044 * mQ32 * mU32 + 257 * Misc.pow4 mQ3 + 257 * Misc.pow4 mU3) - 573 * (mQ32 + mU32) * Misc.pow6 m3 + 312 * Misc.pow8
    m3) / (pow2 (m32 - mQ32) * pow2 (m32 - mU32)) - logm3Q3 * ((-192) * Xt * Misc.pow11 m3 + 154 * Misc.pow12 m3 + 72 * m32 *
    (mQ32 + mU32) * Misc.pow4 mQ3 * Misc.pow4 mU3 - 208 * Xt * Misc.pow3 m3 * Misc.pow4 mQ3 * Misc.pow4 mU3 + 408 * mQ32 *
    mU32 * (mQ32 + mU32) * Xt * Misc.pow5 m3 - 24 * Misc.pow6 mQ3 * Misc.pow6 mU3 - Misc.pow6 m3 * (95 * mU32 * Misc.pow4 mQ3
    + 95 * mQ32 * Misc.pow4 mU3 + 33 * Misc.pow6 mQ3 + 33 * Misc.pow6 mU3) - Misc.pow4 m3 * (152 * Misc.pow4 mQ3 * Misc.pow4
    mU3 + 11 * mU32 * Misc.pow6 mQ3 + 11 * mQ32 * Misc.pow6 mU3) - 200 * Xt * (4 * mQ32 * mU32 + Misc.pow4 mQ3 + Misc.pow4
    mU3) * Misc.pow7 m3 + (406 * mQ32 * mU32 + 163 * Misc.pow4 mQ3 + 163 * Misc.pow4 mU3) * Misc.pow8 m3 + 392 * (mQ32 + mU32)
    * Xt * Misc.pow9 m3 - 288 * (mQ32 + mU32) * Misc.power10 m3) / (Misc.pow3 (m32 - mQ32) * Misc.pow3 (m32 - mU32))) + 2 *
    pow2 logm3Q3 * ((-15) * (m32 - msq2) * (1 / (m32 - mQ32) + 1 / (m32 - mU32) - 3 * mU32 / pow2 (m32 - mU32) + mQ32 * ((-3)
    * m32 + 3 * mQ32 + 4 * msq2) / Misc.pow3 (m32 - mQ32) + msq2 * (3 * (1 / pow2 (m32 - mQ32) + 1 / pow2 (m32 - mU32)) + 4 *
    mU32 / Misc.pow3 (m32 - mU32)) + 4 * Misc.pow4 mQ3 / Misc.pow3 (-m32 + mQ32) + 4 * Misc.pow4 mU3 / Misc.pow3 (-m32 +
    mU32)) + 64 * pow2 Xt * Misc.pow6 m3 / (pow2 (m32 - mQ32) * pow2 (m32 - mU32)) + 8 * m3 * Xt * ((-15) * (m32 - mQ32) *
    (m32 - msq2) * (m32 - mU32) * (mQ32 * (msq2 - 2 * mU32) + msq2 * mU32 + m32 * (mQ32 - 2 * msq2 + mU32)) - m32 * ((-142) *
    m32 * mQ32 * mU32 * (mQ32 + mU32) + 87 * Misc.pow4 mQ3 * Misc.pow4 mU3 + Misc.pow4 m3 * (220 * mQ32 * mU32 + 57 *
    Misc.pow4 mQ3 + 57 * Misc.pow4 mU3) - 82 * (mQ32 + mU32) * Misc.pow6 m3 + 27 * Misc.pow8 m3)) / (Misc.pow3 (m32 - mQ32) *
    Misc.pow3 (m32 - mU32)) + ((-878) * (mQ32 + mU32) * Misc.pow14 m3 + 262 * Misc.pow16 m3 - Misc.pow4 m3 * Misc.pow4 mQ3 *
    Misc.pow4 mU3 * (452 * mQ32 * mU32 + Misc.pow4 mQ3 + Misc.pow4 mU3) + Misc.pow12 m3 * (2972 * mQ32 * mU32 + 885 *
    Misc.pow4 mQ3 + 885 * Misc.pow4 mU3) + 144 * m32 * (mQ32 + mU32) * Misc.pow6 mQ3 * Misc.pow6 mU3 - 36 * Misc.pow8 mQ3 *
    Misc.pow8 mU3 + Misc.pow8 m3 * (2404 * Misc.pow4 mQ3 * Misc.pow4 mU3 + 1004 * mU32 * Misc.pow6 mQ3 + 1004 * mQ32 *
    Misc.pow6 mU3 + 49 * Misc.pow8 mQ3 + 49 * Misc.pow8 mU3) - 2 * Misc.pow6 m3 * (184 * Misc.pow4 mU3 * Misc.pow6 mQ3 + 184 *
    Misc.pow4 mQ3 * Misc.pow6 mU3 + 79 * mU32 * Misc.pow8 mQ3 + 79 * mQ32 * Misc.pow8 mU3) - 4 * (733 * mU32 * Misc.pow4 mQ3 +
    733 * mQ32 * Misc.pow4 mU3 + 80 * Misc.pow6 mQ3 + 80 * Misc.pow6 mU3) * Misc.power10 m3) / (Misc.pow4 (m32 - mQ32) *
    Misc.pow4 (m32 - mU32))) + 2 * dilog (1 - m32 / mQ32) * ((-8) * m3 * (m32 - mU32) * Xt * (m32 * (mQ32 - 37 * mU32) - 7 *
    mQ32 * mU32 + 18 * Misc.pow4 m3 + 3 * Misc.pow4 mQ3 + 22 * Misc.pow4 mU3) + (128 * Misc.pow12 m3 - mU32 * Misc.pow4 mQ3 *
    (mU32 * Misc.pow4 mQ3 + 19 * mQ32 * Misc.pow4 mU3 + 3 * Misc.pow6 mQ3 - 23 * Misc.pow6 mU3) + Misc.pow6 m3 * ((-251) *
    mU32 * Misc.pow4 mQ3 - 1025 * mQ32 * Misc.pow4 mU3 + 9 * Misc.pow6 mQ3 - 13 * Misc.pow6 mU3) + (902 * mQ32 * mU32 + 98 *
    Misc.pow4 mQ3 + 280 * Misc.pow4 mU3) * Misc.pow8 m3 + Misc.pow4 m3 * (417 * Misc.pow4 mQ3 * Misc.pow4 mU3 - 151 * mU32 *
    Misc.pow6 mQ3 + 391 * mQ32 * Misc.pow6 mU3 + 20 * Misc.pow8 mQ3 - 37 * Misc.pow8 mU3) - 2 * (147 * mQ32 + 173 * mU32) *
    Misc.power10 m3 + m32 * (41 * Misc.pow4 mU3 * Misc.pow6 mQ3 - 167 * Misc.pow4 mQ3 * Misc.pow6 mU3 + 41 * mU32 * Misc.pow8
    mQ3 - 34 * mQ32 * Misc.pow8 mU3 - 9 * Misc.power10 mQ3)) / pow2 (m32 - mQ32)) / ((mQ32 - mU32) * Misc.pow3 (m32 - mU32)) +
    2 * dilog (1 - m32 / mU32) * (8 * m3 * (m32 - mQ32) * Xt * ((-7) * mQ32 * mU32 + m32 * ((-37) * mQ32 + mU32) + 18 *
    Misc.pow4 m3 + 22 * Misc.pow4 mQ3 + 3 * Misc.pow4 mU3) + ((-128) * Misc.pow12 m3 + Misc.pow6 m3 * (1025 * mU32 * Misc.pow4
    mQ3 + 251 * mQ32 * Misc.pow4 mU3 + 13 * Misc.pow6 mQ3 - 9 * Misc.pow6 mU3) + 19 * Misc.pow6 mQ3 * Misc.pow6 mU3 - 2 * (451
    * mQ32 * mU32 + 140 * Misc.pow4 mQ3 + 49 * Misc.pow4 mU3) * Misc.pow8 m3 - 23 * Misc.pow4 mU3 * Misc.pow8 mQ3 + Misc.pow4
    m3 * ((-417) * Misc.pow4 mQ3 * Misc.pow4 mU3 - 391 * mU32 * Misc.pow6 mQ3 + 151 * mQ32 * Misc.pow6 mU3 + 37 * Misc.pow8
    mQ3 - 20 * Misc.pow8 mU3) + Misc.pow4 mQ3 * Misc.pow8 mU3 + m32 * mU32 * ((-41) * Misc.pow4 mQ3 * Misc.pow4 mU3 + 167 *
    mU32 * Misc.pow6 mQ3 - 41 * mQ32 * Misc.pow6 mU3 + 34 * Misc.pow8 mQ3 + 9 * Misc.pow8 mU3) + (346 * mQ32 + 294 * mU32) *
    Misc.power10 m3 + 3 * mQ32 * Misc.power10 mU3) / pow2 (m32 - mU32)) / ((mQ32 - mU32) * Misc.pow3 (m32 - mQ32)) + 2 *
    logm3Q3 * (8 * (m32 - mQ32) * Xt * pow2 (m32 - mU32) * Misc.pow3 m3 * (3 * mU32 * (10 * msq2 + mU32) - 15 * m32 * (5 *
    mQ32 + 4 * msq2 + 5 * mU32) + mQ32 * (30 * msq2 + 59 * mU32) + 85 * Misc.pow4 m3 + 3 * Misc.pow4 mQ3) - (m32 - mU32) *
    (864 * Misc.pow12 m3 + 48 * Misc.pow6 mQ3 * Misc.pow6 mU3 + 3 * m32 * mQ32 * mU32 * (5 * (2 * msq2 - 23 * mU32) *
    Misc.pow4 mQ3 - 115 * mQ32 * Misc.pow4 mU3 + 10 * msq2 * Misc.pow4 mU3 + Misc.pow6 mQ3 + Misc.pow6 mU3) - 9 * Misc.pow6 m3
    * ((30 * msq2 + 317 * mU32) * Misc.pow4 mQ3 + 30 * msq2 * Misc.pow4 mU3 + mQ32 * ((-20) * msq2 * mU32 + 317 * Misc.pow4
    mU3) + 39 * Misc.pow6 mQ3 + 39 * Misc.pow6 mU3) + 4 * (60 * msq2 * mU32 + 2 * mQ32 * (30 * msq2 + 511 * mU32) + 365 *
    Misc.pow4 mQ3 + 365 * Misc.pow4 mU3) * Misc.pow8 m3 + Misc.pow4 m3 * (Misc.pow4 mQ3 * ((-90) * msq2 * mU32 + 1894 *
    Misc.pow4 mU3) + (90 * msq2 + 572 * mU32) * Misc.pow6 mQ3 + 9 * (10 * msq2 + mU32) * Misc.pow6 mU3 + mQ32 * ((-90) * msq2
    * Misc.pow4 mU3 + 572 * Misc.pow6 mU3) + 9 * Misc.pow8 mQ3) - 2 * (971 * mQ32 + 90 * msq2 + 971 * mU32) * Misc.power10 m3)
    + 10 * (m32 - mU32) * logmqQ3 * ((-4) * Misc.pow12 m3 + 42 * mU32 * Misc.pow4 mQ3 * Misc.pow6 m3 + 42 * mQ32 * Misc.pow4
    mU3 * Misc.pow6 m3 - 4 * m3 * (m32 - mQ32) * (m32 - mU32) * Xt * (-((mQ32 - 12 * msq2 + mU32) * Misc.pow4 m3) + m32 *
    (mQ32 * mU32 - 12 * Misc.pow4 msq) + 6 * mU32 * Misc.pow4 msq + 6 * mQ32 * ((-2) * msq2 * mU32 + Misc.pow4 msq) +
    Misc.pow6 m3) - 14 * mU32 * Misc.pow4 m3 * Misc.pow6 mQ3 + 2 * Misc.pow6 m3 * Misc.pow6 mQ3 - 14 * mQ32 * Misc.pow4 m3 *
    Misc.pow6 mU3 + 2 * Misc.pow6 m3 * Misc.pow6 mU3 - 84 * mQ32 * mU32 * Misc.pow8 m3 - 6 * Misc.pow4 mQ3 * Misc.pow8 m3 - 6
    * Misc.pow4 mU3 * Misc.pow8 m3 + 20 * mQ32 * Misc.power10 m3 + 20 * mU32 * Misc.power10 m3 + 3 * (m32 - msq2) * (-(mQ32 *
    msq2 * mU32 * (Misc.pow4 mQ3 + Misc.pow4 mU3)) + ((-8) * msq2 * mU32 + mQ32 * ((-8) * msq2 + 30 * mU32) + 3 * Misc.pow4
    mQ3 + 3 * Misc.pow4 mU3) * Misc.pow6 m3 - Misc.pow4 m3 * (((-9) * msq2 + 15 * mU32) * Misc.pow4 mQ3 - 9 * msq2 * Misc.pow4
    mU3 + 3 * mQ32 * (2 * msq2 * mU32 + 5 * Misc.pow4 mU3) + Misc.pow6 mQ3 + Misc.pow6 mU3) + m32 * (3 * msq2 * mU32 *
    Misc.pow4 mQ3 + ((-3) * msq2 + 5 * mU32) * Misc.pow6 mQ3 - 3 * msq2 * Misc.pow6 mU3 + mQ32 * (3 * msq2 * Misc.pow4 mU3 + 5
    * Misc.pow6 mU3)) + ((-8) * mQ32 + 6 * msq2 - 8 * mU32) * Misc.pow8 m3 + 2 * Misc.power10 m3)) + 2 * logU3Q3 * (604 * mQ32
    * mU32 * Misc.pow12 m3 - 204 * mQ32 * Misc.pow14 m3 - 180 * mU32 * Misc.pow14 m3 + 64 * Misc.pow16 m3 + 64 * mU32 * pow2
    (m32 - mQ32) * pow2 (m32 - mU32) * pow2 Xt * Misc.pow4 m3 + 234 * Misc.pow12 m3 * Misc.pow4 mQ3 + 122 * Misc.pow12 m3 *
    Misc.pow4 mU3 - 239 * Misc.pow4 mU3 * Misc.pow6 m3 * Misc.pow6 mQ3 - 13 * Misc.pow4 mQ3 * Misc.pow6 m3 * Misc.pow6 mU3 -
    53 * Misc.pow4 m3 * Misc.pow6 mQ3 * Misc.pow6 mU3 + 503 * Misc.pow4 mQ3 * Misc.pow4 mU3 * Misc.pow8 m3 + 401 * mU32 *
    Misc.pow6 mQ3 * Misc.pow8 m3 + 13 * mQ32 * Misc.pow6 mU3 * Misc.pow8 m3 + 43 * Misc.pow4 m3 * Misc.pow4 mU3 * Misc.pow8
    mQ3 - 76 * mU32 * Misc.pow6 m3 * Misc.pow8 mQ3 + 24 * m32 * Misc.pow6 mU3 * Misc.pow8 mQ3 + 13 * Misc.pow8 m3 * Misc.pow8
    mQ3 + 61 * Misc.pow4 m3 * Misc.pow4 mQ3 * Misc.pow8 mU3 - 49 * mQ32 * Misc.pow6 m3 * Misc.pow8 mU3 - 6 * m32 * Misc.pow6
    mQ3 * Misc.pow8 mU3 + 30 * Misc.pow8 m3 * Misc.pow8 mU3 - 6 * Misc.pow8 mQ3 * Misc.pow8 mU3 - 2 * (m32 - mQ32) * (m32 -
    mU32) * Xt * (68 * Misc.pow11 m3 + 12 * m3 * Misc.pow4 mQ3 * Misc.pow6 mU3 + Misc.pow5 m3 * ((-184) * mU32 * Misc.pow4 mQ3
    - 215 * mQ32 * Misc.pow4 mU3 + 3 * Misc.pow6 mU3) + Misc.pow3 m3 * (105 * Misc.pow4 mQ3 * Misc.pow4 mU3 - 17 * mQ32 *
    Misc.pow6 mU3) + (353 * mQ32 * mU32 + 75 * Misc.pow4 mQ3 + 120 * Misc.pow4 mU3) * Misc.pow7 m3 - (137 * mQ32 + 183 * mU32)
    * Misc.pow9 m3) - 779 * mU32 * Misc.pow4 mQ3 * Misc.power10 m3 - 369 * mQ32 * Misc.pow4 mU3 * Misc.power10 m3 - 101 *
    Misc.pow6 mQ3 * Misc.power10 m3 - 31 * Misc.pow6 mU3 * Misc.power10 m3 + 13 * mQ32 * Misc.pow4 m3 * Misc.power10 mU3 - 18
    * m32 * Misc.pow4 mQ3 * Misc.power10 mU3 - 7 * Misc.pow6 m3 * Misc.power10 mU3 + 6 * Misc.pow6 mQ3 * Misc.power10 mU3) /
    (mQ32 - mU32)) / (Misc.pow3 (m32 - mQ32) * Misc.pow4 (m32 - mU32))) / 18

/-- `getDeltaYtAlphas2`, case `MQ3_EQ_MU3`; mh2_eft/ThresholdCalculator.cpp:3378-3422 -/
def dYtAs2QU (dilog : F → F) (m32 mQ32 mU32 msq2 m3 mQ3 mU3 msq Xt lmQ3MR : F) : F :=
    let logmqQ3 := log (msq2 / mQ32)
    let logm3Q3 := log (m32 / mQ32)
    (4 * pow2 lmQ3MR + 128 * m3 * Xt * (m32 - mQ32 + m3 * Xt) / pow2 (m32 - mQ32) - 60 * pow2 logmqQ3 + 480 * m3 * msq2 *
    (-mQ32 + msq2) * Xt * logmqQ3 / pow2 (-(m32 * mQ3) + Misc.pow3 mQ3) + 32 * (8 * m3 - 9 * Xt) * logm3Q3 * Misc.pow3 m3 /
    ((m32 - mQ32) * mQ32) - 32 * Xt * ((-3) * m3 * (mQ32 + 5 * msq2) + 7 * Misc.pow3 m3) / pow2 (m32 - mQ32) + 60 * (mQ32 -
    msq2) * dilog (1 - msq2 / mQ32) * ((-3) * m32 * (mQ32 - msq2) + mQ32 * (mQ32 + msq2) + 2 * m3 * (m32 - mQ32) * (mQ32 -
    msq2) * Xt / mQ32 - 2 * Misc.pow4 m3) / Misc.pow3 (m32 - mQ32) - 120 * (m32 - msq2) * dilog (1 - msq2 / m32) * (mQ32 *
    msq2 + m32 * ((-5) * mQ32 + 3 * msq2) + 8 * m3 * (mQ32 - msq2) * Xt + Misc.pow4 m3) / Misc.pow3 (m32 - mQ32) + (18 * m32 *
    (mQ32 - 20 * msq2) - 120 * mQ32 * msq2 + 291 * Misc.pow4 m3 - 181 * Misc.pow4 mQ3) / pow2 (m32 - mQ32) - 40 * logmqQ3 * (3
    * mQ32 * msq2 + m32 * ((-11) * mQ32 + 9 * msq2) - 12 * m3 * msq2 * Xt + 6 * Misc.pow4 m3 + 5 * Misc.pow4 mQ3) / pow2 (m32
    - mQ32) + 60 * (mQ32 - msq2) * dilog (1 - msq2 / mQ32) * (2 * m3 * mQ32 * (mQ32 - 9 * msq2) * Xt + 2 * (7 * mQ32 + msq2) *
    Xt * Misc.pow3 m3 - 2 * mQ32 * Misc.pow4 m3 + (mQ32 + msq2) * Misc.pow4 mQ3 - 3 * m32 * (-(mQ32 * msq2) + Misc.pow4 mQ3))
    / (mQ32 * Misc.pow3 (m32 - mQ32)) - 16 * m3 * (55 * m32 * mQ32 * Xt - 30 * mQ32 * msq2 * Xt - 32 * mQ32 * Misc.pow3 m3 +
    16 * Xt * Misc.pow4 m3 + 32 * m3 * Misc.pow4 mQ3 - 59 * Xt * Misc.pow4 mQ3 - 5 * Xt * logmqQ3 * (m32 * mQ32 + 12 * mQ32 *
    msq2 - Misc.pow4 mQ3 - 6 * Misc.pow4 msq)) / pow2 (-(m32 * mQ3) + Misc.pow3 mQ3) + 4 * dilog (1 - m32 / mQ32) * ((-40) *
    mQ32 * Xt * Misc.pow3 m3 + 13 * mQ32 * Misc.pow4 m3 - 36 * m32 * Misc.pow4 mQ3 + 22 * m3 * Xt * Misc.pow4 mQ3 + 18 * Xt *
    Misc.pow5 m3 - 16 * Misc.pow6 m3 + 15 * Misc.pow6 mQ3) / pow2 (-(m32 * mQ3) + Misc.pow3 mQ3) + 4 * dilog (1 - m32 / mQ32)
    * (32 * mQ32 * Xt * Misc.pow3 m3 - 51 * mQ32 * Misc.pow4 m3 - 4 * m32 * Misc.pow4 mQ3 - 14 * m3 * Xt * Misc.pow4 mQ3 - 18
    * Xt * Misc.pow5 m3 + 16 * Misc.pow6 m3 + 15 * Misc.pow6 mQ3) / pow2 (-(m32 * mQ3) + Misc.pow3 mQ3) - 8 * lmQ3MR * ((m32 -
    mQ32) * ((-10) * logmqQ3 * pow2 (-(m32 * mQ3) + Misc.pow3 mQ3) + 28 * mQ32 * Xt * Misc.pow3 m3 - 188 * mQ32 * Misc.pow4 m3
    + 293 * m32 * Misc.pow4 mQ3 - 68 * m3 * Xt * Misc.pow4 mQ3 + 32 * Xt * Misc.pow5 m3 - 101 * Misc.pow6 mQ3) + mQ32 *
    logm3Q3 * (104 * mQ32 * Xt * Misc.pow3 m3 - 57 * mQ32 * Misc.pow4 m3 - 36 * m32 * Misc.pow4 mQ3 - 96 * Xt * Misc.pow5 m3 +
    77 * Misc.pow6 m3 + 12 * Misc.pow6 mQ3)) / (mQ32 * Misc.pow3 (-m32 + mQ32)) + 8 * logm3Q3 * (6 * mQ32 * (3 * mQ32 + 20 *
    msq2) * Xt * Misc.pow3 m3 + mQ32 * ((-291) * mQ32 - 45 * msq2 + 32 * pow2 Xt) * Misc.pow4 m3 + 14 * mQ32 * Xt * Misc.pow5
    m3 + 152 * mQ32 * Misc.pow6 m3 - 5 * mQ32 * logmqQ3 * (24 * m3 * msq2 * (-mQ32 + msq2) * Xt + 2 * (mQ32 - 12 * msq2) * Xt
    * Misc.pow3 m3 - (mQ32 - 6 * msq2) * Misc.pow4 m3 + 9 * m32 * (2 * mQ32 * msq2 - Misc.pow4 msq) - 3 * mQ32 * Misc.pow4 msq
    - 2 * Xt * Misc.pow5 m3 + Misc.pow6 m3) - 12 * m3 * Xt * Misc.pow6 mQ3 + 15 * m32 * (-(msq2 * Misc.pow4 mQ3) + 9 *
    Misc.pow6 mQ3) - 68 * Xt * Misc.pow7 m3 + 32 * Misc.pow8 m3 - 12 * Misc.pow8 mQ3) / (mQ32 * Misc.pow3 (-m32 + mQ32)) + 4 *
    pow2 logm3Q3 * ((-120) * m3 * mQ32 * (mQ32 - msq2) * msq2 * Xt - 12 * Xt * Misc.pow3 m3 * (19 * Misc.pow4 mQ3 + 10 *
    Misc.pow4 msq) + Misc.pow4 m3 * ((-60) * mQ32 * msq2 + 94 * Misc.pow4 mQ3 + 45 * Misc.pow4 msq) + 40 * (8 * mQ32 + 3 *
    msq2) * Xt * Misc.pow5 m3 + ((-264) * mQ32 - 30 * msq2 + 32 * pow2 Xt) * Misc.pow6 m3 + 6 * m32 * (15 * msq2 * Misc.pow4
    mQ3 - 5 * mQ32 * Misc.pow4 msq + 12 * Misc.pow6 mQ3) - 108 * Xt * Misc.pow7 m3 + 116 * Misc.pow8 m3 - 3 * (5 * Misc.pow4
    mQ3 * Misc.pow4 msq + 6 * Misc.pow8 mQ3)) / Misc.pow4 (m32 - mQ32)) / 18

/-- `getDeltaYtAlphas2`, case `MQ3_EQ_M3`; mh2_eft/ThresholdCalculator.cpp:3425-3500 -/
def dYtAs2QG (dilog : F → F) (m32 mQ32 mU32 msq2 m3 mQ3 mU3 msq Xt lmQ3MR : F) : F :=
    let logmqQ3 := log (msq2 / mQ32)
    let logU3Q3 := log (mU32 / mQ32)
    let logQ3U3 := -logU3Q3
    (8064 + 384 * (mQ32 + mU32 + 2 * mQ3 * Xt) * logQ3U3 / (mQ32 - mU32) + 192 * pow2 lmQ3MR - 2880 * pow2 logmqQ3 - 288 *
    (mQ3 - 2 * Xt) * ((-2) * mQ32 + 2 * mU32 + (mQ32 + mU32) * logQ3U3) / (-(mQ3 * mU32) + Misc.pow3 mQ3) - 2880 * msq2 *
    ((-2) * mQ32 + 2 * msq2 + ((-3) * mQ32 + msq2) * logmqQ3) * (-(mQ3 * mU32) - 2 * mQ32 * Xt + 2 * msq2 * Xt + Misc.pow3
    mQ3) / ((mQ32 - msq2) * (mQ32 - mU32) * Misc.pow3 mQ3) - 2880 * (msq2 - mU32) * dilog (1 - msq2 / mU32) * (3 * mQ32 *
    (msq2 - mU32) + mU32 * (msq2 + mU32) + 8 * mQ3 * (msq2 - mU32) * Xt - 2 * Misc.pow4 mQ3) / Misc.pow3 (mQ32 - mU32) + 180 *
    (mQ32 - msq2) * ((-3) * mQ32 - msq2 - 8 * mQ3 * (mQ32 - msq2) * Xt / (mQ32 - mU32)) * dilog (1 - msq2 / mQ32) / Misc.pow4
    mQ3 - 192 * Xt * (mQ32 * (90 * msq2 - 58 * mU32) + 3 * mU32 * (10 * msq2 + mU32) + 23 * Misc.pow4 mQ3) / (mQ3 * pow2 (mQ32
    - mU32)) + 32 * (mQ32 * ((-10) * mQ32 + 30 * msq2 + 3 * mU32 + 3 * mQ32 * logU3Q3) + 30 * logmqQ3 * (2 * mQ32 * msq2 -
    Misc.pow4 msq)) / Misc.pow4 mQ3 + 96 * (2 * mQ32 * mU32 - 3 * Misc.pow4 mQ3 + logQ3U3 * (3 * mQ32 * mU32 + Misc.pow4 mQ3)
    + Misc.pow4 mU3) / (-(mQ32 * mU32) + Misc.pow4 mQ3) - 12 * (240 * msq2 * mU32 + 10 * mQ32 * (72 * msq2 + 61 * mU32) - 837
    * Misc.pow4 mQ3 + 19 * Misc.pow4 mU3) / pow2 (mQ32 - mU32) - 240 * logmqQ3 * (72 * mQ32 * msq2 * Xt + 24 * msq2 * mU32 *
    Xt + 18 * (2 * msq2 - 5 * mU32) * Misc.pow3 mQ3 + mQ3 * (12 * msq2 * mU32 + 43 * Misc.pow4 mU3) + 47 * Misc.pow5 mQ3) /
    (mQ3 * pow2 (mQ32 - mU32)) + 24 * (-(logU3Q3 * Misc.pow3 mQ3 * ((-34) * mQ32 * mU32 + 8 * mQ3 * mU32 * Xt - 24 * Xt *
    Misc.pow3 mQ3 + 13 * Misc.pow4 mQ3 + 17 * Misc.pow4 mU3)) + mQ3 * (mQ32 - mU32) * (-(mQ32 * (120 * msq2 + 137 * mU32)) +
    24 * mQ3 * (10 * msq2 + mU32) * Xt - 104 * Xt * Misc.pow3 mQ3 + 129 * Misc.pow4 mQ3 + 12 * (10 * msq2 * mU32 + Misc.pow4
    mU3)) - 10 * (mQ32 - mU32) * logmqQ3 * ((-12) * mQ3 * msq2 * mU32 - 48 * mQ32 * msq2 * Xt + (12 * msq2 - mU32) * Misc.pow3
    mQ3 + 24 * Xt * Misc.pow4 msq + Misc.pow5 mQ3)) / (pow2 (mQ32 - mU32) * Misc.pow3 mQ3) - 960 * msq2 * ((-10) * mQ32 * msq2
    + 7 * Misc.pow4 mQ3 + 3 * Misc.pow4 msq + logmqQ3 * ((-3) * mQ32 * msq2 + 6 * Misc.pow4 mQ3 + Misc.pow4 msq)) / (-(msq2 *
    Misc.pow4 mQ3) + Misc.pow6 mQ3) + 48 * (10 * (3 * mQ32 - 3 * mU32 - 8 * mQ3 * Xt) * logmqQ3 * pow2 (-(mQ3 * mU32) +
    Misc.pow3 mQ3) - pow2 (mQ32 - mU32) * (6 * mU32 * (10 * msq2 + mU32) - 3 * mQ32 * (20 * msq2 + 221 * mU32) + 48 * mQ3 *
    (10 * msq2 + mU32) * Xt - 1312 * Xt * Misc.pow3 mQ3 + 1189 * Misc.pow4 mQ3) + mQ32 * logU3Q3 * (144 * mU32 * Xt *
    Misc.pow3 mQ3 - 33 * mU32 * Misc.pow4 mQ3 - 88 * mQ3 * Xt * Misc.pow4 mU3 + mQ32 * (256 * mU32 * pow2 Xt + 53 * Misc.pow4
    mU3) + 8 * Xt * Misc.pow5 mQ3 + 11 * Misc.pow6 mQ3 - 15 * Misc.pow6 mU3)) / (mQ32 * Misc.pow3 (mQ32 - mU32)) + 6 * dilog
    (1 - mU32 / mQ32) * (80 * mU32 * Xt * Misc.pow3 mQ3 + 31 * mU32 * Misc.pow4 mQ3 - 19 * mQ32 * Misc.pow4 mU3 - 24 * mQ3 *
    Xt * Misc.pow4 mU3 + 456 * Xt * Misc.pow5 mQ3 + 119 * Misc.pow6 mQ3 - 3 * Misc.pow6 mU3) / (-(mU32 * Misc.pow4 mQ3) +
    Misc.pow6 mQ3) - 32 * lmQ3MR * (120 * logmqQ3 * Misc.pow3 (mQ32 - mU32) + (mQ32 - mU32) * ((-2044) * mQ32 * mU32 - 1224 *
    mQ3 * mU32 * Xt + 1176 * Xt * Misc.pow3 mQ3 + 983 * Misc.pow4 mQ3 + 1037 * Misc.pow4 mU3) + 6 * logU3Q3 * (64 * mU32 * Xt
    * Misc.pow3 mQ3 - 56 * mU32 * Misc.pow4 mQ3 - 5 * mQ32 * Misc.pow4 mU3 - 136 * mQ3 * Xt * Misc.pow4 mU3 + 64 * Xt *
    Misc.pow5 mQ3 + 34 * Misc.pow6 mQ3 + 23 * Misc.pow6 mU3)) / Misc.pow3 (mQ32 - mU32) + 24 * logU3Q3 * ((-96) * mQ32 * mU32
    * (10 * msq2 + 19 * mU32) * Xt + 1544 * mU32 * Xt * Misc.pow4 mQ3 - 3 * Misc.pow3 mQ3 * (120 * msq2 * mU32 + 59 *
    Misc.pow4 mU3) - 479 * mU32 * Misc.pow5 mQ3 + 512 * Xt * Misc.pow6 mQ3 + 24 * Xt * Misc.pow6 mU3 - 40 * mQ3 * logmqQ3 * (4
    * mU32 * Xt * Misc.pow3 mQ3 + 2 * (3 * msq2 + mU32) * Misc.pow4 mQ3 - 3 * mU32 * Misc.pow4 msq - 3 * mQ32 * ((-6) * msq2 *
    mU32 + 3 * Misc.pow4 msq + Misc.pow4 mU3) - 4 * mQ3 * Xt * ((-12) * msq2 * mU32 + 6 * Misc.pow4 msq + Misc.pow4 mU3) +
    Misc.pow6 mU3) + mQ3 * ((-120) * msq2 * Misc.pow4 mU3 + 527 * Misc.pow6 mU3) + 209 * Misc.pow7 mQ3) / (mQ3 * Misc.pow3
    (mQ32 - mU32)) + 4 * ((-2880) * msq2 * (msq2 + 2 * mU32) * Xt * Misc.pow3 mQ3 + 1440 * mQ32 * mU32 * Misc.pow4 msq + 2880
    * mQ3 * mU32 * Xt * Misc.pow4 msq - 720 * Misc.pow4 msq * Misc.pow4 mU3 + Misc.pow4 mQ3 * ((-720) * Misc.pow4 msq + 391 *
    Misc.pow4 mU3) + 480 * (12 * msq2 - 5 * mU32) * Xt * Misc.pow5 mQ3 + ((-782) * mU32 + 1536 * pow2 Xt) * Misc.pow6 mQ3 +
    2784 * Xt * Misc.pow7 mQ3 + 487 * Misc.pow8 mQ3) / (pow2 (mQ32 - mU32) * Misc.pow4 mQ3) + 6 * dilog (1 - mQ32 / mU32) *
    ((-104) * Xt * Misc.pow3 mQ3 * Misc.pow4 mU3 + 318 * Misc.pow4 mQ3 * Misc.pow4 mU3 - 2168 * mU32 * Xt * Misc.pow5 mQ3 +
    1544 * mU32 * Misc.pow6 mQ3 + 16 * mQ32 * Misc.pow6 mU3 + 24 * mQ3 * Xt * Misc.pow6 mU3 + 2248 * Xt * Misc.pow7 mQ3 - 2649
    * Misc.pow8 mQ3 + 3 * Misc.pow8 mU3) / (pow2 (mQ32 - mU32) * Misc.pow4 mQ3) - 180 * dilog (1 - msq2 / mQ32) * (16 * msq2 *
    mU32 * (msq2 + mU32) * Xt * Misc.pow3 mQ3 - 8 * mQ3 * Xt * Misc.pow4 msq * Misc.pow4 mU3 - 8 * Xt * ((-28) * msq2 * mU32 +
    17 * Misc.pow4 msq + 17 * Misc.pow4 mU3) * Misc.pow5 mQ3 + (90 * msq2 * mU32 - 47 * Misc.pow4 msq + 39 * Misc.pow4 mU3) *
    Misc.pow6 mQ3 + Misc.pow4 mQ3 * ((-19) * mU32 * Misc.pow4 msq + 6 * msq2 * Misc.pow4 mU3 - 13 * Misc.pow6 mU3) - Misc.pow4
    msq * Misc.pow6 mU3 + mQ32 * (3 * Misc.pow4 msq * Misc.pow4 mU3 - 2 * msq2 * Misc.pow6 mU3) + 16 * (msq2 + mU32) * Xt *
    Misc.pow7 mQ3 + 17 * (2 * msq2 - 7 * mU32) * Misc.pow8 mQ3 - 8 * Xt * Misc.pow9 mQ3 + 29 * Misc.power10 mQ3) / (Misc.pow3
    (mQ32 - mU32) * Misc.pow4 mQ3) - 3 * pow2 logU3Q3 * ((-2248) * Xt * Misc.pow11 mQ3 + 2745 * Misc.pow12 mQ3 - 3 *
    Misc.pow12 mU3 + 240 * mU32 * Xt * (32 * msq2 * mU32 - 16 * Misc.pow4 msq + 15 * Misc.pow4 mU3) * Misc.pow5 mQ3 - 4 *
    Misc.pow6 mQ3 * (240 * mU32 * Misc.pow4 msq - 720 * msq2 * Misc.pow4 mU3 + 512 * pow2 Xt * Misc.pow4 mU3 + 215 * Misc.pow6
    mU3) + 16 * Xt * ((-480) * msq2 * mU32 + 240 * Misc.pow4 msq - 677 * Misc.pow4 mU3) * Misc.pow7 mQ3 + ((-1920) * msq2 *
    mU32 + 1440 * Misc.pow4 msq + 3691 * Misc.pow4 mU3) * Misc.pow8 mQ3 + 152 * Xt * Misc.pow3 mQ3 * Misc.pow8 mU3 - Misc.pow4
    mQ3 * (480 * Misc.pow4 msq * Misc.pow4 mU3 + 257 * Misc.pow8 mU3) + 8840 * mU32 * Xt * Misc.pow9 mQ3 - 2 * (480 * msq2 +
    2621 * mU32) * Misc.power10 mQ3 - 10 * mQ32 * Misc.power10 mU3 - 24 * mQ3 * Xt * Misc.power10 mU3) / Misc.pow4 (-(mQ3 *
    mU32) + Misc.pow3 mQ3)) / 864

/-- `getDeltaYtAlphas2`, case `MU3_EQ_M3`; mh2_eft/ThresholdCalculator.cpp:3503-3603 -/
def dYtAs2UG (dilog : F → F) (m32 mQ32 mU32 msq2 m3 mQ3 mU3 msq Xt lmQ3MR : F) : F :=
    let logmqQ3 := log (msq2 / mQ32)
    let logmqU3 := log (msq2 / mU32)
    let logU3Q3 := log (mU32 / mQ32)
    (32080 - 1536 * (mQ32 + mU3 * (mU3 + 2 * Xt)) * logU3Q3 / (mQ32 - mU32) + 768 * pow2 lmQ3MR - 11520 * pow2 logmqQ3 - 1152
    * (mU3 - 2 * Xt) * (2 * (mQ32 - mU32) + (mQ32 + mU32) * logU3Q3) / (-(mQ32 * mU3) + Misc.pow3 mU3) - 11520 * msq2 * (2 *
    (msq2 - mU32) + (msq2 - 3 * mU32) * logmqU3) * (-(mQ32 * mU3) + 2 * msq2 * Xt - 2 * mU32 * Xt + Misc.pow3 mU3) / ((-mQ32 +
    mU32) * (-msq2 + mU32) * Misc.pow3 mU3) - 48 * (9 * (80 * msq2 - 93 * mU32) * mU32 + 10 * mQ32 * (24 * msq2 + 61 * mU32) +
    19 * Misc.pow4 mQ3) / pow2 (mQ32 - mU32) - 11520 * (mQ32 - msq2) * dilog (1 - msq2 / mQ32) * (msq2 * mU3 * (3 * mU3 + 8 *
    Xt) + mQ32 * (msq2 - mU3 * (3 * mU3 + 8 * Xt)) + Misc.pow4 mQ3 - 2 * Misc.pow4 mU3) / Misc.pow3 (mQ32 - mU32) + 720 *
    (msq2 - mU32) * ((mQ32 - mU32) * (msq2 + 3 * mU32) + 8 * mU3 * (msq2 - mU32) * Xt) * dilog (1 - msq2 / mU32) / ((mQ32 -
    mU32) * Misc.pow4 mU3) - 768 * Xt * (mQ32 * (30 * msq2 - 58 * mU32) + 90 * msq2 * mU32 + 3 * Misc.pow4 mQ3 + 23 *
    Misc.pow4 mU3) / (mU3 * pow2 (mQ32 - mU32)) + 384 * (2 * mQ32 * mU32 + Misc.pow4 mQ3 - 3 * Misc.pow4 mU3 + logU3Q3 * (3 *
    mQ32 * mU32 + Misc.pow4 mU3)) / (-(mQ32 * mU32) + Misc.pow4 mU3) - 48 * (2 * mU3 * (mQ32 - mU32) * ((-120) * msq2 * mU3 *
    (mU3 - 2 * Xt) + mQ32 * (120 * msq2 + mU3 * ((-137) * mU3 + 24 * Xt)) + (129 * mU3 - 104 * Xt) * Misc.pow3 mU3 + 12 *
    Misc.pow4 mQ3) + logU3Q3 * Misc.pow3 mU3 * (10 * mQ32 * mU3 * ((-47) * mU3 + 32 * Xt) + mU32 * (227 * mU32 - 352 * mU3 *
    Xt - 256 * pow2 Xt) + 235 * Misc.pow4 mQ3) + 20 * (mQ32 - mU32) * logmqQ3 * ((-12) * msq2 * mU32 * (mU3 - 4 * Xt) + mQ32 *
    (12 * msq2 * mU3 + Misc.pow3 mU3) - 24 * Xt * Misc.pow4 msq - Misc.pow5 mU3)) / (pow2 (mQ32 - mU32) * Misc.pow3 mU3) - 960
    * logmqQ3 * (36 * msq2 * mU32 * (mU3 + 2 * Xt) + 6 * mQ32 * (2 * msq2 * (mU3 + 2 * Xt) - 15 * Misc.pow3 mU3) + 43 * mU3 *
    Misc.pow4 mQ3 + 47 * Misc.pow5 mU3) / (mU3 * pow2 (mQ32 - mU32)) - 128 * (3 - logU3Q3) * ((mQ32 - mU32) * ((-60) * msq2 *
    mU32 + 30 * Misc.pow4 msq - 37 * Misc.pow4 mU3) + 8 * Xt * Misc.pow5 mU3) / ((mQ32 - mU32) * Misc.pow4 mU3) + 48 * (-2 +
    logU3Q3) * (3 * (80 * msq2 * mU3 + 27 * Misc.pow3 mU3) * Misc.pow4 mQ3 + 480 * mU32 * Xt * Misc.pow4 msq + 240 * msq2 *
    (mU3 - 4 * Xt) * Misc.pow4 mU3 - 2 * mQ32 * (240 * msq2 * mU32 * (mU3 - 2 * Xt) + 240 * Xt * Misc.pow4 msq + (81 * mU3 -
    184 * Xt) * Misc.pow4 mU3) + (65 * mU32 - 432 * mU3 * Xt - 256 * pow2 Xt) * Misc.pow5 mU3) / (pow2 (mQ32 - mU32) *
    Misc.pow3 mU3) - 96 * (20 * mU32 * (3 * mQ32 + mU3 * ((-3) * mU3 + 8 * Xt)) * logmqQ3 * pow2 (mQ32 - mU32) + 2 * pow2
    (mQ32 - mU32) * ((-60) * msq2 * mU3 * (mU3 - 8 * Xt) + mQ32 * (60 * msq2 - 663 * mU32 + 48 * mU3 * Xt) + 41 * (29 * mU3 -
    32 * Xt) * Misc.pow3 mU3 + 6 * Misc.pow4 mQ3) + mU32 * logU3Q3 * (mQ32 * mU32 * ((-1177) * mU32 + 864 * mU3 * Xt - 768 *
    pow2 Xt) + mU3 * (625 * mU3 - 656 * Xt) * Misc.pow4 mQ3 + (563 * mU32 - 336 * mU3 * Xt + 256 * pow2 Xt) * Misc.pow4 mU3 -
    43 * Misc.pow6 mQ3)) / (mU32 * Misc.pow3 (-mQ32 + mU32)) + 96 * logU3Q3 * (mQ32 * mU32 * (3971 * mU32 - 3328 * mU3 * Xt +
    1280 * pow2 Xt) + mU3 * ((-2867) * mU3 + 1856 * Xt) * Misc.pow4 mQ3 + ((-1665) * mU32 + 1728 * mU3 * Xt - 256 * pow2 Xt) *
    Misc.pow4 mU3 + 625 * Misc.pow6 mQ3) / Misc.pow3 (mQ32 - mU32) - 128 * lmQ3MR * (120 * logmqQ3 * Misc.pow3 (mQ32 - mU32) +
    (mQ32 - mU32) * ((-4) * mQ32 * mU3 * (511 * mU3 + 306 * Xt) + (983 * mU3 + 1176 * Xt) * Misc.pow3 mU3 + 1037 * Misc.pow4
    mQ3) + 6 * logU3Q3 * (2 * mQ32 * ((-61) * mU3 + 32 * Xt) * Misc.pow3 mU3 + mU3 * (61 * mU3 - 136 * Xt) * Misc.pow4 mQ3 + 8
    * (7 * mU3 + 8 * Xt) * Misc.pow5 mU3 + Misc.pow6 mQ3)) / Misc.pow3 (mQ32 - mU32) + 128 * (-((3 * mQ32 + 30 * msq2 - 10 *
    mU32) * (mQ32 - mU32) * mU32) + 30 * msq2 * (msq2 - 2 * mU32) * (mQ32 - mU32) * logmqQ3 + 8 * ((-4) * mQ32 + mU3 * (4 *
    mU3 + Xt)) * logU3Q3 * Misc.pow4 mU3) / (-(mQ32 * Misc.pow4 mU3) + Misc.pow6 mU3) + 24 * dilog (1 - mU32 / mQ32) * (-(mQ32
    * (31 * mU3 + 80 * Xt) * Misc.pow3 mU3) + mU3 * (19 * mU3 + 24 * Xt) * Misc.pow4 mQ3 - (119 * mU3 + 456 * Xt) * Misc.pow5
    mU3 + 3 * Misc.pow6 mQ3) / (-(mQ32 * Misc.pow4 mU3) + Misc.pow6 mU3) - 3840 * msq2 * ((-10) * msq2 * mU32 + 3 * Misc.pow4
    msq + 7 * Misc.pow4 mU3 + logmqU3 * ((-3) * msq2 * mU32 + Misc.pow4 msq + 6 * Misc.pow4 mU3)) / (-(msq2 * Misc.pow4 mU3) +
    Misc.pow6 mU3) + 3 * pow2 logU3Q3 * (120 * (mU3 - 8 * Xt) * Misc.pow3 mU3 * Misc.pow4 msq + Misc.pow4 mQ3 * (240 * msq2 *
    mU32 + 120 * Misc.pow4 msq - 1267 * Misc.pow4 mU3) + 240 * msq2 * (mU3 + 8 * Xt) * Misc.pow5 mU3 - 2 * mQ32 * (240 * msq2
    * (mU3 + 4 * Xt) * Misc.pow3 mU3 + 120 * mU3 * (mU3 - 4 * Xt) * Misc.pow4 msq + (2573 * mU3 - 4832 * Xt) * Misc.pow5 mU3)
    + (6413 * mU32 - 7616 * mU3 * Xt - 512 * pow2 Xt) * Misc.pow6 mU3) / (pow2 (mQ32 - mU32) * Misc.pow4 mU3) + 24 * dilog (1
    - mU32 / mQ32) * (2 * (159 * mU3 - 52 * Xt) * Misc.pow3 mU3 * Misc.pow4 mQ3 + 8 * mQ32 * (193 * mU3 - 271 * Xt) *
    Misc.pow5 mU3 + 8 * mU3 * (2 * mU3 + 3 * Xt) * Misc.pow6 mQ3 + ((-2649) * mU3 + 2248 * Xt) * Misc.pow7 mU3 + 3 * Misc.pow8
    mQ3) / (pow2 (mQ32 - mU32) * Misc.pow4 mU3) + 24 * logU3Q3 * ((-10) * logmqQ3 * pow2 (mQ32 - mU32) * ((mQ32 - mU32) * (6 *
    msq2 * mU32 + 3 * Misc.pow4 msq - 5 * Misc.pow4 mU3) + 8 * mU3 * Xt * ((-6) * msq2 * mU32 + 3 * Misc.pow4 msq + 2 *
    Misc.pow4 mU3)) + 8 * Xt * Misc.pow3 mU3 * (5 * (6 * msq2 + 113 * mU32) * Misc.pow4 mQ3 + 30 * msq2 * Misc.pow4 mU3 - 3 *
    mQ32 * (20 * msq2 * mU32 + 409 * Misc.pow4 mU3) + 3 * Misc.pow6 mQ3 + 627 * Misc.pow6 mU3) + mU32 * ((-10) * Misc.pow4 mQ3
    * (9 * msq2 * mU32 + 325 * Misc.pow4 mU3) + 6 * (5 * msq2 + 2 * mU32) * Misc.pow6 mQ3 - 3 * (10 * msq2 + 971 * mU32) *
    Misc.pow6 mU3 + 18 * mQ32 * (5 * msq2 * Misc.pow4 mU3 + 338 * Misc.pow6 mU3) + 3 * Misc.pow8 mQ3)) / (Misc.pow3 (mQ32 -
    mU32) * Misc.pow4 mU3) + 3 * pow2 logU3Q3 * (4 * (240 * msq2 * (mU3 + 2 * Xt) * Misc.pow3 mU3 + 120 * mU3 * (mU3 - 2 * Xt)
    * Misc.pow4 msq + ((-8781) * mU3 + 12800 * Xt) * Misc.pow5 mU3) * Misc.pow6 mQ3 + Misc.pow4 mQ3 * ((-240) * (11 * mU3 - 12
    * Xt) * Misc.pow3 mU3 * Misc.pow4 msq + 480 * msq2 * (21 * mU3 + 52 * Xt) * Misc.pow5 mU3 + 2 * (49527 * mU32 - 43840 *
    mU3 * Xt + 9984 * pow2 Xt) * Misc.pow6 mU3) + ((-240) * msq2 * mU32 * (17 * mU3 + 8 * Xt) + (23053 * mU32 - 7808 * mU3 *
    Xt - 512 * pow2 Xt) * Misc.pow3 mU3 + 120 * (47 * mU3 + 136 * Xt) * Misc.pow4 msq) * Misc.pow7 mU3 + ((-240) * msq2 * mU32
    - 120 * Misc.pow4 msq + 1837 * Misc.pow4 mU3) * Misc.pow8 mQ3 - 20 * mQ32 * (24 * (7 * mU3 + 38 * Xt) * Misc.pow4 msq *
    Misc.pow5 mU3 + 48 * msq2 * (7 * mU3 + 26 * Xt) * Misc.pow7 mU3 + (4377 * mU32 - 2624 * mU3 * Xt - 256 * pow2 Xt) *
    Misc.pow8 mU3)) / Misc.pow4 (-(mQ32 * mU3) + Misc.pow3 mU3) + 720 * dilog (1 - msq2 / mU32) * ((47 * mU3 + 136 * Xt) *
    Misc.pow4 msq * Misc.pow5 mU3 - Misc.pow4 mQ3 * (2 * msq2 * (3 * mU3 + 8 * Xt) * Misc.pow3 mU3 + mU3 * (3 * mU3 - 8 * Xt)
    * Misc.pow4 msq + (39 * mU3 - 136 * Xt) * Misc.pow5 mU3) + (2 * msq2 * mU32 + Misc.pow4 msq + 13 * Misc.pow4 mU3) *
    Misc.pow6 mQ3 - 2 * msq2 * (17 * mU3 + 8 * Xt) * Misc.pow7 mU3 + mQ32 * ((19 * mU3 - 16 * Xt) * Misc.pow3 mU3 * Misc.pow4
    msq - 2 * msq2 * (45 * mU3 + 112 * Xt) * Misc.pow5 mU3 + (119 * mU3 - 16 * Xt) * Misc.pow7 mU3) + ((-29) * mU3 + 8 * Xt) *
    Misc.pow9 mU3) / (Misc.pow3 (-mQ32 + mU32) * Misc.pow4 mU3) - 6 * logU3Q3 * (4 * (mQ32 - mU32) * mU32 * ((-2) * (45 * msq2
    * mU3 * (mU3 + 8 * Xt) + (11243 * mU3 - 5748 * Xt) * Misc.pow3 mU3) * Misc.pow4 mQ3 + 30 * msq2 * (47 * mU3 + 104 * Xt) *
    Misc.pow5 mU3 + 2 * mQ32 * (15 * msq2 * (19 * mU3 + 48 * Xt) * Misc.pow3 mU3 + 4 * (3693 * mU3 - 1951 * Xt) * Misc.pow5
    mU3) + (30 * msq2 + 8 * mU3 * (497 * mU3 - 9 * Xt)) * Misc.pow6 mQ3 + 3 * ((-3807) * mU3 + 968 * Xt) * Misc.pow7 mU3 + 3 *
    Misc.pow8 mQ3) + logU3Q3 * Misc.pow4 mU3 * (2 * mU32 * (25391 * mU32 - 28144 * mU3 * Xt + 2816 * pow2 Xt) * Misc.pow4 mQ3
    + 4 * mQ32 * ((-12005) * mU32 + 14088 * mU3 * Xt + 768 * pow2 Xt) * Misc.pow4 mU3 - 4 * mU3 * (4621 * mU3 - 5624 * Xt) *
    Misc.pow6 mQ3 + (15341 * mU32 - 19488 * mU3 * Xt - 512 * pow2 Xt) * Misc.pow6 mU3 + 1149 * Misc.pow8 mQ3) - 40 * (mQ32 -
    mU32) * logmqQ3 * (3 * (47 * mU3 + 136 * Xt) * Misc.pow4 msq * Misc.pow5 mU3 - Misc.pow4 mQ3 * (6 * msq2 * (3 * mU3 + 8 *
    Xt) * Misc.pow3 mU3 + 3 * mU3 * (3 * mU3 - 8 * Xt) * Misc.pow4 msq + (33 * mU3 - 80 * Xt) * Misc.pow5 mU3) + (6 * msq2 *
    mU32 + 3 * Misc.pow4 msq + 11 * Misc.pow4 mU3) * Misc.pow6 mQ3 - 6 * msq2 * (17 * mU3 + 8 * Xt) * Misc.pow7 mU3 + mQ32 *
    ((57 * mU3 - 48 * Xt) * Misc.pow3 mU3 * Misc.pow4 msq - 6 * msq2 * (45 * mU3 + 112 * Xt) * Misc.pow5 mU3 + (49 * mU3 - 96
    * Xt) * Misc.pow7 mU3) + ((-27) * mU3 + 16 * Xt) * Misc.pow9 mU3)) / Misc.pow4 (-(mQ32 * mU3) + Misc.pow3 mU3)) / 3456

/-- `getDeltaYtAlphas2`, case `MQ3_EQ_MU3_EQ_M3`; mh2_eft/ThresholdCalculator.cpp:3606-3616 -/
def dYtAs2QUG (dilog : F → F) (m32 mQ32 mU32 msq2 m3 mQ3 mU3 msq Xt lmQ3MR : F) : F :=
    let logmqQ3 := log (msq2 / mQ32)
    (1835 * mQ32 * msq2 - 232 * mQ3 * msq2 * Xt + 780 * mQ32 * msq2 * logmqQ3 - 360 * mQ3 * msq2 * Xt * logmqQ3 - 4 * lmQ3MR *
    mQ3 * (mQ32 - msq2) * (335 * mQ3 + 104 * Xt + 60 * mQ3 * logmqQ3) + 96 * mQ32 * pow2 Xt - 96 * msq2 * pow2 Xt + 180 * mQ32
    * msq2 * pow2 logmqQ3 + 232 * Xt * Misc.pow3 mQ3 - 120 * Xt * logmqQ3 * Misc.pow3 mQ3 - 1835 * Misc.pow4 mQ3 - 540 *
    logmqQ3 * Misc.pow4 mQ3 - 180 * pow2 logmqQ3 * Misc.pow4 mQ3 - 360 * dilog (1 - msq2 / mQ32) * (-(mQ32 * msq2) + Misc.pow4
    mQ3) + 12 * pow2 lmQ3MR * (-(mQ32 * msq2) + Misc.pow4 mQ3)) / (54 * mQ32 * (mQ32 - msq2))

/-- `getDeltaYtAlphas2`, case `DEGENERATE`; mh2_eft/ThresholdCalculator.cpp:3619-3621 -/
def dYtAs2Deg (dilog : F → F) (m32 mQ32 mU32 msq2 m3 mQ3 mU3 msq Xt lmQ3MR : F) : F :=
    ((-2075) * mQ32 + 712 * mQ3 * Xt - 4 * lmQ3MR * mQ3 * (335 * mQ3 + 104 * Xt) + 12 * mQ32 * pow2 lmQ3MR + 96 * pow2 Xt) /
    (54 * mQ32)

/-- `getDRbarPrimeToMSbarXtTerms`, case `GENERAL`; mh2_eft/ThresholdCalculator.cpp:4378-4689 -/
def xtTermsGen (dilog : F → F) (m32 mQ32 mU32 msq2 m3 mQ3 mU3 msq lmQ3MR Xt4 Xt5 Xt6 : F) : F :=
    let logQ3U3 := log (mQ32 / mU32)
    let logQ3m3 := log (mQ32 / m32)
    let logQ3mq := log (mQ32 / msq2)
    (-4) * Xt4 * (640 * mQ32 * (mQ32 - mU32) * mU32 * logQ3U3 * pow2 (m32 - mQ32) * pow2 (m32 - mU32) * pow2 (m3 * (m32 -
    mQ32) * mU32 * logQ3U3 + (mQ32 - mU32) * logQ3m3 * Misc.pow3 m3) - 512 * m3 * mQ32 * mU32 * ((-8) * mQ32 + 4 * lmQ3MR *
    mQ32 + 8 * mU32 - 4 * lmQ3MR * mU32 + (4 * m32 - 2 * (mQ32 + mU32)) * dilog (1 - m32 / mQ32) + 2 * ((-2) * m32 + mQ32 +
    mU32) * dilog (1 - m32 / mU32) + 2 * mQ32 * logQ3U3 - 2 * lmQ3MR * mQ32 * logQ3U3 + 6 * mU32 * logQ3U3 - 2 * lmQ3MR * mU32
    * logQ3U3 + 4 * m32 * logQ3m3 * logQ3U3 - 2 * m32 * pow2 logQ3U3 + mQ32 * pow2 logQ3U3 + mU32 * pow2 logQ3U3) * (m3 * (m32
    - mQ32) * mU32 * logQ3U3 + (mQ32 - mU32) * logQ3m3 * Misc.pow3 m3) * Misc.pow3 (m32 - mQ32) * Misc.pow3 (m32 - mU32) - 4 *
    pow2 (m32 - mQ32) * pow2 (m32 - mU32) * (6 * pow2 (m32 - mQ32) * pow2 (m32 - mU32) - 12 * lmQ3MR * pow2 (m32 - mQ32) *
    pow2 (m32 - mU32) + 12 * logQ3m3 * pow2 (m32 - mQ32) * pow2 (m32 - mU32) - (12 * lmQ3MR - 10 * logQ3mq - logQ3U3) * pow2
    (m32 - mQ32) * pow2 (m32 - mU32) + 16 * (mQ32 * (-m32 + mQ32) * (m32 - mU32) * mU32 + (m32 - mQ32) * (m32 - mU32) *
    Misc.pow4 m3 + lmQ3MR * pow2 (m32 - mU32) * (2 * m32 * mQ32 - Misc.pow4 mQ3) + (lmQ3MR - logQ3U3) * pow2 (m32 - mQ32) * (2
    * m32 * mU32 - Misc.pow4 mU3) - (lmQ3MR - logQ3m3) * Misc.pow4 m3 * ((-2) * m32 * (mQ32 + mU32) + 2 * Misc.pow4 m3 +
    Misc.pow4 mQ3 + Misc.pow4 mU3))) * (mQ32 * (mQ32 - mU32) * mU32 * ((-2) * m32 + mQ32 + mU32) * dilog (1 - m32 / mQ32) +
    m32 * mU32 * Misc.pow4 mQ3 - lmQ3MR * m32 * mU32 * Misc.pow4 mQ3 + m32 * mU32 * logQ3m3 * Misc.pow4 mQ3 + 2 * m32 * mU32 *
    logQ3U3 * Misc.pow4 mQ3 - 2 * lmQ3MR * m32 * mU32 * logQ3U3 * Misc.pow4 mQ3 + m32 * mU32 * pow2 logQ3U3 * Misc.pow4 mQ3 +
    m32 * mQ32 * Misc.pow4 mU3 - lmQ3MR * m32 * mQ32 * Misc.pow4 mU3 + m32 * mQ32 * logQ3m3 * Misc.pow4 mU3 - 2 * m32 * mQ32 *
    logQ3U3 * Misc.pow4 mU3 + 2 * lmQ3MR * m32 * mQ32 * logQ3U3 * Misc.pow4 mU3 - m32 * mQ32 * pow2 logQ3U3 * Misc.pow4 mU3 +
    12 * Misc.pow4 mQ3 * Misc.pow4 mU3 - 8 * lmQ3MR * Misc.pow4 mQ3 * Misc.pow4 mU3 + 4 * logQ3U3 * Misc.pow4 mQ3 * Misc.pow4
    mU3 - 2 * pow2 logQ3U3 * Misc.pow4 mQ3 * Misc.pow4 mU3 + mQ32 * mU32 * dilog (1 - m32 / mU32) * (2 * m32 * (mQ32 - mU32) -
    Misc.pow4 mQ3 + Misc.pow4 mU3) - m32 * Misc.pow6 mQ3 + lmQ3MR * m32 * Misc.pow6 mQ3 - 6 * mU32 * Misc.pow6 mQ3 + 4 *
    lmQ3MR * mU32 * Misc.pow6 mQ3 - m32 * logQ3m3 * Misc.pow6 mQ3 + 3 * mU32 * logQ3U3 * Misc.pow6 mQ3 - 2 * lmQ3MR * mU32 *
    logQ3U3 * Misc.pow6 mQ3 - m32 * Misc.pow6 mU3 + lmQ3MR * m32 * Misc.pow6 mU3 - 6 * mQ32 * Misc.pow6 mU3 + 4 * lmQ3MR *
    mQ32 * Misc.pow6 mU3 - m32 * logQ3m3 * Misc.pow6 mU3 - 7 * mQ32 * logQ3U3 * Misc.pow6 mU3 + 2 * lmQ3MR * mQ32 * logQ3U3 *
    Misc.pow6 mU3 - 2 * mQ32 * pow2 logQ3U3 * Misc.pow6 mU3) + mQ32 * mU32 * (2 * (mQ32 - mU32) - (mQ32 + mU32) * logQ3U3) *
    (12 * (mQ32 - mU32) * pow2 (-((m32 - mQ32) * ((m32 - mQ32) * (2 * m32 - mU32) * mU32 * logQ3U3 + (m32 - mU32) * ((1 + 2 *
    lmQ3MR) * mQ32 * mU32 - 2 * lmQ3MR * m32 * (mQ32 + mU32) + (-1 + 2 * lmQ3MR) * Misc.pow4 m3))) + logQ3m3 * Misc.pow4 m3 *
    ((-2) * m32 * (mQ32 + mU32) + 2 * Misc.pow4 m3 + Misc.pow4 mQ3 + Misc.pow4 mU3)) - 15 * (m32 - mQ32) * (m32 - mU32) *
    (mQ32 - mU32) * pow2 (lmQ3MR - logQ3mq) * ((-2) * (mQ32 - msq2) * Misc.pow3 (m32 - mU32) * ((-3) * m32 * (mQ32 - msq2) +
    mQ32 * (mQ32 + msq2) - 2 * Misc.pow4 m3) - 2 * (msq2 - mU32) * Misc.pow3 (m32 - mQ32) * ((-3) * m32 * (msq2 - mU32) - mU32
    * (msq2 + mU32) + 2 * Misc.pow4 m3)) + 60 * (m32 - mU32) * (mQ32 - mU32) * (msq2 - mU32) * dilog (1 - msq2 / mU32) * ((-3)
    * m32 * (msq2 - mU32) - mU32 * (msq2 + mU32) + 2 * Misc.pow4 m3) * Misc.pow4 (m32 - mQ32) - 60 * (m32 - mQ32) * (mQ32 -
    msq2) * (mQ32 - mU32) * dilog (1 - msq2 / mQ32) * (3 * m32 * (mQ32 - msq2) - mQ32 * (mQ32 + msq2) + 2 * Misc.pow4 m3) *
    Misc.pow4 (m32 - mU32) - 20 * (mQ32 - mU32) * (lmQ3MR - logQ3mq) * pow2 (m32 - mQ32) * pow2 (m32 - mU32) * (3 * mQ32 *
    msq2 * Misc.pow4 mU3 + Misc.pow4 mQ3 * (3 * msq2 * mU32 + 10 * Misc.pow4 mU3) + Misc.pow4 m3 * ((-15) * msq2 * mU32 + mQ32
    * ((-15) * msq2 + 44 * mU32) + 11 * Misc.pow4 mQ3 + 11 * Misc.pow4 mU3) + 3 * m32 * ((3 * msq2 - 7 * mU32) * Misc.pow4 mQ3
    + 3 * msq2 * Misc.pow4 mU3 - mQ32 * (4 * msq2 * mU32 + 7 * Misc.pow4 mU3)) + ((-23) * mQ32 + 18 * msq2 - 23 * mU32) *
    Misc.pow6 m3 + 12 * Misc.pow8 m3) + (mQ32 - mU32) * pow2 (m32 - mQ32) * pow2 (m32 - mU32) * (-(mQ32 * mU32 * (6 * mU32 *
    (10 * msq2 + mU32) + mQ32 * (60 * msq2 + 169 * mU32) + 6 * Misc.pow4 mQ3)) + Misc.pow4 m3 * (4 * mQ32 * (75 * msq2 - 28 *
    mU32) + 300 * msq2 * mU32 + 93 * Misc.pow4 mQ3 + 93 * Misc.pow4 mU3) - 6 * (47 * mQ32 + 60 * msq2 + 47 * mU32) * Misc.pow6
    m3 - 2 * m32 * (2 * (45 * msq2 - 52 * mU32) * Misc.pow4 mQ3 + 9 * (10 * msq2 + mU32) * Misc.pow4 mU3 - 8 * mQ32 * (15 *
    msq2 * mU32 + 13 * Misc.pow4 mU3) + 9 * Misc.pow6 mQ3) + 291 * Misc.pow8 m3) + 60 * (m32 - mQ32) * (m32 - msq2) * (m32 -
    mU32) * (mQ32 - mU32) * dilog (1 - m32 / msq2) * (-(mQ32 * msq2 * mU32 * (Misc.pow4 mQ3 + Misc.pow4 mU3)) + ((-8) * msq2 *
    mU32 + mQ32 * ((-8) * msq2 + 30 * mU32) + 3 * Misc.pow4 mQ3 + 3 * Misc.pow4 mU3) * Misc.pow6 m3 - Misc.pow4 m3 * (((-9) *
    msq2 + 15 * mU32) * Misc.pow4 mQ3 - 9 * msq2 * Misc.pow4 mU3 + 3 * mQ32 * (2 * msq2 * mU32 + 5 * Misc.pow4 mU3) +
    Misc.pow6 mQ3 + Misc.pow6 mU3) + m32 * (3 * msq2 * mU32 * Misc.pow4 mQ3 + ((-3) * msq2 + 5 * mU32) * Misc.pow6 mQ3 - 3 *
    msq2 * Misc.pow6 mU3 + mQ32 * (3 * msq2 * Misc.pow4 mU3 + 5 * Misc.pow6 mU3)) + ((-8) * mQ32 + 6 * msq2 - 8 * mU32) *
    Misc.pow8 m3 + 2 * Misc.power10 m3) + 2 * (m32 - mQ32) * (m32 - mU32) * dilog (1 - mQ32 / mU32) * pow2 (mQ32 - mU32) *
    (((-76) * mQ32 * mU32 + 34 * Misc.pow4 mQ3 + 34 * Misc.pow4 mU3) * Misc.pow6 m3 + 7 * Misc.pow4 mU3 * Misc.pow6 mQ3 +
    Misc.pow4 m3 * (65 * mU32 * Misc.pow4 mQ3 + 65 * mQ32 * Misc.pow4 mU3 - 29 * Misc.pow6 mQ3 - 29 * Misc.pow6 mU3) + 7 *
    Misc.pow4 mQ3 * Misc.pow6 mU3 - 14 * (mQ32 + mU32) * Misc.pow8 m3 + 3 * mU32 * Misc.pow8 mQ3 + 3 * mQ32 * Misc.pow8 mU3 +
    m32 * ((-34) * Misc.pow4 mQ3 * Misc.pow4 mU3 - 26 * mU32 * Misc.pow6 mQ3 - 26 * mQ32 * Misc.pow6 mU3 + 9 * Misc.pow8 mQ3 +
    9 * Misc.pow8 mU3) + 12 * Misc.power10 m3) - pow2 (lmQ3MR - logQ3U3) * Misc.pow4 (m32 - mQ32) * ((-mQ32 + mU32) *
    Misc.pow4 mU3 * (4 * mQ32 * mU32 + 3 * Misc.pow4 mQ3 + 30 * Misc.pow4 msq + 21 * Misc.pow4 mU3) + (60 * msq2 * mU32 + mQ32
    * ((-60) * msq2 + 68 * mU32) - 2 * Misc.pow4 mQ3 + 702 * Misc.pow4 mU3) * Misc.pow6 m3 + 2 * m32 * mU32 * (18 * mU32 *
    Misc.pow4 mQ3 + 6 * mU32 * ((-15) * msq2 * mU32 + 5 * Misc.pow4 msq + 4 * Misc.pow4 mU3) + mQ32 * (90 * msq2 * mU32 - 30 *
    Misc.pow4 msq + 25 * Misc.pow4 mU3) - 3 * Misc.pow6 mQ3) + Misc.pow4 m3 * ((-33) * mU32 * Misc.pow4 mQ3 - 90 * mU32 *
    Misc.pow4 msq + 3 * mQ32 * ((-40) * msq2 * mU32 + 30 * Misc.pow4 msq - 47 * Misc.pow4 mU3) + 120 * msq2 * Misc.pow4 mU3 +
    9 * Misc.pow6 mQ3 - 347 * Misc.pow6 mU3) + (44 * mQ32 - 556 * mU32) * Misc.pow8 m3 + 128 * Misc.power10 m3) - 2 * (mQ32 -
    mU32) * pow2 (lmQ3MR - logQ3m3) * (878 * (mQ32 + mU32) * Misc.pow14 m3 - 262 * Misc.pow16 m3 + Misc.pow4 m3 * Misc.pow4
    mQ3 * Misc.pow4 mU3 * (452 * mQ32 * mU32 + Misc.pow4 mQ3 + Misc.pow4 mU3) - Misc.pow12 m3 * (2972 * mQ32 * mU32 + 885 *
    Misc.pow4 mQ3 + 885 * Misc.pow4 mU3) - 144 * m32 * (mQ32 + mU32) * Misc.pow6 mQ3 * Misc.pow6 mU3 + 36 * Misc.pow8 mQ3 *
    Misc.pow8 mU3 - Misc.pow8 m3 * (2404 * Misc.pow4 mQ3 * Misc.pow4 mU3 + 1004 * mU32 * Misc.pow6 mQ3 + 1004 * mQ32 *
    Misc.pow6 mU3 + 49 * Misc.pow8 mQ3 + 49 * Misc.pow8 mU3) + 2 * Misc.pow6 m3 * (184 * Misc.pow4 mU3 * Misc.pow6 mQ3 + 184 *
    Misc.pow4 mQ3 * Misc.pow6 mU3 + 79 * mU32 * Misc.pow8 mQ3 + 79 * mQ32 * Misc.pow8 mU3) + 4 * (733 * mU32 * Misc.pow4 mQ3 +
    733 * mQ32 * Misc.pow4 mU3 + 80 * Misc.pow6 mQ3 + 80 * Misc.pow6 mU3) * Misc.power10 m3) + 2 * lmQ3MR * (m32 - mQ32) *
    (m32 - mU32) * ((-10) * (mQ32 - mU32) * (lmQ3MR - logQ3mq) * Misc.pow3 (m32 - mU32) * (2 * (mQ32 + 3 * msq2) * Misc.pow4
    m3 - 3 * mQ32 * Misc.pow4 msq - 3 * m32 * ((-6) * mQ32 * msq2 + Misc.pow4 mQ3 + 3 * Misc.pow4 msq) + Misc.pow6 mQ3) + (m32
    - mU32) * ((mQ32 - mU32) * mU32 * Misc.pow4 mQ3 * (128 * mQ32 * mU32 + 3 * Misc.pow4 mQ3 - 3 * (10 * msq2 * mU32 +
    Misc.pow4 mU3)) + mQ32 * Misc.pow4 m3 * ((-5) * (6 * msq2 + 5 * mU32) * Misc.pow4 mQ3 + 6 * mQ32 * (35 * msq2 * mU32 - 157
    * Misc.pow4 mU3) - 180 * msq2 * Misc.pow4 mU3 + 106 * Misc.pow6 mQ3 - 163 * Misc.pow6 mU3) + Misc.pow6 m3 * (((-90) * msq2
    + 985 * mU32) * Misc.pow4 mQ3 + mQ32 * (90 * msq2 * mU32 + 622 * Misc.pow4 mU3) - 18 * Misc.pow6 mQ3 - 53 * Misc.pow6 mU3)
    + ((-764) * mQ32 * mU32 - 365 * Misc.pow4 mQ3 + 105 * Misc.pow4 mU3) * Misc.pow8 m3 + m32 * mQ32 * (6 * Misc.pow4 mQ3 *
    (10 * msq2 * mU32 + 41 * Misc.pow4 mU3) - 279 * mU32 * Misc.pow6 mQ3 + 9 * (10 * msq2 + mU32) * Misc.pow6 mU3 + mQ32 *
    ((-150) * msq2 * Misc.pow4 mU3 + 271 * Misc.pow6 mU3) + 9 * Misc.pow8 mQ3) + 4 * (77 * mQ32 - 13 * mU32) * Misc.power10
    m3) - (mQ32 - mU32) * (lmQ3MR - logQ3U3) * (mU32 * (4 * mQ32 * mU32 + 3 * Misc.pow4 mQ3 - 3 * Misc.pow4 mU3) * Misc.pow6
    mQ3 + Misc.pow6 m3 * ((-53) * mU32 * Misc.pow4 mQ3 + 57 * mQ32 * Misc.pow4 mU3 + 35 * Misc.pow6 mQ3 + Misc.pow6 mU3) + m32
    * Misc.pow4 mQ3 * ((-35) * mU32 * Misc.pow4 mQ3 + mQ32 * Misc.pow4 mU3 + 9 * Misc.pow6 mQ3 + 9 * Misc.pow6 mU3) - (28 *
    mQ32 * mU32 + 17 * Misc.pow4 mQ3 + 3 * Misc.pow4 mU3) * Misc.pow8 m3 - Misc.pow4 m3 * (23 * Misc.pow4 mQ3 * Misc.pow4 mU3
    - 75 * mU32 * Misc.pow6 mQ3 + 19 * mQ32 * Misc.pow6 mU3 + 29 * Misc.pow8 mQ3) + 2 * (7 * mQ32 + mU32) * Misc.power10 m3))
    - 2 * (lmQ3MR - logQ3m3) * (20 * (m32 - mQ32) * (m32 - mU32) * (mQ32 - mU32) * (lmQ3MR - logQ3mq) * Misc.pow4 m3 * (7 *
    mQ32 * mU32 * (Misc.pow4 mQ3 + Misc.pow4 mU3) + 3 * Misc.pow4 m3 * (14 * mQ32 * mU32 + Misc.pow4 mQ3 + Misc.pow4 mU3) - 10
    * (mQ32 + mU32) * Misc.pow6 m3 - m32 * (21 * mU32 * Misc.pow4 mQ3 + 21 * mQ32 * Misc.pow4 mU3 + Misc.pow6 mQ3 + Misc.pow6
    mU3) + 2 * Misc.pow8 m3) + (m32 - mQ32) * (m32 - mU32) * (mQ32 - mU32) * (864 * Misc.pow12 m3 + 48 * Misc.pow6 mQ3 *
    Misc.pow6 mU3 + 3 * m32 * mQ32 * mU32 * (5 * (2 * msq2 - 23 * mU32) * Misc.pow4 mQ3 - 115 * mQ32 * Misc.pow4 mU3 + 10 *
    msq2 * Misc.pow4 mU3 + Misc.pow6 mQ3 + Misc.pow6 mU3) - 9 * Misc.pow6 m3 * ((30 * msq2 + 317 * mU32) * Misc.pow4 mQ3 + 30
    * msq2 * Misc.pow4 mU3 + mQ32 * ((-20) * msq2 * mU32 + 317 * Misc.pow4 mU3) + 39 * Misc.pow6 mQ3 + 39 * Misc.pow6 mU3) + 4
    * (60 * msq2 * mU32 + 2 * mQ32 * (30 * msq2 + 511 * mU32) + 365 * Misc.pow4 mQ3 + 365 * Misc.pow4 mU3) * Misc.pow8 m3 +
    Misc.pow4 m3 * (Misc.pow4 mQ3 * ((-90) * msq2 * mU32 + 1894 * Misc.pow4 mU3) + (90 * msq2 + 572 * mU32) * Misc.pow6 mQ3 +
    9 * (10 * msq2 + mU32) * Misc.pow6 mU3 + mQ32 * ((-90) * msq2 * Misc.pow4 mU3 + 572 * Misc.pow6 mU3) + 9 * Misc.pow8 mQ3)
    - 2 * (971 * mQ32 + 90 * msq2 + 971 * mU32) * Misc.power10 m3) - 2 * (m32 - mQ32) * (lmQ3MR - logQ3U3) * ((-12) * (17 *
    mQ32 + 15 * mU32) * Misc.pow14 m3 + 64 * Misc.pow16 m3 + 2 * Misc.pow12 m3 * (302 * mQ32 * mU32 + 117 * Misc.pow4 mQ3 + 61
    * Misc.pow4 mU3) + 6 * m32 * Misc.pow4 mQ3 * (-(mQ32 * mU32) + 4 * Misc.pow4 mQ3 - 3 * Misc.pow4 mU3) * Misc.pow6 mU3 +
    mQ32 * Misc.pow4 m3 * Misc.pow4 mU3 * ((-53) * mU32 * Misc.pow4 mQ3 + 61 * mQ32 * Misc.pow4 mU3 + 43 * Misc.pow6 mQ3 + 13
    * Misc.pow6 mU3) + 6 * (-mQ32 + mU32) * Misc.pow6 mQ3 * Misc.pow8 mU3 - mU32 * Misc.pow6 m3 * (13 * Misc.pow4 mQ3 *
    Misc.pow4 mU3 + 239 * mU32 * Misc.pow6 mQ3 + 49 * mQ32 * Misc.pow6 mU3 + 76 * Misc.pow8 mQ3 + 7 * Misc.pow8 mU3) +
    Misc.pow8 m3 * (503 * Misc.pow4 mQ3 * Misc.pow4 mU3 + 401 * mU32 * Misc.pow6 mQ3 + 13 * mQ32 * Misc.pow6 mU3 + 13 *
    Misc.pow8 mQ3 + 30 * Misc.pow8 mU3) - (779 * mU32 * Misc.pow4 mQ3 + 369 * mQ32 * Misc.pow4 mU3 + 101 * Misc.pow6 mQ3 + 31
    * Misc.pow6 mU3) * Misc.power10 m3) + 2 * lmQ3MR * (m32 - mU32) * ((-12) * (15 * mQ32 + 17 * mU32) * Misc.pow14 m3 + 64 *
    Misc.pow16 m3 + 2 * Misc.pow12 m3 * (302 * mQ32 * mU32 + 61 * Misc.pow4 mQ3 + 117 * Misc.pow4 mU3) - 6 * m32 * (mQ32 *
    mU32 + 3 * Misc.pow4 mQ3 - 4 * Misc.pow4 mU3) * Misc.pow4 mU3 * Misc.pow6 mQ3 + mU32 * Misc.pow4 m3 * Misc.pow4 mQ3 * (61
    * mU32 * Misc.pow4 mQ3 - 53 * mQ32 * Misc.pow4 mU3 + 13 * Misc.pow6 mQ3 + 43 * Misc.pow6 mU3) + 6 * (mQ32 - mU32) *
    Misc.pow6 mU3 * Misc.pow8 mQ3 + Misc.pow8 m3 * (503 * Misc.pow4 mQ3 * Misc.pow4 mU3 + 13 * mU32 * Misc.pow6 mQ3 + 401 *
    mQ32 * Misc.pow6 mU3 + 30 * Misc.pow8 mQ3 + 13 * Misc.pow8 mU3) - mQ32 * Misc.pow6 m3 * (13 * Misc.pow4 mQ3 * Misc.pow4
    mU3 + 49 * mU32 * Misc.pow6 mQ3 + 239 * mQ32 * Misc.pow6 mU3 + 7 * Misc.pow8 mQ3 + 76 * Misc.pow8 mU3) - (369 * mU32 *
    Misc.pow4 mQ3 + 779 * mQ32 * Misc.pow4 mU3 + 31 * Misc.pow6 mQ3 + 101 * Misc.pow6 mU3) * Misc.power10 m3)) + 2 * (m32 -
    mU32) * dilog (1 - m32 / mQ32) * pow2 (m32 - mQ32) * (128 * Misc.pow12 m3 - mU32 * Misc.pow4 mQ3 * (mU32 * Misc.pow4 mQ3 +
    19 * mQ32 * Misc.pow4 mU3 + 3 * Misc.pow6 mQ3 - 23 * Misc.pow6 mU3) + Misc.pow6 m3 * ((-251) * mU32 * Misc.pow4 mQ3 - 1025
    * mQ32 * Misc.pow4 mU3 + 9 * Misc.pow6 mQ3 - 13 * Misc.pow6 mU3) + (902 * mQ32 * mU32 + 98 * Misc.pow4 mQ3 + 280 *
    Misc.pow4 mU3) * Misc.pow8 m3 + Misc.pow4 m3 * (417 * Misc.pow4 mQ3 * Misc.pow4 mU3 - 151 * mU32 * Misc.pow6 mQ3 + 391 *
    mQ32 * Misc.pow6 mU3 + 20 * Misc.pow8 mQ3 - 37 * Misc.pow8 mU3) - 2 * (147 * mQ32 + 173 * mU32) * Misc.power10 m3 + m32 *
    (41 * Misc.pow4 mU3 * Misc.pow6 mQ3 - 167 * Misc.pow4 mQ3 * Misc.pow6 mU3 + 41 * mU32 * Misc.pow8 mQ3 - 34 * mQ32 *
    Misc.pow8 mU3 - 9 * Misc.power10 mQ3)) + (m32 - mU32) * pow2 lmQ3MR * ((-4) * (139 * mQ32 + 85 * mU32) * Misc.pow14 m3 +
    128 * Misc.pow16 m3 + 2 * Misc.pow12 m3 * ((-30) * msq2 * mU32 + mQ32 * (30 * msq2 + 856 * mU32) + 357 * Misc.pow4 mQ3 +
    131 * Misc.pow4 mU3) - (mQ32 - mU32) * mU32 * Misc.pow4 mQ3 * (21 * Misc.pow4 mQ3 * Misc.pow4 mU3 + 30 * Misc.pow4 msq *
    Misc.pow4 mU3 + 4 * mU32 * Misc.pow6 mQ3 + 3 * Misc.pow8 mQ3) + Misc.pow8 m3 * (-(Misc.pow4 mU3 * (180 * msq2 * mU32 + 270
    * Misc.pow4 msq + 43 * Misc.pow4 mU3)) + Misc.pow4 mQ3 * ((-180) * msq2 * mU32 + 60 * Misc.pow4 msq + 2771 * Misc.pow4
    mU3) + ((-180) * msq2 + 933 * mU32) * Misc.pow6 mQ3 + 3 * mQ32 * (70 * mU32 * Misc.pow4 msq + 180 * msq2 * Misc.pow4 mU3 +
    241 * Misc.pow6 mU3) + 96 * Misc.pow8 mQ3) + ((120 * msq2 - 2209 * mU32) * Misc.pow4 mQ3 - mQ32 * (300 * msq2 * mU32 + 90
    * Misc.pow4 msq + 1903 * Misc.pow4 mU3) - 373 * Misc.pow6 mQ3 + 5 * (18 * mU32 * Misc.pow4 msq + 36 * msq2 * Misc.pow4 mU3
    + Misc.pow6 mU3)) * Misc.power10 m3 - 2 * Misc.pow6 m3 * ((-3) * (90 * msq2 * mU32 + 5 * Misc.pow4 msq - 251 * Misc.pow4
    mU3) * Misc.pow6 mQ3 + Misc.pow4 mQ3 * (105 * mU32 * Misc.pow4 msq + 90 * msq2 * Misc.pow4 mU3 + 593 * Misc.pow6 mU3) - 53
    * mU32 * Misc.pow8 mQ3 + 15 * mQ32 * (3 * Misc.pow4 msq * Misc.pow4 mU3 + 14 * msq2 * Misc.pow6 mU3 + 2 * Misc.pow8 mU3) -
    15 * (9 * Misc.pow4 msq * Misc.pow6 mU3 + 2 * msq2 * Misc.pow8 mU3) + 21 * Misc.power10 mQ3) + 2 * Misc.pow4 m3 * (19 *
    Misc.pow12 mQ3 - 5 * Misc.pow6 mQ3 * (9 * mU32 * Misc.pow4 msq + 54 * msq2 * Misc.pow4 mU3 - 61 * Misc.pow6 mU3) + 158 *
    Misc.pow4 mU3 * Misc.pow8 mQ3 - 45 * Misc.pow4 msq * Misc.pow8 mU3 + 3 * Misc.pow4 mQ3 * (45 * Misc.pow4 msq * Misc.pow4
    mU3 + 70 * msq2 * Misc.pow6 mU3 + 27 * Misc.pow8 mU3) + mQ32 * ((-45) * Misc.pow4 msq * Misc.pow6 mU3 + 60 * msq2 *
    Misc.pow8 mU3) - 115 * mU32 * Misc.power10 mQ3) + m32 * (47 * mU32 * Misc.pow12 mQ3 - 9 * Misc.pow14 mQ3 - 119 * Misc.pow6
    mU3 * Misc.pow8 mQ3 + 6 * Misc.pow6 mQ3 * (15 * Misc.pow4 msq * Misc.pow4 mU3 + 30 * msq2 * Misc.pow6 mU3 - 14 * Misc.pow8
    mU3) + 60 * mQ32 * Misc.pow4 msq * Misc.pow8 mU3 - 30 * Misc.pow4 mQ3 * (5 * Misc.pow4 msq * Misc.pow6 mU3 + 6 * msq2 *
    Misc.pow8 mU3) + 37 * Misc.pow4 mU3 * Misc.power10 mQ3)) - 2 * (m32 - mQ32) * dilog (1 - m32 / mU32) * pow2 (m32 - mU32) *
    (128 * Misc.pow12 m3 - Misc.pow6 m3 * (1025 * mU32 * Misc.pow4 mQ3 + 251 * mQ32 * Misc.pow4 mU3 + 13 * Misc.pow6 mQ3 - 9 *
    Misc.pow6 mU3) + mQ32 * Misc.pow4 mU3 * ((-19) * mU32 * Misc.pow4 mQ3 - mQ32 * Misc.pow4 mU3 + 23 * Misc.pow6 mQ3 - 3 *
    Misc.pow6 mU3) + (902 * mQ32 * mU32 + 280 * Misc.pow4 mQ3 + 98 * Misc.pow4 mU3) * Misc.pow8 m3 + Misc.pow4 m3 * (417 *
    Misc.pow4 mQ3 * Misc.pow4 mU3 + 391 * mU32 * Misc.pow6 mQ3 - 151 * mQ32 * Misc.pow6 mU3 - 37 * Misc.pow8 mQ3 + 20 *
    Misc.pow8 mU3) - 2 * (173 * mQ32 + 147 * mU32) * Misc.power10 m3 + m32 * ((-167) * Misc.pow4 mU3 * Misc.pow6 mQ3 + 41 *
    Misc.pow4 mQ3 * Misc.pow6 mU3 - 34 * mU32 * Misc.pow8 mQ3 + 41 * mQ32 * Misc.pow8 mU3 - 9 * Misc.power10 mU3)) + 2 * (m32
    - mU32) * (lmQ3MR - logQ3U3) * pow2 (m32 - mQ32) * (180 * msq2 * mU32 * Misc.pow4 m3 * Misc.pow4 mQ3 - 210 * mQ32 * msq2 *
    Misc.pow4 m3 * Misc.pow4 mU3 + 150 * m32 * msq2 * Misc.pow4 mQ3 * Misc.pow4 mU3 + 942 * Misc.pow4 m3 * Misc.pow4 mQ3 *
    Misc.pow4 mU3 - 90 * mQ32 * msq2 * mU32 * Misc.pow6 m3 - 622 * mU32 * Misc.pow4 mQ3 * Misc.pow6 m3 - 985 * mQ32 *
    Misc.pow4 mU3 * Misc.pow6 m3 + 90 * msq2 * Misc.pow4 mU3 * Misc.pow6 m3 - 90 * m32 * msq2 * mU32 * Misc.pow6 mQ3 + 163 *
    mU32 * Misc.pow4 m3 * Misc.pow6 mQ3 - 271 * m32 * Misc.pow4 mU3 * Misc.pow6 mQ3 - 30 * msq2 * Misc.pow4 mU3 * Misc.pow6
    mQ3 + 53 * Misc.pow6 m3 * Misc.pow6 mQ3 - 60 * m32 * mQ32 * msq2 * Misc.pow6 mU3 + 25 * mQ32 * Misc.pow4 m3 * Misc.pow6
    mU3 + 30 * msq2 * Misc.pow4 m3 * Misc.pow6 mU3 - 246 * m32 * Misc.pow4 mQ3 * Misc.pow6 mU3 + 30 * msq2 * Misc.pow4 mQ3 *
    Misc.pow6 mU3 + 18 * Misc.pow6 m3 * Misc.pow6 mU3 + 131 * Misc.pow6 mQ3 * Misc.pow6 mU3 - 10 * (mQ32 - mU32) * (lmQ3MR -
    logQ3mq) * pow2 (m32 - mQ32) * (2 * (3 * msq2 + mU32) * Misc.pow4 m3 - 3 * mU32 * Misc.pow4 msq - 3 * m32 * ((-6) * msq2 *
    mU32 + 3 * Misc.pow4 msq + Misc.pow4 mU3) + Misc.pow6 mU3) + 764 * mQ32 * mU32 * Misc.pow8 m3 - 105 * Misc.pow4 mQ3 *
    Misc.pow8 m3 + 365 * Misc.pow4 mU3 * Misc.pow8 m3 - 9 * m32 * mU32 * Misc.pow8 mQ3 - 3 * Misc.pow4 mU3 * Misc.pow8 mQ3 +
    279 * m32 * mQ32 * Misc.pow8 mU3 - 106 * Misc.pow4 m3 * Misc.pow8 mU3 - 125 * Misc.pow4 mQ3 * Misc.pow8 mU3 + 52 * mQ32 *
    Misc.power10 m3 - 308 * mU32 * Misc.power10 m3 - 9 * m32 * Misc.power10 mU3 - 3 * mQ32 * Misc.power10 mU3))) / (3 * mQ32 *
    mU32 * Misc.pow4 (m32 - mQ32) * Misc.pow4 (m32 - mU32) * Misc.pow4 (mQ32 - mU32)) + (-32) * Xt5 * (32 * pow2 (m32 - mQ32)
    * pow2 (m32 - mU32) * (m3 * (m32 - mQ32) * mU32 * logQ3U3 + (mQ32 - mU32) * logQ3m3 * Misc.pow3 m3) * (mQ32 * (mQ32 -
    mU32) * mU32 * ((-2) * m32 + mQ32 + mU32) * dilog (1 - m32 / mQ32) + m32 * mU32 * Misc.pow4 mQ3 - lmQ3MR * m32 * mU32 *
    Misc.pow4 mQ3 + m32 * mU32 * logQ3m3 * Misc.pow4 mQ3 + 2 * m32 * mU32 * logQ3U3 * Misc.pow4 mQ3 - 2 * lmQ3MR * m32 * mU32
    * logQ3U3 * Misc.pow4 mQ3 + m32 * mU32 * pow2 logQ3U3 * Misc.pow4 mQ3 + m32 * mQ32 * Misc.pow4 mU3 - lmQ3MR * m32 * mQ32 *
    Misc.pow4 mU3 + m32 * mQ32 * logQ3m3 * Misc.pow4 mU3 - 2 * m32 * mQ32 * logQ3U3 * Misc.pow4 mU3 + 2 * lmQ3MR * m32 * mQ32
    * logQ3U3 * Misc.pow4 mU3 - m32 * mQ32 * pow2 logQ3U3 * Misc.pow4 mU3 + 12 * Misc.pow4 mQ3 * Misc.pow4 mU3 - 8 * lmQ3MR *
    Misc.pow4 mQ3 * Misc.pow4 mU3 + 4 * logQ3U3 * Misc.pow4 mQ3 * Misc.pow4 mU3 - 2 * pow2 logQ3U3 * Misc.pow4 mQ3 * Misc.pow4
    mU3 + mQ32 * mU32 * dilog (1 - m32 / mU32) * (2 * m32 * (mQ32 - mU32) - Misc.pow4 mQ3 + Misc.pow4 mU3) - m32 * Misc.pow6
    mQ3 + lmQ3MR * m32 * Misc.pow6 mQ3 - 6 * mU32 * Misc.pow6 mQ3 + 4 * lmQ3MR * mU32 * Misc.pow6 mQ3 - m32 * logQ3m3 *
    Misc.pow6 mQ3 + 3 * mU32 * logQ3U3 * Misc.pow6 mQ3 - 2 * lmQ3MR * mU32 * logQ3U3 * Misc.pow6 mQ3 - m32 * Misc.pow6 mU3 +
    lmQ3MR * m32 * Misc.pow6 mU3 - 6 * mQ32 * Misc.pow6 mU3 + 4 * lmQ3MR * mQ32 * Misc.pow6 mU3 - m32 * logQ3m3 * Misc.pow6
    mU3 - 7 * mQ32 * logQ3U3 * Misc.pow6 mU3 + 2 * lmQ3MR * mQ32 * logQ3U3 * Misc.pow6 mU3 - 2 * mQ32 * pow2 logQ3U3 *
    Misc.pow6 mU3) - mQ32 * mU32 * (2 * (mQ32 - mU32) - (mQ32 + mU32) * logQ3U3) * ((-60) * m3 * (m32 - mQ32) * (m32 - msq2) *
    (m32 - mU32) * (mQ32 * (msq2 - 2 * mU32) + msq2 * mU32 + m32 * (mQ32 - 2 * msq2 + mU32)) * dilog (1 - m32 / msq2) * pow2
    (mQ32 - mU32) - 60 * m3 * msq2 * (lmQ3MR - logQ3mq) * pow2 (m32 - mQ32) * pow2 (m32 - mU32) * pow2 (mQ32 - mU32) - 30 * m3
    * (m32 - mQ32) * (m32 - mU32) * (mQ32 - mU32) * (pow2 (mQ32 - msq2) * pow2 (m32 - mU32) - pow2 (m32 - mQ32) * pow2 (msq2 -
    mU32)) * pow2 (lmQ3MR - logQ3mq) + 2 * pow2 (m32 - mQ32) * pow2 (m32 - mU32) * pow2 (mQ32 - mU32) * ((-3) * m3 * (mQ32 +
    10 * msq2 + mU32) + 14 * Misc.pow3 m3) + 60 * m3 * (m32 - mU32) * (mQ32 - mU32) * dilog (1 - msq2 / mU32) * pow2 (msq2 -
    mU32) * Misc.pow3 (m32 - mQ32) - 60 * m3 * (m32 - mQ32) * (mQ32 - mU32) * dilog (1 - msq2 / mQ32) * pow2 (mQ32 - msq2) *
    Misc.pow3 (m32 - mU32) + 2 * m3 * (m32 - mQ32) * (m32 - mU32) * dilog (1 - mQ32 / mU32) * Misc.pow3 (mQ32 - mU32) *
    (-(mQ32 * mU32) - 5 * m32 * (mQ32 + mU32) + 5 * Misc.pow4 m3 + 3 * Misc.pow4 mQ3 + 3 * Misc.pow4 mU3) - 2 * m3 * (m32 -
    mQ32) * (mQ32 - mU32) * dilog (1 - m32 / mU32) * Misc.pow3 (m32 - mU32) * ((-7) * mQ32 * mU32 + m32 * ((-37) * mQ32 +
    mU32) + 18 * Misc.pow4 m3 + 22 * Misc.pow4 mQ3 + 3 * Misc.pow4 mU3) + 2 * m3 * (m32 - mU32) * (mQ32 - mU32) * dilog (1 -
    m32 / mQ32) * Misc.pow3 (m32 - mQ32) * (m32 * (mQ32 - 37 * mU32) - 7 * mQ32 * mU32 + 18 * Misc.pow4 m3 + 3 * Misc.pow4 mQ3
    + 22 * Misc.pow4 mU3) + 12 * m3 * (mQ32 - mU32) * (m32 * (mQ32 - mU32) * logQ3m3 + (m32 - mQ32) * mU32 * logQ3U3) *
    (-((m32 - mQ32) * ((m32 - mQ32) * (2 * m32 - mU32) * mU32 * logQ3U3 + (m32 - mU32) * ((1 + 2 * lmQ3MR) * mQ32 * mU32 - 2 *
    lmQ3MR * m32 * (mQ32 + mU32) + (-1 + 2 * lmQ3MR) * Misc.pow4 m3))) + logQ3m3 * Misc.pow4 m3 * ((-2) * m32 * (mQ32 + mU32)
    + 2 * Misc.pow4 m3 + Misc.pow4 mQ3 + Misc.pow4 mU3)) - 2 * m3 * (m32 - mU32) * (mQ32 - mU32) * (lmQ3MR - logQ3U3) * pow2
    (m32 - mQ32) * ((-53) * m32 * mQ32 * mU32 - 30 * m32 * msq2 * mU32 + 30 * mQ32 * msq2 * mU32 - 16 * mQ32 * Misc.pow4 m3 +
    55 * mU32 * Misc.pow4 m3 + 3 * mU32 * Misc.pow4 mQ3 - 61 * m32 * Misc.pow4 mU3 + 53 * mQ32 * Misc.pow4 mU3 + 5 * (m32 -
    mQ32) * (lmQ3MR - logQ3mq) * (-(m32 * mU32) - 12 * msq2 * mU32 + 6 * Misc.pow4 msq + Misc.pow4 mU3) + 16 * Misc.pow6 m3 +
    3 * Misc.pow6 mU3) - pow2 (lmQ3MR - logQ3U3) * Misc.pow3 (m32 - mQ32) * (-((69 * mQ32 * mU32 + Misc.pow4 mQ3 - 86 *
    Misc.pow4 mU3) * Misc.pow5 m3) + Misc.pow3 m3 * (11 * mU32 * Misc.pow4 mQ3 + 30 * mU32 * Misc.pow4 msq - 60 * msq2 *
    Misc.pow4 mU3 + mQ32 * (60 * msq2 * mU32 - 30 * Misc.pow4 msq + 59 * Misc.pow4 mU3) - 3 * Misc.pow6 mQ3 - 99 * Misc.pow6
    mU3) + m3 * mU32 * ((-10) * mU32 * Misc.pow4 mQ3 - 30 * mU32 * Misc.pow4 msq + mQ32 * ((-60) * msq2 * mU32 + 30 *
    Misc.pow4 msq - 4 * Misc.pow4 mU3) + 60 * msq2 * Misc.pow4 mU3 + 3 * Misc.pow6 mQ3 + 27 * Misc.pow6 mU3) + 18 * (mQ32 -
    mU32) * Misc.pow7 m3) + 2 * pow2 (mQ32 - mU32) * pow2 (lmQ3MR - logQ3m3) * Misc.pow3 m3 * ((-142) * m32 * mQ32 * mU32 *
    (mQ32 + mU32) + 87 * Misc.pow4 mQ3 * Misc.pow4 mU3 + Misc.pow4 m3 * (220 * mQ32 * mU32 + 57 * Misc.pow4 mQ3 + 57 *
    Misc.pow4 mU3) - 82 * (mQ32 + mU32) * Misc.pow6 m3 + 27 * Misc.pow8 m3) - (mQ32 - mU32) * (lmQ3MR - logQ3m3) * (2 * (m32 -
    mQ32) * (m32 - mU32) * (mQ32 - mU32) * Misc.pow3 m3 * (3 * mU32 * (10 * msq2 + mU32) - 15 * m32 * (5 * mQ32 + 4 * msq2 + 5
    * mU32) + mQ32 * (30 * msq2 + 59 * mU32) + 85 * Misc.pow4 m3 + 3 * Misc.pow4 mQ3) - 10 * (m32 - mQ32) * (m32 - mU32) *
    (mQ32 - mU32) * (lmQ3MR - logQ3mq) * ((-11) * mQ32 * mU32 * Misc.pow3 m3 + 5 * (mQ32 + mU32) * Misc.pow5 m3 + Misc.pow7
    m3) + lmQ3MR * (m32 - mU32) * (68 * Misc.pow11 m3 + 12 * m3 * Misc.pow4 mU3 * Misc.pow6 mQ3 + Misc.pow5 m3 * ((-215) *
    mU32 * Misc.pow4 mQ3 - 184 * mQ32 * Misc.pow4 mU3 + 3 * Misc.pow6 mQ3) + Misc.pow3 m3 * (105 * Misc.pow4 mQ3 * Misc.pow4
    mU3 - 17 * mU32 * Misc.pow6 mQ3) + (353 * mQ32 * mU32 + 120 * Misc.pow4 mQ3 + 75 * Misc.pow4 mU3) * Misc.pow7 m3 - (183 *
    mQ32 + 137 * mU32) * Misc.pow9 m3) - (m32 - mQ32) * (lmQ3MR - logQ3U3) * (68 * Misc.pow11 m3 + 12 * m3 * Misc.pow4 mQ3 *
    Misc.pow6 mU3 + Misc.pow5 m3 * ((-184) * mU32 * Misc.pow4 mQ3 - 215 * mQ32 * Misc.pow4 mU3 + 3 * Misc.pow6 mU3) +
    Misc.pow3 m3 * (105 * Misc.pow4 mQ3 * Misc.pow4 mU3 - 17 * mQ32 * Misc.pow6 mU3) + (353 * mQ32 * mU32 + 75 * Misc.pow4 mQ3
    + 120 * Misc.pow4 mU3) * Misc.pow7 m3 - (137 * mQ32 + 183 * mU32) * Misc.pow9 m3)) - (m32 - mU32) * pow2 lmQ3MR * ((-18) *
    (mQ32 - mU32) * Misc.pow11 m3 - 2 * ((30 * msq2 + 49 * mU32) * Misc.pow4 mQ3 + 15 * mU32 * Misc.pow4 msq - mQ32 * (30 *
    msq2 * mU32 + 15 * Misc.pow4 msq + 58 * Misc.pow4 mU3) + 52 * Misc.pow6 mQ3 - 11 * Misc.pow6 mU3) * Misc.pow7 m3 +
    Misc.pow5 m3 * (60 * Misc.pow4 msq * Misc.pow4 mU3 - 3 * Misc.pow4 mQ3 * ((-20) * msq2 * mU32 + 10 * Misc.pow4 msq + 9 *
    Misc.pow4 mU3) + (60 * msq2 + 169 * mU32) * Misc.pow6 mQ3 - mQ32 * (30 * mU32 * Misc.pow4 msq + 120 * msq2 * Misc.pow4 mU3
    + 83 * Misc.pow6 mU3) + 37 * Misc.pow8 mQ3) + ((-33) * mQ32 * mU32 + 86 * Misc.pow4 mQ3 - 37 * Misc.pow4 mU3) * Misc.pow9
    m3 + m3 * mQ32 * ((-30) * mQ32 * msq2 * (msq2 + 2 * mU32) * Misc.pow4 mU3 + 42 * Misc.pow4 mU3 * Misc.pow6 mQ3 + Misc.pow4
    mQ3 * (60 * msq2 * Misc.pow4 mU3 - 19 * Misc.pow6 mU3) + 30 * Misc.pow4 msq * Misc.pow6 mU3 - 10 * mU32 * Misc.pow8 mQ3 +
    3 * Misc.power10 mQ3) - 2 * Misc.pow3 m3 * (15 * mQ32 * msq2 * (msq2 - 2 * mU32) * Misc.pow4 mU3 + (60 * msq2 * mU32 + 53
    * Misc.pow4 mU3) * Misc.pow6 mQ3 + 15 * Misc.pow4 msq * Misc.pow6 mU3 - 6 * Misc.pow4 mQ3 * (5 * mU32 * Misc.pow4 msq + 5
    * msq2 * Misc.pow4 mU3 + 7 * Misc.pow6 mU3) + 17 * mU32 * Misc.pow8 mQ3 + 4 * Misc.power10 mQ3)) + lmQ3MR * (m32 - mQ32) *
    (m32 - mU32) * ((-10) * m3 * (mQ32 - mU32) * (lmQ3MR - logQ3mq) * pow2 (m32 - mU32) * (m32 * mQ32 + 12 * mQ32 * msq2 -
    Misc.pow4 mQ3 - 6 * Misc.pow4 msq) + 2 * (m32 - mU32) * (mQ32 - mU32) * (-(mQ32 * (61 * mQ32 + 30 * msq2 + 53 * mU32) *
    Misc.pow3 m3) + m3 * mQ32 * (53 * mQ32 * mU32 + 30 * msq2 * mU32 + 3 * Misc.pow4 mQ3 + 3 * Misc.pow4 mU3) + (55 * mQ32 -
    16 * mU32) * Misc.pow5 m3 + 16 * Misc.pow7 m3) - m3 * (lmQ3MR - logQ3U3) * (((-34) * mQ32 * mU32 + Misc.pow4 mQ3 +
    Misc.pow4 mU3) * Misc.pow6 m3 + 38 * Misc.pow4 mU3 * Misc.pow6 mQ3 + Misc.pow4 m3 * (29 * mU32 * Misc.pow4 mQ3 + 59 * mQ32
    * Misc.pow4 mU3 + 9 * Misc.pow6 mQ3 - Misc.pow6 mU3) + 8 * Misc.pow4 mQ3 * Misc.pow6 mU3 - 20 * mU32 * Misc.pow8 mQ3 - m32
    * (88 * Misc.pow4 mQ3 * Misc.pow4 mU3 - 11 * mU32 * Misc.pow6 mQ3 + 9 * mQ32 * Misc.pow6 mU3 + 10 * Misc.pow8 mQ3) + 6 *
    Misc.power10 mQ3)))) / (3 * mQ32 * mU32 * Misc.pow3 (m32 - mQ32) * Misc.pow3 (m32 - mU32) * Misc.pow5 (mQ32 - mU32)) +
    1280 * Xt6 * ((-2) * mQ32 + 2 * mU32 + (mQ32 + mU32) * logQ3U3) * pow2 (m3 * (m32 - mQ32) * mU32 * logQ3U3 + (mQ32 - mU32)
    * logQ3m3 * Misc.pow3 m3) / (3 * pow2 (m32 - mQ32) * pow2 (m32 - mU32) * Misc.pow5 (mQ32 - mU32))

/-- `getDRbarPrimeToMSbarXtTerms`, case `MQ3_EQ_MU3`; mh2_eft/ThresholdCalculator.cpp:4692-4802 -/
def xtTermsQU (dilog : F → F) (m32 mQ32 mU32 msq2 m3 mQ3 mU3 msq lmQ3MR Xt4 Xt5 Xt6 : F) : F :=
    let logQ3m3 := log (mQ32 / m32)
    let logQ3mq := log (mQ32 / msq2)
    let logmqQ3 := -logQ3mq
    let logm3Q3 := -logQ3m3
    2 * Xt4 * (120 * (m32 - mQ32) * mQ32 * (m32 - msq2) * dilog (1 - m32 / msq2) * (mQ32 * msq2 + m32 * ((-5) * mQ32 + 3 *
    msq2) + Misc.pow4 m3) + 600 * msq2 * Misc.pow4 m3 * Misc.pow4 mQ3 + 480 * msq2 * dilog (1 - msq2 / mQ32) * Misc.pow4 m3 *
    Misc.pow4 mQ3 + 240 * msq2 * logQ3m3 * Misc.pow4 m3 * Misc.pow4 mQ3 - 600 * msq2 * logQ3mq * Misc.pow4 m3 * Misc.pow4 mQ3
    + 240 * msq2 * pow2 logQ3mq * Misc.pow4 m3 * Misc.pow4 mQ3 + 8 * dilog (1 - m32 / mQ32) * pow2 (-(m32 * mQ3) + Misc.pow3
    mQ3) * ((-20) * m32 * mQ32 - 19 * Misc.pow4 m3 + 15 * Misc.pow4 mQ3) - 360 * mQ32 * dilog (1 - msq2 / mQ32) * Misc.pow4 m3
    * Misc.pow4 msq - 180 * mQ32 * pow2 logQ3mq * Misc.pow4 m3 * Misc.pow4 msq + 240 * m32 * dilog (1 - msq2 / mQ32) *
    Misc.pow4 mQ3 * Misc.pow4 msq + 120 * m32 * pow2 logQ3mq * Misc.pow4 mQ3 * Misc.pow4 msq - 360 * mQ32 * msq2 * Misc.pow6
    m3 + 240 * mQ32 * msq2 * dilog (1 - msq2 / mQ32) * Misc.pow6 m3 - 360 * mQ32 * msq2 * logQ3m3 * Misc.pow6 m3 + 360 * mQ32
    * msq2 * logQ3mq * Misc.pow6 m3 + 120 * mQ32 * msq2 * pow2 logQ3mq * Misc.pow6 m3 - 10684 * Misc.pow4 mQ3 * Misc.pow6 m3 +
    13512 * lmQ3MR * Misc.pow4 mQ3 * Misc.pow6 m3 - 240 * dilog (1 - msq2 / mQ32) * Misc.pow4 mQ3 * Misc.pow6 m3 + 19228 *
    logm3Q3 * Misc.pow4 mQ3 * Misc.pow6 m3 + 11312 * lmQ3MR * logm3Q3 * Misc.pow4 mQ3 * Misc.pow6 m3 - 524 * logQ3m3 *
    Misc.pow4 mQ3 * Misc.pow6 m3 + 18144 * lmQ3MR * logQ3m3 * Misc.pow4 mQ3 * Misc.pow6 m3 + 24360 * logm3Q3 * logQ3m3 *
    Misc.pow4 mQ3 * Misc.pow6 m3 - 1680 * logQ3mq * Misc.pow4 mQ3 * Misc.pow6 m3 + 480 * lmQ3MR * logQ3mq * Misc.pow4 mQ3 *
    Misc.pow6 m3 - 2020 * logm3Q3 * logQ3mq * Misc.pow4 mQ3 * Misc.pow6 m3 - 1700 * logQ3m3 * logQ3mq * Misc.pow4 mQ3 *
    Misc.pow6 m3 - 4688 * pow2 lmQ3MR * Misc.pow4 mQ3 * Misc.pow6 m3 + 16672 * pow2 logQ3m3 * Misc.pow4 mQ3 * Misc.pow6 m3 -
    120 * pow2 logQ3mq * Misc.pow4 mQ3 * Misc.pow6 m3 - 120 * m32 * msq2 * Misc.pow6 mQ3 - 720 * m32 * msq2 * dilog (1 - msq2
    / mQ32) * Misc.pow6 mQ3 + 120 * m32 * msq2 * logQ3m3 * Misc.pow6 mQ3 + 120 * m32 * msq2 * logQ3mq * Misc.pow6 mQ3 - 360 *
    m32 * msq2 * pow2 logQ3mq * Misc.pow6 mQ3 + 14474 * Misc.pow4 m3 * Misc.pow6 mQ3 - 14104 * lmQ3MR * Misc.pow4 m3 *
    Misc.pow6 mQ3 - 120 * dilog (1 - msq2 / mQ32) * Misc.pow4 m3 * Misc.pow6 mQ3 - 13712 * logm3Q3 * Misc.pow4 m3 * Misc.pow6
    mQ3 - 8064 * lmQ3MR * logm3Q3 * Misc.pow4 m3 * Misc.pow6 mQ3 + 2504 * logQ3m3 * Misc.pow4 m3 * Misc.pow6 mQ3 - 11240 *
    lmQ3MR * logQ3m3 * Misc.pow4 m3 * Misc.pow6 mQ3 + 1728 * logm3Q3 * logQ3m3 * Misc.pow4 m3 * Misc.pow6 mQ3 + 2000 * logQ3mq
    * Misc.pow4 m3 * Misc.pow6 mQ3 - 320 * lmQ3MR * logQ3mq * Misc.pow4 m3 * Misc.pow6 mQ3 + 1440 * logm3Q3 * logQ3mq *
    Misc.pow4 m3 * Misc.pow6 mQ3 + 1000 * logQ3m3 * logQ3mq * Misc.pow4 m3 * Misc.pow6 mQ3 + 4792 * pow2 lmQ3MR * Misc.pow4 m3
    * Misc.pow6 mQ3 + 2548 * pow2 logQ3m3 * Misc.pow4 m3 * Misc.pow6 mQ3 - 60 * pow2 logQ3mq * Misc.pow4 m3 * Misc.pow6 mQ3 +
    120 * dilog (1 - msq2 / mQ32) * Misc.pow4 msq * Misc.pow6 mQ3 + 60 * pow2 logQ3mq * Misc.pow4 msq * Misc.pow6 mQ3 + 2463 *
    mQ32 * Misc.pow8 m3 - 5440 * lmQ3MR * mQ32 * Misc.pow8 m3 - 5680 * mQ32 * logm3Q3 * Misc.pow8 m3 - 7168 * lmQ3MR * mQ32 *
    logm3Q3 * Misc.pow8 m3 - 248 * mQ32 * logQ3m3 * Misc.pow8 m3 - 11720 * lmQ3MR * mQ32 * logQ3m3 * Misc.pow8 m3 - 21312 *
    mQ32 * logm3Q3 * logQ3m3 * Misc.pow8 m3 + 640 * mQ32 * logQ3mq * Misc.pow8 m3 - 320 * lmQ3MR * mQ32 * logQ3mq * Misc.pow8
    m3 + 1280 * mQ32 * logm3Q3 * logQ3mq * Misc.pow8 m3 + 1480 * mQ32 * logQ3m3 * logQ3mq * Misc.pow8 m3 + 2292 * mQ32 * pow2
    lmQ3MR * Misc.pow8 m3 - 18996 * mQ32 * pow2 logQ3m3 * Misc.pow8 m3 - 5868 * m32 * Misc.pow8 mQ3 + 6312 * lmQ3MR * m32 *
    Misc.pow8 mQ3 - 120 * msq2 * Misc.pow8 mQ3 + 480 * m32 * dilog (1 - msq2 / mQ32) * Misc.pow8 mQ3 - 630 * m32 * logm3Q3 *
    Misc.pow8 mQ3 + 2184 * lmQ3MR * m32 * logm3Q3 * Misc.pow8 mQ3 - 2142 * m32 * logQ3m3 * Misc.pow8 mQ3 + 2280 * lmQ3MR * m32
    * logQ3m3 * Misc.pow8 mQ3 - 468 * m32 * logm3Q3 * logQ3m3 * Misc.pow8 mQ3 - 1120 * m32 * logQ3mq * Misc.pow8 mQ3 + 80 *
    lmQ3MR * m32 * logQ3mq * Misc.pow8 mQ3 + 120 * msq2 * logQ3mq * Misc.pow8 mQ3 - 390 * m32 * logm3Q3 * logQ3mq * Misc.pow8
    mQ3 - 390 * m32 * logQ3m3 * logQ3mq * Misc.pow8 mQ3 - 2448 * m32 * pow2 lmQ3MR * Misc.pow8 mQ3 - 180 * m32 * pow2 logQ3m3
    * Misc.pow8 mQ3 + 240 * m32 * pow2 logQ3mq * Misc.pow8 mQ3 - 176 * Misc.power10 m3 + 624 * lmQ3MR * Misc.power10 m3 + 794
    * logm3Q3 * Misc.power10 m3 + 1736 * lmQ3MR * logm3Q3 * Misc.power10 m3 + 266 * logQ3m3 * Misc.power10 m3 + 2536 * lmQ3MR
    * logQ3m3 * Misc.power10 m3 + 6572 * logm3Q3 * logQ3m3 * Misc.power10 m3 - 80 * logQ3mq * Misc.power10 m3 + 80 * lmQ3MR *
    logQ3mq * Misc.power10 m3 - 310 * logm3Q3 * logQ3mq * Misc.power10 m3 - 390 * logQ3m3 * logQ3mq * Misc.power10 m3 - 448 *
    pow2 lmQ3MR * Misc.power10 m3 + 6220 * pow2 logQ3m3 * Misc.power10 m3 - 209 * Misc.power10 mQ3 - 904 * lmQ3MR *
    Misc.power10 mQ3 - 120 * dilog (1 - msq2 / mQ32) * Misc.power10 mQ3 + 144 * logQ3m3 * Misc.power10 mQ3 + 240 * logQ3mq *
    Misc.power10 mQ3 + 500 * pow2 lmQ3MR * Misc.power10 mQ3 - 72 * pow2 logQ3m3 * Misc.power10 mQ3 - 60 * pow2 logQ3mq *
    Misc.power10 mQ3) / (9 * Misc.pow4 (m32 - mQ32) * Misc.pow6 mQ3) + (-32) * m3 * Xt5 * (60 * mQ32 * (-m32 + mQ32) * (m32 -
    msq2) * (mQ32 - msq2) * dilog (1 - m32 / msq2) + 2 * mQ32 * dilog (1 - m32 / mQ32) * Misc.pow3 (m32 - mQ32) - 60 * mQ32 *
    msq2 * Misc.pow4 m3 + 60 * mQ32 * msq2 * dilog (1 - msq2 / mQ32) * Misc.pow4 m3 - 60 * mQ32 * msq2 * logQ3m3 * Misc.pow4
    m3 + 90 * mQ32 * msq2 * logQ3mq * Misc.pow4 m3 + 30 * mQ32 * msq2 * logmqQ3 * Misc.pow4 m3 + 30 * mQ32 * msq2 * pow2
    logQ3mq * Misc.pow4 m3 + 120 * m32 * msq2 * Misc.pow4 mQ3 + 60 * m32 * msq2 * logQ3m3 * Misc.pow4 mQ3 - 180 * m32 * msq2 *
    logQ3mq * Misc.pow4 mQ3 - 60 * m32 * msq2 * logmqQ3 * Misc.pow4 mQ3 - 345 * Misc.pow4 m3 * Misc.pow4 mQ3 + 274 * lmQ3MR *
    Misc.pow4 m3 * Misc.pow4 mQ3 - 60 * dilog (1 - msq2 / mQ32) * Misc.pow4 m3 * Misc.pow4 mQ3 - 342 * logm3Q3 * Misc.pow4 m3
    * Misc.pow4 mQ3 - 538 * logQ3m3 * Misc.pow4 m3 * Misc.pow4 mQ3 + 220 * lmQ3MR * logQ3m3 * Misc.pow4 m3 * Misc.pow4 mQ3 -
    492 * logm3Q3 * logQ3m3 * Misc.pow4 m3 * Misc.pow4 mQ3 - 15 * logQ3mq * Misc.pow4 m3 * Misc.pow4 mQ3 + 50 * logQ3m3 *
    logQ3mq * Misc.pow4 m3 * Misc.pow4 mQ3 - 602 * pow2 logQ3m3 * Misc.pow4 m3 * Misc.pow4 mQ3 - 30 * pow2 logQ3mq * Misc.pow4
    m3 * Misc.pow4 mQ3 - 60 * m32 * mQ32 * dilog (1 - msq2 / mQ32) * Misc.pow4 msq + 60 * m32 * mQ32 * logQ3mq * Misc.pow4 msq
    + 60 * m32 * mQ32 * logmqQ3 * Misc.pow4 msq - 30 * m32 * mQ32 * pow2 logQ3mq * Misc.pow4 msq - 30 * logQ3mq * Misc.pow4 m3
    * Misc.pow4 msq - 30 * logmqQ3 * Misc.pow4 m3 * Misc.pow4 msq + 60 * dilog (1 - msq2 / mQ32) * Misc.pow4 mQ3 * Misc.pow4
    msq - 30 * logQ3mq * Misc.pow4 mQ3 * Misc.pow4 msq - 30 * logmqQ3 * Misc.pow4 mQ3 * Misc.pow4 msq + 30 * pow2 logQ3mq *
    Misc.pow4 mQ3 * Misc.pow4 msq + 163 * mQ32 * Misc.pow6 m3 - 122 * lmQ3MR * mQ32 * Misc.pow6 m3 + 70 * mQ32 * logm3Q3 *
    Misc.pow6 m3 + 277 * mQ32 * logQ3m3 * Misc.pow6 m3 - 156 * lmQ3MR * mQ32 * logQ3m3 * Misc.pow6 m3 + 408 * mQ32 * logm3Q3 *
    logQ3m3 * Misc.pow6 m3 + 5 * mQ32 * logQ3mq * Misc.pow6 m3 + 5 * mQ32 * logQ3m3 * logQ3mq * Misc.pow6 m3 + 495 * mQ32 *
    pow2 logQ3m3 * Misc.pow6 m3 + 265 * m32 * Misc.pow6 mQ3 - 246 * lmQ3MR * m32 * Misc.pow6 mQ3 - 60 * msq2 * Misc.pow6 mQ3 +
    60 * m32 * dilog (1 - msq2 / mQ32) * Misc.pow6 mQ3 - 60 * msq2 * dilog (1 - msq2 / mQ32) * Misc.pow6 mQ3 + 274 * m32 *
    logm3Q3 * Misc.pow6 mQ3 + 317 * m32 * logQ3m3 * Misc.pow6 mQ3 - 96 * lmQ3MR * m32 * logQ3m3 * Misc.pow6 mQ3 + 15 * m32 *
    logQ3mq * Misc.pow6 mQ3 + 90 * msq2 * logQ3mq * Misc.pow6 mQ3 - 55 * m32 * logQ3m3 * logQ3mq * Misc.pow6 mQ3 + 30 * msq2 *
    logmqQ3 * Misc.pow6 mQ3 + 87 * m32 * pow2 logQ3m3 * Misc.pow6 mQ3 + 30 * m32 * pow2 logQ3mq * Misc.pow6 mQ3 - 30 * msq2 *
    pow2 logQ3mq * Misc.pow6 mQ3 - 16 * Misc.pow8 m3 + 16 * lmQ3MR * Misc.pow8 m3 - 2 * logm3Q3 * Misc.pow8 m3 - 50 * logQ3m3
    * Misc.pow8 m3 + 32 * lmQ3MR * logQ3m3 * Misc.pow8 m3 - 124 * logm3Q3 * logQ3m3 * Misc.pow8 m3 - 156 * pow2 logQ3m3 *
    Misc.pow8 m3 - 67 * Misc.pow8 mQ3 + 78 * lmQ3MR * Misc.pow8 mQ3 - 6 * logQ3m3 * Misc.pow8 mQ3 - 5 * logQ3mq * Misc.pow8
    mQ3) / (9 * Misc.pow4 (m32 - mQ32) * Misc.pow6 mQ3) + 640 * Xt6 * pow2 (-(m3 * mQ32) + Misc.pow3 m3 + logQ3m3 * Misc.pow3
    m3) / (9 * Misc.pow4 (-(m32 * mQ3) + Misc.pow3 mQ3))

/-- `getDRbarPrimeToMSbarXtTerms`, case `MQ3_EQ_M3`; mh2_eft/ThresholdCalculator.cpp:4805-5253 -/
def xtTermsQG (dilog : F → F) (m32 mQ32 mU32 msq2 m3 mQ3 mU3 msq lmQ3MR Xt4 Xt5 Xt6 : F) : F :=
    let logQ3U3 := log (mQ32 / mU32)
    let logQ3mq := log (mQ32 / msq2)
    (-(Xt4 * (122320 * msq2 * mU32 * Misc.pow14 mQ3 - 6560 * lmQ3MR * msq2 * mU32 * Misc.pow14 mQ3 + 40992 * msq2 * mU32 *
    dilog (1 - mQ32 / mU32) * Misc.pow14 mQ3 - 5376 * lmQ3MR * msq2 * mU32 * dilog (1 - mQ32 / mU32) * Misc.pow14 mQ3 + 5760 *
    msq2 * mU32 * dilog (1 - msq2 / mU32) * Misc.pow14 mQ3 - 5280 * msq2 * mU32 * logQ3mq * Misc.pow14 mQ3 - 3840 * lmQ3MR *
    msq2 * mU32 * logQ3mq * Misc.pow14 mQ3 + 960 * msq2 * mU32 * dilog (1 - mQ32 / mU32) * logQ3mq * Misc.pow14 mQ3 - 45464 *
    msq2 * mU32 * logQ3U3 * Misc.pow14 mQ3 - 26288 * lmQ3MR * msq2 * mU32 * logQ3U3 * Misc.pow14 mQ3 - 8208 * msq2 * mU32 *
    dilog (1 - mQ32 / mU32) * logQ3U3 * Misc.pow14 mQ3 - 2880 * msq2 * mU32 * dilog (1 - msq2 / mU32) * logQ3U3 * Misc.pow14
    mQ3 + 720 * msq2 * mU32 * logQ3mq * logQ3U3 * Misc.pow14 mQ3 - 1920 * lmQ3MR * msq2 * mU32 * logQ3mq * logQ3U3 *
    Misc.pow14 mQ3 + 192 * msq2 * Misc.pow16 mQ3 + 5184 * lmQ3MR * msq2 * Misc.pow16 mQ3 - 130960 * mU32 * Misc.pow16 mQ3 +
    6560 * lmQ3MR * mU32 * Misc.pow16 mQ3 - 40992 * mU32 * dilog (1 - mQ32 / mU32) * Misc.pow16 mQ3 + 5376 * lmQ3MR * mU32 *
    dilog (1 - mQ32 / mU32) * Misc.pow16 mQ3 - 960 * msq2 * logQ3mq * Misc.pow16 mQ3 + 960 * lmQ3MR * msq2 * logQ3mq *
    Misc.pow16 mQ3 + 12000 * mU32 * logQ3mq * Misc.pow16 mQ3 + 3840 * lmQ3MR * mU32 * logQ3mq * Misc.pow16 mQ3 - 960 * mU32 *
    dilog (1 - mQ32 / mU32) * logQ3mq * Misc.pow16 mQ3 - 96 * msq2 * logQ3U3 * Misc.pow16 mQ3 + 96 * lmQ3MR * msq2 * logQ3U3 *
    Misc.pow16 mQ3 + 49784 * mU32 * logQ3U3 * Misc.pow16 mQ3 + 26288 * lmQ3MR * mU32 * logQ3U3 * Misc.pow16 mQ3 + 8208 * mU32
    * dilog (1 - mQ32 / mU32) * logQ3U3 * Misc.pow16 mQ3 - 9840 * mU32 * logQ3mq * logQ3U3 * Misc.pow16 mQ3 + 1920 * lmQ3MR *
    mU32 * logQ3mq * logQ3U3 * Misc.pow16 mQ3 - 192 * Misc.pow18 mQ3 - 5184 * lmQ3MR * Misc.pow18 mQ3 + 960 * logQ3mq *
    Misc.pow18 mQ3 - 960 * lmQ3MR * logQ3mq * Misc.pow18 mQ3 + 96 * logQ3U3 * Misc.pow18 mQ3 - 96 * lmQ3MR * logQ3U3 *
    Misc.pow18 mQ3 - 2496 * msq2 * mU32 * Misc.pow14 mQ3 * pow2 lmQ3MR + 22752 * msq2 * mU32 * logQ3U3 * Misc.pow14 mQ3 * pow2
    lmQ3MR - 5376 * msq2 * Misc.pow16 mQ3 * pow2 lmQ3MR + 2496 * mU32 * Misc.pow16 mQ3 * pow2 lmQ3MR - 22752 * mU32 * logQ3U3
    * Misc.pow16 mQ3 * pow2 lmQ3MR + 5376 * Misc.pow18 mQ3 * pow2 lmQ3MR + 3330 * msq2 * mU32 * Misc.pow14 mQ3 * pow2 logQ3mq
    - 1665 * msq2 * mU32 * logQ3U3 * Misc.pow14 mQ3 * pow2 logQ3mq - 270 * mU32 * Misc.pow16 mQ3 * pow2 logQ3mq + 135 * mU32 *
    logQ3U3 * Misc.pow16 mQ3 * pow2 logQ3mq + 21480 * msq2 * mU32 * Misc.pow14 mQ3 * pow2 logQ3U3 - 2496 * lmQ3MR * msq2 *
    mU32 * Misc.pow14 mQ3 * pow2 logQ3U3 + 3840 * msq2 * mU32 * logQ3mq * Misc.pow14 mQ3 * pow2 logQ3U3 - 18600 * mU32 *
    Misc.pow16 mQ3 * pow2 logQ3U3 + 2496 * lmQ3MR * mU32 * Misc.pow16 mQ3 * pow2 logQ3U3 - 960 * mU32 * logQ3mq * Misc.pow16
    mQ3 * pow2 logQ3U3 - 5640 * msq2 * mU32 * Misc.pow14 mQ3 * Misc.pow3 logQ3U3 + 4200 * mU32 * Misc.pow16 mQ3 * Misc.pow3
    logQ3U3 - 29968 * msq2 * Misc.pow12 mU3 * Misc.pow4 mQ3 - 58720 * lmQ3MR * msq2 * Misc.pow12 mU3 * Misc.pow4 mQ3 + 3936 *
    msq2 * dilog (1 - mQ32 / mU32) * Misc.pow12 mU3 * Misc.pow4 mQ3 + 5376 * lmQ3MR * msq2 * dilog (1 - mQ32 / mU32) *
    Misc.pow12 mU3 * Misc.pow4 mQ3 - 2880 * msq2 * dilog (1 - msq2 / mU32) * Misc.pow12 mU3 * Misc.pow4 mQ3 + 17760 * msq2 *
    logQ3mq * Misc.pow12 mU3 * Misc.pow4 mQ3 - 960 * lmQ3MR * msq2 * logQ3mq * Misc.pow12 mU3 * Misc.pow4 mQ3 - 960 * msq2 *
    dilog (1 - mQ32 / mU32) * logQ3mq * Misc.pow12 mU3 * Misc.pow4 mQ3 + 520 * msq2 * logQ3U3 * Misc.pow12 mU3 * Misc.pow4 mQ3
    - 63920 * lmQ3MR * msq2 * logQ3U3 * Misc.pow12 mU3 * Misc.pow4 mQ3 - 528 * msq2 * dilog (1 - mQ32 / mU32) * logQ3U3 *
    Misc.pow12 mU3 * Misc.pow4 mQ3 - 1440 * msq2 * dilog (1 - msq2 / mU32) * logQ3U3 * Misc.pow12 mU3 * Misc.pow4 mQ3 + 13200
    * msq2 * logQ3mq * logQ3U3 * Misc.pow12 mU3 * Misc.pow4 mQ3 + 29376 * msq2 * Misc.pow12 mU3 * pow2 lmQ3MR * Misc.pow4 mQ3
    + 12000 * msq2 * logQ3U3 * Misc.pow12 mU3 * pow2 lmQ3MR * Misc.pow4 mQ3 - 1890 * msq2 * Misc.pow12 mU3 * pow2 logQ3mq *
    Misc.pow4 mQ3 - 945 * msq2 * logQ3U3 * Misc.pow12 mU3 * pow2 logQ3mq * Misc.pow4 mQ3 + 14616 * msq2 * Misc.pow12 mU3 *
    pow2 logQ3U3 * Misc.pow4 mQ3 - 17376 * lmQ3MR * msq2 * Misc.pow12 mU3 * pow2 logQ3U3 * Misc.pow4 mQ3 + 2400 * msq2 *
    logQ3mq * Misc.pow12 mU3 * pow2 logQ3U3 * Misc.pow4 mQ3 + 4056 * msq2 * Misc.pow12 mU3 * Misc.pow3 logQ3U3 * Misc.pow4 mQ3
    + 8640 * mU32 * Misc.pow12 mQ3 * Misc.pow4 msq - 14400 * mU32 * dilog (1 - msq2 / mU32) * Misc.pow12 mQ3 * Misc.pow4 msq -
    8640 * mU32 * logQ3mq * Misc.pow12 mQ3 * Misc.pow4 msq - 4320 * mU32 * logQ3U3 * Misc.pow12 mQ3 * Misc.pow4 msq + 7200 *
    mU32 * dilog (1 - msq2 / mU32) * logQ3U3 * Misc.pow12 mQ3 * Misc.pow4 msq + 18720 * mU32 * logQ3mq * logQ3U3 * Misc.pow12
    mQ3 * Misc.pow4 msq - 7290 * mU32 * Misc.pow12 mQ3 * pow2 logQ3mq * Misc.pow4 msq + 3645 * mU32 * logQ3U3 * Misc.pow12 mQ3
    * pow2 logQ3mq * Misc.pow4 msq + 90 * mQ32 * Misc.pow12 mU3 * pow2 logQ3mq * Misc.pow4 msq + 45 * mQ32 * logQ3U3 *
    Misc.pow12 mU3 * pow2 logQ3mq * Misc.pow4 msq - 7200 * mU32 * Misc.pow12 mQ3 * pow2 logQ3U3 * Misc.pow4 msq - 7200 * mU32
    * logQ3mq * Misc.pow12 mQ3 * pow2 logQ3U3 * Misc.pow4 msq + 3600 * mU32 * Misc.pow12 mQ3 * Misc.pow3 logQ3U3 * Misc.pow4
    msq - 536144 * msq2 * Misc.pow12 mQ3 * Misc.pow4 mU3 - 85088 * lmQ3MR * msq2 * Misc.pow12 mQ3 * Misc.pow4 mU3 - 155424 *
    msq2 * dilog (1 - mQ32 / mU32) * Misc.pow12 mQ3 * Misc.pow4 mU3 + 26880 * lmQ3MR * msq2 * dilog (1 - mQ32 / mU32) *
    Misc.pow12 mQ3 * Misc.pow4 mU3 + 11520 * msq2 * dilog (1 - msq2 / mU32) * Misc.pow12 mQ3 * Misc.pow4 mU3 + 60000 * msq2 *
    logQ3mq * Misc.pow12 mQ3 * Misc.pow4 mU3 + 4800 * lmQ3MR * msq2 * logQ3mq * Misc.pow12 mQ3 * Misc.pow4 mU3 - 4800 * msq2 *
    dilog (1 - mQ32 / mU32) * logQ3mq * Misc.pow12 mQ3 * Misc.pow4 mU3 + 13032 * msq2 * logQ3U3 * Misc.pow12 mQ3 * Misc.pow4
    mU3 + 119760 * lmQ3MR * msq2 * logQ3U3 * Misc.pow12 mQ3 * Misc.pow4 mU3 - 14928 * msq2 * dilog (1 - mQ32 / mU32) * logQ3U3
    * Misc.pow12 mQ3 * Misc.pow4 mU3 - 11520 * msq2 * dilog (1 - msq2 / mU32) * logQ3U3 * Misc.pow12 mQ3 * Misc.pow4 mU3 -
    30960 * msq2 * logQ3mq * logQ3U3 * Misc.pow12 mQ3 * Misc.pow4 mU3 + 7680 * lmQ3MR * msq2 * logQ3mq * logQ3U3 * Misc.pow12
    mQ3 * Misc.pow4 mU3 + 559184 * Misc.pow14 mQ3 * Misc.pow4 mU3 + 85088 * lmQ3MR * Misc.pow14 mQ3 * Misc.pow4 mU3 + 155424 *
    dilog (1 - mQ32 / mU32) * Misc.pow14 mQ3 * Misc.pow4 mU3 - 26880 * lmQ3MR * dilog (1 - mQ32 / mU32) * Misc.pow14 mQ3 *
    Misc.pow4 mU3 - 5760 * dilog (1 - msq2 / mU32) * Misc.pow14 mQ3 * Misc.pow4 mU3 - 73440 * logQ3mq * Misc.pow14 mQ3 *
    Misc.pow4 mU3 - 4800 * lmQ3MR * logQ3mq * Misc.pow14 mQ3 * Misc.pow4 mU3 + 4800 * dilog (1 - mQ32 / mU32) * logQ3mq *
    Misc.pow14 mQ3 * Misc.pow4 mU3 - 7272 * logQ3U3 * Misc.pow14 mQ3 * Misc.pow4 mU3 - 119760 * lmQ3MR * logQ3U3 * Misc.pow14
    mQ3 * Misc.pow4 mU3 + 14928 * dilog (1 - mQ32 / mU32) * logQ3U3 * Misc.pow14 mQ3 * Misc.pow4 mU3 + 2880 * dilog (1 - msq2
    / mU32) * logQ3U3 * Misc.pow14 mQ3 * Misc.pow4 mU3 + 25200 * logQ3mq * logQ3U3 * Misc.pow14 mQ3 * Misc.pow4 mU3 - 7680 *
    lmQ3MR * logQ3mq * logQ3U3 * Misc.pow14 mQ3 * Misc.pow4 mU3 + 93120 * msq2 * Misc.pow12 mQ3 * pow2 lmQ3MR * Misc.pow4 mU3
    - 79008 * msq2 * logQ3U3 * Misc.pow12 mQ3 * pow2 lmQ3MR * Misc.pow4 mU3 - 93120 * Misc.pow14 mQ3 * pow2 lmQ3MR * Misc.pow4
    mU3 + 79008 * logQ3U3 * Misc.pow14 mQ3 * pow2 lmQ3MR * Misc.pow4 mU3 + 3510 * msq2 * Misc.pow12 mQ3 * pow2 logQ3mq *
    Misc.pow4 mU3 - 5085 * msq2 * logQ3U3 * Misc.pow12 mQ3 * pow2 logQ3mq * Misc.pow4 mU3 - 1530 * Misc.pow14 mQ3 * pow2
    logQ3mq * Misc.pow4 mU3 + 1035 * logQ3U3 * Misc.pow14 mQ3 * pow2 logQ3mq * Misc.pow4 mU3 - 27816 * msq2 * Misc.pow12 mQ3 *
    pow2 logQ3U3 * Misc.pow4 mU3 + 18240 * lmQ3MR * msq2 * Misc.pow12 mQ3 * pow2 logQ3U3 * Misc.pow4 mU3 + 1920 * msq2 *
    logQ3mq * Misc.pow12 mQ3 * pow2 logQ3U3 * Misc.pow4 mU3 + 26376 * Misc.pow14 mQ3 * pow2 logQ3U3 * Misc.pow4 mU3 - 18240 *
    lmQ3MR * Misc.pow14 mQ3 * pow2 logQ3U3 * Misc.pow4 mU3 + 6720 * logQ3mq * Misc.pow14 mQ3 * pow2 logQ3U3 * Misc.pow4 mU3 -
    16200 * msq2 * Misc.pow12 mQ3 * Misc.pow3 logQ3U3 * Misc.pow4 mU3 + 11880 * Misc.pow14 mQ3 * Misc.pow3 logQ3U3 * Misc.pow4
    mU3 + 90 * (3 * mQ32 + msq2) * mU32 * dilog (1 - msq2 / mQ32) * ((-2) * mQ32 + 2 * mU32 + (mQ32 + mU32) * logQ3U3) * pow2
    (mQ32 - msq2) * Misc.pow4 (mQ32 - mU32) + 29968 * Misc.pow12 mU3 * Misc.pow6 mQ3 + 58720 * lmQ3MR * Misc.pow12 mU3 *
    Misc.pow6 mQ3 - 3936 * dilog (1 - mQ32 / mU32) * Misc.pow12 mU3 * Misc.pow6 mQ3 - 5376 * lmQ3MR * dilog (1 - mQ32 / mU32)
    * Misc.pow12 mU3 * Misc.pow6 mQ3 + 2880 * dilog (1 - msq2 / mU32) * Misc.pow12 mU3 * Misc.pow6 mQ3 - 15840 * logQ3mq *
    Misc.pow12 mU3 * Misc.pow6 mQ3 + 960 * lmQ3MR * logQ3mq * Misc.pow12 mU3 * Misc.pow6 mQ3 + 960 * dilog (1 - mQ32 / mU32) *
    logQ3mq * Misc.pow12 mU3 * Misc.pow6 mQ3 - 520 * logQ3U3 * Misc.pow12 mU3 * Misc.pow6 mQ3 + 63920 * lmQ3MR * logQ3U3 *
    Misc.pow12 mU3 * Misc.pow6 mQ3 + 528 * dilog (1 - mQ32 / mU32) * logQ3U3 * Misc.pow12 mU3 * Misc.pow6 mQ3 + 1440 * dilog
    (1 - msq2 / mU32) * logQ3U3 * Misc.pow12 mU3 * Misc.pow6 mQ3 - 12240 * logQ3mq * logQ3U3 * Misc.pow12 mU3 * Misc.pow6 mQ3
    - 29376 * Misc.pow12 mU3 * pow2 lmQ3MR * Misc.pow6 mQ3 - 12000 * logQ3U3 * Misc.pow12 mU3 * pow2 lmQ3MR * Misc.pow6 mQ3 +
    1710 * Misc.pow12 mU3 * pow2 logQ3mq * Misc.pow6 mQ3 + 855 * logQ3U3 * Misc.pow12 mU3 * pow2 logQ3mq * Misc.pow6 mQ3 -
    14616 * Misc.pow12 mU3 * pow2 logQ3U3 * Misc.pow6 mQ3 + 17376 * lmQ3MR * Misc.pow12 mU3 * pow2 logQ3U3 * Misc.pow6 mQ3 -
    2400 * logQ3mq * Misc.pow12 mU3 * pow2 logQ3U3 * Misc.pow6 mQ3 - 4056 * Misc.pow12 mU3 * Misc.pow3 logQ3U3 * Misc.pow6 mQ3
    + 90 * Misc.pow12 mU3 * pow2 logQ3mq * Misc.pow6 msq + 45 * logQ3U3 * Misc.pow12 mU3 * pow2 logQ3mq * Misc.pow6 msq -
    919840 * Misc.pow12 mQ3 * Misc.pow6 mU3 - 301504 * lmQ3MR * Misc.pow12 mQ3 * Misc.pow6 mU3 - 216384 * dilog (1 - mQ32 /
    mU32) * Misc.pow12 mQ3 * Misc.pow6 mU3 + 53760 * lmQ3MR * dilog (1 - mQ32 / mU32) * Misc.pow12 mQ3 * Misc.pow6 mU3 + 2880
    * dilog (1 - msq2 / mU32) * Misc.pow12 mQ3 * Misc.pow6 mU3 + 154560 * logQ3mq * Misc.pow12 mQ3 * Misc.pow6 mU3 - 9600 *
    dilog (1 - mQ32 / mU32) * logQ3mq * Misc.pow12 mQ3 * Misc.pow6 mU3 - 284624 * logQ3U3 * Misc.pow12 mQ3 * Misc.pow6 mU3 +
    137056 * lmQ3MR * logQ3U3 * Misc.pow12 mQ3 * Misc.pow6 mU3 - 89952 * dilog (1 - mQ32 / mU32) * logQ3U3 * Misc.pow12 mQ3 *
    Misc.pow6 mU3 + 4320 * dilog (1 - msq2 / mU32) * logQ3U3 * Misc.pow12 mQ3 * Misc.pow6 mU3 - 4320 * logQ3mq * logQ3U3 *
    Misc.pow12 mQ3 * Misc.pow6 mU3 + 11520 * lmQ3MR * logQ3mq * logQ3U3 * Misc.pow12 mQ3 * Misc.pow6 mU3 + 240000 * Misc.pow12
    mQ3 * pow2 lmQ3MR * Misc.pow6 mU3 - 88512 * logQ3U3 * Misc.pow12 mQ3 * pow2 lmQ3MR * Misc.pow6 mU3 - 1260 * Misc.pow12 mQ3
    * pow2 logQ3mq * Misc.pow6 mU3 + 2430 * logQ3U3 * Misc.pow12 mQ3 * pow2 logQ3mq * Misc.pow6 mU3 - 41424 * Misc.pow12 mQ3 *
    pow2 logQ3U3 * Misc.pow6 mU3 + 62496 * lmQ3MR * Misc.pow12 mQ3 * pow2 logQ3U3 * Misc.pow6 mU3 - 11040 * logQ3mq *
    Misc.pow12 mQ3 * pow2 logQ3U3 * Misc.pow6 mU3 - 39888 * Misc.pow12 mQ3 * Misc.pow3 logQ3U3 * Misc.pow6 mU3 + 2880 * dilog
    (1 - msq2 / mU32) * Misc.pow6 mQ3 * Misc.pow6 msq * Misc.pow6 mU3 + 4320 * dilog (1 - msq2 / mU32) * logQ3U3 * Misc.pow6
    mQ3 * Misc.pow6 msq * Misc.pow6 mU3 - 2880 * logQ3mq * logQ3U3 * Misc.pow6 mQ3 * Misc.pow6 msq * Misc.pow6 mU3 + 540 *
    pow2 logQ3mq * Misc.pow6 mQ3 * Misc.pow6 msq * Misc.pow6 mU3 + 2250 * logQ3U3 * pow2 logQ3mq * Misc.pow6 mQ3 * Misc.pow6
    msq * Misc.pow6 mU3 + 1440 * pow2 logQ3U3 * Misc.pow6 mQ3 * Misc.pow6 msq * Misc.pow6 mU3 - 4320 * logQ3mq * pow2 logQ3U3
    * Misc.pow6 mQ3 * Misc.pow6 msq * Misc.pow6 mU3 + 2160 * Misc.pow3 logQ3U3 * Misc.pow6 mQ3 * Misc.pow6 msq * Misc.pow6 mU3
    - 14400 * dilog (1 - msq2 / mU32) * Misc.pow4 mU3 * Misc.pow6 msq * Misc.pow8 mQ3 - 1440 * dilog (1 - msq2 / mU32) *
    logQ3U3 * Misc.pow4 mU3 * Misc.pow6 msq * Misc.pow8 mQ3 + 14400 * logQ3mq * logQ3U3 * Misc.pow4 mU3 * Misc.pow6 msq *
    Misc.pow8 mQ3 - 6750 * pow2 logQ3mq * Misc.pow4 mU3 * Misc.pow6 msq * Misc.pow8 mQ3 - 855 * logQ3U3 * pow2 logQ3mq *
    Misc.pow4 mU3 * Misc.pow6 msq * Misc.pow8 mQ3 - 7200 * pow2 logQ3U3 * Misc.pow4 mU3 * Misc.pow6 msq * Misc.pow8 mQ3 + 1440
    * logQ3mq * pow2 logQ3U3 * Misc.pow4 mU3 * Misc.pow6 msq * Misc.pow8 mQ3 - 720 * Misc.pow3 logQ3U3 * Misc.pow4 mU3 *
    Misc.pow6 msq * Misc.pow8 mQ3 + 17280 * Misc.pow4 msq * Misc.pow6 mU3 * Misc.pow8 mQ3 + 25920 * dilog (1 - msq2 / mU32) *
    Misc.pow4 msq * Misc.pow6 mU3 * Misc.pow8 mQ3 - 17280 * logQ3mq * Misc.pow4 msq * Misc.pow6 mU3 * Misc.pow8 mQ3 + 20160 *
    logQ3U3 * Misc.pow4 msq * Misc.pow6 mU3 * Misc.pow8 mQ3 - 7200 * dilog (1 - msq2 / mU32) * logQ3U3 * Misc.pow4 msq *
    Misc.pow6 mU3 * Misc.pow8 mQ3 - 31680 * logQ3mq * logQ3U3 * Misc.pow4 msq * Misc.pow6 mU3 * Misc.pow8 mQ3 + 12060 * pow2
    logQ3mq * Misc.pow4 msq * Misc.pow6 mU3 * Misc.pow8 mQ3 - 3510 * logQ3U3 * pow2 logQ3mq * Misc.pow4 msq * Misc.pow6 mU3 *
    Misc.pow8 mQ3 + 14400 * pow2 logQ3U3 * Misc.pow4 msq * Misc.pow6 mU3 * Misc.pow8 mQ3 + 7200 * logQ3mq * pow2 logQ3U3 *
    Misc.pow4 msq * Misc.pow6 mU3 * Misc.pow8 mQ3 - 3600 * Misc.pow3 logQ3U3 * Misc.pow4 msq * Misc.pow6 mU3 * Misc.pow8 mQ3 -
    20160 * dilog (1 - msq2 / mU32) * Misc.pow4 msq * Misc.pow6 mQ3 * Misc.pow8 mU3 - 5760 * logQ3U3 * Misc.pow4 msq *
    Misc.pow6 mQ3 * Misc.pow8 mU3 - 10080 * dilog (1 - msq2 / mU32) * logQ3U3 * Misc.pow4 msq * Misc.pow6 mQ3 * Misc.pow8 mU3
    + 23040 * logQ3mq * logQ3U3 * Misc.pow4 msq * Misc.pow6 mQ3 * Misc.pow8 mU3 - 9180 * pow2 logQ3mq * Misc.pow4 msq *
    Misc.pow6 mQ3 * Misc.pow8 mU3 - 4950 * logQ3U3 * pow2 logQ3mq * Misc.pow4 msq * Misc.pow6 mQ3 * Misc.pow8 mU3 - 14400 *
    pow2 logQ3U3 * Misc.pow4 msq * Misc.pow6 mQ3 * Misc.pow8 mU3 + 10080 * logQ3mq * pow2 logQ3U3 * Misc.pow4 msq * Misc.pow6
    mQ3 * Misc.pow8 mU3 - 5040 * Misc.pow3 logQ3U3 * Misc.pow4 msq * Misc.pow6 mQ3 * Misc.pow8 mU3 + 2880 * dilog (1 - msq2 /
    mU32) * Misc.pow4 mQ3 * Misc.pow6 msq * Misc.pow8 mU3 + 1440 * dilog (1 - msq2 / mU32) * logQ3U3 * Misc.pow4 mQ3 *
    Misc.pow6 msq * Misc.pow8 mU3 - 2880 * logQ3mq * logQ3U3 * Misc.pow4 mQ3 * Misc.pow6 msq * Misc.pow8 mU3 + 2340 * pow2
    logQ3mq * Misc.pow4 mQ3 * Misc.pow6 msq * Misc.pow8 mU3 + 810 * logQ3U3 * pow2 logQ3mq * Misc.pow4 mQ3 * Misc.pow6 msq *
    Misc.pow8 mU3 + 1440 * pow2 logQ3U3 * Misc.pow4 mQ3 * Misc.pow6 msq * Misc.pow8 mU3 - 1440 * logQ3mq * pow2 logQ3U3 *
    Misc.pow4 mQ3 * Misc.pow6 msq * Misc.pow8 mU3 + 720 * Misc.pow3 logQ3U3 * Misc.pow4 mQ3 * Misc.pow6 msq * Misc.pow8 mU3 -
    716896 * msq2 * Misc.pow8 mQ3 * Misc.pow8 mU3 - 406144 * lmQ3MR * msq2 * Misc.pow8 mQ3 * Misc.pow8 mU3 - 126528 * msq2 *
    dilog (1 - mQ32 / mU32) * Misc.pow8 mQ3 * Misc.pow8 mU3 + 53760 * lmQ3MR * msq2 * dilog (1 - mQ32 / mU32) * Misc.pow8 mQ3
    * Misc.pow8 mU3 + 2880 * msq2 * dilog (1 - msq2 / mU32) * Misc.pow8 mQ3 * Misc.pow8 mU3 + 176640 * msq2 * logQ3mq *
    Misc.pow8 mQ3 * Misc.pow8 mU3 - 4800 * lmQ3MR * msq2 * logQ3mq * Misc.pow8 mQ3 * Misc.pow8 mU3 - 9600 * msq2 * dilog (1 -
    mQ32 / mU32) * logQ3mq * Misc.pow8 mQ3 * Misc.pow8 mU3 - 385168 * msq2 * logQ3U3 * Misc.pow8 mQ3 * Misc.pow8 mU3 - 44416 *
    lmQ3MR * msq2 * logQ3U3 * Misc.pow8 mQ3 * Misc.pow8 mU3 - 102816 * msq2 * dilog (1 - mQ32 / mU32) * logQ3U3 * Misc.pow8
    mQ3 * Misc.pow8 mU3 + 12960 * msq2 * dilog (1 - msq2 / mU32) * logQ3U3 * Misc.pow8 mQ3 * Misc.pow8 mU3 + 21600 * msq2 *
    logQ3mq * logQ3U3 * Misc.pow8 mQ3 * Misc.pow8 mU3 + 7680 * lmQ3MR * msq2 * logQ3mq * logQ3U3 * Misc.pow8 mQ3 * Misc.pow8
    mU3 + 266880 * msq2 * pow2 lmQ3MR * Misc.pow8 mQ3 * Misc.pow8 mU3 - 19008 * msq2 * logQ3U3 * pow2 lmQ3MR * Misc.pow8 mQ3 *
    Misc.pow8 mU3 - 3060 * msq2 * pow2 logQ3mq * Misc.pow8 mQ3 * Misc.pow8 mU3 + 6030 * msq2 * logQ3U3 * pow2 logQ3mq *
    Misc.pow8 mQ3 * Misc.pow8 mU3 - 54768 * msq2 * pow2 logQ3U3 * Misc.pow8 mQ3 * Misc.pow8 mU3 + 62112 * lmQ3MR * msq2 * pow2
    logQ3U3 * Misc.pow8 mQ3 * Misc.pow8 mU3 - 12000 * msq2 * logQ3mq * pow2 logQ3U3 * Misc.pow8 mQ3 * Misc.pow8 mU3 - 16080 *
    msq2 * Misc.pow3 logQ3U3 * Misc.pow8 mQ3 * Misc.pow8 mU3 - 23040 * Misc.pow4 msq * Misc.pow4 mU3 * Misc.power10 mQ3 + 8640
    * dilog (1 - msq2 / mU32) * Misc.pow4 msq * Misc.pow4 mU3 * Misc.power10 mQ3 + 23040 * logQ3mq * Misc.pow4 msq * Misc.pow4
    mU3 * Misc.power10 mQ3 - 5760 * logQ3U3 * Misc.pow4 msq * Misc.pow4 mU3 * Misc.power10 mQ3 + 10080 * dilog (1 - msq2 /
    mU32) * logQ3U3 * Misc.pow4 msq * Misc.pow4 mU3 * Misc.power10 mQ3 - 11520 * logQ3mq * logQ3U3 * Misc.pow4 msq * Misc.pow4
    mU3 * Misc.power10 mQ3 + 4770 * pow2 logQ3mq * Misc.pow4 msq * Misc.pow4 mU3 * Misc.power10 mQ3 + 4905 * logQ3U3 * pow2
    logQ3mq * Misc.pow4 msq * Misc.pow4 mU3 * Misc.power10 mQ3 + 8640 * pow2 logQ3U3 * Misc.pow4 msq * Misc.pow4 mU3 *
    Misc.power10 mQ3 - 10080 * logQ3mq * pow2 logQ3U3 * Misc.pow4 msq * Misc.pow4 mU3 * Misc.power10 mQ3 + 5040 * Misc.pow3
    logQ3U3 * Misc.pow4 msq * Misc.pow4 mU3 * Misc.power10 mQ3 + 8640 * mU32 * dilog (1 - msq2 / mU32) * Misc.pow6 msq *
    Misc.power10 mQ3 - 4320 * mU32 * dilog (1 - msq2 / mU32) * logQ3U3 * Misc.pow6 msq * Misc.power10 mQ3 - 8640 * mU32 *
    logQ3mq * logQ3U3 * Misc.pow6 msq * Misc.power10 mQ3 + 4230 * mU32 * pow2 logQ3mq * Misc.pow6 msq * Misc.power10 mQ3 -
    2115 * mU32 * logQ3U3 * pow2 logQ3mq * Misc.pow6 msq * Misc.power10 mQ3 + 4320 * mU32 * pow2 logQ3U3 * Misc.pow6 msq *
    Misc.power10 mQ3 + 4320 * mU32 * logQ3mq * pow2 logQ3U3 * Misc.pow6 msq * Misc.power10 mQ3 - 2160 * mU32 * Misc.pow3
    logQ3U3 * Misc.pow6 msq * Misc.power10 mQ3 + 902560 * msq2 * Misc.pow6 mU3 * Misc.power10 mQ3 + 301504 * lmQ3MR * msq2 *
    Misc.pow6 mU3 * Misc.power10 mQ3 + 216384 * msq2 * dilog (1 - mQ32 / mU32) * Misc.pow6 mU3 * Misc.power10 mQ3 - 53760 *
    lmQ3MR * msq2 * dilog (1 - mQ32 / mU32) * Misc.pow6 mU3 * Misc.power10 mQ3 - 31680 * msq2 * dilog (1 - msq2 / mU32) *
    Misc.pow6 mU3 * Misc.power10 mQ3 - 156480 * msq2 * logQ3mq * Misc.pow6 mU3 * Misc.power10 mQ3 + 9600 * msq2 * dilog (1 -
    mQ32 / mU32) * logQ3mq * Misc.pow6 mU3 * Misc.power10 mQ3 + 264464 * msq2 * logQ3U3 * Misc.pow6 mU3 * Misc.power10 mQ3 -
    137056 * lmQ3MR * msq2 * logQ3U3 * Misc.pow6 mU3 * Misc.power10 mQ3 + 89952 * msq2 * dilog (1 - mQ32 / mU32) * logQ3U3 *
    Misc.pow6 mU3 * Misc.power10 mQ3 - 1440 * msq2 * dilog (1 - msq2 / mU32) * logQ3U3 * Misc.pow6 mU3 * Misc.power10 mQ3 +
    40800 * msq2 * logQ3mq * logQ3U3 * Misc.pow6 mU3 * Misc.power10 mQ3 - 11520 * lmQ3MR * msq2 * logQ3mq * logQ3U3 *
    Misc.pow6 mU3 * Misc.power10 mQ3 - 240000 * msq2 * pow2 lmQ3MR * Misc.pow6 mU3 * Misc.power10 mQ3 + 88512 * msq2 * logQ3U3
    * pow2 lmQ3MR * Misc.pow6 mU3 * Misc.power10 mQ3 - 11340 * msq2 * pow2 logQ3mq * Misc.pow6 mU3 * Misc.power10 mQ3 - 1170 *
    msq2 * logQ3U3 * pow2 logQ3mq * Misc.pow6 mU3 * Misc.power10 mQ3 + 25584 * msq2 * pow2 logQ3U3 * Misc.pow6 mU3 *
    Misc.power10 mQ3 - 62496 * lmQ3MR * msq2 * pow2 logQ3U3 * Misc.pow6 mU3 * Misc.power10 mQ3 + 8160 * msq2 * logQ3mq * pow2
    logQ3U3 * Misc.pow6 mU3 * Misc.power10 mQ3 + 41328 * msq2 * Misc.pow3 logQ3U3 * Misc.pow6 mU3 * Misc.power10 mQ3 + 716896
    * Misc.pow8 mU3 * Misc.power10 mQ3 + 406144 * lmQ3MR * Misc.pow8 mU3 * Misc.power10 mQ3 + 126528 * dilog (1 - mQ32 / mU32)
    * Misc.pow8 mU3 * Misc.power10 mQ3 - 53760 * lmQ3MR * dilog (1 - mQ32 / mU32) * Misc.pow8 mU3 * Misc.power10 mQ3 + 14400 *
    dilog (1 - msq2 / mU32) * Misc.pow8 mU3 * Misc.power10 mQ3 - 157440 * logQ3mq * Misc.pow8 mU3 * Misc.power10 mQ3 + 4800 *
    lmQ3MR * logQ3mq * Misc.pow8 mU3 * Misc.power10 mQ3 + 9600 * dilog (1 - mQ32 / mU32) * logQ3mq * Misc.pow8 mU3 *
    Misc.power10 mQ3 + 390928 * logQ3U3 * Misc.pow8 mU3 * Misc.power10 mQ3 + 44416 * lmQ3MR * logQ3U3 * Misc.pow8 mU3 *
    Misc.power10 mQ3 + 102816 * dilog (1 - mQ32 / mU32) * logQ3U3 * Misc.pow8 mU3 * Misc.power10 mQ3 - 4320 * dilog (1 - msq2
    / mU32) * logQ3U3 * Misc.pow8 mU3 * Misc.power10 mQ3 - 39840 * logQ3mq * logQ3U3 * Misc.pow8 mU3 * Misc.power10 mQ3 - 7680
    * lmQ3MR * logQ3mq * logQ3U3 * Misc.pow8 mU3 * Misc.power10 mQ3 - 266880 * pow2 lmQ3MR * Misc.pow8 mU3 * Misc.power10 mQ3
    + 19008 * logQ3U3 * pow2 lmQ3MR * Misc.pow8 mU3 * Misc.power10 mQ3 + 9900 * pow2 logQ3mq * Misc.pow8 mU3 * Misc.power10
    mQ3 - 1890 * logQ3U3 * pow2 logQ3mq * Misc.pow8 mU3 * Misc.power10 mQ3 + 67728 * pow2 logQ3U3 * Misc.pow8 mU3 *
    Misc.power10 mQ3 - 62112 * lmQ3MR * pow2 logQ3U3 * Misc.pow8 mU3 * Misc.power10 mQ3 + 3360 * logQ3mq * pow2 logQ3U3 *
    Misc.pow8 mU3 * Misc.power10 mQ3 + 20400 * Misc.pow3 logQ3U3 * Misc.pow8 mU3 * Misc.power10 mQ3 - 90 * (mQ32 - mU32) *
    mU32 * dilog (1 - mQ32 / msq2) * ((-2) * mQ32 + 2 * mU32 + (mQ32 + mU32) * logQ3U3) * (29 * Misc.pow12 mQ3 + Misc.pow6 mQ3
    * ((-109) * mU32 * Misc.pow4 msq - 33 * msq2 * Misc.pow4 mU3 + 47 * Misc.pow6 msq - 13 * Misc.pow6 mU3) + Misc.pow6 msq *
    Misc.pow6 mU3 + Misc.pow4 mQ3 * ((-3) * Misc.pow4 msq * Misc.pow4 mU3 + 19 * mU32 * Misc.pow6 msq + 11 * msq2 * Misc.pow6
    mU3) + mQ32 * ((-3) * Misc.pow4 mU3 * Misc.pow6 msq + Misc.pow4 msq * Misc.pow6 mU3) + (209 * msq2 * mU32 - 81 * Misc.pow4
    msq + 39 * Misc.pow4 mU3) * Misc.pow8 mQ3 + (5 * msq2 - 119 * mU32) * Misc.power10 mQ3) - 2880 * Misc.pow4 mQ3 * Misc.pow4
    msq * Misc.power10 mU3 + 2880 * logQ3mq * Misc.pow4 mQ3 * Misc.pow4 msq * Misc.power10 mU3 - 4320 * logQ3U3 * Misc.pow4
    mQ3 * Misc.pow4 msq * Misc.power10 mU3 + 1440 * logQ3mq * logQ3U3 * Misc.pow4 mQ3 * Misc.pow4 msq * Misc.power10 mU3 - 450
    * pow2 logQ3mq * Misc.pow4 mQ3 * Misc.pow4 msq * Misc.power10 mU3 - 135 * logQ3U3 * pow2 logQ3mq * Misc.pow4 mQ3 *
    Misc.pow4 msq * Misc.power10 mU3 - 1440 * pow2 logQ3U3 * Misc.pow4 mQ3 * Misc.pow4 msq * Misc.power10 mU3 + 257936 * msq2
    * Misc.pow6 mQ3 * Misc.power10 mU3 + 249824 * lmQ3MR * msq2 * Misc.pow6 mQ3 * Misc.power10 mU3 + 20640 * msq2 * dilog (1 -
    mQ32 / mU32) * Misc.pow6 mQ3 * Misc.power10 mU3 - 26880 * lmQ3MR * msq2 * dilog (1 - mQ32 / mU32) * Misc.pow6 mQ3 *
    Misc.power10 mU3 + 14400 * msq2 * dilog (1 - msq2 / mU32) * Misc.pow6 mQ3 * Misc.power10 mU3 - 91680 * msq2 * logQ3mq *
    Misc.pow6 mQ3 * Misc.power10 mU3 + 3840 * lmQ3MR * msq2 * logQ3mq * Misc.pow6 mQ3 * Misc.power10 mU3 + 4800 * msq2 * dilog
    (1 - mQ32 / mU32) * logQ3mq * Misc.pow6 mQ3 * Misc.power10 mU3 + 152712 * msq2 * logQ3U3 * Misc.pow6 mQ3 * Misc.power10
    mU3 + 151824 * lmQ3MR * msq2 * logQ3U3 * Misc.pow6 mQ3 * Misc.power10 mU3 + 36528 * msq2 * dilog (1 - mQ32 / mU32) *
    logQ3U3 * Misc.pow6 mQ3 * Misc.power10 mU3 + 4320 * msq2 * dilog (1 - msq2 / mU32) * logQ3U3 * Misc.pow6 mQ3 *
    Misc.power10 mU3 - 45360 * msq2 * logQ3mq * logQ3U3 * Misc.pow6 mQ3 * Misc.power10 mU3 - 1920 * lmQ3MR * msq2 * logQ3mq *
    logQ3U3 * Misc.pow6 mQ3 * Misc.power10 mU3 - 141504 * msq2 * pow2 lmQ3MR * Misc.pow6 mQ3 * Misc.power10 mU3 - 25248 * msq2
    * logQ3U3 * pow2 lmQ3MR * Misc.pow6 mQ3 * Misc.power10 mU3 + 9450 * msq2 * pow2 logQ3mq * Misc.pow6 mQ3 * Misc.power10 mU3
    + 2835 * msq2 * logQ3U3 * pow2 logQ3mq * Misc.pow6 mQ3 * Misc.power10 mU3 + 20904 * msq2 * pow2 logQ3U3 * Misc.pow6 mQ3 *
    Misc.power10 mU3 + 2016 * lmQ3MR * msq2 * pow2 logQ3U3 * Misc.pow6 mQ3 * Misc.power10 mU3 - 4320 * msq2 * logQ3mq * pow2
    logQ3U3 * Misc.pow6 mQ3 * Misc.power10 mU3 - 7080 * msq2 * Misc.pow3 logQ3U3 * Misc.pow6 mQ3 * Misc.power10 mU3 - 450 *
    mQ32 * pow2 logQ3mq * Misc.pow6 msq * Misc.power10 mU3 - 135 * mQ32 * logQ3U3 * pow2 logQ3mq * Misc.pow6 msq *
    Misc.power10 mU3 - 255056 * Misc.pow8 mQ3 * Misc.power10 mU3 - 249824 * lmQ3MR * Misc.pow8 mQ3 * Misc.power10 mU3 - 20640
    * dilog (1 - mQ32 / mU32) * Misc.pow8 mQ3 * Misc.power10 mU3 + 26880 * lmQ3MR * dilog (1 - mQ32 / mU32) * Misc.pow8 mQ3 *
    Misc.power10 mU3 - 14400 * dilog (1 - msq2 / mU32) * Misc.pow8 mQ3 * Misc.power10 mU3 + 79200 * logQ3mq * Misc.pow8 mQ3 *
    Misc.power10 mU3 - 3840 * lmQ3MR * logQ3mq * Misc.pow8 mQ3 * Misc.power10 mU3 - 4800 * dilog (1 - mQ32 / mU32) * logQ3mq *
    Misc.pow8 mQ3 * Misc.power10 mU3 - 148392 * logQ3U3 * Misc.pow8 mQ3 * Misc.power10 mU3 - 151824 * lmQ3MR * logQ3U3 *
    Misc.pow8 mQ3 * Misc.power10 mU3 - 36528 * dilog (1 - mQ32 / mU32) * logQ3U3 * Misc.pow8 mQ3 * Misc.power10 mU3 - 4320 *
    dilog (1 - msq2 / mU32) * logQ3U3 * Misc.pow8 mQ3 * Misc.power10 mU3 + 41040 * logQ3mq * logQ3U3 * Misc.pow8 mQ3 *
    Misc.power10 mU3 + 1920 * lmQ3MR * logQ3mq * logQ3U3 * Misc.pow8 mQ3 * Misc.power10 mU3 + 141504 * pow2 lmQ3MR * Misc.pow8
    mQ3 * Misc.power10 mU3 + 25248 * logQ3U3 * pow2 lmQ3MR * Misc.pow8 mQ3 * Misc.power10 mU3 - 8550 * pow2 logQ3mq *
    Misc.pow8 mQ3 * Misc.power10 mU3 - 2565 * logQ3U3 * pow2 logQ3mq * Misc.pow8 mQ3 * Misc.power10 mU3 - 19464 * pow2 logQ3U3
    * Misc.pow8 mQ3 * Misc.power10 mU3 - 2016 * lmQ3MR * pow2 logQ3U3 * Misc.pow8 mQ3 * Misc.power10 mU3 + 4320 * logQ3mq *
    pow2 logQ3U3 * Misc.pow8 mQ3 * Misc.power10 mU3 + 7080 * Misc.pow3 logQ3U3 * Misc.pow8 mQ3 * Misc.power10 mU3))) / (18 *
    (mQ32 - msq2) * mU32 * Misc.pow4 mQ3 * Misc.pow7 (mQ32 - mU32)) + 4 * Xt5 * ((-3424) * mU32 * Misc.pow12 mQ3 + 2208 *
    lmQ3MR * mU32 * Misc.pow12 mQ3 - 192 * mU32 * dilog (1 - mQ32 / mU32) * Misc.pow12 mQ3 - 160 * mU32 * logQ3mq * Misc.pow12
    mQ3 + 3360 * mU32 * logQ3U3 * Misc.pow12 mQ3 - 2768 * lmQ3MR * mU32 * logQ3U3 * Misc.pow12 mQ3 + 224 * mU32 * dilog (1 -
    mQ32 / mU32) * logQ3U3 * Misc.pow12 mQ3 + 80 * mU32 * logQ3mq * logQ3U3 * Misc.pow12 mQ3 - 256 * Misc.pow14 mQ3 + 256 *
    lmQ3MR * Misc.pow14 mQ3 + 30 * mU32 * Misc.pow12 mQ3 * pow2 logQ3mq - 15 * mU32 * logQ3U3 * Misc.pow12 mQ3 * pow2 logQ3mq
    - 216 * mU32 * Misc.pow12 mQ3 * pow2 logQ3U3 + 256 * lmQ3MR * mU32 * Misc.pow12 mQ3 * pow2 logQ3U3 - 30 * mU32 * dilog (1
    - msq2 / mQ32) * ((-2) * mQ32 + 2 * mU32 + (mQ32 + mU32) * logQ3U3) * pow2 (mQ32 - msq2) * Misc.pow3 (mQ32 - mU32) + 112 *
    mU32 * Misc.pow12 mQ3 * Misc.pow3 logQ3U3 - 1920 * dilog (1 - msq2 / mU32) * Misc.pow4 msq * Misc.pow4 mU3 * Misc.pow6 mQ3
    + 1920 * logQ3mq * logQ3U3 * Misc.pow4 msq * Misc.pow4 mU3 * Misc.pow6 mQ3 - 1080 * pow2 logQ3mq * Misc.pow4 msq *
    Misc.pow4 mU3 * Misc.pow6 mQ3 + 30 * logQ3U3 * pow2 logQ3mq * Misc.pow4 msq * Misc.pow4 mU3 * Misc.pow6 mQ3 - 960 * pow2
    logQ3U3 * Misc.pow4 msq * Misc.pow4 mU3 * Misc.pow6 mQ3 + 960 * dilog (1 - msq2 / mU32) * Misc.pow4 mQ3 * Misc.pow4 msq *
    Misc.pow6 mU3 + 480 * dilog (1 - msq2 / mU32) * logQ3U3 * Misc.pow4 mQ3 * Misc.pow4 msq * Misc.pow6 mU3 - 960 * logQ3mq *
    logQ3U3 * Misc.pow4 mQ3 * Misc.pow4 msq * Misc.pow6 mU3 + 660 * pow2 logQ3mq * Misc.pow4 mQ3 * Misc.pow4 msq * Misc.pow6
    mU3 + 240 * logQ3U3 * pow2 logQ3mq * Misc.pow4 mQ3 * Misc.pow4 msq * Misc.pow6 mU3 + 480 * pow2 logQ3U3 * Misc.pow4 mQ3 *
    Misc.pow4 msq * Misc.pow6 mU3 - 480 * logQ3mq * pow2 logQ3U3 * Misc.pow4 mQ3 * Misc.pow4 msq * Misc.pow6 mU3 + 240 *
    Misc.pow3 logQ3U3 * Misc.pow4 mQ3 * Misc.pow4 msq * Misc.pow6 mU3 + 2880 * msq2 * Misc.pow6 mQ3 * Misc.pow6 mU3 + 3840 *
    msq2 * dilog (1 - msq2 / mU32) * Misc.pow6 mQ3 * Misc.pow6 mU3 - 2880 * msq2 * logQ3mq * Misc.pow6 mQ3 * Misc.pow6 mU3 +
    2400 * msq2 * logQ3U3 * Misc.pow6 mQ3 * Misc.pow6 mU3 - 4320 * msq2 * logQ3mq * logQ3U3 * Misc.pow6 mQ3 * Misc.pow6 mU3 +
    1560 * msq2 * pow2 logQ3mq * Misc.pow6 mQ3 * Misc.pow6 mU3 + 1920 * msq2 * pow2 logQ3U3 * Misc.pow6 mQ3 * Misc.pow6 mU3 +
    960 * mU32 * dilog (1 - msq2 / mU32) * Misc.pow4 msq * Misc.pow8 mQ3 - 480 * mU32 * dilog (1 - msq2 / mU32) * logQ3U3 *
    Misc.pow4 msq * Misc.pow8 mQ3 - 960 * mU32 * logQ3mq * logQ3U3 * Misc.pow4 msq * Misc.pow8 mQ3 + 510 * mU32 * pow2 logQ3mq
    * Misc.pow4 msq * Misc.pow8 mQ3 - 255 * mU32 * logQ3U3 * pow2 logQ3mq * Misc.pow4 msq * Misc.pow8 mQ3 + 480 * mU32 * pow2
    logQ3U3 * Misc.pow4 msq * Misc.pow8 mQ3 + 480 * mU32 * logQ3mq * pow2 logQ3U3 * Misc.pow4 msq * Misc.pow8 mQ3 - 240 * mU32
    * Misc.pow3 logQ3U3 * Misc.pow4 msq * Misc.pow8 mQ3 - 2880 * msq2 * Misc.pow4 mU3 * Misc.pow8 mQ3 - 1920 * msq2 * dilog (1
    - msq2 / mU32) * Misc.pow4 mU3 * Misc.pow8 mQ3 + 2880 * msq2 * logQ3mq * Misc.pow4 mU3 * Misc.pow8 mQ3 - 480 * msq2 *
    logQ3U3 * Misc.pow4 mU3 * Misc.pow8 mQ3 + 960 * msq2 * dilog (1 - msq2 / mU32) * logQ3U3 * Misc.pow4 mU3 * Misc.pow8 mQ3 +
    1440 * msq2 * logQ3mq * logQ3U3 * Misc.pow4 mU3 * Misc.pow8 mQ3 - 720 * msq2 * pow2 logQ3mq * Misc.pow4 mU3 * Misc.pow8
    mQ3 + 420 * msq2 * logQ3U3 * pow2 logQ3mq * Misc.pow4 mU3 * Misc.pow8 mQ3 - 480 * msq2 * pow2 logQ3U3 * Misc.pow4 mU3 *
    Misc.pow8 mQ3 - 960 * msq2 * logQ3mq * pow2 logQ3U3 * Misc.pow4 mU3 * Misc.pow8 mQ3 + 480 * msq2 * Misc.pow3 logQ3U3 *
    Misc.pow4 mU3 * Misc.pow8 mQ3 - 24128 * Misc.pow6 mU3 * Misc.pow8 mQ3 + 18560 * lmQ3MR * Misc.pow6 mU3 * Misc.pow8 mQ3 -
    1152 * dilog (1 - mQ32 / mU32) * Misc.pow6 mU3 * Misc.pow8 mQ3 + 960 * dilog (1 - msq2 / mU32) * Misc.pow6 mU3 * Misc.pow8
    mQ3 - 960 * logQ3mq * Misc.pow6 mU3 * Misc.pow8 mQ3 - 12160 * logQ3U3 * Misc.pow6 mU3 * Misc.pow8 mQ3 + 4256 * lmQ3MR *
    logQ3U3 * Misc.pow6 mU3 * Misc.pow8 mQ3 + 768 * dilog (1 - mQ32 / mU32) * logQ3U3 * Misc.pow6 mU3 * Misc.pow8 mQ3 - 480 *
    dilog (1 - msq2 / mU32) * logQ3U3 * Misc.pow6 mU3 * Misc.pow8 mQ3 - 480 * logQ3mq * logQ3U3 * Misc.pow6 mU3 * Misc.pow8
    mQ3 + 660 * pow2 logQ3mq * Misc.pow6 mU3 * Misc.pow8 mQ3 - 240 * logQ3U3 * pow2 logQ3mq * Misc.pow6 mU3 * Misc.pow8 mQ3 +
    704 * pow2 logQ3U3 * Misc.pow6 mU3 * Misc.pow8 mQ3 - 2528 * lmQ3MR * pow2 logQ3U3 * Misc.pow6 mU3 * Misc.pow8 mQ3 + 80 *
    logQ3mq * pow2 logQ3U3 * Misc.pow6 mU3 * Misc.pow8 mQ3 + 1352 * Misc.pow3 logQ3U3 * Misc.pow6 mU3 * Misc.pow8 mQ3 - 30 *
    (mQ32 - mU32) * mU32 * dilog (1 - mQ32 / msq2) * ((-2) * mQ32 + 2 * mU32 + (mQ32 + mU32) * logQ3U3) * ((-2) * mQ32 * msq2
    * mU32 * (msq2 + mU32) + Misc.pow4 msq * Misc.pow4 mU3 + Misc.pow4 mQ3 * ((-28) * msq2 * mU32 + 17 * Misc.pow4 msq + 17 *
    Misc.pow4 mU3) - 2 * (msq2 + mU32) * Misc.pow6 mQ3 + Misc.pow8 mQ3) - 960 * msq2 * Misc.pow4 mQ3 * Misc.pow8 mU3 - 1920 *
    msq2 * dilog (1 - msq2 / mU32) * Misc.pow4 mQ3 * Misc.pow8 mU3 + 960 * msq2 * logQ3mq * Misc.pow4 mQ3 * Misc.pow8 mU3 -
    1440 * msq2 * logQ3U3 * Misc.pow4 mQ3 * Misc.pow8 mU3 - 960 * msq2 * dilog (1 - msq2 / mU32) * logQ3U3 * Misc.pow4 mQ3 *
    Misc.pow8 mU3 + 2400 * msq2 * logQ3mq * logQ3U3 * Misc.pow4 mQ3 * Misc.pow8 mU3 - 720 * msq2 * pow2 logQ3mq * Misc.pow4
    mQ3 * Misc.pow8 mU3 - 420 * msq2 * logQ3U3 * pow2 logQ3mq * Misc.pow4 mQ3 * Misc.pow8 mU3 - 1440 * msq2 * pow2 logQ3U3 *
    Misc.pow4 mQ3 * Misc.pow8 mU3 + 960 * msq2 * logQ3mq * pow2 logQ3U3 * Misc.pow4 mQ3 * Misc.pow8 mU3 - 480 * msq2 *
    Misc.pow3 logQ3U3 * Misc.pow4 mQ3 * Misc.pow8 mU3 - 120 * mQ32 * pow2 logQ3mq * Misc.pow4 msq * Misc.pow8 mU3 - 30 * mQ32
    * logQ3U3 * pow2 logQ3mq * Misc.pow4 msq * Misc.pow8 mU3 + 16000 * Misc.pow6 mQ3 * Misc.pow8 mU3 - 12864 * lmQ3MR *
    Misc.pow6 mQ3 * Misc.pow8 mU3 + 768 * dilog (1 - mQ32 / mU32) * Misc.pow6 mQ3 * Misc.pow8 mU3 - 1920 * dilog (1 - msq2 /
    mU32) * Misc.pow6 mQ3 * Misc.pow8 mU3 + 640 * logQ3mq * Misc.pow6 mQ3 * Misc.pow8 mU3 + 17600 * logQ3U3 * Misc.pow6 mQ3 *
    Misc.pow8 mU3 - 9920 * lmQ3MR * logQ3U3 * Misc.pow6 mQ3 * Misc.pow8 mU3 - 320 * dilog (1 - mQ32 / mU32) * logQ3U3 *
    Misc.pow6 mQ3 * Misc.pow8 mU3 + 640 * logQ3mq * logQ3U3 * Misc.pow6 mQ3 * Misc.pow8 mU3 - 1080 * pow2 logQ3mq * Misc.pow6
    mQ3 * Misc.pow8 mU3 - 30 * logQ3U3 * pow2 logQ3mq * Misc.pow6 mQ3 * Misc.pow8 mU3 + 5872 * pow2 logQ3U3 * Misc.pow6 mQ3 *
    Misc.pow8 mU3 - 448 * lmQ3MR * pow2 logQ3U3 * Misc.pow6 mQ3 * Misc.pow8 mU3 + 80 * logQ3mq * pow2 logQ3U3 * Misc.pow6 mQ3
    * Misc.pow8 mU3 + 232 * Misc.pow3 logQ3U3 * Misc.pow6 mQ3 * Misc.pow8 mU3 + 960 * msq2 * mU32 * Misc.power10 mQ3 - 960 *
    msq2 * mU32 * logQ3mq * Misc.power10 mQ3 - 480 * msq2 * mU32 * logQ3U3 * Misc.power10 mQ3 + 480 * msq2 * mU32 * logQ3mq *
    logQ3U3 * Misc.power10 mQ3 - 60 * msq2 * mU32 * pow2 logQ3mq * Misc.power10 mQ3 + 30 * msq2 * mU32 * logQ3U3 * pow2
    logQ3mq * Misc.power10 mQ3 + 15744 * Misc.pow4 mU3 * Misc.power10 mQ3 - 11456 * lmQ3MR * Misc.pow4 mU3 * Misc.power10 mQ3
    + 768 * dilog (1 - mQ32 / mU32) * Misc.pow4 mU3 * Misc.power10 mQ3 + 640 * logQ3mq * Misc.pow4 mU3 * Misc.power10 mQ3 -
    2240 * logQ3U3 * Misc.pow4 mU3 * Misc.power10 mQ3 + 4160 * lmQ3MR * logQ3U3 * Misc.pow4 mU3 * Misc.power10 mQ3 - 704 *
    dilog (1 - mQ32 / mU32) * logQ3U3 * Misc.pow4 mU3 * Misc.power10 mQ3 - 120 * pow2 logQ3mq * Misc.pow4 mU3 * Misc.power10
    mQ3 + 30 * logQ3U3 * pow2 logQ3mq * Misc.pow4 mU3 * Misc.power10 mQ3 - 2480 * pow2 logQ3U3 * Misc.pow4 mU3 * Misc.power10
    mQ3 + 1472 * lmQ3MR * pow2 logQ3U3 * Misc.pow4 mU3 * Misc.power10 mQ3 - 80 * logQ3mq * pow2 logQ3U3 * Misc.pow4 mU3 *
    Misc.power10 mQ3 - 616 * Misc.pow3 logQ3U3 * Misc.pow4 mU3 * Misc.power10 mQ3 - 60 * mQ32 * msq2 * pow2 logQ3mq *
    Misc.power10 mU3 - 30 * mQ32 * msq2 * logQ3U3 * pow2 logQ3mq * Misc.power10 mU3 - 3936 * Misc.pow4 mQ3 * Misc.power10 mU3
    + 3296 * lmQ3MR * Misc.pow4 mQ3 * Misc.power10 mU3 - 192 * dilog (1 - mQ32 / mU32) * Misc.pow4 mQ3 * Misc.power10 mU3 +
    960 * dilog (1 - msq2 / mU32) * Misc.pow4 mQ3 * Misc.power10 mU3 - 160 * logQ3mq * Misc.pow4 mQ3 * Misc.power10 mU3 - 6560
    * logQ3U3 * Misc.pow4 mQ3 * Misc.power10 mU3 + 4272 * lmQ3MR * logQ3U3 * Misc.pow4 mQ3 * Misc.power10 mU3 + 32 * dilog (1
    - mQ32 / mU32) * logQ3U3 * Misc.pow4 mQ3 * Misc.power10 mU3 + 480 * dilog (1 - msq2 / mU32) * logQ3U3 * Misc.pow4 mQ3 *
    Misc.power10 mU3 - 240 * logQ3mq * logQ3U3 * Misc.pow4 mQ3 * Misc.power10 mU3 + 510 * pow2 logQ3mq * Misc.pow4 mQ3 *
    Misc.power10 mU3 + 255 * logQ3U3 * pow2 logQ3mq * Misc.pow4 mQ3 * Misc.power10 mU3 - 3880 * pow2 logQ3U3 * Misc.pow4 mQ3 *
    Misc.power10 mU3 + 1248 * lmQ3MR * pow2 logQ3U3 * Misc.pow4 mQ3 * Misc.power10 mU3 - 80 * logQ3mq * pow2 logQ3U3 *
    Misc.pow4 mQ3 * Misc.power10 mU3 - 824 * Misc.pow3 logQ3U3 * Misc.pow4 mQ3 * Misc.power10 mU3 + 30 * pow2 logQ3mq *
    Misc.pow4 msq * Misc.power10 mU3 + 15 * logQ3U3 * pow2 logQ3mq * Misc.pow4 msq * Misc.power10 mU3) / (3 * mU32 * Misc.pow3
    mQ3 * Misc.pow7 (mQ32 - mU32)) + 1280 * mQ32 * Xt6 * ((-2) * mQ32 + 2 * mU32 + (mQ32 + mU32) * logQ3U3) * pow2 (-mQ32 +
    mU32 + mU32 * logQ3U3) / (3 * Misc.pow7 (mQ32 - mU32))

set_option maxRecDepth 10000 in
set_option maxHeartbeats 2000000 in
/-- `getDRbarPrimeToMSbarXtTerms`, case `MU3_EQ_M3`; mh2_eft/ThresholdCalculator.cpp:5256-5886 -/
def xtTermsUG (dilog : F → F) (m32 mQ32 mU32 msq2 m3 mQ3 mU3 msq lmQ3MR Xt4 Xt5 Xt6 : F) : F :=
    let logQ3U3 := log (mQ32 / mU32)
    let logU3Q3 := -logQ3U3
    let logQ3mq := log (mQ32 / msq2)
    let logU3mq := log (mU32 / msq2)
    Xt4 * (84 * msq2 * mU32 * dilog (1 - mU32 / mQ32) * Misc.pow14 mQ3 - 78 * msq2 * mU32 * dilog (1 - mU32 / mQ32) * logQ3U3
    * Misc.pow14 mQ3 + 244640 * mQ32 * msq2 * Misc.pow14 mU3 - 13120 * lmQ3MR * mQ32 * msq2 * Misc.pow14 mU3 + 1800 * mQ32 *
    msq2 * dilog (1 - msq2 / mU32) * Misc.pow14 mU3 + 80556 * mQ32 * msq2 * dilog (1 - mU32 / mQ32) * Misc.pow14 mU3 - 10752 *
    lmQ3MR * mQ32 * msq2 * dilog (1 - mU32 / mQ32) * Misc.pow14 mU3 + 1800 * mQ32 * msq2 * dilog (1 - mU32 / msq2) *
    Misc.pow14 mU3 - 10560 * mQ32 * msq2 * logQ3mq * Misc.pow14 mU3 - 7680 * lmQ3MR * mQ32 * msq2 * logQ3mq * Misc.pow14 mU3 +
    1920 * mQ32 * msq2 * dilog (1 - mU32 / mQ32) * logQ3mq * Misc.pow14 mU3 + 114224 * mQ32 * msq2 * logQ3U3 * Misc.pow14 mU3
    + 70240 * lmQ3MR * mQ32 * msq2 * logQ3U3 * Misc.pow14 mU3 + 900 * mQ32 * msq2 * dilog (1 - msq2 / mU32) * logQ3U3 *
    Misc.pow14 mU3 + 24534 * mQ32 * msq2 * dilog (1 - mU32 / mQ32) * logQ3U3 * Misc.pow14 mU3 + 900 * mQ32 * msq2 * dilog (1 -
    mU32 / msq2) * logQ3U3 * Misc.pow14 mU3 - 7080 * mQ32 * msq2 * logQ3mq * logQ3U3 * Misc.pow14 mU3 + 3840 * lmQ3MR * mQ32 *
    msq2 * logQ3mq * logQ3U3 * Misc.pow14 mU3 - 384 * mQ32 * msq2 * logU3Q3 * Misc.pow14 mU3 - 192 * mQ32 * msq2 * logQ3U3 *
    logU3Q3 * Misc.pow14 mU3 + 36 * msq2 * dilog (1 - mU32 / mQ32) * Misc.pow16 mQ3 - 36 * mU32 * dilog (1 - mU32 / mQ32) *
    Misc.pow16 mQ3 - 18 * msq2 * dilog (1 - mU32 / mQ32) * logQ3U3 * Misc.pow16 mQ3 + 18 * mU32 * dilog (1 - mU32 / mQ32) *
    logQ3U3 * Misc.pow16 mQ3 - 261920 * mQ32 * Misc.pow16 mU3 + 13120 * lmQ3MR * mQ32 * Misc.pow16 mU3 + 384 * msq2 *
    Misc.pow16 mU3 + 10368 * lmQ3MR * msq2 * Misc.pow16 mU3 - 1080 * mQ32 * dilog (1 - msq2 / mU32) * Misc.pow16 mU3 - 80556 *
    mQ32 * dilog (1 - mU32 / mQ32) * Misc.pow16 mU3 + 10752 * lmQ3MR * mQ32 * dilog (1 - mU32 / mQ32) * Misc.pow16 mU3 + 10440
    * mQ32 * dilog (1 - mU32 / msq2) * Misc.pow16 mU3 + 27840 * mQ32 * logQ3mq * Misc.pow16 mU3 + 7680 * lmQ3MR * mQ32 *
    logQ3mq * Misc.pow16 mU3 - 1920 * msq2 * logQ3mq * Misc.pow16 mU3 + 1920 * lmQ3MR * msq2 * logQ3mq * Misc.pow16 mU3 - 1920
    * mQ32 * dilog (1 - mU32 / mQ32) * logQ3mq * Misc.pow16 mU3 - 140144 * mQ32 * logQ3U3 * Misc.pow16 mU3 - 70240 * lmQ3MR *
    mQ32 * logQ3U3 * Misc.pow16 mU3 - 8256 * msq2 * logQ3U3 * Misc.pow16 mU3 + 19392 * lmQ3MR * msq2 * logQ3U3 * Misc.pow16
    mU3 - 540 * mQ32 * dilog (1 - msq2 / mU32) * logQ3U3 * Misc.pow16 mU3 - 24534 * mQ32 * dilog (1 - mU32 / mQ32) * logQ3U3 *
    Misc.pow16 mU3 + 5220 * mQ32 * dilog (1 - mU32 / msq2) * logQ3U3 * Misc.pow16 mU3 + 15000 * mQ32 * logQ3mq * logQ3U3 *
    Misc.pow16 mU3 - 3840 * lmQ3MR * mQ32 * logQ3mq * logQ3U3 * Misc.pow16 mU3 - 1920 * msq2 * logQ3mq * logQ3U3 * Misc.pow16
    mU3 + 384 * mQ32 * logU3Q3 * Misc.pow16 mU3 + 192 * mQ32 * logQ3U3 * logU3Q3 * Misc.pow16 mU3 - 3840 * mQ32 * logU3mq *
    Misc.pow16 mU3 - 1920 * mQ32 * logQ3U3 * logU3mq * Misc.pow16 mU3 - 384 * Misc.pow18 mU3 - 10368 * lmQ3MR * Misc.pow18 mU3
    + 1920 * logQ3mq * Misc.pow18 mU3 - 1920 * lmQ3MR * logQ3mq * Misc.pow18 mU3 + 8256 * logQ3U3 * Misc.pow18 mU3 - 19392 *
    lmQ3MR * logQ3U3 * Misc.pow18 mU3 + 1920 * logQ3mq * logQ3U3 * Misc.pow18 mU3 - 4992 * mQ32 * msq2 * Misc.pow14 mU3 * pow2
    lmQ3MR - 45504 * mQ32 * msq2 * logQ3U3 * Misc.pow14 mU3 * pow2 lmQ3MR + 4992 * mQ32 * Misc.pow16 mU3 * pow2 lmQ3MR - 10752
    * msq2 * Misc.pow16 mU3 * pow2 lmQ3MR + 45504 * mQ32 * logQ3U3 * Misc.pow16 mU3 * pow2 lmQ3MR + 10752 * Misc.pow18 mU3 *
    pow2 lmQ3MR + 6660 * mQ32 * msq2 * Misc.pow14 mU3 * pow2 logQ3mq + 3330 * mQ32 * msq2 * logQ3U3 * Misc.pow14 mU3 * pow2
    logQ3mq - 540 * mQ32 * Misc.pow16 mU3 * pow2 logQ3mq - 270 * mQ32 * logQ3U3 * Misc.pow16 mU3 * pow2 logQ3mq + 42 * msq2 *
    mU32 * Misc.pow14 mQ3 * pow2 logQ3U3 - 15094 * mQ32 * msq2 * Misc.pow14 mU3 * pow2 logQ3U3 + 82176 * lmQ3MR * mQ32 * msq2
    * Misc.pow14 mU3 * pow2 logQ3U3 - 2820 * mQ32 * msq2 * logQ3mq * Misc.pow14 mU3 * pow2 logQ3U3 + 18 * msq2 * Misc.pow16
    mQ3 * pow2 logQ3U3 - 18 * mU32 * Misc.pow16 mQ3 * pow2 logQ3U3 + 6814 * mQ32 * Misc.pow16 mU3 * pow2 logQ3U3 - 82176 *
    lmQ3MR * mQ32 * Misc.pow16 mU3 * pow2 logQ3U3 - 8640 * msq2 * Misc.pow16 mU3 * pow2 logQ3U3 + 2460 * mQ32 * logQ3mq *
    Misc.pow16 mU3 * pow2 logQ3U3 + 8640 * Misc.pow18 mU3 * pow2 logQ3U3 - 39 * msq2 * mU32 * Misc.pow14 mQ3 * Misc.pow3
    logQ3U3 - 30099 * mQ32 * msq2 * Misc.pow14 mU3 * Misc.pow3 logQ3U3 - 9 * msq2 * Misc.pow16 mQ3 * Misc.pow3 logQ3U3 + 9 *
    mU32 * Misc.pow16 mQ3 * Misc.pow3 logQ3U3 + 30279 * mQ32 * Misc.pow16 mU3 * Misc.pow3 logQ3U3 - 1072288 * msq2 *
    Misc.pow12 mU3 * Misc.pow4 mQ3 - 170176 * lmQ3MR * msq2 * Misc.pow12 mU3 * Misc.pow4 mQ3 - 9000 * msq2 * dilog (1 - msq2 /
    mU32) * Misc.pow12 mU3 * Misc.pow4 mQ3 - 305508 * msq2 * dilog (1 - mU32 / mQ32) * Misc.pow12 mU3 * Misc.pow4 mQ3 + 53760
    * lmQ3MR * msq2 * dilog (1 - mU32 / mQ32) * Misc.pow12 mU3 * Misc.pow4 mQ3 + 71640 * msq2 * dilog (1 - mU32 / msq2) *
    Misc.pow12 mU3 * Misc.pow4 mQ3 + 120000 * msq2 * logQ3mq * Misc.pow12 mU3 * Misc.pow4 mQ3 + 9600 * lmQ3MR * msq2 * logQ3mq
    * Misc.pow12 mU3 * Misc.pow4 mQ3 - 9600 * msq2 * dilog (1 - mU32 / mQ32) * logQ3mq * Misc.pow12 mU3 * Misc.pow4 mQ3 +
    24880 * msq2 * logQ3U3 * Misc.pow12 mU3 * Misc.pow4 mQ3 - 621600 * lmQ3MR * msq2 * logQ3U3 * Misc.pow12 mU3 * Misc.pow4
    mQ3 - 2700 * msq2 * dilog (1 - msq2 / mU32) * logQ3U3 * Misc.pow12 mU3 * Misc.pow4 mQ3 - 13062 * msq2 * dilog (1 - mU32 /
    mQ32) * logQ3U3 * Misc.pow12 mU3 * Misc.pow4 mQ3 + 37620 * msq2 * dilog (1 - mU32 / msq2) * logQ3U3 * Misc.pow12 mU3 *
    Misc.pow4 mQ3 + 38280 * msq2 * logQ3mq * logQ3U3 * Misc.pow12 mU3 * Misc.pow4 mQ3 - 15360 * lmQ3MR * msq2 * logQ3mq *
    logQ3U3 * Misc.pow12 mU3 * Misc.pow4 mQ3 + 768 * msq2 * logU3Q3 * Misc.pow12 mU3 * Misc.pow4 mQ3 + 1118368 * Misc.pow14
    mU3 * Misc.pow4 mQ3 + 170176 * lmQ3MR * Misc.pow14 mU3 * Misc.pow4 mQ3 + 5400 * dilog (1 - msq2 / mU32) * Misc.pow14 mU3 *
    Misc.pow4 mQ3 + 305508 * dilog (1 - mU32 / mQ32) * Misc.pow14 mU3 * Misc.pow4 mQ3 - 53760 * lmQ3MR * dilog (1 - mU32 /
    mQ32) * Misc.pow14 mU3 * Misc.pow4 mQ3 - 63720 * dilog (1 - mU32 / msq2) * Misc.pow14 mU3 * Misc.pow4 mQ3 - 166080 *
    logQ3mq * Misc.pow14 mU3 * Misc.pow4 mQ3 - 9600 * lmQ3MR * logQ3mq * Misc.pow14 mU3 * Misc.pow4 mQ3 + 9600 * dilog (1 -
    mU32 / mQ32) * logQ3mq * Misc.pow14 mU3 * Misc.pow4 mQ3 + 9680 * logQ3U3 * Misc.pow14 mU3 * Misc.pow4 mQ3 + 621600 *
    lmQ3MR * logQ3U3 * Misc.pow14 mU3 * Misc.pow4 mQ3 + 1620 * dilog (1 - msq2 / mU32) * logQ3U3 * Misc.pow14 mU3 * Misc.pow4
    mQ3 + 13062 * dilog (1 - mU32 / mQ32) * logQ3U3 * Misc.pow14 mU3 * Misc.pow4 mQ3 - 21420 * dilog (1 - mU32 / msq2) *
    logQ3U3 * Misc.pow14 mU3 * Misc.pow4 mQ3 - 40440 * logQ3mq * logQ3U3 * Misc.pow14 mU3 * Misc.pow4 mQ3 + 15360 * lmQ3MR *
    logQ3mq * logQ3U3 * Misc.pow14 mU3 * Misc.pow4 mQ3 - 768 * logU3Q3 * Misc.pow14 mU3 * Misc.pow4 mQ3 + 19200 * logU3mq *
    Misc.pow14 mU3 * Misc.pow4 mQ3 + 5760 * logQ3U3 * logU3mq * Misc.pow14 mU3 * Misc.pow4 mQ3 + 186240 * msq2 * Misc.pow12
    mU3 * pow2 lmQ3MR * Misc.pow4 mQ3 + 158016 * msq2 * logQ3U3 * Misc.pow12 mU3 * pow2 lmQ3MR * Misc.pow4 mQ3 - 186240 *
    Misc.pow14 mU3 * pow2 lmQ3MR * Misc.pow4 mQ3 - 158016 * logQ3U3 * Misc.pow14 mU3 * pow2 lmQ3MR * Misc.pow4 mQ3 + 7020 *
    msq2 * Misc.pow12 mU3 * pow2 logQ3mq * Misc.pow4 mQ3 + 10170 * msq2 * logQ3U3 * Misc.pow12 mU3 * pow2 logQ3mq * Misc.pow4
    mQ3 - 3060 * Misc.pow14 mU3 * pow2 logQ3mq * Misc.pow4 mQ3 - 2070 * logQ3U3 * Misc.pow14 mU3 * pow2 logQ3mq * Misc.pow4
    mQ3 + 327498 * msq2 * Misc.pow12 mU3 * pow2 logQ3U3 * Misc.pow4 mQ3 - 264192 * lmQ3MR * msq2 * Misc.pow12 mU3 * pow2
    logQ3U3 * Misc.pow4 mQ3 - 1140 * msq2 * logQ3mq * Misc.pow12 mU3 * pow2 logQ3U3 * Misc.pow4 mQ3 - 332178 * Misc.pow14 mU3
    * pow2 logQ3U3 * Misc.pow4 mQ3 + 264192 * lmQ3MR * Misc.pow14 mU3 * pow2 logQ3U3 * Misc.pow4 mQ3 + 2220 * logQ3mq *
    Misc.pow14 mU3 * pow2 logQ3U3 * Misc.pow4 mQ3 + 145527 * msq2 * Misc.pow12 mU3 * Misc.pow3 logQ3U3 * Misc.pow4 mQ3 -
    146067 * Misc.pow14 mU3 * Misc.pow3 logQ3U3 * Misc.pow4 mQ3 + 360 * mU32 * dilog (1 - msq2 / mU32) * Misc.pow12 mQ3 *
    Misc.pow4 msq + 360 * mU32 * dilog (1 - mU32 / msq2) * Misc.pow12 mQ3 * Misc.pow4 msq - 180 * mU32 * dilog (1 - msq2 /
    mU32) * logQ3U3 * Misc.pow12 mQ3 * Misc.pow4 msq - 180 * mU32 * dilog (1 - mU32 / msq2) * logQ3U3 * Misc.pow12 mQ3 *
    Misc.pow4 msq - 360 * mU32 * logQ3mq * logQ3U3 * Misc.pow12 mQ3 * Misc.pow4 msq + 17280 * mQ32 * Misc.pow12 mU3 *
    Misc.pow4 msq - 360 * mQ32 * dilog (1 - msq2 / mU32) * Misc.pow12 mU3 * Misc.pow4 msq - 29160 * mQ32 * dilog (1 - mU32 /
    msq2) * Misc.pow12 mU3 * Misc.pow4 msq - 17280 * mQ32 * logQ3mq * Misc.pow12 mU3 * Misc.pow4 msq + 25920 * mQ32 * logQ3U3
    * Misc.pow12 mU3 * Misc.pow4 msq - 180 * mQ32 * dilog (1 - msq2 / mU32) * logQ3U3 * Misc.pow12 mU3 * Misc.pow4 msq - 14580
    * mQ32 * dilog (1 - mU32 / msq2) * logQ3U3 * Misc.pow12 mU3 * Misc.pow4 msq - 8280 * mQ32 * logQ3mq * logQ3U3 * Misc.pow12
    mU3 * Misc.pow4 msq + 180 * mU32 * Misc.pow12 mQ3 * pow2 logQ3mq * Misc.pow4 msq - 90 * mU32 * logQ3U3 * Misc.pow12 mQ3 *
    pow2 logQ3mq * Misc.pow4 msq - 14580 * mQ32 * Misc.pow12 mU3 * pow2 logQ3mq * Misc.pow4 msq - 7290 * mQ32 * logQ3U3 *
    Misc.pow12 mU3 * pow2 logQ3mq * Misc.pow4 msq + 180 * mU32 * Misc.pow12 mQ3 * pow2 logQ3U3 * Misc.pow4 msq + 180 * mU32 *
    logQ3mq * Misc.pow12 mQ3 * pow2 logQ3U3 * Misc.pow4 msq + 8460 * mQ32 * Misc.pow12 mU3 * pow2 logQ3U3 * Misc.pow4 msq +
    180 * mQ32 * logQ3mq * Misc.pow12 mU3 * pow2 logQ3U3 * Misc.pow4 msq - 90 * mU32 * Misc.pow12 mQ3 * Misc.pow3 logQ3U3 *
    Misc.pow4 msq - 90 * mQ32 * Misc.pow12 mU3 * Misc.pow3 logQ3U3 * Misc.pow4 msq - 59936 * msq2 * Misc.pow12 mQ3 * Misc.pow4
    mU3 - 117440 * lmQ3MR * msq2 * Misc.pow12 mQ3 * Misc.pow4 mU3 - 1800 * msq2 * dilog (1 - msq2 / mU32) * Misc.pow12 mQ3 *
    Misc.pow4 mU3 + 6804 * msq2 * dilog (1 - mU32 / mQ32) * Misc.pow12 mQ3 * Misc.pow4 mU3 + 10752 * lmQ3MR * msq2 * dilog (1
    - mU32 / mQ32) * Misc.pow12 mQ3 * Misc.pow4 mU3 + 3960 * msq2 * dilog (1 - mU32 / msq2) * Misc.pow12 mQ3 * Misc.pow4 mU3 +
    35520 * msq2 * logQ3mq * Misc.pow12 mQ3 * Misc.pow4 mU3 - 1920 * lmQ3MR * msq2 * logQ3mq * Misc.pow12 mQ3 * Misc.pow4 mU3
    - 1920 * msq2 * dilog (1 - mU32 / mQ32) * logQ3mq * Misc.pow12 mQ3 * Misc.pow4 mU3 + 80112 * msq2 * logQ3U3 * Misc.pow12
    mQ3 * Misc.pow4 mU3 + 12256 * lmQ3MR * msq2 * logQ3U3 * Misc.pow12 mQ3 * Misc.pow4 mU3 + 900 * msq2 * dilog (1 - msq2 /
    mU32) * logQ3U3 * Misc.pow12 mQ3 * Misc.pow4 mU3 - 7362 * msq2 * dilog (1 - mU32 / mQ32) * logQ3U3 * Misc.pow12 mQ3 *
    Misc.pow4 mU3 - 1980 * msq2 * dilog (1 - mU32 / msq2) * logQ3U3 * Misc.pow12 mQ3 * Misc.pow4 mU3 - 16920 * msq2 * logQ3mq
    * logQ3U3 * Misc.pow12 mQ3 * Misc.pow4 mU3 - 768 * msq2 * logU3Q3 * Misc.pow12 mQ3 * Misc.pow4 mU3 + 384 * msq2 * logQ3U3
    * logU3Q3 * Misc.pow12 mQ3 * Misc.pow4 mU3 - 84 * dilog (1 - mU32 / mQ32) * Misc.pow14 mQ3 * Misc.pow4 mU3 + 78 * dilog (1
    - mU32 / mQ32) * logQ3U3 * Misc.pow14 mQ3 * Misc.pow4 mU3 + 58752 * msq2 * Misc.pow12 mQ3 * pow2 lmQ3MR * Misc.pow4 mU3 -
    24000 * msq2 * logQ3U3 * Misc.pow12 mQ3 * pow2 lmQ3MR * Misc.pow4 mU3 - 3780 * msq2 * Misc.pow12 mQ3 * pow2 logQ3mq *
    Misc.pow4 mU3 + 1890 * msq2 * logQ3U3 * Misc.pow12 mQ3 * pow2 logQ3mq * Misc.pow4 mU3 - 19306 * msq2 * Misc.pow12 mQ3 *
    pow2 logQ3U3 * Misc.pow4 mU3 + 13248 * lmQ3MR * msq2 * Misc.pow12 mQ3 * pow2 logQ3U3 * Misc.pow4 mU3 + 1020 * msq2 *
    logQ3mq * Misc.pow12 mQ3 * pow2 logQ3U3 * Misc.pow4 mU3 - 42 * Misc.pow14 mQ3 * pow2 logQ3U3 * Misc.pow4 mU3 - 63 * msq2 *
    Misc.pow12 mQ3 * Misc.pow3 logQ3U3 * Misc.pow4 mU3 + 39 * Misc.pow14 mQ3 * Misc.pow3 logQ3U3 * Misc.pow4 mU3 + 2880 * mQ32
    * (mQ32 - msq2) * (mQ32 - mU32) * (msq2 - mU32) * dilog (1 - msq2 / mQ32) * ((-2) * mQ32 + 2 * mU32 + (mQ32 + mU32) *
    logQ3U3) * (mQ32 * (msq2 - 3 * mU32) + 3 * msq2 * mU32 + Misc.pow4 mQ3 - 2 * Misc.pow4 mU3) * Misc.pow4 mU3 - 1839680 *
    Misc.pow12 mU3 * Misc.pow6 mQ3 - 603008 * lmQ3MR * Misc.pow12 mU3 * Misc.pow6 mQ3 - 10800 * dilog (1 - msq2 / mU32) *
    Misc.pow12 mU3 * Misc.pow6 mQ3 - 425916 * dilog (1 - mU32 / mQ32) * Misc.pow12 mU3 * Misc.pow6 mQ3 + 107520 * lmQ3MR *
    dilog (1 - mU32 / mQ32) * Misc.pow12 mU3 * Misc.pow6 mQ3 + 110160 * dilog (1 - mU32 / msq2) * Misc.pow12 mU3 * Misc.pow6
    mQ3 + 347520 * logQ3mq * Misc.pow12 mU3 * Misc.pow6 mQ3 - 19200 * dilog (1 - mU32 / mQ32) * logQ3mq * Misc.pow12 mU3 *
    Misc.pow6 mQ3 + 823968 * logQ3U3 * Misc.pow12 mU3 * Misc.pow6 mQ3 - 1234112 * lmQ3MR * logQ3U3 * Misc.pow12 mU3 *
    Misc.pow6 mQ3 - 1080 * dilog (1 - msq2 / mU32) * logQ3U3 * Misc.pow12 mU3 * Misc.pow6 mQ3 + 91098 * dilog (1 - mU32 /
    mQ32) * logQ3U3 * Misc.pow12 mU3 * Misc.pow6 mQ3 + 1800 * dilog (1 - mU32 / msq2) * logQ3U3 * Misc.pow12 mU3 * Misc.pow6
    mQ3 + 17520 * logQ3mq * logQ3U3 * Misc.pow12 mU3 * Misc.pow6 mQ3 - 23040 * lmQ3MR * logQ3mq * logQ3U3 * Misc.pow12 mU3 *
    Misc.pow6 mQ3 - 768 * logU3Q3 * Misc.pow12 mU3 * Misc.pow6 mQ3 - 768 * logQ3U3 * logU3Q3 * Misc.pow12 mU3 * Misc.pow6 mQ3
    - 38400 * logU3mq * Misc.pow12 mU3 * Misc.pow6 mQ3 - 3840 * logQ3U3 * logU3mq * Misc.pow12 mU3 * Misc.pow6 mQ3 + 480000 *
    Misc.pow12 mU3 * pow2 lmQ3MR * Misc.pow6 mQ3 + 177024 * logQ3U3 * Misc.pow12 mU3 * pow2 lmQ3MR * Misc.pow6 mQ3 - 2520 *
    Misc.pow12 mU3 * pow2 logQ3mq * Misc.pow6 mQ3 - 4860 * logQ3U3 * Misc.pow12 mU3 * pow2 logQ3mq * Misc.pow6 mQ3 + 658922 *
    Misc.pow12 mU3 * pow2 logQ3U3 * Misc.pow6 mQ3 - 206016 * lmQ3MR * Misc.pow12 mU3 * pow2 logQ3U3 * Misc.pow6 mQ3 + 10680 *
    logQ3mq * Misc.pow12 mU3 * pow2 logQ3U3 * Misc.pow6 mQ3 + 125745 * Misc.pow12 mU3 * Misc.pow3 logQ3U3 * Misc.pow6 mQ3 +
    360 * dilog (1 - msq2 / mU32) * Misc.pow12 mQ3 * Misc.pow6 msq + 360 * dilog (1 - mU32 / msq2) * Misc.pow12 mQ3 *
    Misc.pow6 msq - 180 * dilog (1 - msq2 / mU32) * logQ3U3 * Misc.pow12 mQ3 * Misc.pow6 msq - 180 * dilog (1 - mU32 / msq2) *
    logQ3U3 * Misc.pow12 mQ3 * Misc.pow6 msq - 360 * logQ3mq * logQ3U3 * Misc.pow12 mQ3 * Misc.pow6 msq + 180 * Misc.pow12 mQ3
    * pow2 logQ3mq * Misc.pow6 msq - 90 * logQ3U3 * Misc.pow12 mQ3 * pow2 logQ3mq * Misc.pow6 msq + 180 * Misc.pow12 mQ3 *
    pow2 logQ3U3 * Misc.pow6 msq + 180 * logQ3mq * Misc.pow12 mQ3 * pow2 logQ3U3 * Misc.pow6 msq - 90 * Misc.pow12 mQ3 *
    Misc.pow3 logQ3U3 * Misc.pow6 msq + 6 * mQ32 * (-msq2 + mU32) * dilog (1 - mQ32 / mU32) * ((-2) * mQ32 + 2 * mU32 + (mQ32
    + mU32) * logQ3U3) * Misc.pow3 (mQ32 - mU32) * (19 * mU32 * Misc.pow4 mQ3 - 31 * mQ32 * Misc.pow4 mU3 + 3 * Misc.pow6 mQ3
    - 119 * Misc.pow6 mU3) + 59936 * Misc.pow12 mQ3 * Misc.pow6 mU3 + 117440 * lmQ3MR * Misc.pow12 mQ3 * Misc.pow6 mU3 + 1080
    * dilog (1 - msq2 / mU32) * Misc.pow12 mQ3 * Misc.pow6 mU3 - 6804 * dilog (1 - mU32 / mQ32) * Misc.pow12 mQ3 * Misc.pow6
    mU3 - 10752 * lmQ3MR * dilog (1 - mU32 / mQ32) * Misc.pow12 mQ3 * Misc.pow6 mU3 - 4680 * dilog (1 - mU32 / msq2) *
    Misc.pow12 mQ3 * Misc.pow6 mU3 - 35520 * logQ3mq * Misc.pow12 mQ3 * Misc.pow6 mU3 + 1920 * lmQ3MR * logQ3mq * Misc.pow12
    mQ3 * Misc.pow6 mU3 + 1920 * dilog (1 - mU32 / mQ32) * logQ3mq * Misc.pow12 mQ3 * Misc.pow6 mU3 - 80112 * logQ3U3 *
    Misc.pow12 mQ3 * Misc.pow6 mU3 - 12256 * lmQ3MR * logQ3U3 * Misc.pow12 mQ3 * Misc.pow6 mU3 - 540 * dilog (1 - msq2 / mU32)
    * logQ3U3 * Misc.pow12 mQ3 * Misc.pow6 mU3 + 7362 * dilog (1 - mU32 / mQ32) * logQ3U3 * Misc.pow12 mQ3 * Misc.pow6 mU3 +
    2340 * dilog (1 - mU32 / msq2) * logQ3U3 * Misc.pow12 mQ3 * Misc.pow6 mU3 + 17640 * logQ3mq * logQ3U3 * Misc.pow12 mQ3 *
    Misc.pow6 mU3 + 768 * logU3Q3 * Misc.pow12 mQ3 * Misc.pow6 mU3 - 384 * logQ3U3 * logU3Q3 * Misc.pow12 mQ3 * Misc.pow6 mU3
    + 3840 * logU3mq * Misc.pow12 mQ3 * Misc.pow6 mU3 - 1920 * logQ3U3 * logU3mq * Misc.pow12 mQ3 * Misc.pow6 mU3 - 58752 *
    Misc.pow12 mQ3 * pow2 lmQ3MR * Misc.pow6 mU3 + 24000 * logQ3U3 * Misc.pow12 mQ3 * pow2 lmQ3MR * Misc.pow6 mU3 + 3420 *
    Misc.pow12 mQ3 * pow2 logQ3mq * Misc.pow6 mU3 - 1710 * logQ3U3 * Misc.pow12 mQ3 * pow2 logQ3mq * Misc.pow6 mU3 + 18946 *
    Misc.pow12 mQ3 * pow2 logQ3U3 * Misc.pow6 mU3 - 13248 * lmQ3MR * Misc.pow12 mQ3 * pow2 logQ3U3 * Misc.pow6 mU3 - 1380 *
    logQ3mq * Misc.pow12 mQ3 * pow2 logQ3U3 * Misc.pow6 mU3 + 243 * Misc.pow12 mQ3 * Misc.pow3 logQ3U3 * Misc.pow6 mU3 - 3600
    * dilog (1 - msq2 / mU32) * Misc.pow6 mQ3 * Misc.pow6 msq * Misc.pow6 mU3 + 2160 * dilog (1 - mU32 / msq2) * Misc.pow6 mQ3
    * Misc.pow6 msq * Misc.pow6 mU3 - 360 * dilog (1 - msq2 / mU32) * logQ3U3 * Misc.pow6 mQ3 * Misc.pow6 msq * Misc.pow6 mU3
    - 9000 * dilog (1 - mU32 / msq2) * logQ3U3 * Misc.pow6 mQ3 * Misc.pow6 msq * Misc.pow6 mU3 + 3600 * logQ3mq * logQ3U3 *
    Misc.pow6 mQ3 * Misc.pow6 msq * Misc.pow6 mU3 + 1080 * pow2 logQ3mq * Misc.pow6 mQ3 * Misc.pow6 msq * Misc.pow6 mU3 - 4500
    * logQ3U3 * pow2 logQ3mq * Misc.pow6 mQ3 * Misc.pow6 msq * Misc.pow6 mU3 - 1800 * pow2 logQ3U3 * Misc.pow6 mQ3 * Misc.pow6
    msq * Misc.pow6 mU3 + 360 * logQ3mq * pow2 logQ3U3 * Misc.pow6 mQ3 * Misc.pow6 msq * Misc.pow6 mU3 - 180 * Misc.pow3
    logQ3U3 * Misc.pow6 mQ3 * Misc.pow6 msq * Misc.pow6 mU3 + 3600 * dilog (1 - msq2 / mU32) * Misc.pow4 mU3 * Misc.pow6 msq *
    Misc.pow8 mQ3 + 9360 * dilog (1 - mU32 / msq2) * Misc.pow4 mU3 * Misc.pow6 msq * Misc.pow8 mQ3 - 360 * dilog (1 - msq2 /
    mU32) * logQ3U3 * Misc.pow4 mU3 * Misc.pow6 msq * Misc.pow8 mQ3 - 3240 * dilog (1 - mU32 / msq2) * logQ3U3 * Misc.pow4 mU3
    * Misc.pow6 msq * Misc.pow8 mQ3 - 3600 * logQ3mq * logQ3U3 * Misc.pow4 mU3 * Misc.pow6 msq * Misc.pow8 mQ3 + 4680 * pow2
    logQ3mq * Misc.pow4 mU3 * Misc.pow6 msq * Misc.pow8 mQ3 - 1620 * logQ3U3 * pow2 logQ3mq * Misc.pow4 mU3 * Misc.pow6 msq *
    Misc.pow8 mQ3 + 1800 * pow2 logQ3U3 * Misc.pow4 mU3 * Misc.pow6 msq * Misc.pow8 mQ3 + 360 * logQ3mq * pow2 logQ3U3 *
    Misc.pow4 mU3 * Misc.pow6 msq * Misc.pow8 mQ3 - 180 * Misc.pow3 logQ3U3 * Misc.pow4 mU3 * Misc.pow6 msq * Misc.pow8 mQ3 +
    3600 * dilog (1 - msq2 / mU32) * Misc.pow4 msq * Misc.pow6 mU3 * Misc.pow8 mQ3 - 36720 * dilog (1 - mU32 / msq2) *
    Misc.pow4 msq * Misc.pow6 mU3 * Misc.pow8 mQ3 + 11520 * logQ3U3 * Misc.pow4 msq * Misc.pow6 mU3 * Misc.pow8 mQ3 - 360 *
    dilog (1 - msq2 / mU32) * logQ3U3 * Misc.pow4 msq * Misc.pow6 mU3 * Misc.pow8 mQ3 + 19800 * dilog (1 - mU32 / msq2) *
    logQ3U3 * Misc.pow4 msq * Misc.pow6 mU3 * Misc.pow8 mQ3 - 9360 * logQ3mq * logQ3U3 * Misc.pow4 msq * Misc.pow6 mU3 *
    Misc.pow8 mQ3 - 18360 * pow2 logQ3mq * Misc.pow4 msq * Misc.pow6 mU3 * Misc.pow8 mQ3 + 9900 * logQ3U3 * pow2 logQ3mq *
    Misc.pow4 msq * Misc.pow6 mU3 * Misc.pow8 mQ3 - 1080 * pow2 logQ3U3 * Misc.pow4 msq * Misc.pow6 mU3 * Misc.pow8 mQ3 + 360
    * logQ3mq * pow2 logQ3U3 * Misc.pow4 msq * Misc.pow6 mU3 * Misc.pow8 mQ3 - 180 * Misc.pow3 logQ3U3 * Misc.pow4 msq *
    Misc.pow6 mU3 * Misc.pow8 mQ3 + 34560 * Misc.pow4 msq * Misc.pow6 mQ3 * Misc.pow8 mU3 - 3600 * dilog (1 - msq2 / mU32) *
    Misc.pow4 msq * Misc.pow6 mQ3 * Misc.pow8 mU3 + 48240 * dilog (1 - mU32 / msq2) * Misc.pow4 msq * Misc.pow6 mQ3 *
    Misc.pow8 mU3 - 34560 * logQ3mq * Misc.pow4 msq * Misc.pow6 mQ3 * Misc.pow8 mU3 - 5760 * logQ3U3 * Misc.pow4 msq *
    Misc.pow6 mQ3 * Misc.pow8 mU3 - 360 * dilog (1 - msq2 / mU32) * logQ3U3 * Misc.pow4 msq * Misc.pow6 mQ3 * Misc.pow8 mU3 +
    14040 * dilog (1 - mU32 / msq2) * logQ3U3 * Misc.pow4 msq * Misc.pow6 mQ3 * Misc.pow8 mU3 + 15120 * logQ3mq * logQ3U3 *
    Misc.pow4 msq * Misc.pow6 mQ3 * Misc.pow8 mU3 + 24120 * pow2 logQ3mq * Misc.pow4 msq * Misc.pow6 mQ3 * Misc.pow8 mU3 +
    7020 * logQ3U3 * pow2 logQ3mq * Misc.pow4 msq * Misc.pow6 mQ3 * Misc.pow8 mU3 - 10440 * pow2 logQ3U3 * Misc.pow4 msq *
    Misc.pow6 mQ3 * Misc.pow8 mU3 + 360 * logQ3mq * pow2 logQ3U3 * Misc.pow4 msq * Misc.pow6 mQ3 * Misc.pow8 mU3 - 180 *
    Misc.pow3 logQ3U3 * Misc.pow4 msq * Misc.pow6 mQ3 * Misc.pow8 mU3 + 1800 * dilog (1 - msq2 / mU32) * Misc.pow4 mQ3 *
    Misc.pow6 msq * Misc.pow8 mU3 - 27000 * dilog (1 - mU32 / msq2) * Misc.pow4 mQ3 * Misc.pow6 msq * Misc.pow8 mU3 + 540 *
    dilog (1 - msq2 / mU32) * logQ3U3 * Misc.pow4 mQ3 * Misc.pow6 msq * Misc.pow8 mU3 + 3420 * dilog (1 - mU32 / msq2) *
    logQ3U3 * Misc.pow4 mQ3 * Misc.pow6 msq * Misc.pow8 mU3 - 1800 * logQ3mq * logQ3U3 * Misc.pow4 mQ3 * Misc.pow6 msq *
    Misc.pow8 mU3 - 13500 * pow2 logQ3mq * Misc.pow4 mQ3 * Misc.pow6 msq * Misc.pow8 mU3 + 1710 * logQ3U3 * pow2 logQ3mq *
    Misc.pow4 mQ3 * Misc.pow6 msq * Misc.pow8 mU3 + 900 * pow2 logQ3U3 * Misc.pow4 mQ3 * Misc.pow6 msq * Misc.pow8 mU3 - 540 *
    logQ3mq * pow2 logQ3U3 * Misc.pow4 mQ3 * Misc.pow6 msq * Misc.pow8 mU3 + 270 * Misc.pow3 logQ3U3 * Misc.pow4 mQ3 *
    Misc.pow6 msq * Misc.pow8 mU3 - 1433792 * msq2 * Misc.pow8 mQ3 * Misc.pow8 mU3 - 812288 * lmQ3MR * msq2 * Misc.pow8 mQ3 *
    Misc.pow8 mU3 - 18000 * msq2 * dilog (1 - msq2 / mU32) * Misc.pow8 mQ3 * Misc.pow8 mU3 - 250452 * msq2 * dilog (1 - mU32 /
    mQ32) * Misc.pow8 mQ3 * Misc.pow8 mU3 + 107520 * lmQ3MR * msq2 * dilog (1 - mU32 / mQ32) * Misc.pow8 mQ3 * Misc.pow8 mU3 +
    102960 * msq2 * dilog (1 - mU32 / msq2) * Misc.pow8 mQ3 * Misc.pow8 mU3 + 353280 * msq2 * logQ3mq * Misc.pow8 mQ3 *
    Misc.pow8 mU3 - 9600 * lmQ3MR * msq2 * logQ3mq * Misc.pow8 mQ3 * Misc.pow8 mU3 - 19200 * msq2 * dilog (1 - mU32 / mQ32) *
    logQ3mq * Misc.pow8 mQ3 * Misc.pow8 mU3 + 1226272 * msq2 * logQ3U3 * Misc.pow8 mQ3 * Misc.pow8 mU3 - 969088 * lmQ3MR *
    msq2 * logQ3U3 * Misc.pow8 mQ3 * Misc.pow8 mU3 + 1800 * msq2 * dilog (1 - msq2 / mU32) * logQ3U3 * Misc.pow8 mQ3 *
    Misc.pow8 mU3 + 115674 * msq2 * dilog (1 - mU32 / mQ32) * logQ3U3 * Misc.pow8 mQ3 * Misc.pow8 mU3 - 35640 * msq2 * dilog
    (1 - mU32 / msq2) * logQ3U3 * Misc.pow8 mQ3 * Misc.pow8 mU3 - 21360 * msq2 * logQ3mq * logQ3U3 * Misc.pow8 mQ3 * Misc.pow8
    mU3 - 15360 * lmQ3MR * msq2 * logQ3mq * logQ3U3 * Misc.pow8 mQ3 * Misc.pow8 mU3 - 3072 * msq2 * logU3Q3 * Misc.pow8 mQ3 *
    Misc.pow8 mU3 - 384 * msq2 * logQ3U3 * logU3Q3 * Misc.pow8 mQ3 * Misc.pow8 mU3 + 533760 * msq2 * pow2 lmQ3MR * Misc.pow8
    mQ3 * Misc.pow8 mU3 + 38016 * msq2 * logQ3U3 * pow2 lmQ3MR * Misc.pow8 mQ3 * Misc.pow8 mU3 - 6120 * msq2 * pow2 logQ3mq *
    Misc.pow8 mQ3 * Misc.pow8 mU3 - 12060 * msq2 * logQ3U3 * pow2 logQ3mq * Misc.pow8 mQ3 * Misc.pow8 mU3 + 363790 * msq2 *
    pow2 logQ3U3 * Misc.pow8 mQ3 * Misc.pow8 mU3 + 63552 * lmQ3MR * msq2 * pow2 logQ3U3 * Misc.pow8 mQ3 * Misc.pow8 mU3 +
    15480 * msq2 * logQ3mq * pow2 logQ3U3 * Misc.pow8 mQ3 * Misc.pow8 mU3 - 58287 * msq2 * Misc.pow3 logQ3U3 * Misc.pow8 mQ3 *
    Misc.pow8 mU3 - 5760 * Misc.pow4 msq * Misc.pow4 mU3 * Misc.power10 mQ3 - 1800 * dilog (1 - msq2 / mU32) * Misc.pow4 msq *
    Misc.pow4 mU3 * Misc.power10 mQ3 - 1800 * dilog (1 - mU32 / msq2) * Misc.pow4 msq * Misc.pow4 mU3 * Misc.power10 mQ3 +
    5760 * logQ3mq * Misc.pow4 msq * Misc.pow4 mU3 * Misc.power10 mQ3 + 2880 * logQ3U3 * Misc.pow4 msq * Misc.pow4 mU3 *
    Misc.power10 mQ3 + 540 * dilog (1 - msq2 / mU32) * logQ3U3 * Misc.pow4 msq * Misc.pow4 mU3 * Misc.power10 mQ3 + 540 *
    dilog (1 - mU32 / msq2) * logQ3U3 * Misc.pow4 msq * Misc.pow4 mU3 * Misc.power10 mQ3 - 1080 * logQ3mq * logQ3U3 *
    Misc.pow4 msq * Misc.pow4 mU3 * Misc.power10 mQ3 - 900 * pow2 logQ3mq * Misc.pow4 msq * Misc.pow4 mU3 * Misc.power10 mQ3 +
    270 * logQ3U3 * pow2 logQ3mq * Misc.pow4 msq * Misc.pow4 mU3 * Misc.power10 mQ3 - 900 * pow2 logQ3U3 * Misc.pow4 msq *
    Misc.pow4 mU3 * Misc.power10 mQ3 - 540 * logQ3mq * pow2 logQ3U3 * Misc.pow4 msq * Misc.pow4 mU3 * Misc.power10 mQ3 + 270 *
    Misc.pow3 logQ3U3 * Misc.pow4 msq * Misc.pow4 mU3 * Misc.power10 mQ3 - 1800 * mU32 * dilog (1 - msq2 / mU32) * Misc.pow6
    msq * Misc.power10 mQ3 - 1800 * mU32 * dilog (1 - mU32 / msq2) * Misc.pow6 msq * Misc.power10 mQ3 + 540 * mU32 * dilog (1
    - msq2 / mU32) * logQ3U3 * Misc.pow6 msq * Misc.power10 mQ3 + 540 * mU32 * dilog (1 - mU32 / msq2) * logQ3U3 * Misc.pow6
    msq * Misc.power10 mQ3 + 1800 * mU32 * logQ3mq * logQ3U3 * Misc.pow6 msq * Misc.power10 mQ3 - 900 * mU32 * pow2 logQ3mq *
    Misc.pow6 msq * Misc.power10 mQ3 + 270 * mU32 * logQ3U3 * pow2 logQ3mq * Misc.pow6 msq * Misc.power10 mQ3 - 900 * mU32 *
    pow2 logQ3U3 * Misc.pow6 msq * Misc.power10 mQ3 - 540 * mU32 * logQ3mq * pow2 logQ3U3 * Misc.pow6 msq * Misc.power10 mQ3 +
    270 * mU32 * Misc.pow3 logQ3U3 * Misc.pow6 msq * Misc.power10 mQ3 + 515872 * msq2 * Misc.pow6 mU3 * Misc.power10 mQ3 +
    499648 * lmQ3MR * msq2 * Misc.pow6 mU3 * Misc.power10 mQ3 + 9000 * msq2 * dilog (1 - msq2 / mU32) * Misc.pow6 mU3 *
    Misc.power10 mQ3 + 42564 * msq2 * dilog (1 - mU32 / mQ32) * Misc.pow6 mU3 * Misc.power10 mQ3 - 53760 * lmQ3MR * msq2 *
    dilog (1 - mU32 / mQ32) * Misc.pow6 mU3 * Misc.power10 mQ3 - 19800 * msq2 * dilog (1 - mU32 / msq2) * Misc.pow6 mU3 *
    Misc.power10 mQ3 - 183360 * msq2 * logQ3mq * Misc.pow6 mU3 * Misc.power10 mQ3 + 7680 * lmQ3MR * msq2 * logQ3mq * Misc.pow6
    mU3 * Misc.power10 mQ3 + 9600 * msq2 * dilog (1 - mU32 / mQ32) * logQ3mq * Misc.pow6 mU3 * Misc.power10 mQ3 - 619024 *
    msq2 * logQ3U3 * Misc.pow6 mU3 * Misc.power10 mQ3 + 254688 * lmQ3MR * msq2 * logQ3U3 * Misc.pow6 mU3 * Misc.power10 mQ3 -
    2700 * msq2 * dilog (1 - msq2 / mU32) * logQ3U3 * Misc.pow6 mU3 * Misc.power10 mQ3 - 28590 * msq2 * dilog (1 - mU32 /
    mQ32) * logQ3U3 * Misc.pow6 mU3 * Misc.power10 mQ3 + 5940 * msq2 * dilog (1 - mU32 / msq2) * logQ3U3 * Misc.pow6 mU3 *
    Misc.power10 mQ3 + 45240 * msq2 * logQ3mq * logQ3U3 * Misc.pow6 mU3 * Misc.power10 mQ3 + 3840 * lmQ3MR * msq2 * logQ3mq *
    logQ3U3 * Misc.pow6 mU3 * Misc.power10 mQ3 + 2688 * msq2 * logU3Q3 * Misc.pow6 mU3 * Misc.power10 mQ3 - 576 * msq2 *
    logQ3U3 * logU3Q3 * Misc.pow6 mU3 * Misc.power10 mQ3 - 283008 * msq2 * pow2 lmQ3MR * Misc.pow6 mU3 * Misc.power10 mQ3 +
    50496 * msq2 * logQ3U3 * pow2 lmQ3MR * Misc.pow6 mU3 * Misc.power10 mQ3 + 18900 * msq2 * pow2 logQ3mq * Misc.pow6 mU3 *
    Misc.power10 mQ3 - 5670 * msq2 * logQ3U3 * pow2 logQ3mq * Misc.pow6 mU3 * Misc.power10 mQ3 - 1626 * msq2 * pow2 logQ3U3 *
    Misc.pow6 mU3 * Misc.power10 mQ3 - 100800 * lmQ3MR * msq2 * pow2 logQ3U3 * Misc.pow6 mU3 * Misc.power10 mQ3 - 1140 * msq2
    * logQ3mq * pow2 logQ3U3 * Misc.pow6 mU3 * Misc.power10 mQ3 + 67587 * msq2 * Misc.pow3 logQ3U3 * Misc.pow6 mU3 *
    Misc.power10 mQ3 - 510112 * Misc.pow8 mU3 * Misc.power10 mQ3 - 499648 * lmQ3MR * Misc.pow8 mU3 * Misc.power10 mQ3 - 5400 *
    dilog (1 - msq2 / mU32) * Misc.pow8 mU3 * Misc.power10 mQ3 - 42564 * dilog (1 - mU32 / mQ32) * Misc.pow8 mU3 *
    Misc.power10 mQ3 + 53760 * lmQ3MR * dilog (1 - mU32 / mQ32) * Misc.pow8 mU3 * Misc.power10 mQ3 + 23400 * dilog (1 - mU32 /
    msq2) * Misc.pow8 mU3 * Misc.power10 mQ3 + 177600 * logQ3mq * Misc.pow8 mU3 * Misc.power10 mQ3 - 7680 * lmQ3MR * logQ3mq *
    Misc.pow8 mU3 * Misc.power10 mQ3 - 9600 * dilog (1 - mU32 / mQ32) * logQ3mq * Misc.pow8 mU3 * Misc.power10 mQ3 + 616144 *
    logQ3U3 * Misc.pow8 mU3 * Misc.power10 mQ3 - 254688 * lmQ3MR * logQ3U3 * Misc.pow8 mU3 * Misc.power10 mQ3 + 1620 * dilog
    (1 - msq2 / mU32) * logQ3U3 * Misc.pow8 mU3 * Misc.power10 mQ3 + 28590 * dilog (1 - mU32 / mQ32) * logQ3U3 * Misc.pow8 mU3
    * Misc.power10 mQ3 - 7020 * dilog (1 - mU32 / msq2) * logQ3U3 * Misc.pow8 mU3 * Misc.power10 mQ3 - 45960 * logQ3mq *
    logQ3U3 * Misc.pow8 mU3 * Misc.power10 mQ3 - 3840 * lmQ3MR * logQ3mq * logQ3U3 * Misc.pow8 mU3 * Misc.power10 mQ3 - 2688 *
    logU3Q3 * Misc.pow8 mU3 * Misc.power10 mQ3 + 576 * logQ3U3 * logU3Q3 * Misc.pow8 mU3 * Misc.power10 mQ3 - 19200 * logU3mq
    * Misc.pow8 mU3 * Misc.power10 mQ3 + 5760 * logQ3U3 * logU3mq * Misc.pow8 mU3 * Misc.power10 mQ3 + 283008 * pow2 lmQ3MR *
    Misc.pow8 mU3 * Misc.power10 mQ3 - 50496 * logQ3U3 * pow2 lmQ3MR * Misc.pow8 mU3 * Misc.power10 mQ3 - 17100 * pow2 logQ3mq
    * Misc.pow8 mU3 * Misc.power10 mQ3 + 5130 * logQ3U3 * pow2 logQ3mq * Misc.pow8 mU3 * Misc.power10 mQ3 + 3426 * pow2
    logQ3U3 * Misc.pow8 mU3 * Misc.power10 mQ3 + 100800 * lmQ3MR * pow2 logQ3U3 * Misc.pow8 mU3 * Misc.power10 mQ3 + 2220 *
    logQ3mq * pow2 logQ3U3 * Misc.pow8 mU3 * Misc.power10 mQ3 - 68127 * Misc.pow3 logQ3U3 * Misc.pow8 mU3 * Misc.power10 mQ3 -
    46080 * Misc.pow4 mQ3 * Misc.pow4 msq * Misc.power10 mU3 + 1800 * dilog (1 - msq2 / mU32) * Misc.pow4 mQ3 * Misc.pow4 msq
    * Misc.power10 mU3 + 19080 * dilog (1 - mU32 / msq2) * Misc.pow4 mQ3 * Misc.pow4 msq * Misc.power10 mU3 + 46080 * logQ3mq
    * Misc.pow4 mQ3 * Misc.pow4 msq * Misc.power10 mU3 - 34560 * logQ3U3 * Misc.pow4 mQ3 * Misc.pow4 msq * Misc.power10 mU3 +
    540 * dilog (1 - msq2 / mU32) * logQ3U3 * Misc.pow4 mQ3 * Misc.pow4 msq * Misc.power10 mU3 - 19620 * dilog (1 - mU32 /
    msq2) * logQ3U3 * Misc.pow4 mQ3 * Misc.pow4 msq * Misc.power10 mU3 + 3960 * logQ3mq * logQ3U3 * Misc.pow4 mQ3 * Misc.pow4
    msq * Misc.power10 mU3 + 9540 * pow2 logQ3mq * Misc.pow4 mQ3 * Misc.pow4 msq * Misc.power10 mU3 - 9810 * logQ3U3 * pow2
    logQ3mq * Misc.pow4 mQ3 * Misc.pow4 msq * Misc.power10 mU3 + 3780 * pow2 logQ3U3 * Misc.pow4 mQ3 * Misc.pow4 msq *
    Misc.power10 mU3 - 540 * logQ3mq * pow2 logQ3U3 * Misc.pow4 mQ3 * Misc.pow4 msq * Misc.power10 mU3 + 270 * Misc.pow3
    logQ3U3 * Misc.pow4 mQ3 * Misc.pow4 msq * Misc.power10 mU3 + 1805120 * msq2 * Misc.pow6 mQ3 * Misc.power10 mU3 + 603008 *
    lmQ3MR * msq2 * Misc.pow6 mQ3 * Misc.power10 mU3 + 18000 * msq2 * dilog (1 - msq2 / mU32) * Misc.pow6 mQ3 * Misc.power10
    mU3 + 425916 * msq2 * dilog (1 - mU32 / mQ32) * Misc.pow6 mQ3 * Misc.power10 mU3 - 107520 * lmQ3MR * msq2 * dilog (1 -
    mU32 / mQ32) * Misc.pow6 mQ3 * Misc.power10 mU3 - 160560 * msq2 * dilog (1 - mU32 / msq2) * Misc.pow6 mQ3 * Misc.power10
    mU3 - 312960 * msq2 * logQ3mq * Misc.pow6 mQ3 * Misc.power10 mU3 + 19200 * msq2 * dilog (1 - mU32 / mQ32) * logQ3mq *
    Misc.pow6 mQ3 * Misc.power10 mU3 - 818208 * msq2 * logQ3U3 * Misc.pow6 mQ3 * Misc.power10 mU3 + 1234112 * lmQ3MR * msq2 *
    logQ3U3 * Misc.pow6 mQ3 * Misc.power10 mU3 + 1800 * msq2 * dilog (1 - msq2 / mU32) * logQ3U3 * Misc.pow6 mQ3 *
    Misc.power10 mU3 - 91098 * msq2 * dilog (1 - mU32 / mQ32) * logQ3U3 * Misc.pow6 mQ3 * Misc.power10 mU3 - 6840 * msq2 *
    dilog (1 - mU32 / msq2) * logQ3U3 * Misc.pow6 mQ3 * Misc.power10 mU3 - 36240 * msq2 * logQ3mq * logQ3U3 * Misc.pow6 mQ3 *
    Misc.power10 mU3 + 23040 * lmQ3MR * msq2 * logQ3mq * logQ3U3 * Misc.pow6 mQ3 * Misc.power10 mU3 + 768 * msq2 * logU3Q3 *
    Misc.pow6 mQ3 * Misc.power10 mU3 + 768 * msq2 * logQ3U3 * logU3Q3 * Misc.pow6 mQ3 * Misc.power10 mU3 - 480000 * msq2 *
    pow2 lmQ3MR * Misc.pow6 mQ3 * Misc.power10 mU3 - 177024 * msq2 * logQ3U3 * pow2 lmQ3MR * Misc.pow6 mQ3 * Misc.power10 mU3
    - 22680 * msq2 * pow2 logQ3mq * Misc.pow6 mQ3 * Misc.power10 mU3 + 2340 * msq2 * logQ3U3 * pow2 logQ3mq * Misc.pow6 mQ3 *
    Misc.power10 mU3 - 646682 * msq2 * pow2 logQ3U3 * Misc.pow6 mQ3 * Misc.power10 mU3 + 206016 * lmQ3MR * msq2 * pow2 logQ3U3
    * Misc.pow6 mQ3 * Misc.power10 mU3 - 11400 * msq2 * logQ3mq * pow2 logQ3U3 * Misc.pow6 mQ3 * Misc.power10 mU3 - 125385 *
    msq2 * Misc.pow3 logQ3U3 * Misc.pow6 mQ3 * Misc.power10 mU3 - 360 * mQ32 * dilog (1 - msq2 / mU32) * Misc.pow6 msq *
    Misc.power10 mU3 + 16920 * mQ32 * dilog (1 - mU32 / msq2) * Misc.pow6 msq * Misc.power10 mU3 - 180 * mQ32 * dilog (1 -
    msq2 / mU32) * logQ3U3 * Misc.pow6 msq * Misc.power10 mU3 + 8460 * mQ32 * dilog (1 - mU32 / msq2) * logQ3U3 * Misc.pow6
    msq * Misc.power10 mU3 + 360 * mQ32 * logQ3mq * logQ3U3 * Misc.pow6 msq * Misc.power10 mU3 + 8460 * mQ32 * pow2 logQ3mq *
    Misc.pow6 msq * Misc.power10 mU3 + 4230 * mQ32 * logQ3U3 * pow2 logQ3mq * Misc.pow6 msq * Misc.power10 mU3 - 180 * mQ32 *
    pow2 logQ3U3 * Misc.pow6 msq * Misc.power10 mU3 + 180 * mQ32 * logQ3mq * pow2 logQ3U3 * Misc.pow6 msq * Misc.power10 mU3 -
    90 * mQ32 * Misc.pow3 logQ3U3 * Misc.pow6 msq * Misc.power10 mU3 + 1433792 * Misc.pow8 mQ3 * Misc.power10 mU3 + 812288 *
    lmQ3MR * Misc.pow8 mQ3 * Misc.power10 mU3 + 10800 * dilog (1 - msq2 / mU32) * Misc.pow8 mQ3 * Misc.power10 mU3 + 250452 *
    dilog (1 - mU32 / mQ32) * Misc.pow8 mQ3 * Misc.power10 mU3 - 107520 * lmQ3MR * dilog (1 - mU32 / mQ32) * Misc.pow8 mQ3 *
    Misc.power10 mU3 - 75600 * dilog (1 - mU32 / msq2) * Misc.pow8 mQ3 * Misc.power10 mU3 - 353280 * logQ3mq * Misc.pow8 mQ3 *
    Misc.power10 mU3 + 9600 * lmQ3MR * logQ3mq * Misc.pow8 mQ3 * Misc.power10 mU3 + 19200 * dilog (1 - mU32 / mQ32) * logQ3mq
    * Misc.pow8 mQ3 * Misc.power10 mU3 - 1237792 * logQ3U3 * Misc.pow8 mQ3 * Misc.power10 mU3 + 969088 * lmQ3MR * logQ3U3 *
    Misc.pow8 mQ3 * Misc.power10 mU3 - 1080 * dilog (1 - msq2 / mU32) * logQ3U3 * Misc.pow8 mQ3 * Misc.power10 mU3 - 115674 *
    dilog (1 - mU32 / mQ32) * logQ3U3 * Misc.pow8 mQ3 * Misc.power10 mU3 + 19080 * dilog (1 - mU32 / msq2) * logQ3U3 *
    Misc.pow8 mQ3 * Misc.power10 mU3 + 34320 * logQ3mq * logQ3U3 * Misc.pow8 mQ3 * Misc.power10 mU3 + 15360 * lmQ3MR * logQ3mq
    * logQ3U3 * Misc.pow8 mQ3 * Misc.power10 mU3 + 3072 * logU3Q3 * Misc.pow8 mQ3 * Misc.power10 mU3 + 384 * logQ3U3 * logU3Q3
    * Misc.pow8 mQ3 * Misc.power10 mU3 + 38400 * logU3mq * Misc.pow8 mQ3 * Misc.power10 mU3 - 3840 * logQ3U3 * logU3mq *
    Misc.pow8 mQ3 * Misc.power10 mU3 - 533760 * pow2 lmQ3MR * Misc.pow8 mQ3 * Misc.power10 mU3 - 38016 * logQ3U3 * pow2 lmQ3MR
    * Misc.pow8 mQ3 * Misc.power10 mU3 + 19800 * pow2 logQ3mq * Misc.pow8 mQ3 * Misc.power10 mU3 + 3780 * logQ3U3 * pow2
    logQ3mq * Misc.pow8 mQ3 * Misc.power10 mU3 - 364510 * pow2 logQ3U3 * Misc.pow8 mQ3 * Misc.power10 mU3 - 63552 * lmQ3MR *
    pow2 logQ3U3 * Misc.pow8 mQ3 * Misc.power10 mU3 - 16200 * logQ3mq * pow2 logQ3U3 * Misc.pow8 mQ3 * Misc.power10 mU3 +
    58647 * Misc.pow3 logQ3U3 * Misc.pow8 mQ3 * Misc.power10 mU3) / (36 * mQ32 * (-msq2 + mU32) * Misc.pow4 mU3 * Misc.pow7
    (mQ32 - mU32)) + 2 * Xt5 * (88 * mU32 * dilog (1 - mU32 / mQ32) * Misc.pow12 mQ3 + 48 * mU32 * logQ3U3 * Misc.pow12 mQ3 -
    32 * mU32 * dilog (1 - mU32 / mQ32) * logQ3U3 * Misc.pow12 mQ3 + 48 * mU32 * logU3Q3 * Misc.pow12 mQ3 - 24 * mU32 *
    logQ3U3 * logU3Q3 * Misc.pow12 mQ3 + 6848 * mQ32 * Misc.pow12 mU3 - 4416 * lmQ3MR * mQ32 * Misc.pow12 mU3 - 120 * mQ32 *
    dilog (1 - msq2 / mU32) * Misc.pow12 mU3 + 612 * mQ32 * dilog (1 - mU32 / mQ32) * Misc.pow12 mU3 - 120 * mQ32 * dilog (1 -
    mU32 / msq2) * Misc.pow12 mU3 - 160 * mQ32 * logQ3mq * Misc.pow12 mU3 + 11408 * mQ32 * logQ3U3 * Misc.pow12 mU3 - 5536 *
    lmQ3MR * mQ32 * logQ3U3 * Misc.pow12 mU3 - 60 * mQ32 * dilog (1 - msq2 / mU32) * logQ3U3 * Misc.pow12 mU3 + 562 * mQ32 *
    dilog (1 - mU32 / mQ32) * logQ3U3 * Misc.pow12 mU3 - 60 * mQ32 * dilog (1 - mU32 / msq2) * logQ3U3 * Misc.pow12 mU3 + 40 *
    mQ32 * logQ3mq * logQ3U3 * Misc.pow12 mU3 + 112 * mQ32 * logU3Q3 * Misc.pow12 mU3 + 56 * mQ32 * logQ3U3 * logU3Q3 *
    Misc.pow12 mU3 + 480 * mQ32 * logU3mq * Misc.pow12 mU3 + 240 * mQ32 * logQ3U3 * logU3mq * Misc.pow12 mU3 - 12 * dilog (1 -
    mU32 / mQ32) * Misc.pow14 mQ3 + 6 * dilog (1 - mU32 / mQ32) * logQ3U3 * Misc.pow14 mQ3 + 512 * Misc.pow14 mU3 - 512 *
    lmQ3MR * Misc.pow14 mU3 + 512 * logQ3U3 * Misc.pow14 mU3 - 60 * mQ32 * Misc.pow12 mU3 * pow2 logQ3mq - 30 * mQ32 * logQ3U3
    * Misc.pow12 mU3 * pow2 logQ3mq + 20 * mU32 * Misc.pow12 mQ3 * pow2 logQ3U3 + 6158 * mQ32 * Misc.pow12 mU3 * pow2 logQ3U3
    - 512 * lmQ3MR * mQ32 * Misc.pow12 mU3 * pow2 logQ3U3 + 60 * mQ32 * logQ3mq * Misc.pow12 mU3 * pow2 logQ3U3 - 6 *
    Misc.pow14 mQ3 * pow2 logQ3U3 - 16 * mU32 * Misc.pow12 mQ3 * Misc.pow3 logQ3U3 + 763 * mQ32 * Misc.pow12 mU3 * Misc.pow3
    logQ3U3 + 3 * Misc.pow14 mQ3 * Misc.pow3 logQ3U3 + 2 * mQ32 * dilog (1 - mQ32 / mU32) * ((-2) * mQ32 + 2 * mU32 + (mQ32 +
    mU32) * logQ3U3) * Misc.pow3 (mQ32 - mU32) * ((-10) * mQ32 * mU32 + 3 * Misc.pow4 mQ3 - 57 * Misc.pow4 mU3) + 960 * (mQ32
    - mU32) * dilog (1 - msq2 / mQ32) * ((-2) * mQ32 + 2 * mU32 + (mQ32 + mU32) * logQ3U3) * pow2 (-(mQ3 * msq2) + Misc.pow3
    mQ3) * Misc.pow4 mU3 - 720 * dilog (1 - msq2 / mU32) * Misc.pow4 msq * Misc.pow4 mU3 * Misc.pow6 mQ3 - 2640 * dilog (1 -
    mU32 / msq2) * Misc.pow4 msq * Misc.pow4 mU3 * Misc.pow6 mQ3 + 960 * dilog (1 - mU32 / msq2) * logQ3U3 * Misc.pow4 msq *
    Misc.pow4 mU3 * Misc.pow6 mQ3 + 720 * logQ3mq * logQ3U3 * Misc.pow4 msq * Misc.pow4 mU3 * Misc.pow6 mQ3 - 1320 * pow2
    logQ3mq * Misc.pow4 msq * Misc.pow4 mU3 * Misc.pow6 mQ3 + 480 * logQ3U3 * pow2 logQ3mq * Misc.pow4 msq * Misc.pow4 mU3 *
    Misc.pow6 mQ3 - 360 * pow2 logQ3U3 * Misc.pow4 msq * Misc.pow4 mU3 * Misc.pow6 mQ3 + 480 * dilog (1 - msq2 / mU32) *
    Misc.pow4 mQ3 * Misc.pow4 msq * Misc.pow6 mU3 + 4320 * dilog (1 - mU32 / msq2) * Misc.pow4 mQ3 * Misc.pow4 msq * Misc.pow6
    mU3 + 120 * dilog (1 - msq2 / mU32) * logQ3U3 * Misc.pow4 mQ3 * Misc.pow4 msq * Misc.pow6 mU3 + 120 * dilog (1 - mU32 /
    msq2) * logQ3U3 * Misc.pow4 mQ3 * Misc.pow4 msq * Misc.pow6 mU3 - 480 * logQ3mq * logQ3U3 * Misc.pow4 mQ3 * Misc.pow4 msq
    * Misc.pow6 mU3 + 2160 * pow2 logQ3mq * Misc.pow4 mQ3 * Misc.pow4 msq * Misc.pow6 mU3 + 60 * logQ3U3 * pow2 logQ3mq *
    Misc.pow4 mQ3 * Misc.pow4 msq * Misc.pow6 mU3 + 240 * pow2 logQ3U3 * Misc.pow4 mQ3 * Misc.pow4 msq * Misc.pow6 mU3 - 120 *
    logQ3mq * pow2 logQ3U3 * Misc.pow4 mQ3 * Misc.pow4 msq * Misc.pow6 mU3 + 60 * Misc.pow3 logQ3U3 * Misc.pow4 mQ3 *
    Misc.pow4 msq * Misc.pow6 mU3 - 5760 * msq2 * Misc.pow6 mQ3 * Misc.pow6 mU3 + 1440 * msq2 * dilog (1 - msq2 / mU32) *
    Misc.pow6 mQ3 * Misc.pow6 mU3 - 6240 * msq2 * dilog (1 - mU32 / msq2) * Misc.pow6 mQ3 * Misc.pow6 mU3 + 2880 * msq2 *
    logQ3mq * Misc.pow6 mQ3 * Misc.pow6 mU3 + 1920 * msq2 * logQ3U3 * Misc.pow6 mQ3 * Misc.pow6 mU3 - 2400 * msq2 * logQ3mq *
    logQ3U3 * Misc.pow6 mQ3 * Misc.pow6 mU3 + 2880 * msq2 * logU3mq * Misc.pow6 mQ3 * Misc.pow6 mU3 - 3120 * msq2 * pow2
    logQ3mq * Misc.pow6 mQ3 * Misc.pow6 mU3 + 1680 * msq2 * pow2 logQ3U3 * Misc.pow6 mQ3 * Misc.pow6 mU3 + 480 * mU32 * dilog
    (1 - msq2 / mU32) * Misc.pow4 msq * Misc.pow8 mQ3 + 480 * mU32 * dilog (1 - mU32 / msq2) * Misc.pow4 msq * Misc.pow8 mQ3 -
    120 * mU32 * dilog (1 - msq2 / mU32) * logQ3U3 * Misc.pow4 msq * Misc.pow8 mQ3 - 120 * mU32 * dilog (1 - mU32 / msq2) *
    logQ3U3 * Misc.pow4 msq * Misc.pow8 mQ3 - 480 * mU32 * logQ3mq * logQ3U3 * Misc.pow4 msq * Misc.pow8 mQ3 + 240 * mU32 *
    pow2 logQ3mq * Misc.pow4 msq * Misc.pow8 mQ3 - 60 * mU32 * logQ3U3 * pow2 logQ3mq * Misc.pow4 msq * Misc.pow8 mQ3 + 240 *
    mU32 * pow2 logQ3U3 * Misc.pow4 msq * Misc.pow8 mQ3 + 120 * mU32 * logQ3mq * pow2 logQ3U3 * Misc.pow4 msq * Misc.pow8 mQ3
    - 60 * mU32 * Misc.pow3 logQ3U3 * Misc.pow4 msq * Misc.pow8 mQ3 + 1920 * msq2 * Misc.pow4 mU3 * Misc.pow8 mQ3 - 960 * msq2
    * dilog (1 - msq2 / mU32) * Misc.pow4 mU3 * Misc.pow8 mQ3 + 2880 * msq2 * dilog (1 - mU32 / msq2) * Misc.pow4 mU3 *
    Misc.pow8 mQ3 - 2880 * msq2 * logQ3U3 * Misc.pow4 mU3 * Misc.pow8 mQ3 + 240 * msq2 * dilog (1 - msq2 / mU32) * logQ3U3 *
    Misc.pow4 mU3 * Misc.pow8 mQ3 - 1680 * msq2 * dilog (1 - mU32 / msq2) * logQ3U3 * Misc.pow4 mU3 * Misc.pow8 mQ3 + 1440 *
    msq2 * logQ3mq * logQ3U3 * Misc.pow4 mU3 * Misc.pow8 mQ3 - 1920 * msq2 * logU3mq * Misc.pow4 mU3 * Misc.pow8 mQ3 + 480 *
    msq2 * logQ3U3 * logU3mq * Misc.pow4 mU3 * Misc.pow8 mQ3 + 1440 * msq2 * pow2 logQ3mq * Misc.pow4 mU3 * Misc.pow8 mQ3 -
    840 * msq2 * logQ3U3 * pow2 logQ3mq * Misc.pow4 mU3 * Misc.pow8 mQ3 - 240 * msq2 * logQ3mq * pow2 logQ3U3 * Misc.pow4 mU3
    * Misc.pow8 mQ3 + 120 * msq2 * Misc.pow3 logQ3U3 * Misc.pow4 mU3 * Misc.pow8 mQ3 - 32000 * Misc.pow6 mU3 * Misc.pow8 mQ3 +
    25728 * lmQ3MR * Misc.pow6 mU3 * Misc.pow8 mQ3 + 480 * dilog (1 - msq2 / mU32) * Misc.pow6 mU3 * Misc.pow8 mQ3 - 2160 *
    dilog (1 - mU32 / mQ32) * Misc.pow6 mU3 * Misc.pow8 mQ3 + 4320 * dilog (1 - mU32 / msq2) * Misc.pow6 mU3 * Misc.pow8 mQ3 +
    640 * logQ3mq * Misc.pow6 mU3 * Misc.pow8 mQ3 + 8672 * logQ3U3 * Misc.pow6 mU3 * Misc.pow8 mQ3 - 19840 * lmQ3MR * logQ3U3
    * Misc.pow6 mU3 * Misc.pow8 mQ3 - 120 * dilog (1 - msq2 / mU32) * logQ3U3 * Misc.pow6 mU3 * Misc.pow8 mQ3 - 400 * dilog (1
    - mU32 / mQ32) * logQ3U3 * Misc.pow6 mU3 * Misc.pow8 mQ3 - 120 * dilog (1 - mU32 / msq2) * logQ3U3 * Misc.pow6 mU3 *
    Misc.pow8 mQ3 - 3520 * logQ3mq * logQ3U3 * Misc.pow6 mU3 * Misc.pow8 mQ3 - 160 * logU3Q3 * Misc.pow6 mU3 * Misc.pow8 mQ3 +
    112 * logQ3U3 * logU3Q3 * Misc.pow6 mU3 * Misc.pow8 mQ3 - 1920 * logU3mq * Misc.pow6 mU3 * Misc.pow8 mQ3 + 480 * logQ3U3 *
    logU3mq * Misc.pow6 mU3 * Misc.pow8 mQ3 + 2160 * pow2 logQ3mq * Misc.pow6 mU3 * Misc.pow8 mQ3 - 60 * logQ3U3 * pow2
    logQ3mq * Misc.pow6 mU3 * Misc.pow8 mQ3 + 9256 * pow2 logQ3U3 * Misc.pow6 mU3 * Misc.pow8 mQ3 + 896 * lmQ3MR * pow2
    logQ3U3 * Misc.pow6 mU3 * Misc.pow8 mQ3 - 40 * logQ3mq * pow2 logQ3U3 * Misc.pow6 mU3 * Misc.pow8 mQ3 - 212 * Misc.pow3
    logQ3U3 * Misc.pow6 mU3 * Misc.pow8 mQ3 + 5760 * msq2 * Misc.pow4 mQ3 * Misc.pow8 mU3 - 960 * msq2 * dilog (1 - msq2 /
    mU32) * Misc.pow4 mQ3 * Misc.pow8 mU3 + 2880 * msq2 * dilog (1 - mU32 / msq2) * Misc.pow4 mQ3 * Misc.pow8 mU3 - 3840 *
    msq2 * logQ3mq * Misc.pow4 mQ3 * Misc.pow8 mU3 + 2880 * msq2 * logQ3U3 * Misc.pow4 mQ3 * Misc.pow8 mU3 - 240 * msq2 *
    dilog (1 - msq2 / mU32) * logQ3U3 * Misc.pow4 mQ3 * Misc.pow8 mU3 + 1680 * msq2 * dilog (1 - mU32 / msq2) * logQ3U3 *
    Misc.pow4 mQ3 * Misc.pow8 mU3 + 480 * msq2 * logQ3mq * logQ3U3 * Misc.pow4 mQ3 * Misc.pow8 mU3 - 1920 * msq2 * logU3mq *
    Misc.pow4 mQ3 * Misc.pow8 mU3 - 480 * msq2 * logQ3U3 * logU3mq * Misc.pow4 mQ3 * Misc.pow8 mU3 + 1440 * msq2 * pow2
    logQ3mq * Misc.pow4 mQ3 * Misc.pow8 mU3 + 840 * msq2 * logQ3U3 * pow2 logQ3mq * Misc.pow4 mQ3 * Misc.pow8 mU3 - 960 * msq2
    * pow2 logQ3U3 * Misc.pow4 mQ3 * Misc.pow8 mU3 + 240 * msq2 * logQ3mq * pow2 logQ3U3 * Misc.pow4 mQ3 * Misc.pow8 mU3 - 120
    * msq2 * Misc.pow3 logQ3U3 * Misc.pow4 mQ3 * Misc.pow8 mU3 - 120 * mQ32 * dilog (1 - msq2 / mU32) * Misc.pow4 msq *
    Misc.pow8 mU3 - 2040 * mQ32 * dilog (1 - mU32 / msq2) * Misc.pow4 msq * Misc.pow8 mU3 - 60 * mQ32 * dilog (1 - msq2 /
    mU32) * logQ3U3 * Misc.pow4 msq * Misc.pow8 mU3 - 1020 * mQ32 * dilog (1 - mU32 / msq2) * logQ3U3 * Misc.pow4 msq *
    Misc.pow8 mU3 + 120 * mQ32 * logQ3mq * logQ3U3 * Misc.pow4 msq * Misc.pow8 mU3 - 1020 * mQ32 * pow2 logQ3mq * Misc.pow4
    msq * Misc.pow8 mU3 - 510 * mQ32 * logQ3U3 * pow2 logQ3mq * Misc.pow4 msq * Misc.pow8 mU3 - 60 * mQ32 * pow2 logQ3U3 *
    Misc.pow4 msq * Misc.pow8 mU3 + 60 * mQ32 * logQ3mq * pow2 logQ3U3 * Misc.pow4 msq * Misc.pow8 mU3 - 30 * mQ32 * Misc.pow3
    logQ3U3 * Misc.pow4 msq * Misc.pow8 mU3 + 48256 * Misc.pow6 mQ3 * Misc.pow8 mU3 - 37120 * lmQ3MR * Misc.pow6 mQ3 *
    Misc.pow8 mU3 - 720 * dilog (1 - msq2 / mU32) * Misc.pow6 mQ3 * Misc.pow8 mU3 + 3500 * dilog (1 - mU32 / mQ32) * Misc.pow6
    mQ3 * Misc.pow8 mU3 - 2640 * dilog (1 - mU32 / msq2) * Misc.pow6 mQ3 * Misc.pow8 mU3 - 960 * logQ3mq * Misc.pow6 mQ3 *
    Misc.pow8 mU3 + 14240 * logQ3U3 * Misc.pow6 mQ3 * Misc.pow8 mU3 + 8512 * lmQ3MR * logQ3U3 * Misc.pow6 mQ3 * Misc.pow8 mU3
    + 1490 * dilog (1 - mU32 / mQ32) * logQ3U3 * Misc.pow6 mQ3 * Misc.pow8 mU3 - 960 * dilog (1 - mU32 / msq2) * logQ3U3 *
    Misc.pow6 mQ3 * Misc.pow8 mU3 + 1680 * logQ3mq * logQ3U3 * Misc.pow6 mQ3 * Misc.pow8 mU3 + 480 * logU3Q3 * Misc.pow6 mQ3 *
    Misc.pow8 mU3 - 48 * logQ3U3 * logU3Q3 * Misc.pow6 mQ3 * Misc.pow8 mU3 + 2880 * logU3mq * Misc.pow6 mQ3 * Misc.pow8 mU3 -
    1320 * pow2 logQ3mq * Misc.pow6 mQ3 * Misc.pow8 mU3 - 480 * logQ3U3 * pow2 logQ3mq * Misc.pow6 mQ3 * Misc.pow8 mU3 - 9730
    * pow2 logQ3U3 * Misc.pow6 mQ3 * Misc.pow8 mU3 + 5056 * lmQ3MR * pow2 logQ3U3 * Misc.pow6 mQ3 * Misc.pow8 mU3 + 800 *
    logQ3mq * pow2 logQ3U3 * Misc.pow6 mQ3 * Misc.pow8 mU3 - 2695 * Misc.pow3 logQ3U3 * Misc.pow6 mQ3 * Misc.pow8 mU3 + 240 *
    msq2 * mU32 * dilog (1 - msq2 / mU32) * Misc.power10 mQ3 + 240 * msq2 * mU32 * dilog (1 - mU32 / msq2) * Misc.power10 mQ3
    - 480 * msq2 * mU32 * logQ3mq * Misc.power10 mQ3 + 480 * msq2 * mU32 * logQ3U3 * Misc.power10 mQ3 - 120 * msq2 * mU32 *
    dilog (1 - msq2 / mU32) * logQ3U3 * Misc.power10 mQ3 - 120 * msq2 * mU32 * dilog (1 - mU32 / msq2) * logQ3U3 *
    Misc.power10 mQ3 + 480 * msq2 * mU32 * logU3mq * Misc.power10 mQ3 - 240 * msq2 * mU32 * logQ3U3 * logU3mq * Misc.power10
    mQ3 + 120 * msq2 * mU32 * pow2 logQ3mq * Misc.power10 mQ3 - 60 * msq2 * mU32 * logQ3U3 * pow2 logQ3mq * Misc.power10 mQ3 -
    120 * msq2 * mU32 * pow2 logQ3U3 * Misc.power10 mQ3 + 120 * msq2 * mU32 * logQ3mq * pow2 logQ3U3 * Misc.power10 mQ3 - 60 *
    msq2 * mU32 * Misc.pow3 logQ3U3 * Misc.power10 mQ3 - 120 * dilog (1 - msq2 / mU32) * Misc.pow4 msq * Misc.power10 mQ3 -
    120 * dilog (1 - mU32 / msq2) * Misc.pow4 msq * Misc.power10 mQ3 + 60 * dilog (1 - msq2 / mU32) * logQ3U3 * Misc.pow4 msq
    * Misc.power10 mQ3 + 60 * dilog (1 - mU32 / msq2) * logQ3U3 * Misc.pow4 msq * Misc.power10 mQ3 + 120 * logQ3mq * logQ3U3 *
    Misc.pow4 msq * Misc.power10 mQ3 - 60 * pow2 logQ3mq * Misc.pow4 msq * Misc.power10 mQ3 + 30 * logQ3U3 * pow2 logQ3mq *
    Misc.pow4 msq * Misc.power10 mQ3 - 60 * pow2 logQ3U3 * Misc.pow4 msq * Misc.power10 mQ3 - 60 * logQ3mq * pow2 logQ3U3 *
    Misc.pow4 msq * Misc.power10 mQ3 + 30 * Misc.pow3 logQ3U3 * Misc.pow4 msq * Misc.power10 mQ3 + 7872 * Misc.pow4 mU3 *
    Misc.power10 mQ3 - 6592 * lmQ3MR * Misc.pow4 mU3 * Misc.power10 mQ3 - 120 * dilog (1 - msq2 / mU32) * Misc.pow4 mU3 *
    Misc.power10 mQ3 + 380 * dilog (1 - mU32 / mQ32) * Misc.pow4 mU3 * Misc.power10 mQ3 - 2040 * dilog (1 - mU32 / msq2) *
    Misc.pow4 mU3 * Misc.power10 mQ3 - 160 * logQ3mq * Misc.pow4 mU3 * Misc.power10 mQ3 - 6448 * logQ3U3 * Misc.pow4 mU3 *
    Misc.power10 mQ3 + 8544 * lmQ3MR * logQ3U3 * Misc.pow4 mU3 * Misc.power10 mQ3 + 60 * dilog (1 - msq2 / mU32) * logQ3U3 *
    Misc.pow4 mU3 * Misc.power10 mQ3 - 10 * dilog (1 - mU32 / mQ32) * logQ3U3 * Misc.pow4 mU3 * Misc.power10 mQ3 + 1020 *
    dilog (1 - mU32 / msq2) * logQ3U3 * Misc.pow4 mU3 * Misc.power10 mQ3 + 1800 * logQ3mq * logQ3U3 * Misc.pow4 mU3 *
    Misc.power10 mQ3 - 80 * logU3Q3 * Misc.pow4 mU3 * Misc.power10 mQ3 - 8 * logQ3U3 * logU3Q3 * Misc.pow4 mU3 * Misc.power10
    mQ3 + 480 * logU3mq * Misc.pow4 mU3 * Misc.power10 mQ3 - 240 * logQ3U3 * logU3mq * Misc.pow4 mU3 * Misc.power10 mQ3 - 1020
    * pow2 logQ3mq * Misc.pow4 mU3 * Misc.power10 mQ3 + 510 * logQ3U3 * pow2 logQ3mq * Misc.pow4 mU3 * Misc.power10 mQ3 - 1574
    * pow2 logQ3U3 * Misc.pow4 mU3 * Misc.power10 mQ3 - 2496 * lmQ3MR * pow2 logQ3U3 * Misc.pow4 mU3 * Misc.power10 mQ3 - 860
    * logQ3mq * pow2 logQ3U3 * Misc.pow4 mU3 * Misc.power10 mQ3 + 1161 * Misc.pow3 logQ3U3 * Misc.pow4 mU3 * Misc.power10 mQ3
    - 1920 * mQ32 * msq2 * Misc.power10 mU3 + 240 * mQ32 * msq2 * dilog (1 - msq2 / mU32) * Misc.power10 mU3 + 240 * mQ32 *
    msq2 * dilog (1 - mU32 / msq2) * Misc.power10 mU3 + 1440 * mQ32 * msq2 * logQ3mq * Misc.power10 mU3 - 2400 * mQ32 * msq2 *
    logQ3U3 * Misc.power10 mU3 + 120 * mQ32 * msq2 * dilog (1 - msq2 / mU32) * logQ3U3 * Misc.power10 mU3 + 120 * mQ32 * msq2
    * dilog (1 - mU32 / msq2) * logQ3U3 * Misc.power10 mU3 + 480 * mQ32 * msq2 * logQ3mq * logQ3U3 * Misc.power10 mU3 + 480 *
    mQ32 * msq2 * logU3mq * Misc.power10 mU3 + 240 * mQ32 * msq2 * logQ3U3 * logU3mq * Misc.power10 mU3 + 120 * mQ32 * msq2 *
    pow2 logQ3mq * Misc.power10 mU3 + 60 * mQ32 * msq2 * logQ3U3 * pow2 logQ3mq * Misc.power10 mU3 - 600 * mQ32 * msq2 * pow2
    logQ3U3 * Misc.power10 mU3 - 120 * mQ32 * msq2 * logQ3mq * pow2 logQ3U3 * Misc.power10 mU3 + 60 * mQ32 * msq2 * Misc.pow3
    logQ3U3 * Misc.power10 mU3 - 31488 * Misc.pow4 mQ3 * Misc.power10 mU3 + 22912 * lmQ3MR * Misc.pow4 mQ3 * Misc.power10 mU3
    + 480 * dilog (1 - msq2 / mU32) * Misc.pow4 mQ3 * Misc.power10 mU3 - 2408 * dilog (1 - mU32 / mQ32) * Misc.pow4 mQ3 *
    Misc.power10 mU3 + 480 * dilog (1 - mU32 / msq2) * Misc.pow4 mQ3 * Misc.power10 mU3 + 640 * logQ3mq * Misc.pow4 mQ3 *
    Misc.power10 mU3 - 28432 * logQ3U3 * Misc.pow4 mQ3 * Misc.power10 mU3 + 8320 * lmQ3MR * logQ3U3 * Misc.pow4 mQ3 *
    Misc.power10 mU3 + 120 * dilog (1 - msq2 / mU32) * logQ3U3 * Misc.pow4 mQ3 * Misc.power10 mU3 - 1616 * dilog (1 - mU32 /
    mQ32) * logQ3U3 * Misc.pow4 mQ3 * Misc.power10 mU3 + 120 * dilog (1 - mU32 / msq2) * logQ3U3 * Misc.pow4 mQ3 *
    Misc.power10 mU3 - 400 * logU3Q3 * Misc.pow4 mQ3 * Misc.power10 mU3 - 88 * logQ3U3 * logU3Q3 * Misc.pow4 mQ3 *
    Misc.power10 mU3 - 1920 * logU3mq * Misc.pow4 mQ3 * Misc.power10 mU3 - 480 * logQ3U3 * logU3mq * Misc.pow4 mQ3 *
    Misc.power10 mU3 + 240 * pow2 logQ3mq * Misc.pow4 mQ3 * Misc.power10 mU3 + 60 * logQ3U3 * pow2 logQ3mq * Misc.pow4 mQ3 *
    Misc.power10 mU3 - 4124 * pow2 logQ3U3 * Misc.pow4 mQ3 * Misc.power10 mU3 - 2944 * lmQ3MR * pow2 logQ3U3 * Misc.pow4 mQ3 *
    Misc.power10 mU3 + 40 * logQ3mq * pow2 logQ3U3 * Misc.pow4 mQ3 * Misc.power10 mU3 + 1508 * Misc.pow3 logQ3U3 * Misc.pow4
    mQ3 * Misc.power10 mU3) / (3 * mQ32 * Misc.pow3 mU3 * Misc.pow7 (mQ32 - mU32)) + 1280 * mU32 * Xt6 * ((-2) * mQ32 + 2 *
    mU32 + (mQ32 + mU32) * logQ3U3) * pow2 (-mQ32 + mU32 + mQ32 * logQ3U3) / (3 * Misc.pow7 (mQ32 - mU32))

/-- `getDRbarPrimeToMSbarXtTerms`, case `MQ3_EQ_MU3_EQ_M3`; mh2_eft/ThresholdCalculator.cpp:5889-5918 -/
def xtTermsQUG (dilog : F → F) (m32 mQ32 mU32 msq2 m3 mQ3 mU3 msq lmQ3MR Xt4 Xt5 Xt6 : F) : F :=
    let logQ3mq := log (mQ32 / msq2)
    let logmqQ3 := -logQ3mq
    Xt4 * (10990 * msq2 * Misc.pow4 mQ3 - 296 * lmQ3MR * msq2 * Misc.pow4 mQ3 - 2724 * msq2 * logQ3mq * Misc.pow4 mQ3 - 480 *
    lmQ3MR * msq2 * logQ3mq * Misc.pow4 mQ3 - 1044 * msq2 * logmqQ3 * Misc.pow4 mQ3 - 312 * msq2 * pow2 lmQ3MR * Misc.pow4 mQ3
    + 612 * msq2 * pow2 logQ3mq * Misc.pow4 mQ3 - 432 * mQ32 * logQ3mq * Misc.pow4 msq - 432 * mQ32 * logmqQ3 * Misc.pow4 msq
    + 279 * mQ32 * pow2 logQ3mq * Misc.pow4 msq - 10990 * Misc.pow6 mQ3 + 296 * lmQ3MR * Misc.pow6 mQ3 + 1200 * logQ3mq *
    Misc.pow6 mQ3 + 480 * lmQ3MR * logQ3mq * Misc.pow6 mQ3 + 312 * pow2 lmQ3MR * Misc.pow6 mQ3 - 81 * pow2 logQ3mq * Misc.pow6
    mQ3 + 18 * dilog (1 - mQ32 / msq2) * (28 * msq2 * Misc.pow4 mQ3 + 31 * mQ32 * Misc.pow4 msq + 31 * Misc.pow6 mQ3 - 90 *
    Misc.pow6 msq) + 2676 * logQ3mq * Misc.pow6 msq + 2676 * logmqQ3 * Misc.pow6 msq - 810 * pow2 logQ3mq * Misc.pow6 msq - 18
    * dilog (1 - msq2 / mQ32) * ((-68) * msq2 * Misc.pow4 mQ3 - 31 * mQ32 * Misc.pow4 msq + 9 * Misc.pow6 mQ3 + 90 * Misc.pow6
    msq)) / (27 * (mQ32 - msq2) * Misc.pow8 mQ3) - Xt5 * (2176 * msq2 * Misc.pow4 mQ3 - 11264 * lmQ3MR * msq2 * Misc.pow4 mQ3
    - 3744 * msq2 * logQ3mq * Misc.pow4 mQ3 + 2016 * msq2 * logmqQ3 * Misc.pow4 mQ3 + 2331 * msq2 * pow2 logQ3mq * Misc.pow4
    mQ3 - 47232 * mQ32 * logQ3mq * Misc.pow4 msq - 47232 * mQ32 * logmqQ3 * Misc.pow4 msq + 14085 * mQ32 * pow2 logQ3mq *
    Misc.pow4 msq - 2176 * Misc.pow6 mQ3 + 11264 * lmQ3MR * Misc.pow6 mQ3 - 1920 * logQ3mq * Misc.pow6 mQ3 - 1449 * pow2
    logQ3mq * Misc.pow6 mQ3 + 52896 * logQ3mq * Misc.pow6 msq + 52896 * logmqQ3 * Misc.pow6 msq - 14967 * pow2 logQ3mq *
    Misc.pow6 msq - 18 * dilog (1 - mQ32 / msq2) * ((-259) * msq2 * Misc.pow4 mQ3 - 1565 * mQ32 * Misc.pow4 msq + 161 *
    Misc.pow6 mQ3 + 1663 * Misc.pow6 msq) - 18 * dilog (1 - msq2 / mQ32) * ((-259) * msq2 * Misc.pow4 mQ3 - 1565 * mQ32 *
    Misc.pow4 msq + 161 * Misc.pow6 mQ3 + 1663 * Misc.pow6 msq)) / (216 * (mQ32 - msq2) * Misc.pow9 mQ3) + 160 * Xt6 / (9 *
    Misc.pow6 mQ3)

/-- `getDRbarPrimeToMSbarXtTerms`, case `DEGENERATE`; mh2_eft/ThresholdCalculator.cpp:5921-5924 -/
def xtTermsDeg (dilog : F → F) (m32 mQ32 mU32 msq2 m3 mQ3 mU3 msq lmQ3MR Xt4 Xt5 Xt6 : F) : F :=
    2 * Xt4 * (-5735 + 148 * lmQ3MR + 156 * pow2 lmQ3MR) / (27 * Misc.pow4 mQ3) + (-176) * (-7 + 8 * lmQ3MR) * Xt5 / (27 *
    Misc.pow5 mQ3) + 160 / (9 * Misc.pow6 mQ3) * Xt6

/-- `getDeltaLambdaAlphatAlphas2`, case `GENERAL`; mh2_eft/ThresholdCalculator.cpp:3870-4091 -/
def dLamAtAs2Gen (dilog : F → F) (m32 mQ32 mU32 msq2 m3 mQ3 mU3 Xt lmQ3MR z3 dlatas2Const Xt4 Xt5 : F) : F :=
    let logmqQ3 := log (msq2 / mQ32)
    let logU3Q3 := log (mU32 / mQ32)
    let logm3Q3 := log (m32 / mQ32)
    (3 * dlatas2Const - 384 * lmQ3MR * z3 + 160 * lmQ3MR * m32 * logmqQ3 / mQ32 + 160 * lmQ3MR * m32 * logmqQ3 / mU32 - 6096 *
    pow2 lmQ3MR + 2352 * m32 * pow2 lmQ3MR / mQ32 + 2352 * m32 * pow2 lmQ3MR / mU32 + 16 * ((-64) * m32 + 207 * (mQ32 - mU32))
    * logU3Q3 * pow2 lmQ3MR / (mQ32 - mU32) + 160 * lmQ3MR * m32 * (mQ32 + mU32) * Xt4 * logmqQ3 / (mQ32 * mU32 * pow2 (mQ32 -
    mU32)) + 2208 * Misc.pow3 lmQ3MR - 256 * lmQ3MR * Xt5 * Misc.pow3 m3 / ((m32 - mQ32) * (m32 - mU32) * pow2 (mQ32 - mU32))
    + 32 * lmQ3MR * ((-142) * m32 + 69 * (mQ32 + mU32)) * Xt4 * dilog (1 - m32 / mQ32) / Misc.pow3 (mQ32 - mU32) + 32 * lmQ3MR
    * (142 * m32 - 69 * (mQ32 + mU32)) * Xt4 * dilog (1 - m32 / mU32) / Misc.pow3 (mQ32 - mU32) + 320 * lmQ3MR * m32 * Xt4 *
    logmqQ3 * logU3Q3 / Misc.pow3 (mQ32 - mU32) + 48 * (98 * m32 + 69 * (mQ32 + mU32)) * Xt4 * logU3Q3 * pow2 lmQ3MR /
    Misc.pow3 (mQ32 - mU32) + 64 * lmQ3MR * dilog (1 - m32 / mQ32) * Misc.pow4 m3 * (105 * mQ32 * mU32 - m32 * (27 * mQ32 +
    101 * mU32) + 64 * Misc.pow4 m3 - 41 * Misc.pow4 mQ3) / ((mQ32 - mU32) * Misc.pow3 (m32 - mQ32)) - 256 * pow2 lmQ3MR *
    Misc.pow4 m3 / Misc.pow4 mQ3 + 64 * lmQ3MR * dilog (1 - m32 / mU32) * Misc.pow4 m3 * (105 * mQ32 * mU32 - m32 * (101 *
    mQ32 + 27 * mU32) + 64 * Misc.pow4 m3 - 41 * Misc.pow4 mU3) / ((-mQ32 + mU32) * Misc.pow3 (m32 - mU32)) - 256 * pow2
    lmQ3MR * Misc.pow4 m3 / Misc.pow4 mU3 + 16 * Xt4 * pow2 lmQ3MR * (147 * m32 * mQ32 * mU32 * (mQ32 + mU32) - 16 * pow2
    (mQ32 - mU32) * Misc.pow4 m3 + 414 * Misc.pow4 mQ3 * Misc.pow4 mU3) / (pow2 (mQ32 - mU32) * Misc.pow4 mQ3 * Misc.pow4 mU3)
    - 128 * lmQ3MR * Xt5 * pow2 logU3Q3 * ((-39) * m3 * (mQ32 + mU32) * Misc.pow4 mU3 + 2 * Misc.pow3 m3 * (15 * mQ32 * mU32 +
    7 * Misc.pow4 mU3) + 8 * (mQ32 + 3 * mU32) * Misc.pow5 m3) / (pow2 (m32 - mU32) * Misc.pow4 (mQ32 - mU32)) - 128 * lmQ3MR
    * Xt5 * logm3Q3 * logU3Q3 * Misc.pow3 m3 * (48 * mQ32 * mU32 * (mQ32 + mU32) + 30 * (mQ32 + mU32) * Misc.pow4 m3 - m32 *
    (78 * mQ32 * mU32 + 47 * Misc.pow4 mQ3 + 47 * Misc.pow4 mU3) + 16 * Misc.pow6 m3) / (pow2 (m32 - mQ32) * pow2 (m32 - mU32)
    * Misc.pow3 (mQ32 - mU32)) - 256 * lmQ3MR * Xt5 * logm3Q3 * Misc.pow3 m3 * ((-43) * m32 * mQ32 * mU32 * (mQ32 + mU32) +
    Misc.pow4 m3 * (38 * mQ32 * mU32 - 4 * Misc.pow4 mQ3 - 4 * Misc.pow4 mU3) + 48 * Misc.pow4 mQ3 * Misc.pow4 mU3 + 4 * (mQ32
    + mU32) * Misc.pow6 m3) / (mQ32 * mU32 * pow2 (m32 - mQ32) * pow2 (m32 - mU32) * pow2 (mQ32 - mU32)) + 128 * lmQ3MR * Xt5
    * logU3Q3 * (78 * m3 * Misc.pow4 mQ3 * Misc.pow4 mU3 - Misc.pow3 m3 * (53 * mU32 * Misc.pow4 mQ3 + 71 * mQ32 * Misc.pow4
    mU3) + (45 * mQ32 * mU32 - 23 * Misc.pow4 mQ3 - 8 * Misc.pow4 mU3) * Misc.pow5 m3 + 8 * (3 * mQ32 + mU32) * Misc.pow7 m3)
    / (mQ32 * (-m32 + mQ32) * pow2 (m32 - mU32) * Misc.pow3 (mQ32 - mU32)) + 16 * lmQ3MR * pow2 logU3Q3 * (Misc.pow4 m3 * (519
    * mQ32 * mU32 - 263 * Misc.pow4 mU3) - (239 * mQ32 + 81 * mU32) * Misc.pow6 m3 + 138 * (mQ32 - mU32) * Misc.pow6 mU3 + m32
    * ((-414) * mQ32 * Misc.pow4 mU3 + 350 * Misc.pow6 mU3) + 128 * Misc.pow8 m3) / ((-mQ32 + mU32) * Misc.pow3 (m32 - mU32))
    + 64 * lmQ3MR * Xt * (138 * lmQ3MR * m3 * logU3Q3 / (mQ32 - mU32) + 10 * m3 * logmqQ3 * logU3Q3 / (mQ32 - mU32) - 64 *
    Misc.pow3 m3 / (mQ32 * mU32) + 32 * lmQ3MR * Misc.pow3 m3 / (mQ32 * mU32) - 8 * dilog (1 - m32 / mQ32) * ((-48) * mQ32 *
    Misc.pow3 m3 + 47 * Misc.pow5 m3) / ((mQ32 - mU32) * pow2 (m32 - mQ32)) - 8 * dilog (1 - m32 / mU32) * ((-48) * mU32 *
    Misc.pow3 m3 + 47 * Misc.pow5 m3) / ((-mQ32 + mU32) * pow2 (m32 - mU32)) + 8 * logm3Q3 * Misc.pow5 m3 * ((-11) * mQ32 *
    mU32 * (mQ32 + mU32) - 18 * (mQ32 + mU32) * Misc.pow4 m3 + 10 * m32 * (3 * mQ32 * mU32 + Misc.pow4 mQ3 + Misc.pow4 mU3) +
    8 * Misc.pow6 m3) / (mQ32 * mU32 * pow2 (m32 - mQ32) * pow2 (m32 - mU32)) + m3 * pow2 logU3Q3 * ((189 * mQ32 - 221 * mU32)
    * Misc.pow4 m3 + 111 * mQ32 * Misc.pow4 mU3 + m32 * ((-318) * mQ32 * mU32 + 382 * Misc.pow4 mU3) - 143 * Misc.pow6 mU3) /
    (pow2 (m32 - mU32) * pow2 (mQ32 - mU32)) + 2 * logU3Q3 * ((-107) * m3 * Misc.pow4 mQ3 * Misc.pow4 mU3 + Misc.pow3 m3 *
    (263 * mU32 * Misc.pow4 mQ3 + 124 * mQ32 * Misc.pow4 mU3) - (289 * mQ32 * mU32 + 152 * Misc.pow4 mQ3 + 8 * Misc.pow4 mU3)
    * Misc.pow5 m3 + (161 * mQ32 + 8 * mU32) * Misc.pow7 m3) / (mQ32 * (-m32 + mQ32) * (mQ32 - mU32) * pow2 (m32 - mU32)) - 6
    * m3 * logm3Q3 * logU3Q3 * ((-12) * m32 * mQ32 * mU32 * (mQ32 + mU32) - 2 * Misc.pow4 mQ3 * Misc.pow4 mU3 + Misc.pow4 m3 *
    (56 * mQ32 * mU32 + 11 * Misc.pow4 mQ3 + 11 * Misc.pow4 mU3) - 38 * (mQ32 + mU32) * Misc.pow6 m3 + 24 * Misc.pow8 m3) /
    ((mQ32 - mU32) * pow2 (m32 - mQ32) * pow2 (m32 - mU32))) - 16 * lmQ3MR * Xt4 * pow2 logU3Q3 * (4 * (89 * mQ32 * mU32 + 8 *
    Misc.pow4 mQ3 - 311 * Misc.pow4 mU3) * Misc.pow6 m3 + 69 * ((-4) * mQ32 * mU32 + Misc.pow4 mQ3 - 5 * Misc.pow4 mU3) *
    Misc.pow6 mU3 + 2 * Misc.pow4 m3 * (51 * mU32 * Misc.pow4 mQ3 - 310 * mQ32 * Misc.pow4 mU3 + 455 * Misc.pow6 mU3) - 16 *
    (7 * mQ32 - 23 * mU32) * Misc.pow8 m3 + m32 * ((-207) * Misc.pow4 mQ3 * Misc.pow4 mU3 + 652 * mQ32 * Misc.pow6 mU3 + 315 *
    Misc.pow8 mU3)) / (Misc.pow3 (m32 - mU32) * Misc.pow4 (mQ32 - mU32)) + 16 * lmQ3MR * logm3Q3 * logU3Q3 * Misc.pow4 m3 *
    ((372 * mQ32 * mU32 + 454 * Misc.pow4 mQ3 + 454 * Misc.pow4 mU3) * Misc.pow6 m3 + 41 * Misc.pow4 mU3 * Misc.pow6 mQ3 + 41
    * Misc.pow4 mQ3 * Misc.pow6 mU3 - Misc.pow4 m3 * (273 * mU32 * Misc.pow4 mQ3 + 273 * mQ32 * Misc.pow4 mU3 + 367 *
    Misc.pow6 mQ3 + 367 * Misc.pow6 mU3) - 320 * (mQ32 + mU32) * Misc.pow8 m3 - 105 * mU32 * Misc.pow8 mQ3 - 105 * mQ32 *
    Misc.pow8 mU3 + m32 * ((-246) * Misc.pow4 mQ3 * Misc.pow4 mU3 + 342 * mU32 * Misc.pow6 mQ3 + 342 * mQ32 * Misc.pow6 mU3 +
    101 * Misc.pow8 mQ3 + 101 * Misc.pow8 mU3) + 128 * Misc.power10 m3) / ((mQ32 - mU32) * Misc.pow3 (m32 - mQ32) * Misc.pow3
    (m32 - mU32)) + 16 * lmQ3MR * m32 * Xt4 * logm3Q3 * logU3Q3 * (88 * Misc.pow12 m3 + 24 * Misc.pow6 mQ3 * Misc.pow6 mU3 +
    Misc.pow6 m3 * (2221 * mU32 * Misc.pow4 mQ3 + 2221 * mQ32 * Misc.pow4 mU3 + 567 * Misc.pow6 mQ3 + 567 * Misc.pow6 mU3) - 8
    * (211 * mQ32 * mU32 + 110 * Misc.pow4 mQ3 + 110 * Misc.pow4 mU3) * Misc.pow8 m3 - Misc.pow4 m3 * (1694 * Misc.pow4 mQ3 *
    Misc.pow4 mU3 + 952 * mU32 * Misc.pow6 mQ3 + 952 * mQ32 * Misc.pow6 mU3 + 101 * Misc.pow8 mQ3 + 101 * Misc.pow8 mU3) + m32
    * (353 * Misc.pow4 mU3 * Misc.pow6 mQ3 + 353 * Misc.pow4 mQ3 * Misc.pow6 mU3 + 105 * mU32 * Misc.pow8 mQ3 + 105 * mQ32 *
    Misc.pow8 mU3) + 322 * (mQ32 + mU32) * Misc.power10 m3) / (Misc.pow3 (m32 - mQ32) * Misc.pow3 (m32 - mU32) * Misc.pow3
    (mQ32 - mU32)) + 16 * lmQ3MR * Xt4 * (32 * Misc.pow12 m3 * pow2 (mQ32 - mU32) - 6 * m32 * (mQ32 + mU32) * Misc.pow4 mQ3 *
    Misc.pow4 mU3 * (mQ32 * (10 * msq2 - 383 * mU32) + 10 * msq2 * mU32 + Misc.pow4 mQ3 + Misc.pow4 mU3) - 2 * mQ32 * mU32 *
    (mQ32 + mU32) * (mQ32 * (30 * msq2 - 1007 * mU32) + 30 * msq2 * mU32 + 167 * Misc.pow4 mQ3 + 167 * Misc.pow4 mU3) *
    Misc.pow6 m3 + 3 * (10 * mQ32 * (msq2 - 39 * mU32) + 10 * msq2 * mU32 + Misc.pow4 mQ3 + Misc.pow4 mU3) * Misc.pow6 mQ3 *
    Misc.pow6 mU3 + mQ32 * mU32 * Misc.pow4 m3 * (2 * Misc.pow4 mQ3 * (75 * msq2 * mU32 - 2269 * Misc.pow4 mU3) + (30 * msq2 -
    812 * mU32) * Misc.pow6 mQ3 + 2 * mQ32 * (75 * msq2 * Misc.pow4 mU3 - 406 * Misc.pow6 mU3) + 3 * (10 * msq2 + mU32) *
    Misc.pow6 mU3 + 3 * Misc.pow8 mQ3) + Misc.pow8 m3 * (10 * Misc.pow4 mQ3 * (3 * msq2 * mU32 - 67 * Misc.pow4 mU3) + 611 *
    mU32 * Misc.pow6 mQ3 + mQ32 * (30 * msq2 * Misc.pow4 mU3 + 611 * Misc.pow6 mU3) + 32 * Misc.pow8 mQ3 + 32 * Misc.pow8 mU3)
    - 8 * (27 * mU32 * Misc.pow4 mQ3 + 27 * mQ32 * Misc.pow4 mU3 + 8 * Misc.pow6 mQ3 + 8 * Misc.pow6 mU3) * Misc.power10 m3) /
    (pow2 (m32 - mQ32) * pow2 (m32 - mU32) * pow2 (mQ32 - mU32) * Misc.pow4 mQ3 * Misc.pow4 mU3) + 8 * lmQ3MR * (64 *
    Misc.pow12 m3 * (Misc.pow4 mQ3 + Misc.pow4 mU3) - 12 * m32 * (mQ32 + mU32) * Misc.pow4 mQ3 * Misc.pow4 mU3 * (10 * msq2 *
    mU32 + mQ32 * (10 * msq2 + 147 * mU32) + Misc.pow4 mQ3 + Misc.pow4 mU3) - 4 * mQ32 * mU32 * (mQ32 + mU32) * (30 * msq2 *
    mU32 + 6 * mQ32 * (5 * msq2 + 154 * mU32) + 167 * Misc.pow4 mQ3 + 167 * Misc.pow4 mU3) * Misc.pow6 m3 + (6 * mU32 * (10 *
    msq2 + mU32) + mQ32 * (60 * msq2 + 559 * mU32) + 6 * Misc.pow4 mQ3) * Misc.pow6 mQ3 * Misc.pow6 mU3 + mQ32 * mU32 *
    Misc.pow4 m3 * (12 * Misc.pow4 mQ3 * (25 * msq2 * mU32 + 408 * Misc.pow4 mU3) + (60 * msq2 + 1829 * mU32) * Misc.pow6 mQ3
    + 6 * (10 * msq2 + mU32) * Misc.pow6 mU3 + mQ32 * (300 * msq2 * Misc.pow4 mU3 + 1829 * Misc.pow6 mU3) + 6 * Misc.pow8 mQ3)
    + Misc.pow8 m3 * (Misc.pow4 mQ3 * (60 * msq2 * mU32 + 3179 * Misc.pow4 mU3) + 1350 * mU32 * Misc.pow6 mQ3 + 30 * mQ32 * (2
    * msq2 * Misc.pow4 mU3 + 45 * Misc.pow6 mU3) + 64 * Misc.pow8 mQ3 + 64 * Misc.pow8 mU3) - 16 * (43 * mU32 * Misc.pow4 mQ3
    + 43 * mQ32 * Misc.pow4 mU3 + 8 * Misc.pow6 mQ3 + 8 * Misc.pow6 mU3) * Misc.power10 m3) / (pow2 (m32 - mQ32) * pow2 (m32 -
    mU32) * Misc.pow4 mQ3 * Misc.pow4 mU3) + 16 * lmQ3MR * Xt4 * logU3Q3 * (Misc.pow12 m3 * ((-784) * mQ32 * mU32 + 33 *
    Misc.pow4 mQ3 - 65 * Misc.pow4 mU3) - 2 * m32 * Misc.pow4 mQ3 * ((-60) * msq2 * mU32 + mQ32 * ((-90) * msq2 + 1773 * mU32)
    + 744 * Misc.pow4 mQ3 + 1283 * Misc.pow4 mU3) * Misc.pow6 mU3 + mQ32 * Misc.pow4 m3 * Misc.pow4 mU3 * (((-180) * msq2 +
    3613 * mU32) * Misc.pow4 mQ3 - 60 * msq2 * Misc.pow4 mU3 + mQ32 * ((-360) * msq2 * mU32 + 5687 * Misc.pow4 mU3) + 1899 *
    Misc.pow6 mQ3 + 1209 * Misc.pow6 mU3) + Misc.pow8 m3 * ((-60) * Misc.pow4 mQ3 * (2 * msq2 * mU32 + 21 * Misc.pow4 mU3) +
    1111 * mU32 * Misc.pow6 mQ3 + mQ32 * ((-180) * msq2 * Misc.pow4 mU3 + 75 * Misc.pow6 mU3) + 33 * Misc.pow8 mQ3 - 243 *
    Misc.pow8 mU3) + 12 * (37 * mQ32 - 5 * msq2 + 106 * mU32) * Misc.pow6 mQ3 * Misc.pow8 mU3 + mU32 * Misc.pow6 m3 * (3 *
    Misc.pow4 mQ3 * (120 * msq2 * mU32 - 809 * Misc.pow4 mU3) + 4 * (15 * msq2 - 602 * mU32) * Misc.pow6 mQ3 + 6 * mQ32 * (30
    * msq2 * Misc.pow4 mU3 - 389 * Misc.pow6 mU3) - 880 * Misc.pow8 mQ3 + 81 * Misc.pow8 mU3) + (557 * mU32 * Misc.pow4 mQ3 +
    2 * mQ32 * (30 * msq2 * mU32 + 913 * Misc.pow4 mU3) - 66 * Misc.pow6 mQ3 + 227 * Misc.pow6 mU3) * Misc.power10 m3) / (mQ32
    * mU32 * pow2 (m32 - mQ32) * Misc.pow3 (m32 - mU32) * Misc.pow3 (mQ32 - mU32)) + 64 * lmQ3MR * Misc.pow3 Xt * ((-10) * m3
    * (mQ32 - mU32) * (mQ32 + mU32) * logmqQ3 * logU3Q3 - 20 * m3 * logmqQ3 * pow2 (mQ32 - mU32) + 4 * (mQ32 - mU32) * dilog
    (1 - m32 / mQ32) * (31 * m3 * (mQ32 + mU32) - 64 * Misc.pow3 m3) - 2 * lmQ3MR * (mQ32 - mU32) * logU3Q3 * (69 * m3 * (mQ32
    + mU32) + 32 * Misc.pow3 m3) + 4 * (mQ32 - mU32) * dilog (1 - m32 / mU32) * ((-31) * m3 * (mQ32 + mU32) + 64 * Misc.pow3
    m3) - 4 * lmQ3MR * pow2 (mQ32 - mU32) * (69 * m3 * mQ32 * mU32 + 8 * (mQ32 + mU32) * Misc.pow3 m3) / (mQ32 * mU32) + 4 *
    pow2 (mQ32 - mU32) * (193 * mQ32 * mU32 * (mQ32 + mU32) * Misc.pow3 m3 - 201 * m3 * Misc.pow4 mQ3 * Misc.pow4 mU3 +
    ((-185) * mQ32 * mU32 + 16 * Misc.pow4 mQ3 + 16 * Misc.pow4 mU3) * Misc.pow5 m3 - 16 * (mQ32 + mU32) * Misc.pow7 m3) /
    (mQ32 * (-m32 + mQ32) * (m32 - mU32) * mU32) - 4 * m3 * (mQ32 - mU32) * logU3Q3 * ((101 * mQ32 * mU32 + 44 * Misc.pow4 mQ3
    + 8 * Misc.pow4 mU3) * Misc.pow6 m3 - 53 * Misc.pow4 mU3 * Misc.pow6 mQ3 - 180 * Misc.pow4 mQ3 * Misc.pow6 mU3 - Misc.pow4
    m3 * (224 * mU32 * Misc.pow4 mQ3 + 332 * mQ32 * Misc.pow4 mU3 + 71 * Misc.pow6 mQ3 + 8 * Misc.pow6 mU3) + m32 * (376 *
    Misc.pow4 mQ3 * Misc.pow4 mU3 + 116 * mU32 * Misc.pow6 mQ3 + 191 * mQ32 * Misc.pow6 mU3) + 32 * mQ32 * Misc.pow8 m3) /
    (mQ32 * (-m32 + mQ32) * pow2 (m32 - mU32)) + m3 * pow2 logU3Q3 * ((-251) * Misc.pow4 mQ3 * Misc.pow4 mU3 + Misc.pow4 m3 *
    ((-256) * mQ32 * mU32 - 47 * Misc.pow4 mQ3 + 431 * Misc.pow4 mU3) + 128 * (mQ32 - mU32) * Misc.pow6 m3 + m32 * (310 * mU32
    * Misc.pow4 mQ3 - 240 * mQ32 * Misc.pow4 mU3 - 326 * Misc.pow6 mU3) + 376 * mQ32 * Misc.pow6 mU3 + 3 * Misc.pow8 mU3) /
    pow2 (m32 - mU32) - 4 * m3 * (mQ32 - mU32) * logm3Q3 * logU3Q3 * (3 * (mQ32 + mU32) * Misc.pow4 mQ3 * Misc.pow4 mU3 + 4 *
    (112 * mQ32 * mU32 + 9 * Misc.pow4 mQ3 + 9 * Misc.pow4 mU3) * Misc.pow6 m3 + Misc.pow4 m3 * ((-220) * mU32 * Misc.pow4 mQ3
    - 220 * mQ32 * Misc.pow4 mU3 + 54 * Misc.pow6 mQ3 + 54 * Misc.pow6 mU3) - 18 * m32 * ((-10) * Misc.pow4 mQ3 * Misc.pow4
    mU3 + 3 * mU32 * Misc.pow6 mQ3 + 3 * mQ32 * Misc.pow6 mU3) - 181 * (mQ32 + mU32) * Misc.pow8 m3 + 96 * Misc.power10 m3) /
    (pow2 (m32 - mQ32) * pow2 (m32 - mU32)) - 4 * m3 * logm3Q3 * pow2 (mQ32 - mU32) * (5 * m32 * (mQ32 + mU32) * Misc.pow4 mQ3
    * Misc.pow4 mU3 + 6 * Misc.pow6 mQ3 * Misc.pow6 mU3 + Misc.pow6 m3 * (47 * mU32 * Misc.pow4 mQ3 + 47 * mQ32 * Misc.pow4
    mU3 + 24 * Misc.pow6 mQ3 + 24 * Misc.pow6 mU3) - Misc.pow4 m3 * (28 * Misc.pow4 mQ3 * Misc.pow4 mU3 + 27 * mU32 *
    Misc.pow6 mQ3 + 27 * mQ32 * Misc.pow6 mU3) - 4 * (7 * mQ32 * mU32 + 10 * Misc.pow4 mQ3 + 10 * Misc.pow4 mU3) * Misc.pow8
    m3 + 16 * (mQ32 + mU32) * Misc.power10 m3) / (mQ32 * mU32 * pow2 (m32 - mQ32) * pow2 (m32 - mU32))) / Misc.pow4 (mQ32 -
    mU32) + 32 * lmQ3MR * m32 * Xt4 * logm3Q3 * (16 * Misc.pow14 m3 * pow2 (mQ32 - mU32) + Misc.pow4 m3 * Misc.pow4 mQ3 *
    Misc.pow4 mU3 * (89 * mU32 * Misc.pow4 mQ3 + 89 * mQ32 * Misc.pow4 mU3 - 184 * Misc.pow6 mQ3 - 184 * Misc.pow6 mU3) + 2 *
    m32 * (49 * mQ32 * mU32 + 69 * Misc.pow4 mQ3 + 69 * Misc.pow4 mU3) * Misc.pow6 mQ3 * Misc.pow6 mU3 - 3 * Misc.pow12 m3 *
    (15 * mU32 * Misc.pow4 mQ3 + 15 * mQ32 * Misc.pow4 mU3 + 16 * Misc.pow6 mQ3 + 16 * Misc.pow6 mU3) - 75 * (mQ32 + mU32) *
    Misc.pow8 mQ3 * Misc.pow8 mU3 + mQ32 * mU32 * Misc.pow6 m3 * ((-692) * Misc.pow4 mQ3 * Misc.pow4 mU3 + 219 * mU32 *
    Misc.pow6 mQ3 + 219 * mQ32 * Misc.pow6 mU3 + 133 * Misc.pow8 mQ3 + 133 * Misc.pow8 mU3) + ((-192) * Misc.pow4 mQ3 *
    Misc.pow4 mU3 + 311 * mU32 * Misc.pow6 mQ3 + 311 * mQ32 * Misc.pow6 mU3 + 48 * Misc.pow8 mQ3 + 48 * Misc.pow8 mU3) *
    Misc.power10 m3 - Misc.pow8 m3 * ((-190) * Misc.pow4 mU3 * Misc.pow6 mQ3 - 190 * Misc.pow4 mQ3 * Misc.pow6 mU3 + 367 *
    mU32 * Misc.pow8 mQ3 + 367 * mQ32 * Misc.pow8 mU3 + 16 * Misc.power10 mQ3 + 16 * Misc.power10 mU3)) / (pow2 (mQ32 - mU32)
    * Misc.pow3 (-m32 + mQ32) * Misc.pow3 (m32 - mU32) * Misc.pow4 mQ3 * Misc.pow4 mU3) - 16 * lmQ3MR * m32 * logm3Q3 * ((-32)
    * Misc.pow14 m3 * (Misc.pow4 mQ3 + Misc.pow4 mU3) + 3 * m32 * ((-24) * mQ32 * mU32 + 23 * Misc.pow4 mQ3 + 23 * Misc.pow4
    mU3) * Misc.pow6 mQ3 * Misc.pow6 mU3 + Misc.pow12 m3 * (346 * mU32 * Misc.pow4 mQ3 + 346 * mQ32 * Misc.pow4 mU3 + 96 *
    Misc.pow6 mQ3 + 96 * Misc.pow6 mU3) + Misc.pow4 m3 * Misc.pow4 mQ3 * Misc.pow4 mU3 * ((-155) * mU32 * Misc.pow4 mQ3 - 155
    * mQ32 * Misc.pow4 mU3 + 237 * Misc.pow6 mQ3 + 237 * Misc.pow6 mU3) + 12 * (mQ32 + mU32) * Misc.pow8 mQ3 * Misc.pow8 mU3 -
    mQ32 * mU32 * Misc.pow6 m3 * ((-318) * Misc.pow4 mQ3 * Misc.pow4 mU3 + 739 * mU32 * Misc.pow6 mQ3 + 739 * mQ32 * Misc.pow6
    mU3 + 330 * Misc.pow8 mQ3 + 330 * Misc.pow8 mU3) - 2 * (285 * Misc.pow4 mQ3 * Misc.pow4 mU3 + 503 * mU32 * Misc.pow6 mQ3 +
    503 * mQ32 * Misc.pow6 mU3 + 48 * Misc.pow8 mQ3 + 48 * Misc.pow8 mU3) * Misc.power10 m3 + Misc.pow8 m3 * (738 * Misc.pow4
    mU3 * Misc.pow6 mQ3 + 738 * Misc.pow4 mQ3 * Misc.pow6 mU3 + 990 * mU32 * Misc.pow8 mQ3 + 990 * mQ32 * Misc.pow8 mU3 + 32 *
    Misc.power10 mQ3 + 32 * Misc.power10 mU3)) / (Misc.pow3 (-m32 + mQ32) * Misc.pow3 (m32 - mU32) * Misc.pow4 mQ3 * Misc.pow4
    mU3) + 16 * lmQ3MR * logU3Q3 * (Misc.pow12 m3 * (96 * mQ32 * mU32 + 33 * Misc.pow4 mQ3 - Misc.pow4 mU3) + mQ32 * Misc.pow4
    m3 * Misc.pow4 mU3 * (1491 * mU32 * Misc.pow4 mQ3 - 2180 * mQ32 * Misc.pow4 mU3 + 1843 * Misc.pow6 mQ3 - 514 * Misc.pow6
    mU3) + Misc.pow8 m3 * (990 * Misc.pow4 mQ3 * Misc.pow4 mU3 + 2083 * mU32 * Misc.pow6 mQ3 - 1775 * mQ32 * Misc.pow6 mU3 +
    33 * Misc.pow8 mQ3 - 51 * Misc.pow8 mU3) + 381 * (mQ32 - mU32) * Misc.pow6 mQ3 * Misc.pow8 mU3 + ((-1233) * mU32 *
    Misc.pow4 mQ3 + 624 * mQ32 * Misc.pow4 mU3 - 66 * Misc.pow6 mQ3 + 35 * Misc.pow6 mU3) * Misc.power10 m3 + Misc.pow6 m3 *
    ((-3472) * Misc.pow4 mU3 * Misc.pow6 mQ3 + 1568 * Misc.pow4 mQ3 * Misc.pow6 mU3 - 942 * mU32 * Misc.pow8 mQ3 + 1549 * mQ32
    * Misc.pow8 mU3 + 17 * Misc.power10 mU3) + m32 * ((-1295) * Misc.pow6 mU3 * Misc.pow8 mQ3 + 285 * Misc.pow6 mQ3 *
    Misc.pow8 mU3 + 882 * Misc.pow4 mQ3 * Misc.power10 mU3)) / (mQ32 * (mQ32 - mU32) * mU32 * pow2 (m32 - mQ32) * Misc.pow3
    (m32 - mU32)) + 32 * lmQ3MR * pow2 Xt * (118 * m32 / (mQ32 * mU32) - 3 * ((-8) * m32 + mQ32 + 10 * msq2 + mU32) / (mQ32 *
    mU32) - 10 * m32 * logmqQ3 / (mQ32 * mU32) - 768 * m32 / pow2 (mQ32 - mU32) - 192 * m32 * ((-2) * m32 + mQ32 + mU32) *
    dilog (1 - m32 / mQ32) / Misc.pow3 (mQ32 - mU32) + 192 * m32 * ((-2) * m32 + mQ32 + mU32) * dilog (1 - m32 / mU32) /
    Misc.pow3 (mQ32 - mU32) + 3 * lmQ3MR * logU3Q3 * (32 * m32 * (mQ32 + mU32) - 69 * pow2 (mQ32 - mU32)) / Misc.pow3 (mQ32 -
    mU32) + 32 * (2 * m32 * mU32 - 3 * Misc.pow4 m3) / (mQ32 * mU32 * (-m32 + mU32)) - 64 * Misc.pow4 m3 / (mU32 * Misc.pow4
    mQ3) + 4 * (8 * m32 - 9 * mQ32) * (m32 - mQ32 - mU32) * Misc.pow4 m3 / ((m32 - mQ32) * (m32 - mU32) * mU32 * Misc.pow4
    mQ3) - 32 * Misc.pow4 m3 / (mQ32 * Misc.pow4 mU3) + ((-46) * m32 * mQ32 * mU32 + 62 * (mQ32 + mU32) * Misc.pow4 m3 - 78 *
    Misc.pow6 m3) / (mQ32 * (-m32 + mQ32) * (m32 - mU32) * mU32) + lmQ3MR * m32 * (16 * m32 * (mQ32 + mU32) - 3 * ((-162) *
    Misc.pow4 mQ3 * Misc.pow4 mU3 + 49 * mU32 * Misc.pow6 mQ3 + 49 * mQ32 * Misc.pow6 mU3) / pow2 (mQ32 - mU32)) / (Misc.pow4
    mQ3 * Misc.pow4 mU3) + pow2 logU3Q3 * ((364 * mQ32 * mU32 + 37 * Misc.pow4 mQ3 + 751 * Misc.pow4 mU3) * Misc.pow6 m3 - 138
    * ((-3) * mQ32 * mU32 + Misc.pow4 mQ3 + 2 * Misc.pow4 mU3) * Misc.pow6 mU3 - 3 * Misc.pow4 m3 * (103 * mU32 * Misc.pow4
    mQ3 - 88 * mQ32 * Misc.pow4 mU3 + 241 * Misc.pow6 mU3) - 128 * (mQ32 + 5 * mU32) * Misc.pow8 m3 + m32 * (414 * Misc.pow4
    mQ3 * Misc.pow4 mU3 - 922 * mQ32 * Misc.pow6 mU3 + 700 * Misc.pow8 mU3) + 192 * Misc.power10 m3) / (Misc.pow3 (m32 - mU32)
    * Misc.pow3 (-mQ32 + mU32)) + 2 * m32 * logm3Q3 * (117 * m32 * (mQ32 + mU32) * Misc.pow4 mQ3 * Misc.pow4 mU3 - 6 *
    Misc.pow6 mQ3 * Misc.pow6 mU3 + 2 * Misc.pow6 m3 * (141 * mU32 * Misc.pow4 mQ3 + 141 * mQ32 * Misc.pow4 mU3 + 8 *
    Misc.pow6 mQ3 + 8 * Misc.pow6 mU3) - Misc.pow4 m3 * (353 * Misc.pow4 mQ3 * Misc.pow4 mU3 + 133 * mU32 * Misc.pow6 mQ3 +
    133 * mQ32 * Misc.pow6 mU3) - (173 * mQ32 * mU32 + 32 * Misc.pow4 mQ3 + 32 * Misc.pow4 mU3) * Misc.pow8 m3 + 16 * (mQ32 +
    mU32) * Misc.power10 m3) / (pow2 (m32 - mQ32) * pow2 (m32 - mU32) * Misc.pow4 mQ3 * Misc.pow4 mU3) - logU3Q3 * ((-450) *
    pow2 (mQ32 - mU32) * Misc.pow6 mQ3 * Misc.pow6 mU3 + 2 * m32 * Misc.pow4 mQ3 * Misc.pow4 mU3 * ((-653) * mU32 * Misc.pow4
    mQ3 - 53 * mQ32 * Misc.pow4 mU3 + 613 * Misc.pow6 mQ3 + 477 * Misc.pow6 mU3) - 2 * Misc.pow8 m3 * ((-98) * Misc.pow4 mQ3 *
    Misc.pow4 mU3 + 551 * mU32 * Misc.pow6 mQ3 + 1099 * mQ32 * Misc.pow6 mU3 + 33 * Misc.pow8 mQ3 - 49 * Misc.pow8 mU3) - mQ32
    * mU32 * Misc.pow4 m3 * ((-2316) * Misc.pow4 mQ3 * Misc.pow4 mU3 + 1310 * mU32 * Misc.pow6 mQ3 + 2810 * mQ32 * Misc.pow6
    mU3 + 817 * Misc.pow8 mQ3 + 451 * Misc.pow8 mU3) + (93 * mU32 * Misc.pow4 mQ3 + 675 * mQ32 * Misc.pow4 mU3 + 33 *
    Misc.pow6 mQ3 - 33 * Misc.pow6 mU3) * Misc.power10 m3 + Misc.pow6 m3 * ((-803) * Misc.pow4 mU3 * Misc.pow6 mQ3 + 1695 *
    Misc.pow4 mQ3 * Misc.pow6 mU3 + 1830 * mU32 * Misc.pow8 mQ3 + 1902 * mQ32 * Misc.pow8 mU3 + 33 * Misc.power10 mQ3 - 49 *
    Misc.power10 mU3)) / (mQ32 * mU32 * pow2 (m32 - mQ32) * pow2 (m32 - mU32) * Misc.pow3 (mQ32 - mU32)) + logm3Q3 * logU3Q3 *
    Misc.pow4 m3 * (384 * Misc.pow12 m3 + 24 * Misc.pow6 m3 * ((-177) * mU32 * Misc.pow4 mQ3 - 177 * mQ32 * Misc.pow4 mU3 + 17
    * Misc.pow6 mQ3 + 17 * Misc.pow6 mU3) + (4244 * mQ32 * mU32 + 758 * Misc.pow4 mQ3 + 758 * Misc.pow4 mU3) * Misc.pow8 m3 +
    Misc.pow4 m3 * (5262 * Misc.pow4 mQ3 * Misc.pow4 mU3 + 744 * mU32 * Misc.pow6 mQ3 + 744 * mQ32 * Misc.pow6 mU3 - 495 *
    Misc.pow8 mQ3 - 495 * Misc.pow8 mU3) + 3 * mQ32 * mU32 * (186 * Misc.pow4 mQ3 * Misc.pow4 mU3 + 6 * mU32 * Misc.pow6 mQ3 +
    6 * mQ32 * Misc.pow6 mU3 - 35 * Misc.pow8 mQ3 - 35 * Misc.pow8 mU3) - 1152 * (mQ32 + mU32) * Misc.power10 m3 + m32 *
    ((-1750) * Misc.pow4 mU3 * Misc.pow6 mQ3 - 1750 * Misc.pow4 mQ3 * Misc.pow6 mU3 + 497 * mU32 * Misc.pow8 mQ3 + 497 * mQ32
    * Misc.pow8 mU3 + 101 * Misc.power10 mQ3 + 101 * Misc.power10 mU3)) / (Misc.pow3 (m32 - mQ32) * Misc.pow3 (m32 - mU32) *
    Misc.pow3 (mQ32 - mU32)))) / 3

/-- `getDeltaLambdaAlphatAlphas2`, case `MQ3_EQ_MU3`; mh2_eft/ThresholdCalculator.cpp:4094-4128 -/
def dLamAtAs2QU (dilog : F → F) (m32 mQ32 mU32 msq2 m3 mQ3 mU3 Xt lmQ3MR z3 dlatas2Const Xt4 Xt5 : F) : F :=
    let logmqQ3 := log (msq2 / mQ32)
    let logm3Q3 := log (m32 / mQ32)
    (-(384 * lmQ3MR * dilog (1 - m32 / mQ32) * Misc.pow3 m3 * ((-137) * m3 * mQ32 - 184 * m32 * Xt + 192 * mQ32 * Xt + 133 *
    Misc.pow3 m3) * Misc.pow8 mQ3 + (m32 - mQ32) * (160 * lmQ3MR * m3 * mQ32 * logmqQ3 * pow2 (m32 - mQ32) * (2 * mQ32 * Xt *
    ((-6) * mQ32 + pow2 Xt) + m3 * (Xt4 - 6 * mQ32 * pow2 Xt + 6 * Misc.pow4 mQ3)) + 9 * dlatas2Const * pow2 (m32 - mQ32) *
    Misc.pow8 mQ3 + 6624 * pow2 (m32 - mQ32) * Misc.pow3 lmQ3MR * Misc.pow8 mQ3 - 8 * pow2 lmQ3MR * pow2 (m32 - mQ32) * (96 *
    Misc.pow4 m3 * (Xt4 - 4 * mQ32 * pow2 Xt + 2 * Misc.pow4 mQ3) - 256 * Misc.pow3 m3 * (-(mQ32 * Misc.pow3 Xt) + 3 * Xt *
    Misc.pow4 mQ3) - 6 * m32 * (49 * mQ32 * Xt4 - 326 * pow2 Xt * Misc.pow4 mQ3 + 358 * Misc.pow6 mQ3) + 552 * m3 *
    (-(Misc.pow3 Xt * Misc.pow4 mQ3) + 6 * Xt * Misc.pow6 mQ3) + 9 * (23 * Xt4 * Misc.pow4 mQ3 - 276 * pow2 Xt * Misc.pow6 mQ3
    + 254 * Misc.pow8 mQ3)) + 8 * lmQ3MR * (104 * m3 * (3 * Xt5 - 49 * mQ32 * Misc.pow3 Xt + 42 * Xt * Misc.pow4 mQ3) *
    Misc.pow6 mQ3 - 16 * Misc.pow6 m3 * (61 * mQ32 * Xt4 - 354 * pow2 Xt * Misc.pow4 mQ3 + 306 * Misc.pow6 mQ3) + 8 *
    Misc.pow5 m3 * (8 * mQ32 * Xt5 - 249 * Misc.pow3 Xt * Misc.pow4 mQ3 + 1302 * Xt * Misc.pow6 mQ3) + 3 * Misc.pow6 mQ3 * (20
    * msq2 * Xt4 - 12 * mQ32 * ((-9) * Xt4 + 10 * msq2 * pow2 Xt) + 24 * (5 * msq2 - 53 * pow2 Xt) * Misc.pow4 mQ3 + (571 - 48
    * z3) * Misc.pow6 mQ3) + 2 * m32 * Misc.pow4 mQ3 * ((-60) * msq2 * Xt4 + mQ32 * ((-926) * Xt4 + 360 * msq2 * pow2 Xt) +
    ((-360) * msq2 + 9336 * pow2 Xt) * Misc.pow4 mQ3 + 3 * (-1345 + 48 * z3) * Misc.pow6 mQ3) - 512 * (-(mQ32 * Misc.pow3 Xt)
    + 3 * Xt * Misc.pow4 mQ3) * Misc.pow7 m3 + 192 * (Xt4 - 4 * mQ32 * pow2 Xt + 2 * Misc.pow4 mQ3) * Misc.pow8 m3 - 8 *
    Misc.pow3 m3 * (45 * Xt5 * Misc.pow4 mQ3 - 794 * Misc.pow3 Xt * Misc.pow6 mQ3 + 1680 * Xt * Misc.pow8 mQ3) + Misc.pow4 m3
    * (60 * mQ32 * msq2 * Xt4 - 8 * ((-287) * Xt4 + 45 * msq2 * pow2 Xt) * Misc.pow4 mQ3 + 120 * (3 * msq2 - 163 * pow2 Xt) *
    Misc.pow6 mQ3 - 9 * (-1213 + 16 * z3) * Misc.pow8 mQ3))) - 32 * lmQ3MR * m3 * logm3Q3 * (Misc.pow3 m3 * ((-308) * Xt4 +
    2766 * mQ32 * pow2 Xt + 399 * Misc.pow4 mQ3) * Misc.pow6 mQ3 - 12 * m32 * ((-8) * Xt5 + 131 * mQ32 * Misc.pow3 Xt + 78 *
    Xt * Misc.pow4 mQ3) * Misc.pow6 mQ3 + 8 * Misc.pow6 m3 * (4 * mQ32 * Xt5 - 93 * Misc.pow3 Xt * Misc.pow4 mQ3 + 342 * Xt *
    Misc.pow6 mQ3) - 3 * (79 * mQ32 * Xt4 - 442 * pow2 Xt * Misc.pow4 mQ3 + 410 * Misc.pow6 mQ3) * Misc.pow7 m3 - 128 *
    (-(mQ32 * Misc.pow3 Xt) + 3 * Xt * Misc.pow4 mQ3) * Misc.pow8 m3 + 6 * m3 * (Xt4 - 6 * mQ32 * pow2 Xt + 6 * Misc.pow4 mQ3)
    * Misc.pow8 mQ3 + Misc.pow5 m3 * (487 * Xt4 * Misc.pow4 mQ3 - 3816 * pow2 Xt * Misc.pow6 mQ3 + 759 * Misc.pow8 mQ3) - 4 *
    Misc.pow4 m3 * (31 * Xt5 * Misc.pow4 mQ3 - 530 * Misc.pow3 Xt * Misc.pow6 mQ3 + 372 * Xt * Misc.pow8 mQ3) + 48 * (Xt4 - 4
    * mQ32 * pow2 Xt + 2 * Misc.pow4 mQ3) * Misc.pow9 m3 + 12 * Xt * ((-6) * mQ32 + pow2 Xt) * Misc.power10 mQ3))) / (9 *
    Misc.pow3 (-m32 + mQ32) * Misc.pow8 mQ3)

/-- `getDeltaLambdaAlphatAlphas2`, case `MQ3_EQ_M3`; mh2_eft/ThresholdCalculator.cpp:4131-4204 -/
def dLamAtAs2QG (dilog : F → F) (m32 mQ32 mU32 msq2 m3 mQ3 mU3 Xt lmQ3MR z3 dlatas2Const Xt4 Xt5 : F) : F :=
    let logmqQ3 := log (msq2 / mQ32)
    let logU3Q3 := log (mU32 / mQ32)
    (3 * dlatas2Const + 8 * lmQ3MR * (3857 + 216 * mQ32 / mU32) / 3 - 32 * lmQ3MR * (3853 * mQ32 - 2701 * mU32) / (9 * (mQ32 -
    mU32)) - 384 * lmQ3MR * z3 + 160 * lmQ3MR * logmqQ3 + 160 * lmQ3MR * mQ32 * logmqQ3 / mU32 + 16 * lmQ3MR * (569 * mQ32 -
    377 * mU32) * logU3Q3 / (3 * (mQ32 - mU32)) - 4000 * pow2 lmQ3MR + 2352 * mQ32 * pow2 lmQ3MR / mU32 + 16 * (143 * mQ32 -
    207 * mU32) * logU3Q3 * pow2 lmQ3MR / (mQ32 - mU32) + 160 * lmQ3MR * (mQ32 + mU32) * Xt4 * logmqQ3 / pow2 (-(mQ32 * mU3) +
    Misc.pow3 mU3) + 2208 * Misc.pow3 lmQ3MR + 32 * lmQ3MR * (73 * mQ32 - 69 * mU32) * Xt4 * dilog (1 - mQ32 / mU32) /
    Misc.pow3 (mQ32 - mU32) + 320 * lmQ3MR * mQ32 * Xt4 * logmqQ3 * logU3Q3 / Misc.pow3 (mQ32 - mU32) + 48 * (167 * mQ32 + 69
    * mU32) * Xt4 * logU3Q3 * pow2 lmQ3MR / Misc.pow3 (mQ32 - mU32) + 64 * lmQ3MR * mQ3 * (16 * mQ32 + 201 * mU32) * Xt5 /
    (mU32 * Misc.pow3 (-mQ32 + mU32)) + 64 * lmQ3MR * (37 * mQ32 - 41 * mU32) * dilog (1 - mQ32 / mU32) * Misc.pow4 mQ3 /
    Misc.pow3 (mQ32 - mU32) + 32 * lmQ3MR * Xt4 * (1343 * mQ32 * mU32 + 54 * Misc.pow4 mQ3 - 437 * Misc.pow4 mU3) / (3 * mU32
    * Misc.pow3 (mQ32 - mU32)) - 256 * pow2 lmQ3MR * Misc.pow4 mQ3 / Misc.pow4 mU3 + 16 * Xt4 * pow2 lmQ3MR * (179 * mQ32 *
    mU32 - 16 * Misc.pow4 mQ3 + 545 * Misc.pow4 mU3) / (pow2 (mQ32 - mU32) * Misc.pow4 mU3) - 32 * lmQ3MR * mQ3 * (249 * mQ32
    + 185 * mU32) * Xt5 * logU3Q3 / Misc.pow4 (mQ32 - mU32) - 64 * lmQ3MR * Xt5 * ((-5) * mQ3 * mU32 + Misc.pow3 mQ3) /
    Misc.pow4 (mQ32 - mU32) + 16 * lmQ3MR * Xt4 * logU3Q3 * (744 * mQ32 * mU32 + 1553 * Misc.pow4 mQ3 - 377 * Misc.pow4 mU3) /
    (3 * Misc.pow4 (mQ32 - mU32)) - 32 * lmQ3MR * mQ3 * Xt5 * logU3Q3 * (236 * mQ32 * mU32 + 97 * Misc.pow4 mQ3 - 349 *
    Misc.pow4 mU3) / Misc.pow5 (mQ32 - mU32) + 64 * lmQ3MR * Misc.pow3 Xt * ((-20) * mQ3 * logmqQ3 / pow2 (mQ32 - mU32) + 4 *
    mQ3 * (8 * mQ32 - 21 * mU32) / pow2 (-(mQ32 * mU3) + Misc.pow3 mU3) - 4 * lmQ3MR * (77 * mQ3 * mU32 + 8 * Misc.pow3 mQ3) /
    pow2 (-(mQ32 * mU3) + Misc.pow3 mU3) + mQ3 * (157 * mQ32 - 213 * mU32) * logU3Q3 / Misc.pow3 (mQ32 - mU32) - 10 * mQ3 *
    (mQ32 + mU32) * logmqQ3 * logU3Q3 / Misc.pow3 (mQ32 - mU32) + 4 * dilog (1 - mQ32 / mU32) * ((-31) * mQ3 * mU32 + 33 *
    Misc.pow3 mQ3) / Misc.pow3 (mQ32 - mU32) - 2 * lmQ3MR * logU3Q3 * (69 * mQ3 * mU32 + 101 * Misc.pow3 mQ3) / Misc.pow3
    (mQ32 - mU32) + 4 * mQ3 * (219 * mQ32 * mU32 + 16 * Misc.pow4 mQ3 - 227 * Misc.pow4 mU3) / (mU32 * Misc.pow3 (mQ32 -
    mU32)) + mQ3 * logU3Q3 * (330 * mQ32 * mU32 + 437 * Misc.pow4 mQ3 - 703 * Misc.pow4 mU3) / Misc.pow4 (mQ32 - mU32) + mQ3 *
    pow2 logU3Q3 * (7 * mU32 * Misc.pow4 mQ3 - 53 * mQ32 * Misc.pow4 mU3 + 81 * Misc.pow6 mQ3 - 3 * Misc.pow6 mU3) / Misc.pow5
    (mQ32 - mU32)) + 16 * lmQ3MR * pow2 logU3Q3 * ((-327) * mU32 * Misc.pow4 mQ3 + 350 * mQ32 * Misc.pow4 mU3 + 111 *
    Misc.pow6 mQ3 - 138 * Misc.pow6 mU3) / Misc.pow3 (mQ32 - mU32) + 64 * lmQ3MR * mQ3 * Xt * (2 * (8 * (-5 + 2 * lmQ3MR) *
    mQ32 + (183 - 16 * lmQ3MR) * mU32) * pow2 (mQ32 - mU32) + mU32 * logU3Q3 * (12 * (57 - 23 * lmQ3MR) * mQ32 * mU32 + 10 *
    logmqQ3 * pow2 (mQ32 - mU32) + 23 * (-17 + 6 * lmQ3MR) * Misc.pow4 mQ3 + 3 * (-95 + 46 * lmQ3MR) * Misc.pow4 mU3) + 8 *
    dilog (1 - mQ32 / mU32) * (47 * mU32 * Misc.pow4 mQ3 - 48 * mQ32 * Misc.pow4 mU3) + pow2 logU3Q3 * (189 * mU32 * Misc.pow4
    mQ3 - 350 * mQ32 * Misc.pow4 mU3 + 143 * Misc.pow6 mU3)) / (mU32 * Misc.pow3 (mQ32 - mU32)) - 128 * lmQ3MR * Xt5 * pow2
    logU3Q3 * ((-25) * Misc.pow3 mQ3 * Misc.pow4 mU3 + 54 * mU32 * Misc.pow5 mQ3 - 39 * mQ3 * Misc.pow6 mU3 + 8 * Misc.pow7
    mQ3) / Misc.pow6 (mQ32 - mU32) + 8 * lmQ3MR * Xt4 * logU3Q3 * (Misc.pow4 mQ3 * (120 * msq2 * mU32 + 4241 * Misc.pow4 mU3)
    - 3459 * mU32 * Misc.pow6 mQ3 + 5 * (24 * msq2 - 571 * mU32) * Misc.pow6 mU3 + mQ32 * ((-240) * msq2 * Misc.pow4 mU3 +
    2039 * Misc.pow6 mU3) + 66 * Misc.pow8 mQ3) / (mU32 * Misc.pow5 (mQ32 - mU32)) + 16 * lmQ3MR * pow2 Xt * ((-60) * logmqQ3
    / mU32 - 1152 * mQ32 * dilog (1 - mQ32 / mU32) / pow2 (mQ32 - mU32) - 2 * (953 * mQ32 - 377 * mU32) * logU3Q3 / pow2 (mQ32
    - mU32) + 6 * (36 * mQ32 - 205 * mU32) / (-(mQ32 * mU32) + Misc.pow4 mU3) - 18 * lmQ3MR * logU3Q3 * ((-170) * mQ32 * mU32
    + 37 * Misc.pow4 mQ3 + 69 * Misc.pow4 mU3) / Misc.pow3 (mQ32 - mU32) + 3 * logU3Q3 * ((-1465) * mU32 * Misc.pow4 mQ3 +
    4098 * mQ32 * Misc.pow4 mU3 + 66 * Misc.pow6 mQ3 - 1147 * Misc.pow6 mU3) / (mU32 * Misc.pow3 (-mQ32 + mU32)) - 6 * pow2
    logU3Q3 * ((-383) * mU32 * Misc.pow4 mQ3 + 562 * mQ32 * Misc.pow4 mU3 + 101 * Misc.pow6 mQ3 - 276 * Misc.pow6 mU3) /
    Misc.pow4 (mQ32 - mU32) + 6 * lmQ3MR * ((-163) * mU32 * Misc.pow4 mQ3 + 470 * mQ32 * Misc.pow4 mU3 + 16 * Misc.pow6 mQ3 -
    131 * Misc.pow6 mU3) / (pow2 (mQ32 - mU32) * Misc.pow4 mU3) - 6 * (6 * Misc.pow4 mQ3 * (5 * msq2 * mU32 + 217 * Misc.pow4
    mU3) - 321 * mU32 * Misc.pow6 mQ3 + 3 * (10 * msq2 + mU32) * Misc.pow6 mU3 - 4 * mQ32 * (15 * msq2 * Misc.pow4 mU3 + 61 *
    Misc.pow6 mU3) + 32 * Misc.pow8 mQ3) / (pow2 (-(mQ3 * mU32) + Misc.pow3 mQ3) * Misc.pow4 mU3)) / 3 + 16 * lmQ3MR * Xt4 *
    pow2 logU3Q3 * (1325 * Misc.pow4 mQ3 * Misc.pow4 mU3 - 746 * mU32 * Misc.pow6 mQ3 - 306 * mQ32 * Misc.pow6 mU3 + 80 *
    Misc.pow8 mQ3 - 345 * Misc.pow8 mU3) / Misc.pow6 (mQ32 - mU32) + 8 * lmQ3MR * logU3Q3 * (3551 * Misc.pow4 mQ3 * Misc.pow4
    mU3 - 1775 * mU32 * Misc.pow6 mQ3 - 2679 * mQ32 * Misc.pow6 mU3 + 66 * Misc.pow8 mQ3 + 877 * Misc.pow8 mU3) / (mU32 *
    Misc.pow3 (mQ32 - mU32)) + 16 * lmQ3MR * Xt4 * (5 * (6 * msq2 * mU32 - 211 * Misc.pow4 mU3) * Misc.pow6 mQ3 + Misc.pow4
    mQ3 * ((-30) * msq2 * Misc.pow4 mU3 + 3014 * Misc.pow6 mU3) - 417 * mU32 * Misc.pow8 mQ3 + 3 * (10 * msq2 + mU32) *
    Misc.pow8 mU3 - 3 * mQ32 * (10 * msq2 * Misc.pow6 mU3 + 523 * Misc.pow8 mU3) + 32 * Misc.power10 mQ3) / (mQ32 * Misc.pow4
    mU3 * Misc.pow4 (mQ32 - mU32)) + 8 * lmQ3MR * (3 * (20 * msq2 * mU32 + 501 * Misc.pow4 mU3) * Misc.pow6 mQ3 - 4 *
    Misc.pow4 mQ3 * (15 * msq2 * Misc.pow4 mU3 + 259 * Misc.pow6 mU3) - 706 * mU32 * Misc.pow8 mQ3 + 6 * (10 * msq2 + mU32) *
    Misc.pow8 mU3 + mQ32 * ((-60) * msq2 * Misc.pow6 mU3 + 177 * Misc.pow8 mU3) + 64 * Misc.power10 mQ3) / (pow2 (-(mQ3 *
    mU32) + Misc.pow3 mQ3) * Misc.pow4 mU3)) / 3

/-- `getDeltaLambdaAlphatAlphas2`, case `MU3_EQ_M3`; mh2_eft/ThresholdCalculator.cpp:4207-4300 -/
def dLamAtAs2UG (dilog : F → F) (m32 mQ32 mU32 msq2 m3 mQ3 mU3 Xt lmQ3MR z3 dlatas2Const Xt4 Xt5 : F) : F :=
    let logmqQ3 := log (msq2 / mQ32)
    let logU3Q3 := log (mU32 / mQ32)
    (3 * dlatas2Const - 32 * lmQ3MR * (2701 * mQ32 - 3853 * mU32) / (9 * (mQ32 - mU32)) + 8 * lmQ3MR * (3857 + 216 * mU32 /
    mQ32) / 3 - 384 * lmQ3MR * z3 + 160 * lmQ3MR * logmqQ3 + 160 * lmQ3MR * mU32 * logmqQ3 / mQ32 - 4000 * pow2 lmQ3MR + 2352
    * mU32 * pow2 lmQ3MR / mQ32 + 16 * (207 * mQ32 - 271 * mU32) * logU3Q3 * pow2 lmQ3MR / (mQ32 - mU32) + lmQ3MR * (3321 *
    mQ32 - 6137 * mU32) * pow2 logU3Q3 / (mQ32 - mU32) + 160 * lmQ3MR * (mQ32 + mU32) * Xt4 * logmqQ3 / pow2 (-(mQ3 * mU32) +
    Misc.pow3 mQ3) + 2208 * Misc.pow3 lmQ3MR + 32 * lmQ3MR * (69 * mQ32 - 73 * mU32) * Xt4 * dilog (1 - mU32 / mQ32) /
    Misc.pow3 (mQ32 - mU32) + 320 * lmQ3MR * mU32 * Xt4 * logmqQ3 * logU3Q3 / Misc.pow3 (mQ32 - mU32) + 48 * (69 * mQ32 + 167
    * mU32) * Xt4 * logU3Q3 * pow2 lmQ3MR / Misc.pow3 (mQ32 - mU32) + 16 * Xt4 * pow2 lmQ3MR * (179 * mQ32 * mU32 + 545 *
    Misc.pow4 mQ3 - 16 * Misc.pow4 mU3) / (pow2 (mQ32 - mU32) * Misc.pow4 mQ3) + 64 * lmQ3MR * ((-41) * mQ32 + 37 * mU32) *
    dilog (1 - mU32 / mQ32) * Misc.pow4 mU3 / Misc.pow3 (-mQ32 + mU32) - 256 * pow2 lmQ3MR * Misc.pow4 mU3 / Misc.pow4 mQ3 -
    64 * lmQ3MR * mU3 * ((-5) * mQ32 + mU32) * Xt5 / Misc.pow4 (mQ32 - mU32) - 8 * lmQ3MR * mU3 * (313 * mQ32 + 633 * mU32) *
    Xt5 * pow2 logU3Q3 / Misc.pow4 (mQ32 - mU32) - lmQ3MR * Xt4 * pow2 logU3Q3 * ((-480) * mQ32 * mU32 + 9 * Misc.pow4 mQ3 +
    5719 * Misc.pow4 mU3) / Misc.pow4 (mQ32 - mU32) - lmQ3MR * logU3Q3 * (16 * (377 * mQ32 - 569 * mU32) * pow2 (mQ32 - mU32)
    + 3 * logU3Q3 * ((-5131) * mU32 * Misc.pow4 mQ3 + 6267 * mQ32 * Misc.pow4 mU3 + 1113 * Misc.pow6 mQ3 - 2313 * Misc.pow6
    mU3)) / (3 * Misc.pow3 (mQ32 - mU32)) + 64 * lmQ3MR * mU3 * Xt * (2 * ((-183 + 16 * lmQ3MR) * mQ32 + 8 * (5 - 2 * lmQ3MR)
    * mU32) * pow2 (mQ32 - mU32) + 8 * dilog (1 - mU32 / mQ32) * (48 * mU32 * Misc.pow4 mQ3 - 47 * mQ32 * Misc.pow4 mU3) +
    pow2 logU3Q3 * ((-182) * mU32 * Misc.pow4 mQ3 + 77 * mQ32 * Misc.pow4 mU3 + 123 * Misc.pow6 mQ3) + logU3Q3 * (10 * logmqQ3
    * pow2 (-(mQ3 * mU32) + Misc.pow3 mQ3) + 12 * (41 - 23 * lmQ3MR) * mU32 * Misc.pow4 mQ3 + (-199 + 138 * lmQ3MR) * mQ32 *
    Misc.pow4 mU3 + (-221 + 138 * lmQ3MR) * Misc.pow6 mQ3 - 64 * Misc.pow6 mU3)) / (mQ32 * Misc.pow3 (mQ32 - mU32)) - 16 *
    lmQ3MR * mU3 * Xt5 * logU3Q3 * ((-714) * mU32 * Misc.pow4 mQ3 + 235 * mQ32 * Misc.pow4 mU3 + 383 * Misc.pow6 mQ3 + 80 *
    Misc.pow6 mU3) / (mQ32 * Misc.pow5 (mQ32 - mU32)) - lmQ3MR * logU3Q3 * ((-24902) * mU32 * Misc.pow4 mQ3 + 13707 * mQ32 *
    Misc.pow4 mU3 + 10779 * Misc.pow6 mQ3 + 352 * Misc.pow6 mU3) / pow2 (-(mQ3 * mU32) + Misc.pow3 mQ3) + 16 * lmQ3MR * mU3 *
    Xt5 * (4 * (201 * mQ32 + 16 * mU32) * pow2 (mQ32 - mU32) + logU3Q3 * ((-1186) * mU32 * Misc.pow4 mQ3 + 41 * mQ32 *
    Misc.pow4 mU3 + 1081 * Misc.pow6 mQ3 + 80 * Misc.pow6 mU3)) / (mQ32 * Misc.pow5 (mQ32 - mU32)) + 8 * lmQ3MR * mU3 * Xt5 *
    logU3Q3 * (4 * (185 * mQ32 + 249 * mU32) * pow2 (mQ32 - mU32) + logU3Q3 * (407 * mU32 * Misc.pow4 mQ3 - 1817 * mQ32 *
    Misc.pow4 mU3 + 937 * Misc.pow6 mQ3 + 505 * Misc.pow6 mU3)) / Misc.pow6 (mQ32 - mU32) + lmQ3MR * Xt4 * logU3Q3 * (16 *
    pow2 (mQ32 - mU32) * ((-744) * mQ32 * mU32 + 377 * Misc.pow4 mQ3 - 1553 * Misc.pow4 mU3) + 3 * logU3Q3 * (624 * Misc.pow4
    mQ3 * Misc.pow4 mU3 - 9554 * mU32 * Misc.pow6 mQ3 + 16658 * mQ32 * Misc.pow6 mU3 + 1113 * Misc.pow8 mQ3 - 8713 * Misc.pow8
    mU3)) / (3 * Misc.pow6 (mQ32 - mU32)) - 2 * lmQ3MR * Xt4 * logU3Q3 * (3 * Misc.pow4 mQ3 * (320 * msq2 * mU32 - 6251 *
    Misc.pow4 mU3) + ((-480) * msq2 + 769 * mU32) * Misc.pow6 mQ3 + mQ32 * ((-480) * msq2 * Misc.pow4 mU3 + 12379 * Misc.pow6
    mU3) + 5205 * Misc.pow8 mQ3 + 336 * Misc.pow8 mU3) / (mQ32 * Misc.pow5 (mQ32 - mU32)) + 64 * lmQ3MR * mU3 * Misc.pow3 Xt *
    (4 * (31 * mQ32 - 33 * mU32) * dilog (1 - mU32 / mQ32) * pow2 (-(mQ3 * mU32) + Misc.pow3 mQ3) - 10 * logmqQ3 * (2 * (mQ32
    - mU32) + (mQ32 + mU32) * logU3Q3) * pow2 (-(mQ3 * mU32) + Misc.pow3 mQ3) + 2248 * Misc.pow4 mQ3 * Misc.pow4 mU3 - 828 *
    lmQ3MR * Misc.pow4 mQ3 * Misc.pow4 mU3 - 2230 * logU3Q3 * Misc.pow4 mQ3 * Misc.pow4 mU3 + 266 * lmQ3MR * logU3Q3 *
    Misc.pow4 mQ3 * Misc.pow4 mU3 + 515 * pow2 logU3Q3 * Misc.pow4 mQ3 * Misc.pow4 mU3 - 2408 * mU32 * Misc.pow6 mQ3 + 892 *
    lmQ3MR * mU32 * Misc.pow6 mQ3 + 1274 * mU32 * logU3Q3 * Misc.pow6 mQ3 + 74 * lmQ3MR * mU32 * logU3Q3 * Misc.pow6 mQ3 + 191
    * mU32 * pow2 logU3Q3 * Misc.pow6 mQ3 - 568 * mQ32 * Misc.pow6 mU3 + 212 * lmQ3MR * mQ32 * Misc.pow6 mU3 + 998 * mQ32 *
    logU3Q3 * Misc.pow6 mU3 - 202 * lmQ3MR * mQ32 * logU3Q3 * Misc.pow6 mU3 - 475 * mQ32 * pow2 logU3Q3 * Misc.pow6 mU3 + 824
    * Misc.pow8 mQ3 - 308 * lmQ3MR * Misc.pow8 mQ3 - 106 * logU3Q3 * Misc.pow8 mQ3 - 138 * lmQ3MR * logU3Q3 * Misc.pow8 mQ3 -
    263 * pow2 logU3Q3 * Misc.pow8 mQ3 - 96 * Misc.pow8 mU3 + 32 * lmQ3MR * Misc.pow8 mU3 + 64 * logU3Q3 * Misc.pow8 mU3) /
    (mQ32 * Misc.pow5 (mQ32 - mU32)) + 16 * lmQ3MR * Xt4 * (((-30) * msq2 * mU32 + 3014 * Misc.pow4 mU3) * Misc.pow6 mQ3 - 5 *
    Misc.pow4 mQ3 * (6 * msq2 * Misc.pow4 mU3 + 211 * Misc.pow6 mU3) + 3 * (10 * msq2 - 523 * mU32) * Misc.pow8 mQ3 + mQ32 *
    (30 * msq2 * Misc.pow6 mU3 - 417 * Misc.pow8 mU3) + 3 * Misc.power10 mQ3 + 32 * Misc.power10 mU3) / (mU32 * Misc.pow4
    (-(mQ3 * mU32) + Misc.pow3 mQ3)) + 8 * lmQ3MR * ((-4) * (15 * msq2 * mU32 + 259 * Misc.pow4 mU3) * Misc.pow6 mQ3 +
    Misc.pow4 mQ3 * ((-60) * msq2 * Misc.pow4 mU3 + 1503 * Misc.pow6 mU3) + 3 * (20 * msq2 + 59 * mU32) * Misc.pow8 mQ3 + mQ32
    * (60 * msq2 * Misc.pow6 mU3 - 706 * Misc.pow8 mU3) + 6 * Misc.power10 mQ3 + 64 * Misc.power10 mU3) / (mU32 * pow2 (mQ32 -
    mU32) * Misc.pow4 mQ3) + lmQ3MR * logU3Q3 * (28393 * Misc.pow4 mU3 * Misc.pow6 mQ3 - 4227 * Misc.pow4 mQ3 * Misc.pow6 mU3
    - 28089 * mU32 * Misc.pow8 mQ3 - 5904 * mQ32 * Misc.pow8 mU3 + 9635 * Misc.power10 mQ3 + 512 * Misc.power10 mU3) /
    (Misc.pow3 (mQ32 - mU32) * Misc.pow4 mQ3) - 16 * lmQ3MR * pow2 Xt * (18 * Misc.pow12 mQ3 + 192 * Misc.pow12 mU3 - 96 *
    lmQ3MR * Misc.pow12 mU3 - 192 * logU3Q3 * Misc.pow12 mU3 + 1152 * dilog (1 - mU32 / mQ32) * pow2 (mQ32 - mU32) * Misc.pow4
    mQ3 * Misc.pow4 mU3 + 60 * mQ32 * mU32 * logmqQ3 * Misc.pow4 (mQ32 - mU32) + 1080 * msq2 * Misc.pow4 mU3 * Misc.pow6 mQ3 -
    720 * msq2 * Misc.pow4 mQ3 * Misc.pow6 mU3 - 14676 * Misc.pow6 mQ3 * Misc.pow6 mU3 + 7404 * lmQ3MR * Misc.pow6 mQ3 *
    Misc.pow6 mU3 + 2325 * logU3Q3 * Misc.pow6 mQ3 * Misc.pow6 mU3 + 3726 * lmQ3MR * logU3Q3 * Misc.pow6 mQ3 * Misc.pow6 mU3 +
    5154 * pow2 logU3Q3 * Misc.pow6 mQ3 * Misc.pow6 mU3 - 720 * msq2 * mU32 * Misc.pow8 mQ3 + 6852 * Misc.pow4 mU3 * Misc.pow8
    mQ3 - 4392 * lmQ3MR * Misc.pow4 mU3 * Misc.pow8 mQ3 + 3777 * logU3Q3 * Misc.pow4 mU3 * Misc.pow8 mQ3 - 4302 * lmQ3MR *
    logU3Q3 * Misc.pow4 mU3 * Misc.pow8 mQ3 - 5232 * pow2 logU3Q3 * Misc.pow4 mU3 * Misc.pow8 mQ3 + 180 * mQ32 * msq2 *
    Misc.pow8 mU3 + 9978 * Misc.pow4 mQ3 * Misc.pow8 mU3 - 4872 * lmQ3MR * Misc.pow4 mQ3 * Misc.pow8 mU3 - 6817 * logU3Q3 *
    Misc.pow4 mQ3 * Misc.pow8 mU3 - 666 * lmQ3MR * logU3Q3 * Misc.pow4 mQ3 * Misc.pow8 mU3 - 726 * pow2 logU3Q3 * Misc.pow4
    mQ3 * Misc.pow8 mU3 + 180 * msq2 * Misc.power10 mQ3 - 270 * mU32 * Misc.power10 mQ3 + 786 * lmQ3MR * mU32 * Misc.power10
    mQ3 - 1175 * mU32 * logU3Q3 * Misc.power10 mQ3 + 1242 * lmQ3MR * mU32 * logU3Q3 * Misc.power10 mQ3 + 828 * mU32 * pow2
    logU3Q3 * Misc.power10 mQ3 - 2094 * mQ32 * Misc.power10 mU3 + 1170 * lmQ3MR * mQ32 * Misc.power10 mU3 + 2082 * mQ32 *
    logU3Q3 * Misc.power10 mU3) / (3 * mU32 * Misc.pow4 (-(mQ3 * mU32) + Misc.pow3 mQ3)) + 2 * lmQ3MR * Xt4 * (16 * pow2
    (-(mQ3 * mU32) + Misc.pow3 mQ3) * ((-1343) * mQ32 * mU32 + 437 * Misc.pow4 mQ3 - 54 * Misc.pow4 mU3) + 3 * logU3Q3 *
    (15523 * Misc.pow4 mU3 * Misc.pow6 mQ3 - 977 * Misc.pow4 mQ3 * Misc.pow6 mU3 - 14211 * mU32 * Misc.pow8 mQ3 - 2952 * mQ32
    * Misc.pow8 mU3 + 2425 * Misc.power10 mQ3 + 256 * Misc.power10 mU3)) / (3 * Misc.pow4 mQ3 * Misc.pow5 (mQ32 - mU32))) / 3

/-- `getDeltaLambdaAlphatAlphas2`, case `MQ3_EQ_MU3_EQ_M3`; mh2_eft/ThresholdCalculator.cpp:4303-4312 -/
def dLamAtAs2QUG (dilog : F → F) (m32 mQ32 mU32 msq2 m3 mQ3 mU3 Xt lmQ3MR z3 dlatas2Const Xt4 Xt5 : F) : F :=
    let logmqQ3 := log (msq2 / mQ32)
    dlatas2Const + 160 * lmQ3MR * logmqQ3 * (Xt4 - 6 * mQ32 * pow2 Xt - 12 * Xt * Misc.pow3 mQ3 + 2 * mQ3 * Misc.pow3 Xt + 6 *
    Misc.pow4 mQ3) / (9 * Misc.pow4 mQ3) + 8 * lmQ3MR * (180 * msq2 * Xt4 + 176 * mQ3 * Xt5 - mQ32 * ((98 + 27 * lmQ3MR) * Xt4
    + 1080 * msq2 * pow2 Xt) + 8 * (-416 + 111 * lmQ3MR) * Misc.pow3 mQ3 * Misc.pow3 Xt + 24 * (45 * msq2 + 2 * (8 + 57 *
    lmQ3MR) * pow2 Xt) * Misc.pow4 mQ3 + 16 * (100 - 477 * lmQ3MR) * Xt * Misc.pow5 mQ3 + (-851 - 990 * lmQ3MR - 432 * z3 +
    2484 * pow2 lmQ3MR) * Misc.pow6 mQ3) / (27 * Misc.pow6 mQ3)

end

end Himalaya.Thr
