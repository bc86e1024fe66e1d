import Verif.Hier.Mem

/-!
# Model of the hierarchy class `H4`

Mechanical transcription (tools/gen_hier.py) of hierarchies/H4.cpp:65-195.  Every member function is one arithmetic expression in
the members of the class; the expressions are transcribed literally, long ones are cut into numbered parts.  Integer members enter
the expressions as numbers.  The constants `z2`, `z3`, ... of misc/Constants.hpp are arguments.
-/

set_option linter.unusedVariables false

namespace Himalaya

open FOps Misc
open scoped Himalaya

namespace H4

section
variable {F : Type} [Add F] [Sub F] [Mul F] [Div F] [Neg F] [FOps F]

/-- `H4::getS1`; hierarchies/H4.cpp:65-70 -/
def getS1Of (z3 At lmMt lmMsusy Msusy Mt Cbeta Sbeta Al4p xAt threeLoopFlag : F) : F :=
  2 * threeLoopFlag * xAt * pow2 Al4p * pow2 At * (349 - 56 * lmMsusy + 24 * lmMt - 282 * z3 - 32 * pow2 lmMsusy) *
    pow4 Mt * (pow12 Sbeta + pow2 Cbeta * (pow2 Sbeta + pow4 Sbeta + pow6 Sbeta + pow8 Sbeta + power10 Sbeta)) / (27 *
    pow2 Cbeta * pow2 Msusy)

@[inherit_doc getS1Of] def getS1 (k : HConst F) (h : HMem F) : F :=
  getS1Of k.z3 h.At h.lmMt h.lmMsusy h.Msusy h.Mt h.Cbeta h.Sbeta h.Al4p h.xAt h.threeLoopFlag

/-- part of `H4::getS2`; hierarchies/H4.cpp:79-94 -/
def getS2_1 (z3 At lmMt lmMsq lmMsusy Msusy Msq shiftst1 shiftst2 shiftst3 xAt xMsq xlmMsusy : F) : F :=
  lit (20474074074074073/100000000000000) + 800 * lmMsq / 9 + 4 * (1 - 2 * lmMsusy) * shiftst3 / 3 - 400 * pow2 lmMsq
    / 9 + 8 * lmMsusy * (-554 + 270 * lmMsq + 135 * pow2 lmMsq) / 81 - 1288 * pow2 lmMsusy / 27 - 8 * lmMt * (125 - 71
    * lmMsusy + 30 * lmMsq * (-7 + 3 * lmMsusy) + 39 * pow2 lmMsusy) / 27 + 8 * (-18 + 5 * lmMsq + 23 * lmMsusy) *
    pow2 lmMt / 3 + 8 * (10589 + lmMsusy * (4910 - 3750 * lmMt) - 2250 * lmMt + 10 * lmMsq * (-266 + 285 * lmMsusy +
    375 * lmMt) - 3300 * pow2 lmMsq + 450 * pow2 lmMsusy) * pow2 Msusy / (675 * pow2 Msq) + 2 * ((-636) * At * Msusy *
    z3 + xAt * pow2 At * (-349 + 56 * lmMsusy - 24 * lmMt + 282 * z3 + 32 * pow2 lmMsusy) - 180 * (-1 + 2 * lmMsq) *
    (-2 + shiftst1 + shiftst2) * xMsq * pow2 Msq - 24 * (-1 + 6 * lmMsusy - 6 * lmMt) * z3 * pow2 Msusy) / (27 * pow2
    Msusy) - 40 * pow3 lmMsq / 9 + 16 * xlmMsusy * pow3 lmMsusy - 184 * pow3 lmMt / 3 - 4 * ((-85750) * At * (-33 + 2
    * lmMsusy * (-11 + 6 * lmMt) - 2 * lmMsq * (-11 + 6 * lmMsusy + 6 * lmMt) + 12 * pow2 lmMsq) + Msusy * (-5638838 +
    385875 * lmMt - 70 * lmMsq * (-47521 + 20685 * lmMsusy + 25725 * lmMt) + 35 * lmMsusy * (-106067 + 51450 * lmMt) +
    1624350 * pow2 lmMsq - 176400 * pow2 lmMsusy)) * pow3 Msusy / (231525 * pow4 Msq)

/-- part of `H4::getS2`; hierarchies/H4.cpp:98-112 -/
def getS2_2 (z2 At lmMt lmMsq lmMsusy Msusy Msq shiftst1 shiftst2 shiftst3 xMsq xMsusy : F) : F :=
  xMsusy * (lit (7653372960293683/100000000000000) - 687056 * lmMsq / 9801 + (lit (1794181716151413/25000000000000) +
    700 * lmMsq / 33) * lmMsusy + 5 * (-3 + 44 * lmMsq - 44 * lmMsusy) * lmMt / 9 - 2260 * pow2 lmMsq / 99 + 160 *
    pow2 lmMsusy / 99) * pow8 Msusy + 2 * At * (240 * (-9 + lmMsq * (4 - 3 * lmMsusy - 3 * lmMt) + lmMsusy * (-4 + 3 *
    lmMt) + 3 * pow2 lmMsq) * pow2 Msusy * pow6 Msq + 8 * (104 + 157 * lmMsusy + 84 * lmMt + 24 * lmMsusy * lmMt - 30
    * lmMsq * (5 + 6 * lmMsusy + 3 * lmMt) + 135 * pow2 lmMsq + 228 * pow2 lmMsusy + 108 * pow2 lmMt) * pow8 Msq + 5 *
    (-419 + 36 * lmMsusy * (-11 + 4 * lmMt) - 36 * lmMsq * (-11 + 4 * lmMsusy + 4 * lmMt) + 144 * pow2 lmMsq) * pow8
    Msusy) / (81 * Msusy) - 8 * z2 * (100 * pow4 Msusy * pow6 Msq + 70 * pow4 Msq * pow6 Msusy + 3 * (30 + 20 * lmMsq
    - 10 * (lmMsusy + lmMt) + shiftst3) * pow2 Msusy * pow8 Msq - 20 * At * (2 * pow3 Msusy * (pow2 Msusy * pow4 Msq +
    pow2 Msq * pow4 Msusy + pow6 Msq + pow6 Msusy) + 3 * Msusy * pow8 Msq) + 60 * pow2 Msq * pow8 Msusy + 30 * (-2 +
    shiftst1 + shiftst2) * xMsq * power10 Msq + 55 * xMsusy * power10 Msusy) / (9 * pow2 Msusy)

/-- `H4::getS2`; hierarchies/H4.cpp:75-113 -/
def getS2Of (z2 z3 At lmMt lmMsq lmMsusy Msusy Mt Msq Al4p shiftst1 shiftst2 shiftst3 xAt xMsq xlmMsusy xMsusy oneLoopFlag twoLoopFlag threeLoopFlag : F) : F :=
  -(pow4 Mt * ((lmMsusy - lmMt) * oneLoopFlag + 8 * Al4p * twoLoopFlag * (At * (1 + lmMsusy + lmMt) + Msusy * (1 +
    lmMsusy - lmMt + 2 * lmMsusy * lmMt + pow2 lmMsusy - 3 * pow2 lmMt)) / (3 * Msusy) + threeLoopFlag * pow2 Al4p *
    (getS2_1 z3 At lmMt lmMsq lmMsusy Msusy Msq shiftst1 shiftst2 shiftst3 xAt xMsq xlmMsusy - 10 * ((-222264) * At *
    (-17 + 2 * lmMsusy * (-7 + 3 * lmMt) - 2 * lmMsq * (-7 + 3 * lmMsusy + 3 * lmMt) + 6 * pow2 lmMsq) + Msusy *
    (-6262157 + 222264 * lmMt + 252 * lmMsusy * (-20233 + 7938 * lmMt) - 252 * lmMsq * (-19351 + 6678 * lmMsusy + 7938
    * lmMt) + 1841616 * pow2 lmMsq - 158760 * pow2 lmMsusy)) * pow5 Msusy / (750141 * pow6 Msq) + getS2_2 z2 At lmMt
    lmMsq lmMsusy Msusy Msq shiftst1 shiftst2 shiftst3 xMsq xMsusy / pow8 Msq)))

@[inherit_doc getS2Of] def getS2 (k : HConst F) (h : HMem F) : F :=
  getS2Of k.z2 k.z3 h.At h.lmMt h.lmMsq h.lmMsusy h.Msusy h.Mt h.Msq h.Al4p h.shiftst1 h.shiftst2 h.shiftst3 h.xAt
    h.xMsq h.xlmMsusy h.xMsusy h.oneLoopFlag h.twoLoopFlag h.threeLoopFlag

/-- part of `H4::getS12`; hierarchies/H4.cpp:119-130 -/
def getS12_1 (z2 z3 At lmMt lmMsq lmMsusy Msusy Msq Al4p xAt twoLoopFlag threeLoopFlag : F) : F :=
  108 * (1 + lmMsusy + lmMt) * Msusy * twoLoopFlag * pow8 Msq - Al4p * threeLoopFlag * (60 * (33 - 22 * lmMsq + 2 *
    lmMsusy * (11 - 6 * lmMt) + 12 * lmMsq * (lmMsusy + lmMt) - 24 * z2 - 12 * pow2 lmMsq) * pow4 Msq * pow5 Msusy +
    240 * (9 - 4 * lmMsq + lmMsusy * (4 - 3 * lmMt) + 3 * lmMsq * (lmMsusy + lmMt) - 6 * z2 - 3 * pow2 lmMsq) * pow3
    Msusy * pow6 Msq + 120 * (17 - 14 * lmMsq + 2 * lmMsusy * (7 - 3 * lmMt) + 6 * lmMsq * (lmMsusy + lmMt) - 12 * z2
    - 6 * pow2 lmMsq) * pow2 Msq * pow7 Msusy - 2 * (3 * At * xAt * (-349 + 56 * lmMsusy - 24 * lmMt + 282 * z3 + 32 *
    pow2 lmMsusy) + 2 * Msusy * (208 + 314 * lmMsusy + 24 * (7 + 2 * lmMsusy) * lmMt - 60 * lmMsq * (5 + 6 * lmMsusy +
    3 * lmMt) + 540 * z2 - 477 * z3 + 270 * pow2 lmMsq + 456 * pow2 lmMsusy + 216 * pow2 lmMt)) * pow8 Msq + 5 * (419
    + 36 * lmMsusy * (11 - 4 * lmMt) + 36 * lmMsq * (-11 + 4 * lmMsusy + 4 * lmMt) - 288 * z2 - 144 * pow2 lmMsq) *
    pow9 Msusy)

/-- `H4::getS12`; hierarchies/H4.cpp:118-132 -/
def getS12Of (z2 z3 At lmMt lmMsq lmMsusy Msusy Mt Msq Cbeta Sbeta Al4p xAt twoLoopFlag threeLoopFlag : F) : F :=
  Al4p * At * Sbeta * pow4 Mt * getS12_1 z2 z3 At lmMt lmMsq lmMsusy Msusy Msq Al4p xAt twoLoopFlag threeLoopFlag /
    (81 * Cbeta * pow2 Msusy * pow8 Msq)

@[inherit_doc getS12Of] def getS12 (k : HConst F) (h : HMem F) : F :=
  getS12Of k.z2 k.z3 h.At h.lmMt h.lmMsq h.lmMsusy h.Msusy h.Mt h.Msq h.Cbeta h.Sbeta h.Al4p h.xAt h.twoLoopFlag
    h.threeLoopFlag

/-- `H4::calc_coef_at_as2_no_sm_logs_log0`; hierarchies/H4.cpp:137-156 -/
def calc_coef_at_as2_no_sm_logs_log0Of (z2 z3 Msusy Mt Msq : F) : F :=
  (-(pow4 Mt * ((-591666768) * (-10589 + 7500 * z2) * pow4 Msusy * pow6 Msq - 1724976 * (-2819419 + 1800750 * z2) *
    pow4 Msq * pow6 Msusy - 14791669200 * (-691 + 270 * z2 - 6 * z3) * pow2 Msusy * pow8 Msq + 221875038000 * pow2
    Msusy * pow3 (log (pow2 Msq / pow2 Msusy)) * pow8 Msq - 665500 * (-6262157 + 4000752 * z2) * pow2 Msq * pow8 Msusy
    - 96049800 * pow2 Msusy * pow2 (log (pow2 Msq / pow2 Msusy)) * (14586 * pow4 Msq * pow4 Msusy + 20328 * pow2 Msusy
    * pow6 Msq + 12760 * pow2 Msq * pow6 Msusy + 23100 * pow8 Msq + 11865 * pow8 Msusy) + 1331250228000 * (-1 + 2 *
    z2) * power10 Msq - 55440 * log (pow2 Msq / pow2 Msusy) * ((-28388052) * pow4 Msusy * pow6 Msq - 51750369 * pow4
    Msq * pow6 Msusy - 16008300 * (-5 + 3 * z2) * pow2 Msusy * pow8 Msq - 58536775 * pow2 Msq * pow8 Msusy + 48024900
    * power10 Msq - 63123270 * power10 Msusy) - 5145 * (-742606013 + 474368400 * z2) * power10 Msusy))) / (49921883550
    * pow2 Msusy * pow8 Msq) / pow4 Mt * 12

@[inherit_doc calc_coef_at_as2_no_sm_logs_log0Of] def calc_coef_at_as2_no_sm_logs_log0 (k : HConst F) (h : HMem F) : F :=
  calc_coef_at_as2_no_sm_logs_log0Of k.z2 k.z3 h.Msusy h.Mt h.Msq

/-- `H4::calc_coef_at_as2_no_sm_logs_log1`; hierarchies/H4.cpp:161-172 -/
def calc_coef_at_as2_no_sm_logs_log1Of (z2 z3 Msusy Mt Msq : F) : F :=
  (-(pow4 Mt * (2160 * pow4 Msusy * pow6 Msq + 540 * pow4 Msq * pow6 Msusy - 16 * (-173 + 135 * z2 + 54 * z3) * pow2
    Msusy * pow8 Msq + 240 * pow2 Msq * pow8 Msusy + 180 * log (pow2 Msq / pow2 Msusy) * pow2 Msusy * (14 * pow4 Msq *
    pow4 Msusy + 20 * pow2 Msusy * pow6 Msq + 12 * pow2 Msq * pow6 Msusy + 28 * pow8 Msq + 11 * pow8 Msusy) + 4320 *
    power10 Msq + 135 * power10 Msusy))) / (81 * pow2 Msusy * pow8 Msq) / pow4 Mt * 12

@[inherit_doc calc_coef_at_as2_no_sm_logs_log1Of] def calc_coef_at_as2_no_sm_logs_log1 (k : HConst F) (h : HMem F) : F :=
  calc_coef_at_as2_no_sm_logs_log1Of k.z2 k.z3 h.Msusy h.Mt h.Msq

/-- `H4::calc_coef_at_as2_no_sm_logs_log2`; hierarchies/H4.cpp:177-184 -/
def calc_coef_at_as2_no_sm_logs_log2Of (Msusy Mt Msq : F) : F :=
  8 * (221 + 45 * log (pow2 Msq / pow2 Msusy)) * pow4 Mt / 27 / pow4 Mt * 12

@[inherit_doc calc_coef_at_as2_no_sm_logs_log2Of] def calc_coef_at_as2_no_sm_logs_log2 (k : HConst F) (h : HMem F) : F :=
  calc_coef_at_as2_no_sm_logs_log2Of h.Msusy h.Mt h.Msq

/-- `H4::calc_coef_at_as2_no_sm_logs_log3`; hierarchies/H4.cpp:189-195 -/
def calc_coef_at_as2_no_sm_logs_log3Of (Mt : F) : F :=
  (-224) * pow4 Mt / 9 / pow4 Mt * 12

@[inherit_doc calc_coef_at_as2_no_sm_logs_log3Of] def calc_coef_at_as2_no_sm_logs_log3 (k : HConst F) (h : HMem F) : F :=
  calc_coef_at_as2_no_sm_logs_log3Of h.Mt

end

end H4

end Himalaya
