import Verif.Misc.Model

/-!
# Threshold loop functions: model

Models source/himalaya/mh2_eft/ThresholdLoopFunctions.cpp (the loop functions of arXiv:1407.4081), function by function and
branch by branch, over any scalar type.  `x == 0.` is `le x 0 && le 0 x`.  The definitions below the helpers are a mechanical
transcription of the C++ text; local variables keep their names.  A literal such as `0.01` is the decimal number (in binary64 it is
rounded).  `Phi` (lines 1234-1404) is modelled in `Verif.TLF.Phi`.
-/

set_option linter.unusedVariables false

namespace Himalaya.TLF
open FOps Misc
open scoped Himalaya

variable {F : Type} [FOps F] [Add F] [Sub F] [Mul F] [Div F] [Neg F]

/-- ThresholdLoopFunctions.cpp:38 -/
def sqr (x : F) : F := x*x
/-- ThresholdLoopFunctions.cpp:39 -/
def cube (x : F) : F := x*x*x
/-- ThresholdLoopFunctions.cpp:40 -/
def quad (x : F) : F := sqr (sqr x)
/-- ThresholdLoopFunctions.cpp:41 -/
def pow5 (x : F) : F := quad x * x

/-- `std::numeric_limits<double>::epsilon()` -/
def epsD : F := Misc.eps

/-- `logx`; ThresholdLoopFunctions.cpp:47-54 -/
def logx (x : F) : F := if isZero x (10*epsD) then 0 else log x
/-- `xlogx`; ThresholdLoopFunctions.cpp:56-63 -/
def xlogx (x : F) : F := if isZero x (lit (1/100000000000000)) then 0 else x * log x

/-- `F1`; ThresholdLoopFunctions.cpp:74-91 -/
def F1 (x : F) : F :=
  let eps := epsD
  if isZero x eps then
    0
  else
  if isEqual x 1 (lit (1/100)) then
    let d := x - 1
    let d2 := (sqr d)
    1 + d2*(-1/6 + d*(1/6 - 2/15*d))
  else
  let x2 := (sqr x)
  x*(log x2)/(x2 - 1)

/-- `F2`; ThresholdLoopFunctions.cpp:93-110 -/
def F2 (x : F) : F :=
  let eps := epsD
  if isZero x eps then
    0
  else
  if isEqual x 1 (lit (1/100)) then
    let d := (x - 1)*(x + 1)
    let d2 := (sqr d)
    1 + d2*(-(lit (1/10)) + d*((lit (1/10)) - 3/35*d))
  else
  let x2 := (sqr x)
  6*x2*(2 - 2*x2 + (1 + x2)*(log x2))/(cube (x2 - 1))

/-- `F3`; ThresholdLoopFunctions.cpp:112-128 -/
def F3 (x : F) : F :=
  let eps := epsD
  if isZero x eps then
    0
  else
  if isEqual x 1 (lit (1/100)) then
    let d := x - 1
    1 + d*(5/9 + d*(-4/9 + d*(2/9 - 7/90*d)))
  else
  let x2 := (sqr x)
  2*x*(5*(1 - x2) + (1 + 4*x2)*(log x2))/(3*(sqr (x2 - 1)))

/-- `F4`; ThresholdLoopFunctions.cpp:130-147 -/
def F4 (x : F) : F :=
  let eps := epsD
  if isZero x eps then
    0
  else
  if isEqual x 1 (lit (1/100)) then
    let d := x - 1
    let d2 := (sqr d)
    1 + d*(-1/3 + d2*(2/15 - d/6))
  else
  let x2 := (sqr x)
  2*x*(x2 - 1 - (log x2))/(sqr (x2 - 1))

/-- `F5`; ThresholdLoopFunctions.cpp:149-173 -/
def F5 (x : F) : F :=
  let eps := epsD
  if isZero x eps then
    0
  else
  if isEqual x 1 (lit (1/100)) then
    let d := x - 1
    let d2 := (sqr d)
    1 + d2*(-(lit (3/10)) + d*((lit (3/10)) - 3/14*d))
  else
  if isEqual x (-1) (lit (1/100)) then
    let d := x + 1
    let d2 := (sqr d)
    (-1 + d2*((lit (3/10)) + d*((lit (3/10)) + 3/14*d)))
  else
  let x2 := (sqr x)
  let x4 := (sqr x2)
  3*x*(1 - x4 + 2*x2*(log x2))/(cube (1 - x2))

/-- `F6`; ThresholdLoopFunctions.cpp:175-191 -/
def F6 (x : F) : F :=
  let eps := epsD
  if isZero x eps then
    (-(lit (3/4)))
  else
  let x2 := (sqr x)
  if isEqual x2 1 (lit (1/100)) then
    let d := (x - 1)*(x + 1)
    d*(1/3 + d*(-1/8 + d*(1/15 + d/24)))
  else
  (x2 - 3)/(4*(1 - x2)) + x2*(x2 - 2)/(2*(sqr (1 - x2)))*(log x2)

/-- `F7`; ThresholdLoopFunctions.cpp:193-212 -/
def F7 (x : F) : F :=
  let eps := epsD
  if isZero x eps then
    (-(lit (3/2)))
  else
  let x2 := (sqr x)
  if isEqual x2 1 (lit (1/100)) then
    let d := (x - 1)*(x + 1)
    1 + d*(3/2 + d*(-9/20 + d*((lit (1/5)) - 3/28*d)))
  else
  let x4 := (sqr x2)
  (-3*(x4 - 6*x2 + 1)/(2*(sqr (x2 - 1))) + 3*x4*(x2 - 3)/(cube (x2 - 1))*(log x2))

/-- `F8_1_1`; ThresholdLoopFunctions.cpp:215-229 (F8(x1,x2) in the limit x1 -> 1 and x2 -> 1) -/
def F8_1_1 (x1 x2 : F) : F :=
  let d1 := (x1 - 1)*(x1 + 1)
  let d2 := (x2 - 1)*(x2 + 1)
  let d12 := (sqr d1)
  let d22 := (sqr d2)
  let d13 := d1*d12
  let d23 := d2*d22
  let d14 := (sqr d12)
  let d24 := (sqr d22)
  1 + 2/3*(d1 + d2) + 1/6*(-d12 - d1*d2 - d22) + (d13 + d12*d2 + d1*d22 + d23)/15 + (-d14 - d13*d2 - d12*d22 - d1*d23 - d24)/30

/-- `F8_1_x2`; ThresholdLoopFunctions.cpp:232-258 (F8(x1,x2) in the limit x1 -> 1, x2 != 1) -/
def F8_1_x2 (x1 x2 : F) : F :=
  let x22 := (sqr x2)
  let d := (x1 - 1)*(x1 + 1)
  if isZero x2 (lit (1/100)) then
    2*x22 + d*(1 - x22 + d*(-1/3 + 2/3*x22))
  else
  let d2 := (sqr d)
  let d3 := d*d2
  let d4 := (sqr d2)
  let y := (x2 - 1)*(x2 + 1)
  let y2 := (sqr y)
  let y3 := y*y2
  let y4 := (sqr y2)
  let y5 := y2*y3
  let y6 := (sqr y3)
  let lx22 := (log x22)
  (- 2 + 2*(1 + x22*(-1 + lx22*x22))/y2 + d*(-1 + x22*(4 + x22*(-3 + 2*lx22)))/y3 + d2*(-1 + x22*(6 + x22*(-3 + 6*lx22 + -2*x22)))/(3*y4) +
      d3*(-1 + x22*(8 + x22*(12*lx22 + x22*(-8 + x22))))/(6*y5) + d4*(-3 + x22*(30 + x22*(20 + 60*lx22 + x22*(-60 + x22*(15 - 2*x22)))))/(30*y6))

/-- `F8_0_x2`; ThresholdLoopFunctions.cpp:261-268 (F8(x1,x2) in the limit x1 -> 0, x2 != 0) -/
def F8_0_x2 (x1 x2 : F) : F :=
  let x12 := (sqr x1)
  let x22 := (sqr x2)
  let lx22 := (log x22)
  2*(1 - x22 + (x12 + x22)*lx22)/(-1 + x22)

/-- `F8_x1_x2`; ThresholdLoopFunctions.cpp:271-289 (F8(x1,x2) in the limit x1 -> x2, x2 != 1) -/
def F8_x1_x2 (x1 x2 : F) : F :=
  let x22 := (sqr x2)
  let d := (x1 - x2)*(x1 + x2)
  let d2 := (sqr d)
  let d3 := d*d2
  let y := (x2 - 1)*(x2 + 1)
  let y2 := (sqr y)
  let y3 := y*y2
  let y4 := (sqr y2)
  let y5 := y2*y3
  let lx22 := (log x22)
  2*((-2 + x22)*x22*lx22 + y)/y2 + d*(3 + x22*(-4 + x22) + 2*lx22)/y3 + d2*(-2 + x22*(-3 - 6*lx22 + x22*(6 - x22)))/(3*x22*y4) + d3*(-1 +
      x22*(8 + x22*(12*lx22 + x22*(-8 + x22))))/(6*x22*x22*y5)

/-- `F8`; ThresholdLoopFunctions.cpp:291-334 -/
def F8 (x1 x2 : F) : F :=
  let eps := 10*epsD
  if (isZero x1 eps) && (isZero x2 eps) then
    (-2)
  else
  let ax1 := (abs x1)
  let ax2 := (abs x2)
  if (isEqual ax1 1 (lit (1/100))) && (isEqual ax2 1 (lit (1/100))) then
    (F8_1_1 x1 x2)
  else
  if isEqual ax1 1 (lit (1/100)) then
    (F8_1_x2 x1 x2)
  else
  if isEqual ax2 1 (lit (1/100)) then
    (F8_1_x2 x2 x1)
  else
  if isZero x1 (lit (1/100000)) then
    (F8_0_x2 x1 x2)
  else
  if isZero x2 (lit (1/100000)) then
    (F8_0_x2 x2 x1)
  else
  if isEqual ax1 ax2 (lit (1/100000)) then
    (F8_x1_x2 x1 x2)
  else
  let x12 := (sqr x1)
  let x22 := (sqr x2)
  let x14 := (sqr x12)
  let x24 := (sqr x22)
  (-2 + 2/(x12 - x22)*(x14/(x12 - 1)*(log x12) - x24/(x22 - 1)*(log x22)))

/-- `F9_1_1`; ThresholdLoopFunctions.cpp:337-353 (F9(x1,x2) in the limit x1 -> 1 and x2 -> 1) -/
def F9_1_1 (x1 x2 : F) : F :=
  let d1 := (x1 - 1)*(x1 + 1)
  let d2 := (x2 - 1)*(x2 + 1)
  let d12 := (sqr d1)
  let d22 := (sqr d2)
  let d13 := d1*d12
  let d23 := d2*d22
  let d14 := (sqr d12)
  let d24 := (sqr d22)
  1 + 1/3*(-d2 - d1) + 1/6*(d12 + d1*d2 + d22) + 1/10*(-d13 - d12*d2 - d1*d22 - d23) + 1/15*(d14 + d13*d2 + d12*d22 + d1*d23 + d24)

/-- `F9_1_x2`; ThresholdLoopFunctions.cpp:356-381 (F9(x1,x2) in the limit x1 -> 1) -/
def F9_1_x2 (x1 x2 : F) : F :=
  let x22 := (sqr x2)
  let d := (x1 - 1)*(x1 + 1)
  let d2 := (sqr d)
  let d3 := d*d2
  let d4 := (sqr d2)
  let y := (x2 - 1)*(x2 + 1)
  let y2 := (sqr y)
  let y3 := y*y2
  let y4 := (sqr y2)
  let y5 := y2*y3
  let y6 := (sqr y3)
  let lx22 := (log x22)
  if isZero x2 (lit (1/100)) then
    2 + d
  else
  2*(1 + x22*(-1 + lx22))/y2 + d*(1 + x22*(2*lx22 - x22))/y3 + d2*(2 + x22*(3 + 6*lx22 + x22*(-6 + x22)))/(3*y4) + d3*(3 + x22*(10 +
      12*lx22 + x22*(-18 + x22*(6 - x22))))/(6*y5) + d4*(12 + x22*(65 + 60*lx22 + x22*(-120 + x22*(60 + x22*(-20 + 3*x22)))))/(30*y6)

/-- `F9_0_x2`; ThresholdLoopFunctions.cpp:384-389 (F9(x1,x2) in the limit x1 -> 0, x2 != 1, x2 != 0) -/
def F9_0_x2 (_x1 x2 : F) : F :=
  let x22 := (sqr x2)
  2*(log x22)/(-1 + x22)

/-- `F9_x1_x2`; ThresholdLoopFunctions.cpp:392-410 (F9(x1,x2) in the limit x1 -> x2, x2 != 0) -/
def F9_x1_x2 (x1 x2 : F) : F :=
  let x22 := (sqr x2)
  let d := (x1 - x2)*(x1 + x2)
  let d2 := (sqr d)
  let d3 := d*d2
  let y := (x2 - 1)*(x2 + 1)
  let y2 := (sqr y)
  let y3 := y*y2
  let y4 := (sqr y2)
  let y5 := y2*y3
  let lx22 := (log x22)
  2*(y - lx22)/y2 + d*(1 + x22*(2*lx22 - x22))/(x22*y3) + d2*(1 + x22*(-6 + x22*(3 - 6*lx22 + 2*x22)))/(3*x22*x22*y4) + d3*(1 + x22*(-6 +
      x22*(18 + x22*(-10 + 12*lx22 - 3*x22))))/(6*x22*x22*x22*y5)

/-- `F9`; ThresholdLoopFunctions.cpp:412-447 -/
def F9 (x1 x2 : F) : F :=
  let ax1 := (abs x1)
  let ax2 := (abs x2)
  if (isEqual ax1 1 (lit (1/100))) && (isEqual ax2 1 (lit (1/100))) then
    (F9_1_1 x1 x2)
  else
  if isEqual ax1 1 (lit (1/100)) then
    (F9_1_x2 x1 x2)
  else
  if isEqual ax2 1 (lit (1/100)) then
    (F9_1_x2 x2 x1)
  else
  if isZero x1 (lit (1/10000)) then
    (F9_0_x2 x1 x2)
  else
  if isZero x2 (lit (1/10000)) then
    (F9_0_x2 x2 x1)
  else
  if isEqual ax1 ax2 (lit (1/100000)) then
    (F9_x1_x2 x1 x2)
  else
  let x12 := (sqr x1)
  let x22 := (sqr x2)
  2/(x12 - x22)*(x12/(x12 - 1)*(log x12) - x22/(x22 - 1)*(log x22))

/-- `f`; ThresholdLoopFunctions.cpp:449-452 -/
def f (r : F) : F :=
  (F5 r)

/-- `g`; ThresholdLoopFunctions.cpp:454-457 -/
def g (r : F) : F :=
  (F7 r)

/-- `f1`; ThresholdLoopFunctions.cpp:459-481 -/
def f1 (r : F) : F :=
  if (le r 0 && le 0 r) then
    0
  else
  let r2 := (sqr r)
  if lt (abs r) (lit (1/100)) then
    r2*(18/7 + 6/7*r2*(7 + 5*(log r2)))
  else
  let d := r2 - 1
  if isEqual ((abs r)) 1 (lit (1/100)) then
    1 + d*(4/7 + d*(-13/70 + d*(3/35 - 23/490*d)))
  else
  let d2 := (sqr d)
  let d3 := d*d2
  6*(r2 + 3)*r2/(7*d2) + 6*(r2 - 5)*(sqr r2)*(log r2)/(7*d3)

/-- `f2`; ThresholdLoopFunctions.cpp:483-505 -/
def f2 (r : F) : F :=
  if (le r 0 && le 0 r) then
    0
  else
  let r2 := (sqr r)
  if lt (abs r) (lit (1/100)) then
    r2*(22/9 + 2/9*r2*(23 + 17*(log r2)))
  else
  let d := r2 - 1
  if isEqual ((abs r)) 1 (lit (1/100)) then
    1 + d*(16/27 + d*(-49/270 + d*(11/135 - 83/1890*d)))
  else
  let d2 := (sqr d)
  let d3 := d*d2
  2*(r2 + 11)*r2/(9*d2) + 2*(5*r2 - 17)*(sqr r2)*(log r2)/(9*d3)

/-- `f3`; ThresholdLoopFunctions.cpp:507-530 -/
def f3 (r : F) : F :=
  if (le r 0 && le 0 r) then
    4/3
  else
  let r2 := (sqr r)
  if isZero r (lit (1/1000000)) then
    4/3 + 2/3*r2*(13 + 6*(log r2))
  else
  let d := r2 - 1
  if isEqual ((abs r)) 1 (lit (1/100)) then
    1 + d*(2/9 + d*(1/90 + d*(-2/45 + 29/630*d)))
  else
  let r4 := (sqr r2)
  let d2 := (sqr d)
  let d3 := d*d2
  2*(r4 + 9*r2 + 2)/(3*d2) + 2*(r4 - 7*r2 - 6)*r2*(log r2)/(3*d3)

/-- `f4`; ThresholdLoopFunctions.cpp:532-555 -/
def f4 (r : F) : F :=
  if (le r 0 && le 0 r) then
    12/7
  else
  let r2 := (sqr r)
  if isZero r (lit (1/1000000)) then
    12/7 + 2/7*r2*(37 + 18*(log r2))
  else
  let d := r2 - 1
  if isEqual ((abs r)) 1 (lit (1/100)) then
    1 + d*(2/21 + d*(13/210 + d*(-8/105 + 101/1470*d)))
  else
  let r4 := (sqr r2)
  let d2 := (sqr d)
  let d3 := d*d2
  2*(5*r4 + 25*r2 + 6)/(7*d2) + 2*(r4 - 19*r2 - 18)*r2*(log r2)/(7*d3)

/-- `f5_0_0`; ThresholdLoopFunctions.cpp:558-583 (f5(r1,r2) in the limit r1 -> 0, r2 -> 0) -/
def f5_0_0 (r1 r2 : F) : F :=
  if (isZero r1 (lit (1/1000000))) && (isZero r2 (lit (1/1000000))) then
    (lit (3/4))
  else
  let s := if lt (abs r2) (abs r1) then (r2, r1) else (r1, r2)
  let r1 := s.1
  let r2 := s.2
  let r12 := (sqr r1)
  let r22 := (sqr r2)
  let r2lr2 := (xlogx r2)
  let lr2 := (logx r2)
  (lit (3/4))*(1 + 2*r1*(r2 + r2lr2) + 2*r22 + 2*r2*r2lr2 + r12*(2 + 2*lr2 + r2*(2*r2 + 6*r2lr2)) + r1*r22*(6*r2lr2 + 2*r2))

/-- `f5_1_1`; ThresholdLoopFunctions.cpp:586-602 (f5(r1,r2) in the limit r1 -> 1 and r2 -> 1) -/
def f5_1_1 (r1 r2 : F) : F :=
  let d1 := r1 - 1
  let d2 := r2 - 1
  let d12 := (sqr d1)
  let d22 := (sqr d2)
  let d13 := d1*d12
  let d23 := d2*d22
  let d14 := (sqr d12)
  let d24 := (sqr d22)
  1 + 3/8*(d1 + d2) + 1/40*(d12 + d1*d2 + d22) + 1/20*(-d13 - d12*d2 - d1*d22 - d23) + 1/280*(9*(d14 + d13*d2 + d12*d22 + d1*d23 + d24))

/-- `f5_1_r2`; ThresholdLoopFunctions.cpp:605-634 (f5(r1,r2) in the limit r1 -> 1, r2 != 1) -/
def f5_1_r2 (r1 r2 : F) : F :=
  if isZero r2 (lit (1/100)) then
    let d := r1 - 1
    (lit (3/4))*(1 + d*(1/3 + d/6 + r2/3))
  else
  let d1 := r1 - 1
  let d2 := r2 - 1
  let d12 := (sqr d1)
  let d13 := d12*d1
  let d14 := d13*d1
  let d22 := (sqr d2)
  let d23 := d22*d2
  let d24 := d23*d2
  let d25 := d24*d2
  let d26 := d25*d2
  let d27 := d26*d2
  let y := 1 + r2
  let y2 := (sqr y)
  let r22 := (sqr r2)
  let lr22 := (log r22)
  (-3 + r2*(3 + r2*(6 + r2*(3*lr22 + r2*(-3 + (-3 + 3*lr22)*r2)))))/(4*d23*y2) + d1*(1 + r2*(-1 + r2*(-2 + r2*(8 + 3*lr22 + r2*(1 + (-7 +
      3*lr22)*r2)))))/(4*d24*y2) + d12*(-1 + r2*(4 + r2*(-1 + r2*(4 + 6*lr22 + r2*(5 + (-8 + 6*lr22 - 3*r2)*r2)))))/(8*d25*y2) + d13*(-4 +
          r2*(17 + r2*(-4 + r2*(25 + 30*lr22 + r2*(20 + r2*(-41 + 30*lr22 + (-12 - r2)*r2))))))/(40*d26*y2) + d14*(-2 + r2*(9 + r2*(4 +
              r2*(33 + 30*lr22 + r22*(-33 + 30*lr22 + r2*(-4 + r2*(-9 + 2*r2)))))))/(40*d27*y2)

/-- `f5_0_r2`; ThresholdLoopFunctions.cpp:637-649 (f5(r1,r2) in the limit r1 -> 0) -/
def f5_0_r2 (r1 r2 : F) : F :=
  let r22 := (sqr r2)
  let lr22 := (log r22)
  let res := (1 + r22*(lr22 + (-1 + lr22)*r22) + r1*(r1*(2 + lr22 + (-2 + lr22)*r22) + r2*(2 + lr22 + (-2 + lr22)*r22)))/(sqr (-1 + r22))
  (lit (3/4)) * res

/-- `f5_r1_r2`; ThresholdLoopFunctions.cpp:652-671 (f5(r1,r2) in the limit r1 -> r2) -/
def f5_r1_r2 (r1 r2 : F) : F :=
  let d := r1 - r2
  let d2 := (sqr d)
  let d3 := d2*d
  let r22 := (sqr r2)
  let y := r22 - 1
  let y3 := (sqr y)*y
  let y4 := y3*y
  let y5 := y4*y
  let y6 := y5*y
  let lr22 := (log r22)
  (lit (3/4))*((-1 + r22*(-5 - 3*lr22 + r22*(5 - 6*lr22 + (1 + lr22)*r22)))/y3 + d*r2*(11 + 3*lr22 + r22*(3 + 18*lr22 + r22*(-15 + 3*lr22 +
      r22)))/y4 + d2*(-17 - 3*lr22 + r22*(-116 - 75*lr22 + r22*(90 - 105*lr22 + r22*(44 - 9*lr22 - r22))))/(3*y5) + d3*(3 + r22*(273 +
          90*lr22 + r22*(314 + 510*lr22 + r22*(-498 + 342*lr22 + r22*(-93 + 18*lr22 + r22)))))/(6*r2*y6))

/-- `f5`; ThresholdLoopFunctions.cpp:673-719 -/
def f5 (r1 r2 : F) : F :=
  let eps_zero := (lit (1/10000))
  let eps_one := (lit (1/100))
  if (isZero r1 eps_zero) && (isZero r2 eps_zero) then
    (f5_0_0 r1 r2)
  else
  if (isEqual r1 1 eps_one) && (isEqual r2 1 eps_one) then
    (f5_1_1 r1 r2)
  else
  if (isEqual r1 (-1) eps_one) && (isEqual r2 (-1) eps_one) then
    (f5_1_1 (-r1) (-r2))
  else
  if isEqual r1 1 eps_one then
    (f5_1_r2 r1 r2)
  else
  if isEqual r2 1 (lit (1/100)) then
    (f5_1_r2 r2 r1)
  else
  if isZero r1 eps_zero then
    (f5_0_r2 r1 r2)
  else
  if isZero r2 eps_zero then
    (f5_0_r2 r2 r1)
  else
  if isEqual r1 r2 (lit (1/10000)) then
    (f5_r1_r2 r2 r1)
  else
  let r12 := (sqr r1)
  let r22 := (sqr r2)
  let result := (1 + (sqr (r1 + r2)) - r12*r22)/((r12 - 1)*(r22 - 1)) + ((cube r1)*(r12 + 1)*(log r12))/((sqr (r12 - 1))*(r1 - r2)) -
      ((cube r2)*(r22 + 1)*(log r22))/((r1 - r2)*(sqr (r22 - 1)))
  (lit (3/4)) * result

/-- `f6_0_0`; ThresholdLoopFunctions.cpp:722-739 (f6(r1,r2) in the limit r1 -> 0 and r2 -> 0) -/
def f6_0_0 (r1 r2 : F) : F :=
  if (isZero r1 (lit (1/10000000000))) && (isZero r2 (lit (1/10000000000))) then
    0
  else
  let r22 := (sqr r2)
  let lr22 := (log r22)
  let res := r22*(1 + (1 + lr22)*r22) + r1*(r2*(1 + (1 + lr22)*r22) + r1*(1 + r22*(1 + lr22 + (1 + 2*lr22)*r22) + r1*(r2*(1 + lr22 + (1 +
      2*lr22)*r22) + r1*(1 + lr22 + r22*(1 + 2*lr22 + (1 + 3*lr22)*r22)))))
  6/7*res

/-- `f6_1_1`; ThresholdLoopFunctions.cpp:742-753 (f6(r1,r2) in the limit r1 -> 1 and r2 -> 1) -/
def f6_1_1 (r1 r2 : F) : F :=
  let d1 := r1 - 1
  let d2 := r2 - 1
  1 + d2*(4/7 + d2*(-2/35 + (-1/70 + 9*d2/490)*d2)) + d1*(4/7 + d2*(-2/35 + d2*(-1/70 + (9/490 - 3*d2/245)*d2)) + d1*(-2/35 + d2*(-1/70 +
      d2*(9/490 + (-3/245 + d2/147)*d2)) + d1*(-1/70 + d2*(9/490 + d2*(-3/245 + (1/147 - d2/294)*d2)) + d1*(9/490 + d2*(-3/245 + d2*(1/147 +
          (-1/294 + 5*d2/3234)*d2))))))

/-- `f6_0_1`; ThresholdLoopFunctions.cpp:756-767 (f6(r1,r2) in the limit r1 -> 0 and r2 -> 1) -/
def f6_0_1 (r1 r2 : F) : F :=
  let d2 := r2 - 1
  let d22 := (sqr d2)
  3/7 + d2*(4/7 + (-2/35 + 3*d2/70)*d22) + r1*(3/7 + d2*(1/7 + d2*(-1/7 + (3/35 - 3*d2/70)*d2)) + r1*(3/7 + d2*(-2/7 + d2*(1/7 + (-2/35 +
      d2/70)*d2)) + r1*(-3/7 + d2*(1/7 + (-2/35 + d2/14)*d22) + r1*(-3/7 + d2*(4/7 + d2*(-4/7 + (18/35 - 31*d2/70)*d2))))))

/-- `f6_1_r2`; ThresholdLoopFunctions.cpp:770-798 (f6(r1,r2) in the limit r1 -> 1) -/
def f6_1_r2 (r1 r2 : F) : F :=
  if isZero r2 (lit (1/10000)) then
    (f6_0_1 r2 r1)
  else
  let r22 := (sqr r2)
  let lr22 := (log r22)
  let y := 1 + r2
  let y2 := (sqr y)
  let z := r2 - 1
  let z2 := (sqr z)
  let z3 := z2*z
  let z4 := z3*z
  let z5 := z4*z
  let z6 := z5*z
  let z7 := z6*z
  let d := r1 - 1
  let d2 := (sqr d)
  let d3 := d2*d
  let d4 := d3*d
  (-3 + r22*(6 + r2*(6 + r2*(-3 + r2*(-6 + 6*lr22)))))/(7*z3*y2) + d*(4 + r2*(-7 + r2*(-8 + r2*(20 + r2*(4 + r2*(-13 +
      6*lr22))))))/(7*z4*y2) + d2*r2*(1 + r2*(-4 + r2*(4 + r2*(8 + r2*(-5 - 4*r2 + 6*lr22)))))/(7*z5*y2) + d3*(-2 + r2*(11 + r2*(-22 +
          r2*(10 + r2*(50 + r2*(-23 + r2*(-26 + 2*r2) + 30*lr22))))))/(35*z6*y2) + d4*(-3 + r2*(18 + r2*(-40 + r2*(24 + r2*(90 + r2*(-42 +
              r2*(-48 + r22) + 60*lr22))))))/(70*z7*y2)

/-- `f6_0_r2`; ThresholdLoopFunctions.cpp:801-811 (f6(r1,r2) in the limit r1 -> 0) -/
def f6_0_r2 (r1 r2 : F) : F :=
  let r22 := (sqr r2)
  let lr22 := (log r22)
  6/7*(r22*(1 + (-1 + lr22)*r22) + r1*(r2*(1 + (-1 + lr22)*r22) + r1*(1 + (-1 + lr22)*r22 + r1*(r1*(1 + lr22 - r22) + r2*(1 + lr22 -
      r22)))))/(sqr (-1 + r22))

/-- `f6_r1_r2`; ThresholdLoopFunctions.cpp:814-838 (f6(r1,r2) in the limit r1 -> r2) -/
def f6_r1_r2 (r1 r2 : F) : F :=
  let d := r1 - r2
  let d2 := (sqr d)
  let d3 := d2*d
  let d4 := d3*d
  let r22 := (sqr r2)
  let y := r22 - 1
  let y2 := (sqr y)
  let y3 := y2*y
  let y4 := y3*y
  let y5 := y4*y
  let y6 := y5*y
  let y7 := y6*y
  let lr22 := (log r22)
  6/7 * (r22*(-3 + r22*(2 - 5*lr22 + (1 + lr22)*r22))/y3 + d*r2*(3 + r22*(7 + 10*lr22 + r22*(-11 + 2*lr22 + r22)))/y4 + d2*(-3 + r22*(-62 -
      30*lr22 + r22*(36 - 60*lr22 + r22*(30 - 6*lr22 - r22))))/(3*y5) + d3*r2*(107 + 30*lr22 + r22*(206 + 240*lr22 + r22*(-252 + 198*lr22 +
          r22*(-62 + 12*lr22 + r22))))/(6*y6) + d4*(-167 - 30*lr22 + r22*(-2215 - 1050*lr22 + r22*(-510 - 3150*lr22 + r22*(2570 - 1470*lr22 +
              r22*(325 - 60*lr22 - 3*r22)))))/(30*y7))

/-- `f6`; ThresholdLoopFunctions.cpp:840-885 -/
def f6 (r1 r2 : F) : F :=
  let eps_zero := (lit (1/10000))
  if (isZero r1 eps_zero) && (isZero r2 eps_zero) then
    (f6_0_0 r1 r2)
  else
  if (isEqual r1 1 (lit (1/50))) && (isEqual r2 1 (lit (1/50))) then
    (f6_1_1 r1 r2)
  else
  if (isEqual r1 (-1) (lit (1/50))) && (isEqual r2 (-1) (lit (1/50))) then
    (f6_1_1 (-r1) (-r2))
  else
  if isEqual r1 1 (lit (1/1000)) then
    (f6_1_r2 r1 r2)
  else
  if isEqual r2 1 (lit (1/1000)) then
    (f6_1_r2 r2 r1)
  else
  if isZero r1 eps_zero then
    (f6_0_r2 r1 r2)
  else
  if isZero r2 eps_zero then
    (f6_0_r2 r2 r1)
  else
  if isEqual r1 r2 (lit (1/10000)) then
    (f6_r1_r2 r2 r1)
  else
  let r12 := (sqr r1)
  let r22 := (sqr r2)
  let result := (r12 + r22 + r1*r2 - r12*r22)/((r12 - 1)*(r22 - 1)) + ((pow5 r1)*(log r12))/((sqr (r12 - 1))*(r1 - r2)) -
      ((pow5 r2)*(log r22))/((r1 - r2)*(sqr (r22 - 1)))
  6/7 * result

/-- `f7_0_0`; ThresholdLoopFunctions.cpp:888-906 (f7(r1,r2) in the limit r1 -> 0, r2 -> 0) -/
def f7_0_0 (r1 r2 : F) : F :=
  if (isZero r1 (lit (1/1000000))) && (isZero r2 (lit (1/1000000))) then
    6
  else
  let s := if lt (abs r2) (abs r1) then (r2, r1) else (r1, r2)
  let r1 := s.1
  let r2 := s.2
  let r22 := (sqr r2)
  let lr22 := (log r22)
  let res := 1 + (1 + lr22)*r22 + r1*((1 + lr22)*r2 + r1*(1 + lr22 + (1 + 2*lr22)*r22))
  6*res

/-- `f7_1_1`; ThresholdLoopFunctions.cpp:909-920 (f7(r1,r2) in the limit r1 -> 1 and r2 -> 1) -/
def f7_1_1 (r1 r2 : F) : F :=
  let d1 := r1 - 1
  let d2 := r2 - 1
  1 + d2*(-1 + d2*(3/5 + (-3/10 + 9*d2/70)*d2)) + d1*(-1 + d2*(3/5 + d2*(-3/10 + (9/70 - 3*d2/70)*d2)) + d1*(3/5 + d2*(-3/10 + d2*(9/70 +
      (-3/70 + d2/210)*d2)) + d1*(-3/10 + d2*(9/70 + d2*(-3/70 + (1/210 + d2/105)*d2)) + d1*(9/70 + d2*(-3/70 + d2*(1/210 + (1/105 - d2/77)*d2))))))

/-- `f7_0_1`; ThresholdLoopFunctions.cpp:923-933 (f7(r1,r2) in the limit r1 -> 0 and r2 -> 1) -/
def f7_0_1 (r1 r2 : F) : F :=
  let d := r2 - 1
  let r12 := (sqr r1)
  3 + r1*(-4 - 3*r1 + r2) + d*(-2 + 4*r12 + d*(1 - 4*r12 + d*(-(lit (2/5)) + r1*(-(lit (2/5)) + (18*r1)/5) + d*((lit (1/10)) + ((lit (1/2)) -
      (31*r1)/10)*r1))))

/-- `f7_1_r2`; ThresholdLoopFunctions.cpp:936-964 (f7(r1,r2) in the limit r1 -> 1) -/
def f7_1_r2 (r1 r2 : F) : F :=
  if isZero r2 (lit (1/10000)) then
    (f7_0_1 r2 r1)
  else
  let d := r1 - 1
  let d2 := (sqr d)
  let d3 := d2*d
  let d4 := d3*d
  let y := r2 - 1
  let y2 := (sqr y)
  let y3 := y2*y
  let y4 := y3*y
  let y5 := y4*y
  let y6 := y5*y
  let y7 := y6*y
  let z := 1 + r2
  let z2 := (sqr z)
  let r22 := (sqr r2)
  let lr22 := (log r22)
  (-3 + r2*(6 + r2*(6 + (-6 + 6*lr22 - 3*r2)*r2)))/(y3*z2) + d*(-2 + r2*(5 + r2*(4 + r2*(-4 + 6*lr22 + (-2 - r2)*r2))))/(y4*z2) + d2*(-1 +
      r2*(3 + r2*(3 + r2*(6*lr22 + r2*(-3 + (-3 + r2)*r2)))))/(y5*z2) + d3*(-2 + r2*(6 + r2*(18 + r2*(15 + 30*lr22 + r2*(-30 + r2*(-18 +
          (14 - 3*r2)*r2))))))/(5*y6*z2) + d4*(-1 + r22*(48 + r2*(42 + 60*lr22 + r2*(-90 + r2*(-24 + r2*(40 + r2*(-18 + 3*r2)))))))/(10*y7*z2)

/-- `f7_0_r2`; ThresholdLoopFunctions.cpp:967-981 (f7(r1,r2) in the limit r1 -> 0) -/
def f7_0_r2 (r1 r2 : F) : F :=
  let r12 := (sqr r1)
  let r22 := (sqr r2)
  let lr22 := (log r22)
  let r12lr12 := (xlogx r12)
  6*(r22*(1 + (-1 + lr22)*r22) + r1*(r2*(-r12lr12 + r22*(1 + lr22 + 2*r12lr12 + (-1 - r12lr12)*r22)) + r1*(-r12lr12 + r22*(1 + lr22 +
      2*r12lr12 + (-1 - r12lr12)*r22) + r1*(r1*(lr22 + r22*(1 - r22)) + r2*(lr22 + r22*(1 - r22))))))/(r22*(sqr (-1 + r22)))

/-- `f7_r1_r2`; ThresholdLoopFunctions.cpp:984-1008 (f7(r1,r2) in the limit r1 -> r2) -/
def f7_r1_r2 (r1 r2 : F) : F :=
  let d := r1 - r2
  let d2 := (sqr d)
  let d3 := d2*d
  let d4 := d3*d
  let r22 := (sqr r2)
  let y := r22 - 1
  let y2 := (sqr y)
  let y3 := y2*y
  let y4 := y3*y
  let y5 := y4*y
  let y6 := y5*y
  let y7 := y6*y
  let lr22 := (log r22)
  let res := (-1 + r22*(-2 - 3*lr22 + (3 - lr22)*r22))/y3 + d*r2*(8 + 3*lr22 + r22*(-4 + 8*lr22 + (-4 + lr22)*r22))/y4 + d2*(-14 - 3*lr22 +
      r22*(-54 - 45*lr22 + r22*(54 - 45*lr22 + (14 - 3*lr22)*r22)))/(3*y5) + d3*(3 + r22*(166 + 60*lr22 + r22*(108 + 270*lr22 + r22*(-246 +
          144*lr22 + (-31 + 6*lr22)*r22))))/(6*r2*y6) + d4*(3 + r22*(-325 - 60*lr22 + r22*(-2570 - 1470*lr22 + r22*(510 - 3150*lr22 +
              r22*(2215 - 1050*lr22 + (167 - 30*lr22)*r22)))))/(30*r22*y7)
  6*res

/-- `f7`; ThresholdLoopFunctions.cpp:1010-1056 -/
def f7 (r1 r2 : F) : F :=
  let eps_zero := (lit (1/10000))
  let eps_one := (lit (1/50))
  if (isZero r1 eps_zero) && (isZero r2 eps_zero) then
    (f7_0_0 r1 r2)
  else
  if (isEqual r1 1 eps_one) && (isEqual r2 1 eps_one) then
    (f7_1_1 r1 r2)
  else
  if (isEqual r1 (-1) eps_one) && (isEqual r2 (-1) eps_one) then
    (f7_1_1 (-r1) (-r2))
  else
  if isEqual r1 1 eps_one then
    (f7_1_r2 r1 r2)
  else
  if isEqual r2 1 eps_one then
    (f7_1_r2 r2 r1)
  else
  if isZero r1 eps_zero then
    (f7_0_r2 r1 r2)
  else
  if isZero r2 eps_zero then
    (f7_0_r2 r2 r1)
  else
  if isEqual r1 r2 (lit (1/10000)) then
    (f7_r1_r2 r2 r1)
  else
  let r12 := (sqr r1)
  let r22 := (sqr r2)
  let result := (1 + r1*r2)/((r12 - 1)*(r22 - 1)) + ((cube r1)*(log r12))/((sqr (r12 - 1))*(r1 - r2)) - ((cube r2)*(log r22))/((r1 -
      r2)*(sqr (r22 - 1)))
  6 * result

/-- `f8_0_0`; ThresholdLoopFunctions.cpp:1059-1086 (f8(r1,r2) in the limit r1 -> 0 and r2 -> 0) -/
def f8_0_0 (r1 r2 : F) : F :=
  if (isZero r1 (lit (1/10000000000))) && (isZero r2 (lit (1/10000000000))) then
    0
  else
  let s := if lt (abs r2) (abs r1) then (r2, r1) else (r1, r2)
  let r1 := s.1
  let r2 := s.2
  let r22 := (sqr r2)
  let lr22 := (logx r22)
  let r2lr22 := r2*lr22
  let r22lr22 := r2*r2lr22
  if (isZero r1 (lit (1/100000000))) && (isZero r2 (lit (1/100000000))) then
    (3*r2)/2 + r1*((lit (3/2)) + (3*r22)/2 + (3*r22lr22)/2 + r1*((3*r2)/2 + (3*r2lr22)/2))
  else
  r2*((lit (3/2)) + (3*r22)/2 + (3*r22lr22)/2) + r1*((lit (3/2)) + (3*r22)/2 + (3*r22lr22)/2 + r1*(r2*((lit (3/2)) + (3*r22)/2 + 3*r22lr22) +
      r1*((lit (3/2)) + (3*lr22)/2 + (3*r22)/2 + 3*r22lr22) + (3*r2lr22)/2))

/-- `f8_1_1`; ThresholdLoopFunctions.cpp:1089-1101 (f8(r1,r2) in the limit r1 -> 1 and r2 -> 1) -/
def f8_1_1 (r1 r2 : F) : F :=
  let d1 := r1 - 1
  let d2 := r2 - 1
  let d22 := (sqr d2)
  1 + d22*(-1/10 + (3/40 - 3*d2/70)*d2) + d1*(d2*(-1/10 + d2*(3/40 + (-3/70 + 3*d2/140)*d2)) + d1*(-1/10 + d2*(3/40 + d2*(-3/70 + (3/140 -
      d2/105)*d2)) + d1*(3/40 + d2*(-3/70 + d2*(3/140 + (-1/105 + d2/280)*d2)) + d1*(-3/70 + d2*(3/140 + d2*(-1/105 + (1/280 - d2/1155)*d2))))))

/-- `f8_0_1`; ThresholdLoopFunctions.cpp:1104-1113 (f8(r1,r2) in the limit r1 -> 0 and r2 -> 1) -/
def f8_0_1 (r1 r2 : F) : F :=
  let r12 := (sqr r1)
  let d2 := r2 - 1
  (lit (3/4)) + r1*((lit (3/4)) + r1*(-(lit (3/4)) + r1*(-(lit (7/4)) + r2))) + d2*((lit (1/4)) + (-(lit (1/2)) + r1/4)*r1 +
      d2*(-(lit (1/4)) + r1*((lit (1/4)) - r12) + d2*((lit (3/20)) + r1*(-(lit (1/10)) + (-(lit (1/10)) + (9*r1)/10)*r1))))

/-- `f8_1_r2`; ThresholdLoopFunctions.cpp:1116-1144 (f8(r1,r2) in the limit r1 -> 1) -/
def f8_1_r2 (r1 r2 : F) : F :=
  if isZero r2 (lit (1/10000)) then
    (f8_0_1 r2 r1)
  else
  let d1 := r1 - 1
  let d12 := (sqr d1)
  let d13 := d12*d1
  let d14 := d13*d1
  let y := 1 + r2
  let y2 := (sqr y)
  let d2 := r2 - 1
  let d22 := (sqr d2)
  let d23 := d22*d2
  let d24 := d23*d2
  let d25 := d24*d2
  let d26 := d25*d2
  let d27 := d26*d2
  let r22 := (sqr r2)
  let lr22 := (log r22)
  (-3 + r22*(12 + (-9 + 6*lr22)*r22))/(4*d23*y2) + d1*(1 + r2*(-4 + r2*(4 + r2*(8 + (-5 + 6*lr22 - 4*r2)*r2))))/(4*d24*y2) + d12*(1 +
      r2*(-4 + r2*(4 + r2*(8 + (-5 + 6*lr22 - 4*r2)*r2))))/(4*d25*y2) + d13*(3 + r2*(-14 + r2*(18 + r2*(30 + r2*(-15 + 30*lr22 + r2*(-18 +
          r2*(-6 + 2*r2)))))))/(20*d26*y2) + d14*(3 + r2*(-16 + r2*(24 + r2*(48 + r2*(60*lr22 + r2*(-48 + r2*(-24 + (16 - 3*r2)*r2)))))))/(40*d27*y2)

/-- `f8_0_r2`; ThresholdLoopFunctions.cpp:1147-1159 (f8(r1,r2) in the limit r1 -> 0) -/
def f8_0_r2 (r1 r2 : F) : F :=
  let r12 := (sqr r1)
  let r22 := (sqr r2)
  let lr22 := (log r22)
  let r12lr12 := (xlogx r12)
  (r22*(3 + (-3 + 3*lr22)*r22) + r1*(r2*(3 + (-3 + 3*lr22)*r22) + r1*(-3*r12lr12 + r22*(3 + 3*lr22 + 6*r12lr12 + (-3 - 3*r12lr12)*r22) +
      r1*(r2*(3 + 3*lr22 - 3*r22) + r1*(3*lr22 + r22*(3 - 3*r22))))))/(2*r2*(sqr (-1 + r22)))

/-- `f8_r1_r2`; ThresholdLoopFunctions.cpp:1162-1184 (f8(r1,r2) in the limit r1 -> r2) -/
def f8_r1_r2 (r1 r2 : F) : F :=
  let d := r1 - r2
  let d2 := (sqr d)
  let d3 := d2*d
  let d4 := d3*d
  let r22 := (sqr r2)
  let y := r22 - 1
  let y2 := (sqr y)
  let y3 := y2*y
  let y4 := y3*y
  let y5 := y4*y
  let y6 := y5*y
  let y7 := y6*y
  let lr22 := (log r22)
  (r2*(-3 + r22*(-6*lr22 + 3*r22)))/y3 + d*(3 + r22*(27 + 18*lr22 + r22*(-27 + 18*lr22 - 3*r22)))/(2*y4) + d2*r2*(-19 - 6*lr22 + r22*(-9 -
      30*lr22 + r22*(27 - 12*lr22 + r22)))/y5 + d3*(31 + 6*lr22 + r22*(246 + 144*lr22 + r22*(-108 + 270*lr22 + r22*(-166 + 60*lr22 -
          3*r22))))/(4*y6) + d4*(-3 + r22*(-285 - 90*lr22 + r22*(-570 - 630*lr22 + r22*(570 - 630*lr22 + r22*(285 - 90*lr22 + 3*r22)))))/(5*r2*y7)

/-- `f8`; ThresholdLoopFunctions.cpp:1186-1232 -/
def f8 (r1 r2 : F) : F :=
  let eps_zero := (lit (1/20000))
  let eps_one := (lit (1/100))
  if (isZero r1 eps_zero) && (isZero r2 eps_zero) then
    (f8_0_0 r1 r2)
  else
  if (isEqual r1 1 eps_one) && (isEqual r2 1 eps_one) then
    (f8_1_1 r1 r2)
  else
  if (isEqual r1 (-1) eps_one) && (isEqual r2 (-1) eps_one) then
    (-1)
  else
  if isEqual r1 1 eps_one then
    (f8_1_r2 r1 r2)
  else
  if isEqual r2 1 eps_one then
    (f8_1_r2 r2 r1)
  else
  if isZero r1 eps_zero then
    (f8_0_r2 r1 r2)
  else
  if isZero r2 eps_zero then
    (f8_0_r2 r2 r1)
  else
  if isEqual r1 r2 (lit (1/10000)) then
    (f8_r1_r2 r2 r1)
  else
  let r12 := (sqr r1)
  let r22 := (sqr r2)
  let result := (r1 + r2)/((r12 - 1)*(r22 - 1)) + ((quad r1)*(log r12))/((sqr (r12 - 1))*(r1 - r2)) - ((quad r2)*(log r22))/((r1 -
      r2)*(sqr (r22 - 1)))
  (lit (3/2)) * result


end Himalaya.TLF
