import Verif.Base.Mat
import Mathlib.Analysis.SpecialFunctions.Log.Basic
import Mathlib.Analysis.SpecialFunctions.Sqrt
import Mathlib.Analysis.SpecialFunctions.Trigonometric.Arctan
import Mathlib.Analysis.SpecialFunctions.Pow.Real

/-!
# Two-loop contributions to the Higgs mass matrices

Models source/himalaya/mh2l/DSZHiggs.cpp and the parts of source/himalaya/mh2l/DSZHiggs.f named below, in exact real arithmetic.
Fortran passes arguments by reference: where a routine assigns to its arguments this is modelled.  `cos(atan(x))`, `sin(atan(x))` are
kept as such.  `π` is exact.  The function `phi` of DSZHiggs.f and the dilogarithm are parameters where stated.
-/

namespace Himalaya.TwoLoop

open Real

/-- `sqrtabs`; mh2l/DSZHiggs.cpp:32 -/
noncomputable def sqrtabs (a : ℝ) : ℝ := √|a|
/-- `logabs`; mh2l/DSZHiggs.cpp:33.  (`Real.log` already ignores the sign.) -/
noncomputable def logabs (a : ℝ) : ℝ := log |a|

/-- `rotate_by`; mh2l/DSZHiggs.cpp:126-140 -/
noncomputable def rotateBy (dm2 tanb : ℝ) : Mat2 ℝ :=
  let tanb2 := tanb * tanb
  let sinb := tanb / sqrtabs (1 + tanb2)
  let cosb := 1 / sqrtabs (1 + tanb2)
  ⟨dm2 * (sinb * sinb), -dm2 * sinb * cosb, -dm2 * sinb * cosb, dm2 * (cosb * cosb)⟩

/-- sum of matrices -/
noncomputable def madd (a b : Mat2 ℝ) : Mat2 ℝ := ⟨a.m00 + b.m00, a.m01 + b.m01, a.m10 + b.m10, a.m11 + b.m11⟩

/-- `calc_At`; mh2l/DSZHiggs.cpp:142-150 -/
noncomputable def calcAt (mt2 mst12 mst22 sxt cxt mu tanb : ℝ) : ℝ :=
  let s2t := 2 * cxt * sxt
  let Xt := (mst12 - mst22) * s2t / 2 / sqrtabs mt2
  Xt - mu / tanb

/-! ### `DDSHiggs`: the guards -/

/-- arguments changed by `DDSHiggs` and `DDSodd` -/
@[ext] structure Sq where
  T1 : ℝ
  T2 : ℝ
  B1 : ℝ
  B2 : ℝ
  st : ℝ
  ct : ℝ
  sb : ℝ
  cb : ℝ

/-- `if (dabs((x-y)/x).lt.eps) ...`: moves `x` away from `y`; mh2l/DSZHiggs.f:69-75 and similar -/
noncomputable def apart (eps x y : ℝ) : ℝ :=
  if |(x - y) / x| < eps then (if x > y then y / (1 - eps) else y / (1 + eps)) else x

/-- `if (dabs(s).lt.eps) ...`: moves a sine away from 0; mh2l/DSZHiggs.f:58-64 and similar -/
noncomputable def nonzero (eps s : ℝ) : ℝ := if |s| < eps then (if s ≥ 0 then eps else -eps) else s

/-- the assignments to the arguments at the beginning of `DDSHiggs` and `DDSodd`; mh2l/DSZHiggs.f:44-51, 57-137 and 203-210, 216-296
(the two blocks are identical) -/
noncomputable def guards (a : Sq) : Sq :=
  let st := nonzero (1 / 10 ^ 5) a.st
  let ct := √(1 - st * st)
  let T1 := apart (1 / 10 ^ 5) a.T1 a.T2
  let sb := nonzero (1 / 10 ^ 8) a.sb
  let cb := √(1 - sb * sb)
  let B1 := apart (1 / 10 ^ 5) a.B1 a.B2
  let B1 := apart (1 / 10 ^ 6) B1 T1
  let B1 := apart (1 / 10 ^ 7) B1 a.T2
  let B2 := apart (1 / 10 ^ 8) a.B2 T1
  let B2 := apart (1 / 10 ^ 9) B2 a.T2
  ⟨T1, a.T2, B1, B2, st, ct, sb, cb⟩

/-! ### `taubot` -/

/-- arguments of `taubot` -/
structure TauBot where
  t : ℝ
  b : ℝ
  T1 : ℝ
  T2 : ℝ
  B1 : ℝ
  B2 : ℝ
  st : ℝ
  ct : ℝ
  sb : ℝ
  cb : ℝ
  q : ℝ
  mu : ℝ
  tanb : ℝ
  vv : ℝ

/-- `pippob`, `pippot`; mh2l/DSZHiggs.f:5512-5513 and similar -/
noncomputable def pippo (x1 x2 q : ℝ) : ℝ := x1 * (log (x1 / q) - 1) - x2 * (log (x2 / q) - 1)
/-- `ht`, `hb`; mh2l/DSZHiggs.f:5515-5516 -/
noncomputable def tauYuk (m2 vv tanb : ℝ) : ℝ := √(2 * m2 / vv) / cos (arctan tanb)

/-- arguments of the functions `tauF1q` ...: (t,b,T1,T2,B1,B2,s2t,c2t,s2b,c2b,q,mu,vv,tanb) -/
structure TauArgs where
  t : ℝ
  b : ℝ
  T1 : ℝ
  T2 : ℝ
  B1 : ℝ
  B2 : ℝ
  s2t : ℝ
  c2t : ℝ
  s2b : ℝ
  c2b : ℝ
  q : ℝ
  mu : ℝ
  vv : ℝ
  tanb : ℝ

namespace TauArgs
/-- exchange of the two sectors, as in the calls `tauF1q(b,t,B1,B2,T1,T2,s2b,c2b,s2t,c2t,...)`; mh2l/DSZHiggs.f:5480-5483 -/
def swap (a : TauArgs) : TauArgs := ⟨a.b, a.t, a.B1, a.B2, a.T1, a.T2, a.s2b, a.c2b, a.s2t, a.c2t, a.q, a.mu, a.vv, a.tanb⟩

variable (a : TauArgs)
noncomputable def ht : ℝ := tauYuk a.t a.vv a.tanb
noncomputable def hb : ℝ := tauYuk a.b a.vv a.tanb
noncomputable def pippot : ℝ := pippo a.T1 a.T2 a.q
noncomputable def pippob : ℝ := pippo a.B1 a.B2 a.q

/-- mh2l/DSZHiggs.f:5503-5521 -/
noncomputable def F1q : ℝ := -(1/2) * a.ht * a.hb * a.s2t * a.s2b * (a.T1 - a.T2) / a.T1 / a.T2 * a.pippob
/-- mh2l/DSZHiggs.f:5526-5545 -/
noncomputable def F2q : ℝ := 1/2 * a.ht * a.hb * a.s2b / a.s2t / a.T1 / a.T2 / (a.T1 - a.T2) * a.pippob *
  (a.s2t ^ 2 * (a.T1 ^ 2 - a.T2 ^ 2) + 2 * a.c2t ^ 2 * a.T1 * a.T2 * log (a.T1 / a.T2))
/-- mh2l/DSZHiggs.f:5550-5570 -/
noncomputable def F3q : ℝ := -(1/2) * a.ht * a.hb * a.s2b / a.s2t / a.T1 / a.T2 / (a.T1 - a.T2) ^ 2 * a.pippob *
  ((a.T1 - a.T2) * (a.s2t ^ 2 * (a.T1 + a.T2) ^ 2 - 8 * a.c2t ^ 2 * a.T1 * a.T2)
   - 2 * (3 * a.s2t ^ 2 - 2) * a.T1 * a.T2 * (a.T1 + a.T2) * log (a.T1 / a.T2))
/-- mh2l/DSZHiggs.f:5575-5594 -/
noncomputable def F4q : ℝ := 1/2 * a.ht * a.hb * a.s2b / a.s2t / (a.T1 - a.T2) * log (a.B1 / a.B2) *
  (2 * a.c2t ^ 2 * a.pippot + a.s2t ^ 2 * (a.T1 - a.T2) * log (a.T1 * a.T2 / a.q ^ 2))
/-- mh2l/DSZHiggs.f:5599-5622 -/
noncomputable def F5q : ℝ := 1/2 * a.hb * a.ht / a.s2b / a.s2t *
  (-4 * a.pippob * a.pippot / (a.B1 - a.B2) / (a.T1 - a.T2) * (1 - a.c2b ^ 2 * a.c2t ^ 2)
   + 2 * a.pippot * a.s2b ^ 2 * a.c2t ^ 2 / (a.T1 - a.T2) * log (a.B1 * a.B2 / a.q ^ 2)
   + 2 * a.pippob * a.s2t ^ 2 * a.c2b ^ 2 / (a.B1 - a.B2) * log (a.T1 * a.T2 / a.q ^ 2)
   + a.s2t ^ 2 * a.s2b ^ 2 * (log (a.B1 / a.q) * log (a.T1 / a.q) + log (a.B1 / a.q) * log (a.T2 / a.q)
     + log (a.B2 / a.q) * log (a.T1 / a.q) + log (a.B2 / a.q) * log (a.T2 / a.q)))
/-- mh2l/DSZHiggs.f:5627-5645 -/
noncomputable def F6q : ℝ := 1/2 * a.ht * a.hb * a.s2t * a.s2b * log (a.B1 / a.B2) * log (a.T1 / a.T2)
/-- mh2l/DSZHiggs.f:5650-5669 -/
noncomputable def Fq : ℝ := 1/2 * a.ht * a.hb * a.s2b / a.s2t / (a.T1 - a.T2) * a.pippob *
  (2 * a.c2t ^ 2 * a.pippot + a.s2t ^ 2 * (a.T1 - a.T2) * log (a.T1 * a.T2 / a.q ^ 2))
/-- mh2l/DSZHiggs.f:5697-5720 -/
noncomputable def FAq : ℝ :=
  let Xt := (a.T1 - a.T2) * a.s2t / 2 / √a.t
  let Xb := (a.B1 - a.B2) * a.s2b / 2 / √a.b
  let At := Xt - a.mu * a.tanb
  let Ab := Xb - a.mu * a.tanb
  2 * a.ht * a.hb * √a.t * √a.b * a.tanb * (Ab - At) ^ 2 * a.mu ^ 2 / a.s2b / a.s2t / (a.T1 - a.T2) ^ 2 / (a.B1 - a.B2) ^ 2
    * a.pippot * a.pippob
end TauArgs

/-- arguments of `makefuncstau`; mh2l/DSZHiggs.f:5311-5314, 5329 -/
def TauBot.args (a : TauBot) : TauArgs :=
  ⟨a.t, a.b, a.T1, a.T2, a.B1, a.B2, 2 * a.ct * a.st, a.ct ^ 2 - a.st ^ 2, 2 * a.cb * a.sb, a.cb ^ 2 - a.sb ^ 2, a.q, a.mu, a.vv, a.tanb⟩

/-- the output variables of `taubot`, by name -/
structure SOut where
  S11 : ℝ
  S12 : ℝ
  S22 : ℝ

/-- `taubot`; mh2l/DSZHiggs.f:5294-5355, with `makefuncstau` 5463-5496 -/
noncomputable def taubotF (a : TauBot) : SOut :=
  let f := a.args
  let mt := √a.t
  let mb := √a.b
  let Xt := (a.T1 - a.T2) * f.s2t / 2 / mt
  let Xb := (a.B1 - a.B2) * f.s2b / 2 / mb
  let At := Xt - a.mu * a.tanb
  let Ab := Xb - a.mu * a.tanb
  let ht := √(2 / a.vv) * mt / cos (arctan a.tanb)
  let hb := √(2 / a.vv) * mb / cos (arctan a.tanb)
  let k := 3 / (16 * π ^ 2) ^ 2
  let F1t := f.F1q
  let F2t := f.F2q
  let F3t := f.F3q
  let F4t := f.F4q
  let F1b := f.swap.F1q
  let F2b := f.swap.F2q
  let F3b := f.swap.F3q
  let F4b := f.swap.F4q
  let F5 := f.F5q
  let F6 := f.F6q
  ⟨k * (2 * hb ^ 2 * mb ^ 2 * F1b + 2 * hb ^ 2 * Ab * mb * f.s2b * F2b + 1/2 * hb ^ 2 * Ab ^ 2 * f.s2b ^ 2 * F3b
      + 2 * ht ^ 2 * mt ^ 2 * F1t + 2 * ht ^ 2 * At * mt * f.s2t * F2t + 1/2 * ht ^ 2 * At ^ 2 * f.s2t ^ 2 * F3t
      + 2 * hb * ht * mb * At * f.s2t * F4t + 2 * ht * hb * mt * Ab * f.s2b * F4b
      + ht * hb * At * Ab * f.s2t * f.s2b * F5 + 4 * ht * hb * mt * mb * F6),
   k * (ht ^ 2 * a.mu * mt * f.s2t * F2t + 1/2 * ht ^ 2 * At * a.mu * f.s2t ^ 2 * F3t
      + hb ^ 2 * a.mu * mb * f.s2b * F2b + 1/2 * hb ^ 2 * Ab * a.mu * f.s2b ^ 2 * F3b
      + ht * hb * mb * a.mu * f.s2t * F4t + hb * ht * mt * a.mu * f.s2b * F4b
      + 1/2 * ht * hb * f.s2t * f.s2b * a.mu * (At + Ab) * F5),
   k * (1/2 * hb ^ 2 * a.mu ^ 2 * f.s2b ^ 2 * F3b + 1/2 * ht ^ 2 * a.mu ^ 2 * f.s2t ^ 2 * F3t
      + hb * ht * a.mu ^ 2 * f.s2b * f.s2t * F5)⟩

/-- `taubotodd`; mh2l/DSZHiggs.f:5360-5405 -/
noncomputable def taubotoddF (a : TauBot) : ℝ :=
  let f := a.args
  let mt := √a.t
  let mb := √a.b
  let Xt := (a.T1 - a.T2) * f.s2t / 2 / mt
  let Xb := (a.B1 - a.B2) * f.s2b / 2 / mb
  let At := Xt - a.mu * a.tanb
  let Ab := Xb - a.mu * a.tanb
  let sbe := sin (arctan a.tanb)
  let cbe := cos (arctan a.tanb)
  let ht := √(2 / a.vv) * mt / cbe
  let hb := √(2 / a.vv) * mb / cbe
  let k := 3 / (16 * π ^ 2) ^ 2
  k * (-(ht ^ 2 * a.mu * At / (a.T1 - a.T2) * f.Fq + hb ^ 2 * a.mu * Ab / (a.B1 - a.B2) * f.swap.Fq + 2 * ht * hb * f.FAq) / sbe / cbe)

/-- what a Fortran routine writes through its output pointers, in the order of its parameter list -/
abbrev Outputs := List ℝ

/-- `taubot_(..., S11, S12, S22)`: order of the dummy arguments; mh2l/DSZHiggs.f:5294-5295 -/
noncomputable def taubotOut (a : TauBot) : Outputs := [(taubotF a).S11, (taubotF a).S12, (taubotF a).S22]

/-- C++ side: `&result(0,0), &result(1,1), &result(0,1)`, then `result(1,0) = result(0,1)`; mh2l/DSZHiggs.cpp:119-121, 358-362,
398-405 -/
def storeDiagFirst : Outputs → Mat2 ℝ
  | [x, y, z] => ⟨x, z, z, y⟩
  | _ => ⟨0, 0, 0, 0⟩

/-- C++ side: `&result(0,0), &result(0,1), &result(1,1)`, then `result(1,0) = result(0,1)`; mh2l/DSZHiggs.cpp:303-310 -/
def storeRowFirst : Outputs → Mat2 ℝ
  | [x, y, z] => ⟨x, y, y, z⟩
  | _ => ⟨0, 0, 0, 0⟩

/-- `delta_mh2_2loop_ab_atau`; mh2l/DSZHiggs.cpp:389-413, with `delta_ma2_2loop_ab_atau` 373-387 -/
noncomputable def deltaAbAtau (a : TauBot) (includeHeavyHiggs : Bool) : Mat2 ℝ :=
  let result := storeDiagFirst (taubotOut a)
  let dMA := if includeHeavyHiggs then taubotoddF a else 0
  madd result (rotateBy dMA a.tanb)

/-! ### `DSZHiggs` in the DRbar scheme (`OS = 0`) -/

/-- arguments of `dszhiggs_` -/
structure AtAs where
  t : ℝ
  mg : ℝ
  T1 : ℝ
  T2 : ℝ
  st : ℝ
  ct : ℝ
  q : ℝ
  mu : ℝ
  tanb : ℝ
  v2 : ℝ
  gs : ℝ

section
variable (phi : ℝ → ℝ → ℝ → ℝ)

/-- `del`; mh2l/DSZHiggs.f:4422 and similar -/
def delF (g t T : ℝ) : ℝ := g ^ 2 + t ^ 2 + T ^ 2 - 2 * (g * t + g * T + t * T)

/-- `strF1ab`; mh2l/DSZHiggs.f:4393-4407 -/
noncomputable def strF1ab (t T1 T2 s2t c2t q : ℝ) : ℝ :=
  -6 * (1 - log (t / q)) + 5 * log (T1 * T2 / t ^ 2) + log (T1 * T2 / t ^ 2) ^ 2
  + 8 * log (t / q) ^ 2 - 4 * log (T1 / q) ^ 2 - 4 * log (T2 / q) ^ 2
  - c2t ^ 2 * (2 - log (T1 / q) - log (T2 / q) - log (T1 / T2) ^ 2)
  - s2t ^ 2 * (T1 / T2 * (1 - log (T1 / q)) + T2 / T1 * (1 - log (T2 / q)))

/-- `strF1c`; mh2l/DSZHiggs.f:4412-4436 -/
noncomputable def strF1c (t mg T1 s2t q : ℝ) : ℝ :=
  let mt := √t
  let g := mg ^ 2
  let del := delF g t T1
  4 * (t + g - mg * mt * s2t) / T1 * (1 - log (g / q)) + 4 * log (t / g) - 2 * log (T1 / g)
  + 2 / del * (4 * g ^ 2 * log (T1 / g) + (g ^ 2 - T1 ^ 2 + t * (10 * g + 3 * t + 2 * t * g / T1 - 2 * t ^ 2 / T1)) * log (t / g))
  + 2 * mg / mt * s2t * (log (T1 / q) ^ 2 + 2 * log (t / q) * log (T1 / q))
  + 4 * mg / mt * s2t / del * (g * (T1 - t - g) * log (T1 / g) + t * (T1 - 3 * g - 2 * t - (t * g - t ^ 2) / T1) * log (t / g))
  + (4 * g * (t + g - T1 - 2 * mg * mt * s2t) / del - 4 * mg / mt * s2t) * phi t T1 g

/-- `strF2ab`; mh2l/DSZHiggs.f:4441-4456 -/
noncomputable def strF2ab (T1 T2 s2t c2t q : ℝ) : ℝ :=
  5 * log (T1 / T2) - 3 * (log (T1 / q) ^ 2 - log (T2 / q) ^ 2)
  + c2t ^ 2 * (5 * log (T1 / T2) - (T1 + T2) / (T1 - T2) * log (T1 / T2) ^ 2
    - 2 / (T1 - T2) * (T1 * log (T1 / q) - T2 * log (T2 / q)) * log (T1 / T2))
  + s2t ^ 2 * (T1 / T2 * (1 - log (T1 / q)) - T2 / T1 * (1 - log (T2 / q)))

/-- `strF2c`; mh2l/DSZHiggs.f:4461-4491 -/
noncomputable def strF2c (t mg T1 T2 s2t q : ℝ) : ℝ :=
  let mt := √t
  let g := mg ^ 2
  let del := delF g t T1
  4 * (t + g) / T1 - 4 * mg / mt * s2t / (T1 - T2) * (3 * T1 - t * T2 / T1)
  + 2 * mg / mt * s2t / (T1 - T2) * ((4 * t + 5 * T1 + T2) * log (T1 / q) - 2 * t * T2 / T1 * log (g / q))
  - 4 * (g + t) / T1 * log (g / q) - 2 * log (T1 / g)
  + 2 / del * (2 * g * (g + t - T1) * log (T1 / g) + 2 * t * (3 * g + 2 * t - T1 + (g * t - t ^ 2) / T1) * log (t / g))
  - 4 * mg * mt * s2t / del / T1 * (2 * g * T1 * log (T1 / g) - ((t - T1) ^ 2 - g * (t + T1)) * log (t / g))
  - 8 * mg * mt / s2t / (T1 - T2) * (log (T1 / q) - log (t / q) * log (T1 / q))
  - mg / mt * s2t / (T1 - T2) * ((T1 + T2) * log (T1 / q) ^ 2
    + (10 * t - 2 * g + T1 + T2) * log (t / q) * log (T1 / q)
    + (2 * g - 2 * t + T1 + T2) * log (T1 / q) * log (g / q))
  + (8 * g * t / del - 8 * mg * mt / s2t / (T1 - T2) + 2 * s2t / mg / mt / (T1 - T2) * (4 * g * t - del)
    + s2t / mg / mt / del * (T1 - g - t) ^ 3) * phi t T1 g

/-- `strF3ab`; mh2l/DSZHiggs.f:4496-4515 -/
noncomputable def strF3ab (T1 T2 s2t c2t q : ℝ) : ℝ :=
  (3 + 9 * c2t ^ 2) * (2 - (T1 + T2) / (T1 - T2) * log (T1 / T2))
  + 4 - (3 + 13 * c2t ^ 2) / (T1 - T2) * (T1 * log (T1 / q) - T2 * log (T2 / q))
  + 3 * (T1 + T2) / (T1 - T2) * (log (T1 / q) ^ 2 - log (T2 / q) ^ 2)
  - c2t ^ 2 * (4 - ((T1 + T2) / (T1 - T2)) ^ 2 * log (T1 / T2) ^ 2
    - 6 * (T1 + T2) / (T1 - T2) ^ 2 * (T1 * log (T1 / q) - T2 * log (T2 / q)) * log (T1 / T2))
  - s2t ^ 2 * (T1 / T2 + T2 / T1 + 2 * log (T1 * T2 / q ^ 2) - T1 ^ 2 / T2 / (T1 - T2) * log (T1 / q)
    + T2 ^ 2 / T1 / (T1 - T2) * log (T2 / q))

/-- `strF3c`; mh2l/DSZHiggs.f:4520-4553 (`T` in line 4538 is `t`: Fortran ignores case) -/
noncomputable def strF3c (t mg T1 T2 s2t q : ℝ) : ℝ :=
  let mt := √t
  let g := mg ^ 2
  let del := delF g t T1;
  -4 * T2 / T1 / (T1 - T2) * (g + t) + 4 * mg * mt * s2t / (T1 - T2) ^ 2 * (21 * T1 - T2 ^ 2 / T1)
  + 4 / (T1 - T2) * (g * T2 / T1 * log (g / q) - 2 * (t + g) * log (T1 / q))
  - 24 * mg * mt * s2t / (T1 - T2) ^ 2 * (3 * T1 + T2) * log (T1 / q)
  + 4 * t / T1 / del * (2 * g * T1 * log (T1 / q) - g * (g - t + T1) * log (g / q) + (g * (t + T1) - (t - T1) ^ 2) * log (t / q))
  - 4 * mg * mt * s2t / T1 / del * (t * (g - t + T1) * log (t / q) - g * (g - t - T1) * log (g / q)
    + T1 * (g + t - T1) * log (T1 / q))
  + 2 * (2 * g + 2 * t - T1 - T2) / (T1 - T2) * log (g * t / q ^ 2) * log (T1 / q)
  + 12 * mg * mt * s2t / (T1 - T2) ^ 2 * (2 * (g - t) * log (g / t) * log (T1 / q) + (T1 + T2) * log (t * g / q ^ 2) * log (T1 / q))
  + 8 * mg * mt / s2t / (T1 - T2) ^ 2 * (-8 * T1 + 2 * (3 * T1 + T2) * log (T1 / q) - 2 * (g - t) * log (g / t) * log (T1 / q)
    - (T1 + T2) * log (t * g / q ^ 2) * log (T1 / q))
  - ((8 / s2t - 12 * s2t) * mt / mg / (T1 - T2) ^ 2 * (2 * del + (g + t - T1) * (T1 - T2))
    + (4 * del + 8 * g * t) / g / (T1 - T2) + 2 * (g + t - T1) / g - 4 * t * (g + t - T1 - 2 * mg * mt * s2t) / del) * phi t T1 g

/-- `sF2` of `strsfuncs`; mh2l/DSZHiggs.f:4566-4567 -/
noncomputable def sF2 (mg T1 T2 q A : ℝ) : ℝ := mg / A * 2 * (log (T2 / q) ^ 2 - log (T1 / q) ^ 2)
/-- `sF3` of `strsfuncs`; mh2l/DSZHiggs.f:4569-4571 -/
noncomputable def sF3 (mg T1 T2 q A : ℝ) : ℝ :=
  mg / A * (8 - 2 * (T1 + T2) / (T1 - T2) * (log (T2 / q) ^ 2 - log (T1 / q) ^ 2)
    + 8 / (T1 - T2) * (T2 * log (T2 / q) - T1 * log (T1 / q)))
/-- `F2_s` of `strresfuncs`; mh2l/DSZHiggs.f:4589-4591 -/
noncomputable def F2_s (t mg T1 T2 q : ℝ) : ℝ :=
  -8 * mg * √t / (T1 - T2) * ((log (T1 / q) - log (t / q) * log (T1 / q) + phi t T1 (mg ^ 2))
    - (log (T2 / q) - log (t / q) * log (T2 / q) + phi t T2 (mg ^ 2)))
/-- `sF2_A`; mh2l/DSZHiggs.f:4593-4594 -/
noncomputable def sF2_A (mg T1 T2 q : ℝ) : ℝ := mg * 2 * (log (T2 / q) ^ 2 - log (T1 / q) ^ 2)
/-- `sF3_A`; mh2l/DSZHiggs.f:4596-4598 -/
noncomputable def sF3_A (mg T1 T2 q : ℝ) : ℝ :=
  mg * (8 - 2 * (T1 + T2) / (T1 - T2) * (log (T2 / q) ^ 2 - log (T1 / q) ^ 2)
    + 8 / (T1 - T2) * (T2 * log (T2 / q) - T1 * log (T1 / q)))

/-- `strfuncs`; mh2l/DSZHiggs.f:4368-4388 -/
noncomputable def strF1 (t mg T1 T2 s2t c2t q : ℝ) : ℝ := strF1ab t T1 T2 s2t c2t q + strF1c phi t mg T1 s2t q + strF1c phi t mg T2 (-s2t) q
noncomputable def strF2 (t mg T1 T2 s2t c2t q : ℝ) : ℝ := strF2ab T1 T2 s2t c2t q + strF2c phi t mg T1 T2 s2t q - strF2c phi t mg T2 T1 (-s2t) q
noncomputable def strF3 (t mg T1 T2 s2t c2t q : ℝ) : ℝ := strF3ab T1 T2 s2t c2t q + strF3c phi t mg T1 T2 s2t q + strF3c phi t mg T2 T1 (-s2t) q

/-- the three matrix elements as functions of `s2t`, `c2t`, `A`; mh2l/DSZHiggs.f:4312-4361 with `osdr = 0` (terms multiplied by `osdr`
are dropped) -/
noncomputable def dszElements (t mg T1 T2 s2t c2t q mu A ht k : ℝ) : SOut :=
  let mt := √t
  let F1 := strF1 phi t mg T1 T2 s2t c2t q
  let F2 := strF2 phi t mg T1 T2 s2t c2t q
  let F3 := strF3 phi t mg T1 T2 s2t c2t q
  if s2t ≠ 0 ∧ A ≠ 0 then
    ⟨k * (1/2 * ht ^ 2 * mu ^ 2 * s2t ^ 2 * F3),
     k * (1/2 * ht ^ 2 * mu * A * s2t ^ 2 * (F3 + sF3 mg T1 T2 q A) + ht ^ 2 * mt * mu * s2t * F2),
     k * (1/2 * ht ^ 2 * A ^ 2 * s2t ^ 2 * (F3 + 2 * sF3 mg T1 T2 q A) + 2 * ht ^ 2 * mt * A * s2t * (F2 + sF2 mg T1 T2 q A)
       + 2 * ht ^ 2 * mt ^ 2 * F1)⟩
  else if s2t = 0 ∧ A = 0 then ⟨k * 0, k * 0, k * (2 * ht ^ 2 * mt ^ 2 * F1)⟩
  else if s2t = 0 ∧ A ≠ 0 then
    ⟨k * 0, k * (ht ^ 2 * mt * mu * F2_s phi t mg T1 T2 q),
     k * (2 * ht ^ 2 * mt ^ 2 * F1 + 2 * ht ^ 2 * mt * A * F2_s phi t mg T1 T2 q)⟩
  else
    ⟨k * (1/2 * ht ^ 2 * mu ^ 2 * s2t ^ 2 * F3),
     k * (1/2 * ht ^ 2 * mu * s2t ^ 2 * sF3_A mg T1 T2 q + ht ^ 2 * mt * mu * s2t * F2),
     k * (2 * ht ^ 2 * mt ^ 2 * F1 + 2 * ht ^ 2 * mt * s2t * sF2_A mg T1 T2 q)⟩

/-- `DSZHiggs` with `OS = 0`; mh2l/DSZHiggs.f:4258-4363 -/
noncomputable def dszhiggsF (a : AtAs) : SOut :=
  let mt := √a.t
  let s2t := 2 * a.ct * a.st
  let c2t := a.ct ^ 2 - a.st ^ 2
  let X := (a.T1 - a.T2) * s2t / 2 / mt
  let A := X - a.mu / a.tanb
  let sb := sin (arctan a.tanb)
  let ht := √(2 / a.v2) * mt / sb
  let k := 4 * a.gs ^ 2 / (16 * π ^ 2) ^ 2
  dszElements phi a.t a.mg a.T1 a.T2 s2t c2t a.q a.mu A ht k

/-- `dszhiggs_(..., S11, S22, S12)`: order of the dummy arguments; mh2l/DSZHiggs.f:4258-4259 -/
noncomputable def dszhiggsOut (a : AtAs) : Outputs := [(dszhiggsF phi a).S11, (dszhiggsF phi a).S22, (dszhiggsF phi a).S12]

/-- `strFAab`; mh2l/DSZHiggs.f:4781-4795 -/
noncomputable def strFAab (T1 T2 s2t q : ℝ) : ℝ :=
  (8 - s2t ^ 2 * (2 - (T1 + T2) / (T1 - T2) * log (T1 / T2))) * (T1 * (1 - log (T1 / q)) - T2 * (1 - log (T2 / q)))
  + 2 * (T1 * log (T1 / q) ^ 2 - T2 * log (T2 / q) ^ 2) + 2 / (T1 - T2) * (T1 * log (T1 / q) - T2 * log (T2 / q)) ^ 2

/-- `strFAc`; mh2l/DSZHiggs.f:4800-4827 -/
noncomputable def strFAc (t mg T1 T2 s2t A q : ℝ) : ℝ :=
  let mt := √t
  let g := mg ^ 2
  let del := delF g t T1
  16 * T1 / (T1 - T2) * mg * mt * s2t - 4 * (g + t) * log (T1 / q) - 2 * mg / A * T1 * (5 - 4 * log (T1 / q))
  - 4 * mg * mt * s2t * (3 * T1 + T2) / (T1 - T2) * log (T1 / q)
  + 2 * (g + t - T1) * log (t * g / q ^ 2) * log (T1 / q) + 2 * T1 * (1 + mg / A) * log (g / q) * log (t / q)
  - 2 * mg / A * ((g - t) * log (g / t) + T1 * log (t * g / q ^ 2)) * log (T1 / q)
  + 2 * mg * mt * s2t / (T1 - T2) * (2 * (g - t) * log (g / t) + (T1 + T2) * log (t * g / q ^ 2)) * log (T1 / q)
  - (4 * t + 2 * del / g * (1 + mg / A) - 2 * mt / mg * s2t / (T1 - T2) * (2 * del + (g + t - T1) * (T1 - T2))) * phi t T1 g

/-- `strresFAc`; mh2l/DSZHiggs.f:4832-4851 -/
noncomputable def strresFAc (t mg T1 q : ℝ) : ℝ :=
  let g := mg ^ 2
  let del := delF g t T1;
  -2 * mg * T1 * (5 - 4 * log (T1 / q)) + 2 * mg * T1 * log (g / q) * log (t / q)
  - 2 * mg * ((g - t) * log (g / t) + T1 * log (t * g / q ^ 2)) * log (T1 / q) - 2 * del / mg * phi t T1 g

/-- `DSZodd`; mh2l/DSZHiggs.f:4694-4757, with `strfuncsodd` 4762-4776 -/
noncomputable def dszoddF (a : AtAs) : ℝ :=
  let mt := √a.t
  let s2t := 2 * a.ct * a.st
  let X := (a.T1 - a.T2) * s2t / 2 / mt
  let A := X - a.mu / a.tanb
  let sb := sin (arctan a.tanb)
  let cb := cos (arctan a.tanb)
  let ht := √(2 / a.v2) * mt / sb
  let k := 4 * a.gs ^ 2 / (16 * π ^ 2) ^ 2
  let FA := strFAab a.T1 a.T2 s2t a.q + strFAc phi a.t a.mg a.T1 a.T2 s2t A a.q - strFAc phi a.t a.mg a.T2 a.T1 (-s2t) A a.q
  let FA_A := strresFAc phi a.t a.mg a.T1 a.q - strresFAc phi a.t a.mg a.T2 a.q
  k * (if A ≠ 0 then ht ^ 2 * a.mu * A / (a.T1 - a.T2) / sb / cb * FA else ht ^ 2 * a.mu / (a.T1 - a.T2) / sb / cb * FA_A)
end

/-! ### Degenerate stops (C++) -/

/-- `std::pow(std::abs(x), 1.5)`.  The code has `std::pow(std::abs(del)/g2, 1.5)` in one place; `g2 = mg^4` is not negative, so that this
is the same value. -/
noncomputable def pow15 (x : ℝ) : ℝ := |x| ^ ((3 : ℝ) / 2)

section
variable (li2 : ℝ → ℝ)

/-- `phi`; mh2l/DSZHiggs.cpp:152-161 -/
noncomputable def phiC (x y z : ℝ) : ℝ :=
  let u := x / z
  let v := y / z
  let lambda := sqrtabs ((1 - u - v) ^ 2 - 4 * u * v)
  let xp := 1/2 * (1 + (u - v) - lambda)
  let xm := 1/2 * (1 - (u - v) - lambda)
  1 / lambda * (2 * logabs xp * logabs xm - logabs u * logabs v - 2 * (li2 xp + li2 xm) + π * π / 3)

/-- `dphi_010`; mh2l/DSZHiggs.cpp:164-184 (transcribed by script) -/
noncomputable def dphi010 (t T g : ℝ) : ℝ :=
  let Pi2 := π * π
  let g2 := g ^ 2
  let abbr := (-4 * t * T) / g2 + (1 - t / g - T / g) ^ 2
  let rabbr := sqrtabs abbr
  (
    ((g + t - T) * (Pi2 - 6 * (li2 ((g - rabbr * g + t - T) / (2 * g))) - 6 * (li2 ((g - rabbr * g - t + T) / (2 * g)))
    - 3 * (logabs (t / g)) * (logabs (T / g)) + 6 * (logabs ((g - rabbr * g + t - T) / (2 * g))) * (logabs ((g - rabbr
    * g - t + T) / (2 * g)))) + (3 * rabbr * g * ( rabbr * g * ((-1 + rabbr) * g + t - T) * (logabs (t / g)) + 2 * T *
    (-2 * g * (logabs 4) + (g + rabbr * g + t - T) * (logabs ((g - rabbr * g + t - T) / g)) + (g + rabbr * g + t - T)
    * (logabs ((g + rabbr * g + t - T) / g)) + g * (logabs ((g - rabbr * g - t + T) / g)) - rabbr * g * (logabs ((g -
    rabbr * g - t + T) / g)) - t * (logabs ((g - rabbr * g - t + T) / g)) + T * (logabs ((g - rabbr * g - t + T) / g))
    + g * (logabs ((g + rabbr * g - t + T) / g)) - rabbr * g * (logabs ((g + rabbr * g - t + T) / g)) - t * (logabs ((g
    + rabbr * g - t + T) / g)) + T * (logabs ((g + rabbr * g - t + T) / g))) ) ) / (T * (g - rabbr * g - t + T))) / (3
    * (pow15 abbr) * g2))

/-- `delta_mh2_2loop_at_as_st_0_mst1_eq_mst2`; mh2l/DSZHiggs.cpp:36-107 (transcribed by script) -/
noncomputable def atAsDegenerate (mt2 mg mst12 scale2 mu tanb vev2 g3 : ℝ) : Mat2 ℝ :=
  let Pi2 := π * π
  let Pi4 := π * π * π * π
  let g := mg ^ 2
  let g2 := g ^ 2
  let q := scale2
  let t := mt2
  let tsq := t ^ 2
  let T := mst12
  let Tsq := mst12 ^ 2
  let del := g2 + tsq + Tsq - 2 * (g * t + g * T + t * T)
  let rdel := sqrtabs del
  let sb := sin (arctan tanb)
  let ht2 := 2 / vev2 * mt2 / sb ^ 2
  let r01 := (
    (((g3) ^ 2) * ht2 * mg * mt2 * mu * (-1 + (logabs (t / q)) - (T * ((2 * del * (-((logabs (t / g)) / T) - (2 * (g +
    t - T + g * (sqrtabs (del / g2))) * (logabs ((g + t - T - g * (sqrtabs (del / g2))) / (2 * g)))) / (g * (sqrtabs
    (del / g2)) * (t - T + g * (-1 + (sqrtabs (del / g2))))) + (2 * (logabs ((g - t + T - g * (sqrtabs (del / g2))) /
    (2 * g)))) / (g * (sqrtabs (del / g2))) - (2 * ((g + t - T + g * (sqrtabs (del / g2))) * (logabs ((g + t - T + g *
    (sqrtabs (del / g2))) / (2 * g))) + (g - t + T - g * (sqrtabs (del / g2))) * (logabs ((g - t + T + g * (sqrtabs
    (del / g2))) / (2 * g))))) / (g * (sqrtabs (del / g2)) * (t - T + g * (-1 + (sqrtabs (del / g2))))))) / g2 + (2 *
    (g + t - T) * (Pi2 - 3 * (logabs (t / g)) * (logabs (T / g)) + 6 * (logabs ((g + t - T - g * (sqrtabs (del / g2)))
    / (2 * g))) * (logabs ((g - t + T - g * (sqrtabs (del / g2))) / (2 * g))) - 6 * (li2 ((g + t - T - g * (sqrtabs
    (del / g2))) / (2 * g))) - 6 * (li2 ((g - t + T - g * (sqrtabs (del / g2))) / (2 * g))))) / (3 * g2))) / (2 *
    (pow15 (del / g2))))) / (8 * Pi4 * T))
  let r11 := (
    (((g3) ^ 2) * ht2 * mt2 * (-2 - (8 * (g + t) * (-1 + (logabs (g / q)))) / T + 8 * (logabs (t / g)) + 6 * (-1 +
    (logabs (t / q))) + 8 * (((logabs (t / q))) ^ 2) - 4 * (logabs (T / g)) + (4 * ((g2 * T - ((t - T) ^ 2) * (2 * t +
    T) + 2 * g * t * (t + 5 * T)) * (logabs (t / g)) + 4 * g2 * T * (logabs (T / g)))) / (del * T) + 2 * (logabs (T /
    q)) - 8 * (((logabs (T / q))) ^ 2) + 5 * (logabs (Tsq / tsq)) + (((logabs (Tsq / tsq))) ^ 2) + (4 * g2 * (g + t -
    T) * (Pi2 - 6 * (li2 ((g + t - T - g * (sqrtabs (del / g2))) / (2 * g))) - 6 * (li2 ((g - t + T - g * (sqrtabs (del
    / g2))) / (2 * g))) - 3 * (logabs (t / g)) * (logabs (T / g)) + 6 * (logabs ((-rdel + g + t - T) / (2 * g))) *
    (logabs ((-rdel + g - t + T) / (2 * g))))) / (3 * (pow15 del)) + (4 * g * (g + t - T) * (Pi2 - 6 * (li2 ((g + t - T
    - g * (sqrtabs (del / g2))) / (2 * g))) - 6 * (li2 ((g - t + T - g * (sqrtabs (del / g2))) / (2 * g))) - 3 *
    (logabs (t / g)) * (logabs (T / g)) + 6 * (logabs ((g + t - T - g * (sqrtabs (del / g2))) / (2 * g))) * (logabs ((g
    - t + T - g * (sqrtabs (del / g2))) / (2 * g))))) / (3 * del * (sqrtabs (del / g2))) + (8 * mg * mu * (1 / T -
    (logabs (t / q)) / T + (g * (g + t - T) * (Pi2 - 6 * (li2 ((g + t - T - g * (sqrtabs (del / g2))) / (2 * g))) - 6 *
    (li2 ((g - t + T - g * (sqrtabs (del / g2))) / (2 * g))) - 3 * (logabs (t / g)) * (logabs (T / g)) + 6 * (logabs
    ((-rdel + g + t - T) / (2 * g))) * (logabs ((-rdel + g - t + T) / (2 * g))))) / (3 * (pow15 del)) + (g * (-((logabs
    (t / g)) / T) - (2 * (-(g * (logabs 4)) + (rdel + g + t - T) * (logabs ((-rdel + g + t - T) / g)) + (-rdel + g -
    t + T) * (logabs ((-rdel + g - t + T) / g)))) / (rdel * (rdel - g + t - T)) - 2 * (((rdel + g + t - T) * (logabs
    ((g + t - T + g * (sqrtabs (del / g2))) / (2 * g)))) / (rdel * (t - T + g * (-1 + (sqrtabs (del / g2))))) - ((rdel
    - g - t + T) * (logabs ((g - t + T + g * (sqrtabs (del / g2))) / (2 * g)))) / (rdel * (-t + T + g * (-1 + (sqrtabs
    (del / g2)))))))) / rdel)) / tanb)) / (32 * Pi4))
  ⟨0, r01, r01, r11⟩

/-- `delta_ma2_2loop_at_as_mst1_eq_mst2`; mh2l/DSZHiggs.cpp:188-215 (transcribed by script) -/
noncomputable def maAtAsDegenerate (mt2 mg mst12 mst22 sxt cxt scale2 mu tanb vev2 g3 : ℝ) : ℝ :=
  let Pi2 := π * π
  let g := mg ^ 2
  let g2 := g ^ 2
  let q := scale2
  let q2 := scale2 ^ 2
  let t := mt2
  let T := mst12
  let sb := sin (arctan tanb)
  let ht2 := 2 / vev2 * mt2 / sb ^ 2
  let At := calcAt mt2 mst12 mst22 sxt cxt mu tanb
  let result := (
    (-2 * (g * (2 * At * g + 2 * At * t - At * T + mg * T + mg * (g - t) * (logabs (g / t)) - At * T * (logabs (g / q))
    * (logabs (t / q)) - mg * T * (logabs (g / q)) * (logabs (t / q)) - 4 * mg * T * (logabs (T / q)) - 2 * At * T *
    (((logabs (T / q))) ^ 2) + (logabs ((g * t) / q2)) * (-(At * (g + t - T)) + mg * T + (At + mg) * T * (logabs (T /
    q)))) - 2 * (At + mg) * (g + t - T) * T * (phiC li2 t T g) + T * (At * (g2 + ((t - T) ^ 2) - 2 * g * T) + mg * (g2
    + ((t - T) ^ 2) - 2 * g * (t + T))) * (dphi010 li2 t T g))) / (g * T))
  let pref := 4 * g3 ^ 2 / (16 * Pi2) ^ 2 * ht2 * mu * (1 / tanb + tanb)
  pref * result
end

/-! ### Wrappers -/

/-- the externals of `delta_mh2_2loop_at_as`: the Fortran `phi` and the C++ `li2` -/
structure Ext where
  phi : ℝ → ℝ → ℝ → ℝ
  li2 : ℝ → ℝ

/-- `delta_ma2_2loop_at_as`; mh2l/DSZHiggs.cpp:231-249, with `delta_ma2_2loop_at_as_general` 217-228 -/
noncomputable def maAtAs (X : Ext) (a : AtAs) : ℝ :=
  if |(a.T1 - a.T2) / a.T1| < 1 / 10 ^ 8 then
    if |calcAt a.t a.T1 a.T2 a.st a.ct a.mu a.tanb| < 1 / 2 ^ 52 then 0
    else maAtAsDegenerate X.li2 a.t a.mg a.T1 a.T2 a.st a.ct a.q a.mu a.tanb a.v2 a.gs
  else dszoddF X.phi a

/-- `delta_mh2_2loop_at_as`; mh2l/DSZHiggs.cpp:269-291 -/
noncomputable def deltaAtAs (X : Ext) (a : AtAs) (includeHeavyHiggs : Bool) : Mat2 ℝ :=
  let result :=
    if |(a.T1 - a.T2) / a.T1| < 1 / 10 ^ 8 then atAsDegenerate X.li2 a.t a.mg a.T1 a.q a.mu a.tanb a.v2 a.gs
    else storeDiagFirst (dszhiggsOut X.phi a)
  let dMA := if includeHeavyHiggs then maAtAs X a else 0
  madd result (rotateBy dMA a.tanb)

/-- `delta_mh2_2loop_ab_as`; mh2l/DSZHiggs.cpp:321-334.  The field `tanb` of the argument holds `cotb`. -/
noncomputable def deltaAbAs (X : Ext) (a : AtAs) (includeHeavyHiggs : Bool) : Mat2 ℝ :=
  let r := deltaAtAs X a includeHeavyHiggs
  ⟨r.m11, r.m01, r.m10, r.m00⟩

/-- the Fortran routines `ddshiggs_` and `ddsodd_` after their guards, for fixed values of the arguments they do not change -/
structure DDS where
  even : Sq → SOut
  odd : Sq → ℝ

/-- `ddshiggs_(..., S11, S12, S22, atat)`: order of the dummy arguments; mh2l/DSZHiggs.f:31-32 -/
noncomputable def ddshiggsOut (D : DDS) (a : Sq) : Outputs :=
  [(D.even (guards a)).S11, (D.even (guards a)).S12, (D.even (guards a)).S22]

/-- `delta_mh2_2loop_at_at`; mh2l/DSZHiggs.cpp:293-319, with `delta_ma2_2loop_at_at` 251-267.  `ddshiggs_` has changed the arguments
(they are passed by reference) before they are given to `delta_ma2_2loop_at_at`, and `ddsodd_` applies the guards again. -/
noncomputable def deltaAtAt (D : DDS) (a : Sq) (tanb : ℝ) (includeHeavyHiggs : Bool) : Mat2 ℝ :=
  let result := storeRowFirst (ddshiggsOut D a)
  let dMA := if includeHeavyHiggs then D.odd (guards (guards a)) else 0
  madd result (rotateBy dMA tanb)

/-- `tausqhiggs_(..., S11, S22, S12)`: order of the dummy arguments; mh2l/DSZHiggs.f:5725-5726 -/
def tausqOut (S : SOut) : Outputs := [S.S11, S.S22, S.S12]

/-- `delta_mh2_2loop_atau_atau`; mh2l/DSZHiggs.cpp:349-371, with `delta_ma2_2loop_atau_atau` 336-347.  `S` and `dma` are the results of
`tausqhiggs_` and `tausqodd_` for the given arguments. -/
noncomputable def deltaAtau (S : SOut) (dma tanb : ℝ) (includeHeavyHiggs : Bool) : Mat2 ℝ :=
  let result := storeDiagFirst (tausqOut S)
  let dMA := if includeHeavyHiggs then dma else 0
  madd result (rotateBy dMA tanb)

end Himalaya.TwoLoop
