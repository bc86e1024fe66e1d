import Verif.Base.Params

/-!
# Model of source/himalaya/Himalaya_interface.cpp

`double` is an arbitrary scalar type `F`.  The Eigen decompositions are external functions (`Ext`).  Messages
printed when `verbose` is set are not modelled.  `validate` returns the outcome together with the object as it
is left behind (also when it throws).
-/

namespace Himalaya

open FOps
open scoped Himalaya

/-- External numerical routines used by `validate`. -/
structure Ext (F : Type) where
  /-- `Eigen::JacobiSVD<RM33>(M).singularValues()`, in the order Eigen returns them (descending) -/
  svd : Mat3 F → Fin 3 → F
  /-- `Eigen::SelfAdjointEigenSolver<RM22>(M)`: eigenvalues -/
  eigVal : Mat2 F → Vec2 F
  /-- `Eigen::SelfAdjointEigenSolver<RM22>(M)`: matrix whose columns are the eigenvectors -/
  eigVec : Mat2 F → Mat2 F

section
variable {F : Type} [Add F] [Sub F] [Mul F] [Div F] [Neg F] [FOps F]

/-- `pow2`; source/himalaya/misc/Powers.hpp:13 -/
def pow2 (x : F) : F := x * x

/-- `Pi`; source/himalaya/misc/Constants.hpp:13 -/
def cPi : F := const .pi
/-- `inv_sqrt2`; source/himalaya/misc/Constants.hpp:21 -/
def cInvSqrt2 : F := const .invSqrt2

/-- `sign(x)` times a number: Himalaya_interface.cpp:34-37 used at line 103 as a factor `+1` or `-1`. -/
def signMul (x y : F) : F := if le 0 x then y else -y

/-- `sign(x) == sign(y)`; Himalaya_interface.cpp:34-37, 95 -/
def sameSign (x y : F) : Bool := le 0 x == le 0 y

/-- `calc_cw2`; Himalaya_interface.cpp:39-43 -/
def calc_cw2 (mW mZ : F) : F :=
  let cw2 := pow2 (mW / mZ)
  if isFinite cw2 then cw2 else 1

/-- `calc_sw2`; Himalaya_interface.cpp:45-48 -/
def calc_sw2 (mW mZ : F) : F := 1 - calc_cw2 mW mZ

/-- `calc_v2`; Himalaya_interface.cpp:50-53 -/
def calc_v2 (vu vd : F) : F := pow2 vu + pow2 vd

/-- `calc_cos2beta`; Himalaya_interface.cpp:55-58 -/
def calc_cos2beta (vu vd : F) : F := (pow2 vd - pow2 vu) / calc_v2 vu vd

/-- masses, theta, sin(2 theta) of a sfermion family -/
structure Sf (F : Type) where
  ev : Vec2 F
  theta : F
  s2 : F

/-- `sort_ev` (three arguments); Himalaya_interface.cpp:61-68 -/
def sort_ev (s : Sf F) : Sf F :=
  if lt s.ev.x1 s.ev.x0 then
    { ev := ⟨s.ev.x1, s.ev.x0⟩, theta := s.theta + lit (1/2) * cPi, s2 := s.s2 * (-1) }
  else s

/-- `calculate_MSf_s2f`; Himalaya_interface.cpp:78-108.  The swap of the eigenvector columns (line 99) has no
further effect and is omitted. -/
def calculate_MSf_s2f (X : Ext F) (M : Mat2 F) : Except String (Sf F) :=
  let ev := X.eigVec M
  let ew := X.eigVal M
  -- ew.minCoeff() < 0.
  if lt (if lt ew.x1 ew.x0 then ew.x1 else ew.x0) 0 then
    .error "DR sfermion masses are tachyonic"
  else
    let ew : Vec2 F := ⟨sqrt ew.x0, sqrt ew.x1⟩
    let (theta, ew) :=
      if sameSign ev.m00 ev.m11 then (acos (abs ev.m00), ew)
      else (acos (abs ev.m01), (⟨ew.x1, ew.x0⟩ : Vec2 F))
    let theta := signMul (M.m01 / (M.m00 - M.m11)) (abs theta)
    let r := sort_ev { ev := ew, theta := theta, s2 := 0 }
    .ok { ev := r.ev, theta := r.theta, s2 := sin (2 * r.theta) }

/-- `calc_theta`; Himalaya_interface.cpp:112-119.  Returns the new `(theta, s2t)`. -/
def calc_theta (theta s2t : F) : F × F :=
  if !isNaN theta && isNaN s2t then (theta, sin (2 * theta))
  else if isNaN theta && !isNaN s2t then (lit (1/2) * asin s2t, s2t)
  else (theta, s2t)

/-- `h_svd`; Himalaya_interface.cpp:121-125 -/
def h_svd (X : Ext F) (M : Mat3 F) : Mat3 F := fun i j => if i = j then X.svd M (2 - i) else 0

/-- `Parameters::calculateMsq2`; Himalaya_interface.cpp:129-143 -/
def calculateMsq2 (p : Params F) : F :=
  let cos_2beta := calc_cos2beta p.vu p.vd
  let sw2 := calc_sw2 p.MW p.MZ
  pow01 (p.mq2 0 0 * p.mu2 0 0 * p.mq2 0 0 * p.md2 0 0 * p.mq2 1 1 * p.mu2 1 1 * p.mq2 1 1 * p.md2 1 1
    * (p.mq2 2 2 + pow2 p.Mb - (lit (1/2) - sw2 / 3) * pow2 p.MZ * cos_2beta)
    * (p.md2 2 2 + pow2 p.Mb - sw2 / 3 * pow2 p.MZ * cos_2beta))

/-- `Eigen::Matrix3d::minCoeff()`, as a left fold in storage order.  (Eigen may combine the coefficients in a
different order; the result can differ only if an entry is NaN.) -/
def minCoeff (m : Mat3 F) : F :=
  let mn (a b : F) : F := if lt b a then b else a
  mn (mn (mn (mn (mn (mn (mn (mn (m 0 0) (m 1 0)) (m 2 0)) (m 0 1)) (m 1 1)) (m 2 1)) (m 0 2)) (m 1 2)) (m 2 2)

/-- condition of lines 155-156 of Himalaya_interface.cpp -/
def softMassesNegative (p : Params F) : Bool :=
  lt (minCoeff p.mq2) 0 || lt (minCoeff p.md2) 0 || lt (minCoeff p.mu2) 0 ||
  lt (minCoeff p.ml2) 0 || lt (minCoeff p.me2) 0

/-- Himalaya_interface.cpp:187-201: SM masses that are NaN are computed. -/
def fillSMMasses (p : Params F) : Params F :=
  { p with
    MW := if isNaN p.MW then lit (1/2) * p.g2 * sqrt (calc_v2 p.vu p.vd) else p.MW
    MZ := if isNaN p.MZ then
        lit (1/2) * sqrt ((lit (6/10) * pow2 p.g1 + pow2 p.g2) * calc_v2 p.vu p.vd) else p.MZ
    Mt := if isNaN p.Mt then cInvSqrt2 * p.Yu 2 2 * p.vu else p.Mt
    Mb := if isNaN p.Mb then cInvSqrt2 * p.Yd 2 2 * p.vd else p.Mb
    Mtau := if isNaN p.Mtau then cInvSqrt2 * p.Ye 2 2 * p.vd else p.Mtau }

/-- Himalaya_interface.cpp:204-206 -/
def fillThetas (p : Params F) : Params F :=
  { p with
    theta_t := (calc_theta p.theta_t p.s2t).1, s2t := (calc_theta p.theta_t p.s2t).2
    theta_b := (calc_theta p.theta_b p.s2b).1, s2b := (calc_theta p.theta_b p.s2b).2
    theta_tau := (calc_theta p.theta_tau p.s2tau).1, s2tau := (calc_theta p.theta_tau p.s2tau).2 }

/-- stop mass matrix; Himalaya_interface.cpp:210-216 -/
def stopMatrix (p : Params F) : Mat2 F :=
  let tan_beta := p.vu / p.vd
  let cos_2beta := calc_cos2beta p.vu p.vd
  let Xt := p.Mt * (p.Au 2 2 - p.mu / tan_beta)
  let sw2 := calc_sw2 p.MW p.MZ
  ⟨p.mq2 2 2 + pow2 p.Mt + (lit (1/2) - 2 * sw2 / 3) * pow2 p.MZ * cos_2beta, Xt,
   Xt, p.mu2 2 2 + pow2 p.Mt + 2 * sw2 / 3 * pow2 p.MZ * cos_2beta⟩

/-- sbottom mass matrix; Himalaya_interface.cpp:228-234 -/
def sbottomMatrix (p : Params F) : Mat2 F :=
  let tan_beta := p.vu / p.vd
  let cos_2beta := calc_cos2beta p.vu p.vd
  let Xb := p.Mb * (p.Ad 2 2 - p.mu * tan_beta)
  let sw2 := calc_sw2 p.MW p.MZ
  ⟨p.mq2 2 2 + pow2 p.Mb - (lit (1/2) - sw2 / 3) * pow2 p.MZ * cos_2beta, Xb,
   Xb, p.md2 2 2 + pow2 p.Mb - sw2 / 3 * pow2 p.MZ * cos_2beta⟩

/-- stau mass matrix; Himalaya_interface.cpp:246-252 -/
def stauMatrix (p : Params F) : Mat2 F :=
  let tan_beta := p.vu / p.vd
  let cos_2beta := calc_cos2beta p.vu p.vd
  let Xtau := p.Mtau * (p.Ae 2 2 - p.mu * tan_beta)
  let sw2 := calc_sw2 p.MW p.MZ
  ⟨p.ml2 2 2 + pow2 p.Mtau - (lit (1/2) - sw2) * pow2 p.MZ * cos_2beta, Xtau,
   Xtau, p.me2 2 2 + pow2 p.Mtau - sw2 * pow2 p.MZ * cos_2beta⟩

/-- the stop sector of a parameter point -/
def Params.stops (p : Params F) : Sf F := ⟨p.MSt, p.theta_t, p.s2t⟩
/-- the sbottom sector of a parameter point -/
def Params.sbottoms (p : Params F) : Sf F := ⟨p.MSb, p.theta_b, p.s2b⟩
/-- the stau sector of a parameter point -/
def Params.staus (p : Params F) : Sf F := ⟨p.MStau, p.theta_tau, p.s2tau⟩
/-- replaces the stop sector -/
def Params.withStops (p : Params F) (s : Sf F) : Params F := { p with MSt := s.ev, theta_t := s.theta, s2t := s.s2 }
/-- replaces the sbottom sector -/
def Params.withSbottoms (p : Params F) (s : Sf F) : Params F := { p with MSb := s.ev, theta_b := s.theta, s2b := s.s2 }
/-- replaces the stau sector -/
def Params.withStaus (p : Params F) (s : Sf F) : Params F :=
  { p with MStau := s.ev, theta_tau := s.theta, s2tau := s.s2 }

/-- some entry is missing; conditions of lines 209, 227, 245 -/
def Sf.incomplete (s : Sf F) : Bool := isNaN s.ev.x0 || isNaN s.ev.x1 || isNaN s.s2 || isNaN s.theta

/-- one of the three blocks lines 209-225, 227-243, 245-261 -/
def fillSf (X : Ext F) (s : Sf F) (M : Mat2 F) : Except String (Sf F) :=
  if s.incomplete then calculate_MSf_s2f X M else .ok s

/-- `eps`; Himalaya_interface.cpp:272 -/
def degEps : F := lit (1 / 10^8)

/-- Himalaya_interface.cpp:274-276 -/
def shiftStops (v : Vec2 F) : Vec2 F :=
  if lt (abs (v.x0 - v.x1)) degEps then ⟨v.x1 / (1 + degEps), v.x1⟩ else v
/-- Himalaya_interface.cpp:278-280 (note: divides `MSb(0)` itself) -/
def shiftSbottoms (v : Vec2 F) : Vec2 F :=
  if lt (abs (v.x0 - v.x1)) degEps then ⟨v.x0 / (1 + degEps), v.x1⟩ else v
/-- Himalaya_interface.cpp:282-284 -/
def shiftMq2 (mq2 mu2 : Mat3 F) : Mat3 F :=
  if lt (abs (mq2 2 2 - mu2 2 2)) degEps then mq2.set22 (mu2 2 2 / (1 + degEps)) else mq2

/-- lines 263-284: sorting and degeneracy shifts -/
def sortAndShift (p : Params F) : Params F :=
  let p := p.withStops (sort_ev p.stops)
  let p := p.withSbottoms (sort_ev p.sbottoms)
  let p := p.withStaus (sort_ev p.staus)
  { p with MSt := shiftStops p.MSt, MSb := shiftSbottoms p.MSb, mq2 := shiftMq2 p.mq2 p.mu2 }

/-- Himalaya_interface.cpp:170-206 without the checks of `vu` and `vd` (which do not depend on it): gluino mass,
Yukawa matrices, SM masses, mixing angles. -/
def prep (X : Ext F) (p : Params F) : Params F :=
  fillThetas (fillSMMasses
    { p with MG := abs p.MG, Yu := h_svd X p.Yu, Yd := h_svd X p.Yd, Ye := h_svd X p.Ye })

/-- Himalaya_interface.cpp:208-284 -/
def computeSfermions (X : Ext F) (p : Params F) : Except String Unit × Params F :=
  match fillSf X p.stops (stopMatrix p) with
  | .error e => (.error e, p)
  | .ok st =>
    let p := p.withStops st
    match fillSf X p.sbottoms (sbottomMatrix p) with
    | .error e => (.error e, p)
    | .ok sb =>
      let p := p.withSbottoms sb
      match fillSf X p.staus (stauMatrix p) with
      | .error e => (.error e, p)
      | .ok stau => (.ok (), sortAndShift (p.withStaus stau))

/-- `Parameters::validate`; Himalaya_interface.cpp:152-285. -/
def validate (X : Ext F) (p : Params F) : Except String Unit × Params F :=
  if softMassesNegative p then
    (.error "Soft-breaking squared sfermion mass parameters must be greater than zero!", p)
  else if lt p.MG 0 then (.error "Gluino mass parameter must not be negative!", p)
  else if isNaN p.vu || le p.vu 0 then
    (.error "Invalid value of vu given!",
      { p with MG := abs p.MG, Yu := h_svd X p.Yu, Yd := h_svd X p.Yd, Ye := h_svd X p.Ye })
  else if isNaN p.vd || le p.vd 0 then
    (.error "Invalid value of vd given!",
      { p with MG := abs p.MG, Yu := h_svd X p.Yu, Yd := h_svd X p.Yd, Ye := h_svd X p.Ye })
  else computeSfermions X (prep X p)

end
end Himalaya
