import Verif.Calc.Api

/-!
# The Mathematica interface

Models source/himalaya/LibraryLink/Himalaya_LibraryLink.cpp and the argument list built by
source/himalaya/LibraryLink/Himalaya_LibraryLink.m.  The text of messages is kept only where it matters; the transport of the link
(`MLPutReal`, `MLGetReal64`) is taken as loss free.
-/

namespace Himalaya.Link

open FOps
open scoped Himalaya

/-- The options of `HimalayaCalculateDMh3L[...]` after `HimalayaNumericQ` (`bottom` and `verbose` after `Boole`);
Himalaya_LibraryLink.m:172-217.  The option `M3` is the field `MG` of the C++ structure. -/
structure MInput (F : Type) where
  bottom : F
  loopOrder : F
  verbose : F
  scale : F
  mu : F
  g1 : F
  g2 : F
  g3 : F
  vd : F
  vu : F
  mq2 : Mat3 F
  md2 : Mat3 F
  mu2 : Mat3 F
  ml2 : Mat3 F
  me2 : Mat3 F
  Au : Mat3 F
  Ad : Mat3 F
  Ae : Mat3 F
  Yu : Mat3 F
  Yd : Mat3 F
  Ye : Mat3 F
  MA : F
  M1 : F
  M2 : F
  M3 : F
  MW : F
  MZ : F
  Mt : F
  Mb : F
  Mtau : F
  MSt : Vec2 F
  MSb : Vec2 F
  MStau : Vec2 F
  s2t : F
  s2b : F
  s2tau : F

section
variable {F : Type}

/-- The list handed to the library function; Himalaya_LibraryLink.m:227-369 (`[[i,j]]` counts from 1). -/
def encode (o : MInput F) : List F := [
  o.bottom, o.loopOrder, o.verbose,
  o.scale, o.mu, o.g1, o.g2, o.g3, o.vd, o.vu,
  o.mq2 0 0, o.mq2 0 1, o.mq2 0 2, o.mq2 1 0, o.mq2 1 1, o.mq2 1 2, o.mq2 2 0, o.mq2 2 1, o.mq2 2 2,
  o.md2 0 0, o.md2 0 1, o.md2 0 2, o.md2 1 0, o.md2 1 1, o.md2 1 2, o.md2 2 0, o.md2 2 1, o.md2 2 2,
  o.mu2 0 0, o.mu2 0 1, o.mu2 0 2, o.mu2 1 0, o.mu2 1 1, o.mu2 1 2, o.mu2 2 0, o.mu2 2 1, o.mu2 2 2,
  o.ml2 0 0, o.ml2 0 1, o.ml2 0 2, o.ml2 1 0, o.ml2 1 1, o.ml2 1 2, o.ml2 2 0, o.ml2 2 1, o.ml2 2 2,
  o.me2 0 0, o.me2 0 1, o.me2 0 2, o.me2 1 0, o.me2 1 1, o.me2 1 2, o.me2 2 0, o.me2 2 1, o.me2 2 2,
  o.Au 0 0, o.Au 0 1, o.Au 0 2, o.Au 1 0, o.Au 1 1, o.Au 1 2, o.Au 2 0, o.Au 2 1, o.Au 2 2,
  o.Ad 0 0, o.Ad 0 1, o.Ad 0 2, o.Ad 1 0, o.Ad 1 1, o.Ad 1 2, o.Ad 2 0, o.Ad 2 1, o.Ad 2 2,
  o.Ae 0 0, o.Ae 0 1, o.Ae 0 2, o.Ae 1 0, o.Ae 1 1, o.Ae 1 2, o.Ae 2 0, o.Ae 2 1, o.Ae 2 2,
  o.Yu 0 0, o.Yu 0 1, o.Yu 0 2, o.Yu 1 0, o.Yu 1 1, o.Yu 1 2, o.Yu 2 0, o.Yu 2 1, o.Yu 2 2,
  o.Yd 0 0, o.Yd 0 1, o.Yd 0 2, o.Yd 1 0, o.Yd 1 1, o.Yd 1 2, o.Yd 2 0, o.Yd 2 1, o.Yd 2 2,
  o.Ye 0 0, o.Ye 0 1, o.Ye 0 2, o.Ye 1 0, o.Ye 1 1, o.Ye 1 2, o.Ye 2 0, o.Ye 2 1, o.Ye 2 2,
  o.MA, o.M1, o.M2, o.M3, o.MW, o.MZ, o.Mt, o.Mb, o.Mtau,
  o.MSt.x0, o.MSt.x1, o.MSb.x0, o.MSb.x1, o.MStau.x0, o.MStau.x1,
  o.s2t, o.s2b, o.s2tau]

/-- reading with the running counter `c` -/
abbrev Reader := StateT Nat (Except String)

/-- `parsvec.at(c++)` -/
def next (v : List F) : Reader F := fun c =>
  match v[c]? with
  | some x => .ok (x, c + 1)
  | none => .error "vector::_M_range_check"

/-- `for (int i = 0; i < 3; i++) for (int k = 0; k < 3; k++) m(i,k) = parsvec.at(c++)` -/
def nextMat (v : List F) : Reader (Mat3 F) := do
  let m00 ← next v
  let m01 ← next v
  let m02 ← next v
  let m10 ← next v
  let m11 ← next v
  let m12 ← next v
  let m20 ← next v
  let m21 ← next v
  let m22 ← next v
  return fun i k => match i, k with
    | 0, 0 => m00
    | 0, 1 => m01
    | 0, 2 => m02
    | 1, 0 => m10
    | 1, 1 => m11
    | 1, 2 => m12
    | 2, 0 => m20
    | 2, 1 => m21
    | 2, 2 => m22

variable [FOps F]

/-- `Data`; Himalaya_LibraryLink.cpp:237-242 -/
structure Data (F : Type) where
  pars : Params F
  bottom : Bool
  loopOrder : Int
  verbose : Bool

/-- conversion `double` to `bool`: true unless the value is zero -/
def toBool (x : F) : Bool := !(le x (lit 0) && le (lit 0) x)

/-- default member initialisers of `Parameters`; include/himalaya/Himalaya_interface.hpp:34-75 -/
def initialPars (nan : F) : Params F :=
  let z : F := lit 0
  let z3 : Mat3 F := fun _ _ => z
  { scale := z, mu := z, g1 := z, g2 := z, g3 := z, vd := z, vu := z,
    mq2 := z3, md2 := z3, mu2 := z3, ml2 := z3, me2 := z3, Au := z3, Ad := z3, Ae := z3, Yu := z3, Yd := z3, Ye := z3,
    M1 := z, M2 := z, MG := z, MW := nan, MZ := nan, Mt := nan, Mb := nan, Mtau := nan, MA := z,
    MSt := ⟨nan, nan⟩, MSb := ⟨nan, nan⟩, MStau := ⟨nan, nan⟩, s2t := nan, s2b := nan, s2tau := nan,
    theta_t := nan, theta_b := nan, theta_tau := nan, massLimit3LThreshold := 0 }

/-- `v.minCoeff()` (of numbers; the treatment of NaN by Eigen is not specified) -/
def minCoeff (v : Vec2 F) : F := if lt v.x1 v.x0 then v.x1 else v.x0

/-- the optional masses and mixings; Himalaya_LibraryLink.cpp:314-344 -/
def optionalInput (pars : Params F) (MW MZ Mt Mb Mtau : F) (MSt MSb MStau : Vec2 F) (s2t s2b s2tau : F) : Params F :=
  let pars := if lt (lit 0) MW then { pars with MW := MW } else pars
  let pars := if lt (lit 0) MZ then { pars with MZ := MZ } else pars
  let pars := if lt (lit 0) Mt then { pars with Mt := Mt } else pars
  let pars := if lt (lit 0) Mb then { pars with Mb := Mb } else pars
  let pars := if lt (lit 0) Mtau then { pars with Mtau := Mtau } else pars
  let pars := if lt (lit 0) (minCoeff MSt) && le (abs s2t) (lit 1) then { pars with MSt := MSt, s2t := s2t } else pars
  let pars := if lt (lit 0) (minCoeff MSb) && le (abs s2b) (lit 1) then { pars with MSb := MSb, s2b := s2b } else pars
  let pars := if lt (lit 0) (minCoeff MStau) && le (abs s2tau) (lit 1) then { pars with MStau := MStau, s2tau := s2tau } else pars
  pars

/-- External parts of `make_data`: `validate` and the conversion `double` to `int`. -/
structure Conv (F : Type) where
  nan : F
  toInt : F → Int
  validate : Params F → Except String Unit × Params F

/-- `make_data` after the check of the length; Himalaya_LibraryLink.cpp:256-356 -/
def readData (X : Conv F) (v : List F) : Reader (Data F) := do
  let bottom ← next v
  let loopOrder ← next v
  let verbose ← next v

  let scale ← next v
  let mu ← next v
  let g1 ← next v
  let g2 ← next v
  let g3 ← next v
  let vd ← next v
  let vu ← next v
  let mq2 ← nextMat v
  let md2 ← nextMat v
  let mu2 ← nextMat v
  let ml2 ← nextMat v
  let me2 ← nextMat v
  let Au ← nextMat v
  let Ad ← nextMat v
  let Ae ← nextMat v
  let Yu ← nextMat v
  let Yd ← nextMat v
  let Ye ← nextMat v
  let MA ← next v
  let M1 ← next v
  let M2 ← next v
  let MG ← next v
  let MW ← next v
  let MZ ← next v
  let Mt ← next v
  let Mb ← next v
  let Mtau ← next v
  let MSt0 ← next v
  let MSt1 ← next v
  let MSb0 ← next v
  let MSb1 ← next v
  let MStau0 ← next v
  let MStau1 ← next v
  let s2t ← next v
  let s2b ← next v
  let s2tau ← next v
  let pars : Params F := { initialPars X.nan with
    scale := scale, mu := mu, g1 := g1, g2 := g2, g3 := g3, vd := vd, vu := vu,
    mq2 := mq2, md2 := md2, mu2 := mu2, ml2 := ml2, me2 := me2,
    Au := Au, Ad := Ad, Ae := Ae, Yu := Yu, Yd := Yd, Ye := Ye,
    MA := MA, M1 := M1, M2 := M2, MG := MG }
  let pars := optionalInput pars MW MZ Mt Mb Mtau ⟨MSt0, MSt1⟩ ⟨MSb0, MSb1⟩ ⟨MStau0, MStau1⟩ s2t s2b s2tau
  match X.validate pars with
  | (.error e, _) => throw e
  | (.ok (), pars) =>
    let c ← get
    if c ≠ 127 then throw "Bug: Expecting to read 127 input parameters"
    else return ⟨pars, toBool bottom, X.toInt loopOrder, toBool verbose⟩

/-- `make_data`; Himalaya_LibraryLink.cpp:246-357 -/
def makeData (X : Conv F) (v : List F) : Except String (Data F) :=
  if v.length ≠ 127 then .error s!"HimalayaCalculateDMh3L expects 127, but {v.length} given!"
  else match readData X v 0 with
    | .ok (d, _) => .ok d
    | .error e => .error e

end

/-! ### Results -/

/-- `Results`; Himalaya_LibraryLink.cpp:361-368 -/
structure Results (F : Type) where
  ho : HObj F
  eft : F × F × F × F
  fo : F × F × F × F
  foDom : F × F × F × F

section
variable {F : Type} [Add F] [Sub F] [Mul F] [Div F] [Neg F] [FOps F]

/-- `calculate_results`; Himalaya_LibraryLink.cpp:372-424.  `X` validates again in the constructor of `HierarchyCalculator`. -/
def calculateResults (X : Ext F) (E : Env F) (d : Data F) : Except String (Results F) :=
  if d.loopOrder > 2 then do
    let c ← Calculator.mk' X d.pars
    let ho ← (Himalaya.calculateDMh3L E c.p d.bottom ⟨c.depth, HObj.new d.bottom⟩).1
    let e0 ← ho.getDMh2EFTAt 0
    let e1 ← ho.getDMh2EFTAt 1
    let e2 ← ho.getDMh2EFTAt 2
    let e3 ← ho.getDMh2EFTAt 3
    let f0 ← ho.getDMh2FO 0
    let f1 ← ho.getDMh2FO 1
    let f2 ← ho.getDMh2FO 2
    let f3 ← ho.getDMh2FO 3
    let a0 ← ho.getDMh2FOAt 0
    let a1 ← ho.getDMh2FOAt 1
    let a2 ← ho.getDMh2FOAt 2
    let a3 ← ho.getDMh2FOAt 3
    return ⟨ho, (e0, e1, e2, e3), (f0, f1, f2, f3), (a0, a1, a2, a3)⟩
  else do
    let eft ← E.eftFull d.pars
    let e0 := eft.loop0
    let e1 := eft.loop1 1 1
    let e2 := eft.loop2 1 1
    let fo ← E.fo d.pars false
    let fd ← E.fo d.pars true
    return ⟨HObj.new false, (e0, e1, e2, lit 0), (fo.1, fo.2.1, fo.2.2, lit 0), (fd.1, fd.2.1, fd.2.2, lit 0)⟩

/-- values on the right-hand side of a rule -/
inductive Val (F : Type) where
  | int (i : Int)
  | sym (s : String)
  | vec (l : List F)
  | mats (l : List (Mat2 F))

/-- What is put on the link: a list header with the number of elements, and rules `name -> value`. -/
structure Reply (F : Type) where
  announced : Nat
  rules : List (String × Val F)

/-- `put_result`; Himalaya_LibraryLink.cpp:428-504 -/
def putResult (r : Results F) : Except String (Reply F) := do
  let ho := r.ho
  let hierarchy := ho.getSuitableHierarchy
  let msf := if ho.getIsAlphab then "MsbottomMDRPrime" else "MstopMDRPrime"
  let u1 ← ho.getDMhExpUncertainty 1
  let u2 ← ho.getDMhExpUncertainty 2
  let u3 ← ho.getDMhExpUncertainty 3
  let l0 ← ho.getDLambda 0
  let l1 ← ho.getDLambda 1
  let l2 ← ho.getDLambda 2
  let l3 ← ho.getDLambda 3
  let lu ← ho.getDLambdaUncertainty 3
  let s0 ← ho.getDLambdaShift 0
  let s1 ← ho.getDLambdaShift 1
  let s2 ← ho.getDLambdaShift 2
  let s3 ← ho.getDLambdaShift 3
  let m0 ← ho.getDMh 0
  let m1 ← ho.getDMh 1
  let m2 ← ho.getDMh 2
  let m3 ← ho.getDMh 3
  let z := Mat2.const (lit 0 : F)
  return ⟨13, [
    ("hierarchyID", .int hierarchy),
    ("hierarchyName", .sym (h3mHierarchyNotation hierarchy)),
    (msf, .vec [ho.getMDRMasses.x0, ho.getMDRMasses.x1]),
    ("Mh2", .mats [m0, m1, m2, m3]),
    ("Mh2ShiftDRbarPrimeToMDRPrime", .mats [z, z, z, ho.getMDRShift]),
    ("Mh2ShiftDRbarPrimeToH3m", .mats [z, z, z, ho.getH3mShift]),
    ("expansionUncertainty", .vec [lit 0, u1, u2, u3]),
    ("Mh2EFTAt", .vec [r.eft.1, r.eft.2.1, r.eft.2.2.1, r.eft.2.2.2]),
    ("Mh2FO", .vec [r.fo.1, r.fo.2.1, r.fo.2.2.1, r.fo.2.2.2]),
    ("Mh2FOAt", .vec [r.foDom.1, r.foDom.2.1, r.foDom.2.2.1, r.foDom.2.2.2]),
    ("lambda", .vec [l0, l1, l2, l3]),
    ("lambdaUncertainty", .vec [lit 0, lit 0, lit 0, lu]),
    ("lambdaShiftDRbarPrimeToMSbar", .vec [s0, s1, s2, s3])]⟩

end

end Himalaya.Link
