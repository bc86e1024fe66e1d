import Verif.Calc.Props6

/-!
# The interfaces of the fourteen hierarchy classes

What `HierarchyCalculator::calculateHierarchy` passes to each class and which truncation flags the constructor of each
class reads.  The polynomials behind `getS1`, `getS2`, `getS12` are an arbitrary function of the stored members here
(`Impl`); the formulas are in `Verif.Hier.<Class>`, and `Verif.Hier.Ctor` defines the `Impl` they give.
-/

set_option linter.unusedSimpArgs false
set_option linter.unusedVariables false

namespace Himalaya

open CalcM
open scoped Himalaya Himalaya.FOps

/-- Names of the floating-point parameters of the hierarchy classes' constructors. -/
inductive HParam where
  | Al4p | At | beta | Dmglst1 | Dmglst2 | Dmst12 | Dmsqst1 | Dmsqst2 | lmMt | lmMst1 | lmMst2 | lmMsq | lmMgl | lmMsusy
  | Mgl | Mt | Mst1 | Mst2 | Msq | Msusy | MuSUSY | s2t
deriving DecidableEq, Repr

open HParam in
/-- The declared constructor parameter lists, between `expansionDepth` and `mdrFlag`:
hierarchies/H3.hpp:39-42, H32q2g.hpp:37-40, H3q22g.hpp:38-41, H4.hpp:33-34, H5.hpp:38-41, H5g1.hpp:39-42, H6.hpp:38-41,
H6b.hpp:37-40, H6b2qg2.hpp:38-41, H6bq22g.hpp:38-41, H6bq2g2.hpp:39-42, H6g2.hpp:39-42, H9.hpp:38-41, H9q2.hpp:39-42. -/
def ctorParams : Int → Option (List HParam)
  | 0 => some [Al4p, beta, Dmglst1, Dmst12, Dmsqst1, lmMt, lmMst1, Mgl, Mt, Mst1, Mst2, Msq, MuSUSY, s2t]
  | 1 => some [Al4p, beta, Dmglst1, Dmst12, Dmsqst1, lmMt, lmMst1, Mt, Mst1, Mst2, MuSUSY, s2t]
  | 2 => some [Al4p, beta, Dmglst1, Dmst12, Dmsqst1, lmMt, lmMst1, Mt, Mst1, Mst2, Msq, MuSUSY, s2t]
  | 3 => some [Al4p, At, beta, lmMt, lmMsq, lmMsusy, Mt, Msusy, Msq]
  | 4 => some [Al4p, beta, Dmglst1, lmMt, lmMst1, lmMst2, lmMsq, Mt, Mst1, Mst2, Msq, MuSUSY, s2t]
  | 5 => some [Al4p, beta, Dmglst1, lmMt, lmMst1, lmMst2, lmMsq, Mgl, Mt, Mst1, Mst2, Msq, MuSUSY, s2t]
  | 6 => some [Al4p, beta, Dmglst2, lmMt, lmMst1, lmMst2, lmMsq, Mt, Mst1, Mst2, Msq, MuSUSY, s2t]
  | 7 => some [Al4p, beta, Dmglst2, Dmsqst2, lmMt, lmMst1, lmMst2, Mt, Mst1, Mst2, MuSUSY, s2t]
  | 8 => some [Al4p, beta, Dmglst2, Dmsqst2, lmMt, lmMst1, lmMst2, Mgl, Mt, Mst1, Mst2, MuSUSY, s2t]
  | 9 => some [Al4p, beta, Dmglst2, Dmsqst2, lmMt, lmMst1, lmMst2, Mt, Mst1, Mst2, Msq, MuSUSY, s2t]
  | 10 => some [Al4p, beta, Dmglst2, Dmsqst2, lmMt, lmMst1, lmMst2, Mgl, Mt, Mst1, Mst2, Msq, MuSUSY, s2t]
  | 11 => some [Al4p, beta, Dmglst2, lmMt, lmMst1, lmMst2, lmMsq, Mgl, Mt, Mst1, Mst2, Msq, MuSUSY, s2t]
  | 12 => some [Al4p, beta, Dmst12, Dmsqst1, lmMt, lmMgl, lmMst1, Mgl, Mt, Mst1, Mst2, MuSUSY, s2t]
  | 13 => some [Al4p, beta, Dmst12, Dmsqst1, lmMt, lmMgl, lmMst1, Mgl, Mt, Mst1, Mst2, Msq, MuSUSY, s2t]
  | _ => none

/-- The members `x<Name>` of each class and the flag the constructor initialises it from.  First component: the member,
named by the flag of the same name (`x` of H9 and H9q2 is the three-loop flag); second component: the flag that is read.
H3.cpp:67-69, H32q2g.cpp:64-66, H3q22g.cpp:66-68, H4.cpp:56-59, H5.cpp:67-68, H5g1.cpp:69-70, H6.cpp:67-69, H6b.cpp:65-67,
H6b2qg2.cpp:67-69, H6bq22g.cpp:67-69, H6bq2g2.cpp:69-71, H6g2.cpp:69-71, H9.cpp:66-69, H9q2.cpp:68-71. -/
def flagReads : Int → List (DepthIdx × DepthIdx)
  | 0 => [(XD.Dmglst1, XD.Dmglst1), (XD.Dmst12, XD.Dmglst1), (XD.Dmsqst1, XD.Dmsqst1)]
  | 1 => [(XD.Dmglst1, XD.Dmglst1), (XD.Dmst12, XD.Dmglst1), (XD.Dmsqst1, XD.Dmsqst1)]
  | 2 => [(XD.Dmglst1, XD.Dmglst1), (XD.Dmst12, XD.Dmglst1), (XD.Dmsqst1, XD.Dmsqst1)]
  | 3 => [(XD.At, XD.At), (XD.Msq, XD.Msq), (XD.lmMsusy, XD.lmMsusy), (XD.Msusy, XD.Msusy)]
  | 4 => [(XD.Dmglst1, XD.Dmglst1), (XD.Msq, XD.Msq)]
  | 5 => [(XD.Dmglst1, XD.Dmglst1), (XD.Msq, XD.Msq)]
  | 6 => [(XD.Dmglst2, XD.Dmglst2), (XD.Msq, XD.Msq), (XD.Mst, XD.Mst)]
  | 7 => [(XD.Dmglst2, XD.Dmglst2), (XD.Dmsqst2, XD.Dmsqst2), (XD.Mst, XD.Mst)]
  | 8 => [(XD.Dmglst2, XD.Dmglst2), (XD.Dmsqst2, XD.Dmsqst2), (XD.Mst, XD.Mst)]
  | 9 => [(XD.Dmglst2, XD.Dmglst2), (XD.Dmsqst2, XD.Dmsqst2), (XD.Mst, XD.Mst)]
  | 10 => [(XD.Dmglst2, XD.Dmglst2), (XD.Dmsqst2, XD.Dmsqst2), (XD.Mst, XD.Mst)]
  | 11 => [(XD.Dmglst2, XD.Dmglst2), (XD.Msq, XD.Msq), (XD.Mst, XD.Mst)]
  | 12 => [(XD.threeLoop, XD.threeLoop), (XD.Dmst12, XD.Dmglst1), (XD.Dmsqst1, XD.Dmsqst1), (XD.Mgl, XD.Mgl)]
  | 13 => [(XD.threeLoop, XD.threeLoop), (XD.Dmst12, XD.Dmglst1), (XD.Dmsqst1, XD.Dmsqst1), (XD.Mgl, XD.Mgl)]
  | _ => []

/-- The formulas of a class: values of the truncation members (in the order of `flagReads`), floating-point arguments, MDR
flag, loop flags.  The C++ formulas cannot see anything else. -/
abbrev Impl (F : Type) := Int → List Int → List F → Int → LoopFlags → Except String (HierOut F)

/-- The environment in which class `k` is built from its constructor's flag reads and the formulas `I`. -/
def Env.withClasses {F : Type} (E : Env F) (I : Impl F) : Env F :=
  { E with hier := fun k d args mdr fl => I k ((flagReads k).map fun m => d m.2) args mdr fl }

end Himalaya
