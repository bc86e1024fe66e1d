import Verif.Misc.Model

/-!
# Members of the hierarchy classes

The fourteen classes of source/himalaya/hierarchies store subsets of the same members; one record holds all of them.
-/

namespace Himalaya

/-- The data members of the hierarchy classes, hierarchies/H3.hpp:73-75, H32q2g.hpp:71-73, H3q22g.hpp:72-74, H4.hpp:64-66,
H5.hpp:72-74, H5g1.hpp:73-75, H6.hpp:72-74, H6b.hpp:71-73, H6b2qg2.hpp:72-74, H6bq22g.hpp:72-74, H6bq2g2.hpp:73-75,
H6g2.hpp:73-75, H9.hpp:72-74, H9q2.hpp:73-75.  Simplification: one record for all classes (a class uses only its own members), and
the `int` members are numbers of the type `F` because they only occur as factors and summands of `double` expressions. -/
structure HMem (F : Type) where
  Al4p : F
  At : F
  Cbeta : F
  Sbeta : F
  Tbeta : F
  Dmglst1 : F
  Dmglst2 : F
  Dmsqst1 : F
  Dmsqst2 : F
  Dmst12 : F
  lmMt : F
  lmMst1 : F
  lmMst2 : F
  lmMsq : F
  lmMgl : F
  lmMsusy : F
  Mt : F
  Mst1 : F
  Mst2 : F
  Msq : F
  Mgl : F
  Msusy : F
  MuSUSY : F
  s2t : F
  shiftst1 : F
  shiftst2 : F
  shiftst3 : F
  xDR2DRMOD : F
  x : F
  xAt : F
  xDmglst1 : F
  xDmglst2 : F
  xDmsqst1 : F
  xDmsqst2 : F
  xDmst12 : F
  xMst : F
  xMsq : F
  xMgl : F
  xMsusy : F
  xlmMsusy : F
  oneLoopFlag : F
  twoLoopFlag : F
  threeLoopFlag : F

/-- The constants of misc/Constants.hpp:13-32 that enter the hierarchy classes. -/
structure HConst (F : Type) where
  z2 : F
  z3 : F
  z4 : F
  B4 : F
  D3 : F
  DN : F
  OepS2 : F
  S2 : F
  T1ep : F

end Himalaya
