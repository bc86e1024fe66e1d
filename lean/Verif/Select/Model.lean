import Verif.Iface.Model
import Verif.HObj.Model

/-!
# Hierarchy keys, mother hierarchies and suitability

Models hierarchies/HierarchyFlags.hpp:16-33, `getMotherHierarchy` (HierarchyCalculator.cpp:90-124) and
`HierarchyCalculator::isHierarchySuitable` (HierarchyCalculator.cpp:393-439).
-/

namespace Himalaya

open FOps
open scoped Himalaya

/-! Keys of `enum Hierarchies`; hierarchies/HierarchyFlags.hpp:16-33. -/
namespace Hier
abbrev h3 : Int := 0
abbrev h32q2g : Int := 1
abbrev h3q22g : Int := 2
abbrev h4 : Int := 3
abbrev h5 : Int := 4
abbrev h5g1 : Int := 5
abbrev h6 : Int := 6
abbrev h6b : Int := 7
abbrev h6b2qg2 : Int := 8
abbrev h6bq22g : Int := 9
abbrev h6bq2g2 : Int := 10
abbrev h6g2 : Int := 11
abbrev h9 : Int := 12
abbrev h9q2 : Int := 13
abbrev FIRST : Int := 0
abbrev NUMBER_OF_HIERARCHIES : Int := 14
end Hier

/-- `getMotherHierarchy`; HierarchyCalculator.cpp:90-124.  (The array, zero-initialised in C++, is total on
the index range.) -/
def getMotherHierarchy (hierarchy : Int) : Except String Int :=
  if hierarchy < Hier.FIRST ∨ hierarchy ≥ Hier.NUMBER_OF_HIERARCHIES then
    if hierarchy = -1 then .error "No suitable hierarchy found!"
    else .error ("Hierarchy " ++ toString hierarchy ++ " not included!")
  else
    .ok (match hierarchy with
      | 0 => Hier.h3
      | 1 => Hier.h3
      | 2 => Hier.h3
      | 3 => Hier.h4
      | 4 => Hier.h5
      | 5 => Hier.h5
      | 6 => Hier.h6
      | 11 => Hier.h6
      | 7 => Hier.h6b
      | 8 => Hier.h6b
      | 9 => Hier.h6b
      | 10 => Hier.h6b
      | 12 => Hier.h9
      | 13 => Hier.h9
      | _ => 0)

section
variable {F : Type} [Add F] [Sub F] [Mul F] [Div F] [Neg F] [FOps F]

/-- `HierarchyCalculator::calcMeanMsq`; HierarchyCalculator.cpp:1327-1330 -/
def calcMeanMsq (p : Params F) : F := sqrt (abs (calculateMsq2 p))

/-- The `switch` of `isHierarchySuitable` with the preceding guards as a function of the four masses;
HierarchyCalculator.cpp:400-438. -/
def suitableMasses (hierarchy : Int) (Mst1 Mst2 Mgl Msq : F) : Bool :=
  let delta : F := lit (13/10)
  if lt (delta * Msq) Mst2 then false
  else if lt (delta * Msq) Mgl then false
  else
    let split := lt (lit (1/10) * Mst1) (Mst2 - Mst1)
    let near1 := lt (Mgl - Mst1) (abs (Mgl - Mst2))
    let near2 := lt (Mst2 - Mgl) (abs (Mgl - Mst1))
    match hierarchy with
    | 0 => lt Mst2 Mgl
    | 1 => le Msq Mst2 && lt Mgl Mst2
    | 2 => lt Mst2 Msq && lt Mgl Mst2
    | 3 => lt Mst1 Msq && le Mgl Mst1
    | 4 => split && near1 && lt Mst2 Msq && le Mgl Mst1
    | 5 => split && near1 && lt Mst2 Msq && lt Mst1 Mgl
    | 6 => split && near2 && lt (Mst2 * lit (13/10)) Msq && le Mgl Mst2
    | 11 => split && near2 && lt (Mst2 * lit (13/10)) Msq && lt Mst2 Mgl
    | 7 => split && near2 && le Msq Mst2 && le Mgl Mst2
    | 8 => split && near2 && le Msq Mst2 && lt Mst2 Mgl
    | 9 => split && near2 && lt Mst2 Msq && le Mgl Mst2
    | 10 => split && near2 && lt Mst2 Msq && lt Mst2 Mgl
    | 12 => le Msq Mst2 && lt (Mst2 - Mst1) (Mst1 - Mgl)
    | 13 => lt Mst2 Msq && lt (Mst1 - Mst1) (Mst1 - Mgl)
    | _ => false

/-- `HierarchyCalculator::isHierarchySuitable`; HierarchyCalculator.cpp:393-439 -/
def isHierarchySuitable (p : Params F) (ho : HObj F) : Bool :=
  let Mst1 := if ho.getIsAlphab then p.MSb.x0 else p.MSt.x0
  let Mst2 := if ho.getIsAlphab then p.MSb.x1 else p.MSt.x1
  suitableMasses ho.getSuitableHierarchy Mst1 Mst2 p.MG (calcMeanMsq p)

end
end Himalaya
