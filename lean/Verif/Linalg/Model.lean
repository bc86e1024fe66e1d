import Verif.Calc.Formulas

/-!
# Perturbative diagonalisation

Models source/himalaya/mh2_fo/Linalg.cpp:43-86 and `calcSmallestEigenvalue` (HierarchyCalculator.cpp:51-57) through the
contract of Eigen's solver.
-/

namespace Himalaya

open FOps
open scoped Himalaya

section
variable {F : Type} [Add F] [Sub F] [Mul F] [Div F] [Neg F] [FOps F]

/-- The four vectors returned by `fs_diagonalize_hermitian_perturbatively`. -/
structure PertEig (F : Type) where
  l0 : Vec2 F
  l1 : Vec2 F
  l2 : Vec2 F
  l3 : Vec2 F

/-- `fs_diagonalize_hermitian_perturbatively`; mh2_fo/Linalg.cpp:43-86.  Reads the elements (0,0), (0,1), (1,1) only. -/
def diagPert (m0 m1 m2 m3 : Mat2 F) : PertEig F :=
  let a11 := m0.m00
  let a12 := m0.m01
  let a22 := m0.m11
  let c1 := a11 + a22
  let c2 := sqrt (pow2 a11 + 4*pow2 a12 - 2*a11*a22 + pow2 a22)
  let b11 := m1.m00
  let b12 := m1.m01
  let b22 := m1.m11
  let c3 := b11 + b22
  let c4 := (a11*b11 - a22*b11 + 4*a12*b12 - a11*b22 + a22*b22)/c2
  let d11 := m2.m00
  let d12 := m2.m01
  let d22 := m2.m11
  let c5 := d11 + d22
  let c6 := lit (1/2)*(pow2 b11 + 4*pow2 b12 - 2*b11*b22 + pow2 b22
                        - pow2 c4 + 2*a11*d11 - 2*a22*d11 + 8*a12*d12
                        - 2*a11*d22 + 2*a22*d22)/c2
  let e11 := m3.m00
  let e12 := m3.m01
  let e22 := m3.m11
  let c7 := e11 + e22
  let c8 := lit (1/2)/c2*(
      2*(4*b12*d12 + b11*(d11 - d22) + b22*(-d11 + d22) + a11*e11 - a22*e11
         + 4*a12*e12 - a11*e22 + a22*e22)
      + (c4*(2*b11*b22 - 2*a11*d11 + 2*a22*d11 - 8*a12*d12 + 2*a11*d22
             - 2*a22*d22 - pow2 b11 - 4*pow2 b12 - pow2 b22 + pow2 c4))/c2)
  ⟨⟨lit (1/2)*(c1 - c2), lit (1/2)*(c1 + c2)⟩, ⟨lit (1/2)*(c3 - c4), lit (1/2)*(c3 + c4)⟩,
   ⟨lit (1/2)*(c5 - c6), lit (1/2)*(c5 + c6)⟩, ⟨lit (1/2)*(c7 - c8), lit (1/2)*(c7 + c8)⟩⟩

end
end Himalaya
