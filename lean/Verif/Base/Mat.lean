/-!
# 2x2 and 3x3 matrices (Eigen fixed-size types)

Models `Eigen::Vector2d`, `Eigen::Matrix2d`, `Eigen::Matrix3d` (include/himalaya/Himalaya_interface.hpp:21-26)
as plain records over an arbitrary scalar type.
-/

namespace Himalaya

/-- `Eigen::Vector2d` -/
structure Vec2 (F : Type) where
  x0 : F
  x1 : F
deriving DecidableEq, Repr

/-- `Eigen::Matrix2d`, entry `mij` is `m(i,j)` -/
structure Mat2 (F : Type) where
  m00 : F
  m01 : F
  m10 : F
  m11 : F
deriving DecidableEq, Repr

namespace Mat2
variable {F : Type}

/-- matrix sum -/
def add [Add F] (a b : Mat2 F) : Mat2 F :=
  ⟨a.m00 + b.m00, a.m01 + b.m01, a.m10 + b.m10, a.m11 + b.m11⟩
/-- matrix difference -/
def sub [Sub F] (a b : Mat2 F) : Mat2 F :=
  ⟨a.m00 - b.m00, a.m01 - b.m01, a.m10 - b.m10, a.m11 - b.m11⟩
/-- matrix negation -/
def neg [Neg F] (a : Mat2 F) : Mat2 F := ⟨-a.m00, -a.m01, -a.m10, -a.m11⟩
/-- scalar times matrix -/
def smul [Mul F] (c : F) (a : Mat2 F) : Mat2 F :=
  ⟨c * a.m00, c * a.m01, c * a.m10, c * a.m11⟩
/-- constant matrix -/
def const (z : F) : Mat2 F := ⟨z, z, z, z⟩

instance [Add F] : Add (Mat2 F) := ⟨add⟩
instance [Sub F] : Sub (Mat2 F) := ⟨sub⟩
instance [Neg F] : Neg (Mat2 F) := ⟨neg⟩

/-- symmetric matrix -/
def Symm (a : Mat2 F) : Prop := a.m01 = a.m10

theorem Symm.add [Add F] {a b : Mat2 F} (ha : a.Symm) (hb : b.Symm) : (a + b).Symm := by
  show a.m01 + b.m01 = a.m10 + b.m10
  rw [ha, hb]
theorem Symm.sub [Sub F] {a b : Mat2 F} (ha : a.Symm) (hb : b.Symm) : (a - b).Symm := by
  show a.m01 - b.m01 = a.m10 - b.m10
  rw [ha, hb]
theorem Symm.neg [Neg F] {a : Mat2 F} (ha : a.Symm) : (-a).Symm := by
  show -a.m01 = -a.m10
  rw [ha]
theorem Symm.smul [Mul F] {a : Mat2 F} (c : F) (ha : a.Symm) : (smul c a).Symm := by
  show c * a.m01 = c * a.m10
  rw [ha]
theorem Symm.const (z : F) : (const z).Symm := rfl

end Mat2

/-- `Eigen::Matrix3d`, indexed `m i j` with `i, j < 3` -/
abbrev Mat3 (F : Type) := Fin 3 → Fin 3 → F

end Himalaya
