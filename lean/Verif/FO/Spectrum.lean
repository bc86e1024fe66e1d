import Verif.Linalg.Model

/-!
# The tree-level DR' spectrum

Models source/himalaya/mh2_fo/MSSM_spectrum.cpp and the reordering layer of source/himalaya/mh2_fo/Linalg.hpp.
Eigen's solvers are parameters (`Ext`, `FExt`); the printing operators and `normalize_to_interval` for the neutralino mixing
are not modelled.
-/

namespace Himalaya

open FOps
open scoped Himalaya

/-- element `i` of an `Eigen::Array<double,2,1>` -/
def Vec2.at {F : Type} (v : Vec2 F) (i : Fin 2) : F := if i = 0 then v.x0 else v.x1
/-- element `(i,j)` of a 2x2 matrix -/
def Mat2.at {F : Type} (m : Mat2 F) (i j : Fin 2) : F :=
  if i = 0 then (if j = 0 then m.m00 else m.m01) else (if j = 0 then m.m10 else m.m11)
/-- `Eigen::Matrix<double,4,4>` -/
abbrev Mat4 (F : Type) := Fin 4 → Fin 4 → F

/-- Numerical routines used by the spectrum besides the 2x2 eigensolver. -/
structure FExt (F : Type) extends Ext F where
  /-- `fs_diagonalize_symmetric`, `normalize_to_interval`, `convert_symmetric_fermion_mixings_to_slha`, `.real()`;
  mh2_fo/MSSM_spectrum.cpp:633-644: signed masses and real mixing matrix -/
  chi : Mat4 F → (Fin 4 → F) × Mat4 F
  /-- `fs_svd` of a 2x2 matrix: singular values, `u`, `v` with `m = u^T diag(s) v`; mh2_fo/Linalg.hpp:1095-1103 -/
  svd2 : Mat2 F → Vec2 F × Mat2 F × Mat2 F

section
variable {F : Type} [Add F] [Sub F] [Mul F] [Div F] [Neg F] [FOps F]

/-- `pow3`; misc/Powers.hpp -/
def fpow3 (x : F) : F := x * x * x

/-- `fs_diagonalize_hermitian` for 2x2 matrices; mh2_fo/Linalg.hpp:1391-1413: the eigenvalues are sorted by modulus and the
rows of `z` are the eigenvectors.  (`std::sort` on two elements exchanges them iff the second is smaller.) -/
def fsDiag (X : Ext F) (m : Mat2 F) : Vec2 F × Mat2 F :=
  let w := X.eigVal m
  let v := X.eigVec m
  if lt (abs w.x1) (abs w.x0) then (⟨w.x1, w.x0⟩, ⟨v.m01, v.m11, v.m00, v.m10⟩)
  else (w, ⟨v.m00, v.m10, v.m01, v.m11⟩)

/-- one element of `normalize_to_interval`; mh2_fo/MSSM_spectrum.cpp:74-79 -/
def clamp1 (x : F) : F := if lt x (-1) then -1 else if lt 1 x then 1 else x

/-- `normalize_to_interval` for real 2x2 matrices; mh2_fo/MSSM_spectrum.cpp:68-80 -/
def normalize (m : Mat2 F) : Mat2 F := ⟨clamp1 m.m00, clamp1 m.m01, clamp1 m.m10, clamp1 m.m11⟩

/-- `fs_diagonalize_hermitian` followed by `normalize_to_interval`; e.g. mh2_fo/MSSM_spectrum.cpp:260-265 -/
def massesOf (X : Ext F) (m : Mat2 F) : Vec2 F × Mat2 F := ((fsDiag X m).1, normalize (fsDiag X m).2)

/-- `calculate_MVWm`; mh2_fo/MSSM_spectrum.cpp:165-172 -/
def specM2VWm (p : Params F) : F := lit (1/4) * pow2 p.g2 * (pow2 p.vd + pow2 p.vu)

/-- `calculate_MVZ`; mh2_fo/MSSM_spectrum.cpp:174-182 -/
def specM2VZ (p : Params F) : F :=
  let gY := p.g1 * const .sqrt35
  lit (1/4) * (pow2 gY + pow2 p.g2) * (pow2 p.vd + pow2 p.vu)

/-- `calculate_MFt`; mh2_fo/MSSM_spectrum.cpp:184-187 -/
def specMFt (p : Params F) : F := p.Yu 2 2 * p.vu * const .invSqrt2
/-- `calculate_MFb`; mh2_fo/MSSM_spectrum.cpp:189-192 -/
def specMFb (p : Params F) : F := p.Yd 2 2 * p.vd * const .invSqrt2
/-- `calculate_MFtau`; mh2_fo/MSSM_spectrum.cpp:194-197 -/
def specMFtau (p : Params F) : F := p.Ye 2 2 * p.vd * const .invSqrt2

/-- `calculate_MSveL`, `calculate_MSvmL`, `calculate_MSvtL` for generation `i`; mh2_fo/MSSM_spectrum.cpp:199-233 -/
def specM2Sv (p : Params F) (i : Fin 3) : F :=
  lit (1/8) * (8 * p.ml2 i i - lit (3/5) * pow2 p.g1 * (-pow2 p.vd + pow2 p.vu) - pow2 p.g2 * (-pow2 p.vd + pow2 p.vu))

/-- up-type squark matrix of generation `i` with Yukawa coupling `y`; mh2_fo/MSSM_spectrum.cpp:235-258 (`Su`), 299-322
(`Sc`), 363-386 (`St`): the three functions differ in the generation and in `y` (0, 0, `Yu(2,2)`). -/
def matUp (p : Params F) (i : Fin 3) (y : F) : Mat2 F :=
  let Ty := p.Au i i * y
  let m01 := const .invSqrt2 * p.vu * Ty - const .invSqrt2 * p.vd * y * p.mu
  ⟨p.mq2 i i - lit (1/40) * pow2 p.g1 * pow2 p.vd + lit (1/8) * pow2 p.g2 * pow2 p.vd + lit (1/2) * pow2 y * pow2 p.vu
     + lit (1/40) * pow2 p.g1 * pow2 p.vu - lit (1/8) * pow2 p.g2 * pow2 p.vu,
   m01, m01,
   p.mu2 i i + lit (1/10) * pow2 p.g1 * pow2 p.vd + lit (1/2) * pow2 y * pow2 p.vu - lit (1/10) * pow2 p.g1 * pow2 p.vu⟩

/-- down-type squark matrix; mh2_fo/MSSM_spectrum.cpp:267-290 (`Sd`), 331-354 (`Ss`), 395-418 (`Sb`) -/
def matDown (p : Params F) (i : Fin 3) (y : F) : Mat2 F :=
  let Ty := p.Ad i i * y
  let m01 := const .invSqrt2 * p.vd * Ty - const .invSqrt2 * p.vu * y * p.mu
  ⟨p.mq2 i i + lit (1/2) * pow2 y * pow2 p.vd - lit (1/40) * pow2 p.g1 * pow2 p.vd - lit (1/8) * pow2 p.g2 * pow2 p.vd
     + lit (1/40) * pow2 p.g1 * pow2 p.vu + lit (1/8) * pow2 p.g2 * pow2 p.vu,
   m01, m01,
   p.md2 i i + lit (1/2) * pow2 y * pow2 p.vd - lit (1/20) * pow2 p.g1 * pow2 p.vd + lit (1/20) * pow2 p.g1 * pow2 p.vu⟩

/-- charged slepton matrix; mh2_fo/MSSM_spectrum.cpp:427-450 (`Se`), 459-482 (`Sm`), 491-514 (`Stau`) -/
def matLep (p : Params F) (i : Fin 3) (y : F) : Mat2 F :=
  let Ty := p.Ae i i * y
  let m01 := const .invSqrt2 * p.vd * Ty - const .invSqrt2 * p.vu * y * p.mu
  ⟨p.ml2 i i + lit (1/2) * pow2 y * pow2 p.vd + lit (3/40) * pow2 p.g1 * pow2 p.vd - lit (1/8) * pow2 p.g2 * pow2 p.vd
     - lit (3/40) * pow2 p.g1 * pow2 p.vu + lit (1/8) * pow2 p.g2 * pow2 p.vu,
   m01, m01,
   p.me2 i i + lit (1/2) * pow2 y * pow2 p.vd - lit (3/20) * pow2 p.g1 * pow2 p.vd + lit (3/20) * pow2 p.g1 * pow2 p.vu⟩

/-- `Bmu`; mh2_fo/MSSM_spectrum.cpp:531, 558, 585 -/
def specBmu (p : Params F) : F := pow2 p.MA * p.vu * p.vd / (pow2 p.vu + pow2 p.vd)

/-- `get_mass_matrix_hh`; mh2_fo/MSSM_spectrum.cpp:523-541 -/
def matHh (p : Params F) : Mat2 F :=
  let Bmu := specBmu p
  let m01 := -Bmu - (p.vd * p.vu * (3 * pow2 p.g1 + 5 * pow2 p.g2)) / 20
  ⟨(Bmu * p.vu) / p.vd + ((3 * pow2 p.g1 + 5 * pow2 p.g2) * pow2 p.vd) / 20, m01, m01,
   (Bmu * p.vd) / p.vu + ((3 * pow2 p.g1 + 5 * pow2 p.g2) * pow2 p.vu) / 20⟩

/-- `get_mass_matrix_Ah` with `xi = 1`; mh2_fo/MSSM_spectrum.cpp:550-569 -/
def matAh (p : Params F) : Mat2 F :=
  let Bmu := specBmu p
  let xi : F := 1
  let m01 := Bmu - (p.vd * p.vu * xi * (3 * pow2 p.g1 + 5 * pow2 p.g2)) / 20
  ⟨(20 * Bmu * p.vu + fpow3 p.vd * xi * (3 * pow2 p.g1 + 5 * pow2 p.g2)) / (20 * p.vd), m01, m01,
   (20 * Bmu * p.vd + fpow3 p.vu * xi * (3 * pow2 p.g1 + 5 * pow2 p.g2)) / (20 * p.vu)⟩

/-- `get_mass_matrix_Hpm` with `xi = 1`; mh2_fo/MSSM_spectrum.cpp:578-596 -/
def matHpm (p : Params F) : Mat2 F :=
  let Bmu := specBmu p
  let xi : F := 1
  let m01 := Bmu - (p.vd * p.vu * (-1 + xi) * pow2 p.g2) / 4
  ⟨(4 * Bmu * p.vu + p.vd * pow2 p.g2 * (xi * pow2 p.vd + pow2 p.vu)) / (4 * p.vd), m01, m01,
   (4 * Bmu * p.vd + p.vu * pow2 p.g2 * (pow2 p.vd + xi * pow2 p.vu)) / (4 * p.vu)⟩

/-- upper triangle of `get_mass_matrix_Chi`; mh2_fo/MSSM_spectrum.cpp:617-626 -/
def chiUpper (p : Params F) : Fin 4 → Fin 4 → F
  | 0, 0 => p.M1
  | 0, 1 => 0
  | 0, 2 => -lit (3872983346207417/10000000000000000) * p.g1 * p.vd
  | 0, 3 => lit (3872983346207417/10000000000000000) * p.g1 * p.vu
  | 1, 1 => p.M2
  | 1, 2 => lit (1/2) * p.g2 * p.vd
  | 1, 3 => -lit (1/2) * p.g2 * p.vu
  | 2, 2 => 0
  | 2, 3 => -p.mu
  | _, _ => 0

/-- `get_mass_matrix_Chi`, with `symmetrize`; mh2_fo/MSSM_spectrum.cpp:605-631, 109-118 -/
def matChi (p : Params F) : Mat4 F := fun i j => if i ≤ j then chiUpper p i j else chiUpper p j i

/-- `get_mass_matrix_Cha`; mh2_fo/MSSM_spectrum.cpp:646-662 -/
def matCha (p : Params F) : Mat2 F :=
  ⟨p.M2, const .invSqrt2 * p.g2 * p.vu, const .invSqrt2 * p.g2 * p.vd, p.mu⟩

/-- data members of `MSSM_spectrum`; mh2_fo/MSSM_spectrum.hpp:33-80 -/
structure Spec (F : Type) where
  pars : Params F
  M2VWm : F
  M2VZ : F
  MFt : F
  MFb : F
  MFtau : F
  M2SveL : F
  M2SvmL : F
  M2SvtL : F
  M2Su : Vec2 F
  M2Sd : Vec2 F
  M2Sc : Vec2 F
  M2Ss : Vec2 F
  M2St : Vec2 F
  M2Sb : Vec2 F
  M2Se : Vec2 F
  M2Sm : Vec2 F
  M2Stau : Vec2 F
  M2hh : Vec2 F
  M2Ah : Vec2 F
  M2Hpm : Vec2 F
  MChi : Fin 4 → F
  MCha : Vec2 F
  ZU : Mat2 F
  ZD : Mat2 F
  ZC : Mat2 F
  ZS : Mat2 F
  ZT : Mat2 F
  ZB : Mat2 F
  ZE : Mat2 F
  ZM : Mat2 F
  ZTau : Mat2 F
  ZH : Mat2 F
  ZA : Mat2 F
  ZP : Mat2 F
  ZN : Mat4 F
  UM : Mat2 F
  UP : Mat2 F

/-- constructor of `MSSM_spectrum` (`calculate_spectrum`); mh2_fo/MSSM_spectrum.cpp:135-164 -/
def spectrum (X : FExt F) (p : Params F) : Spec F where
  pars := p
  M2VWm := specM2VWm p
  M2VZ := specM2VZ p
  MFt := specMFt p
  MFb := specMFb p
  MFtau := specMFtau p
  M2SveL := specM2Sv p 0
  M2SvmL := specM2Sv p 1
  M2SvtL := specM2Sv p 2
  M2Su := (massesOf X.toExt (matUp p 0 0)).1
  M2Sd := (massesOf X.toExt (matDown p 0 0)).1
  M2Sc := (massesOf X.toExt (matUp p 1 0)).1
  M2Ss := (massesOf X.toExt (matDown p 1 0)).1
  M2St := (massesOf X.toExt (matUp p 2 (p.Yu 2 2))).1
  M2Sb := (massesOf X.toExt (matDown p 2 (p.Yd 2 2))).1
  M2Se := (massesOf X.toExt (matLep p 0 0)).1
  M2Sm := (massesOf X.toExt (matLep p 1 0)).1
  M2Stau := (massesOf X.toExt (matLep p 2 (p.Ye 2 2))).1
  M2hh := (massesOf X.toExt (matHh p)).1
  M2Ah := (massesOf X.toExt (matAh p)).1
  M2Hpm := (massesOf X.toExt (matHpm p)).1
  MChi := (X.chi (matChi p)).1
  MCha := (X.svd2 (matCha p)).1
  ZU := (massesOf X.toExt (matUp p 0 0)).2
  ZD := (massesOf X.toExt (matDown p 0 0)).2
  ZC := (massesOf X.toExt (matUp p 1 0)).2
  ZS := (massesOf X.toExt (matDown p 1 0)).2
  ZT := (massesOf X.toExt (matUp p 2 (p.Yu 2 2))).2
  ZB := (massesOf X.toExt (matDown p 2 (p.Yd 2 2))).2
  ZE := (massesOf X.toExt (matLep p 0 0)).2
  ZM := (massesOf X.toExt (matLep p 1 0)).2
  ZTau := (massesOf X.toExt (matLep p 2 (p.Ye 2 2))).2
  ZH := (massesOf X.toExt (matHh p)).2
  ZA := (massesOf X.toExt (matAh p)).2
  ZP := (massesOf X.toExt (matHpm p)).2
  ZN := (X.chi (matChi p)).2
  UM := (X.svd2 (matCha p)).2.1
  UP := (X.svd2 (matCha p)).2.2

end
end Himalaya
