import Verif.Iface.Model
import Verif.Base.Dbl

/-!
# Specification vocabulary for parameter validation (C12-C17)
-/

namespace Himalaya
open FOps
open scoped Himalaya

section
variable {F : Type} [Add F] [Sub F] [Mul F] [Div F] [Neg F] [FOps F]

/-- some entry of the matrix is negative -/
def HasNegEntry (m : Mat3 F) : Prop := ∃ i j, lt (m i j) 0 = true
/-- no entry is NaN -/
def NoNaN (m : Mat3 F) : Prop := ∀ i j, isNaN (m i j) = false

/-- The mixing angle can be obtained from what the user supplied (`theta`, `s2 = sin 2 theta`, NaN = not given). -/
def AngleKnown (theta s2 : F) : Prop :=
  (isNaN theta = false ∧ isNaN s2 = false) ∨
  (isNaN theta = false ∧ isNaN s2 = true ∧ isNaN (sin (2 * theta)) = false) ∨
  (isNaN theta = true ∧ isNaN s2 = false ∧ isNaN (lit (1/2) * asin s2) = false)

/-- The user supplied both masses and the mixing angle of a sfermion family. -/
def SfGiven (m : Vec2 F) (theta s2 : F) : Prop :=
  isNaN m.x0 = false ∧ isNaN m.x1 = false ∧ AngleKnown theta s2

/-- A sfermion family has to be computed and its mass matrix has a negative eigenvalue. -/
def Tachyonic (X : Ext F) (m : Vec2 F) (theta s2 : F) (M : Mat2 F) : Prop :=
  ¬ SfGiven m theta s2 ∧ (lt (X.eigVal M).x0 0 = true ∨ lt (X.eigVal M).x1 0 = true)

/-- The input points that `validate` has to reject.  The mass matrices are those of the point completed with the
derived SM masses (`prep`). -/
def Unphysical (X : Ext F) (p : Params F) : Prop :=
  HasNegEntry p.mq2 ∨ HasNegEntry p.md2 ∨ HasNegEntry p.mu2 ∨ HasNegEntry p.ml2 ∨ HasNegEntry p.me2 ∨
  lt p.MG 0 = true ∨
  isNaN p.vu = true ∨ le p.vu 0 = true ∨ isNaN p.vd = true ∨ le p.vd 0 = true ∨
  Tachyonic X p.MSt p.theta_t p.s2t (stopMatrix (prep X p)) ∨
  Tachyonic X p.MSb p.theta_b p.s2b (sbottomMatrix (prep X p)) ∨
  Tachyonic X p.MStau p.theta_tau p.s2tau (stauMatrix (prep X p))

end

/-- a finite number -/
def IsFin (a : Dbl) : Prop := ∃ x : ℝ, a = .fin x
/-- not given (NaN) or finite -/
def OptFin (a : Dbl) : Prop := a = .nan ∨ IsFin a
/-- not given (NaN) or finite and not negative -/
def OptNonneg (a : Dbl) : Prop := a = .nan ∨ ∃ x : ℝ, 0 ≤ x ∧ a = .fin x

/-- A parameter point a user would enter: couplings and soft parameters are finite, optional masses and angles
are NaN or finite (masses not negative). -/
structure FiniteInput (p : Params Dbl) : Prop where
  mu : IsFin p.mu
  g1 : IsFin p.g1
  g2 : IsFin p.g2
  vu : IsFin p.vu
  vd : IsFin p.vd
  mq2 : ∀ i j, IsFin (p.mq2 i j)
  md2 : ∀ i j, IsFin (p.md2 i j)
  mu2 : ∀ i j, IsFin (p.mu2 i j)
  ml2 : ∀ i j, IsFin (p.ml2 i j)
  me2 : ∀ i j, IsFin (p.me2 i j)
  Au : ∀ i j, IsFin (p.Au i j)
  Ad : ∀ i j, IsFin (p.Ad i j)
  Ae : ∀ i j, IsFin (p.Ae i j)
  Yu : ∀ i j, IsFin (p.Yu i j)
  Yd : ∀ i j, IsFin (p.Yd i j)
  Ye : ∀ i j, IsFin (p.Ye i j)
  MG : IsFin p.MG
  MW : OptFin p.MW
  MZ : OptFin p.MZ
  Mt : OptFin p.Mt
  Mb : OptFin p.Mb
  Mtau : OptFin p.Mtau
  MSt : OptNonneg p.MSt.x0 ∧ OptNonneg p.MSt.x1
  MSb : OptNonneg p.MSb.x0 ∧ OptNonneg p.MSb.x1
  MStau : OptNonneg p.MStau.x0 ∧ OptNonneg p.MStau.x1
  angles : OptFin p.theta_t ∧ OptFin p.s2t ∧ OptFin p.theta_b ∧ OptFin p.s2b ∧ OptFin p.theta_tau ∧ OptFin p.s2tau

/-- What is assumed about Eigen for finiteness: finite input gives finite singular values, eigenvalues and
normalised eigenvectors. -/
structure ExtFinite (X : Ext Dbl) : Prop where
  svd : ∀ M : Mat3 Dbl, (∀ i j, IsFin (M i j)) → ∀ i, IsFin (X.svd M i)
  eig : ∀ a b d : ℝ, ∃ l0 l1 v00 v01 v10 v11 : ℝ,
    X.eigVal ⟨.fin a, .fin b, .fin b, .fin d⟩ = ⟨.fin l0, .fin l1⟩ ∧
    X.eigVec ⟨.fin a, .fin b, .fin b, .fin d⟩ = ⟨.fin v00, .fin v01, .fin v10, .fin v11⟩ ∧
    |v00| ≤ 1 ∧ |v01| ≤ 1

/-- What is assumed about `Eigen::SelfAdjointEigenSolver` on the symmetric matrix `((a,b),(b,d))`: its implicit QR
step with Wilkinson shift produces a rotation by at most 45 degrees (up to an overall sign `σ` of the eigenvector
matrix), where for `a = d` the larger eigenvalue comes first (the shift is `d - |b|`); afterwards the columns are
exchanged if necessary such that the eigenvalues are ascending. -/
def SolverContract (X : Ext Dbl) (a b d : ℝ) : Prop :=
  ∃ α l0 l1 σ : ℝ, |α| ≤ Real.pi / 4 ∧ (σ = 1 ∨ σ = -1) ∧
    a = Real.cos α ^ 2 * l0 + Real.sin α ^ 2 * l1 ∧
    b = Real.cos α * Real.sin α * (l0 - l1) ∧
    d = Real.sin α ^ 2 * l0 + Real.cos α ^ 2 * l1 ∧
    (a = d → l1 ≤ l0) ∧
    ((l0 ≤ l1 ∧ X.eigVal ⟨.fin a, .fin b, .fin b, .fin d⟩ = ⟨.fin l0, .fin l1⟩ ∧
      X.eigVec ⟨.fin a, .fin b, .fin b, .fin d⟩ =
        ⟨.fin (σ * Real.cos α), .fin (-(σ * Real.sin α)), .fin (σ * Real.sin α), .fin (σ * Real.cos α)⟩) ∨
     (l1 < l0 ∧ X.eigVal ⟨.fin a, .fin b, .fin b, .fin d⟩ = ⟨.fin l1, .fin l0⟩ ∧
      X.eigVec ⟨.fin a, .fin b, .fin b, .fin d⟩ =
        ⟨.fin (-(σ * Real.sin α)), .fin (σ * Real.cos α), .fin (σ * Real.cos α), .fin (σ * Real.sin α)⟩))

/-- Masses `m1, m2` and angle `θ` describe the mass matrix `((a,b),(b,d))`: rotating by `θ` diagonalises it, with
`m1` belonging to the first rotated state (convention of hep-ph/0105096, cf. Himalaya_interface.cpp:92). -/
def Diagonalises (m1 m2 θ a b d : ℝ) : Prop :=
  m1 ^ 2 * Real.cos θ ^ 2 + m2 ^ 2 * Real.sin θ ^ 2 = a ∧
  (m1 ^ 2 - m2 ^ 2) * (Real.sin θ * Real.cos θ) = b ∧
  m1 ^ 2 * Real.sin θ ^ 2 + m2 ^ 2 * Real.cos θ ^ 2 = d

/-- the matrix `((a,b),(b,d))` has a negative eigenvalue -/
def HasNegEigenvalue (a b d : ℝ) : Prop := ∃ l x y : ℝ, l < 0 ∧ (x ≠ 0 ∨ y ≠ 0) ∧
  a * x + b * y = l * x ∧ b * x + d * y = l * y

end Himalaya
