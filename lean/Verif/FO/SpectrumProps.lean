import Verif.FO.Spectrum
import Verif.Linalg.Props
import Verif.Calc.Props2
import Verif.Iface.Props4

/-!
# C29 (tree-level Higgs masses) and C30 (agreement of the two sfermion spectra)
-/

set_option linter.unusedSimpArgs false
set_option linter.unusedVariables false

namespace Himalaya

open scoped Himalaya.FOps

/-! ### The contract of the eigensolver over the reals -/

/-- `X` diagonalises the symmetric matrix `((a,b),(b,d))`: ascending eigenvalues, orthonormal eigenvectors in the columns. -/
structure Diagonalised (X : Ext ℝ) (a b d : ℝ) : Prop where
  asc : (X.eigVal ⟨a, b, b, d⟩).x0 ≤ (X.eigVal ⟨a, b, b, d⟩).x1
  n0 : (X.eigVec ⟨a, b, b, d⟩).m00 ^ 2 + (X.eigVec ⟨a, b, b, d⟩).m10 ^ 2 = 1
  n1 : (X.eigVec ⟨a, b, b, d⟩).m01 ^ 2 + (X.eigVec ⟨a, b, b, d⟩).m11 ^ 2 = 1
  r0 : (X.eigVec ⟨a, b, b, d⟩).m00 ^ 2 + (X.eigVec ⟨a, b, b, d⟩).m01 ^ 2 = 1
  r1 : (X.eigVec ⟨a, b, b, d⟩).m10 ^ 2 + (X.eigVec ⟨a, b, b, d⟩).m11 ^ 2 = 1
  orth : (X.eigVec ⟨a, b, b, d⟩).m00 * (X.eigVec ⟨a, b, b, d⟩).m01
    + (X.eigVec ⟨a, b, b, d⟩).m10 * (X.eigVec ⟨a, b, b, d⟩).m11 = 0
  e00 : a = (X.eigVal ⟨a, b, b, d⟩).x0 * (X.eigVec ⟨a, b, b, d⟩).m00 ^ 2
    + (X.eigVal ⟨a, b, b, d⟩).x1 * (X.eigVec ⟨a, b, b, d⟩).m01 ^ 2
  e01 : b = (X.eigVal ⟨a, b, b, d⟩).x0 * (X.eigVec ⟨a, b, b, d⟩).m00 * (X.eigVec ⟨a, b, b, d⟩).m10
    + (X.eigVal ⟨a, b, b, d⟩).x1 * (X.eigVec ⟨a, b, b, d⟩).m01 * (X.eigVec ⟨a, b, b, d⟩).m11
  e11 : d = (X.eigVal ⟨a, b, b, d⟩).x0 * (X.eigVec ⟨a, b, b, d⟩).m10 ^ 2
    + (X.eigVal ⟨a, b, b, d⟩).x1 * (X.eigVec ⟨a, b, b, d⟩).m11 ^ 2

/-- Specification of a diagonalised mass matrix in the convention of the spectrum: `m = Z^T diag(w) Z` with orthogonal `Z`. -/
structure MassBasis (m : Mat2 ℝ) (w : Vec2 ℝ) (Z : Mat2 ℝ) : Prop where
  r0 : Z.m00 ^ 2 + Z.m01 ^ 2 = 1
  r1 : Z.m10 ^ 2 + Z.m11 ^ 2 = 1
  orth : Z.m00 * Z.m10 + Z.m01 * Z.m11 = 0
  e00 : m.m00 = w.x0 * Z.m00 ^ 2 + w.x1 * Z.m10 ^ 2
  e01 : m.m01 = w.x0 * Z.m00 * Z.m01 + w.x1 * Z.m10 * Z.m11
  e10 : m.m10 = w.x0 * Z.m00 * Z.m01 + w.x1 * Z.m10 * Z.m11
  e11 : m.m11 = w.x0 * Z.m01 ^ 2 + w.x1 * Z.m11 ^ 2
  /-- sorted by modulus -/
  sorted : |w.x0| ≤ |w.x1|

private theorem le_one_of_sq {x y : ℝ} (h : x ^ 2 + y ^ 2 = 1) : -1 ≤ x ∧ x ≤ 1 := by
  constructor <;> nlinarith [sq_nonneg y, sq_nonneg (x-1), sq_nonneg (x+1)]

theorem clamp1_id {x y : ℝ} (h : x ^ 2 + y ^ 2 = 1) : clamp1 x = x := by
  obtain ⟨h1, h2⟩ := le_one_of_sq h
  unfold clamp1
  have e1 : FOps.lt x (-(@OfNat.ofNat ℝ 1 (FOps.instOfNat 1))) = false := by
    rw [real_lt_false, real_ofNat]; push_cast; linarith
  have e2 : FOps.lt (@OfNat.ofNat ℝ 1 (FOps.instOfNat 1)) x = false := by
    rw [real_lt_false, real_ofNat]; push_cast; linarith
  simp only [e1, e2, Bool.false_eq_true, if_false]

/-- The masses and mixings calculated from a symmetric matrix diagonalise it. -/
theorem massesOf_basis {X : Ext ℝ} {a b d : ℝ} (h : Diagonalised X a b d) :
    MassBasis ⟨a, b, b, d⟩ (massesOf X ⟨a, b, b, d⟩).1 (massesOf X ⟨a, b, b, d⟩).2 := by
  obtain ⟨hasc, n0, n1, r0, r1, orth, e00, e01, e11⟩ := h
  unfold massesOf fsDiag normalize
  generalize X.eigVal ⟨a, b, b, d⟩ = w at *
  generalize X.eigVec ⟨a, b, b, d⟩ = v at *
  have c00 : clamp1 v.m00 = v.m00 := clamp1_id n0
  have c10 : clamp1 v.m10 = v.m10 := clamp1_id (y := v.m00) (by linarith)
  have c01 : clamp1 v.m01 = v.m01 := clamp1_id n1
  have c11 : clamp1 v.m11 = v.m11 := clamp1_id (y := v.m01) (by linarith)
  dsimp only
  split_ifs with hlt
  · rw [real_lt_iff, real_abs, real_abs] at hlt
    constructor <;> dsimp only <;> (try simp only [c00, c10, c01, c11]) <;>
      first | exact hlt.le | linarith
  · have hle : |w.x0| ≤ |w.x1| := by
      have := Bool.eq_false_iff.2 hlt
      rw [real_lt_false, real_abs, real_abs] at this; exact this
    constructor <;> dsimp only <;> (try simp only [c00, c10, c01, c11]) <;>
      first | exact hle | linarith

theorem MassBasis.trace {m : Mat2 ℝ} {w : Vec2 ℝ} {Z : Mat2 ℝ} (h : MassBasis m w Z) : w.x0 + w.x1 = m.m00 + m.m11 := by
  have := h.e00; have := h.e11; have := h.r0; have := h.r1
  linear_combination h.r0 * (-w.x0) + h.r1 * (-w.x1) - h.e00 - h.e11

theorem MassBasis.det {m : Mat2 ℝ} {w : Vec2 ℝ} {Z : Mat2 ℝ} (h : MassBasis m w Z) :
    w.x0 * w.x1 = m.m00 * m.m11 - m.m01 * m.m01 := by
  obtain ⟨r0, r1, orth, e00, e01, e10, e11, -⟩ := h
  have hd : (Z.m00 * Z.m11 - Z.m01 * Z.m10) ^ 2 = 1 := by
    linear_combination (Z.m10 ^ 2 + Z.m11 ^ 2) * r0 + r1 - (Z.m00 * Z.m10 + Z.m01 * Z.m11) * orth
  rw [e00, e01, e11]
  linear_combination (-(w.x0 * w.x1)) * hd

/-- the eigenvalues are those of the matrix: if the matrix has trace `s+t`, determinant `s t` with `0 ≤ s ≤ t`, the masses are
`s` and `t`, in this order -/
theorem MassBasis.eq_of_trace_det {m : Mat2 ℝ} {w : Vec2 ℝ} {Z : Mat2 ℝ} (h : MassBasis m w Z) {s t : ℝ} (hs : 0 ≤ s)
    (hst : s ≤ t) (h1 : m.m00 + m.m11 = s + t) (h2 : m.m00 * m.m11 - m.m01 * m.m01 = s * t) : w = ⟨s, t⟩ := by
  have ht := h.trace; have hd := h.det; have hsort := h.sorted
  rw [h1] at ht; rw [h2] at hd
  have hf : (w.x0 - s) * (w.x0 - t) = 0 := by
    have : w.x1 = s + t - w.x0 := by linarith
    rw [this] at hd; linarith [hd, sq_nonneg w.x0, (by ring : (w.x0 - s) * (w.x0 - t) = -(w.x0 * (s + t - w.x0)) + s * t)]
  rcases mul_eq_zero.1 hf with h0 | h0
  · have e0 : w.x0 = s := by linarith
    have e1 : w.x1 = t := by linarith
    cases w; simp_all
  · have e0 : w.x0 = t := by linarith
    have e1 : w.x1 = s := by linarith
    rw [e0, e1, abs_of_nonneg hs, abs_of_nonneg (le_trans hs hst)] at hsort
    have : s = t := le_antisymm hst hsort
    cases w; simp_all

/-! ### C29 -/

/-- `cos 2β` squared, with `tan β = vu/vd` -/
noncomputable def cos2betaSq (p : Params ℝ) : ℝ := (Real.cos (2 * Real.arctan (p.vu / p.vd))) ^ 2

theorem cos2betaSq_eq {p : Params ℝ} (hu : 0 < p.vu) (hd : 0 < p.vd) :
    cos2betaSq p = ((p.vd ^ 2 - p.vu ^ 2) / (p.vd ^ 2 + p.vu ^ 2)) ^ 2 := by
  unfold cos2betaSq
  rw [Real.cos_two_mul, Real.cos_sq_arctan]
  have h1 : p.vd ^ 2 + p.vu ^ 2 ≠ 0 := by positivity
  have h2 : 1 + (p.vu / p.vd) ^ 2 ≠ 0 := by positivity
  congr 1
  field_simp
  ring

private theorem sin2beta_eq {p : Params ℝ} (hu : 0 < p.vu) (hd : 0 < p.vd) :
    Real.sin (2 * Real.arctan (p.vu / p.vd)) = 2 * p.vu * p.vd / (p.vd ^ 2 + p.vu ^ 2) := by
  rw [Real.sin_two_mul, Real.sin_arctan, Real.cos_arctan]
  have h0 : 0 < 1 + (p.vu / p.vd) ^ 2 := by positivity
  have h1 : Real.sqrt (1 + (p.vu / p.vd) ^ 2) ≠ 0 := (Real.sqrt_pos.2 h0).ne'
  have h2 := Real.mul_self_sqrt h0.le
  have : 2 * (p.vu / p.vd / Real.sqrt (1 + (p.vu / p.vd) ^ 2)) * (1 / Real.sqrt (1 + (p.vu / p.vd) ^ 2))
      = 2 * (p.vu / p.vd) / (Real.sqrt (1 + (p.vu / p.vd) ^ 2) * Real.sqrt (1 + (p.vu / p.vd) ^ 2)) := by
    field_simp
  rw [this, h2]
  field_simp

theorem treeLevel_eq {p : Params ℝ} (hu : 0 < p.vu) (hd : 0 < p.vd) :
    treeLevel p = ⟨(p.MZ ^ 2 * p.vd ^ 2 + p.MA ^ 2 * p.vu ^ 2) / (p.vd ^ 2 + p.vu ^ 2),
      -(p.MZ ^ 2 + p.MA ^ 2) * (p.vu * p.vd) / (p.vd ^ 2 + p.vu ^ 2),
      -(p.MZ ^ 2 + p.MA ^ 2) * (p.vu * p.vd) / (p.vd ^ 2 + p.vu ^ 2),
      (p.MZ ^ 2 * p.vu ^ 2 + p.MA ^ 2 * p.vd ^ 2) / (p.vd ^ 2 + p.vu ^ 2)⟩ := by
  have h1 : p.vd ^ 2 + p.vu ^ 2 ≠ 0 := by positivity
  have hs := sin2beta_eq hu hd
  unfold treeLevel calcBeta calcTanBeta
  simp only [real_sin, real_atan, real_ofNat, real_lit, pow2]
  push_cast
  rw [hs]
  congr 1 <;> · field_simp; try ring

/-- **C29** Trace and determinant of the tree-level matrix used by the calculator. -/
theorem C29_trace_det {p : Params ℝ} (hu : 0 < p.vu) (hd : 0 < p.vd) :
    (treeLevel p).m00 + (treeLevel p).m11 = p.MZ ^ 2 + p.MA ^ 2 ∧
    (treeLevel p).m01 = (treeLevel p).m10 ∧
    (treeLevel p).m00 * (treeLevel p).m11 - (treeLevel p).m01 * (treeLevel p).m10 = p.MA ^ 2 * p.MZ ^ 2 * cos2betaSq p := by
  have h1 : p.vd ^ 2 + p.vu ^ 2 ≠ 0 := by positivity
  rw [treeLevel_eq hu hd, cos2betaSq_eq hu hd]
  refine ⟨?_, rfl, ?_⟩ <;> · dsimp only; field_simp; ring

private theorem c2_bounds (p : Params ℝ) : 0 ≤ cos2betaSq p ∧ cos2betaSq p ≤ 1 := by
  unfold cos2betaSq
  refine ⟨by positivity, ?_⟩
  have := Real.cos_sq_add_sin_sq (2 * Real.arctan (p.vu / p.vd))
  nlinarith [sq_nonneg (Real.sin (2 * Real.arctan (p.vu / p.vd)))]

/-- a number `x` that is an eigenvalue of a matrix with trace `A+B` and determinant `A B c`, `0 ≤ c ≤ 1`, and not larger than
the other one, lies between `0` and `min(A,B) c` -/
private theorem eig_bound {A B c x y : ℝ} (hA : 0 ≤ A) (hB : 0 ≤ B) (hc : 0 ≤ c) (hc1 : c ≤ 1) (hs : x + y = A + B)
    (hp : x * y = A * B * c) (hxy : x ≤ y) : 0 ≤ x ∧ x ≤ A * c ∧ x ≤ B * c ∧ A ≤ y ∧ B ≤ y := by
  have hy : y = A + B - x := by linarith
  have hABc : 0 ≤ A * B * c := by positivity
  have hy0 : 0 ≤ y := by linarith
  have hx0 : 0 ≤ x := by
    by_contra hn
    push Not at hn
    rcases eq_or_lt_of_le hy0 with h0 | h0
    · linarith
    · have := mul_neg_of_neg_of_pos hn h0; linarith
  have key : ∀ M : ℝ, 0 ≤ M → (M - x) * (M - y) ≤ 0 → M ≤ y := by
    intro M hM h
    by_contra hn
    push Not at hn
    have : 0 < (M - x) * (M - y) := mul_pos (by linarith) (by linarith)
    linarith
  have hAy : A ≤ y := key A hA (by nlinarith [mul_nonneg hA hB, mul_le_mul_of_nonneg_left hc1 (mul_nonneg hA hB)])
  have hBy : B ≤ y := key B hB (by nlinarith [mul_nonneg hA hB, mul_le_mul_of_nonneg_left hc1 (mul_nonneg hA hB)])
  refine ⟨hx0, ?_, ?_, hAy, hBy⟩
  · rcases eq_or_lt_of_le hy0 with h0 | h0
    · have : A = 0 := by linarith
      have : x ≤ 0 := by linarith
      have : 0 ≤ A * c := by positivity
      linarith
    · have h2 : x * y ≤ A * c * y := by
        rw [hp]; nlinarith [mul_le_mul_of_nonneg_left hBy (mul_nonneg hA hc)]
      exact le_of_mul_le_mul_right h2 h0
  · rcases eq_or_lt_of_le hy0 with h0 | h0
    · have : x ≤ 0 := by linarith
      have : 0 ≤ B * c := by positivity
      linarith
    · have h2 : x * y ≤ B * c * y := by
        rw [hp]; nlinarith [mul_le_mul_of_nonneg_left hAy (mul_nonneg hB hc)]
      exact le_of_mul_le_mul_right h2 h0

/-- **C29** The tree-level bound: the smaller eigenvalue of the tree-level matrix is non-negative and at most `MZ² cos²2β` and
`MA² cos²2β`; the larger one is at least `MZ²` and `MA²`. -/
theorem C29_light_higgs_bound {p : Params ℝ} (hu : 0 < p.vu) (hd : 0 < p.vd) {x y : ℝ}
    (hx : IsMinEig (treeLevel p).m00 (treeLevel p).m01 (treeLevel p).m11 x)
    (hy : IsMaxEig (treeLevel p).m00 (treeLevel p).m01 (treeLevel p).m11 y) :
    0 ≤ x ∧ x ≤ p.MZ ^ 2 * cos2betaSq p ∧ x ≤ p.MA ^ 2 * cos2betaSq p ∧ p.MZ ^ 2 ≤ y ∧ p.MA ^ 2 ≤ y := by
  obtain ⟨ht, hsym, hdt⟩ := C29_trace_det hu hd
  have hx' := isMin_unique hx (minEig_isMin _ _ _)
  have hy' := isMax_unique hy (maxEig_isMax _ _ _)
  set a := (treeLevel p).m00
  set b := (treeLevel p).m01
  set d := (treeLevel p).m11
  have hnn : 0 ≤ (a - d) ^ 2 + 4 * b ^ 2 := by positivity
  have hsq := Real.mul_self_sqrt hnn
  have hsum : x + y = p.MZ ^ 2 + p.MA ^ 2 := by rw [hx', hy', ← ht]; unfold minEig maxEig; ring
  have hprod : x * y = p.MZ ^ 2 * p.MA ^ 2 * cos2betaSq p := by
    rw [hx', hy', ← hsym] at *
    unfold minEig maxEig
    nlinarith
  have hle : x ≤ y := by
    rw [hx', hy']; unfold minEig maxEig
    linarith [Real.sqrt_nonneg ((a - d) ^ 2 + 4 * b ^ 2)]
  obtain ⟨c0, c1⟩ := c2_bounds p
  exact eig_bound (sq_nonneg _) (sq_nonneg _) c0 c1 hsum hprod hle

/-- the hypotheses of `C29_light_higgs_bound` are met by every point with positive VEVs -/
example (p : Params ℝ) : ∃ x y, IsMinEig (treeLevel p).m00 (treeLevel p).m01 (treeLevel p).m11 x ∧
    IsMaxEig (treeLevel p).m00 (treeLevel p).m01 (treeLevel p).m11 y := ⟨_, _, minEig_isMin _ _ _, maxEig_isMax _ _ _⟩

/-- The tree-level matrix is non-degenerate (the hypothesis of C28) whenever `MZ` or `MA` is non-zero. -/
theorem C29_nondegenerate {p : Params ℝ} (hu : 0 < p.vu) (hd : 0 < p.vd) (h : p.MZ ^ 2 + p.MA ^ 2 ≠ 0) :
    NonDegenerate (treeLevel p) := by
  rintro ⟨-, h0⟩
  rw [treeLevel_eq hu hd] at h0
  dsimp only at h0
  have h1 : p.vd ^ 2 + p.vu ^ 2 ≠ 0 := by positivity
  rw [div_eq_zero_iff] at h0
  rcases h0 with h0 | h0
  · rcases mul_eq_zero.1 h0 with h0 | h0
    · exact h (by linarith)
    · exact (mul_pos hu hd).ne' h0
  · exact h1 h0

private theorem gY2 (p : Params ℝ) : specM2VZ p = (3/5 * p.g1 ^ 2 + p.g2 ^ 2) * (p.vd ^ 2 + p.vu ^ 2) / 4 := by
  unfold specM2VZ
  simp only [real_const, real_lit, Const.value, pow2]
  push_cast
  have h := Real.mul_self_sqrt (show (0:ℝ) ≤ 3/5 by norm_num)
  linear_combination (p.g1 ^ 2 * (p.vd ^ 2 + p.vu ^ 2) / 4) * h

private theorem w2 (p : Params ℝ) : specM2VWm p = p.g2 ^ 2 * (p.vd ^ 2 + p.vu ^ 2) / 4 := by
  unfold specM2VWm
  simp only [real_lit, pow2]
  push_cast
  ring

/-- **C29** The fixed-order calculation uses the same tree-level matrix as the three-loop calculation if the Z mass is the one
derived from the couplings. -/
theorem C29_same_tree_level_matrix {p : Params ℝ} (hu : 0 < p.vu) (hd : 0 < p.vd) (hZ : p.MZ ^ 2 = specM2VZ p) :
    matHh p = treeLevel p := by
  rw [treeLevel_eq hu hd, hZ, gY2]
  unfold matHh specBmu
  simp only [real_ofNat, pow2]
  push_cast
  have h1 : p.vd ^ 2 + p.vu ^ 2 ≠ 0 := by positivity
  have h2 : p.vu * p.vu + p.vd * p.vd ≠ 0 := by positivity
  congr 1 <;> · field_simp; try ring

example : ∃ p : Params ℝ, 0 < p.vu ∧ 0 < p.vd ∧ 0 < p.g1 ∧ 0 < p.g2 ∧ p.MZ ^ 2 = specM2VZ p :=
  ⟨{ examplePoint with g1 := 1, g2 := 1, MZ := Real.sqrt (4/5) },
    by norm_num [examplePoint], by norm_num [examplePoint], by norm_num, by norm_num, by
      rw [gY2]; dsimp only [examplePoint]; rw [Real.sq_sqrt (by norm_num)]; norm_num⟩

/-- The matrix of a mass matrix getter is symmetric with the elements shown; used to apply the solver contract. -/
def SolverOK (X : Ext ℝ) (m : Mat2 ℝ) : Prop := Diagonalised X m.m00 m.m01 m.m11

theorem basis_of {X : Ext ℝ} {m : Mat2 ℝ} (hs : m.m01 = m.m10) (h : SolverOK X m) :
    MassBasis m (massesOf X m).1 (massesOf X m).2 := by
  have : m = ⟨m.m00, m.m01, m.m01, m.m11⟩ := by cases m; simp_all
  rw [this]
  exact massesOf_basis h

/-- **C29** The CP-odd masses of the spectrum are the Goldstone mass `MZ` (Feynman gauge) and `MA`. -/
theorem C29_cp_odd {X : FExt ℝ} {p : Params ℝ} (hu : 0 < p.vu) (hd : 0 < p.vd) (hX : SolverOK X.toExt (matAh p)) :
    (spectrum X p).M2Ah = ⟨min (specM2VZ p) (p.MA ^ 2), max (specM2VZ p) (p.MA ^ 2)⟩ := by
  have hb := basis_of rfl hX
  have h1 : p.vd ^ 2 + p.vu ^ 2 ≠ 0 := by positivity
  have h2 : p.vu * p.vu + p.vd * p.vd ≠ 0 := by positivity
  have hz : 0 ≤ specM2VZ p := by rw [gY2]; positivity
  refine hb.eq_of_trace_det (le_min hz (sq_nonneg _)) min_le_max ?_ ?_
  · rw [min_add_max, gY2]
    unfold matAh specBmu
    simp only [real_ofNat, pow2, fpow3]
    push_cast
    field_simp
    ring
  · rw [min_mul_max, gY2]
    unfold matAh specBmu
    simp only [real_ofNat, pow2, fpow3]
    push_cast
    field_simp
    ring

/-- **C29** The charged masses of the spectrum are the Goldstone mass `MW` and `sqrt(MA² + MW²)`. -/
theorem C29_charged {X : FExt ℝ} {p : Params ℝ} (hu : 0 < p.vu) (hd : 0 < p.vd) (hX : SolverOK X.toExt (matHpm p)) :
    (spectrum X p).M2Hpm = ⟨specM2VWm p, p.MA ^ 2 + specM2VWm p⟩ := by
  have hb := basis_of rfl hX
  have h1 : p.vd ^ 2 + p.vu ^ 2 ≠ 0 := by positivity
  have h2 : p.vu * p.vu + p.vd * p.vd ≠ 0 := by positivity
  have hw : 0 ≤ specM2VWm p := by rw [w2]; positivity
  refine hb.eq_of_trace_det hw (by nlinarith [sq_nonneg p.MA]) ?_ ?_
  · rw [w2]
    unfold matHpm specBmu
    simp only [real_ofNat, pow2, fpow3]
    push_cast
    field_simp
    ring
  · rw [w2]
    unfold matHpm specBmu
    simp only [real_ofNat, pow2, fpow3]
    push_cast
    field_simp
    ring

/-- **C29** The CP-even masses of the spectrum: sum rule, product, and the bound on the light mass. -/
theorem C29_cp_even {X : FExt ℝ} {p : Params ℝ} (hu : 0 < p.vu) (hd : 0 < p.vd) (hX : SolverOK X.toExt (matHh p)) :
    (spectrum X p).M2hh.x0 + (spectrum X p).M2hh.x1 = specM2VZ p + p.MA ^ 2 ∧
    (spectrum X p).M2hh.x0 * (spectrum X p).M2hh.x1 = specM2VZ p * p.MA ^ 2 * cos2betaSq p ∧
    0 ≤ (spectrum X p).M2hh.x0 ∧ (spectrum X p).M2hh.x0 ≤ specM2VZ p * cos2betaSq p ∧
    (spectrum X p).M2hh.x0 ≤ p.MA ^ 2 * cos2betaSq p := by
  have hb := basis_of rfl hX
  have h1 : p.vd ^ 2 + p.vu ^ 2 ≠ 0 := by positivity
  have h2 : p.vu * p.vu + p.vd * p.vd ≠ 0 := by positivity
  have hz : 0 ≤ specM2VZ p := by rw [gY2]; positivity
  have ht : (spectrum X p).M2hh.x0 + (spectrum X p).M2hh.x1 = specM2VZ p + p.MA ^ 2 := by
    refine hb.trace.trans ?_
    rw [gY2]
    unfold matHh specBmu
    simp only [real_ofNat, pow2, fpow3]
    push_cast
    field_simp
    ring
  have hdt : (spectrum X p).M2hh.x0 * (spectrum X p).M2hh.x1 = specM2VZ p * p.MA ^ 2 * cos2betaSq p := by
    refine hb.det.trans ?_
    rw [gY2, cos2betaSq_eq hu hd]
    unfold matHh specBmu
    simp only [real_ofNat, pow2, fpow3]
    push_cast
    field_simp
    ring
  obtain ⟨c0, c1⟩ := c2_bounds p
  have hsort : |(spectrum X p).M2hh.x0| ≤ |(spectrum X p).M2hh.x1| := hb.sorted
  have hle : (spectrum X p).M2hh.x0 ≤ (spectrum X p).M2hh.x1 := by
    generalize (spectrum X p).M2hh = w at *
    have hs : 0 ≤ w.x0 + w.x1 := by rw [ht]; nlinarith [sq_nonneg p.MA]
    rcases le_total 0 w.x1 with h | h
    · rw [abs_of_nonneg h] at hsort; exact le_trans (le_abs_self _) hsort
    · rw [abs_of_nonpos h] at hsort
      have h0 : 0 ≤ w.x0 := by linarith
      rw [abs_of_nonneg h0] at hsort
      have e : w.x0 = -w.x1 := by linarith
      have hp : 0 ≤ w.x0 * w.x1 := by rw [hdt]; have := mul_nonneg hz (sq_nonneg p.MA); exact mul_nonneg this c0
      have : w.x1 = 0 := by nlinarith
      rw [e, this]; simp
  obtain ⟨b1, b2, b3, -⟩ := eig_bound hz (sq_nonneg p.MA) c0 c1 ht hdt hle
  exact ⟨ht, hdt, b1, b2, b3⟩

/-- A solver as assumed exists: every symmetric matrix can be diagonalised. -/
theorem exists_solver : ∃ X : Ext ℝ, ∀ m : Mat2 ℝ, SolverOK X m := by
  have h : ∀ a b d : ℝ, ∃ (w : Vec2 ℝ) (v : Mat2 ℝ), ∀ X : Ext ℝ, X.eigVal ⟨a, b, b, d⟩ = w → X.eigVec ⟨a, b, b, d⟩ = v →
      Diagonalised X a b d := by
    intro a b d
    obtain ⟨u, v, hn, hq⟩ := eig_frame a b d
    refine ⟨⟨minEig a b d, maxEig a b d⟩, ⟨u, v, v, -u⟩, fun X hw hv => ?_⟩
    have h1 := hq 1 0; have h2 := hq 0 1; have h3 := hq 1 1
    have hle : minEig a b d ≤ maxEig a b d := by
      unfold minEig maxEig; linarith [Real.sqrt_nonneg ((a - d) ^ 2 + 4 * b ^ 2)]
    constructor <;> (try rw [hv]) <;> (try rw [hw]) <;> dsimp only <;> first | exact hle | nlinarith
  refine ⟨⟨fun _ _ => 0, fun m => (h m.m00 m.m01 m.m11).choose, fun m => (h m.m00 m.m01 m.m11).choose_spec.choose⟩, ?_⟩
  intro m
  exact (h m.m00 m.m01 m.m11).choose_spec.choose_spec _ rfl rfl

/-! ### C30 -/

/-- The electroweak and fermion masses are the ones derived from couplings and VEVs (Himalaya_interface.hpp:60-64: used if the
user does not give them). -/
structure DerivedMasses (p : Params ℝ) : Prop where
  MW : p.MW = p.g2 / 2 * Real.sqrt (p.vu ^ 2 + p.vd ^ 2)
  MZ : p.MZ = Real.sqrt ((3/5 * p.g1 ^ 2 + p.g2 ^ 2) * (p.vu ^ 2 + p.vd ^ 2)) / 2
  Mt : p.Mt = p.Yu 2 2 * p.vu / Real.sqrt 2
  Mb : p.Mb = p.Yd 2 2 * p.vd / Real.sqrt 2
  Mtau : p.Mtau = p.Ye 2 2 * p.vd / Real.sqrt 2

private theorem DerivedMasses.sq {p : Params ℝ} (h : DerivedMasses p) :
    p.MW ^ 2 = specM2VWm p ∧ p.MZ ^ 2 = specM2VZ p ∧ p.Mt ^ 2 = (p.Yu 2 2 * p.vu) ^ 2 / 2 ∧
    p.Mb ^ 2 = (p.Yd 2 2 * p.vd) ^ 2 / 2 ∧ p.Mtau ^ 2 = (p.Ye 2 2 * p.vd) ^ 2 / 2 := by
  have h2 : Real.sqrt 2 ^ 2 = 2 := Real.sq_sqrt (by norm_num)
  rw [w2, gY2, h.MW, h.MZ, h.Mt, h.Mb, h.Mtau]
  refine ⟨?_, ?_, ?_, ?_, ?_⟩
  · rw [mul_pow, Real.sq_sqrt (by positivity)]; ring
  · rw [div_pow, Real.sq_sqrt (by positivity)]; ring
  · rw [div_pow, h2]
  · rw [div_pow, h2]
  · rw [div_pow, h2]

private theorem sw2_mul {p : Params ℝ} (h : DerivedMasses p) (hu : 0 < p.vu) (hd : 0 < p.vd) :
    calc_sw2 p.MW p.MZ * p.MZ ^ 2 = 3/20 * p.g1 ^ 2 * (p.vd ^ 2 + p.vu ^ 2) := by
  obtain ⟨hW, hZ, -⟩ := h.sq
  unfold calc_sw2 calc_cw2
  simp only [real_isFinite, if_true, real_ofNat, pow2]
  push_cast
  by_cases h0 : p.MZ = 0
  · rw [h0]
    rw [h0, gY2] at hZ
    have h1 : 0 < p.vd ^ 2 + p.vu ^ 2 := by positivity
    have : p.g1 ^ 2 = 0 := by
      have : (3/5 * p.g1 ^ 2 + p.g2 ^ 2) * (p.vd ^ 2 + p.vu ^ 2) = 0 := by linarith [hZ]
      rcases mul_eq_zero.1 this with h2 | h2
      · nlinarith [sq_nonneg p.g1, sq_nonneg p.g2]
      · exact absurd h2 h1.ne'
    rw [this]; ring
  · have : (1 - p.MW / p.MZ * (p.MW / p.MZ)) * p.MZ ^ 2 = p.MZ ^ 2 - p.MW ^ 2 := by field_simp
    rw [this, hZ, hW, gY2, w2]; ring

/-- **C30** With derived electroweak and fermion masses the third-generation sfermion mass matrices that `validate`
diagonalises are the ones of the fixed-order spectrum. -/
theorem C30_same_matrices {p : Params ℝ} (h : DerivedMasses p) (hu : 0 < p.vu) (hd : 0 < p.vd) :
    matUp p 2 (p.Yu 2 2) = stopMatrix p ∧ matDown p 2 (p.Yd 2 2) = sbottomMatrix p ∧
    matLep p 2 (p.Ye 2 2) = stauMatrix p := by
  obtain ⟨hW, hZ, ht, hb, htau⟩ := h.sq
  have hs := sw2_mul h hu hd
  rw [gY2] at hZ
  have hv : p.vd ^ 2 + p.vu ^ 2 ≠ 0 := by positivity
  have hv' : p.vu ^ 2 + p.vd ^ 2 ≠ 0 := by positivity
  have h2 : Real.sqrt 2 ≠ 0 := by positivity
  have hc : calc_cos2beta p.vu p.vd * (p.vd ^ 2 + p.vu ^ 2) = p.vd ^ 2 - p.vu ^ 2 := by
    unfold calc_cos2beta calc_v2
    simp only [pow2]
    field_simp
    ring
  -- D-term combinations
  have d1 : ∀ c : ℝ, c * p.MZ ^ 2 * calc_cos2beta p.vu p.vd = c * (3/5 * p.g1 ^ 2 + p.g2 ^ 2) / 4 * (p.vd ^ 2 - p.vu ^ 2) := by
    intro c; rw [hZ]; linear_combination c * (3/5 * p.g1 ^ 2 + p.g2 ^ 2) / 4 * hc
  have d2 : calc_sw2 p.MW p.MZ * p.MZ ^ 2 * calc_cos2beta p.vu p.vd = 3/20 * p.g1 ^ 2 * (p.vd ^ 2 - p.vu ^ 2) := by
    rw [hs]; linear_combination 3/20 * p.g1 ^ 2 * hc
  have x1 := d1 (1/2)
  refine ⟨?_, ?_, ?_⟩
  · unfold matUp stopMatrix
    simp only [real_lit, real_ofNat, pow2, real_const, Const.value]
    push_cast
    generalize calc_sw2 p.MW p.MZ = sw at *
    generalize calc_cos2beta p.vu p.vd = c2 at *
    congr 1
    · linear_combination (-1) * ht - x1 + 2/3 * d2
    · rw [h.Mt]; field_simp
    · rw [h.Mt]; field_simp
    · linear_combination (-1) * ht - 2/3 * d2
  · unfold matDown sbottomMatrix
    simp only [real_lit, real_ofNat, pow2, real_const, Const.value]
    push_cast
    generalize calc_sw2 p.MW p.MZ = sw at *
    generalize calc_cos2beta p.vu p.vd = c2 at *
    congr 1
    · linear_combination (-1) * hb + x1 - 1/3 * d2
    · rw [h.Mb]; field_simp
    · rw [h.Mb]; field_simp
    · linear_combination (-1) * hb + 1/3 * d2
  · unfold matLep stauMatrix
    simp only [real_lit, real_ofNat, pow2, real_const, Const.value]
    push_cast
    generalize calc_sw2 p.MW p.MZ = sw at *
    generalize calc_cos2beta p.vu p.vd = c2 at *
    congr 1
    · linear_combination (-1) * htau + x1 - d2
    · rw [h.Mtau]; field_simp
    · rw [h.Mtau]; field_simp
    · linear_combination (-1) * htau + d2

/-- The parameter point with finite entries `p` has the real values `r` in the fields that enter the sfermion matrices, and the
electroweak and fermion masses are not given. -/
structure SamePoint (X : Ext Dbl) (p : Params Dbl) (r : Params ℝ) : Prop where
  vu : p.vu = .fin r.vu
  vd : p.vd = .fin r.vd
  mu : p.mu = .fin r.mu
  g1 : p.g1 = .fin r.g1
  g2 : p.g2 = .fin r.g2
  mq2 : p.mq2 2 2 = .fin (r.mq2 2 2)
  mu2 : p.mu2 2 2 = .fin (r.mu2 2 2)
  md2 : p.md2 2 2 = .fin (r.md2 2 2)
  ml2 : p.ml2 2 2 = .fin (r.ml2 2 2)
  me2 : p.me2 2 2 = .fin (r.me2 2 2)
  Au : p.Au 2 2 = .fin (r.Au 2 2)
  Ad : p.Ad 2 2 = .fin (r.Ad 2 2)
  Ae : p.Ae 2 2 = .fin (r.Ae 2 2)
  Yu : h_svd X p.Yu 2 2 = .fin (r.Yu 2 2)
  Yd : h_svd X p.Yd 2 2 = .fin (r.Yd 2 2)
  Ye : h_svd X p.Ye 2 2 = .fin (r.Ye 2 2)
  MW : p.MW = .nan
  MZ : p.MZ = .nan
  Mt : p.Mt = .nan
  Mb : p.Mb = .nan
  Mtau : p.Mtau = .nan

private theorem v_pow (x y : ℝ) : calc_v2 x y = x ^ 2 + y ^ 2 := by unfold calc_v2; simp only [pow2]; ring

/-- a symmetric real matrix as a matrix of doubles -/
def dblMat (m : Mat2 ℝ) : Mat2 Dbl := ⟨.fin m.m00, .fin m.m01, .fin m.m10, .fin m.m11⟩

/-- **C30** The matrices `validate` diagonalises for a point without electroweak and fermion masses (they are the arguments of
the eigensolver in `computeSfermions`) are the mass matrices of the fixed-order spectrum for the same couplings, VEVs and soft
parameters. -/
theorem C30_validate {X : Ext Dbl} {p : Params Dbl} {r : Params ℝ} (h : SamePoint X p r) (hu : 0 < r.vu) (hd : 0 < r.vd)
    (hg : r.g1 ≠ 0 ∨ r.g2 ≠ 0) :
    stopMatrix (prep X p) = dblMat (matUp r 2 (r.Yu 2 2)) ∧
    sbottomMatrix (prep X p) = dblMat (matDown r 2 (r.Yd 2 2)) ∧
    stauMatrix (prep X p) = dblMat (matLep r 2 (r.Ye 2 2)) := by
  have hv : 0 < r.vu ^ 2 + r.vd ^ 2 := by positivity
  have hG : 0 < 3/5 * r.g1 ^ 2 + r.g2 ^ 2 := by
    rcases hg with h0 | h0 <;> positivity
  have s2 : Real.sqrt 2 ≠ 0 := by positivity
  set MW := r.g2 / 2 * Real.sqrt (r.vu ^ 2 + r.vd ^ 2) with eW
  set MZ := Real.sqrt ((3/5 * r.g1 ^ 2 + r.g2 ^ 2) * (r.vu ^ 2 + r.vd ^ 2)) / 2 with eZ
  have hZ : 0 < MZ := by rw [eZ]; positivity
  set Mt := r.Yu 2 2 * r.vu / Real.sqrt 2 with et
  set Mb := r.Yd 2 2 * r.vd / Real.sqrt 2 with eb
  set Mtau := r.Ye 2 2 * r.vd / Real.sqrt 2 with etau
  let r' : Params ℝ := { r with MW := MW, MZ := MZ, Mt := Mt, Mb := Mb, Mtau := Mtau }
  have hv2 : calc_v2 p.vu p.vd = .fin (r.vu ^ 2 + r.vd ^ 2) := by
    rw [h.vu, h.vd]
    simp only [calc_v2, pow2, Dbl.fin_mul, Dbl.fin_add]
    congr 1; ring
  have pW : (prep X p).MW = .fin MW := by
    show (if FOps.isNaN p.MW then FOps.lit (1/2) * p.g2 * FOps.sqrt (calc_v2 p.vu p.vd) else p.MW) = _
    rw [h.MW, hv2, h.g2]
    show FOps.lit (1/2) * Dbl.fin r.g2 * FOps.sqrt (Dbl.fin (r.vu ^ 2 + r.vd ^ 2)) = _
    rw [Dbl.fin_sqrt _ hv.le, Dbl.fin_lit, Dbl.fin_mul, Dbl.fin_mul]
    congr 1; rw [eW]; push_cast; ring
  have pZ : (prep X p).MZ = .fin MZ := by
    show (if FOps.isNaN p.MZ then FOps.lit (1/2) * FOps.sqrt ((FOps.lit (6/10) * pow2 p.g1 + pow2 p.g2) * calc_v2 p.vu p.vd)
      else p.MZ) = _
    rw [h.MZ, hv2, h.g2, h.g1]
    show FOps.lit (1/2) * FOps.sqrt ((FOps.lit (6/10) * pow2 (Dbl.fin r.g1) + pow2 (Dbl.fin r.g2)) * Dbl.fin (r.vu ^ 2 + r.vd ^ 2)) = _
    simp only [pow2, Dbl.fin_lit, Dbl.fin_mul, Dbl.fin_add]
    have e : ((6/10 : ℚ) : ℝ) * (r.g1 * r.g1) + r.g2 * r.g2 = 3/5 * r.g1 ^ 2 + r.g2 ^ 2 := by push_cast; ring
    rw [e, Dbl.fin_sqrt _ (by positivity), Dbl.fin_mul]
    congr 1; rw [eZ]; push_cast; ring
  have yuk : ∀ a b : ℝ, (cInvSqrt2 * Dbl.fin a * Dbl.fin b : Dbl) = .fin (a * b / Real.sqrt 2) := by
    intro a b
    show FOps.const .invSqrt2 * Dbl.fin a * Dbl.fin b = _
    rw [Dbl.fin_const, Dbl.fin_mul, Dbl.fin_mul]
    congr 1; unfold Const.value; field_simp
  have pt : (prep X p).Mt = .fin Mt := by
    show (if FOps.isNaN p.Mt then cInvSqrt2 * h_svd X p.Yu 2 2 * p.vu else p.Mt) = _
    rw [h.Mt, h.Yu, h.vu]; exact yuk _ _
  have pb : (prep X p).Mb = .fin Mb := by
    show (if FOps.isNaN p.Mb then cInvSqrt2 * h_svd X p.Yd 2 2 * p.vd else p.Mb) = _
    rw [h.Mb, h.Yd, h.vd]; exact yuk _ _
  have ptau : (prep X p).Mtau = .fin Mtau := by
    show (if FOps.isNaN p.Mtau then cInvSqrt2 * h_svd X p.Ye 2 2 * p.vd else p.Mtau) = _
    rw [h.Mtau, h.Ye, h.vd]; exact yuk _ _
  obtain ⟨m1, m2, m3⟩ := C16_mass_matrices (prep X p) h.vu h.vd hu hd h.mu pW pZ hZ.ne' pt pb ptau h.mq2 h.mu2 h.md2 h.ml2
    h.me2 h.Au h.Ad h.Ae
  have hD : DerivedMasses r' := ⟨rfl, rfl, rfl, rfl, rfl⟩
  obtain ⟨n1, n2, n3⟩ := C30_same_matrices hD hu hd
  have c2 : Real.cos (2 * Real.arctan (r.vu / r.vd)) = calc_cos2beta r.vu r.vd := by
    rw [cos_two_arctan]; unfold calc_cos2beta; rw [v_pow]
    simp only [pow2]
    have := hd.ne'; field_simp; ring
  have sw : calc_sw2 MW MZ = 1 - MW ^ 2 / MZ ^ 2 := by
    unfold calc_sw2 calc_cw2
    simp only [real_isFinite, if_true, real_ofNat, pow2]
    push_cast
    field_simp
  have q1 : stopMatrix r' = matUp r 2 (r.Yu 2 2) := n1.symm
  have q2 : sbottomMatrix r' = matDown r 2 (r.Yd 2 2) := n2.symm
  have q3 : stauMatrix r' = matLep r 2 (r.Ye 2 2) := n3.symm
  rw [m1, m2, m3, ← q1, ← q2, ← q3]
  refine ⟨?_, ?_, ?_⟩
  · unfold finMat dblMat stopMassMatrix stopMatrix
    simp only [real_lit, real_ofNat, pow2, Real.tan_arctan, c2, Mat2.mk.injEq, Dbl.fin.injEq, sw, r']
    push_cast
    refine ⟨?_, ?_, ?_, ?_⟩ <;> first | trivial | ring1
  · unfold finMat dblMat sbottomMassMatrix sbottomMatrix
    simp only [real_lit, real_ofNat, pow2, Real.tan_arctan, c2, Mat2.mk.injEq, Dbl.fin.injEq, sw, r']
    push_cast
    refine ⟨?_, ?_, ?_, ?_⟩ <;> first | trivial | ring1
  · unfold finMat dblMat stauMassMatrix stauMatrix
    simp only [real_lit, real_ofNat, pow2, Real.tan_arctan, c2, Mat2.mk.injEq, Dbl.fin.injEq, sw, r']
    push_cast
    refine ⟨?_, ?_, ?_, ?_⟩ <;> first | trivial | ring1

/-- a concrete point meeting the hypotheses of `C30_validate`: `demo` without electroweak and fermion masses -/
example : ∃ (p : Params Dbl) (r : Params ℝ), SamePoint idealExt p r ∧ 0 < r.vu ∧ 0 < r.vd ∧ (r.g1 ≠ 0 ∨ r.g2 ≠ 0) ∧
    r.Au 2 2 ≠ 0 ∧ r.mu ≠ 0 := by
  obtain ⟨a, ha⟩ : IsFin (h_svd idealExt (demo 1 1).Yu 2 2) := by
    unfold h_svd; rw [if_pos rfl]; exact idealExt_finite.svd _ (demo_finite zero_le_one zero_le_one).Yu _
  obtain ⟨b, hb⟩ : IsFin (h_svd idealExt (demo 1 1).Yd 2 2) := by
    unfold h_svd; rw [if_pos rfl]; exact idealExt_finite.svd _ (demo_finite zero_le_one zero_le_one).Yd _
  obtain ⟨c, hc⟩ : IsFin (h_svd idealExt (demo 1 1).Ye 2 2) := by
    unfold h_svd; rw [if_pos rfl]; exact idealExt_finite.svd _ (demo_finite zero_le_one zero_le_one).Ye _
  refine ⟨{ demo 1 1 with MW := .nan, MZ := .nan, Mt := .nan, Mb := .nan, Mtau := .nan },
    { examplePoint with
        vu := 240, vd := 60, mu := 100, g1 := 1/2, g2 := 3/5, mq2 := (fun _ _ => 1000000),
        mu2 := (fun _ _ => 2000000), md2 := (fun _ _ => 1000000), ml2 := (fun _ _ => 1000000), me2 := (fun _ _ => 1000000),
        Au := (fun _ _ => 200), Ad := (fun _ _ => 100), Ae := (fun _ _ => 100), Yu := (fun _ _ => a), Yd := (fun _ _ => b),
        Ye := (fun _ _ => c) },
    ⟨rfl, rfl, rfl, rfl, rfl, rfl, rfl, rfl, rfl, rfl, rfl, rfl, rfl, ha, hb, hc, rfl, rfl, rfl, rfl, rfl⟩,
    by norm_num, by norm_num, by norm_num, by norm_num, by norm_num⟩

/-- a point with `DerivedMasses`, non-zero couplings and VEVs -/
example : ∃ p : Params ℝ, DerivedMasses p ∧ 0 < p.vu ∧ 0 < p.vd ∧ p.Yu 2 2 ≠ 0 ∧ p.g2 ≠ 0 :=
  ⟨{ examplePoint with
      g1 := 1, g2 := 1, Yu := fun _ _ => 1, MW := (1:ℝ) / 2 * Real.sqrt (1 ^ 2 + 1 ^ 2),
      MZ := Real.sqrt ((3/5 * 1 ^ 2 + 1 ^ 2) * (1 ^ 2 + 1 ^ 2)) / 2, Mt := 1 * 1 / Real.sqrt 2, Mb := 0 * 1 / Real.sqrt 2,
      Mtau := 0 * 1 / Real.sqrt 2 },
    ⟨rfl, rfl, rfl, rfl, rfl⟩, by norm_num [examplePoint], by norm_num [examplePoint], by norm_num, by norm_num⟩

/-- the solver hypotheses of `C29_cp_odd`, `C29_charged` and `C29_cp_even` can be met, for every point -/
example : ∃ X : FExt ℝ, ∀ p : Params ℝ,
    SolverOK X.toExt (matAh p) ∧ SolverOK X.toExt (matHpm p) ∧ SolverOK X.toExt (matHh p) := by
  obtain ⟨X, h⟩ := exists_solver
  exact ⟨⟨X, fun _ => (fun _ => 0, fun _ _ => 0), fun m => (⟨0, 0⟩, m, m)⟩, fun p => ⟨h _, h _, h _⟩⟩

end Himalaya
