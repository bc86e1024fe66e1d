import Verif.Linalg.Model
import Mathlib.Analysis.Asymptotics.Lemmas
import Mathlib.Topology.Algebra.Polynomial
import Mathlib.Tactic.LinearCombination
import Mathlib.Tactic.FieldSimp
import Mathlib.Tactic.Positivity

/-!
# C28: perturbative diagonalisation is exact order by order
-/

set_option linter.unusedSimpArgs false
set_option linter.unusedVariables false

namespace Himalaya

/-- `x` is an eigenvalue of the symmetric matrix with elements (0,0), (0,1), (1,1) equal to `a`, `b`, `c`: the characteristic
polynomial vanishes. -/
def charPoly (a b c x : ℝ) : ℝ := (a - x) * (c - x) - b * b

/-- the smaller eigenvalue of the symmetric matrix with elements `a`, `b`, `c`, as the minimum of the quadratic form on the unit
circle -/
def IsMinEig (a b c x : ℝ) : Prop :=
  (∀ u v : ℝ, u^2 + v^2 = 1 → x ≤ a*u^2 + 2*b*u*v + c*v^2) ∧ ∃ u v : ℝ, u^2 + v^2 = 1 ∧ a*u^2 + 2*b*u*v + c*v^2 = x
/-- the larger eigenvalue -/
def IsMaxEig (a b c x : ℝ) : Prop :=
  (∀ u v : ℝ, u^2 + v^2 = 1 → a*u^2 + 2*b*u*v + c*v^2 ≤ x) ∧ ∃ u v : ℝ, u^2 + v^2 = 1 ∧ a*u^2 + 2*b*u*v + c*v^2 = x

/-- the matrix `m0 + t m1 + t^2 m2 + t^3 m3` -/
def series (m0 m1 m2 m3 : Mat2 ℝ) (t : ℝ) : Mat2 ℝ := m0 + Mat2.smul t m1 + Mat2.smul (t^2) m2 + Mat2.smul (t^3) m3

/-- difference of the tree-level eigenvalues is nonzero -/
def NonDegenerate (m : Mat2 ℝ) : Prop := ¬ (m.m00 = m.m11 ∧ m.m01 = 0)

section
variable (m0 m1 m2 m3 : Mat2 ℝ)

/-- the four pairs of numbers of the source -/
private noncomputable def gap : ℝ := Real.sqrt ((m0.m00 - m0.m11)^2 + 4 * m0.m01^2)
private noncomputable def k4 : ℝ := ((m0.m00 - m0.m11)*(m1.m00 - m1.m11) + 4*m0.m01*m1.m01) / gap m0
private noncomputable def k6 : ℝ :=
  ((m1.m00 - m1.m11)^2 + 4*m1.m01^2 - (k4 m0 m1)^2 + 2*(m0.m00 - m0.m11)*(m2.m00 - m2.m11) + 8*m0.m01*m2.m01) / (2 * gap m0)
private noncomputable def k8 : ℝ :=
  ((m1.m00 - m1.m11)*(m2.m00 - m2.m11) + 4*m1.m01*m2.m01 + (m0.m00 - m0.m11)*(m3.m00 - m3.m11) + 4*m0.m01*m3.m01
    - k4 m0 m1 * k6 m0 m1 m2) / gap m0

private theorem gap_pos (h : NonDegenerate m0) : 0 < gap m0 := by
  apply Real.sqrt_pos.2
  by_contra hc
  have h1 : (m0.m00 - m0.m11)^2 = 0 := by nlinarith [sq_nonneg (m0.m00 - m0.m11), sq_nonneg m0.m01]
  have h2 : m0.m01^2 = 0 := by nlinarith [sq_nonneg (m0.m00 - m0.m11), sq_nonneg m0.m01]
  exact h ⟨by have := pow_eq_zero_iff (two_ne_zero) |>.1 h1; linarith, pow_eq_zero_iff (two_ne_zero) |>.1 h2⟩

private theorem gap_sq : gap m0 ^ 2 = (m0.m00 - m0.m11)^2 + 4 * m0.m01^2 := by
  unfold gap
  rw [Real.sq_sqrt]; positivity

private theorem diag_eq (h : NonDegenerate m0) : diagPert m0 m1 m2 m3 =
    ⟨⟨(m0.m00 + m0.m11 - gap m0)/2, (m0.m00 + m0.m11 + gap m0)/2⟩,
     ⟨(m1.m00 + m1.m11 - k4 m0 m1)/2, (m1.m00 + m1.m11 + k4 m0 m1)/2⟩,
     ⟨(m2.m00 + m2.m11 - k6 m0 m1 m2)/2, (m2.m00 + m2.m11 + k6 m0 m1 m2)/2⟩,
     ⟨(m3.m00 + m3.m11 - k8 m0 m1 m2 m3)/2, (m3.m00 + m3.m11 + k8 m0 m1 m2 m3)/2⟩⟩ := by
  have hg := gap_pos m0 h
  have e2 : Real.sqrt (m0.m00 * m0.m00 + 4*(m0.m01*m0.m01) - 2*m0.m00*m0.m11 + m0.m11*m0.m11) = gap m0 := by
    unfold gap; congr 1; ring
  have e4 : (m0.m00*m1.m00 - m0.m11*m1.m00 + 4*m0.m01*m1.m01 - m0.m00*m1.m11 + m0.m11*m1.m11)/gap m0 = k4 m0 m1 := by
    unfold k4; congr 1; ring
  unfold diagPert
  simp only [pow2, real_ofNat, real_lit, real_sqrt, Nat.cast_ofNat, e2, e4]
  have e6 : ((1/2 : ℚ) : ℝ) * (m1.m00 * m1.m00 + 4 * (m1.m01 * m1.m01) - 2 * m1.m00 * m1.m11 + m1.m11 * m1.m11
      - k4 m0 m1 * k4 m0 m1 + 2 * m0.m00 * m2.m00 - 2 * m0.m11 * m2.m00 + 8 * m0.m01 * m2.m01 - 2 * m0.m00 * m2.m11
      + 2 * m0.m11 * m2.m11) / gap m0 = k6 m0 m1 m2 := by
    unfold k6; push_cast; field_simp; ring
  have e8 : ((1/2 : ℚ) : ℝ) / gap m0 * (2 * (4 * m1.m01 * m2.m01 + m1.m00 * (m2.m00 - m2.m11) + m1.m11 * (-m2.m00 + m2.m11)
      + m0.m00 * m3.m00 - m0.m11 * m3.m00 + 4 * m0.m01 * m3.m01 - m0.m00 * m3.m11 + m0.m11 * m3.m11)
      + k4 m0 m1 * (2 * m1.m00 * m1.m11 - 2 * m0.m00 * m2.m00 + 2 * m0.m11 * m2.m00 - 8 * m0.m01 * m2.m01
        + 2 * m0.m00 * m2.m11 - 2 * m0.m11 * m2.m11 - m1.m00 * m1.m00 - 4 * (m1.m01 * m1.m01) - m1.m11 * m1.m11
        + k4 m0 m1 * k4 m0 m1) / gap m0) = k8 m0 m1 m2 m3 := by
    unfold k8 k6; push_cast; field_simp; ring
  rw [e6, e8]
  push_cast
  congr 2 <;> ring

private theorem q4 (h : NonDegenerate m0) : gap m0 * k4 m0 m1 = (m0.m00 - m0.m11)*(m1.m00 - m1.m11) + 4*m0.m01*m1.m01 := by
  have := (gap_pos m0 h).ne'
  unfold k4; field_simp
private theorem q6 (h : NonDegenerate m0) : 2 * gap m0 * k6 m0 m1 m2 = (m1.m00 - m1.m11)^2 + 4*m1.m01^2 - (k4 m0 m1)^2 +
    2*(m0.m00 - m0.m11)*(m2.m00 - m2.m11) + 8*m0.m01*m2.m01 := by
  have := (gap_pos m0 h).ne'
  unfold k6; field_simp
private theorem q8 (h : NonDegenerate m0) : gap m0 * k8 m0 m1 m2 m3 = (m1.m00 - m1.m11)*(m2.m00 - m2.m11) + 4*m1.m01*m2.m01 +
    (m0.m00 - m0.m11)*(m3.m00 - m3.m11) + 4*m0.m01*m3.m01 - k4 m0 m1 * k6 m0 m1 m2 := by
  have := (gap_pos m0 h).ne'
  unfold k8; field_simp

/-- the lower and upper truncated series evaluated at `t` -/
noncomputable def lowSeries (t : ℝ) : ℝ :=
  let r := diagPert m0 m1 m2 m3
  r.l0.x0 + t * r.l1.x0 + t^2 * r.l2.x0 + t^3 * r.l3.x0
noncomputable def highSeries (t : ℝ) : ℝ :=
  let r := diagPert m0 m1 m2 m3
  r.l0.x1 + t * r.l1.x1 + t^2 * r.l2.x1 + t^3 * r.l3.x1

/-- **C28** Order by order: inserting either returned series into the characteristic polynomial of
`m0 + t m1 + t^2 m2 + t^3 m3`, the terms of order t^0, t^1, t^2, t^3 cancel; what is left is t^4 times a polynomial in t. -/
theorem C28_characteristic_polynomial (h : NonDegenerate m0) :
    ∃ r s : ℝ → ℝ, Continuous r ∧ Continuous s ∧ ∀ t,
      charPoly (series m0 m1 m2 m3 t).m00 (series m0 m1 m2 m3 t).m01 (series m0 m1 m2 m3 t).m11 (lowSeries m0 m1 m2 m3 t) = t^4 * r t ∧
      charPoly (series m0 m1 m2 m3 t).m00 (series m0 m1 m2 m3 t).m01 (series m0 m1 m2 m3 t).m11 (highSeries m0 m1 m2 m3 t) = t^4 * s t := by
  have h0 := gap_sq m0
  have h1 := q4 m0 m1 h
  have h2 := q6 m0 m1 m2 h
  have h3 := q8 m0 m1 m2 m3 h
  unfold lowSeries highSeries
  rw [diag_eq m0 m1 m2 m3 h]
  have s00 : ∀ t, (series m0 m1 m2 m3 t).m00 = m0.m00 + t * m1.m00 + t^2 * m2.m00 + t^3 * m3.m00 := fun _ => rfl
  have s01 : ∀ t, (series m0 m1 m2 m3 t).m01 = m0.m01 + t * m1.m01 + t^2 * m2.m01 + t^3 * m3.m01 := fun _ => rfl
  have s11 : ∀ t, (series m0 m1 m2 m3 t).m11 = m0.m11 + t * m1.m11 + t^2 * m2.m11 + t^3 * m3.m11 := fun _ => rfl
  simp only [s00, s01, s11, charPoly]
  generalize gap m0 = g at *
  generalize k4 m0 m1 = x4 at *
  generalize k6 m0 m1 m2 = x6 at *
  generalize k8 m0 m1 m2 m3 = x8 at *
  let r : ℝ → ℝ := fun t => ((x6 + t*x8)^2 + 2*x4*x8
    - (m2.m00 - m2.m11 + t * (m3.m00 - m3.m11))^2 - 4*(m2.m01 + t*m3.m01)^2
    - 2*((m1.m00 - m1.m11)*(m3.m00 - m3.m11) + 4*m1.m01*m3.m01)) / 4
  refine ⟨r, r, ?_, ?_, fun t => ⟨?_, ?_⟩⟩
  · fun_prop
  · fun_prop
  · show _ = t^4 * (_/4)
    linear_combination (1/4 : ℝ) * h0 + (t/2) * h1 + (t^2/4) * h2 + (t^3/2) * h3
  · show _ = t^4 * (_/4)
    linear_combination (1/4 : ℝ) * h0 + (t/2) * h1 + (t^2/4) * h2 + (t^3/2) * h3

/-- The tree-level results are the two eigenvalues of `m0`, the lighter one first. -/
theorem C28_tree_level (m0 m1 m2 m3 : Mat2 ℝ) :
    charPoly m0.m00 m0.m01 m0.m11 (diagPert m0 m1 m2 m3).l0.x0 = 0 ∧
    charPoly m0.m00 m0.m01 m0.m11 (diagPert m0 m1 m2 m3).l0.x1 = 0 ∧
    (diagPert m0 m1 m2 m3).l0.x0 ≤ (diagPert m0 m1 m2 m3).l0.x1 ∧
    (diagPert m0 m1 m2 m3).l0.x0 + (diagPert m0 m1 m2 m3).l0.x1 = m0.m00 + m0.m11 := by
  have e2 : Real.sqrt (m0.m00 * m0.m00 + 4*(m0.m01*m0.m01) - 2*m0.m00*m0.m11 + m0.m11*m0.m11) = gap m0 := by
    unfold gap; congr 1; ring
  have hs := gap_sq m0
  have hn : 0 ≤ gap m0 := Real.sqrt_nonneg _
  unfold diagPert charPoly
  simp only [pow2, real_ofNat, real_lit, real_sqrt, Nat.cast_ofNat, e2]
  push_cast
  refine ⟨?_, ?_, ?_, ?_⟩
  · linear_combination (1/4 : ℝ) * hs
  · linear_combination (1/4 : ℝ) * hs
  · linarith
  · ring

/-- At each loop order the two corrections add up to the trace of that order's matrix. -/
theorem C28_traces (m0 m1 m2 m3 : Mat2 ℝ) :
    (diagPert m0 m1 m2 m3).l1.x0 + (diagPert m0 m1 m2 m3).l1.x1 = m1.m00 + m1.m11 ∧
    (diagPert m0 m1 m2 m3).l2.x0 + (diagPert m0 m1 m2 m3).l2.x1 = m2.m00 + m2.m11 ∧
    (diagPert m0 m1 m2 m3).l3.x0 + (diagPert m0 m1 m2 m3).l3.x1 = m3.m00 + m3.m11 := by
  unfold diagPert
  simp only [real_ofNat, real_lit, real_sqrt, Nat.cast_ofNat]
  push_cast
  refine ⟨by ring, by ring, by ring⟩

/-! ### The returned series approximate the true eigenvalues to O(t^4) -/

/-- the smaller true eigenvalue of a symmetric matrix -/
noncomputable def minEig (a b c : ℝ) : ℝ := (a + c - Real.sqrt ((a - c)^2 + 4*b^2)) / 2
/-- the larger one -/
noncomputable def maxEig (a b c : ℝ) : ℝ := (a + c + Real.sqrt ((a - c)^2 + 4*b^2)) / 2

theorem eig_frame (a b c : ℝ) : ∃ u v : ℝ, u^2 + v^2 = 1 ∧
    (∀ x y : ℝ, a*x^2 + 2*b*x*y + c*y^2 = minEig a b c * (x*u + y*v)^2 + maxEig a b c * (x*v - y*u)^2) := by
  set s := Real.sqrt ((a - c)^2 + 4*b^2) with hs
  have hs2 : s^2 = (a - c)^2 + 4*b^2 := Real.sq_sqrt (by positivity)
  have hs0 : 0 ≤ s := Real.sqrt_nonneg _
  by_cases h0 : s = 0
  · have e1 : a = c := by
      have : (a - c)^2 = 0 := by nlinarith [sq_nonneg (a - c), sq_nonneg b]
      have := pow_eq_zero_iff (two_ne_zero) |>.1 this; linarith
    have e2 : b = 0 := by
      have : b^2 = 0 := by nlinarith [sq_nonneg (a - c), sq_nonneg b]
      exact pow_eq_zero_iff (two_ne_zero) |>.1 this
    refine ⟨1, 0, by norm_num, fun x y => ?_⟩
    unfold minEig maxEig
    rw [← hs, h0, e1, e2]; ring
  · have hsp : 0 < s := lt_of_le_of_ne hs0 (Ne.symm h0)
    have hle : |a - c| ≤ s := by
      apply abs_le_of_sq_le_sq _ hs0
      nlinarith [sq_nonneg b]
    have h1 : 0 ≤ (s - (a - c)) / (2*s) := div_nonneg (by have := (abs_le.1 hle).2; linarith) (by positivity)
    have h2 : 0 ≤ (s + (a - c)) / (2*s) := div_nonneg (by have := (abs_le.1 hle).1; linarith) (by positivity)
    -- u^2 = (s-(a-c))/(2s), v^2 = (s+(a-c))/(2s), u v = -b/s
    have hprod : (s - (a - c)) / (2*s) * ((s + (a - c)) / (2*s)) = (b/s)^2 := by
      field_simp
      nlinarith
    obtain ⟨u, v, hu, hv, huv⟩ : ∃ u v : ℝ, u^2 = (s - (a - c)) / (2*s) ∧ v^2 = (s + (a - c)) / (2*s) ∧ u*v = -(b/s) := by
      have hq : Real.sqrt ((s - (a - c)) / (2*s)) * Real.sqrt ((s + (a - c)) / (2*s)) = |b/s| := by
        rw [← Real.sqrt_mul h1, hprod, Real.sqrt_sq_eq_abs]
      rcases le_total 0 (b/s) with hb | hb
      · refine ⟨Real.sqrt ((s - (a - c)) / (2*s)), -Real.sqrt ((s + (a - c)) / (2*s)), Real.sq_sqrt h1, ?_, ?_⟩
        · rw [neg_sq, Real.sq_sqrt h2]
        · rw [abs_of_nonneg hb] at hq; linarith
      · refine ⟨Real.sqrt ((s - (a - c)) / (2*s)), Real.sqrt ((s + (a - c)) / (2*s)), Real.sq_sqrt h1, Real.sq_sqrt h2, ?_⟩
        rw [abs_of_nonpos hb] at hq; linarith
    refine ⟨u, v, ?_, fun x y => ?_⟩
    · rw [hu, hv]; field_simp; ring
    · unfold minEig maxEig
      rw [← hs]
      have e : (a + c - s)/2 * (x*u + y*v)^2 + (a + c + s)/2 * (x*v - y*u)^2 =
          (a + c)/2 * ((x^2 + y^2) * (u^2 + v^2)) - s/2 * (x^2*(u^2 - v^2) + y^2*(v^2 - u^2) + 4*x*y*(u*v)) := by ring
      rw [e, huv, hu, hv]
      field_simp
      ring

theorem minEig_isMin (a b c : ℝ) : IsMinEig a b c (minEig a b c) := by
  obtain ⟨u, v, huv, h⟩ := eig_frame a b c
  have hle : minEig a b c ≤ maxEig a b c := by
    unfold minEig maxEig
    have := Real.sqrt_nonneg ((a - c)^2 + 4*b^2); linarith
  refine ⟨fun x y hxy => ?_, u, v, huv, ?_⟩
  · rw [h]
    have : (x*u + y*v)^2 + (x*v - y*u)^2 = 1 := by
      have : (x*u + y*v)^2 + (x*v - y*u)^2 = (x^2 + y^2) * (u^2 + v^2) := by ring
      rw [this, hxy, huv]; norm_num
    have h2 := mul_nonneg (sub_nonneg.2 hle) (sq_nonneg (x*v - y*u))
    have h3 : minEig a b c * ((x*u + y*v)^2 + (x*v - y*u)^2) = minEig a b c := by rw [this, mul_one]
    linarith
  · rw [h]
    have e : u*v - v*u = 0 := by ring
    rw [e]
    have : (u*u + v*v)^2 = 1 := by
      have : u*u + v*v = 1 := by nlinarith
      rw [this]; norm_num
    rw [this]; ring

theorem maxEig_isMax (a b c : ℝ) : IsMaxEig a b c (maxEig a b c) := by
  obtain ⟨u, v, huv, h⟩ := eig_frame a b c
  have hle : minEig a b c ≤ maxEig a b c := by
    unfold minEig maxEig
    have := Real.sqrt_nonneg ((a - c)^2 + 4*b^2); linarith
  refine ⟨fun x y hxy => ?_, v, -u, ?_, ?_⟩
  · rw [h]
    have : (x*u + y*v)^2 + (x*v - y*u)^2 = 1 := by
      have : (x*u + y*v)^2 + (x*v - y*u)^2 = (x^2 + y^2) * (u^2 + v^2) := by ring
      rw [this, hxy, huv]; norm_num
    have h2 := mul_nonneg (sub_nonneg.2 hle) (sq_nonneg (x*u + y*v))
    have h3 : maxEig a b c * ((x*u + y*v)^2 + (x*v - y*u)^2) = maxEig a b c := by rw [this, mul_one]
    linarith
  · rw [neg_sq]; linarith
  · rw [h]
    have e : v*u + -u*v = 0 := by ring
    rw [e]
    have : (v*v - -u*u)^2 = 1 := by
      have : v*v - -u*u = 1 := by nlinarith
      rw [this]; norm_num
    rw [this]; ring

theorem isMin_unique {a b c x y : ℝ} (h : IsMinEig a b c x) (h' : IsMinEig a b c y) : x = y := by
  obtain ⟨h1, u, v, huv, e⟩ := h
  obtain ⟨h1', u', v', huv', e'⟩ := h'
  exact le_antisymm (e' ▸ h1 _ _ huv') (e ▸ h1' _ _ huv)
theorem isMax_unique {a b c x y : ℝ} (h : IsMaxEig a b c x) (h' : IsMaxEig a b c y) : x = y := by
  obtain ⟨h1, u, v, huv, e⟩ := h
  obtain ⟨h1', u', v', huv', e'⟩ := h'
  exact le_antisymm (e ▸ h1' _ _ huv) (e' ▸ h1 _ _ huv')

open Asymptotics Filter Topology in
private theorem sqrt_series (h : NonDegenerate m0) :
    (fun t => Real.sqrt (((series m0 m1 m2 m3 t).m00 - (series m0 m1 m2 m3 t).m11)^2 + 4*(series m0 m1 m2 m3 t).m01^2) -
      (gap m0 + t * k4 m0 m1 + t^2 * k6 m0 m1 m2 + t^3 * k8 m0 m1 m2 m3)) =O[𝓝 0] (fun t : ℝ => t^4) := by
  have hg := gap_pos m0 h
  have h0 := gap_sq m0
  have h1 := q4 m0 m1 h
  have h2 := q6 m0 m1 m2 h
  have h3 := q8 m0 m1 m2 m3 h
  have s00 : ∀ t, (series m0 m1 m2 m3 t).m00 = m0.m00 + t * m1.m00 + t^2 * m2.m00 + t^3 * m3.m00 := fun _ => rfl
  have s01 : ∀ t, (series m0 m1 m2 m3 t).m01 = m0.m01 + t * m1.m01 + t^2 * m2.m01 + t^3 * m3.m01 := fun _ => rfl
  have s11 : ∀ t, (series m0 m1 m2 m3 t).m11 = m0.m11 + t * m1.m11 + t^2 * m2.m11 + t^3 * m3.m11 := fun _ => rfl
  simp only [s00, s01, s11]
  generalize gap m0 = g at *
  generalize k4 m0 m1 = x4 at *
  generalize k6 m0 m1 m2 = x6 at *
  generalize k8 m0 m1 m2 m3 = x8 at *
  set D : ℝ → ℝ := fun t => (m0.m00 + t * m1.m00 + t^2 * m2.m00 + t^3 * m3.m00 - (m0.m11 + t * m1.m11 + t^2 * m2.m11 + t^3 * m3.m11))^2 +
    4*(m0.m01 + t * m1.m01 + t^2 * m2.m01 + t^3 * m3.m01)^2 with hD
  set S : ℝ → ℝ := fun t => g + t*x4 + t^2*x6 + t^3*x8 with hS
  let r : ℝ → ℝ := fun t => (m2.m00 - m2.m11 + t * (m3.m00 - m3.m11))^2 + 4*(m2.m01 + t*m3.m01)^2
    + 2*((m1.m00 - m1.m11)*(m3.m00 - m3.m11) + 4*m1.m01*m3.m01) - (x6 + t*x8)^2 - 2*x4*x8
  have key : ∀ t, D t - S t ^ 2 = t^4 * r t := by
    intro t
    simp only [hD, hS, r]
    linear_combination -h0 - 2*t*h1 - t^2*h2 - 2*t^3*h3
  have hSc : Continuous S := by simp only [hS]; fun_prop
  have hDc : Continuous D := by simp only [hD]; fun_prop
  have hrc : Continuous r := by simp only [r]; fun_prop
  have hS0 : S 0 = g := by simp [hS]
  have hev : ∀ᶠ t in 𝓝 (0:ℝ), g/2 < S t := by
    apply hSc.continuousAt.eventually
    rw [hS0]
    exact lt_mem_nhds (by linarith)
  have hrb : ∀ᶠ t in 𝓝 (0:ℝ), |r t| < |r 0| + 1 := by
    exact (hrc.abs).continuousAt.eventually (gt_mem_nhds (by simp))
  rw [isBigO_iff]
  refine ⟨(|r 0| + 1) / (g/2), ?_⟩
  filter_upwards [hev, hrb] with t ht hr
  have hDnn : 0 ≤ D t := by simp only [hD]; positivity
  have hsq : Real.sqrt (D t) ^ 2 = D t := Real.sq_sqrt hDnn
  have hsn := Real.sqrt_nonneg (D t)
  have hden : 0 < Real.sqrt (D t) + S t := by linarith
  have e : Real.sqrt (D t) - S t = t^4 * r t / (Real.sqrt (D t) + S t) := by
    rw [eq_div_iff hden.ne', ← key]
    linear_combination hsq
  rw [show Real.sqrt ((m0.m00 + t * m1.m00 + t^2 * m2.m00 + t^3 * m3.m00 - (m0.m11 + t * m1.m11 + t^2 * m2.m11 + t^3 * m3.m11))^2 +
    4*(m0.m01 + t * m1.m01 + t^2 * m2.m01 + t^3 * m3.m01)^2) = Real.sqrt (D t) from rfl,
    show g + t*x4 + t^2*x6 + t^3*x8 = S t from rfl, e]
  rw [Real.norm_eq_abs, Real.norm_eq_abs, abs_div, abs_mul, abs_of_pos hden]
  rw [div_mul_eq_mul_div]
  have ht4 := abs_nonneg (t^4)
  apply div_le_div₀
  · positivity
  · rw [mul_comm]; exact mul_le_mul_of_nonneg_right hr.le ht4
  · linarith
  · linarith

open Asymptotics Topology in
/-- **C28** For symmetric matrices with distinct tree-level eigenvalues, the first (second) components returned are the Taylor
coefficients through third order of the smaller (larger) eigenvalue of `m0 + t m1 + t^2 m2 + t^3 m3` at t = 0.  The eigenvalue is
any function satisfying the variational characterisation. -/
theorem C28_taylor_coefficients (h : NonDegenerate m0) (lam Lam : ℝ → ℝ)
    (hl : ∀ t, IsMinEig (series m0 m1 m2 m3 t).m00 (series m0 m1 m2 m3 t).m01 (series m0 m1 m2 m3 t).m11 (lam t))
    (hL : ∀ t, IsMaxEig (series m0 m1 m2 m3 t).m00 (series m0 m1 m2 m3 t).m01 (series m0 m1 m2 m3 t).m11 (Lam t)) :
    (fun t => lam t - lowSeries m0 m1 m2 m3 t) =O[𝓝 0] (fun t : ℝ => t^4) ∧
    (fun t => Lam t - highSeries m0 m1 m2 m3 t) =O[𝓝 0] (fun t : ℝ => t^4) := by
  have h1 : lam = fun t => minEig (series m0 m1 m2 m3 t).m00 (series m0 m1 m2 m3 t).m01 (series m0 m1 m2 m3 t).m11 :=
    funext fun t => isMin_unique (hl t) (minEig_isMin _ _ _)
  have h2 : Lam = fun t => maxEig (series m0 m1 m2 m3 t).m00 (series m0 m1 m2 m3 t).m01 (series m0 m1 m2 m3 t).m11 :=
    funext fun t => isMax_unique (hL t) (maxEig_isMax _ _ _)
  have hs := sqrt_series m0 m1 m2 m3 h
  have tr : ∀ t, (series m0 m1 m2 m3 t).m00 + (series m0 m1 m2 m3 t).m11 = m0.m00 + m0.m11 + t * (m1.m00 + m1.m11) +
      t^2 * (m2.m00 + m2.m11) + t^3 * (m3.m00 + m3.m11) := by
    intro t
    show (m0.m00 + t * m1.m00 + t^2 * m2.m00 + t^3 * m3.m00) + (m0.m11 + t * m1.m11 + t^2 * m2.m11 + t^3 * m3.m11) = _
    ring
  constructor
  · refine (hs.const_mul_left (-1/2)).congr_left fun t => ?_
    rw [h1]
    unfold lowSeries minEig
    rw [diag_eq m0 m1 m2 m3 h]
    dsimp only
    rw [tr]
    ring
  · refine (hs.const_mul_left (1/2)).congr_left fun t => ?_
    rw [h2]
    unfold highSeries maxEig
    rw [diag_eq m0 m1 m2 m3 h]
    dsimp only
    rw [tr]
    ring

/-- hypotheses are met, with a function for the eigenvalues: e.g. tree-level diag(1,4) with off-diagonal corrections -/
example : NonDegenerate ⟨1, 2, 2, 4⟩ ∧ ∃ lam Lam : ℝ → ℝ, ∀ t,
    IsMinEig (series ⟨1, 2, 2, 4⟩ ⟨1, 1, 1, 0⟩ ⟨0, 3, 3, 1⟩ ⟨5, 0, 0, 2⟩ t).m00 (series ⟨1, 2, 2, 4⟩ ⟨1, 1, 1, 0⟩ ⟨0, 3, 3, 1⟩ ⟨5, 0, 0, 2⟩ t).m01
      (series ⟨1, 2, 2, 4⟩ ⟨1, 1, 1, 0⟩ ⟨0, 3, 3, 1⟩ ⟨5, 0, 0, 2⟩ t).m11 (lam t) ∧
    IsMaxEig (series ⟨1, 2, 2, 4⟩ ⟨1, 1, 1, 0⟩ ⟨0, 3, 3, 1⟩ ⟨5, 0, 0, 2⟩ t).m00 (series ⟨1, 2, 2, 4⟩ ⟨1, 1, 1, 0⟩ ⟨0, 3, 3, 1⟩ ⟨5, 0, 0, 2⟩ t).m01
      (series ⟨1, 2, 2, 4⟩ ⟨1, 1, 1, 0⟩ ⟨0, 3, 3, 1⟩ ⟨5, 0, 0, 2⟩ t).m11 (Lam t) :=
  ⟨fun h => by norm_num at h, _, _, fun t => ⟨minEig_isMin _ _ _, maxEig_isMax _ _ _⟩⟩

end
end Himalaya
