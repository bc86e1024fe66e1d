import Verif.Li2.Props
import Verif.Li2.ClProps
import Mathlib.Analysis.SpecialFunctions.Integrals.Basic
import Mathlib.Analysis.SpecialFunctions.Trigonometric.Arctan
import Mathlib.Analysis.SpecialFunctions.Trigonometric.ArctanDeriv

/-!
# The two-loop function of Davydychev and Tausk: specification and closed forms

`Spec.Phi u v` is the one-dimensional integral of Davydychev and Tausk, Nucl. Phys. B397 (1993) 23, section 4.  The code evaluates closed
forms in terms of dilogarithms (`λ² > 0`) and Clausen functions (`λ² < 0`); here both are derived from the integral.
-/

namespace Himalaya.TLF
open Real MeasureTheory Set intervalIntegral

/-- `Φ(u,v)` for squared masses `u`, `v`, `1` -/
noncomputable def Spec.Phi (u v : ℝ) : ℝ := -∫ ξ in (0:ℝ)..1, (log (v / u) + 2 * log ξ) / (v * ξ ^ 2 + (1 - u - v) * ξ + u)
/-- the Källén function -/
def Spec.lambda2 (u v : ℝ) : ℝ := (1 - u - v) ^ 2 - 4 * u * v
/-- the function of three squared masses computed by the library, `z λ² Φ / 2` -/
noncomputable def Spec.phi (x y z : ℝ) : ℝ := z * Spec.lambda2 (x / z) (y / z) / 2 * Spec.Phi (x / z) (y / z)

/-! ### positive `λ²` -/

theorem log_log_eq {c : ℝ} (hc : 0 < c) (t : ℝ) : log t * log (1 + c * t) = t * log t * (c * Li2.kernC (-(c * t))) := by
  by_cases ht : t = 0
  · subst ht; simp
  · rw [Li2.kernC_of_ne (neg_ne_zero.2 (mul_ne_zero hc.ne' ht)), Li2.kern, sub_neg_eq_add]
    field_simp

theorem cont_log_log {c : ℝ} (hc : 0 < c) : ContinuousOn (fun t => log t * log (1 + c * t)) (Icc 0 1) := by
  simp only [log_log_eq hc]
  refine ContinuousOn.mul continuous_mul_log.continuousOn (continuousOn_const.mul ?_)
  intro t ht
  have : -(c * t) ≠ 1 := by have := mul_nonneg hc.le ht.1; linarith
  exact (ContinuousAt.comp (f := fun t : ℝ => -(c * t)) (Li2.continuousAt_kernC this) (by fun_prop)).continuousWithinAt

theorem integrable_log_div {b : ℝ} (hb : 0 < b) : IntervalIntegrable (fun ξ => log ξ / (ξ + b)) volume 0 1 := by
  have h1 : IntervalIntegrable log volume 0 1 := intervalIntegrable_log'
  have : ContinuousOn (fun ξ : ℝ => (ξ + b)⁻¹) (uIcc 0 1) := by
    rw [uIcc_of_le zero_le_one]
    refine ContinuousOn.inv₀ (by fun_prop) (fun x hx => ?_)
    linarith [hx.1]
  exact h1.mul_continuousOn this

theorem int_log_div {b : ℝ} (hb : 0 < b) : ∫ ξ in (0:ℝ)..1, log ξ / (ξ + b) = Li2.Li2 (-(1 / b)) := by
  have hc : 0 < 1 / b := by positivity
  have h := integral_eq_sub_of_hasDerivAt_of_le (a := 0) (b := 1) (f := fun t => log t * log (1 + 1 / b * t) + Li2.Li2 (-(1 / b * t)))
    (f' := fun ξ => log ξ / (ξ + b)) zero_le_one
    ((cont_log_log hc).add ((Li2.continuous_Li2.comp (by fun_prop)).continuousOn)) (fun t ht => ?_) (integrable_log_div hb)
  · rw [h]; simp [Li2.Li2_zero]
  · have ht0 : t ≠ 0 := ht.1.ne'
    have h1 : 0 < 1 / b * t := mul_pos hc ht.1
    have d1 := (hasDerivAt_log ht0).mul (HasDerivAt.log (f := fun t : ℝ => 1 + 1 / b * t) (((hasDerivAt_id t).const_mul (1 / b)).const_add 1) (by linarith))
    have d2 := (Li2.hasDerivAt_Li2 (x := -(1 / b * t)) (by linarith) (by linarith)).comp t (((hasDerivAt_id t).const_mul (1 / b)).neg)
    refine (d1.add d2).congr_deriv ?_
    rw [sub_neg_eq_add]
    have : 1 + 1 / b * t ≠ 0 := by linarith
    have h2 : t + b ≠ 0 := by have := ht.1; positivity
    generalize log (1 + 1 / b * t) = L
    generalize log t = L'
    have hb' := hb.ne'
    have e : 1 + 1 / b * t = (t + b) / b := by field_simp; ring
    rw [e]
    field_simp
    ring

theorem int_inv {b : ℝ} (hb : 0 < b) : ∫ ξ in (0:ℝ)..1, 1 / (ξ + b) = log ((1 + b) / b) := by
  have h := integral_eq_sub_of_hasDerivAt_of_le (a := 0) (b := 1) (f := fun t => log (t + b))
    (f' := fun ξ => 1 / (ξ + b)) zero_le_one
    (by refine ContinuousOn.log (by fun_prop) (fun x hx => ?_); linarith [hx.1]) (fun t ht => ?_) ?_
  · rw [h, zero_add, log_div (by linarith) (by linarith)]
  · exact HasDerivAt.log ((hasDerivAt_id t).add_const b) (by linarith [ht.1])
  · apply ContinuousOn.intervalIntegrable
    rw [uIcc_of_le zero_le_one]
    refine ContinuousOn.div (by fun_prop) (by fun_prop) (fun x hx => ?_); linarith [hx.1]

/-- the closed form for `λ² > 0`, in the variables with `u = x(1-y)`, `v = y(1-x)`, `λ = 1-x-y` -/
theorem Phi_pos {x y : ℝ} (hx : 0 < x) (hy : 0 < y) (hxy : x + y < 1) :
    Spec.Phi (x * (1 - y)) (y * (1 - x)) =
      (-(log (x * (1 - y)) * log (y * (1 - x))) + 2 * log x * log y - 2 * Li2.Li2 x - 2 * Li2.Li2 y + π ^ 2 / 3) / (1 - x - y) := by
  have hx1 : 0 < 1 - x := by linarith
  have hy1 : 0 < 1 - y := by linarith
  have hl : 0 < 1 - x - y := by linarith
  set b := x / (1 - x) with hb
  set a := (1 - y) / y with ha
  have hb0 : 0 < b := by positivity
  have ha0 : 0 < a := by positivity
  set K := log (y * (1 - x) / (x * (1 - y))) with hK
  have i1 : IntervalIntegrable (fun ξ : ℝ => 1 / (ξ + b)) volume 0 1 := by
    apply ContinuousOn.intervalIntegrable
    rw [uIcc_of_le zero_le_one]
    refine ContinuousOn.div (by fun_prop) (by fun_prop) (fun x hx => ?_); linarith [hx.1]
  have i2 : IntervalIntegrable (fun ξ : ℝ => 1 / (ξ + a)) volume 0 1 := by
    apply ContinuousOn.intervalIntegrable
    rw [uIcc_of_le zero_le_one]
    refine ContinuousOn.div (by fun_prop) (by fun_prop) (fun x hx => ?_); linarith [hx.1]
  have e : Spec.Phi (x * (1 - y)) (y * (1 - x)) = -(1 / (1 - x - y) * (K * (log ((1 + b) / b) - log ((1 + a) / a)) +
      2 * (Li2.Li2 (-(1 / b)) - Li2.Li2 (-(1 / a))))) := by
    rw [← int_log_div hb0, ← int_log_div ha0, ← int_inv hb0, ← int_inv ha0, ← integral_sub i1 i2,
      ← integral_sub (integrable_log_div hb0) (integrable_log_div ha0), ← intervalIntegral.integral_const_mul, ← intervalIntegral.integral_const_mul,
      ← integral_add ((i1.sub i2).const_mul K) (((integrable_log_div hb0).sub (integrable_log_div ha0)).const_mul 2),
      ← intervalIntegral.integral_const_mul]
    unfold Spec.Phi
    congr 1
    apply integral_congr
    intro ξ hξ
    rw [uIcc_of_le zero_le_one] at hξ
    simp only
    rw [← hK]
    have n1 : ξ * (1 - x) + x ≠ 0 := by have := mul_nonneg hξ.1 hx1.le; linarith
    have n2 : ξ * y + (1 - y) ≠ 0 := by have := mul_nonneg hξ.1 hy.le; linarith
    have e1 : ξ + b = (ξ * (1 - x) + x) / (1 - x) := by rw [hb]; field_simp
    have e2 : ξ + a = (ξ * y + (1 - y)) / y := by rw [ha]; field_simp
    have e3 : y * (1 - x) * ξ ^ 2 + (1 - x * (1 - y) - y * (1 - x)) * ξ + x * (1 - y) = (ξ * (1 - x) + x) * (ξ * y + (1 - y)) := by ring
    rw [e1, e2, e3]
    have e4 : (ξ * y + (1 - y)) * (1 - x) - (ξ * (1 - x) + x) * y = 1 - x - y := by ring
    have := hl.ne'
    have := hx1.ne'
    have := hy.ne'
    generalize hA : ξ * (1 - x) + x = A at *
    generalize hB : ξ * y + (1 - y) = B at *
    generalize log ξ = L at *
    have e5 : (1 - x) / A - y / B = (1 - x - y) / (A * B) := by rw [← e4]; field_simp
    have e6 : 1 / (1 - x - y) * (K * (1 / (A / (1 - x)) - 1 / (B / y)) + 2 * (L / (A / (1 - x)) - L / (B / y))) =
        1 / (1 - x - y) * ((K + 2 * L) * ((1 - x) / A - y / B)) := by
      simp only [one_div_div, div_div_eq_mul_div]; ring
    rw [e6, e5]
    field_simp
  rw [e]
  have f1 : (1 + b) / b = 1 / x := by rw [hb]; field_simp; ring
  have f2 : (1 + a) / a = 1 / (1 - y) := by rw [ha]; field_simp; ring
  have f3 : -(1 / b) = (1 - x) / ((1 - x) - 1) := by
    rw [hb]; have : (1 - x) - 1 = -x := by ring
    rw [this]; field_simp
  have f4 : -(1 / a) = y / (y - 1) := by
    rw [ha, one_div_div, show y - 1 = -(1 - y) by ring, div_neg]
  have g1 := Li2.Li2_landen (x := 1 - x) (by linarith)
  have g2 := Li2.Li2_landen (x := y) (by linarith)
  have g3 := Li2.Li2_reflect x
  rw [sub_sub_cancel] at g1
  rw [f1, f2, f3, f4, hK, log_div (by positivity) (by positivity), log_mul hy.ne' hx1.ne', log_mul hx.ne' hy1.ne', one_div x, log_inv, one_div (1 - y), log_inv,
    eq_sub_of_add_eq' g1, eq_sub_of_add_eq' g2]
  have g3' : Li2.Li2 (1 - x) = π ^ 2 / 6 - Li2.Li2 x - log x * log (1 - x) := by linarith
  rw [g3']
  have := hl.ne'
  field_simp
  ring

/-! ### negative `λ²` -/

theorem cont_Cl2 : Continuous Clausen.Cl2 := (continuous_primitive Clausen.integrable_sin 0).neg

theorem hasDerivAt_Cl2 {x : ℝ} (h0 : 0 < x) (h1 : x < 2 * π) : HasDerivAt Clausen.Cl2 (-log (2 * sin (x / 2))) x := by
  have hs : 0 < sin (x / 2) := sin_pos_of_pos_of_lt_pi (by linarith) (by linarith)
  have : HasDerivAt (fun x => ∫ t in (0:ℝ)..x, log |2 * sin (t / 2)|) (log |2 * sin (x / 2)|) x := by
    refine intervalIntegral.integral_hasDerivAt_right (Clausen.integrable_sin 0 x) ?_ ?_
    · refine Measurable.stronglyMeasurable ?_ |>.stronglyMeasurableAtFilter
      fun_prop
    · refine ContinuousAt.log (by fun_prop) ?_
      rw [abs_ne_zero]; positivity
  rw [abs_of_pos (by positivity)] at this
  exact this.neg

/-- the closed form for `λ² < 0`: `p = √u` and `q = √v` are sides of a triangle whose third side is one, `γ` is the angle between them -/
theorem Phi_neg {p q α γ : ℝ} (hp : 0 < p) (hq : 0 < q) (hγ : 0 < γ) (hα : 0 < α) (hs : α + γ < π)
    (hc : cos α = p - q * cos γ) (hsα : sin α = q * sin γ) (h1 : p ^ 2 + q ^ 2 - 2 * p * q * cos γ = 1) :
    Spec.Phi (p ^ 2) (q ^ 2) = (Clausen.Cl2 (2 * α) - Clausen.Cl2 (2 * α + 2 * γ) + Clausen.Cl2 (2 * γ)) / (p * q * sin γ) := by
  have hγs : 0 < sin γ := sin_pos_of_pos_of_lt_pi hγ (by linarith)
  set T : ℝ → ℝ := fun ξ => (q * ξ - p * cos γ) / (p * sin γ) with hT
  set A : ℝ → ℝ := fun ξ => arctan (T ξ) + π / 2 - γ with hA
  have hps : p * sin γ ≠ 0 := by positivity
  have hden : ∀ ξ : ℝ, 0 < q ^ 2 * ξ ^ 2 + (1 - p ^ 2 - q ^ 2) * ξ + p ^ 2 := by
    intro ξ
    have : q ^ 2 * ξ ^ 2 + (1 - p ^ 2 - q ^ 2) * ξ + p ^ 2 = (q * ξ - p * cos γ) ^ 2 + (p * sin γ) ^ 2 := by
      have := sin_sq_add_cos_sq γ
      linear_combination ξ * (-1) * h1 - p ^ 2 * this
    rw [this]; positivity
  have hA0 : A 0 = 0 := by
    have : T 0 = tan (γ - π / 2) := by
      rw [tan_eq_sin_div_cos, sin_sub_pi_div_two, cos_sub_pi_div_two, hT]; simp only; field_simp; ring
    simp only [hA, this]
    rw [arctan_tan (by linarith) (by linarith)]; ring
  have hA1 : A 1 = α := by
    have : T 1 = tan (α + γ - π / 2) := by
      rw [tan_eq_sin_div_cos, sin_sub_pi_div_two, cos_sub_pi_div_two, cos_add, sin_add, hc, hsα, hT]; simp only
      have e1 : q * sin γ * cos γ + (p - q * cos γ) * sin γ = p * sin γ := by ring
      rw [e1]; congr 1
      linear_combination (-q) * sin_sq_add_cos_sq γ
    simp only [hA, this]
    rw [arctan_tan (by linarith) (by linarith)]; ring
  -- range of A
  have hr : ∀ ξ, 0 < ξ → 0 < A ξ ∧ A ξ + γ < π := by
    intro ξ hξ
    constructor
    · have : A 0 < A ξ := by
        simp only [hA]
        have : T 0 < T ξ := by
          simp only [hT]; rw [div_lt_div_iff_of_pos_right (by positivity)]; nlinarith
        have := arctan_strictMono this
        linarith
      rwa [hA0] at this
    · simp only [hA]; linarith [arctan_lt_pi_div_two (T ξ)]
  have hsin : ∀ ξ, sin (A ξ + γ) = cos (arctan (T ξ)) := by
    intro ξ
    rw [show A ξ + γ = arctan (T ξ) + π / 2 by simp only [hA]; ring, sin_add_pi_div_two]
  have hsinA : ∀ ξ, sin (A ξ) = cos (arctan (T ξ)) * (q * ξ / p) := by
    intro ξ
    rw [show A ξ = (arctan (T ξ) - γ) + π / 2 by simp only [hA]; ring, sin_add_pi_div_two, cos_sub]
    have hcn := (cos_arctan_pos (T ξ)).ne'
    have : sin (arctan (T ξ)) = cos (arctan (T ξ)) * T ξ := by
      have h := tan_eq_sin_div_cos (arctan (T ξ))
      rw [tan_arctan] at h
      rw [eq_div_iff hcn] at h; linarith
    rw [this, mul_assoc, ← mul_add]; congr 1
    simp only [hT]; field_simp; ring
  set H : ℝ → ℝ := fun ξ => (Clausen.Cl2 (2 * A ξ) - Clausen.Cl2 (2 * A ξ + 2 * γ)) / (p * q * sin γ) with hH
  have hAc : Continuous A := by
    simp only [hA, hT]
    exact ((continuous_arctan.comp (by fun_prop)).add continuous_const).sub continuous_const
  have hHc : ContinuousOn H (Icc 0 1) := by
    refine (Continuous.div_const ?_ _).continuousOn
    exact (cont_Cl2.comp (hAc.const_smul (2:ℝ))).sub (cont_Cl2.comp ((hAc.const_smul (2:ℝ)).add continuous_const))
  have hI : IntervalIntegrable (fun ξ => -((log (q ^ 2 / p ^ 2) + 2 * log ξ) / (q ^ 2 * ξ ^ 2 + (1 - p ^ 2 - q ^ 2) * ξ + p ^ 2))) volume 0 1 := by
    have h1 : IntervalIntegrable (fun ξ => log (q ^ 2 / p ^ 2) + 2 * log ξ) volume 0 1 :=
      intervalIntegrable_const.add ((intervalIntegrable_log').const_mul 2)
    have : ContinuousOn (fun ξ : ℝ => (q ^ 2 * ξ ^ 2 + (1 - p ^ 2 - q ^ 2) * ξ + p ^ 2)⁻¹) (uIcc 0 1) :=
      ContinuousOn.inv₀ (by fun_prop) (fun x hx => (hden x).ne')
    exact (h1.mul_continuousOn this).neg
  have h := integral_eq_sub_of_hasDerivAt_of_le (a := 0) (b := 1) (f := H) zero_le_one hHc (fun ξ hξ => ?_) hI
  · unfold Spec.Phi
    rw [← intervalIntegral.integral_neg, h]
    simp only [hH, hA0, hA1, mul_zero, Clausen.Cl2_zero, zero_add]
    ring
  · obtain ⟨r0, r1⟩ := hr ξ hξ.1
    have dT : HasDerivAt T (q / (p * sin γ)) ξ := by
      have : HasDerivAt (fun ξ => (q * ξ - p * cos γ) / (p * sin γ)) (q * 1 / (p * sin γ)) ξ :=
        (((hasDerivAt_id ξ).const_mul q).sub_const (p * cos γ)).div_const (p * sin γ)
      rwa [mul_one] at this
    have dA : HasDerivAt A (1 / (1 + T ξ ^ 2) * (q / (p * sin γ))) ξ := ((dT.arctan).add_const (π / 2)).sub_const γ
    have d1 := (hasDerivAt_Cl2 (x := 2 * A ξ) (by linarith) (by linarith)).comp ξ (dA.const_mul 2)
    have d2 := (hasDerivAt_Cl2 (x := 2 * A ξ + 2 * γ) (by linarith) (by linarith)).comp ξ ((dA.const_mul 2).add_const (2 * γ))
    refine ((d1.sub d2).div_const (p * q * sin γ)).congr_deriv ?_
    have e1 : 2 * A ξ / 2 = A ξ := by ring
    have e2 : (2 * A ξ + 2 * γ) / 2 = A ξ + γ := by ring
    rw [e1, e2, hsin, hsinA]
    have hcp := cos_arctan_pos (T ξ)
    have hξ0 := hξ.1
    have l1 : log (2 * (cos (arctan (T ξ)) * (q * ξ / p))) = log (2 * cos (arctan (T ξ))) + log (q / p) + log ξ := by
      rw [← log_mul (by positivity) (by positivity), ← log_mul (by positivity) (by positivity)]; congr 1; ring
    have l2 : log (q ^ 2 / p ^ 2) = 2 * log (q / p) := by rw [← div_pow, log_pow]; norm_num
    rw [l1, l2]
    have e3 : q ^ 2 * ξ ^ 2 + (1 - p ^ 2 - q ^ 2) * ξ + p ^ 2 = (p * sin γ) ^ 2 * (1 + T ξ ^ 2) := by
      have := sin_sq_add_cos_sq γ
      simp only [hT]
      rw [div_pow, mul_add, mul_div_cancel₀ _ (by positivity)]
      linear_combination ξ * (-1) * h1 - p ^ 2 * this
    rw [e3]
    have hT1 : 1 + T ξ ^ 2 ≠ 0 := by positivity
    generalize log (2 * cos (arctan (T ξ))) = L1
    generalize log (q / p) = L2
    generalize log ξ = L3
    generalize 1 + T ξ ^ 2 = W at *
    have := hp.ne'; have := hq.ne'; have := hγs.ne'
    field_simp
    ring

end Himalaya.TLF
