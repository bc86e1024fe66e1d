import Verif.EFT.LamQU
import Verif.Li2.Spec

/-!
# Expansions of the dilogarithm used in the mass limits
-/

set_option linter.unusedSimpArgs false
set_option linter.unusedVariables false

namespace Himalaya.Cont
open Filter Topology

theorem hasDerivAt_Li2' {x : ℝ} (h1 : x ≠ 1) : HasDerivAt Li2.Li2 (Li2.kernC x) x := by
  by_cases h0 : x = 0
  · subst h0
    have hint : ∀ a b : ℝ, IntervalIntegrable Li2.kernC MeasureTheory.volume a b := fun a b =>
      (Li2.intervalIntegrable_kern a b).congr_ae (MeasureTheory.ae_restrict_of_ae Li2.kern_ae)
    have he : Li2.Li2 = fun x => ∫ t in (0:ℝ)..x, Li2.kernC t := by
      funext x
      rw [Li2.Li2_eq]
      apply intervalIntegral.integral_congr_ae
      filter_upwards [Li2.kern_ae] with t ht _
      exact ht
    rw [he]
    refine intervalIntegral.integral_hasDerivAt_right (hint _ _) ?_ (Li2.continuousAt_kernC h1)
    have : ContinuousOn Li2.kernC (Set.Iio 1) := fun t ht => (Li2.continuousAt_kernC (ne_of_lt ht)).continuousWithinAt
    exact this.stronglyMeasurableAtFilter isOpen_Iio 0 (by norm_num)
  · rw [Li2.kernC_of_ne h0]
    exact Li2.hasDerivAt_Li2 h0 h1

noncomputable def gDil (z : ℝ × ℝ) : ℝ := (2 * z.1 - 4 * z.2 * (1 + z.1)) / (2 + z.1)

/-- remainder of `Li₂(1-(1+e)²) = -2e + o(e²)` -/
noncomputable def dilRem (e : ℝ) : ℝ := (Li2.Li2 (1 - (1 + e) ^ 2) + 2 * e) / e ^ 2

theorem dil_eq {e : ℝ} (he : e ≠ 0) : Li2.Li2 (1 - (1 + e) ^ 2) = -2 * e + e ^ 2 * dilRem e := by
  unfold dilRem; field_simp; ring

theorem dilRem_tendsto : Tendsto dilRem (𝓝[≠] 0) (𝓝 0) := by
  have hd : ∀ᶠ e in 𝓝 (0 : ℝ), HasDerivAt (fun e => Li2.Li2 (1 - (1 + e) ^ 2) + 2 * e)
      (Li2.kernC (1 - (1 + e) ^ 2) * (-(2 * (1 + e))) + 2) e := by
    have h1 : ∀ᶠ e in 𝓝 (0 : ℝ), (1 : ℝ) + e ≠ 0 :=
      ContinuousAt.eventually_ne (g := fun e : ℝ => 1 + e) (by fun_prop) (by norm_num)
    filter_upwards [h1] with e he
    have hx : (1 - (1 + e) ^ 2 : ℝ) ≠ 1 := by
      intro h; apply he; have : (1 + e) ^ 2 = 0 := by linarith
      exact pow_eq_zero_iff (two_ne_zero) |>.1 this
    have h2 : HasDerivAt (fun e : ℝ => 1 - (1 + e) ^ 2) (-(2 * (1 + e))) e := by
      have := (((hasDerivAt_id e).const_add 1).pow 2).const_sub 1
      refine HasDerivAt.congr_deriv this ?_
      simp
    have h3 := ((hasDerivAt_Li2' hx).comp e h2).add ((hasDerivAt_id e).const_mul 2)
    refine HasDerivAt.congr_deriv h3 ?_
    simp
  have h0 : (Li2.Li2 (1 - (1 + (0:ℝ)) ^ 2) + 2 * 0) = 0 := by
    norm_num [Li2.Li2_zero]
  have k0 : Li2.kernC 0 = 1 := by
    unfold Li2.kernC
    rw [dslope_same, (Li2.hasDerivAt_neglog (by norm_num)).deriv]; norm_num
  refine quot_of_deriv 1 hd h0 ?_ ?_
  · have hrep : ∀ᶠ e in 𝓝[≠] (0 : ℝ), (Li2.kernC (1 - (1 + e) ^ 2) * (-(2 * (1 + e))) + 2) / e ^ 1 =
        gDil (e, logRem 2 e) := by
      unfold gDil
      filter_upwards [self_mem_nhdsWithin, near_ne (g := fun e => 2 + e) (by fun_prop) (by norm_num),
        near_ne (g := fun e => 1 + e) (by fun_prop) (by norm_num)] with e he h2 h1
      have he0 : e ≠ 0 := he
      have hx : (1 - (1 + e) ^ 2 : ℝ) = - (e * (2 + e)) := by ring
      have hx0 : (1 - (1 + e) ^ 2 : ℝ) ≠ 0 := by rw [hx]; exact neg_ne_zero.2 (mul_ne_zero he0 h2)
      have hl : Real.log (1 - (1 - (1 + e) ^ 2)) = 2 * Real.log (1 + e) := by
        rw [show (1 - (1 - (1 + e) ^ 2) : ℝ) = (1 + e) ^ 2 by ring, Real.log_pow]; norm_num
      rw [Li2.kernC_of_ne hx0, Li2.kern, hl, log_eq 2 he0, hx]
      simp only [logPoly, Finset.sum_range_succ, Finset.sum_range_zero]
      push_cast
      field_simp
      ring
    have := limit_of_repr (G := gDil) (z := (0 : ℝ)) hrep (by unfold gDil; fun_prop (disch := norm_num)) (logRem_tendsto 2)
    simpa [gDil] using this
  · rw [show (1 - (1 + (0:ℝ)) ^ 2) = 0 by norm_num, k0]; norm_num

noncomputable def gDilQU (a q la : ℝ) (z : ℝ × ℝ) : ℝ :=
          (4 * a ^ 2 * z.1 * q ^ 2 + (5 / 2) * a ^ 2 * z.1 ^ 2 * q ^ 2 - (9 / 2) * a ^ 4 * z.1 * q
            - (3 / 2) * a ^ 4 * z.1 ^ 2 * q + (3 / 2) * a ^ 6 * z.1) / ((q - a ^ 2 + z.1 * q) * (-q + a ^ 2) ^ 2 * (1 + z.1))
          + la * ((-4 * a ^ 2 * z.1 * q ^ 3 - 3 * a ^ 2 * z.1 ^ 2 * q ^ 3 + 6 * a ^ 4 * z.1 * q ^ 2 + 3 * a ^ 4 * z.1 ^ 2 * q ^ 2
            - 4 * a ^ 6 * z.1 * q - a ^ 6 * z.1 ^ 2 * q + a ^ 8 * z.1) / ((q - a ^ 2 + z.1 * q) * (-q + a ^ 2) ^ 3 * (1 + z.1)))
          + z.2 * (a ^ 2 / ((q - a ^ 2 + z.1 * q) * (1 + z.1)))

/-- remainder of the third-order expansion of `Li₂(1 - a²/(q(1+e)))` around `e = 0` -/
noncomputable def dilRemQU (a q e : ℝ) : ℝ :=
  (Li2.Li2 (1 - a ^ 2 / (q * (1 + e))) - Li2.Li2 (1 - a ^ 2 / q) - e * dQU1 a q (Real.log (a ^ 2 / q))
    - e ^ 2 * dQU2 a q (Real.log (a ^ 2 / q)) - e ^ 3 * dQU3 a q (Real.log (a ^ 2 / q))) / e ^ 3

theorem dilQU_eq {a q e : ℝ} (he : e ≠ 0) : Li2.Li2 (1 - a ^ 2 / (q * (1 + e))) = Li2.Li2 (1 - a ^ 2 / q)
    + e * dQU1 a q (Real.log (a ^ 2 / q)) + e ^ 2 * dQU2 a q (Real.log (a ^ 2 / q))
    + e ^ 3 * dQU3 a q (Real.log (a ^ 2 / q)) + e ^ 3 * dilRemQU a q e := by
  unfold dilRemQU; field_simp; ring

theorem dilRemQU_tendsto {a q : ℝ} (ha : a ≠ 0) (hq : 0 < q) (hne : -q + a ^ 2 ≠ 0) :
    Tendsto (dilRemQU a q) (𝓝[≠] 0) (𝓝 0) := by
  set la := Real.log (a ^ 2 / q) with hla
  have hq0 := hq.ne'
  have key : ∀ e : ℝ, 1 + e ≠ 0 → q - a ^ 2 + e * q ≠ 0 →
      HasDerivAt (fun e => Li2.Li2 (1 - a ^ 2 / (q * (1 + e))) - Li2.Li2 (1 - a ^ 2 / q) - e * dQU1 a q la
        - e ^ 2 * dQU2 a q la - e ^ 3 * dQU3 a q la)
      (-(la - Real.log (1 + e)) * a ^ 2 / ((1 + e) * (q - a ^ 2 + e * q)) - dQU1 a q la - 2 * e * dQU2 a q la
        - 3 * e ^ 2 * dQU3 a q la) e := by
    intro e h1 h2
    have hx0 : 1 - a ^ 2 / (q * (1 + e)) ≠ 0 := by
      have : 1 - a ^ 2 / (q * (1 + e)) = (q - a ^ 2 + e * q) / (q * (1 + e)) := by field_simp; ring
      rw [this]; exact div_ne_zero h2 (mul_ne_zero hq0 h1)
    have hx1 : 1 - a ^ 2 / (q * (1 + e)) ≠ 1 := by
      intro h
      have : a ^ 2 / (q * (1 + e)) = 0 := by linarith
      rcases div_eq_zero_iff.1 this with h | h
      · exact ha (pow_eq_zero_iff two_ne_zero |>.1 h)
      · exact mul_ne_zero hq0 h1 h
    have d1 : HasDerivAt (fun e : ℝ => 1 - a ^ 2 / (q * (1 + e))) (a ^ 2 / (q * (1 + e) ^ 2)) e := by
      have hb := ((hasDerivAt_id e).const_add 1).const_mul q
      have := ((hasDerivAt_const e (a ^ 2)).div hb (mul_ne_zero hq0 h1)).const_sub 1
      refine HasDerivAt.congr_deriv this ?_
      simp only [id]
      field_simp
      ring
    have d2 := (Li2.hasDerivAt_Li2 hx0 hx1).comp e d1
    have d3 := (((d2.sub_const (Li2.Li2 (1 - a ^ 2 / q))).sub ((hasDerivAt_id e).mul_const (dQU1 a q la))).sub
      (((hasDerivAt_id e).pow 2).mul_const (dQU2 a q la))).sub (((hasDerivAt_id e).pow 3).mul_const (dQU3 a q la))
    refine HasDerivAt.congr_deriv d3 ?_
    have hl : Real.log (1 - (1 - a ^ 2 / (q * (1 + e)))) = la - Real.log (1 + e) := by
      rw [hla, ← Real.log_div (div_ne_zero (pow_ne_zero 2 ha) hq0) h1]
      congr 1; field_simp; ring
    rw [hl]
    have hx : 1 - a ^ 2 / (q * (1 + e)) = (q - a ^ 2 + e * q) / (q * (1 + e)) := by field_simp; ring
    rw [hx]
    simp only [id]
    push_cast
    field_simp
  have n1 : ∀ᶠ e in 𝓝 (0 : ℝ), (1 : ℝ) + e ≠ 0 :=
    ContinuousAt.eventually_ne (g := fun e : ℝ => 1 + e) (by fun_prop) (by norm_num)
  have n2 : ∀ᶠ e in 𝓝 (0 : ℝ), q - a ^ 2 + e * q ≠ 0 :=
    ContinuousAt.eventually_ne (g := fun e : ℝ => q - a ^ 2 + e * q) (by fun_prop)
      (by intro h; apply hne; linear_combination -h)
  refine quot_of_deriv 2 (g := fun e => -(la - Real.log (1 + e)) * a ^ 2 / ((1 + e) * (q - a ^ 2 + e * q)) - dQU1 a q la
      - 2 * e * dQU2 a q la - 3 * e ^ 2 * dQU3 a q la) ?_ ?_ ?_ ?_
  · filter_upwards [n1, n2] with e h1 h2 using key e h1 h2
  · simp
  · have hrep : ∀ᶠ e in 𝓝[≠] (0 : ℝ), (-(la - Real.log (1 + e)) * a ^ 2 / ((1 + e) * (q - a ^ 2 + e * q)) - dQU1 a q la
          - 2 * e * dQU2 a q la - 3 * e ^ 2 * dQU3 a q la) / e ^ 2 =
        gDilQU a q la (e, logRem 2 e) := by
      unfold gDilQU
      filter_upwards [self_mem_nhdsWithin, nhdsWithin_le_nhds n1, nhdsWithin_le_nhds n2] with e he h1 h2
      have he0 : e ≠ 0 := he
      rw [log_eq 2 he0]
      simp only [logPoly, Finset.sum_range_succ, Finset.sum_range_zero, dQU1, dQU2, dQU3]
      push_cast
      clear_value la
      generalize logRem 2 e = r
      generalize hE : -q + a ^ 2 = E at *
      generalize hD : q - a ^ 2 + e * q = D at *
      generalize hF : 1 + e = F at *
      field_simp
      subst hE hD hF
      ring
    have h3 : q - a ^ 2 + 0 * q ≠ 0 := by intro h; apply hne; linear_combination -h
    have := limit_of_repr (G := gDilQU a q la) (z := (0 : ℝ)) hrep (by unfold gDilQU; fun_prop (disch := cdisch)) (logRem_tendsto 2)
    simpa [gDilQU] using this
  · simp only [add_zero, Real.log_one, zero_mul, mul_zero, sub_zero, one_mul, ne_eq, OfNat.ofNat_ne_zero, not_false_eq_true, zero_pow]
    unfold dQU1
    have : q - a ^ 2 ≠ 0 := by intro h; apply hne; linear_combination -h
    rw [show -q + a ^ 2 = - (q - a ^ 2) by ring]
    field_simp
    ring
end Himalaya.Cont
