import Verif.Li2.FProps
import Verif.TLF.PhiProps2
import Verif.TwoLoop.PhiC
import Mathlib.Analysis.SpecialFunctions.Trigonometric.Sinc

/-!
# The imaginary part of the dilogarithm in terms of the Clausen function
-/

set_option linter.unusedSimpArgs false
set_option linter.unusedVariables false

namespace Himalaya.Li2
open Real Set Filter Topology

/-- `r e^{iα}` -/
noncomputable def pol (r α : ℝ) : ℂ := ⟨r * cos α, r * sin α⟩

theorem pol_eq (r α : ℝ) : pol r α = r * Complex.exp (α * Complex.I) := by
  apply Complex.ext <;> simp [pol, Complex.exp_mul_I, Complex.cos_ofReal_re, Complex.sin_ofReal_re, Complex.cos_ofReal_im, Complex.sin_ofReal_im]

theorem arg_pol {r α : ℝ} (hr : 0 < r) (h1 : -π < α) (h2 : α ≤ π) : (pol r α).arg = α := by
  rw [pol_eq, Complex.exp_mul_I]
  exact Complex.arg_mul_cos_add_sin_mul_I hr ⟨h1, h2⟩

theorem norm_pol {r α : ℝ} (hr : 0 ≤ r) : ‖pol r α‖ = r := by
  rw [pol_eq, norm_mul, Complex.norm_exp_ofReal_mul_I, mul_one, Complex.norm_real, Real.norm_eq_abs, abs_of_nonneg hr]

theorem log_pol {r α : ℝ} (hr : 0 < r) (h1 : -π < α) (h2 : α ≤ π) : Complex.log (pol r α) = ⟨log r, α⟩ := by
  apply Complex.ext
  · rw [Complex.log_re, norm_pol hr.le]
  · rw [Complex.log_im, arg_pol hr h1 h2]

/-- the third vertex of a triangle over the unit interval with angles `α` at 0 and `β` at 1 -/
theorem one_sub_pol {α β : ℝ} (hs : sin (α + β) ≠ 0) : 1 - pol (sin β / sin (α + β)) α = pol (sin α / sin (α + β)) (-β) := by
  apply Complex.ext
  · simp only [pol, Complex.sub_re, Complex.one_re, cos_neg]
    field_simp
    rw [sin_add]; ring
  · simp only [pol, Complex.sub_im, Complex.one_im, sin_neg]
    ring

theorem mul_log_sin (x : ℝ) (h0 : 0 ≤ x) (h1 : x < π) : x * log (sin x) = sin x * log (sin x) / sinc x := by
  by_cases h : x = 0
  · subst h; simp
  · have : sin x ≠ 0 := (sin_pos_of_pos_of_lt_pi (lt_of_le_of_ne h0 (Ne.symm h)) h1).ne'
    rw [sinc_of_ne_zero h]; field_simp

/-- Bloch and Wigner: `Im Li₂(r e^{iα})` for a triangle with angles `α`, `β`, `γ` -/
theorem CLi2_im {α β : ℝ} (hα : 0 < α) (hβ : 0 < β) (hs : α + β < π) :
    (CLi2 (pol (sin β / sin (α + β)) α)).im = β * log (sin β / sin (α + β)) +
      (Clausen.Cl2 (2 * α) + Clausen.Cl2 (2 * β) + Clausen.Cl2 (2 * (π - α - β))) / 2 := by
  have hsin {t : ℝ} (h0 : 0 ≤ t) (h1 : t ≤ β) : 0 < sin (α + t) := sin_pos_of_pos_of_lt_pi (by linarith) (by linarith)
  have hslit {t : ℝ} (h0 : 0 ≤ t) (h1 : t ≤ β) : 1 - pol (sin t / sin (α + t)) α ∈ Complex.slitPlane := by
    have hS := hsin h0 h1
    rw [one_sub_pol hS.ne']
    have hr : 0 < sin α / sin (α + t) := div_pos (sin_pos_of_pos_of_lt_pi hα (by linarith)) hS
    rw [Complex.mem_slitPlane_iff_arg, arg_pol hr (by linarith) (by linarith)]
    refine ⟨by linarith [Real.pi_pos], fun e => ?_⟩
    have := norm_pol (α := -t) hr.le
    rw [e, norm_zero] at this; exact hr.ne this
  have hrd {t : ℝ} (h0 : 0 ≤ t) (h1 : t ≤ β) : HasDerivAt (fun t => sin t / sin (α + t)) ((cos t * sin (α + t) - sin t * cos (α + t)) / sin (α + t) ^ 2) t := by
    have d2 : HasDerivAt (fun t => sin (α + t)) (cos (α + t)) t := by simpa using ((hasDerivAt_id t).const_add α).sin
    exact (hasDerivAt_sin t).div d2 (hsin h0 h1).ne'
  have hpd {t : ℝ} (h0 : 0 ≤ t) (h1 : t ≤ β) : HasDerivAt (fun t => pol (sin t / sin (α + t)) α)
      (((cos t * sin (α + t) - sin t * cos (α + t)) / sin (α + t) ^ 2 : ℝ) * Complex.exp (α * Complex.I)) t := by
    simp only [pol_eq]
    exact (hrd h0 h1).ofReal_comp.mul_const _
  have key := const_of_deriv_zero (s := ∅) countable_empty (a := 0) (b := β)
    (f := fun t => (CLi2 (pol (sin t / sin (α + t)) α)).im - (sin t * log (sin t) / sinc t - t * log (sin (α + t))) -
      (Clausen.Cl2 (2 * α) + Clausen.Cl2 (2 * t) + Clausen.Cl2 (2 * (π - α - t))) / 2) (by
      rw [uIcc_of_le hβ.le]
      intro t ht
      have hS := hsin ht.1 ht.2
      have c1 : ContinuousAt (fun t => (CLi2 (pol (sin t / sin (α + t)) α)).im) t :=
        Complex.continuous_im.continuousAt.comp ((continuousAt_CLi2 (hslit ht.1 ht.2)).comp (f := fun t => pol (sin t / sin (α + t)) α) (hpd ht.1 ht.2).continuousAt)
      have c2 : ContinuousAt (fun t => sin t * log (sin t) / sinc t) t := by
        have hn : sinc t ≠ 0 := by
          by_cases h : t = 0
          · subst h; simp
          · have : sin t ≠ 0 := (sin_pos_of_pos_of_lt_pi (lt_of_le_of_ne ht.1 (Ne.symm h)) (by linarith [ht.2])).ne'
            rw [sinc_of_ne_zero h]; exact div_ne_zero this h
        refine ContinuousAt.div ?_ continuous_sinc.continuousAt hn
        exact (continuous_mul_log.comp continuous_sin).continuousAt
      have c3 : ContinuousAt (fun t => t * log (sin (α + t))) t := continuousAt_id.mul (ContinuousAt.log (by fun_prop) hS.ne')
      have c4 : Continuous (fun t => (Clausen.Cl2 (2 * α) + Clausen.Cl2 (2 * t) + Clausen.Cl2 (2 * (π - α - t))) / 2) := by
        have := TLF.cont_Cl2
        fun_prop
      exact ((c1.sub (c2.sub c3)).sub c4.continuousAt).continuousWithinAt) (by
      intro t ht
      rw [sdiff_empty, min_eq_left hβ.le, max_eq_right hβ.le] at ht
      have h0 := ht.1
      have h1 := ht.2.le
      have hS := hsin h0.le h1
      have hT : 0 < sin t := sin_pos_of_pos_of_lt_pi h0 (by linarith)
      have hA : 0 < sin α := sin_pos_of_pos_of_lt_pi hα (by linarith)
      have hz0 : pol (sin t / sin (α + t)) α ≠ 0 := by
        intro e
        have := norm_pol (α := α) (div_pos hT hS).le
        rw [e, norm_zero] at this; exact (div_pos hT hS).ne this
      have d1c := (hasDerivAt_CLi2 (hslit h0.le h1) hz0).comp t (hpd h0.le h1)
      have d1 : HasDerivAt (fun t => (CLi2 (pol (sin t / sin (α + t)) α)).im)
          (t * ((cos t * sin (α + t) - sin t * cos (α + t)) / (sin t * sin (α + t)))) t := by
        have := Complex.imCLM.hasFDerivAt.comp_hasDerivAt t d1c
        refine this.congr_deriv ?_
        simp only [Complex.imCLM_apply]
        rw [one_sub_pol hS.ne', log_pol (div_pos hA hS) (by linarith) (by linarith), pol_eq]
        have he : Complex.exp (α * Complex.I) ≠ 0 := Complex.exp_ne_zero _
        generalize Complex.exp (α * Complex.I) = X at *
        have hr : ((sin t / sin (α + t) : ℝ) : ℂ) ≠ 0 := by exact_mod_cast (div_pos hT hS).ne'
        generalize hk : (cos t * sin (α + t) - sin t * cos (α + t)) = k
        generalize hl : log (sin α / sin (α + t)) = l
        have : (-(⟨l, -t⟩ : ℂ) / (((sin t / sin (α + t) : ℝ) : ℂ) * X) * (((k / sin (α + t) ^ 2 : ℝ) : ℂ) * X)) = ((k / (sin t * sin (α + t)) : ℝ) : ℂ) * -(⟨l, -t⟩ : ℂ) := by
          have e : ((k / (sin t * sin (α + t)) : ℝ) : ℂ) = ((k / sin (α + t) ^ 2 : ℝ) : ℂ) / ((sin t / sin (α + t) : ℝ) : ℂ) := by
            rw [← Complex.ofReal_div]; congr 1; field_simp
          rw [e]; field_simp
        rw [this, Complex.im_ofReal_mul]; simp; ring
      have d2 : HasDerivAt (fun t => sin t * log (sin t) / sinc t - t * log (sin (α + t)))
          (log (sin t) + t * (cos t / sin t) - (log (sin (α + t)) + t * (cos (α + t) / sin (α + t)))) t := by
        have hev : (fun t => sin t * log (sin t) / sinc t - t * log (sin (α + t))) =ᶠ[𝓝 t] fun t => t * log (sin t) - t * log (sin (α + t)) := by
          filter_upwards [Ioo_mem_nhds h0 (show t < π by linarith)] with s hs
          rw [mul_log_sin s hs.1.le hs.2]
        refine HasDerivAt.congr_of_eventuallyEq ?_ hev
        have e2 : HasDerivAt (fun t => sin (α + t)) (cos (α + t)) t := by simpa using ((hasDerivAt_id t).const_add α).sin
        have a := (hasDerivAt_id t).mul ((hasDerivAt_sin t).log hT.ne')
        have b := (hasDerivAt_id t).mul (e2.log hS.ne')
        refine (a.sub b).congr_deriv ?_
        simp
      have d3 : HasDerivAt (fun t => (Clausen.Cl2 (2 * α) + Clausen.Cl2 (2 * t) + Clausen.Cl2 (2 * (π - α - t))) / 2)
          (-log (2 * sin t) + log (2 * sin (α + t))) t := by
        have a : HasDerivAt (fun t => Clausen.Cl2 (2 * t)) (-log (2 * sin (2 * t / 2)) * 2) t :=
          (TLF.hasDerivAt_Cl2 (x := 2 * t) (by linarith) (by linarith)).comp t (by simpa using (hasDerivAt_id t).const_mul 2)
        have bi : HasDerivAt (fun t : ℝ => 2 * (π - α - t)) (-2) t := by simpa using ((hasDerivAt_id t).const_sub (π - α)).const_mul 2
        have b : HasDerivAt (fun t => Clausen.Cl2 (2 * (π - α - t))) (-log (2 * sin (2 * (π - α - t) / 2)) * (-2)) t :=
          HasDerivAt.comp (h₂ := Clausen.Cl2) (h := fun t : ℝ => 2 * (π - α - t)) t (TLF.hasDerivAt_Cl2 (x := 2 * (π - α - t)) (by linarith) (by linarith)) bi
        refine (((a.const_add _).add b).div_const 2).congr_deriv ?_
        rw [mul_div_cancel_left₀ _ (by norm_num : (2:ℝ) ≠ 0), mul_div_cancel_left₀ _ (by norm_num : (2:ℝ) ≠ 0),
          show π - α - t = π - (α + t) by ring, sin_pi_sub]
        ring
      refine ((d1.sub d2).sub d3).congr_deriv ?_
      rw [log_mul (by norm_num) hT.ne', log_mul (by norm_num) hS.ne']
      generalize sin (α + t) = S at *
      generalize cos (α + t) = C at *
      field_simp
      ring)
  have hp : pol (sin 0 / sin (α + 0)) α = 0 := by simp [pol]; rfl
  rw [hp, CLi2_zero, ← mul_log_sin β hβ.le (by linarith)] at key
  have hc : Clausen.Cl2 (2 * (π - α - 0)) = -Clausen.Cl2 (2 * α) := by
    rw [show 2 * (π - α - 0) = 2 * π - 2 * α by ring, Clausen.Cl2_two_pi_sub]
  rw [hc] at key
  simp [Clausen.Cl2_zero] at key
  rw [log_div (sin_pos_of_pos_of_lt_pi hβ (by linarith)).ne' (hsin hβ.le le_rfl).ne']
  linarith

end Himalaya.Li2
