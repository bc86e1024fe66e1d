import Verif.Li2.Props
import Mathlib.Analysis.SpecialFunctions.Complex.LogBounds
import Mathlib.Analysis.SpecialFunctions.Complex.LogDeriv
import Mathlib.Analysis.Complex.Convex
import Mathlib.Analysis.Calculus.ParametricIntervalIntegral
import Mathlib.Analysis.Calculus.MeanValue
import Mathlib.Analysis.Convex.PathConnected

/-!
# The complex dilogarithm: specification and functional equations

`CLi2 z = -∫₀¹ log(1 - t z) / t dt`, with the principal branch of the logarithm.
-/

set_option linter.dupNamespace false
set_option linter.unusedSimpArgs false
set_option linter.unusedVariables false

namespace Himalaya.Li2
open Complex Set Filter Topology MeasureTheory intervalIntegral

/-- Specification: the dilogarithm on the whole plane, principal branch -/
noncomputable def CLi2 (z : ℂ) : ℂ := ∫ t in (0:ℝ)..1, -Complex.log (1 - t * z) / t

theorem slit_seg {z : ℂ} (hz : 1 - z ∈ slitPlane) {t : ℝ} (h0 : 0 ≤ t) (h1 : t ≤ 1) : 1 - t * z ∈ slitPlane := by
  have := StarConvex.add_smul_mem starConvex_one_slitPlane (y := -z) (by rwa [← sub_eq_add_neg]) h0 h1
  rwa [Complex.real_smul, mul_neg, ← sub_eq_add_neg] at this

/-- `log(1-z) = -z ∫₀¹ dt/(1-tz)` -/
theorem log_int {z : ℂ} (hz : 1 - z ∈ slitPlane) : -Complex.log (1 - z) = z * ∫ t in (0:ℝ)..1, (1 - t * z)⁻¹ := by
  have h := log_eq_integral (z := -z) (by rwa [← sub_eq_add_neg])
  rw [← sub_eq_add_neg] at h
  rw [h, neg_mul, neg_neg]
  congr 2
  ext t
  rw [Complex.real_smul, mul_neg, ← sub_eq_add_neg]

/-- the denominators stay away from zero near `z` -/
theorem den_bound {z : ℂ} (hz : 1 - z ∈ slitPlane) :
    ∃ s ∈ 𝓝 z, ∃ C : ℝ, (∀ w ∈ s, 1 - w ∈ slitPlane) ∧ ∀ w ∈ s, ∀ t ∈ Icc (0:ℝ) 1, ‖(1 - t * w)⁻¹‖ ≤ C := by
  have hopen : IsOpen {w : ℂ | 1 - w ∈ slitPlane} := isOpen_slitPlane.preimage (by fun_prop)
  obtain ⟨r, r0, hr⟩ := Metric.nhds_basis_closedBall.mem_iff.1 (hopen.mem_nhds hz)
  have hK : IsCompact (Metric.closedBall z r ×ˢ Icc (0:ℝ) 1) := (isCompact_closedBall z r).prod isCompact_Icc
  have hc : ContinuousOn (fun p : ℂ × ℝ => (1 - p.2 * p.1)⁻¹) (Metric.closedBall z r ×ˢ Icc (0:ℝ) 1) := by
    refine ContinuousOn.inv₀ (by fun_prop) fun p hp => ?_
    exact slitPlane_ne_zero (slit_seg (hr hp.1) hp.2.1 hp.2.2)
  obtain ⟨C, hC⟩ := hK.exists_bound_of_continuousOn hc
  exact ⟨Metric.closedBall z r, Metric.closedBall_mem_nhds z r0, C, fun w hw => hr hw, fun w hw t ht => hC (w, t) ⟨hw, ht⟩⟩

theorem bound_log {z : ℂ} (hz : 1 - z ∈ slitPlane) {C : ℝ} (hC : ∀ t ∈ Icc (0:ℝ) 1, ‖(1 - t * z)⁻¹‖ ≤ C) {t : ℝ} (ht : t ∈ Icc (0:ℝ) 1) :
    ‖-Complex.log (1 - t * z) / t‖ ≤ ‖z‖ * C := by
  rcases eq_or_lt_of_le ht.1 with h | h
  · rw [← h]; simp
    have := (norm_nonneg _).trans (hC 0 ⟨le_rfl, zero_le_one⟩)
    positivity
  · rw [log_int (slit_seg hz ht.1 ht.2), norm_div, norm_mul, norm_mul, Complex.norm_real, Real.norm_of_nonneg ht.1]
    have hi : ‖∫ s in (0:ℝ)..1, (1 - (s:ℂ) * (t * z))⁻¹‖ ≤ C := by
      have := norm_integral_le_of_norm_le_const (a := (0:ℝ)) (b := 1) (f := fun s : ℝ => (1 - (s:ℂ) * (t * z))⁻¹) (C := C) ?_
      · simpa using this
      · intro s hs
        rw [uIoc_of_le zero_le_one] at hs
        have := hC (s * t) ⟨mul_nonneg hs.1.le ht.1, mul_le_one₀ hs.2 ht.1 ht.2⟩
        rwa [Complex.ofReal_mul, mul_assoc] at this
    rw [mul_assoc, mul_div_cancel_left₀ _ h.ne']
    exact mul_le_mul_of_nonneg_left hi (norm_nonneg _)

theorem cont_integrand {z : ℂ} (hz : 1 - z ∈ slitPlane) : ContinuousOn (fun t : ℝ => -Complex.log (1 - t * z) / t) (Ioc 0 1) := by
  intro t ht
  refine ContinuousAt.continuousWithinAt ?_
  have h1 : (fun t : ℝ => 1 - (t:ℂ) * z) t ∈ slitPlane := slit_seg hz ht.1.le ht.2
  have c1 : ContinuousAt (fun t : ℝ => 1 - (t:ℂ) * z) t := by fun_prop
  exact (c1.clog h1).neg.div Complex.continuous_ofReal.continuousAt (Complex.ofReal_ne_zero.2 ht.1.ne')

theorem meas_integrand {z : ℂ} (hz : 1 - z ∈ slitPlane) :
    AEStronglyMeasurable (fun t : ℝ => -Complex.log (1 - t * z) / t) (volume.restrict (uIoc 0 1)) := by
  rw [uIoc_of_le zero_le_one]
  exact (cont_integrand hz).aestronglyMeasurable measurableSet_Ioc

theorem CLi2_integrable {z : ℂ} (hz : 1 - z ∈ slitPlane) : IntervalIntegrable (fun t : ℝ => -Complex.log (1 - t * z) / t) volume 0 1 := by
  obtain ⟨s, hs, C, h1, h2⟩ := den_bound hz
  have hC := h2 z (mem_of_mem_nhds hs)
  have hm := meas_integrand hz
  rw [intervalIntegrable_iff]
  rw [uIoc_of_le zero_le_one] at hm ⊢
  refine Integrable.of_bound (C := ‖z‖ * C) hm ?_
  refine (ae_restrict_mem measurableSet_Ioc).mono fun t ht => bound_log hz hC ⟨ht.1.le, ht.2⟩

/-- derivative of the dilogarithm off its branch cut -/
theorem hasDerivAt_CLi2' {z : ℂ} (hz : 1 - z ∈ slitPlane) : HasDerivAt CLi2 (∫ t in (0:ℝ)..1, (1 - t * z)⁻¹) z := by
  obtain ⟨s, hs, C, h1, h2⟩ := den_bound hz
  refine (intervalIntegral.hasDerivAt_integral_of_dominated_loc_of_deriv_le (F := fun z t => -Complex.log (1 - t * z) / t) (F' := fun z t => (1 - t * z)⁻¹)
    (bound := fun _ => C) hs ?_ (CLi2_integrable hz) ?_ ?_ (by simp) ?_).2
  · filter_upwards [hs] with w hw
    exact meas_integrand (h1 w hw)
  · refine ContinuousOn.aestronglyMeasurable ?_ measurableSet_uIoc
    rw [uIoc_of_le zero_le_one]
    exact ContinuousOn.inv₀ (by fun_prop) fun t ht => slitPlane_ne_zero (slit_seg hz ht.1.le ht.2)
  · refine Eventually.of_forall fun t ht w hw => ?_
    rw [uIoc_of_le zero_le_one] at ht
    exact h2 w hw t ⟨ht.1.le, ht.2⟩
  · refine Eventually.of_forall fun t ht w hw => ?_
    rw [uIoc_of_le zero_le_one] at ht
    have hsl := slit_seg (h1 w hw) ht.1.le ht.2
    have d : HasDerivAt (fun w : ℂ => 1 - (t:ℂ) * w) (-(t:ℂ)) w := by
      simpa using ((hasDerivAt_id w).const_mul (t:ℂ)).const_sub 1
    have := ((d.clog hsl).neg.div_const (t:ℂ))
    refine this.congr_deriv ?_
    have ht0 : (t:ℂ) ≠ 0 := Complex.ofReal_ne_zero.2 ht.1.ne'
    have := slitPlane_ne_zero hsl
    field_simp

theorem hasDerivAt_CLi2 {z : ℂ} (hz : 1 - z ∈ slitPlane) (h0 : z ≠ 0) : HasDerivAt CLi2 (-Complex.log (1 - z) / z) z := by
  refine (hasDerivAt_CLi2' hz).congr_deriv ?_
  rw [log_int hz, mul_div_cancel_left₀ _ h0]

theorem continuousAt_CLi2 {z : ℂ} (hz : 1 - z ∈ slitPlane) : ContinuousAt CLi2 z := (hasDerivAt_CLi2' hz).continuousAt

theorem CLi2_zero : CLi2 0 = 0 := by simp [CLi2]

/-- on the real axis below the cut it is the real dilogarithm -/
theorem CLi2_real {x : ℝ} (hx : x ≤ 1) : CLi2 x = Li2 x := by
  unfold CLi2 Li2
  rcases eq_or_ne x 0 with rfl | h0
  · simp
  have e : ∀ t ∈ uIcc (0:ℝ) 1, -Complex.log (1 - t * x) / t = ((-Real.log (1 - t * x) / t : ℝ) : ℂ) := by
    intro t ht
    rw [uIcc_of_le zero_le_one] at ht
    have : 0 ≤ 1 - t * x := by nlinarith [ht.1, ht.2]
    push_cast
    rw [Complex.ofReal_log this]; push_cast; rfl
  rw [integral_congr e, intervalIntegral.integral_ofReal]
  congr 1
  have := intervalIntegral.integral_comp_mul_right (a := 0) (b := 1) (fun s => -Real.log (1 - s) / s) h0
  simp only [zero_mul, one_mul, smul_eq_mul] at this
  have e2 : ∫ t in (0:ℝ)..1, -Real.log (1 - t * x) / t = x * ∫ t in (0:ℝ)..1, -Real.log (1 - t * x) / (t * x) := by
    rw [← intervalIntegral.integral_const_mul]
    congr 1; ext t; field_simp
  rw [e2, this, mul_inv_cancel_left₀ h0]

/-- on the branch cut: the value of the principal branch -/
theorem CLi2_conj (z : ℂ) (hz : 1 - z ∈ slitPlane) : CLi2 ((starRingEnd ℂ) z) = (starRingEnd ℂ) (CLi2 z) := by
  unfold CLi2
  rw [← intervalIntegral_conj]
  refine integral_congr fun t ht => ?_
  rw [uIcc_of_le zero_le_one] at ht
  have h := slit_seg hz ht.1 ht.2
  simp only [map_div₀, map_neg, Complex.conj_ofReal]
  rw [← Complex.log_conj _ (slitPlane_arg_ne_pi h)]
  simp

/-! ### functional equations -/

theorem const_of_deriv {S : Set ℂ} (hS : IsOpen S) {f : ℂ → ℂ} {z0 z : ℂ} (hst : StarConvex ℝ z0 S) (h0 : z0 ∈ S) (hz : z ∈ S) (hf : ∀ w ∈ S, HasDerivAt f 0 w) :
    f z = f z0 := by
  have hp : IsPreconnected S := (hst.isPathConnected h0).isConnected.isPreconnected
  exact hS.is_const_of_deriv_eq_zero hp (fun w hw => (hf w hw).differentiableAt.differentiableWithinAt) (fun w hw => (hf w hw).deriv) hz h0

theorem CLi2_reflect {z : ℂ} (h0 : z ∈ slitPlane) (h1 : 1 - z ∈ slitPlane) : CLi2 z + CLi2 (1 - z) = (Real.pi ^ 2 / 6 : ℝ) - Complex.log z * Complex.log (1 - z) := by
  have hS : IsOpen {w : ℂ | w ∈ slitPlane ∧ 1 - w ∈ slitPlane} := isOpen_slitPlane.inter (isOpen_slitPlane.preimage (by fun_prop))
  have hhalf : (1/2 : ℂ) ∈ slitPlane := Or.inl (by norm_num)
  have hhalf' : (1 - 1/2 : ℂ) ∈ slitPlane := Or.inl (by norm_num)
  have hst : StarConvex ℝ (1/2 : ℂ) {w : ℂ | w ∈ slitPlane ∧ 1 - w ∈ slitPlane} := by
    intro w hw a b ha hb hab
    have hst2 : StarConvex ℝ ((1/2 : ℝ) : ℂ) slitPlane := starConvex_slitPlane (Complex.zero_lt_real.2 (by norm_num))
    refine ⟨?_, ?_⟩
    · have := hst2 hw.1 ha hb hab
      simpa using this
    · have := hst2 hw.2 ha hb hab
      have e : 1 - (a • (1/2 : ℂ) + b • w) = a • (((1/2 : ℝ)) : ℂ) + b • (1 - w) := by
        have hb' : (b : ℂ) = 1 - a := by rw [eq_sub_of_add_eq' hab]; push_cast; ring
        simp only [Complex.real_smul, hb']; push_cast; ring
      rwa [e]
  have key := const_of_deriv hS (f := fun w => CLi2 w + CLi2 (1 - w) + Complex.log w * Complex.log (1 - w)) hst ⟨hhalf, hhalf'⟩ ⟨h0, h1⟩ ?_
  · have l := Li2_reflect (1/2)
    have e1 : CLi2 (1/2) = (Li2 (1/2) : ℝ) := by have := CLi2_real (x := 1/2) (by norm_num); push_cast at this; exact this
    have e2 : (1 - 1/2 : ℂ) = 1/2 := by norm_num
    have e3 : Complex.log (1/2) = (Real.log (1/2) : ℝ) := by rw [Complex.ofReal_log (by norm_num)]; push_cast; rfl
    simp only [e2, e1, e3] at key
    rw [show (1:ℝ) - 1/2 = 1/2 by norm_num] at l
    have l' : ((Li2 (1/2) + Li2 (1/2) : ℝ) : ℂ) = ((Real.pi ^ 2 / 6 - Real.log (1/2) * Real.log (1/2) : ℝ) : ℂ) := by congr 1; linarith
    push_cast at l' key ⊢
    linear_combination key + l'
  · intro w hw
    have hw0 := slitPlane_ne_zero hw.1
    have hw1 := slitPlane_ne_zero hw.2
    have d1 := hasDerivAt_CLi2 hw.2 hw0
    have ds : HasDerivAt (fun w : ℂ => 1 - w) (-1) w := (hasDerivAt_id w).const_sub 1
    have d2 := (hasDerivAt_CLi2 (z := 1 - w) (by rw [sub_sub_cancel]; exact hw.1) hw1).comp w ds
    have d3 := (hasDerivAt_log hw.1).mul (ds.clog hw.2)
    refine ((d1.add d2).add d3).congr_deriv ?_
    rw [sub_sub_cancel]
    field_simp
    ring

theorem star_neg : IsOpen {w : ℂ | -w ∈ slitPlane} ∧ StarConvex ℝ (-1 : ℂ) {w : ℂ | -w ∈ slitPlane} := by
  refine ⟨isOpen_slitPlane.preimage (by fun_prop), ?_⟩
  intro w hw a b ha hb hab
  have := starConvex_one_slitPlane (y := -w) hw ha hb hab
  show -(a • (-1 : ℂ) + b • w) ∈ slitPlane
  have e : -(a • (-1 : ℂ) + b • w) = a • (1:ℂ) + b • (-w) := by simp only [Complex.real_smul]; ring
  rwa [e]

theorem slit_sub {w : ℂ} (hw : -w ∈ slitPlane) : 1 - w ∈ slitPlane := by
  rcases hw with h | h
  · left; simp at h ⊢; linarith
  · right; simpa using h

theorem slit_inv {w : ℂ} (hw : -w ∈ slitPlane) : -(1 / w) ∈ slitPlane := by
  have h0 : w ≠ 0 := fun e => by have := slitPlane_ne_zero hw; simp [e] at this
  have hn : 0 < normSq w := normSq_pos.2 h0
  rcases hw with h | h
  · left
    rw [one_div, Complex.neg_re, Complex.inv_re, ← neg_div]
    exact div_pos (by simpa using h) hn
  · right
    rw [one_div, Complex.neg_im, Complex.inv_im]
    have : w.im ≠ 0 := by simpa using h
    simpa using ⟨this, h0⟩

theorem neg_slit_ne {w : ℂ} (hw : -w ∈ slitPlane) : w ≠ 0 := fun e => by
  have := slitPlane_ne_zero hw; simp [e] at this

theorem hasDerivAt_one_div {w : ℂ} (hw0 : w ≠ 0) : HasDerivAt (fun w : ℂ => 1 / w) (-1 / w ^ 2) w := by
  simpa [neg_div] using hasDerivAt_inv hw0

theorem log_one_sub_inv {z : ℂ} (hz : -z ∈ slitPlane) : Complex.log (1 - 1 / z) = Complex.log (1 - z) - Complex.log (-z) := by
  have h1m : (-(-1 : ℂ)) ∈ slitPlane := by simp
  have key := const_of_deriv star_neg.1 (f := fun w => Complex.log (1 - 1 / w) - Complex.log (1 - w) + Complex.log (-w)) star_neg.2 h1m hz ?_
  · simp only [neg_neg, Complex.log_one] at key
    rw [show (1 - 1 / (-1 : ℂ)) = 1 - -1 by norm_num] at key
    linear_combination key
  · intro w hw
    have hw0 := neg_slit_ne hw
    have dn : HasDerivAt (fun w : ℂ => -w) (-1) w := (hasDerivAt_id w).neg
    have ds : HasDerivAt (fun w : ℂ => 1 - w) (-1) w := (hasDerivAt_id w).const_sub 1
    have hs1 := slit_sub hw
    have hs2 := slit_sub (slit_inv hw)
    have di := (hasDerivAt_one_div hw0).const_sub 1
    refine (((di.clog hs2).sub (ds.clog hs1)).add (dn.clog hw)).congr_deriv ?_
    have h1 := slitPlane_ne_zero hs1
    have h2 := slitPlane_ne_zero hs2
    have e : 1 - 1 / w = -(1 - w) / w := by field_simp; ring
    rw [e] at h2 ⊢
    field_simp
    ring

theorem CLi2_inv {z : ℂ} (hz : -z ∈ slitPlane) : CLi2 z + CLi2 (1 / z) = -(Real.pi ^ 2 / 6 : ℝ) - Complex.log (-z) ^ 2 / 2 := by
  have h1m : (-(-1 : ℂ)) ∈ slitPlane := by simp
  have key := const_of_deriv star_neg.1 (f := fun w => CLi2 w + CLi2 (1 / w) + Complex.log (-w) ^ 2 / 2) star_neg.2 h1m hz ?_
  · have l := Li2_inv (x := 1) one_pos
    have l2 := Li2_dup (x := 1)
    have e1 : CLi2 (-1) = (Li2 (-1) : ℝ) := by have := CLi2_real (x := -1) (by norm_num); push_cast at this; exact this
    have e2 : (1 / -1 : ℂ) = -1 := by norm_num
    simp only [e2, e1, neg_neg, Complex.log_one] at key
    have l3 := Li2_neg_one
    rw [l3] at key
    push_cast at key ⊢
    linear_combination key
  · intro w hw
    have hw0 := neg_slit_ne hw
    have hs1 := slit_sub hw
    have hs2 := slit_sub (slit_inv hw)
    have d1 := hasDerivAt_CLi2 hs1 hw0
    have d2 := (hasDerivAt_CLi2 (z := 1 / w) hs2 (by simpa using hw0)).comp w (hasDerivAt_one_div hw0)
    have dn : HasDerivAt (fun w : ℂ => -w) (-1) w := (hasDerivAt_id w).neg
    have d3 := ((dn.clog hw).pow 2).div_const 2
    refine ((d1.add d2).add d3).congr_deriv ?_
    rw [log_one_sub_inv hw]
    have := slitPlane_ne_zero hs1
    field_simp
    ring

end Himalaya.Li2
