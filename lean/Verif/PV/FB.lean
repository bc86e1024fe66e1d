import Verif.PV.Props
import Verif.Li2.CSpec
import Mathlib.Analysis.SpecialFunctions.Complex.LogBounds

set_option linter.unusedSimpArgs false
set_option linter.unusedVariables false

namespace Himalaya.PV

open Real intervalIntegral MeasureTheory

/-- `∫₀¹ log|t-z| dt` -/
noncomputable def J (z : ℂ) : ℝ := ∫ t in (0:ℝ)..1, log ‖(t : ℂ) - z‖

theorem fastLog_eq (z : ℂ) : fastLog z = Complex.log z := by
  apply Complex.ext
  · simp only [fastLog, Complex.log_re]
    rw [← Complex.normSq_apply, Complex.normSq_eq_norm_sq, Real.log_pow]; push_cast; ring
  · simp only [fastLog, Complex.log_im]

theorem slit_sub {z : ℂ} (hz : z.im ≠ 0) (t : ℝ) : (t : ℂ) - z ∈ Complex.slitPlane := by
  right; simpa using hz

theorem intervalIntegrable_norm {z : ℂ} (hz : z.im ≠ 0) : IntervalIntegrable (fun t : ℝ => log ‖(t : ℂ) - z‖) volume 0 1 := by
  apply Continuous.intervalIntegrable
  refine Continuous.log (by fun_prop) fun t => ?_
  have := Complex.slitPlane_ne_zero (slit_sub hz t)
  simpa using this

theorem J_eq {z : ℂ} (hz : z.im ≠ 0) : J z = ((1 - z) * Complex.log (1 - z) + z * Complex.log (-z) - 1).re := by
  have hder : ∀ t ∈ Set.uIcc (0:ℝ) 1, HasDerivAt
      (fun t : ℝ => ((t : ℂ) - z) * Complex.log ((t : ℂ) - z) - t) (Complex.log ((t : ℂ) - z)) t := by
    intro t _
    have h0 : HasDerivAt (fun t : ℝ => (t : ℂ) - z) 1 t := (Complex.ofRealCLM.hasDerivAt (x := t)).sub_const z
    have h1 := h0.clog_real (slit_sub hz t)
    have := (h0.mul h1).sub (Complex.ofRealCLM.hasDerivAt (x := t))
    refine this.congr_deriv ?_
    have hne := Complex.slitPlane_ne_zero (slit_sub hz t)
    simp only [Complex.ofRealCLM_apply, Complex.ofReal_one]
    field_simp
    ring
  have hc : Continuous fun t : ℝ => Complex.log ((t : ℂ) - z) := by
    apply Continuous.clog (by fun_prop) fun t => slit_sub hz t
  have hi := hc.intervalIntegrable (μ := volume) 0 1
  have e := integral_eq_sub_of_hasDerivAt hder hi
  have : J z = (∫ t in (0:ℝ)..1, Complex.log ((t : ℂ) - z)).re := by
    unfold J
    have := Complex.reCLM.intervalIntegral_comp_comm hi
    simp only [Complex.reCLM_apply, Complex.log_re] at this
    exact this
  rw [this, e]
  congr 1
  push_cast
  simp only [zero_sub]
  ring

theorem fB_generic {z : ℂ} (hz : z.im ≠ 0) : (-1 + fastLog (1 - z) - z * fastLog (1 - 1 / z)).re = J z := by
  rw [J_eq hz, fastLog_eq, fastLog_eq, Li2.log_one_sub_inv]
  · congr 1; ring
  · right; simpa using hz

theorem fB_far {z : ℂ} (hz : z.im ≠ 0) (h : 1000 < |z.re|) :
    |(-(1 / 2) / z - 1 / (6 * z * z) + fastLog (-z)).re - J z| ≤ 1 / 10 ^ 9 := by
  have h1 : 1000 < ‖z‖ := h.trans_le (Complex.abs_re_le_norm z)
  have hz0 : z ≠ 0 := by rintro rfl; simp at hz
  obtain ⟨w, hw⟩ : ∃ w : ℂ, w = 1 / z := ⟨_, rfl⟩
  have hw0 : w ≠ 0 := by rw [hw]; simpa using hz0
  have hwn : ‖w‖ < 1 / 1000 := by
    rw [hw, norm_div, norm_one]
    exact one_div_lt_one_div_of_lt (by norm_num) h1
  rw [J_eq hz, fastLog_eq]
  have e := Li2.log_one_sub_inv (z := z) (by right; simpa using hz)
  have e' : Complex.log (1 - z) = Complex.log (-z) + Complex.log (1 + -w) := by
    rw [← sub_eq_add_neg, hw, e]; ring
  have t := Complex.norm_log_sub_logTaylor_le 3 (z := -w) (by rw [norm_neg]; linarith)
  have lt4 : Complex.logTaylor 4 (-w) = -w - w ^ 2 / 2 - w ^ 3 / 3 := by
    simp only [Complex.logTaylor, Finset.sum_range_succ, Finset.sum_range_zero]
    push_cast; ring
  rw [show 3 + 1 = 4 from rfl, lt4] at t
  obtain ⟨r, hr⟩ : ∃ r, r = Complex.log (1 + -w) - (-w - w ^ 2 / 2 - w ^ 3 / 3) := ⟨_, rfl⟩
  rw [← hr] at t
  have hlog : Complex.log (1 + -w) = -w - w ^ 2 / 2 - w ^ 3 / 3 + r := by rw [hr]; ring
  have hzw : z = 1 / w := by rw [hw]; simp
  have key : (-(1 / 2) / z - 1 / (6 * z * z) + Complex.log (-z)) - ((1 - z) * Complex.log (1 - z) + z * Complex.log (-z) - 1)
      = w ^ 3 / 3 + r / w - r := by
    rw [e', hlog, hzw]
    generalize Complex.log (-(1 / w)) = L
    field_simp
    ring
  rw [← Complex.sub_re]
  refine (Complex.abs_re_le_norm _).trans ?_
  rw [key]
  rw [norm_neg] at t
  have n0 : 0 < ‖w‖ := norm_pos_iff.2 hw0
  clear e e' hlog hr key lt4
  obtain ⟨y, hy⟩ : ∃ y, y = ‖w‖ := ⟨_, rfl⟩
  have b0 : ‖w ^ 3 / 3‖ = y ^ 3 / 3 := by rw [norm_div, norm_pow, hy]; norm_num
  have b1 : ‖r / w‖ = ‖r‖ / y := by rw [norm_div, hy]
  have b := (norm_sub_le (w ^ 3 / 3 + r / w) r).trans (add_le_add_left (norm_add_le (w ^ 3 / 3) (r / w)) _)
  rw [b0, b1] at b
  refine b.trans ?_
  rw [← hy] at t hwn n0
  have t2 : ‖r‖ ≤ y ^ 4 / 3 := by
    refine t.trans ?_
    have : (1 - y)⁻¹ ≤ 1001 / 999 := by
      rw [inv_le_comm₀ (by linarith) (by norm_num)]; norm_num; linarith
    have hh := mul_le_mul_of_nonneg_left this (pow_pos n0 4).le
    norm_num at hh ⊢
    have := pow_pos n0 4
    linarith
  have t3 : ‖r‖ / y ≤ y ^ 3 / 3 := by
    rw [div_le_iff₀ n0]; refine t2.trans (le_of_eq (by ring))
  have p3 : y ^ 3 ≤ (1 / 1000) ^ 3 := pow_le_pow_left₀ n0.le hwn.le 3
  have p4 : y ^ 4 ≤ (1 / 1000) ^ 4 := pow_le_pow_left₀ n0.le hwn.le 4
  norm_num at p3 p4 ⊢
  linarith

theorem J_one_sub (z : ℂ) : J (1 - z) = J z := by
  unfold J
  have := integral_comp_sub_left (a := 0) (b := 1) (fun t : ℝ => log ‖(t : ℂ) - z‖) 1
  simp only [sub_self, sub_zero] at this
  rw [← this]
  apply integral_congr
  intro t _
  dsimp only
  rw [show ((t : ℂ) - (1 - z)) = -(((1 - t : ℝ) : ℂ) - z) by push_cast; ring, norm_neg]

theorem fB_near {z : ℂ} (hz : z.im ≠ 0) (h : ‖z - 1‖ ≤ 1 / 500) :
    |(-1 + (z - 1) * (1 - fastLog (z - 1) + (z - 1) * (1 / 2 - (z - 1) / 6))).re - J z| ≤ 1 / 10 ^ 11 := by
  obtain ⟨d, hd⟩ : ∃ d : ℂ, d = z - 1 := ⟨_, rfl⟩
  have hzd : z = 1 + d := by rw [hd]; ring
  have hdi : d.im ≠ 0 := by rw [hd]; simpa using hz
  rw [← hd] at h ⊢
  rw [← J_one_sub, J_eq (by simpa using hz), fastLog_eq]
  have t := Complex.norm_log_sub_logTaylor_le 3 (z := d) (by linarith)
  have lt4 : Complex.logTaylor 4 d = d - d ^ 2 / 2 + d ^ 3 / 3 := by
    simp only [Complex.logTaylor, Finset.sum_range_succ, Finset.sum_range_zero]
    push_cast; ring
  rw [show 3 + 1 = 4 from rfl, lt4] at t
  obtain ⟨r, hr⟩ : ∃ r, r = Complex.log (1 + d) - (d - d ^ 2 / 2 + d ^ 3 / 3) := ⟨_, rfl⟩
  rw [← hr] at t
  have hlog : Complex.log (1 + d) = d - d ^ 2 / 2 + d ^ 3 / 3 + r := by rw [hr]; ring
  have key : (-1 + d * (1 - Complex.log d + d * (1 / 2 - d / 6)))
      - ((1 - (1 - z)) * Complex.log (1 - (1 - z)) + (1 - z) * Complex.log (-(1 - z)) - 1) = -d ^ 4 / 3 - r - d * r := by
    rw [show 1 - (1 - z) = 1 + d by rw [hzd]; ring, show -(1 - z) = d by rw [hzd]; ring, show 1 - z = -d by rw [hzd]; ring, hlog]
    ring
  rw [← Complex.sub_re]
  refine (Complex.abs_re_le_norm _).trans ?_
  rw [key]
  clear hlog hr key lt4
  obtain ⟨y, hy⟩ : ∃ y, y = ‖d‖ := ⟨_, rfl⟩
  have b0 : ‖-d ^ 4 / 3‖ = y ^ 4 / 3 := by rw [norm_div, norm_neg, norm_pow, hy]; norm_num
  have b1 : ‖d * r‖ = y * ‖r‖ := by rw [norm_mul, hy]
  have b := (norm_sub_le (-d ^ 4 / 3 - r) (d * r)).trans (add_le_add_left (norm_sub_le (-d ^ 4 / 3) r) _)
  rw [b0, b1] at b
  refine b.trans ?_
  have n0 : 0 ≤ y := by rw [hy]; exact norm_nonneg _
  rw [← hy] at t h
  have t2 : ‖r‖ ≤ y ^ 4 * (251 / 1000) := by
    refine t.trans ?_
    have : (1 - y)⁻¹ ≤ 500 / 499 := by
      rw [inv_le_comm₀ (by linarith) (by norm_num)]; norm_num; linarith
    have hh := mul_le_mul_of_nonneg_left this (pow_nonneg n0 4)
    norm_num at hh ⊢
    have := pow_nonneg n0 4
    linarith
  have p4 : y ^ 4 ≤ (1 / 500) ^ 4 := pow_le_pow_left₀ n0 h 4
  have : y * ‖r‖ ≤ 1 / 500 * ‖r‖ := mul_le_mul_of_nonneg_right h (norm_nonneg r)
  norm_num at p4 ⊢
  linarith

/-- `fB` of a root with real part at most 1 is the parameter integral, up to `1e-9` -/
theorem fB_close {z : ℂ} (hz : z.im ≠ 0) (h : |z.re - 1| < 1 / 1000 → |z.im| ≤ 1 / 1000) : |fB z - J z| ≤ 1 / 10 ^ 9 := by
  unfold fB
  rw [if_neg (fun h => hz h.2)]
  split_ifs with h1 h2
  · have hn : ‖z - 1‖ ≤ 1 / 500 := by
      have := Complex.norm_le_abs_re_add_abs_im (z - 1)
      simp only [Complex.sub_re, Complex.sub_im, Complex.one_re, Complex.one_im, sub_zero] at this
      have := h h1
      norm_num at *; linarith
    exact (fB_near hz hn).trans (by norm_num)
  · exact fB_far hz h2
  · rw [fB_generic hz, sub_self, abs_zero]; positivity

end Himalaya.PV
