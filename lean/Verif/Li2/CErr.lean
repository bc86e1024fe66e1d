import Verif.Li2.CSeries
import Mathlib.Analysis.SpecialFunctions.Trigonometric.Bounds

/-!
# The complex dilogarithm of the code: error bound
-/

set_option linter.dupNamespace false
set_option linter.unusedSimpArgs false
set_option linter.unusedVariables false

namespace Himalaya.Li2
open Complex Set Filter Topology MeasureTheory

/-- the truncated series of the code -/
noncomputable def ser (u : ℂ) : ℂ := u + u * u * (-(1 / 4) + u * polyRev (u * u) bfRev)

theorem hasDerivAt_ser (u : ℂ) : HasDerivAt ser (ev bernQ u) u := by
  have e : ser = fun u : ℂ => u + u^2 * (-(1/4)) + u^3 * (1/36) + u^5 * (-1/3600) + u^7 * (1/211680) + u^9 * (-1/10886400) + u^11 * (1/526901760)
      + u^13 * (-4.0647616451442255e-11) + u^15 * 8.9216910204564526e-13 + u^17 * (-1.9939295860721076e-14) + u^19 * 4.5189800296199182e-16 := by
    funext u
    simp only [ser, polyRev, bfRev, List.foldl]
    push_cast
    ring
  rw [e]
  have hp (n : ℕ) (c : ℂ) : HasDerivAt (fun u : ℂ => u ^ n * c) (n * u ^ (n - 1) * c) u := (hasDerivAt_pow n u).mul_const c
  refine (((((((((((hasDerivAt_id u).add (hp 2 _)).add (hp 3 _)).add (hp 5 _)).add (hp 7 _)).add (hp 9 _)).add (hp 11 _)).add (hp 13 _)).add (hp 15 _)).add (hp 17 _)).add (hp 19 _)).congr_deriv ?_
  simp only [bernQ, ev]
  push_cast
  ring

theorem slit_exp {w : ℂ} (hw : ‖w‖ ≤ 21/20) : exp (-w) ∈ slitPlane ∧ Complex.log (exp (-w)) = -w := by
  have h : |w.im| ≤ 21/20 := (abs_im_le_norm w).trans hw
  have hp := Real.pi_gt_three
  rw [abs_le] at h
  have hl : Complex.log (exp (-w)) = -w := log_exp (by simp; linarith) (by simp; linarith)
  refine ⟨?_, hl⟩
  rw [mem_slitPlane_iff_arg]
  refine ⟨?_, exp_ne_zero _⟩
  have : (exp (-w)).arg = (-w).im := by rw [← log_im, hl]
  rw [this]; simp; intro e; linarith

/-- the series approximates the dilogarithm in the variable `u = -log(1-z)` -/
theorem ser_close {u : ℂ} (hu : ‖u‖ ≤ 21/20) : ‖CLi2 (1 - exp (-u)) - ser u‖ ≤ 22 / 10 ^ 17 := by
  by_cases h0 : u = 0
  · subst h0; simp [CLi2_zero, ser]; positivity
  have hn : 0 < ‖u‖ := norm_pos_iff.2 h0
  obtain ⟨f, hf⟩ : ∃ f : ℝ → ℂ, f = fun s : ℝ => CLi2 (1 - exp (-((s:ℂ) * u))) - ser (s * u) := ⟨_, rfl⟩
  have hsu {s : ℝ} (hs : s ∈ Icc (0:ℝ) 1) : ‖(s:ℂ) * u‖ ≤ 21/20 := by
    rw [norm_mul, Complex.norm_real, Real.norm_eq_abs, abs_of_nonneg hs.1]
    nlinarith [hs.2]
  have hd {s : ℝ} (hs : s ∈ Icc (0:ℝ) 1) (hs0 : s ≠ 0) :
      HasDerivAt f (u * ((s * u) / (exp (s * u) - 1) - ev bernQ (s * u))) s := by
    rw [hf]
    have hw := hsu hs
    have hw0 : (s:ℂ) * u ≠ 0 := mul_ne_zero (by exact_mod_cast hs0) h0
    obtain ⟨sl, lo⟩ := slit_exp hw
    have hx : 1 - exp (-((s:ℂ) * u)) ≠ 0 := by
      intro e
      have : exp (-((s:ℂ) * u)) = 1 := by linear_combination -e
      rw [this, Complex.log_one] at lo
      exact hw0 (by linear_combination lo)
    have d0 : HasDerivAt (fun s : ℝ => (s:ℂ) * u) u s := by
      simpa using (Complex.ofRealCLM.hasDerivAt (x := s)).mul_const u
    have d1 : HasDerivAt (fun s : ℝ => 1 - exp (-((s:ℂ) * u))) (exp (-((s:ℂ) * u)) * u) s := by
      have := ((d0.neg).cexp).const_sub 1
      simpa using this
    have hz : 1 - (1 - exp (-((s:ℂ) * u))) ∈ slitPlane := by simpa using sl
    have d2 := (hasDerivAt_CLi2 hz hx).comp s d1
    have d3 := (hasDerivAt_ser ((s:ℂ) * u)).comp s d0
    refine (d2.sub d3).congr_deriv ?_
    rw [sub_sub_cancel, lo, exp_neg]
    rw [exp_neg] at hx
    have he := exp_ne_zero ((s:ℂ) * u)
    have hx2 : exp ((s:ℂ) * u) - 1 ≠ 0 := by
      intro e; apply hx
      rw [show exp ((s:ℂ) * u) = 1 by linear_combination e]; simp
    generalize exp ((s:ℂ) * u) = X at *
    have : (1 - X⁻¹) = (X - 1) / X := by field_simp
    rw [this]
    field_simp
  have hd0 : HasDerivAt f 0 0 := by
    rw [hf]
    have hz : 1 - (1 - exp (-(((0:ℝ):ℂ) * u))) ∈ slitPlane := by simp
    have d0 : HasDerivAt (fun s : ℝ => (s:ℂ) * u) u 0 := by
      simpa using (Complex.ofRealCLM.hasDerivAt (x := 0)).mul_const u
    have d1 : HasDerivAt (fun s : ℝ => 1 - exp (-((s:ℂ) * u))) (exp (-(((0:ℝ):ℂ) * u)) * u) 0 := by
      have := ((d0.neg).cexp).const_sub 1
      simpa using this
    have d2 := (hasDerivAt_CLi2' hz).comp (0:ℝ) d1
    have d3 := (hasDerivAt_ser (((0:ℝ):ℂ) * u)).comp (0:ℝ) d0
    refine (d2.sub d3).congr_deriv ?_
    simp [bernQ, ev]
  have main := image_norm_le_of_norm_deriv_right_le_deriv_boundary (f := f) (a := 0) (b := 1)
    (f' := fun s => if s = 0 then 0 else u * ((s * u) / (exp (s * u) - 1) - ev bernQ (s * u)))
    (B := fun s => ‖u‖ * (1.65e-15 * ‖u‖ ^ 20 * (s ^ 21 / 21) + 6e-26 * s))
    (B' := fun s => ‖u‖ * (1.65e-15 * ‖u‖ ^ 20 * s ^ 20 + 6e-26))
    (fun s hs => by
      by_cases e : s = 0
      · subst e; exact hd0.continuousAt.continuousWithinAt
      · exact (hd hs e).continuousAt.continuousWithinAt)
    (fun s hs => by
      by_cases e : s = 0
      · subst e; simpa using hd0.hasDerivWithinAt
      · simpa [e] using (hd ⟨hs.1, hs.2.le⟩ e).hasDerivWithinAt)
    (by rw [hf]; simp [CLi2_zero, ser])
    (fun s => by
      have h1 : HasDerivAt (fun s : ℝ => s ^ 21 / 21) (s ^ 20) s := by
        refine ((hasDerivAt_pow 21 s).div_const 21).congr_deriv ?_
        norm_num
      have := ((h1.const_mul (1.65e-15 * ‖u‖ ^ 20)).add ((hasDerivAt_id s).const_mul (6e-26))).const_mul ‖u‖
      refine this.congr_deriv ?_
      simp)
    (fun s hs => by
      by_cases e : s = 0
      · subst e; simp; positivity
      · simp only [e, if_false]
        have hs' : s ∈ Icc (0:ℝ) 1 := ⟨hs.1, hs.2.le⟩
        rw [norm_mul]
        refine mul_le_mul_of_nonneg_left ?_ hn.le
        refine (bern_close (mul_ne_zero (by exact_mod_cast e) h0) (hsu hs')).trans (le_of_eq ?_)
        rw [norm_mul, Complex.norm_real, Real.norm_eq_abs, abs_of_nonneg hs.1, mul_pow]; ring)
    (x := 1) (by simp)
  rw [hf] at main
  simp only [ofReal_one, one_mul, one_pow, mul_one] at main
  refine main.trans ?_
  have h20 : ‖u‖ ^ 20 ≤ (21/20) ^ 20 := pow_le_pow_left₀ hn.le hu 20
  calc ‖u‖ * (1.65e-15 * ‖u‖ ^ 20 * (1/21) + 6e-26) ≤ (21/20) * (1.65e-15 * (21/20) ^ 20 * (1/21) + 6e-26) := by gcongr
    _ ≤ _ := by norm_num

/-! ### the region in which the series is used -/

theorem cos_le_quartic (x : ℝ) : Real.cos x ≤ 1 - x ^ 2 / 2 + x ^ 4 / 24 := by
  wlog hx : 0 ≤ x
  · have := this (-x) (by linarith); simpa [Even.neg_pow (by decide : Even 4)] using this
  have hm : MonotoneOn (fun x : ℝ => 1 - x ^ 2 / 2 + x ^ 4 / 24 - Real.cos x) (Ici 0) := by
    have hd (y : ℝ) : HasDerivAt (fun x : ℝ => 1 - x ^ 2 / 2 + x ^ 4 / 24 - Real.cos x) (Real.sin y - (y - y ^ 3 / 6)) y := by
      refine (((((hasDerivAt_pow 2 y).div_const 2).const_sub 1).add ((hasDerivAt_pow 4 y).div_const 24)).sub (Real.hasDerivAt_cos y)).congr_deriv ?_
      norm_num; ring
    refine monotoneOn_of_deriv_nonneg (convex_Ici 0) (fun y _ => (hd y).continuousAt.continuousWithinAt) (fun y _ => (hd y).differentiableAt.differentiableWithinAt) ?_
    intro y hy
    rw [interior_Ici] at hy
    rw [(hd y).deriv]
    linarith [Real.sin_ge_sub_cube (le_of_lt hy)]
  have := hm (mem_Ici.2 le_rfl) hx hx
  simp at this; linarith

theorem region_alg {l t : ℝ} (hl : 0 ≤ l) (ht : 0 ≤ t) (ht2 : t ≤ 3) (h : 1 + l + l ^ 2 / 2 ≤ 2 * (1 - t / 2 + t ^ 2 / 24)) : l ^ 2 + t ≤ 1.1025 := by
  by_contra hc
  push Not at hc
  have hl2 : l ≤ 3/4 := by
    by_contra h2; push Not at h2; nlinarith
  have : t - t ^ 2 / 12 ≤ 1 - l - l ^ 2 / 2 := by linarith
  have hs : 0 ≤ 1.1025 - l ^ 2 := by norm_num; nlinarith
  obtain ⟨a, ha⟩ : ∃ a, a = 1.1025 - l ^ 2 := ⟨_, rfl⟩
  have hat : a ≤ t := by rw [ha]; linarith
  have hm : a - a ^ 2 / 12 ≤ t - t ^ 2 / 12 := by nlinarith
  rw [ha] at hm
  norm_num at hm
  nlinarith [mul_nonneg hl hl, mul_nonneg (mul_nonneg hl hl) hl, mul_nonneg hl (mul_nonneg hl (mul_nonneg hl hl))]

theorem region {z : ℂ} (h1 : z.re ≤ 1/2) (h2 : ‖z‖ ≤ 1) : ‖-Complex.log (1 - z)‖ ≤ 21/20 := by
  obtain ⟨w, hw⟩ : ∃ w, w = 1 - z := ⟨_, rfl⟩
  rw [← hw, norm_neg]
  have hre : 1/2 ≤ w.re := by rw [hw]; simp; linarith
  have hw0 : w ≠ 0 := fun e => by rw [e] at hre; simp at hre; linarith
  have hn : 0 < ‖w‖ := norm_pos_iff.2 hw0
  have hsq : ‖w‖ ^ 2 ≤ 2 * w.re := by
    have hz : z = 1 - w := by rw [hw]; ring
    have := pow_le_one₀ (n := 2) (norm_nonneg z) h2
    rw [hz, Complex.sq_norm, normSq_apply] at this
    rw [Complex.sq_norm, normSq_apply]
    simp at this ⊢
    nlinarith
  have hc : w.re = ‖w‖ * Real.cos w.arg := (norm_mul_cos_arg w).symm
  have h3 : Real.exp |Real.log ‖w‖| ≤ 2 * Real.cos w.arg := by
    rcases abs_cases (Real.log ‖w‖) with ⟨e, _⟩ | ⟨e, _⟩
    · rw [e, Real.exp_log hn]
      rw [hc] at hsq; nlinarith
    · rw [e, Real.exp_neg, Real.exp_log hn, inv_le_iff_one_le_mul₀ hn]
      nlinarith
  have h4 := Real.quadratic_le_exp_of_nonneg (abs_nonneg (Real.log ‖w‖))
  have h5 := cos_le_quartic w.arg
  have hcp : 0 < Real.cos w.arg := by
    have := Real.exp_pos |Real.log ‖w‖|; linarith
  have harg : w.arg ^ 2 ≤ 3 := by
    -- cos ≥ 1/2
    have hc2 : 1/2 ≤ Real.cos w.arg := by
      have := Real.add_one_le_exp |Real.log ‖w‖|
      have := abs_nonneg (Real.log ‖w‖)
      linarith
    have := Real.cos_le_one_sub_mul_cos_sq (x := w.arg) (abs_le.2 ⟨(neg_pi_lt_arg w).le, arg_le_pi w⟩)
    have hp := Real.pi_lt_d2
    have hpp := Real.pi_pos
    have h6 : 2 / Real.pi ^ 2 * w.arg ^ 2 ≤ 1/2 := by linarith
    rw [div_mul_eq_mul_div, div_le_iff₀ (by positivity)] at h6
    norm_num at hp
    nlinarith
  have h7 := region_alg (abs_nonneg (Real.log ‖w‖)) (sq_nonneg w.arg) harg (by
    rw [sq_abs] at *
    have e : (w.arg ^ 2) ^ 2 = w.arg ^ 4 := by ring
    rw [e]; linarith)
  rw [sq_abs] at h7
  have h8 : ‖Complex.log w‖ ^ 2 ≤ (21/20) ^ 2 := by
    rw [Complex.sq_norm, normSq_apply, log_re, log_im]; norm_num at h7 ⊢; linarith
  exact le_of_sq_le_sq h8 (by norm_num)

end Himalaya.Li2
