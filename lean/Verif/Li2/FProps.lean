import Verif.Li2.CProps
import Verif.Li2.FModel

/-!
# The Fortran dilogarithm: accuracy (C59)
-/

set_option linter.dupNamespace false
set_option linter.unusedSimpArgs false
set_option linter.unusedVariables false

namespace Himalaya.Li2.F
open Complex Set
open Himalaya.Li2 (Li2 CLi2 ser ser_log)

theorem PI_sq_bound : |PI ^ 2 - Real.pi ^ 2| ≤ 1 / 10 ^ 17 := by
  have h1 := Real.pi_gt_d20
  have h2 := Real.pi_lt_d20
  have e : PI ^ 2 - Real.pi ^ 2 = (PI - Real.pi) * (PI + Real.pi) := by ring
  rw [e, abs_mul]
  have a1 : |PI - Real.pi| ≤ 155 / 10 ^ 20 := by
    unfold PI; rw [abs_le]; constructor <;> linarith
  have a2 : |PI + Real.pi| ≤ 64 / 10 := by
    unfold PI; rw [abs_of_pos (by positivity)]; linarith
  calc |PI - Real.pi| * |PI + Real.pi| ≤ 155 / 10 ^ 20 * (64 / 10) := by gcongr
    _ ≤ _ := by norm_num

theorem p_eq (y : ℝ) : p y = dilogP y := by unfold p dilogP; norm_num
theorem q_eq (y : ℝ) : q y = dilogQ y := by unfold q dilogQ; norm_num

theorem tail_close {y r s x : ℝ} (h0 : 0 ≤ y) (h1 : y ≤ 1 / 2) (hs : s = 1 ∨ s = -1) (h : |r + s * Li2 y - Li2 x| ≤ 1 / 10 ^ 17) : |tail y r s - Li2 x| ≤ 6 / 10 ^ 17 := by
  have h3 := pade_error h0 h1
  have e2 : tail y r s - Li2 x = (r + s * Li2 y - Li2 x) + s * (y * dilogP y / dilogQ y - Li2 y) := by
    unfold tail; rw [p_eq, q_eq]; ring
  have h4 : |s * (y * dilogP y / dilogQ y - Li2 y)| ≤ 5 / 10 ^ 17 := by
    rw [abs_mul]
    have : |s| = 1 := by rcases hs with rfl | rfl <;> simp
    rw [this, one_mul]; exact h3
  rw [e2]
  refine (abs_add_le _ _).trans ?_
  linarith

/-- **C59, real Fortran routine.** `dli2(x)` is the real part of the dilogarithm to within `6·10⁻¹⁷`, for every real argument. -/
theorem C59_dli2 (x : ℝ) : |dli2 x - ∫ t in (0:ℝ)..x, -Real.log (1 - t) / t| ≤ 6 / 10 ^ 17 := by
  show |dli2 x - Li2 x| ≤ _
  have hpi := abs_le.1 PI_sq_bound
  unfold dli2
  split_ifs with h1 h2 h3 h4 h5 h6 h7 h8
  · have : 0 < 1 - x := by linarith
    refine tail_close (by positivity) (by rw [div_le_div_iff₀ this (by norm_num)]; linarith) (Or.inl rfl) ?_
    rw [reduce_lt_neg_one (x := x) (by linarith), abs_le]
    constructor <;> nlinarith
  · rw [h2, Li2_neg_one, abs_le]; constructor <;> nlinarith
  · have hx : x < 0 := h3
    have hx1 : -1 < x := lt_of_le_of_ne (not_lt.1 h1) (Ne.symm h2)
    have e1 : x / (x - 1) = -x / (1 - x) := by rw [← neg_div_neg_eq]; congr 1; ring
    have hp : 0 < 1 - x := by linarith
    refine tail_close (by rw [e1]; exact div_nonneg (by linarith) hp.le) (by rw [e1, div_le_div_iff₀ hp (by norm_num)]; linarith) (Or.inr rfl) ?_
    have := Li2_landen (x := x) (by linarith)
    have e : Li2 x = -(Real.log (1 - x)) ^ 2 / 2 - Li2 (x / (x - 1)) := by linarith
    rw [e, abs_le]
    constructor <;> nlinarith
  · rw [h4, Li2_zero]; norm_num
  · norm_num at h5
    exact tail_close (not_lt.1 h3) h5.le (Or.inl rfl) (by norm_num)
  · norm_num at h5
    refine tail_close (by linarith) (by linarith) (Or.inr rfl) ?_
    have := Li2_reflect x
    have e : Li2 x = Real.pi ^ 2 / 6 - Real.log x * Real.log (1 - x) - Li2 (1 - x) := by linarith
    rw [e, abs_le]
    constructor <;> nlinarith
  · rw [h7, Li2_one, abs_le]; constructor <;> nlinarith
  · have hx : 1 < x := lt_of_le_of_ne (not_lt.1 h6) (Ne.symm h7)
    have hx0 : 0 < x := by linarith
    have e0 : 1 - 1 / x = (x - 1) / x := by field_simp
    refine tail_close (by rw [e0]; exact div_nonneg (by linarith) hx0.le) (by rw [e0, div_le_div_iff₀ hx0 (by norm_num)]; linarith) (Or.inl rfl) ?_
    rw [reduce_one_two (x := x) (by linarith), abs_le]
    constructor <;> nlinarith
  · have hx : 2 ≤ x := not_lt.1 h8
    have hx0 : 0 < x := by linarith
    refine tail_close (by positivity) (by rw [div_le_div_iff₀ hx0 (by norm_num)]; linarith) (Or.inr rfl) ?_
    have := Li2_inv (x := x) (by linarith)
    have e : Li2 x = Real.pi ^ 2 / 3 - (Real.log x) ^ 2 / 2 - Li2 (1 / x) := by linarith
    rw [e, abs_le]
    constructor <;> nlinarith

/-- `fast_cdlog` is the principal branch of the logarithm -/
theorem fast_cdlog_eq (z : ℂ) : fast_cdlog z = Complex.log z := by
  unfold fast_cdlog
  apply Complex.ext
  · rw [log_re]
    have : z.re ^ 2 + z.im ^ 2 = ‖z‖ ^ 2 := by rw [Complex.sq_norm, normSq_apply]; ring
    simp only [this, Real.log_pow]; push_cast; ring
  · rw [log_im]

theorem sum_eq (u : ℂ) : sum u = ser u := by
  unfold sum ser polyRev bfRev
  simp only [List.foldl]
  push_cast
  norm_num
  ring

theorem PI6_close : ‖((PI ^ 2 / 6 : ℝ) : ℂ) - (Real.pi ^ 2 / 6 : ℝ)‖ ≤ 2 / 10 ^ 18 := by
  rw [← Complex.ofReal_sub, Complex.norm_real, Real.norm_eq_abs]
  have := PI_sq_bound
  rw [show PI ^ 2 / 6 - Real.pi ^ 2 / 6 = (PI ^ 2 - Real.pi ^ 2) / 6 by ring, abs_div, abs_of_pos (by norm_num : (0:ℝ) < 6)]
  linarith

/-- **C59, complex Fortran routine.** Off the cut `(1, ∞)`, `cdli2(z)` is the principal branch of the dilogarithm to within `2.3·10⁻¹⁶`. -/
theorem C59_cdli2 (z : ℂ) (hz : z.im ≠ 0 ∨ z.re ≤ 1) : ‖cdli2 z - CLi2 z‖ ≤ 23 / 10 ^ 17 := by
  by_cases h0 : z.im = 0
  · have hr : z.re ≤ 1 := by tauto
    have e : z = (z.re : ℂ) := Complex.ext rfl (by simp [h0])
    rw [e, CLi2_real hr]
    have : cdli2 (z.re : ℂ) = (dli2 z.re : ℂ) := by
      unfold cdli2; simp [hr]; rfl
    rw [this, ← Complex.ofReal_sub, Complex.norm_real, Real.norm_eq_abs]
    refine (C59_dli2 z.re).trans (by norm_num)
  have hz0 : z ≠ 0 := by rintro rfl; simp at h0
  have s1 : z ∈ slitPlane := Or.inr h0
  have s2 : -z ∈ slitPlane := Or.inr (by simpa using h0)
  have s3 : 1 - z ∈ slitPlane := Or.inr (by simpa using h0)
  have s4 : 1 - 1 / z ∈ slitPlane := by
    right; simp [h0, hz0]
  have hsq : z.re ^ 2 + z.im ^ 2 = ‖z‖ ^ 2 := by rw [Complex.sq_norm, normSq_apply]; ring
  have hnz : 0 < ‖z‖ := norm_pos_iff.2 hz0
  unfold cdli2
  rw [if_neg h0]
  split_ifs with hs
  · have hl : ‖z‖ ^ 2 < (1 / 2 ^ 26) ^ 2 := by rw [← hsq]; refine hs.trans_le ?_; rw [epsilon]; norm_num
    have hl2 : ‖z‖ ≤ 1 / 2 ^ 26 := (lt_of_pow_lt_pow_left₀ 2 (by norm_num) hl).le
    refine (small_close (hl2.trans (by norm_num))).trans ((pow_le_pow_left₀ hnz.le hl2 3).trans (by norm_num))
  · simp only [sum_eq]
    have inv (hn1 : 1 ≤ ‖z‖) (hre : 2 * z.re ≤ ‖z‖ ^ 2) :
        ‖((-1 : ℝ) : ℂ) * ser (-Complex.log (1 - 1 / z)) + (-0.5 * Complex.log (-z) ^ 2 - ((PI ^ 2 / 6 : ℝ) : ℂ)) - CLi2 z‖ ≤ 23 / 10 ^ 17 := by
      have hi := CLi2_inv s2
      have hs := ser_log (z := 1 / z) (by
        rw [one_div, inv_re, normSq_eq_norm_sq, div_le_iff₀ (by positivity)]; linarith) (by
        rw [norm_div, norm_one, div_le_one hnz]; exact hn1) (slitPlane_ne_zero s4)
      have e2 : ((-1 : ℝ) : ℂ) * ser (-Complex.log (1 - 1 / z)) + (-0.5 * Complex.log (-z) ^ 2 - ((PI ^ 2 / 6 : ℝ) : ℂ)) - CLi2 z =
          -(ser (-Complex.log (1 - 1 / z)) - CLi2 (1 / z)) - (((PI ^ 2 / 6 : ℝ) : ℂ) - (Real.pi ^ 2 / 6 : ℝ)) := by
        rw [show CLi2 z = -(Real.pi ^ 2 / 6 : ℝ) - Complex.log (-z) ^ 2 / 2 - CLi2 (1 / z) by linear_combination hi]
        push_cast; ring
      rw [e2]
      refine (norm_sub_le _ _).trans ?_
      rw [norm_neg]
      linarith [PI6_close]
    unfold reduce
    simp only [fast_cdlog_eq]
    by_cases hr : z.re ≤ 0.5
    · rw [if_pos hr]
      have hr' : z.re ≤ 1/2 := by norm_num at hr; exact hr
      by_cases hn : 1 < z.re ^ 2 + z.im ^ 2
      · rw [if_pos hn]
        rw [hsq] at hn
        refine inv ?_ ?_
        · by_contra hc; push Not at hc; nlinarith
        · linarith
      · rw [if_neg hn]
        rw [hsq] at hn
        have := ser_log hr' (by by_contra hc; push Not at hc; nlinarith) (slitPlane_ne_zero s3)
        simp only [ofReal_one, one_mul, add_zero]
        exact this.trans (by norm_num)
    · rw [if_neg hr]
      have hr' : 1/2 < z.re := by norm_num at hr ⊢; exact hr
      by_cases hn : z.re ^ 2 + z.im ^ 2 ≤ 2 * z.re
      · rw [if_pos hn]
        have hs := ser_log (z := 1 - z) (by simp; linarith) (by
          have : ‖1 - z‖ ^ 2 ≤ 1 := by
            rw [Complex.sq_norm, normSq_apply]; simp; nlinarith
          by_contra hc; push Not at hc; nlinarith) (by rw [sub_sub_cancel]; exact hz0)
        rw [sub_sub_cancel] at hs
        have hi := CLi2_reflect s1 s3
        have e2 : ((-1 : ℝ) : ℂ) * ser (-Complex.log z) + (-Complex.log z * Complex.log (1 - z) + ((PI ^ 2 / 6 : ℝ) : ℂ)) - CLi2 z =
          -(ser (-Complex.log z) - CLi2 (1 - z)) + (((PI ^ 2 / 6 : ℝ) : ℂ) - (Real.pi ^ 2 / 6 : ℝ)) := by
          rw [show CLi2 z = (Real.pi ^ 2 / 6 : ℝ) - Complex.log z * Complex.log (1 - z) - CLi2 (1 - z) by linear_combination hi]
          push_cast; ring
        rw [e2]
        refine (norm_add_le _ _).trans ?_
        rw [norm_neg]
        linarith [PI6_close]
      · rw [if_neg hn]
        rw [hsq] at hn
        push Not at hn
        refine inv ?_ hn.le
        by_contra hc; push Not at hc; nlinarith

/-- **C59, C++ interface of the Fortran routines.** -/
theorem C59_li2 (z : ℂ) (hz : z.im ≠ 0 ∨ z.re ≤ 1) : ‖li2 z - CLi2 z‖ ≤ 23 / 10 ^ 17 := C59_cdli2 z hz
/-- the real overload returns the real part, for every real argument, also on the cut -/
theorem C59_li2_real (x : ℝ) : |li2Real x - Li2 x| ≤ 6 / 10 ^ 17 := by
  have : li2Real x = dli2 x := by
    unfold li2Real li2 li2c cdli2
    by_cases h : x ≤ 1 <;> simp [h]
  rw [this]; exact C59_dli2 x

/-- **C59.** The two implementations of the complex dilogarithm that the library contains agree off the cut to `5.1·10⁻¹⁶`. -/
theorem C59_implementations_agree (z : ℂ) (hz : z.im ≠ 0 ∨ z.re ≤ 1) : ‖cdilog z - li2 z‖ ≤ 51 / 10 ^ 17 := by
  have a := C59_error z hz
  have b := C59_li2 z hz
  rw [norm_sub_rev] at b
  refine (norm_sub_le_norm_sub_add_norm_sub _ (CLi2 z) _).trans ?_
  linarith

example : ‖cdilog ⟨2, 1⟩ - li2 ⟨2, 1⟩‖ ≤ 51 / 10 ^ 17 := C59_implementations_agree _ (by norm_num)

end Himalaya.Li2.F
