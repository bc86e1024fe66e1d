import Verif.Li2.CErr

/-!
# The complex dilogarithm of the code: property C59
-/

set_option linter.dupNamespace false
set_option linter.unusedSimpArgs false
set_option linter.unusedVariables false

namespace Himalaya.Li2
open Complex Set Filter Topology MeasureTheory

theorem clog1p_eq (z : ℂ) : clog1p z = Complex.log (1 + z) := by
  unfold clog1p
  simp only
  split_ifs with h1 h2
  · have : 1 + z = 1 := Complex.ext (by simpa using h1.1) (by simpa using h1.2)
    rw [this, Complex.log_one]; linear_combination this
  · rfl
  · have hz : z ≠ 0 := by rintro rfl; simp at h1
    rw [add_sub_cancel_left, div_self hz, mul_one]

theorem horner_eq (u : ℂ) : u + u * u * (-(1 / 4) + u * horner (u * u) bfRev) = ser u := by
  unfold ser bfRev
  rw [C33_horner]

theorem PI6_close : ‖((PI * PI / 6 : ℝ) : ℂ) - (Real.pi ^ 2 / 6 : ℝ)‖ ≤ 5 / 10 ^ 17 := by
  rw [← Complex.ofReal_sub, Complex.norm_real, Real.norm_eq_abs]
  have := PI_sq_bound
  rw [show PI * PI / 6 - Real.pi ^ 2 / 6 = (PI * PI - Real.pi * Real.pi) / 6 by ring, abs_div, abs_of_pos (by norm_num : (0:ℝ) < 6)]
  linarith

theorem ser_log {z : ℂ} (h1 : z.re ≤ 1/2) (h2 : ‖z‖ ≤ 1) (hz : 1 - z ≠ 0) : ‖ser (-Complex.log (1 - z)) - CLi2 z‖ ≤ 22 / 10 ^ 17 := by
  have := ser_close (region h1 h2)
  rwa [neg_neg, exp_log hz, sub_sub_cancel, norm_sub_rev] at this

theorem small_close {z : ℂ} (hz : ‖z‖ ≤ 1/2) : ‖z * (1 + 0.25 * z) - CLi2 z‖ ≤ ‖z‖ ^ 3 := by
  have hre : |z.re| ≤ 1/2 := (abs_re_le_norm z).trans hz
  have hsl : 1 - z ∈ slitPlane := by left; simp; linarith [(abs_le.1 hre).2]
  have e : z * (1 + 0.25 * z) = ∫ t in (0:ℝ)..1, (z + t * (z ^ 2 / 2)) := by
    rw [intervalIntegral.integral_add (by simp) (by apply Continuous.intervalIntegrable; fun_prop), intervalIntegral.integral_mul_const]
    simp
    have : ∫ t in (0:ℝ)..1, (t:ℂ) = 1/2 := by
      have h := intervalIntegral.integral_ofReal (μ := volume) (a := 0) (b := 1) (f := fun t : ℝ => t)
      simp at h ⊢
      rw [h]
    rw [this]; ring
  rw [e, CLi2, ← intervalIntegral.integral_sub (by apply Continuous.intervalIntegrable; fun_prop) (CLi2_integrable hsl)]
  have := intervalIntegral.norm_integral_le_of_norm_le_const (a := (0:ℝ)) (b := 1) (C := ‖z‖ ^ 3)
    (f := fun t : ℝ => z + t * (z ^ 2 / 2) - -Complex.log (1 - t * z) / t) (by
      intro t ht
      rw [uIoc_of_le zero_le_one] at ht
      have ht0 : (t:ℂ) ≠ 0 := by exact_mod_cast ht.1.ne'
      have hn : ‖-((t:ℂ) * z)‖ = t * ‖z‖ := by rw [norm_neg, norm_mul, Complex.norm_real, Real.norm_eq_abs, abs_of_pos ht.1]
      have hle : t * ‖z‖ ≤ 1/2 := by nlinarith [ht.2, norm_nonneg z]
      have h := Complex.norm_log_sub_logTaylor_le 2 (z := -((t:ℂ) * z)) (by rw [hn]; linarith)
      have hT : logTaylor (2 + 1) (-((t:ℂ) * z)) = -(t * z) - t ^ 2 * z ^ 2 / 2 := by
        rw [logTaylor_succ, logTaylor_succ, logTaylor_succ, logTaylor_zero]; simp; ring
      rw [hT, hn, ← sub_eq_add_neg] at h
      have e2 : z + t * (z ^ 2 / 2) - -Complex.log (1 - t * z) / t = (Complex.log (1 - t * z) - (-(t * z) - t ^ 2 * z ^ 2 / 2)) / t := by
        field_simp; ring
      rw [e2, norm_div, Complex.norm_real, Real.norm_eq_abs, abs_of_pos ht.1, div_le_iff₀ ht.1]
      refine h.trans ?_
      have : (1 - t * ‖z‖)⁻¹ ≤ 2 := by
        rw [inv_le_comm₀ (by linarith) (by norm_num)]; linarith
      have hp : 0 ≤ (t * ‖z‖) ^ 3 := by have := ht.1; positivity
      calc (t * ‖z‖) ^ 3 * (1 - t * ‖z‖)⁻¹ / (2 + 1) ≤ (t * ‖z‖) ^ 3 * 2 / (2 + 1) := by gcongr
        _ ≤ (t * ‖z‖) ^ 3 := by linarith
        _ = t ^ 3 * ‖z‖ ^ 3 := by ring
        _ ≤ t * ‖z‖ ^ 3 := by
            have : t ^ 3 ≤ t := by nlinarith [ht.1, ht.2, mul_nonneg ht.1.le ht.1.le]
            gcongr
        _ = _ := by ring)
  simpa using this

theorem ii_ofReal {f : ℝ → ℝ} {a b : ℝ} (h : IntervalIntegrable f volume a b) : IntervalIntegrable (fun t => ((f t : ℝ) : ℂ)) volume a b :=
  ⟨h.1.ofReal, h.2.ofReal⟩

/-- value on the cut: the branch that is continuous from below -/
theorem CLi2_cut {x : ℝ} (hx : 1 < x) : CLi2 x = ⟨Li2 x, -(Real.pi * Real.log x)⟩ := by
  have hx0 : 0 < x := by linarith
  have hi0 : 0 < 1 / x := by positivity
  have hi1 : 1 / x < 1 := by rw [div_lt_one hx0]; exact hx
  obtain ⟨g, hg⟩ : ∃ g : ℝ → ℝ, g = fun t => -Real.log (1 - t * x) / t := ⟨_, rfl⟩
  have gint (a b : ℝ) : IntervalIntegrable g volume a b := by
    have h := ((intervalIntegrable_kern (a * x) (b * x)).comp_mul_right (c := x)).const_mul x
    rw [mul_div_cancel_right₀ _ hx0.ne', mul_div_cancel_right₀ _ hx0.ne'] at h
    refine h.congr (fun t _ => ?_)
    rw [hg, kern]
    field_simp
  have hgL : ∫ t in (0:ℝ)..1, g t = Li2 x := by
    have := intervalIntegral.integral_comp_mul_right (a := 0) (b := 1) (fun s => -Real.log (1 - s) / s) hx0.ne'
    simp only [zero_mul, one_mul, smul_eq_mul] at this
    have e2 : ∫ t in (0:ℝ)..1, g t = x * ∫ t in (0:ℝ)..1, -Real.log (1 - t * x) / (t * x) := by
      rw [← intervalIntegral.integral_const_mul, hg]
      congr 1; ext t; field_simp
    rw [e2, this, mul_inv_cancel_left₀ hx0.ne']; rfl
  have hpint : IntervalIntegrable (fun t : ℝ => -Real.pi / t) volume (1/x) 1 := by
    apply ContinuousOn.intervalIntegrable
    rw [uIcc_of_le hi1.le]
    intro t ht
    have : t ≠ 0 := (hi0.trans_le ht.1).ne'
    exact (continuousAt_const.div continuousAt_id this).continuousWithinAt
  have e1 : EqOn (fun t : ℝ => -Complex.log (1 - t * x) / t) (fun t => ((g t : ℝ) : ℂ)) (uIoc 0 (1/x)) := by
    intro t ht
    rw [uIoc_of_le hi0.le] at ht
    have : 0 ≤ 1 - t * x := by
      have := ht.2; rw [le_div_iff₀ hx0] at this; linarith
    simp only [hg]
    push_cast
    rw [Complex.ofReal_log this]; push_cast; rfl
  have e2 : EqOn (fun t : ℝ => -Complex.log (1 - t * x) / t) (fun t => ((g t : ℝ) : ℂ) + ((-Real.pi / t : ℝ) : ℂ) * I) (uIoc (1/x) 1) := by
    intro t ht
    rw [uIoc_of_le hi1.le] at ht
    have hlt : 1 - t * x < 0 := by
      have := ht.1; rw [div_lt_iff₀ hx0] at this; linarith
    have : (1 - (t:ℂ) * x) = ((1 - t * x : ℝ) : ℂ) := by push_cast; rfl
    simp only [hg]
    rw [this]
    apply Complex.ext
    · rw [Complex.div_ofReal_re, neg_re, log_re, Complex.norm_real, Real.norm_eq_abs, Real.log_abs]; simp
    · rw [Complex.div_ofReal_im, neg_im, log_im, arg_ofReal_of_neg hlt]; simp
  have i1 : IntervalIntegrable (fun t : ℝ => -Complex.log (1 - t * x) / t) volume 0 (1/x) := (ii_ofReal (gint _ _)).congr (fun t ht => (e1 ht).symm)
  have i2' : IntervalIntegrable (fun t : ℝ => ((-Real.pi / t : ℝ) : ℂ) * I) volume (1/x) 1 := (ii_ofReal hpint).mul_const I
  have i2 : IntervalIntegrable (fun t : ℝ => -Complex.log (1 - t * x) / t) volume (1/x) 1 :=
    ((ii_ofReal (gint _ _)).add i2').congr (fun t ht => (e2 ht).symm)
  have p1 : ∫ t in (0:ℝ)..(1/x), -Complex.log (1 - t * x) / t = ((∫ t in (0:ℝ)..(1/x), g t : ℝ) : ℂ) := by
    rw [← intervalIntegral.integral_ofReal]
    exact intervalIntegral.integral_congr_ae (Eventually.of_forall fun t ht => e1 ht)
  have p2 : ∫ t in (1/x)..1, -Complex.log (1 - t * x) / t = ((∫ t in (1/x)..1, g t : ℝ) : ℂ) + ((-(Real.pi * Real.log x) : ℝ) : ℂ) * I := by
    rw [← intervalIntegral.integral_ofReal]
    rw [intervalIntegral.integral_congr_ae (Eventually.of_forall fun t ht => e2 ht)]
    rw [intervalIntegral.integral_add (ii_ofReal (gint _ _)) i2', intervalIntegral.integral_mul_const, intervalIntegral.integral_ofReal (μ := volume) (f := fun t => -Real.pi / t)]
    have : ∫ t in (1/x)..1, -Real.pi / t = -(Real.pi * Real.log x) := by
      have e : ∀ t : ℝ, -Real.pi / t = -Real.pi * t⁻¹ := fun t => div_eq_mul_inv _ _
      simp only [e]
      rw [intervalIntegral.integral_const_mul, integral_inv_of_pos hi0 one_pos]
      simp
    rw [this]
  unfold CLi2
  rw [← intervalIntegral.integral_add_adjacent_intervals i1 i2, p1, p2, ← hgL,
    ← intervalIntegral.integral_add_adjacent_intervals (gint 0 (1/x)) (gint (1/x) 1)]
  apply Complex.ext <;> simp

/-- **C59.** For every complex argument off the cut `(1, ∞)` the complex routine returns the principal branch of the dilogarithm,
`-∫₀¹ log(1 - t z)/t dt`, to within `2.8·10⁻¹⁶` in modulus (exact arithmetic). -/
theorem C59_error (z : ℂ) (hz : z.im ≠ 0 ∨ z.re ≤ 1) : ‖cdilog z - CLi2 z‖ ≤ 28 / 10 ^ 17 := by
  by_cases h0 : z.im = 0
  · have hr : z.re ≤ 1 := by tauto
    have e : z = (z.re : ℂ) := Complex.ext rfl (by simp [h0])
    rw [e, CLi2_real hr]
    have : cdilog (z.re : ℂ) = (dilog z.re : ℂ) := by
      unfold cdilog; simp [hr]; rfl
    rw [this, ← Complex.ofReal_sub, Complex.norm_real, Real.norm_eq_abs]
    refine (C33_dilog_error z.re).trans (by norm_num)
  have hz0 : z ≠ 0 := by rintro rfl; simp at h0
  have s1 : z ∈ slitPlane := Or.inr h0
  have s2 : -z ∈ slitPlane := Or.inr (by simpa using h0)
  have s3 : 1 - z ∈ slitPlane := Or.inr (by simpa using h0)
  have s4 : 1 - 1 / z ∈ slitPlane := by
    right; simp [h0, hz0]
  have hsq : z.re ^ 2 + z.im ^ 2 = ‖z‖ ^ 2 := by rw [Complex.sq_norm, normSq_apply]; ring
  have hnz : 0 < ‖z‖ := norm_pos_iff.2 hz0
  unfold cdilog
  rw [if_neg h0]
  split_ifs with hs
  · have hl : ‖z‖ ^ 2 < (1 / 2 ^ 26) ^ 2 := by rw [← hsq]; refine hs.trans_le ?_; rw [epsilon]; norm_num
    have hl2 : ‖z‖ ≤ 1 / 2 ^ 26 := (lt_of_pow_lt_pow_left₀ 2 (by norm_num) hl).le
    refine (small_close (hl2.trans (by norm_num))).trans ((pow_le_pow_left₀ hnz.le hl2 3).trans (by norm_num))
  · simp only
    rw [horner_eq]
    have inv (hn1 : 1 ≤ ‖z‖) (hre : 2 * z.re ≤ ‖z‖ ^ 2) :
        ‖((-1 : ℝ) : ℂ) * ser (-clog1p (-1 / z)) + (-0.5 * Complex.log (-z) * Complex.log (-z) - ((PI * PI / 6 : ℝ) : ℂ)) - CLi2 z‖ ≤ 28 / 10 ^ 17 := by
      have hi := CLi2_inv s2
      have e1 : clog1p (-1 / z) = Complex.log (1 - 1 / z) := by rw [clog1p_eq]; congr 1; ring
      rw [e1]
      have hs := ser_log (z := 1 / z) (by
        rw [one_div, inv_re, normSq_eq_norm_sq, div_le_iff₀ (by positivity)]; linarith) (by
        rw [norm_div, norm_one, div_le_one hnz]; exact hn1) (slitPlane_ne_zero s4)
      have e2 : ((-1 : ℝ) : ℂ) * ser (-Complex.log (1 - 1 / z)) + (-0.5 * Complex.log (-z) * Complex.log (-z) - ((PI * PI / 6 : ℝ) : ℂ)) - CLi2 z =
          -(ser (-Complex.log (1 - 1 / z)) - CLi2 (1 / z)) - (((PI * PI / 6 : ℝ) : ℂ) - (Real.pi ^ 2 / 6 : ℝ)) := by
        rw [show CLi2 z = -(Real.pi ^ 2 / 6 : ℝ) - Complex.log (-z) ^ 2 / 2 - CLi2 (1 / z) by linear_combination hi]
        push_cast; ring
      rw [e2]
      refine (norm_sub_le _ _).trans ?_
      rw [norm_neg]
      linarith [PI6_close]
    unfold creduce
    simp only
    by_cases hr : z.re ≤ 0.5
    · rw [if_pos hr]
      have hr' : z.re ≤ 1/2 := by norm_num at hr; exact hr
      by_cases hn : 1 < z.re ^ 2 + z.im ^ 2
      · rw [if_pos hn]
        rw [hsq] at hn
        refine inv ?_ ?_
        · by_contra hc; push Not at hc; nlinarith
        · linarith
      · rw [if_neg hn]
        rw [hsq] at hn
        have e1 : clog1p (-z) = Complex.log (1 - z) := by rw [clog1p_eq, ← sub_eq_add_neg]
        simp only [e1]
        have := ser_log hr' (by by_contra hc; push Not at hc; nlinarith) (slitPlane_ne_zero s3)
        simp only [ofReal_one, one_mul, add_zero]
        exact this.trans (by norm_num)
    · rw [if_neg hr]
      have hr' : 1/2 < z.re := by norm_num at hr ⊢; exact hr
      by_cases hn : z.re ^ 2 + z.im ^ 2 ≤ 2 * z.re
      · rw [if_pos hn]
        have e1 : clog1p (-z) = Complex.log (1 - z) := by rw [clog1p_eq, ← sub_eq_add_neg]
        simp only [e1]
        have hs := ser_log (z := 1 - z) (by simp; linarith) (by
          have : ‖1 - z‖ ^ 2 ≤ 1 := by
            rw [Complex.sq_norm, normSq_apply]; simp; nlinarith
          by_contra hc; push Not at hc; nlinarith) (by rw [sub_sub_cancel]; exact hz0)
        rw [sub_sub_cancel] at hs
        have hi := CLi2_reflect s1 s3
        have e2 : ((-1 : ℝ) : ℂ) * ser (-Complex.log z) + (-Complex.log z * Complex.log (1 - z) + ((PI * PI / 6 : ℝ) : ℂ)) - CLi2 z =
          -(ser (-Complex.log z) - CLi2 (1 - z)) + (((PI * PI / 6 : ℝ) : ℂ) - (Real.pi ^ 2 / 6 : ℝ)) := by
          rw [show CLi2 z = (Real.pi ^ 2 / 6 : ℝ) - Complex.log z * Complex.log (1 - z) - CLi2 (1 - z) by linear_combination hi]
          push_cast; ring
        rw [e2]
        refine (norm_add_le _ _).trans ?_
        rw [norm_neg]
        linarith [PI6_close]
      · rw [if_neg hn]
        rw [hsq] at hn
        push Not at hn
        refine inv ?_ hn.le
        by_contra hc; push Not at hc; nlinarith

/-- **C59, on the cut.** For every real `x > 1` the routine returns the value of the same branch, `Li₂(x) - iπ log x`. -/
theorem C59_cut {x : ℝ} (hx : 1 < x) :
    |(cdilog x).re - (CLi2 x).re| ≤ 14 / 10 ^ 17 ∧ |(cdilog x).im - (CLi2 x).im| ≤ 4 / 10 ^ 17 * Real.log x := by
  obtain ⟨h1, h2, h3⟩ := C33_complex_real_axis x
  rw [CLi2_cut hx]
  exact ⟨by rw [h1]; exact C33_dilog_error x, h3 hx⟩

/-- **C59, conjugation.** The routine commutes with complex conjugation off the cut, up to twice the bound. -/
theorem C59_conj (z : ℂ) (hz : z.im ≠ 0 ∨ z.re ≤ 1) (h1 : z ≠ 1) :
    ‖cdilog ((starRingEnd ℂ) z) - (starRingEnd ℂ) (cdilog z)‖ ≤ 56 / 10 ^ 17 := by
  have hs : 1 - z ∈ slitPlane := by
    rcases hz with h | h
    · right; simpa using h
    · by_cases hi : z.im = 0
      · left
        have : z.re ≠ 1 := fun e => h1 (Complex.ext (by simpa using e) (by simpa using hi))
        simp; exact lt_of_le_of_ne h this
      · right; simpa using hi
  have a := C59_error z hz
  have b := C59_error ((starRingEnd ℂ) z) (by simpa using hz)
  rw [CLi2_conj z hs] at b
  have c : ‖(starRingEnd ℂ) (cdilog z) - (starRingEnd ℂ) (CLi2 z)‖ ≤ 28 / 10 ^ 17 := by
    rw [← map_sub, norm_conj]; exact a
  rw [norm_sub_rev] at c
  refine (norm_sub_le_norm_sub_add_norm_sub _ ((starRingEnd ℂ) (CLi2 z)) _).trans ?_
  linarith

/-- the three reductions and the small-argument branch are all taken -/
example : (creduce ⟨1/4, 1/4⟩).2.1 = 0 ∧ (creduce ⟨-2, 1⟩).2.2 = -1 ∧ (creduce ⟨1, 1/2⟩).2.2 = -1 ∧ (creduce ⟨1, 3⟩).2.2 = -1
    ∧ cdilog ⟨0, 1/2^30⟩ = ⟨0, 1/2^30⟩ * (1 + 0.25 * ⟨0, 1/2^30⟩) := by
  refine ⟨?_, ?_, ?_, ?_, ?_⟩
  · norm_num [creduce]
  · norm_num [creduce]
  · norm_num [creduce]
  · norm_num [creduce]
  · unfold cdilog; norm_num [epsilon]

/-- the statement is about a non-trivial value: the imaginary part at `i` is Catalan's constant, which is not zero -/
example : ‖cdilog I - CLi2 I‖ ≤ 28 / 10 ^ 17 := C59_error I (by simp)

end Himalaya.Li2
