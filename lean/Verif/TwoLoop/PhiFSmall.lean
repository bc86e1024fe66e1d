import Verif.TwoLoop.PhiFProps
import Verif.TLF.PhiProps5

/-!
# The Fortran two-loop function: small mass ratios (C60)
-/

set_option linter.unusedSimpArgs false
set_option linter.unusedVariables false

namespace Himalaya.TwoLoop.F
open Real MeasureTheory Set intervalIntegral Himalaya.Li2

theorem ae_ne0 : ∀ᵐ ξ : ℝ, ξ ≠ 0 := by
  have := (Set.countable_singleton (0:ℝ)).ae_notMem volume
  simpa using this

theorem den_pos {u v ξ : ℝ} (hu : 0 < u) (hv : 0 < v) (hv1 : v ≤ 1) (h0 : 0 ≤ ξ) (h1 : ξ ≤ 1) : 0 < v * ξ ^ 2 + (1 - u - v) * ξ + u := by
  rcases eq_or_lt_of_le h1 with h | h
  · subst h; ring_nf; norm_num
  · have : v * ξ ^ 2 + (1 - u - v) * ξ + u = u * (1 - ξ) + ξ * ((1 - v) + v * ξ) := by ring
    rw [this]
    have h2 : 0 < u * (1 - ξ) := mul_pos hu (by linarith)
    have h3 : 0 ≤ ξ * ((1 - v) + v * ξ) := by
      apply mul_nonneg h0; have := mul_nonneg hv.le h0; linarith
    linarith

/-- the integrand -/
noncomputable def ig (u v ξ : ℝ) : ℝ := (log (v / u) + 2 * log ξ) / (v * ξ ^ 2 + (1 - u - v) * ξ + u)

theorem ig_int {u v : ℝ} (hu : 0 < u) (hv : 0 < v) (hv1 : v ≤ 1) : IntervalIntegrable (ig u v) volume 0 1 := by
  have h1 : IntervalIntegrable (fun ξ => log (v / u) + 2 * log ξ) volume 0 1 := intervalIntegrable_const.add (intervalIntegrable_log'.const_mul 2)
  refine h1.mul_continuousOn (g := fun ξ => (v * ξ ^ 2 + (1 - u - v) * ξ + u)⁻¹) ?_
  rw [uIcc_of_le zero_le_one]
  exact ContinuousOn.inv₀ (by fun_prop) (fun x hx => (den_pos hu hv hv1 hx.1 hx.2).ne')

theorem ig_inv {u v ξ : ℝ} (hu : 0 < u) (hv : 0 < v) (hξ : 0 < ξ) : ig u v (u / v / ξ) * (-(u / v) / ξ ^ 2) = ig u v ξ := by
  unfold ig
  rw [log_div (by positivity) hξ.ne', log_div hu.ne' hv.ne', log_div hv.ne' hu.ne']
  have : v * (u / v / ξ) ^ 2 + (1 - u - v) * (u / v / ξ) + u = u / v / ξ ^ 2 * (v * ξ ^ 2 + (1 - u - v) * ξ + u) := by field_simp; ring
  rw [this]
  have hk : u / v / ξ ^ 2 ≠ 0 := by positivity
  rw [show -(u / v) / ξ ^ 2 = -(u / v / ξ ^ 2) by ring]
  generalize u / v / ξ ^ 2 = k at *
  generalize v * ξ ^ 2 + (1 - u - v) * ξ + u = D
  rw [show log v - log u + 2 * (log u - log v - log ξ) = -(log v - log u + 2 * log ξ) by ring]
  generalize log v - log u + 2 * log ξ = N
  by_cases hD : D = 0
  · simp [hD]
  · field_simp

theorem ig_mid {u v : ℝ} (hu : 0 < u) (huv : u ≤ v) (hv1 : v ≤ 1) : ∫ ξ in (u / v)..1, ig u v ξ = 0 := by
  have hv : 0 < v := by linarith
  have ha : 0 < u / v := by positivity
  have ha1 : u / v ≤ 1 := (div_le_one hv).2 huv
  have hc : ContinuousOn (ig u v) (Icc (u / v) 1) := by
    unfold ig
    refine ContinuousOn.div (continuousOn_const.add (continuousOn_const.mul (continuousOn_log.mono fun x hx => ?_))) (by fun_prop)
      (fun x hx => (den_pos hu hv hv1 (by linarith [hx.1]) hx.2).ne')
    exact (show x ≠ 0 by linarith [hx.1])
  have h := integral_comp_mul_deriv' (a := 1) (b := u / v) (f := fun ξ => u / v / ξ) (f' := fun ξ => -(u / v) / ξ ^ 2) (g := ig u v) ?_ ?_ ?_
  · simp only [Function.comp_apply, div_one, div_self ha.ne'] at h
    have h2 : ∫ ξ in (1:ℝ)..(u / v), ig u v (u / v / ξ) * (-(u / v) / ξ ^ 2) = ∫ ξ in (1:ℝ)..(u / v), ig u v ξ := by
      refine intervalIntegral.integral_congr fun ξ hξ => ?_
      rw [uIcc_of_ge ha1] at hξ
      exact ig_inv hu hv (by linarith [hξ.1])
    rw [h2, integral_symm] at h
    linarith
  · intro ξ hξ
    rw [uIcc_of_ge ha1] at hξ
    have hne : ξ ≠ 0 := by linarith [hξ.1]
    have := (hasDerivAt_inv hne).const_mul (u / v)
    simp only [← div_eq_mul_inv] at this
    exact this.congr_deriv (by ring)
  · rw [uIcc_of_ge ha1]
    refine ContinuousOn.div (by fun_prop) (by fun_prop) (fun x hx => ?_)
    have : x ≠ 0 := by linarith [hx.1]
    positivity
  · rw [uIcc_of_ge ha1]
    refine hc.mono ?_
    rintro _ ⟨x, hx, rfl⟩
    have hx0 : 0 < x := by linarith [hx.1]
    constructor
    · rw [le_div_iff₀ hx0]; nlinarith [hx.2]
    · rw [div_le_one hx0]; exact hx.1

theorem ig_scale {u v : ℝ} (hu : 0 < u) (hv : 0 < v) : ∫ ξ in (0:ℝ)..(u / v), ig u v ξ = ∫ ξ in (0:ℝ)..1, ig v u ξ := by
  have ha : 0 < u / v := by positivity
  have h := intervalIntegral.mul_integral_comp_mul_left (a := 0) (b := 1) (c := u / v) (f := ig u v)
  rw [mul_zero, mul_one] at h
  rw [← h, ← intervalIntegral.integral_const_mul]
  refine intervalIntegral.integral_congr_ae ?_
  refine Filter.Eventually.of_forall fun ξ hξ => ?_
  rw [uIoc_of_le zero_le_one] at hξ
  have h0 : 0 < ξ := hξ.1
  unfold ig
  rw [log_mul ha.ne' h0.ne', log_div hu.ne' hv.ne', log_div hv.ne' hu.ne']
  have : v * (u / v * ξ) ^ 2 + (1 - u - v) * (u / v * ξ) + u = u / v * (u * ξ ^ 2 + (1 - v - u) * ξ + v) := by field_simp; ring
  rw [this]
  generalize u / v = k at *
  generalize u * ξ ^ 2 + (1 - v - u) * ξ + v = D
  rw [show log v - log u + 2 * (log u - log v + log ξ) = (log u - log v + 2 * log ξ) by ring]
  generalize log u - log v + 2 * log ξ = N
  by_cases hD : D = 0
  · simp [hD]
  · field_simp

/-- the integral is symmetric, for all ratios up to one -/
theorem Phi_symm {u v : ℝ} (hu : 0 < u) (hu1 : u ≤ 1) (hv : 0 < v) (hv1 : v ≤ 1) : TLF.Spec.Phi u v = TLF.Spec.Phi v u := by
  have key {u v : ℝ} (hu : 0 < u) (huv : u ≤ v) (hv1 : v ≤ 1) : TLF.Spec.Phi u v = TLF.Spec.Phi v u := by
    have hv : 0 < v := by linarith
    show -∫ ξ in (0:ℝ)..1, ig u v ξ = -∫ ξ in (0:ℝ)..1, ig v u ξ
    have hi := ig_int hu hv hv1
    have ha1 : u / v ≤ 1 := (div_le_one hv).2 huv
    have ha0 : 0 < u / v := by positivity
    have s1 : uIcc 0 (u / v) ⊆ uIcc 0 1 := by
      rw [uIcc_of_le ha0.le, uIcc_of_le zero_le_one]; exact Icc_subset_Icc_right ha1
    have s2 : uIcc (u / v) 1 ⊆ uIcc 0 1 := by
      rw [uIcc_of_le ha1, uIcc_of_le zero_le_one]; exact Icc_subset_Icc_left ha0.le
    rw [← integral_add_adjacent_intervals (hi.mono_set s1) (hi.mono_set s2), ig_mid hu huv hv1, ig_scale hu hv, add_zero]
  rcases le_total u v with h | h
  · exact key hu h hv1
  · exact (key hv h hu1).symm

/-- the leading term for small `s` -/
noncomputable def lead (s t : ℝ) : ℝ := if t = 1 then 2 - log s else (log s * log t + 2 * Li2 (1 - t)) / (1 - t)

theorem lead_int {s t : ℝ} (hs : 0 < s) (ht : 0 < t) (ht1 : t ≤ 1) :
    ∫ ξ in (0:ℝ)..1, (log (t / s) - 2 * log ξ) / ((1 - t) * ξ + t) = lead s t := by
  unfold lead
  split_ifs with h
  · subst h
    have : ∀ ξ : ℝ, (log (1 / s) - 2 * log ξ) / ((1 - 1) * ξ + 1) = log (1 / s) - 2 * log ξ := fun ξ => by ring_nf
    simp only [this]
    rw [intervalIntegral.integral_sub intervalIntegrable_const (intervalIntegrable_log'.const_mul 2), intervalIntegral.integral_const_mul, integral_log]
    simp; ring
  · have ht2 : 0 < 1 - t := by
      have := lt_of_le_of_ne ht1 h; linarith
    have hb : 0 < t / (1 - t) := by positivity
    have e (ξ : ℝ) : (log (t / s) - 2 * log ξ) / ((1 - t) * ξ + t) = log (t / s) / (1 - t) * (1 / (ξ + t / (1 - t))) - 2 / (1 - t) * (log ξ / (ξ + t / (1 - t))) := by
      rw [show (1 - t) * ξ + t = (1 - t) * (ξ + t / (1 - t)) by field_simp]
      generalize ξ + t / (1 - t) = D
      by_cases hD : D = 0
      · simp [hD]
      · field_simp
    simp only [e]
    have i1 : IntervalIntegrable (fun ξ : ℝ => 1 / (ξ + t / (1 - t))) volume 0 1 := by
      apply ContinuousOn.intervalIntegrable
      rw [uIcc_of_le zero_le_one]
      refine ContinuousOn.div (by fun_prop) (by fun_prop) (fun x hx => ?_); linarith [hx.1]
    rw [intervalIntegral.integral_sub (i1.const_mul _) ((TLF.integrable_log_div hb).const_mul _), intervalIntegral.integral_const_mul,
      intervalIntegral.integral_const_mul, TLF.int_inv hb, TLF.int_log_div hb]
    have l := Li2_landen (x := 1 - t) (by linarith)
    rw [show (1 - t) / (1 - t - 1) = -(1 / (t / (1 - t))) by
      rw [show (1:ℝ) - t - 1 = -t by ring]; field_simp, show (1:ℝ) - (1 - t) = t by ring] at l
    rw [show (1 + t / (1 - t)) / (t / (1 - t)) = t⁻¹ by field_simp; ring, log_inv, log_div ht.ne' hs.ne']
    rw [show Li2 (-(1 / (t / (1 - t)))) = -(log t) ^ 2 / 2 - Li2 (1 - t) by linarith]
    field_simp
    ring

/-- the integral lies between the leading term and the leading term divided by `1 - s` -/
theorem lead_bounds {s t : ℝ} (hs : 0 < s) (hst : s ≤ t) (ht1 : t ≤ 1) (hs1 : s < 1) :
    0 ≤ lead s t ∧ lead s t ≤ TLF.Spec.Phi t s ∧ (1 - s) * TLF.Spec.Phi t s ≤ lead s t := by
  have ht : 0 < t := by linarith
  have hiA : IntervalIntegrable (fun ξ => (log (t / s) - 2 * log ξ) / ((1 - t) * ξ + t)) volume 0 1 := by
    have h1 : IntervalIntegrable (fun ξ => log (t / s) - 2 * log ξ) volume 0 1 := intervalIntegrable_const.sub (intervalIntegrable_log'.const_mul 2)
    refine h1.mul_continuousOn (g := fun ξ => ((1 - t) * ξ + t)⁻¹) ?_
    rw [uIcc_of_le zero_le_one]
    refine ContinuousOn.inv₀ (by fun_prop) (fun x hx => ?_)
    have := mul_nonneg (show 0 ≤ 1 - t by linarith) hx.1
    linarith
  have hiB : IntervalIntegrable (fun ξ => -ig t s ξ) volume 0 1 := (ig_int ht hs hs1.le).neg
  have hPhi : TLF.Spec.Phi t s = ∫ ξ in (0:ℝ)..1, -ig t s ξ := by rw [intervalIntegral.integral_neg]; rfl
  rw [hPhi, ← lead_int hs ht ht1, ← intervalIntegral.integral_const_mul]
  have pt (ξ : ℝ) (hξ : ξ ∈ Ioc (0:ℝ) 1) : 0 ≤ (log (t / s) - 2 * log ξ) / ((1 - t) * ξ + t) ∧
      (log (t / s) - 2 * log ξ) / ((1 - t) * ξ + t) ≤ -ig t s ξ ∧ (1 - s) * -ig t s ξ ≤ (log (t / s) - 2 * log ξ) / ((1 - t) * ξ + t) := by
    have hN : 0 ≤ log (t / s) - 2 * log ξ := by
      have h1 := log_nonneg ((one_le_div hs).2 hst)
      have h2 := log_nonpos hξ.1.le hξ.2
      linarith
    have e : -ig t s ξ = (log (t / s) - 2 * log ξ) / (s * ξ ^ 2 + (1 - t - s) * ξ + t) := by
      unfold ig
      rw [← neg_div, log_div hs.ne' ht.ne', log_div ht.ne' hs.ne']; ring
    have hD := den_pos ht hs hs1.le hξ.1.le hξ.2
    rw [e]
    generalize log (t / s) - 2 * log ξ = N at *
    have hA : ξ ≤ (1 - t) * ξ + t := by nlinarith [mul_nonneg ht.le (sub_nonneg.2 hξ.2)]
    have hA0 : 0 < (1 - t) * ξ + t := hξ.1.trans_le hA
    have hDA : s * ξ ^ 2 + (1 - t - s) * ξ + t = (1 - t) * ξ + t - s * (ξ * (1 - ξ)) := by ring
    have hx : 0 ≤ ξ * (1 - ξ) := mul_nonneg hξ.1.le (sub_nonneg.2 hξ.2)
    refine ⟨div_nonneg hN hA0.le, ?_, ?_⟩
    · apply div_le_div_of_nonneg_left hN hD
      rw [hDA]; nlinarith
    · rw [← mul_div_assoc, div_le_div_iff₀ hD hA0, hDA]
      have : (1 - s) * ((1 - t) * ξ + t) ≤ (1 - t) * ξ + t - s * (ξ * (1 - ξ)) := by nlinarith [mul_nonneg hs.le (sub_nonneg.2 hA), mul_nonneg hs.le (mul_nonneg hξ.1.le hξ.1.le)]
      calc (1 - s) * N * ((1 - t) * ξ + t) = N * ((1 - s) * ((1 - t) * ξ + t)) := by ring
        _ ≤ _ := by gcongr
  refine ⟨?_, ?_, ?_⟩
  · refine intervalIntegral.integral_nonneg_of_ae_restrict zero_le_one ?_
    have : ∀ᵐ ξ : ℝ, ξ ≠ 0 := ae_ne0
    filter_upwards [ae_restrict_of_ae this, ae_restrict_mem measurableSet_Icc] with ξ h1 h2
    exact (pt ξ ⟨lt_of_le_of_ne h2.1 (Ne.symm h1), h2.2⟩).1
  · refine intervalIntegral.integral_mono_ae_restrict zero_le_one hiA hiB ?_
    have : ∀ᵐ ξ : ℝ, ξ ≠ 0 := ae_ne0
    filter_upwards [ae_restrict_of_ae this, ae_restrict_mem measurableSet_Icc] with ξ h1 h2
    exact (pt ξ ⟨lt_of_le_of_ne h2.1 (Ne.symm h1), h2.2⟩).2.1
  · refine intervalIntegral.integral_mono_ae_restrict zero_le_one (hiB.const_mul _) hiA ?_
    have : ∀ᵐ ξ : ℝ, ξ ≠ 0 := ae_ne0
    filter_upwards [ae_restrict_of_ae this, ae_restrict_mem measurableSet_Icc] with ξ h1 h2
    exact (pt ξ ⟨lt_of_le_of_ne h2.1 (Ne.symm h1), h2.2⟩).2.2

/-- logarithm of a ratio below the threshold of the code -/
theorem log_small {u : ℝ} (hu : 0 < u) (h : u ≤ 1e-8) : log u ≤ -18 := by
  have h1 : log u ≤ log ((10:ℝ) ^ (-8:ℤ)) := log_le_log hu (h.trans (by norm_num))
  rw [log_zpow] at h1
  have h2 : log 10 = log 2 + log 5 := by rw [← log_mul (by norm_num) (by norm_num)]; norm_num
  have h3 : 2 * log 2 ≤ log 5 := by rw [← log_rpow (by norm_num)]; exact log_le_log (by norm_num) (by norm_num)
  have h4 := log_two_gt_d9
  have h5 : 3 * log 5 ≥ 6 * log 2 := by linarith
  have h6 : log 125 = 3 * log 5 := by rw [show (125:ℝ) = 5 ^ 3 by norm_num, log_pow]; norm_num
  have h7 : log 64 = 6 * log 2 := by rw [show (64:ℝ) = 2 ^ 6 by norm_num, log_pow]; norm_num
  have h8 : log 10 ≥ 9 / 4 := by
    have : (2:ℝ) ^ 13 ≤ 10 ^ 4 := by norm_num
    have := log_le_log (by norm_num) this
    rw [log_pow, log_pow] at this
    push_cast at this
    norm_num at h4 this ⊢
    linarith
  push_cast at h1
  linarith

/-- exchanging the arguments of the leading term, both small -/
theorem lead_swap {u v : ℝ} (hv : 0 < v) (hvu : v < u) (hu : u ≤ 1e-8) : |lead u v - lead v u| ≤ 11 / 10 ^ 9 * lead v u := by
  have hu0 : 0 < u := by linarith
  norm_num at hu
  have lu := log_small hu0 (by norm_num; linarith)
  have lv := log_small hv (by norm_num; linarith)
  have hlv : log v ≤ log u := log_le_log hv hvu.le
  unfold lead
  rw [if_neg (by linarith), if_neg (by linarith)]
  have ru := Li2_reflect u
  have rv := Li2_reflect v
  have nu := TLF.Phi.Li2_nonneg (x := 1 - u) (by linarith) (by linarith)
  have nv := TLF.Phi.Li2_nonneg (x := v) (by linarith) (by linarith)
  have mono : Li2 (1 - u) ≤ Li2 (1 - v) := by
    have h := (TLF.Phi.Li2_slope (a := 1 - u) (b := 1 - v) (by linarith) (by linarith) (by linarith)).1
    have : 0 ≤ -log (1 - (1 - u)) * (1 - v - (1 - u)) := by
      rw [show (1:ℝ) - (1 - u) = u by ring]
      exact mul_nonneg (by linarith) (by linarith)
    linarith
  have hLu : Li2 u ≤ 2 * u := by
    have h := (abs_le.1 (Li2_trunc hu0.le (by linarith) 0)).2
    simp at h
    refine h.trans ?_
    rw [div_le_iff₀ (by linarith)]; nlinarith
  have hl1 : -log (1 - u) ≤ 2 * u := by
    have := one_sub_inv_le_log_of_pos (show 0 < 1 - u by linarith)
    have h2 : (1 - u)⁻¹ ≤ 1 + 2 * u := by
      rw [inv_le_iff_one_le_mul₀ (by linarith)]; nlinarith
    linarith
  have hl2 : log (1 - v) ≤ 0 := log_nonpos (by linarith) (by linarith)
  have hd : Li2 (1 - v) - Li2 (1 - u) ≤ 2 * u * (1 - log u) := by
    have h1 : 0 ≤ log v * log (1 - v) := mul_nonneg_of_nonpos_of_nonpos (by linarith) hl2
    have h2 : log u * log (1 - u) ≤ -log u * (2 * u) := by nlinarith
    nlinarith
  have hP : log u ^ 2 ≤ log u * log v := by nlinarith
  have a0 : 0 < 1 - u := by linarith
  have b0 : 0 < 1 - v := by linarith
  have hX : 0 ≤ log u * log v := by nlinarith
  have hdP : Li2 (1 - v) - Li2 (1 - u) ≤ u / 8 * (log u * log v) := by
    have : 16 * (1 - log u) ≤ log u ^ 2 := by nlinarith
    nlinarith
  rw [mul_comm (log v) (log u)]
  generalize log u * log v = P at *
  generalize Li2 (1 - u) = A at *
  generalize Li2 (1 - v) = B at *
  clear ru rv lu lv hlv nv hLu hl1 hl2 hd hP
  have hL : 0 ≤ (P + 2 * A) / (1 - u) := by positivity
  rw [abs_le]
  constructor
  · have h1 : (P + 2 * A) / (1 - v) ≤ (P + 2 * B) / (1 - v) := by gcongr
    have h2 : (P + 2 * A) / (1 - u) - (P + 2 * A) / (1 - v) = (P + 2 * A) / (1 - u) * ((u - v) / (1 - v)) := by field_simp; ring
    have h3 : (u - v) / (1 - v) ≤ 11 / 10 ^ 9 := by
      rw [div_le_iff₀ b0]; linarith
    have h4 : (P + 2 * A) / (1 - u) * ((u - v) / (1 - v)) ≤ (P + 2 * A) / (1 - u) * (11 / 10 ^ 9) := by gcongr
    linarith
  · have h1 : (P + 2 * A) / (1 - v) ≤ (P + 2 * A) / (1 - u) := by
      apply div_le_div_of_nonneg_left (by linarith) a0; linarith
    have h2 : (P + 2 * B) / (1 - v) = (P + 2 * A) / (1 - v) + 2 * (B - A) / (1 - v) := by field_simp; ring
    have h3 : 2 * (B - A) / (1 - v) ≤ 11 / 10 ^ 9 * ((P + 2 * A) / (1 - u)) := by
      have h5 : 2 * (B - A) / (1 - v) ≤ 2 * (B - A) / (1 - u) := by
        apply div_le_div_of_nonneg_left (by linarith) a0; linarith
      refine h5.trans ?_
      rw [← mul_div_assoc]
      apply div_le_div_of_nonneg_right _ a0.le
      nlinarith
    linarith

/-- the leading term and the integral -/
theorem lead_close {u v : ℝ} (hu : 0 < u) (hu1 : u ≤ 1e-8) (hv : 0 < v) (hv1 : v ≤ 1) :
    |lead u v - TLF.Spec.Phi u v| ≤ 3 / 10 ^ 8 * TLF.Spec.Phi u v ∧ 0 ≤ TLF.Spec.Phi u v := by
  norm_num at hu1
  rcases le_or_gt u v with h | h
  · obtain ⟨h0, h1, h2⟩ := lead_bounds hu h hv1 (by linarith)
    rw [Phi_symm hu (by linarith) hv hv1]
    refine ⟨?_, by linarith⟩
    generalize TLF.Spec.Phi v u = F at *
    generalize lead u v = L at *
    rw [abs_le]; constructor <;> nlinarith
  · obtain ⟨h0, h1, h2⟩ := lead_bounds hv h.le (by linarith) (by linarith)
    have h3 := lead_swap hv h (by norm_num; linarith)
    refine ⟨?_, by linarith⟩
    generalize TLF.Spec.Phi u v = F at *
    generalize lead u v = L at *
    generalize lead v u = M at *
    rw [abs_le] at h3 ⊢
    constructor <;> nlinarith [h3.1, h3.2]

/-- the expression evaluated by the code -/
theorem code_close {u v : ℝ} (hv : 0 < v) :
    |(if v ≠ 1 then (log u * log v + 2 * pLi2 (1 - v)) / (1 - v) else 2 - log u) - lead u v| ≤ 12 / 10 ^ 17 / |1 - v| := by
  unfold lead
  by_cases h : v = 1
  · simp [h]
  · rw [if_pos h, if_neg h, ← sub_div, abs_div]
    have : pLi2 (1 - v) = Li2.F.dli2 (1 - v) := by
      unfold pLi2 CLI2 Li2.F.cdli2; simp [hv.le]
    rw [this]
    have he : |Li2.F.dli2 (1 - v) - Li2 (1 - v)| ≤ 6 / 10 ^ 17 := Li2.F.C59_dli2 _
    gcongr
    rw [show log u * log v + 2 * Li2.F.dli2 (1 - v) - (log u * log v + 2 * Li2 (1 - v)) = 2 * (Li2.F.dli2 (1 - v) - Li2 (1 - v)) by ring,
      abs_mul]
    norm_num at he ⊢
    linarith

/-- **C60, accuracy for small ratios.** Let one of three positive squared masses be at most `10⁻⁸` times the largest one.  The Fortran function
returns a number, which differs from the Davydychev–Tausk integral by a relative amount of at most `3·10⁻⁸`, apart from the error of the
dilogarithm.  (`m` is the largest squared mass, `t` the middle one.) -/
theorem C60_accuracy_small {x y z m t : ℝ} (hx : 0 < x) (hy : 0 < y) (hz : 0 < z) (hm : m = max x (max y z))
    (hs : min x (min y z) ≤ 1e-8 * m) (ht : t = x + y + z - m - min x (min y z)) :
    ∃ r, phi x y z = some r ∧ |r - dtPhi x y z| ≤ 3 / 10 ^ 8 * dtPhi x y z + 12 / 10 ^ 17 * (z / (m - t)) := by
  have key {u v w : ℝ} (hu : 0 < u) (hv : 0 < v) (hw : 0 < w) (h1 : u ≤ w) (h2 : v ≤ w) (h3 : min u v ≤ 1e-8 * w) :
      ∃ r, myphi u v w = some r ∧ |r - TLF.Spec.Phi (u / w) (v / w)| ≤ 3 / 10 ^ 8 * TLF.Spec.Phi (u / w) (v / w) + 12 / 10 ^ 17 * (w / (w - max u v)) := by
    have hu' : 0 < u / w := by positivity
    have hv' : 0 < v / w := by positivity
    have hu1 : u / w ≤ 1 := (div_le_one hw).2 h1
    have hv1 : v / w ≤ 1 := (div_le_one hw).2 h2
    have hbig {a : ℝ} (ha : a ≤ max u v) (h1 : a = max u v ∨ max u v ≤ 1e-8 * w) : 12 / 10 ^ 17 / |1 - a / w| ≤ 12 / 10 ^ 17 * (w / (w - max u v)) := by
      have hmw : max u v ≤ w := max_le ‹_› ‹_›
      have e : w / (w - max u v) = 1 / (1 - max u v / w) := by
        rw [show 1 - max u v / w = (w - max u v) / w by field_simp, one_div_div]
      rw [e, mul_one_div]
      rcases h1 with h | h
      · rw [h, abs_of_nonneg (by rw [sub_nonneg, div_le_one hw]; exact hmw)]
      · have h4 : max u v / w ≤ 1e-8 := by rw [div_le_iff₀ hw]; exact h
        have h5 : a / w ≤ max u v / w := by gcongr
        norm_num at h4
        rw [abs_of_pos (by linarith)]
        apply div_le_div_of_nonneg_left (by norm_num) (by linarith) (by linarith)
    by_cases c1 : u / w ≤ 1e-8
    · refine ⟨if v / w ≠ 1 then (log (u / w) * log (v / w) + 2 * pLi2 (1 - v / w)) / (1 - v / w) else 2 - log (u / w), ?_, ?_⟩
      · unfold myphi
        simp only [if_pos c1]
        split_ifs <;> rfl
      · have a := code_close (u := u / w) hv'
        have b := (lead_close hu' c1 hv' hv1).1
        have c := hbig (a := v) (le_max_right _ _) (by
          rcases le_total u v with h | h
          · left; rw [max_eq_right h]
          · right; rw [max_eq_left h, ← div_le_iff₀ hw]; exact c1)
        refine (abs_sub_le _ (lead (u / w) (v / w)) _).trans ?_
        linarith
    · have hlt : v < u := by
        by_contra hc
        rw [min_eq_left (not_lt.1 hc), ← div_le_iff₀ hw] at h3
        exact c1 h3
      have c2 : v / w ≤ 1e-8 := by rw [div_le_iff₀ hw]; rwa [min_eq_right hlt.le] at h3
      refine ⟨if u / w ≠ 1 then (log (v / w) * log (u / w) + 2 * pLi2 (1 - u / w)) / (1 - u / w) else 2 - log (v / w), ?_, ?_⟩
      · unfold myphi
        simp only [if_neg c1, if_pos c2]
        split_ifs <;> rfl
      · have a := code_close (u := v / w) hu'
        have b := (lead_close hv' c2 hu' hu1).1
        rw [Phi_symm hv' hv1 hu' hu1] at b
        have c := hbig (a := u) (le_max_left _ _) (by left; rw [max_eq_left hlt.le])
        refine (abs_sub_le _ (lead (v / w) (u / w)) _).trans ?_
        linarith
  have scale {r F w M : ℝ} (hw : 0 < w) (h : |r - F| ≤ 3 / 10 ^ 8 * F + 12 / 10 ^ 17 * (w / M)) :
      |z / w * r - z / w * F| ≤ 3 / 10 ^ 8 * (z / w * F) + 12 / 10 ^ 17 * (z / M) := by
    rw [← mul_sub, abs_mul, abs_of_pos (by positivity : 0 < z / w)]
    calc z / w * |r - F| ≤ z / w * (3 / 10 ^ 8 * F + 12 / 10 ^ 17 * (w / M)) := by gcongr
      _ = _ := by field_simp
  have mm (a b : ℝ) : max a b = a + b - min a b := by linarith [max_add_min a b]
  unfold phi dtPhi
  by_cases c1 : x ≤ z ∧ y ≤ z
  · rw [if_pos c1, if_pos c1]
    have e : m = z := by rw [hm, max_eq_right c1.2, max_eq_right c1.1]
    have e2 : min x (min y z) = min x y := by rw [min_eq_left c1.2]
    have e3 : t = max x y := by rw [ht, e, e2, mm]; ring
    rw [e, e3]
    rw [e, e2] at hs
    exact key hx hy hz c1.1 c1.2 hs
  · rw [if_neg c1, if_neg c1]
    by_cases c2 : z ≤ x ∧ y ≤ x
    · rw [if_pos c2, if_pos c2]
      have e : m = x := by rw [hm, max_eq_left (max_le c2.2 c2.1)]
      have e2 : min x (min y z) = min z y := by
        rw [min_comm y z, min_eq_right]; exact (min_le_left _ _).trans c2.1
      have e3 : t = max z y := by rw [ht, e, e2, mm]; ring
      rw [e, e3]
      rw [e, e2] at hs
      obtain ⟨r, h1, h2⟩ := key hz hy hx c2.1 c2.2 hs
      exact ⟨z / x * r, by rw [h1]; rfl, scale hx h2⟩
    · rw [if_neg c2, if_neg c2]
      have c3 : z ≤ y ∧ x ≤ y := by
        constructor
        · by_contra h; push Not at h
          by_cases hxz : x ≤ z
          · exact c1 ⟨hxz, h.le⟩
          · push Not at hxz; exact c2 ⟨hxz.le, by linarith⟩
        · by_contra h; push Not at h
          by_cases hxz : x ≤ z
          · exact c1 ⟨hxz, by linarith⟩
          · push Not at hxz; exact c2 ⟨hxz.le, h.le⟩
      rw [if_pos c3]
      have e : m = y := by rw [hm, max_eq_left c3.1, max_eq_right c3.2]
      have e2 : min x (min y z) = min z x := by rw [min_eq_right c3.1, min_comm]
      have e3 : t = max z x := by rw [ht, e, e2, mm]; ring
      rw [e, e3]
      rw [e, e2] at hs
      obtain ⟨r, h1, h2⟩ := key hz hx hy c3.1 c3.2 hs
      exact ⟨z / y * r, by rw [h1]; rfl, scale hy h2⟩

/-- a light quark, a squark and a gluino -/
example : ∃ r, phi (1 / 10 ^ 10) 2 3 = some r ∧ |r - dtPhi (1 / 10 ^ 10) 2 3| ≤ 3 / 10 ^ 8 * dtPhi (1 / 10 ^ 10) 2 3 + 12 / 10 ^ 17 * (3 / (3 - 2)) :=
  C60_accuracy_small (m := 3) (t := 2) (by norm_num) (by norm_num) (by norm_num) (by norm_num) (by norm_num) (by norm_num)

end Himalaya.TwoLoop.F
