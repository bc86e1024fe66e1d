import Verif.PV.General
import Mathlib.Analysis.Real.Pi.Bounds

set_option linter.unusedSimpArgs false
set_option linter.unusedVariables false

namespace Himalaya.PV

open Real intervalIntegral MeasureTheory

theorem ii_log_sub (a : ℝ) : IntervalIntegrable (fun t : ℝ => log (t - a)) volume 0 1 := by
  have := (intervalIntegrable_log' (a := 0 - a) (b := 1 - a)).comp_sub_right a
  simpa using this

/-- `log(1 + e²/(t-a)²)` -/
noncomputable def reg (a e t : ℝ) : ℝ := log ((t - a) ^ 2 + e ^ 2) - 2 * log (t - a)

theorem ii_log_sq {e : ℝ} (he : 0 < e) (a : ℝ) : IntervalIntegrable (fun t : ℝ => log ((t - a) ^ 2 + e ^ 2)) volume 0 1 := by
  apply Continuous.intervalIntegrable
  exact Continuous.log (by fun_prop) fun t => by positivity

theorem ii_reg {e : ℝ} (he : 0 < e) (a : ℝ) : IntervalIntegrable (reg a e) volume 0 1 :=
  (ii_log_sq he a).sub ((ii_log_sub a).const_mul 2)

theorem int_log_sq {e : ℝ} (he : 0 < e) (a : ℝ) : ∫ t in (0:ℝ)..1, log ((t - a) ^ 2 + e ^ 2) =
    (1 - a) * log ((1 - a) ^ 2 + e ^ 2) + a * log (a ^ 2 + e ^ 2) - 2 + 2 * e * (arctan ((1 - a) / e) + arctan (a / e)) := by
  have hder : ∀ t ∈ Set.uIcc (0:ℝ) 1, HasDerivAt (fun t => (t - a) * log ((t - a) ^ 2 + e ^ 2) - 2 * t + 2 * e * arctan ((t - a) / e))
      (log ((t - a) ^ 2 + e ^ 2)) t := by
    intro t _
    have h0 : HasDerivAt (fun t => t - a) 1 t := (hasDerivAt_id t).sub_const a
    have hp : (t - a) ^ 2 + e ^ 2 ≠ 0 := by positivity
    have h1 := ((h0.pow 2).add_const (e ^ 2)).log hp
    have h2 := (h0.div_const e).arctan
    have := ((h0.mul h1).sub ((hasDerivAt_id t).const_mul 2)).add (h2.const_mul (2 * e))
    refine this.congr_deriv ?_
    simp only [Pi.pow_apply]
    have : 1 + ((t - a) / e) ^ 2 ≠ 0 := by positivity
    have := he.ne'
    have e1 : 1 + ((t - a) / e) ^ 2 = ((t - a) ^ 2 + e ^ 2) / e ^ 2 := by field_simp; ring
    rw [e1]
    field_simp
    simp only [Nat.cast_ofNat, Nat.add_one_sub_one, pow_one]
    ring
  rw [integral_eq_sub_of_hasDerivAt hder (ii_log_sq he a)]
  simp only [zero_sub, neg_sq, neg_div, arctan_neg]
  ring

theorem int_log_sub (a : ℝ) : ∫ t in (0:ℝ)..1, log (t - a) = (1 - a) * log (1 - a) + a * log a - 1 := by
  rw [integral_comp_sub_right (fun t => log t) a, integral_log, zero_sub, log_neg_eq_log]; ring

theorem u_reg {e : ℝ} (he : 0 < e) (u : ℝ) : u * (log (u ^ 2 + e ^ 2) - 2 * log u) ≤ 2 * e := by
  rcases eq_or_ne u 0 with h | h
  · rw [h]; simp; exact he.le
  have hu : 0 < |u| := abs_pos.2 h
  have h2 : log (u ^ 2 + e ^ 2) - 2 * log u = log ((u ^ 2 + e ^ 2) / u ^ 2) := by
    rw [log_div (by positivity) (by positivity), log_pow]; norm_num
  have h0 : 0 ≤ log ((u ^ 2 + e ^ 2) / u ^ 2) := by
    apply log_nonneg
    rw [le_div_iff₀ (by positivity)]; nlinarith
  have h3 : log ((u ^ 2 + e ^ 2) / u ^ 2) ≤ 2 * (e / |u|) := by
    have : (u ^ 2 + e ^ 2) / u ^ 2 ≤ (1 + e / |u|) ^ 2 := by
      rw [div_le_iff₀ (by positivity), ← sq_abs u]
      have : (1 + e / |u|) ^ 2 * |u| ^ 2 = (|u| + e) ^ 2 := by field_simp
      rw [this]; nlinarith
    have := log_le_log (by positivity) this
    rw [log_pow] at this
    have h4 := log_le_sub_one_of_pos (show 0 < 1 + e / |u| by positivity)
    norm_num at this; linarith
  rw [h2]
  calc u * log ((u ^ 2 + e ^ 2) / u ^ 2) ≤ |u| * log ((u ^ 2 + e ^ 2) / u ^ 2) := mul_le_mul_of_nonneg_right (le_abs_self u) h0
    _ ≤ |u| * (2 * (e / |u|)) := mul_le_mul_of_nonneg_left h3 hu.le
    _ = 2 * e := by field_simp

theorem reg_bound {e : ℝ} (he : 0 < e) (a : ℝ) : ∫ t in (0:ℝ)..1, reg a e t ≤ 11 * e := by
  unfold reg
  rw [integral_sub (ii_log_sq he a) ((ii_log_sub a).const_mul 2), intervalIntegral.integral_const_mul, int_log_sq he, int_log_sub]
  have h1 := u_reg he (1 - a)
  have h2 := u_reg he a
  have h3 : arctan ((1 - a) / e) + arctan (a / e) ≤ 3.1416 := by
    have := (arctan_lt_pi_div_two ((1 - a) / e)); have := (arctan_lt_pi_div_two (a / e))
    have := pi_lt_d4
    linarith
  have h4 : 2 * e * (arctan ((1 - a) / e) + arctan (a / e)) ≤ 2 * e * 3.1416 := mul_le_mul_of_nonneg_left h3 (by linarith)
  norm_num at h4; linarith

/-! ### Effect of a small change of the denominator -/

/-- an upper bound for the change of `log|D|` when `D` changes by `e` -/
noncomputable def exc (D e : ℝ) : ℝ := log (|D| + e) - log |D|

theorem norm_le_add {D e : ℝ} (he : 0 < e) : ‖(⟨D, -e⟩ : ℂ)‖ ≤ |D| + e := by
  have := Complex.norm_le_abs_re_add_abs_im (⟨D, -e⟩ : ℂ)
  simpa [abs_of_pos he] using this

theorem exc_nonneg {D e : ℝ} (he : 0 < e) (hD : D ≠ 0) : 0 ≤ exc D e := by
  unfold exc
  have hp : 0 < |D| := abs_pos.2 hD
  have := log_le_log hp (show |D| ≤ |D| + e by linarith)
  linarith

theorem exc_le_div {D e : ℝ} (he : 0 < e) (hD : D ≠ 0) : exc D e ≤ e / |D| := by
  have hp : 0 < |D| := abs_pos.2 hD
  unfold exc
  rw [← log_div (by positivity) hp.ne']
  refine (log_le_sub_one_of_pos (by positivity)).trans (le_of_eq ?_)
  field_simp; ring

/-- two real roots -/
theorem exc_le_reg {p a b t e k : ℝ} (hp : 0 < p) (he : 0 < e) (hk : e = 2 * p * k ^ 2) (ha : t ≠ a) (hb : t ≠ b) :
    exc (p * ((t - a) * (t - b))) e ≤ reg a k t + reg b k t := by
  have ua : 0 < |t - a| := abs_pos.2 (sub_ne_zero.2 ha)
  have ub : 0 < |t - b| := abs_pos.2 (sub_ne_zero.2 hb)
  have hD : p * ((t - a) * (t - b)) ≠ 0 := mul_ne_zero hp.ne' (mul_ne_zero (sub_ne_zero.2 ha) (sub_ne_zero.2 hb))
  unfold exc reg
  rw [abs_mul, abs_mul, abs_of_pos hp, hk, ← log_abs (t - a), ← log_abs (t - b), ← sq_abs (t - a), ← sq_abs (t - b)]
  generalize |t - a| = u at *
  generalize |t - b| = v at *
  have k0 : 0 < k ^ 2 := by
    have : 0 < 2 * p * k ^ 2 := hk ▸ he
    exact (pos_iff_pos_of_mul_pos (by linarith : 0 < (2 * p) * k ^ 2)).1 (by linarith)
  have h1 : (p * (u * v) + 2 * p * k ^ 2) * (p * (u * v)) ≤ p ^ 2 * ((u ^ 2 + k ^ 2) * (v ^ 2 + k ^ 2)) := by
    have : p ^ 2 * ((u ^ 2 + k ^ 2) * (v ^ 2 + k ^ 2)) - (p * (u * v) + 2 * p * k ^ 2) * (p * (u * v))
        = p ^ 2 * (k ^ 2 * (u - v) ^ 2 + (k ^ 2) ^ 2) := by ring
    have h2 : 0 ≤ p ^ 2 * (k ^ 2 * (u - v) ^ 2 + (k ^ 2) ^ 2) := by positivity
    linarith
  have h2 := log_le_log (by positivity) h1
  rw [log_mul (by positivity) (by positivity), log_mul (by positivity) (by positivity), log_mul (by positivity) (by positivity),
    log_mul (x := p ^ 2) (by positivity) (by positivity), log_mul (x := u ^ 2 + k ^ 2) (by positivity) (by positivity), log_pow] at h2
  rw [log_mul (by positivity) (by positivity), log_mul (x := u) (by positivity) (by positivity)]
  push_cast at h2
  linarith

/-- no real root -/
theorem exc_le_reg' {p c h t e k : ℝ} (hp : 0 < p) (he : 0 < e) (hk : e = p * k ^ 2) (hh : 0 < h) (hc : t ≠ c) :
    exc (p * ((t - c) ^ 2 + h)) e ≤ reg c k t := by
  have uc : 0 < (t - c) ^ 2 := by have := sub_ne_zero.2 hc; positivity
  have hD : p * ((t - c) ^ 2 + h) ≠ 0 := by positivity
  unfold exc reg
  have k0 : 0 < k ^ 2 := by
    have : 0 < p * k ^ 2 := hk ▸ he
    exact (pos_iff_pos_of_mul_pos this).1 hp
  have e2 : 2 * log (t - c) = log ((t - c) ^ 2) := by rw [log_pow]; norm_num
  rw [abs_of_pos (by positivity), hk, e2]
  generalize (t - c) ^ 2 = u at *
  rw [← log_div (by positivity) (by positivity), ← log_div (by positivity) (by positivity)]
  apply log_le_log (by positivity)
  rw [div_le_div_iff₀ (by positivity) (by positivity)]
  have : 0 < p * k ^ 2 * h := by positivity
  nlinarith

theorem ae_ne (a b : ℝ) : ∀ᵐ t : ℝ, t ≠ a ∧ t ≠ b := by
  have := (Set.Finite.countable (Set.toFinite ({a, b} : Set ℝ))).ae_notMem volume
  filter_upwards [this] with t ht
  simpa using ht

theorem ii_exc {p2 m12 m22 e q : ℝ} (he : 0 < e) (hq : 0 < q)
    (h : IntervalIntegrable (fun t => log (Dn p2 m12 m22 t / q)) volume 0 1) (hz : ∀ᵐ t, Dn p2 m12 m22 t ≠ 0) :
    IntervalIntegrable (fun t => exc (Dn p2 m12 m22 t) e) volume 0 1 := by
  have h1 : IntervalIntegrable (fun t => log (|Dn p2 m12 m22 t| + e) - log q) volume 0 1 := by
    apply Continuous.intervalIntegrable
    refine Continuous.sub (Continuous.log ?_ fun t => by positivity) continuous_const
    unfold Dn
    fun_prop
  refine (h1.sub h).congr_ae ?_
  filter_upwards [ae_restrict_of_ae hz] with t ht
  unfold exc
  rw [log_div ht hq.ne', log_abs]; ring

theorem exc_between {f g : ℝ → ℝ} {B : ℝ} (hf : IntervalIntegrable f volume 0 1) (hg : IntervalIntegrable g volume 0 1)
    (h0 : ∀ᵐ t, t ∈ Set.Icc (0:ℝ) 1 → 0 ≤ f t) (h1 : ∀ᵐ t, t ∈ Set.Icc (0:ℝ) 1 → f t ≤ g t) (hB : ∫ t in (0:ℝ)..1, g t ≤ B) :
    0 ≤ ∫ t in (0:ℝ)..1, f t ∧ ∫ t in (0:ℝ)..1, f t ≤ B := by
  constructor
  · have := integral_mono_ae_restrict (μ := volume) (f := fun _ => (0:ℝ)) (g := f) (a := 0) (b := 1) zero_le_one intervalIntegrable_const hf ?_
    · simpa using this
    · rw [Filter.EventuallyLE, ae_restrict_iff' measurableSet_Icc]; exact h0
  · refine le_trans ?_ hB
    refine integral_mono_ae_restrict (μ := volume) zero_le_one hf hg ?_
    rw [Filter.EventuallyLE, ae_restrict_iff' measurableSet_Icc]; exact h1

theorem Dn_lower {p2 m12 m22 t : ℝ} (hp : 0 < p2) (hmm : m12 ≤ m22) (ht : t ∈ Set.Icc (0:ℝ) 1) :
    m12 - p2 / 4 ≤ Dn p2 m12 m22 t := by
  have h1 : 0 ≤ p2 * (t - 1 / 2) ^ 2 := by positivity
  have h2 : 0 ≤ (m22 - m12) * t := mul_nonneg (by linarith) ht.1
  unfold Dn
  nlinarith

theorem ii_Dn {p2 m12 m22 q : ℝ} (hp : 0 < p2) (hq : 0 < q) : (∀ᵐ t, Dn p2 m12 m22 t ≠ 0) ∧
    IntervalIntegrable (fun t => log (Dn p2 m12 m22 t / q)) volume 0 1 ∧
    ∀ {e : ℝ}, 0 < e → 0 ≤ ∫ t in (0:ℝ)..1, exc (Dn p2 m12 m22 t) e ∧
      ∫ t in (0:ℝ)..1, exc (Dn p2 m12 m22 t) e ≤ 16 * sqrt (e / p2) := by
  obtain ⟨s, hs⟩ : ∃ s, s = p2 - m22 + m12 := ⟨_, rfl⟩
  have hpne := hp.ne'
  rcases le_or_gt 0 (s ^ 2 - 4 * p2 * m12) with hd | hd
  · obtain ⟨r, hr⟩ : ∃ r, r = sqrt (s ^ 2 - 4 * p2 * m12) := ⟨_, rfl⟩
    have hr2 : r ^ 2 = s ^ 2 - 4 * p2 * m12 := by rw [hr, Real.sq_sqrt hd]
    obtain ⟨a, ha⟩ : ∃ a, a = (s + r) / (2 * p2) := ⟨_, rfl⟩
    obtain ⟨b, hb⟩ : ∃ b, b = (s - r) / (2 * p2) := ⟨_, rfl⟩
    have hD : ∀ t, Dn p2 m12 m22 t = p2 * ((t - a) * (t - b)) := by
      intro t
      have h1 : p2 * (a + b) = s := by rw [ha, hb]; field_simp; ring
      have h2 : p2 * (a * b) = m12 := by
        have : p2 * (a * b) = (s ^ 2 - r ^ 2) / (4 * p2) := by rw [ha, hb]; field_simp; ring
        rw [this, hr2]; field_simp; ring
      unfold Dn
      rw [← hs, ← h1, ← h2]; ring
    have hint : IntervalIntegrable (fun t => log (Dn p2 m12 m22 t / q)) volume 0 1 := by
      have h1 : IntervalIntegrable (fun t => log (p2 / q) + log (t - a) + log (t - b)) volume 0 1 :=
        (intervalIntegrable_const.add (ii_log_sub a)).add (ii_log_sub b)
      refine h1.congr_ae ?_
      filter_upwards [ae_restrict_of_ae (ae_ne a b)] with t ht
      have ua := sub_ne_zero.2 ht.1
      have ub := sub_ne_zero.2 ht.2
      rw [hD, mul_div_right_comm, log_mul (by positivity) (by positivity), log_mul ua ub]; ring
    have hz : ∀ᵐ t, Dn p2 m12 m22 t ≠ 0 := by
      filter_upwards [ae_ne a b] with t ht
      rw [hD]
      exact mul_ne_zero hpne (mul_ne_zero (sub_ne_zero.2 ht.1) (sub_ne_zero.2 ht.2))
    refine ⟨hz, hint, fun {e} he => ?_⟩
    obtain ⟨k, hk⟩ : ∃ k, k = sqrt (e / (2 * p2)) := ⟨_, rfl⟩
    have hkpos : 0 < k := by rw [hk]; positivity
    have hk2 : e = 2 * p2 * k ^ 2 := by rw [hk, Real.sq_sqrt (by positivity)]; field_simp
    have hg := (ii_reg hkpos a).add (ii_reg hkpos b)
    refine exc_between (ii_exc he hq hint hz) hg ?_ ?_ ?_
    · filter_upwards [hz] with t ht _
      exact exc_nonneg he ht
    · filter_upwards [ae_ne a b] with t ht _
      rw [hD]
      exact exc_le_reg hp he hk2 ht.1 ht.2
    · rw [integral_add (ii_reg hkpos a) (ii_reg hkpos b)]
      have h1 := reg_bound hkpos a
      have h2 := reg_bound hkpos b
      have h3 : k ≤ 8 / 11 * sqrt (e / p2) := by
        rw [hk, Real.sqrt_le_left (by positivity), mul_pow, Real.sq_sqrt (by positivity)]
        have : e / (2 * p2) = 1 / 2 * (e / p2) := by field_simp
        rw [this]
        have : 0 < e / p2 := by positivity
        norm_num; linarith
      linarith
  · obtain ⟨c, hc⟩ : ∃ c, c = s / (2 * p2) := ⟨_, rfl⟩
    obtain ⟨h, hh⟩ : ∃ h, h = (4 * p2 * m12 - s ^ 2) / (4 * p2 ^ 2) := ⟨_, rfl⟩
    have hpos : 0 < h := by rw [hh]; apply div_pos (by linarith) (by positivity)
    have hD : ∀ t, Dn p2 m12 m22 t = p2 * ((t - c) ^ 2 + h) := by
      intro t
      unfold Dn
      rw [← hs, hc, hh]
      field_simp
      ring
    have hint : IntervalIntegrable (fun t => log (Dn p2 m12 m22 t / q)) volume 0 1 := by
      apply Continuous.intervalIntegrable
      simp only [hD]
      exact Continuous.log (by fun_prop) fun t => by positivity
    have hz : ∀ᵐ t, Dn p2 m12 m22 t ≠ 0 := by
      filter_upwards with t
      rw [hD]; positivity
    refine ⟨hz, hint, fun {e} he => ?_⟩
    obtain ⟨k, hk⟩ : ∃ k, k = sqrt (e / p2) := ⟨_, rfl⟩
    have hkpos : 0 < k := by rw [hk]; positivity
    have hk2 : e = p2 * k ^ 2 := by rw [hk, Real.sq_sqrt (by positivity)]; field_simp
    refine exc_between (ii_exc he hq hint hz) (ii_reg hkpos c) ?_ ?_ ?_
    · filter_upwards [hz] with t ht _
      exact exc_nonneg he ht
    · filter_upwards [ae_ne c c] with t ht _
      rw [hD]
      exact exc_le_reg' hp he hk2 hpos ht.1
    · rw [← hk]
      have := reg_bound hkpos c
      linarith

end Himalaya.PV
