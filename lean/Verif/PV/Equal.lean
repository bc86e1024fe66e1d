import Verif.PV.Pert
import Mathlib.Analysis.SpecialFunctions.Trigonometric.Arctan

set_option linter.unusedSimpArgs false
set_option linter.unusedVariables false

namespace Himalaya.PV

open Real intervalIntegral MeasureTheory

theorem Dn_eq (p2 m2 t : ℝ) : Dn p2 m2 m2 t = p2 * t ^ 2 - p2 * t + m2 := by unfold Dn; ring

/-- two real roots -/
theorem feyn_roots {p m q a b : ℝ} (hp : 0 < p) (hq : 0 < q) (hs : a + b = 1) (hm : p * (a * b) = m) :
    feynB0 p m m q = 2 - log (p / q) - 2 * (a * log a + b * log b) := by
  rw [feyn_Dn]
  have : ∫ t in (0:ℝ)..1, log (Dn p m m t / q) = ∫ t in (0:ℝ)..1, (log (p / q) + log (t - a) + log (t - b)) := by
    apply intervalIntegral.integral_congr_ae
    filter_upwards [ae_ne a b] with t ht _
    have ua := sub_ne_zero.2 ht.1
    have ub := sub_ne_zero.2 ht.2
    have hD : Dn p m m t = p * ((t - a) * (t - b)) := by
      rw [Dn_eq]
      have hb : b = 1 - a := by linarith
      rw [← hm, hb]; ring
    rw [hD, mul_div_right_comm, log_mul (by positivity) (by positivity), log_mul ua ub]; ring
  rw [this, integral_add (intervalIntegrable_const.add (ii_log_sub a)) (ii_log_sub b), integral_add intervalIntegrable_const (ii_log_sub a),
    int_log_sub, int_log_sub, show 1 - a = b by linarith, show 1 - b = a by linarith]
  simp
  ring

/-- below threshold -/
theorem feyn_below {p m q : ℝ} (hp : 0 < p) (hm : p < 4 * m) (hq : 0 < q) :
    feynB0 p m m q = 2 - log (m / q) - 2 * sqrt (4 * m / p - 1) * arcsin (sqrt (p / (4 * m))) := by
  have hm0 : 0 < m := by linarith
  have hpne := hp.ne'
  have hmne := hm0.ne'
  have hx : 0 < 4 * m / p - 1 := by rw [sub_pos, lt_div_iff₀ hp]; linarith
  obtain ⟨w, hw⟩ : ∃ w, w = sqrt (4 * m / p - 1) := ⟨_, rfl⟩
  have hw0 : 0 < w := by rw [hw]; positivity
  have hw2 : w ^ 2 = 4 * m / p - 1 := by rw [hw, Real.sq_sqrt hx.le]
  have hmw : m = p * (w ^ 2 + 1) / 4 := by rw [hw2]; field_simp; ring
  have he : 0 < w / 2 := by positivity
  rw [← hw]
  have ha : arcsin (sqrt (p / (4 * m))) = arctan (1 / w) := by
    rw [arctan_eq_arcsin]
    congr 1
    have h1 : p / (4 * m) = (1 / w) ^ 2 / (1 + (1 / w) ^ 2) := by rw [hmw]; field_simp
    rw [h1, sqrt_div (by positivity), sqrt_sq_eq_abs, abs_of_pos (by positivity)]
  rw [ha, feyn_Dn]
  have : ∀ t, log (Dn p m m t / q) = log (p / q) + log ((t - 1 / 2) ^ 2 + (w / 2) ^ 2) := by
    intro t
    have hD : Dn p m m t = p * ((t - 1 / 2) ^ 2 + (w / 2) ^ 2) := by rw [Dn_eq, hmw]; ring
    rw [hD, mul_div_right_comm, log_mul (by positivity) (by positivity)]
  simp only [this]
  rw [integral_add intervalIntegrable_const (ii_log_sq he _), int_log_sq he]
  have e1 : (1 - 1 / 2 : ℝ) / (w / 2) = 1 / w := by field_simp; ring
  have e2 : (1 / 2 : ℝ) / (w / 2) = 1 / w := by field_simp
  have e3 : (1 - 1 / 2 : ℝ) ^ 2 + (w / 2) ^ 2 = m / p := by rw [hmw]; field_simp; ring
  have e4 : (1 / 2 : ℝ) ^ 2 + (w / 2) ^ 2 = m / p := by rw [hmw]; field_simp; ring
  rw [e1, e2, e3, e4, log_div hmne hpne, log_div hpne hq.ne', log_div hmne hq.ne']
  simp
  ring

/-- at and above threshold -/
theorem feyn_above {p m q : ℝ} (hp : 0 < p) (hm : 4 * m ≤ p) (h0 : 0 < m) (hq : 0 < q) :
    feynB0 p m m q = 2 - log (m / q) + sqrt (1 - 4 * m / p) * log (p * (1 - sqrt (1 - 4 * m / p)) / (2 * m) - 1) := by
  have hpne := hp.ne'
  have hmne := h0.ne'
  obtain ⟨w, hw⟩ : ∃ w, w = sqrt (1 - 4 * m / p) := ⟨_, rfl⟩
  have hx : 0 ≤ 1 - 4 * m / p := by rw [sub_nonneg, div_le_iff₀ hp]; linarith
  have hw2 : w ^ 2 = 1 - 4 * m / p := by rw [hw, Real.sq_sqrt hx]
  have hw0 : 0 ≤ w := by rw [hw]; positivity
  have hw1 : w < 1 := by
    have : 0 < 4 * m / p := by positivity
    nlinarith
  rw [← hw]
  have hmw : m = p * ((1 + w) / 2 * ((1 - w) / 2)) := by
    have : p * ((1 + w) / 2 * ((1 - w) / 2)) = p * (1 - w ^ 2) / 4 := by ring
    rw [this, hw2]; field_simp; ring
  have ha : 0 < (1 + w) / 2 := by linarith
  have hb : 0 < (1 - w) / 2 := by linarith
  rw [feyn_roots hp hq (a := (1 + w) / 2) (b := (1 - w) / 2) (by ring) hmw.symm]
  have e1 : p * (1 - w) / (2 * m) - 1 = (1 - w) / 2 / ((1 + w) / 2) := by
    rw [hmw]
    have : 1 - w ≠ 0 := by linarith
    have : 1 + w ≠ 0 := by linarith
    field_simp
    ring
  rw [e1, log_div hb.ne' ha.ne']
  have e2 : log (m / q) = log (p / q) + log ((1 + w) / 2) + log ((1 - w) / 2) := by
    rw [hmw, mul_div_right_comm, log_mul (by positivity) (by positivity), log_mul ha.ne' hb.ne']; ring
  rw [e2]
  ring

theorem feyn_threshold {m q : ℝ} (h0 : 0 < m) (hq : 0 < q) : feynB0 (4 * m) m m q = 2 - log (m / q) := by
  rw [feyn_above (by linarith) le_rfl h0 hq, div_self (by positivity), sub_self, Real.sqrt_zero]
  ring

theorem int_beta (n : ℕ) : ∫ t in (0:ℝ)..1, (t * (1 - t)) ^ n =
    ∑ j ∈ Finset.range (n + 1), (-1) ^ j * (n.choose j : ℝ) / ((n : ℝ) + j + 1) := by
  have : ∀ t : ℝ, (t * (1 - t)) ^ n = ∑ j ∈ Finset.range (n + 1), ((-1) ^ j * (n.choose j : ℝ)) * t ^ (n + j) := by
    intro t
    rw [mul_pow, show 1 - t = -t + 1 by ring, add_pow, Finset.mul_sum]
    apply Finset.sum_congr rfl
    intro j _
    rw [one_pow, neg_pow, pow_add]; ring
  simp only [this]
  rw [intervalIntegral.integral_finsetSum (fun j _ => Continuous.intervalIntegrable (by fun_prop) _ _)]
  apply Finset.sum_congr rfl
  intro j _
  rw [intervalIntegral.integral_const_mul, integral_pow]
  push_cast
  simp
  ring

/-- small momentum -/
theorem feyn_small {p m q : ℝ} (hp : 0 ≤ p) (h0 : 0 < m) (hm : p < 1 / 1000 * m) (hq : 0 < q) :
    |b0xxAbs p m q - feynB0 p m m q| ≤ 1 / 10 ^ 20 ∨ (p < EPSTOL * q ∧ m < EPSTOL * q) := by
  by_cases hir : p < EPSTOL * q ∧ m < EPSTOL * q
  · exact Or.inr hir
  left
  unfold b0xxAbs
  rw [if_neg hir, if_pos hm]
  dsimp only
  obtain ⟨d, hd⟩ : ∃ d, d = p / m := ⟨_, rfl⟩
  have hd0 : 0 ≤ d := by rw [hd]; positivity
  have hd1 : d < 1 / 1000 := by rw [hd, div_lt_iff₀ h0]; linarith
  rw [← hd, feyn_Dn]
  have hx : ∀ t ∈ Set.Icc (0:ℝ) 1, 0 ≤ t * (1 - t) * d ∧ t * (1 - t) * d ≤ 1 / 4000 := by
    intro t ht
    have h1 : 0 ≤ t * (1 - t) := mul_nonneg ht.1 (by linarith [ht.2])
    have h2 : t * (1 - t) ≤ 1 / 4 := by nlinarith [sq_nonneg (t - 1 / 2)]
    exact ⟨mul_nonneg h1 hd0, by nlinarith⟩
  have hlog : ∀ t ∈ Set.Icc (0:ℝ) 1, log (Dn p m m t / q) = log (m / q) + log (1 - t * (1 - t) * d) := by
    intro t ht
    have : Dn p m m t = m * (1 - t * (1 - t) * d) := by rw [Dn_eq, hd]; field_simp; ring
    rw [this, mul_div_right_comm, log_mul (by positivity) (by linarith [(hx t ht).2])]
  have hc : ContinuousOn (fun t : ℝ => log (1 - t * (1 - t) * d)) (Set.uIcc 0 1) := by
    rw [Set.uIcc_of_le zero_le_one]
    exact ContinuousOn.log (by fun_prop) fun t ht => by linarith [(hx t ht).2]
  have e : ∫ t in (0:ℝ)..1, log (Dn p m m t / q) = log (m / q) + ∫ t in (0:ℝ)..1, log (1 - t * (1 - t) * d) := by
    rw [integral_congr (g := fun t => log (m / q) + log (1 - t * (1 - t) * d)) (fun t ht => hlog t (by rwa [Set.uIcc_of_le zero_le_one] at ht)),
      integral_add intervalIntegrable_const hc.intervalIntegrable]
    simp
  rw [e]
  have hser : ∫ t in (0:ℝ)..1, (∑ i ∈ Finset.range 7, (t * (1 - t) * d) ^ (i + 1) / ((i : ℝ) + 1)) =
      d * (1/6 + d * (1/60 + d * (1/420 + d * (1/2520 + d * (1/13860 + d * (1/72072 + d / 360360)))))) := by
    have e7 : ∀ t : ℝ, (∑ i ∈ Finset.range 7, (t * (1 - t) * d) ^ (i + 1) / ((i : ℝ) + 1)) =
        ∑ i ∈ Finset.range 7, (d ^ (i + 1) / ((i : ℝ) + 1)) * (t * (1 - t)) ^ (i + 1) := by
      intro t
      apply Finset.sum_congr rfl
      intro i _
      rw [mul_pow]; ring
    simp only [e7]
    rw [intervalIntegral.integral_finsetSum (fun j _ => Continuous.intervalIntegrable (by fun_prop) _ _)]
    simp only [intervalIntegral.integral_const_mul, int_beta, Finset.sum_range_succ, Finset.sum_range_zero]
    norm_num [Nat.choose]
    ring
  have hdiff : ‖∫ t in (0:ℝ)..1, ((∑ i ∈ Finset.range 7, (t * (1 - t) * d) ^ (i + 1) / ((i : ℝ) + 1)) + log (1 - t * (1 - t) * d))‖ ≤
      1 / 10 ^ 20 * |1 - 0| := by
    apply intervalIntegral.norm_integral_le_of_norm_le_const
    intro t ht
    rw [Set.uIoc_of_le zero_le_one] at ht
    obtain ⟨x0, x1⟩ := hx t ⟨ht.1.le, ht.2⟩
    have := abs_log_sub_add_sum_range_le (x := t * (1 - t) * d) (by rw [abs_of_nonneg x0]; linarith) 7
    rw [Real.norm_eq_abs]
    refine this.trans ?_
    rw [abs_of_nonneg x0]
    generalize t * (1 - t) * d = x at *
    rw [div_le_iff₀ (by linarith)]
    have : x ^ (7 + 1) ≤ (1 / 4000) ^ (7 + 1) := pow_le_pow_left₀ x0 x1 _
    norm_num at this ⊢
    linarith
  rw [integral_add (Continuous.intervalIntegrable (by fun_prop) _ _) hc.intervalIntegrable, hser, Real.norm_eq_abs] at hdiff
  simp only [sub_zero, abs_one, mul_one] at hdiff
  refine le_trans (le_of_eq ?_) hdiff
  congr 1
  ring

end Himalaya.PV
