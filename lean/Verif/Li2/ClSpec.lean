import Mathlib.Analysis.SpecialFunctions.Integrals.LogTrigonometric
import Mathlib.Analysis.SpecialFunctions.Trigonometric.EulerSineProd
import Mathlib.Analysis.SpecialFunctions.Trigonometric.Sinc
import Mathlib.Analysis.SpecialFunctions.Log.Deriv
import Mathlib.NumberTheory.ZetaValues
import Mathlib.Analysis.Real.Pi.Bounds

/-!
# The Clausen function: specification and series

Specification used for property C34, independent of the code: the textbook integral
`Cl₂(x) = - ∫₀ˣ log|2 sin(t/2)| dt`.
-/

set_option linter.dupNamespace false

namespace Himalaya.Clausen
open Real Set Filter Topology MeasureTheory intervalIntegral
open scoped Nat

/-- Specification: the Clausen function of order two, as the textbook integral. -/
noncomputable def Cl2 (x : ℝ) : ℝ := -∫ t in (0:ℝ)..x, Real.log |2 * Real.sin (t / 2)|

/-! ### `-log(sinc)` as a power series -/

/-- `ζ(2n)/(n (2π)^(2n)) = |B_{2n}|/(2n (2n)!)` -/
noncomputable def c (n : ℕ) : ℝ := (-1) ^ (n + 1) * bernoulli (2 * n) / (2 * n * (2 * n)!)

theorem zeta_even {n : ℕ} (hn : n ≠ 0) : HasSum (fun j : ℕ => 1 / ((j : ℝ) + 1) ^ (2 * n)) (n * (2 * π) ^ (2 * n) * c n) := by
  have h := hasSum_zeta_nat hn
  have h2 := (hasSum_nat_add_iff' (f := fun j : ℕ => 1 / (j : ℝ) ^ (2 * n)) 1).2 h
  simp only [Finset.sum_range_one] at h2
  have z : (1 : ℝ) / ((0 : ℕ) : ℝ) ^ (2 * n) = 0 := by simp [hn]
  rw [z, sub_zero] at h2
  have e : (-1 : ℝ) ^ (n + 1) * 2 ^ (2 * n - 1) * π ^ (2 * n) * bernoulli (2 * n) / (2 * n)! = n * (2 * π) ^ (2 * n) * c n := by
    unfold c
    have : (n : ℝ) ≠ 0 := by exact_mod_cast hn
    have h3 : (2 : ℝ) ^ (2 * n) = 2 * 2 ^ (2 * n - 1) := by
      rw [← pow_succ']; congr 1; omega
    rw [mul_pow, h3]
    field_simp
  rw [e] at h2
  refine h2.congr_fun ?_ |>.trans ?_ <;> simp

theorem hasSum_neglog_sinc {x : ℝ} (h0 : 0 < x) (h1 : x < 1) :
    HasSum (fun j : ℕ => -Real.log (1 - x ^ 2 / ((j : ℝ) + 1) ^ 2)) (-Real.log (sinc (π * x))) := by
  have hpos : ∀ j : ℕ, 0 < 1 - x ^ 2 / ((j : ℝ) + 1) ^ 2 := fun j => by
    rw [sub_pos, div_lt_one (by positivity)]
    have : (0 : ℝ) ≤ j := by positivity
    nlinarith
  rw [hasSum_iff_tendsto_nat_of_nonneg]
  · have hx : π * x ≠ 0 := by positivity
    have hs : 0 < sin (π * x) := sin_pos_of_pos_of_lt_pi (by positivity) (by nlinarith [pi_pos])
    have t := (Real.tendsto_euler_sin_prod x).div_const (π * x)
    have t2 : Tendsto (fun n : ℕ => ∏ j ∈ Finset.range n, ((1 : ℝ) - x ^ 2 / ((j : ℝ) + 1) ^ 2)) atTop (𝓝 (sinc (π * x))) := by
      rw [sinc_of_ne_zero hx]
      refine t.congr fun n => ?_
      field_simp
    have hne : sinc (π * x) ≠ 0 := by rw [sinc_of_ne_zero hx]; positivity
    have t3 := ((continuousAt_log hne).tendsto.comp t2).neg
    refine t3.congr fun n => ?_
    simp only [Function.comp]
    rw [Real.log_prod (fun j _ => (hpos j).ne'), Finset.sum_neg_distrib]
  · intro j
    rw [neg_nonneg]
    exact Real.log_nonpos (hpos j).le (by rw [sub_le_self_iff]; positivity)

theorem neglog_trunc {a : ℝ} (h0 : 0 ≤ a) (h1 : a < 1) (N : ℕ) :
    0 ≤ -Real.log (1 - a) - ∑ i ∈ Finset.range N, a ^ (i + 1) / (i + 1) ∧
    -Real.log (1 - a) - ∑ i ∈ Finset.range N, a ^ (i + 1) / (i + 1) ≤ a ^ (N + 1) / (1 - a) := by
  have hs := Real.hasSum_pow_div_log_of_abs_lt_one (x := a) (by rwa [abs_of_nonneg h0])
  constructor
  · have := sum_le_hasSum (Finset.range N) (fun i _ => by positivity) hs
    linarith
  · have := Real.abs_log_sub_add_sum_range_le (x := a) (by rwa [abs_of_nonneg h0]) N
    rw [abs_of_nonneg h0] at this
    have := neg_le_of_abs_le this
    linarith

/-- the power series of `-log(sinc(π x))` with remainder -/
theorem neglog_sinc_trunc {x : ℝ} (h0 : 0 ≤ x) (h1 : x < 1) (N : ℕ) :
    0 ≤ -Real.log (sinc (π * x)) - ∑ i ∈ Finset.range N, c (i + 1) * (2 * π * x) ^ (2 * (i + 1)) ∧
    -Real.log (sinc (π * x)) - ∑ i ∈ Finset.range N, c (i + 1) * (2 * π * x) ^ (2 * (i + 1)) ≤ 2 * x ^ (2 * (N + 1)) / (1 - x ^ 2) := by
  rcases h0.eq_or_lt with rfl | h0
  · simp
  have hx2 : x ^ 2 < 1 := by nlinarith
  have ha : ∀ j : ℕ, 0 ≤ x ^ 2 / ((j : ℝ) + 1) ^ 2 ∧ x ^ 2 / ((j : ℝ) + 1) ^ 2 ≤ x ^ 2 := fun j => by
    refine ⟨by positivity, div_le_self (by positivity) ?_⟩
    have : (0 : ℝ) ≤ j := by positivity
    nlinarith
  have hz : ∀ i ∈ Finset.range N, HasSum (fun j : ℕ => (x ^ 2 / ((j : ℝ) + 1) ^ 2) ^ (i + 1) / (i + 1))
      (c (i + 1) * (2 * π * x) ^ (2 * (i + 1))) := fun i _ => by
    have := (zeta_even (n := i + 1) (by omega)).mul_left (x ^ (2 * (i + 1)) / (i + 1))
    have e1 : (fun j : ℕ => (x ^ 2 / ((j : ℝ) + 1) ^ 2) ^ (i + 1) / (i + 1)) =
        fun j : ℕ => x ^ (2 * (i + 1)) / (i + 1) * (1 / ((j : ℝ) + 1) ^ (2 * (i + 1))) := by
      funext j
      rw [div_pow, ← pow_mul, ← pow_mul]
      field_simp
    have e2 : c (i + 1) * (2 * π * x) ^ (2 * (i + 1)) =
        x ^ (2 * (i + 1)) / (i + 1) * (((i + 1 : ℕ) : ℝ) * (2 * π) ^ (2 * (i + 1)) * c (i + 1)) := by
      push_cast
      have : (i : ℝ) + 1 ≠ 0 := by positivity
      rw [mul_pow]
      field_simp
    rw [e1, e2]
    exact this
  have hS := hasSum_sum hz
  have hD := (hasSum_neglog_sinc h0 h1).sub hS
  constructor
  · exact hD.nonneg fun j => (neglog_trunc (ha j).1 (by linarith [(ha j).2]) N).1
  · have hB : HasSum (fun j : ℕ => (x ^ (2 * (N + 1)) / (1 - x ^ 2)) * (1 / ((j : ℝ) + 1) ^ (2 * 1)))
        ((x ^ (2 * (N + 1)) / (1 - x ^ 2)) * ((1 : ℕ) * (2 * π) ^ (2 * 1) * c 1)) := by
      have := (zeta_even (n := 1) (by omega)).mul_left (x ^ (2 * (N + 1)) / (1 - x ^ 2))
      exact this
    have hle := hasSum_le (fun j => ?_) hD hB
    · refine hle.trans ?_
      have c1 : c 1 = 1 / 24 := by
        unfold c; norm_num [bernoulli_two, Nat.factorial]
      rw [c1]
      have hp : π ^ 2 ≤ 12 := by nlinarith [pi_pos, pi_lt_d2]
      have : 0 ≤ x ^ (2 * (N + 1)) / (1 - x ^ 2) := div_nonneg (by positivity) (by linarith)
      rw [mul_div_assoc]
      generalize x ^ (2 * (N + 1)) / (1 - x ^ 2) = A at this ⊢
      norm_num
      nlinarith
    · refine (neglog_trunc (ha j).1 (by linarith [(ha j).2]) N).2.trans ?_
      have h2 := (ha j).2
      have : (x ^ 2 / ((j : ℝ) + 1) ^ 2) ^ (N + 1) ≤ x ^ (2 * (N + 1)) * (1 / ((j : ℝ) + 1) ^ (2 * 1)) := by
        rw [div_pow, ← pow_mul, ← pow_mul, div_eq_mul_one_div]
        apply mul_le_mul_of_nonneg_left _ (by positivity)
        apply one_div_le_one_div_of_le (by positivity)
        apply pow_le_pow_right₀ (by have : (0 : ℝ) ≤ j := by positivity
                                    linarith)
        omega
      rw [div_mul_eq_mul_div]
      exact div_le_div₀ (by positivity) this (by linarith) (by linarith)

/-! ### Integrals -/

/-- `∫₀ˣ -log(sinc(t/2)) dt` -/
noncomputable def G (x : ℝ) : ℝ := ∫ t in (0:ℝ)..x, -Real.log (sinc (t / 2))

theorem sinc_pos {x : ℝ} (h0 : 0 ≤ x) (h1 : x < π) : 0 < sinc x := by
  rcases h0.eq_or_lt with rfl | h0
  · simp
  · rw [sinc_of_ne_zero h0.ne']
    exact div_pos (sin_pos_of_pos_of_lt_pi h0 h1) h0

theorem continuousOn_neglog {x : ℝ} (h1 : x < 2 * π) : ContinuousOn (fun t : ℝ => -Real.log (sinc (t / 2))) (Icc 0 x) := by
  apply ContinuousOn.neg
  apply ContinuousOn.log
  · exact (continuous_sinc.comp (continuous_id.div_const 2)).continuousOn
  · intro t ht
    exact (sinc_pos (by linarith [ht.1]) (by linarith [ht.2])).ne'

theorem intervalIntegrable_neglog {x : ℝ} (h0 : 0 ≤ x) (h1 : x < 2 * π) :
    IntervalIntegrable (fun t : ℝ => -Real.log (sinc (t / 2))) volume 0 x := by
  apply ContinuousOn.intervalIntegrable
  rw [uIcc_of_le h0]
  exact continuousOn_neglog h1

/-- the first `N` terms of the power series of `G` -/
noncomputable def Gser (N : ℕ) (x : ℝ) : ℝ := ∑ i ∈ Finset.range N, c (i + 1) / (2 * i + 3) * x ^ (2 * i + 3)

theorem G_trunc {x : ℝ} (h0 : 0 ≤ x) (h1 : x < 2 * π) (N : ℕ) :
    |G x - Gser N x| ≤ 2 * (x / (2 * π)) ^ (2 * (N + 1)) / (1 - (x / (2 * π)) ^ 2) * x := by
  have e : Gser N x = ∫ t in (0:ℝ)..x, ∑ i ∈ Finset.range N, c (i + 1) * t ^ (2 * (i + 1)) := by
    rw [intervalIntegral.integral_finsetSum (fun i _ => (Continuous.intervalIntegrable (by fun_prop) _ _))]
    unfold Gser
    apply Finset.sum_congr rfl
    intro i _
    rw [intervalIntegral.integral_const_mul, integral_pow]
    have : (2 : ℝ) * i + 3 ≠ 0 := by positivity
    rw [show 2 * (i + 1) + 1 = 2 * i + 3 by ring]
    push_cast
    rw [show (2 : ℝ) * (i + 1) + 1 = 2 * i + 3 by ring]
    simp
    ring
  rw [e, G, ← intervalIntegral.integral_sub (intervalIntegrable_neglog h0 h1) (Continuous.intervalIntegrable (by fun_prop) _ _)]
  have hx1 : x / (2 * π) < 1 := by rw [div_lt_one (by positivity)]; exact h1
  have hb : ∀ t ∈ uIoc (0 : ℝ) x, ‖-Real.log (sinc (t / 2)) - ∑ i ∈ Finset.range N, c (i + 1) * t ^ (2 * (i + 1))‖ ≤
      2 * (x / (2 * π)) ^ (2 * (N + 1)) / (1 - (x / (2 * π)) ^ 2) := fun t ht => by
    rw [uIoc_of_le h0] at ht
    have u0 : 0 ≤ t / (2 * π) := div_nonneg ht.1.le (by positivity)
    have u1 : t / (2 * π) ≤ x / (2 * π) := by gcongr; exact ht.2
    have := neglog_sinc_trunc u0 (u1.trans_lt hx1) N
    rw [show π * (t / (2 * π)) = t / 2 by field_simp, show 2 * π * (t / (2 * π)) = t by field_simp] at this
    rw [Real.norm_eq_abs, abs_of_nonneg this.1]
    refine this.2.trans ?_
    have hx2 : (x / (2 * π)) ^ 2 < 1 := by have := u0.trans u1; nlinarith
    have hu2 : (t / (2 * π)) ^ 2 ≤ (x / (2 * π)) ^ 2 := pow_le_pow_left₀ u0 u1 2
    refine div_le_div₀ (by positivity) ?_ (by linarith) (by linarith)
    have := pow_le_pow_left₀ u0 u1 (2 * (N + 1))
    linarith
  have := intervalIntegral.norm_integral_le_of_norm_le_const hb
  rwa [sub_zero, abs_of_nonneg h0, Real.norm_eq_abs] at this

theorem integrable_sin (a b : ℝ) : IntervalIntegrable (fun t => Real.log |2 * Real.sin (t / 2)|) volume a b := by
  have : MeromorphicOn (fun t : ℝ => 2 * Real.sin (t / 2)) (uIcc a b) := by
    apply AnalyticOnNhd.meromorphicOn
    intro t _
    fun_prop
  exact this.intervalIntegrable_log_norm

theorem integrable_cos (a b : ℝ) : IntervalIntegrable (fun t => Real.log |2 * Real.cos (t / 2)|) volume a b := by
  have : MeromorphicOn (fun t : ℝ => 2 * Real.cos (t / 2)) (uIcc a b) := by
    apply AnalyticOnNhd.meromorphicOn
    intro t _
    fun_prop
  exact this.intervalIntegrable_log_norm

/-- `Cl₂(x) = x (1 - log x) + G(x)` -/
theorem Cl2_small {x : ℝ} (h0 : 0 ≤ x) (h1 : x < 2 * π) : Cl2 x = x * (1 - Real.log x) + G x := by
  have e : ∫ t in (0:ℝ)..x, Real.log |2 * Real.sin (t / 2)| =
      ∫ t in (0:ℝ)..x, (Real.log t - -Real.log (sinc (t / 2))) := by
    apply intervalIntegral.integral_congr_ae
    refine Eventually.of_forall fun t ht => ?_
    rw [uIoc_of_le h0] at ht
    have hs : 0 < sinc (t / 2) := sinc_pos (by linarith [ht.1]) (by linarith [ht.2])
    rw [sub_neg_eq_add, ← Real.log_mul ht.1.ne' hs.ne', sinc_of_ne_zero (by linarith [ht.1]), Real.log_abs]
    congr 1
    have := ht.1.ne'
    field_simp
  unfold Cl2 G
  rw [e, intervalIntegral.integral_sub intervalIntegrable_log' (intervalIntegrable_neglog h0 h1), integral_log]
  ring

theorem Cl2_zero : Cl2 0 = 0 := by simp [Cl2]

theorem Cl2_pi : Cl2 π = 0 := by
  have e : ∫ t in (0:ℝ)..π, Real.log |2 * Real.sin (t / 2)| = ∫ t in (0:ℝ)..π, (Real.log 2 + (fun u => Real.log (Real.sin u)) (t / 2)) := by
    apply intervalIntegral.integral_congr_ae
    refine Eventually.of_forall fun t ht => ?_
    rw [uIoc_of_le pi_pos.le] at ht
    have hs : 0 < sin (t / 2) := sin_pos_of_pos_of_lt_pi (by linarith [ht.1]) (by linarith [ht.2, pi_pos])
    rw [Real.log_abs, Real.log_mul (by norm_num) hs.ne']
  unfold Cl2
  have hi : IntervalIntegrable (fun t => Real.log (Real.sin (t / 2))) volume 0 π := by
    have : MeromorphicOn (fun t : ℝ => Real.sin (t / 2)) (uIcc 0 π) := by
      apply AnalyticOnNhd.meromorphicOn
      intro t _
      fun_prop
    exact this.intervalIntegrable_log
  rw [e, intervalIntegral.integral_add (by simp) hi, intervalIntegral.integral_comp_div (fun u => Real.log (Real.sin u)) two_ne_zero]
  simp only [zero_div, integral_log_sin_zero_pi_div_two, intervalIntegral.integral_const, smul_eq_mul]
  ring

theorem Cl2_refl (y : ℝ) : Cl2 (π - y) = ∫ t in (0:ℝ)..y, Real.log |2 * Real.cos (t / 2)| := by
  have h := intervalIntegral.integral_interval_sub_left (integrable_sin 0 π) (integrable_sin 0 (π - y))
  have hp := Cl2_pi
  unfold Cl2 at hp ⊢
  have e : ∫ t in (0:ℝ)..y, Real.log |2 * Real.cos (t / 2)| =
      ∫ t in (0:ℝ)..y, (fun u => Real.log |2 * Real.sin (u / 2)|) (π - t) := by
    apply intervalIntegral.integral_congr
    intro t _
    show _ = Real.log |2 * Real.sin ((π - t) / 2)|
    rw [show (π - t) / 2 = π / 2 - t / 2 by ring, Real.sin_pi_div_two_sub]
  have e2 := intervalIntegral.integral_comp_sub_left (a := 0) (b := y) (fun u => Real.log |2 * Real.sin (u / 2)|) π
  rw [sub_zero] at e2
  rw [e, e2]
  linarith

theorem Cl2_odd_about_pi (y : ℝ) : Cl2 (π + y) = -Cl2 (π - y) := by
  have h := Cl2_refl (-y)
  rw [sub_neg_eq_add] at h
  rw [h, Cl2_refl]
  have := intervalIntegral.integral_comp_neg (a := 0) (b := y) (fun t => Real.log |2 * Real.cos (t / 2)|)
  simp only [neg_div, Real.cos_neg, neg_zero] at this
  rw [intervalIntegral.integral_symm, ← this]

theorem Cl2_neg (x : ℝ) : Cl2 (-x) = -Cl2 x := by
  have := intervalIntegral.integral_comp_neg (a := 0) (b := x) (fun t => Real.log |2 * Real.sin (t / 2)|)
  simp only [neg_div, Real.sin_neg, neg_zero, mul_neg, abs_neg] at this
  unfold Cl2
  rw [this, intervalIntegral.integral_symm]

theorem Cl2_two_pi_sub (x : ℝ) : Cl2 (2 * π - x) = -Cl2 x := by
  have := Cl2_odd_about_pi (π - x)
  rw [show π + (π - x) = 2 * π - x by ring, show π - (π - x) = x by ring] at this
  exact this

theorem Cl2_add_two_pi (x : ℝ) : Cl2 (x + 2 * π) = Cl2 x := by
  have := Cl2_two_pi_sub (-x)
  rw [Cl2_neg, sub_neg_eq_add, add_comm, neg_neg] at this
  exact this

theorem Cl2_large {y : ℝ} (h0 : 0 ≤ y) (h1 : y < π) : Cl2 (π - y) = y * Real.log 2 + G y - G (2 * y) / 2 := by
  rw [Cl2_refl]
  have i1 := intervalIntegrable_neglog h0 (by linarith [pi_pos])
  have i2 : IntervalIntegrable (fun t : ℝ => -Real.log (sinc (2 * t / 2))) volume 0 y := by
    apply ContinuousOn.intervalIntegrable
    rw [uIcc_of_le h0]
    refine (continuousOn_neglog (x := 2 * y) (by linarith)).comp (f := fun t => 2 * t) (by fun_prop) ?_
    intro t ht
    exact ⟨by linarith [ht.1], by linarith [ht.2]⟩
  have e : ∫ t in (0:ℝ)..y, Real.log |2 * Real.cos (t / 2)| =
      ∫ t in (0:ℝ)..y, (Real.log 2 + -Real.log (sinc (t / 2)) - -Real.log (sinc (2 * t / 2))) := by
    apply intervalIntegral.integral_congr_ae
    refine Eventually.of_forall fun t ht => ?_
    rw [uIoc_of_le h0] at ht
    have s1 : 0 < sinc (t / 2) := sinc_pos (by linarith [ht.1]) (by linarith [ht.2, pi_pos])
    have s2 : 0 < sinc (2 * t / 2) := sinc_pos (by linarith [ht.1]) (by linarith [ht.2])
    have h2 : 2 * cos (t / 2) = 2 * (sinc (2 * t / 2) / sinc (t / 2)) := by
      congr 1
      rw [eq_div_iff s1.ne', sinc_of_ne_zero (by linarith [ht.1]), sinc_of_ne_zero (by linarith [ht.1])]
      rw [show 2 * t / 2 = 2 * (t / 2) by ring, sin_two_mul]
      have := ht.1.ne'
      field_simp
    rw [Real.log_abs, h2, Real.log_mul two_ne_zero (div_pos s2 s1).ne', Real.log_div s2.ne' s1.ne']
    ring
  rw [e, intervalIntegral.integral_sub ((by simp : IntervalIntegrable (fun _ => Real.log 2) volume 0 y).add i1) i2,
    intervalIntegral.integral_add (by simp) i1]
  have := intervalIntegral.integral_comp_mul_left (a := 0) (b := y) (fun t => -Real.log (sinc (t / 2))) (two_ne_zero (α := ℝ))
  rw [this]
  unfold G
  simp only [intervalIntegral.integral_const, smul_eq_mul, mul_zero]
  ring

end Himalaya.Clausen
