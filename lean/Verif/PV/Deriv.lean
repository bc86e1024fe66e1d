import Verif.PV.Accuracy

/-!
# C31: accuracy of the derivative function
-/

set_option linter.unusedSimpArgs false
set_option linter.unusedVariables false

namespace Himalaya.PV

open Real intervalIntegral MeasureTheory

theorem mul_log_tiny' {r : ℝ} (h0 : 0 < r) (h1 : r ≤ 1 / 10 ^ 14) : 0 ≤ r * -log r ∧ r * -log r ≤ 2 / 10 ^ 10 := by
  constructor
  · exact mul_nonneg h0.le (by have := log_nonpos h0.le (by norm_num at h1 ⊢; linarith); linarith)
  · have hw : 0 < sqrt (sqrt r) := by positivity
    have hr : r = sqrt (sqrt r) ^ 4 := by
      rw [show (4:ℕ) = 2 * 2 from rfl, pow_mul, Real.sq_sqrt (by positivity), Real.sq_sqrt h0.le]
    refine (mul_log_small hw hr).trans ?_
    have hb : sqrt (sqrt r) ≤ 32 / 10 ^ 5 := by
      rw [Real.sqrt_le_left (by positivity), Real.sqrt_le_left (by positivity)]
      refine h1.trans (by norm_num)
    have := pow_le_pow_left₀ hw.le hb 3
    norm_num at this ⊢; linarith

theorem feynD_symm (a b : ℝ) : feynD1B0 a b = feynD1B0 b a := by
  unfold feynD1B0
  have := integral_comp_sub_left (a := 0) (b := 1) (fun x : ℝ => x * (1 - x) / (x * b + (1 - x) * a)) 1
  simp only [sub_self, sub_zero] at this
  rw [← this]
  apply integral_congr
  intro t _
  dsimp only
  congr 1 <;> ring

/-- hierarchical masses -/
theorem feynD_hier {a b : ℝ} (ha : 0 < a) (hb : 0 < b) (h : a < 1 / 10 ^ 14 * b) :
    |(a - b) * (a + b) / (2 * (a - b) ^ 3) - feynD1B0 a b| ≤ 1 / 10 ^ 8 / b := by
  have hba : a < b := by norm_num at h; linarith
  rw [feynD_eq ha hb hba.ne]
  obtain ⟨r, hr⟩ : ∃ r, r = a / b := ⟨_, rfl⟩
  have hr0 : 0 < r := by rw [hr]; positivity
  have hr1 : r ≤ 1 / 10 ^ 14 := by rw [hr, div_le_iff₀ hb]; exact h.le
  have har : a = r * b := by rw [hr]; field_simp
  have hl : log (b / a) = -log r := by rw [hr, ← log_inv, inv_div]
  obtain ⟨u0, u1⟩ := mul_log_tiny' hr0 hr1
  rw [hl]
  have hne : 1 - r ≠ 0 := by norm_num at hr1; intro h; linarith
  have hpos : 0 < 1 - r := by norm_num at hr1; linarith
  have e : (a - b) * (a + b) / (2 * (a - b) ^ 3) - ((a - b) * (a + b) + 2 * a * b * -log r) / (2 * (a - b) ^ 3)
      = r * -log r / (1 - r) ^ 3 / b := by
    rw [har, show r * b - b = -(b * (1 - r)) by ring]
    field_simp
    ring
  rw [e, abs_of_nonneg (by positivity)]
  apply div_le_div_of_nonneg_right _ hb.le
  have h3 : 99 / 100 ≤ (1 - r) ^ 3 := by
    have := pow_le_pow_left₀ (show (0:ℝ) ≤ 999 / 1000 by norm_num) (show 999 / 1000 ≤ 1 - r by norm_num at hr1 ⊢; linarith) 3
    norm_num at this ⊢; linarith
  rw [div_le_iff₀ (by positivity)]
  norm_num at u1 h3 ⊢; linarith

theorem int_beta1 (n : ℕ) : ∫ x in (0:ℝ)..1, x * (1 - x) ^ (n + 1) = 1 / (((n : ℝ) + 2) * ((n : ℝ) + 3)) := by
  have e := integral_comp_sub_left (a := 0) (b := 1) (fun x : ℝ => (1 - x) * x ^ (n + 1)) 1
  simp only [sub_self, sub_zero, sub_sub_cancel] at e
  rw [e]
  have : ∀ x : ℝ, (1 - x) * x ^ (n + 1) = x ^ (n + 1) - x ^ (n + 2) := by intro x; ring
  simp only [this]
  rw [integral_sub (Continuous.intervalIntegrable (by fun_prop) _ _) (Continuous.intervalIntegrable (by fun_prop) _ _), integral_pow, integral_pow]
  push_cast
  have h2 : (n : ℝ) + 2 ≠ 0 := by positivity
  have h3 : (n : ℝ) + 3 ≠ 0 := by positivity
  have h2' : (n : ℝ) + 1 + 1 ≠ 0 := by positivity
  have h3' : (n : ℝ) + 2 + 1 ≠ 0 := by positivity
  simp
  field_simp
  ring

/-- nearly degenerate masses -/
theorem feynD_deg {a b : ℝ} (ha : 0 < a) (hb : 0 < b) (h : |b - a| < 5 / 100 * a) :
    |1 / (6 * a) + (a - b) / (12 * a ^ 2) + (a - b) ^ 2 / (20 * a ^ 3) + (a - b) ^ 3 / (30 * a ^ 4)
      + (a - b) ^ 4 / (42 * a ^ 5) + (a - b) ^ 5 / (56 * a ^ 6) - feynD1B0 a b| ≤ 5 / 10 ^ 9 / a := by
  obtain ⟨y, hy⟩ : ∃ y, y = (a - b) / a := ⟨_, rfl⟩
  have hane := ha.ne'
  have hy1 : |y| ≤ 5 / 100 := by
    rw [hy, abs_div, abs_of_pos ha, div_le_iff₀ ha, abs_sub_comm]; exact h.le
  have hby : b = a * (1 - y) := by rw [hy]; field_simp; ring
  have hpoly : 1 / (6 * a) + (a - b) / (12 * a ^ 2) + (a - b) ^ 2 / (20 * a ^ 3) + (a - b) ^ 3 / (30 * a ^ 4)
      + (a - b) ^ 4 / (42 * a ^ 5) + (a - b) ^ 5 / (56 * a ^ 6)
      = (∫ x in (0:ℝ)..1, ∑ k ∈ Finset.range 6, y ^ k * (x * (1 - x) ^ (k + 1))) / a := by
    rw [intervalIntegral.integral_finsetSum (fun j _ => Continuous.intervalIntegrable (by fun_prop) _ _)]
    simp only [intervalIntegral.integral_const_mul, int_beta1, Finset.sum_range_succ, Finset.sum_range_zero]
    rw [hby]
    push_cast
    field_simp
    ring
  have hfe : feynD1B0 a b = (∫ x in (0:ℝ)..1, x * (1 - x) / (1 - (1 - x) * y)) / a := by
    unfold feynD1B0
    rw [← intervalIntegral.integral_div]
    apply integral_congr
    intro x _
    dsimp only
    rw [hby, div_div]
    congr 1; ring
  have hden : ∀ x ∈ Set.Icc (0:ℝ) 1, |(1 - x) * y| ≤ 5 / 100 := by
    intro x hx
    rw [abs_mul, abs_of_nonneg (by linarith [hx.2] : 0 ≤ 1 - x)]
    have : (1 - x) * |y| ≤ 1 * |y| := mul_le_mul_of_nonneg_right (by linarith [hx.1]) (abs_nonneg y)
    linarith
  have hc : IntervalIntegrable (fun x : ℝ => x * (1 - x) / (1 - (1 - x) * y)) volume 0 1 := by
    apply ContinuousOn.intervalIntegrable
    rw [Set.uIcc_of_le zero_le_one]
    apply ContinuousOn.div (by fun_prop) (by fun_prop)
    intro x hx
    have := abs_le.1 (hden x hx)
    norm_num at this; linarith [this.2]
  rw [hpoly, hfe, ← sub_div, ← integral_sub (Continuous.intervalIntegrable (by fun_prop) _ _) hc, abs_div, abs_of_pos ha]
  apply div_le_div_of_nonneg_right _ ha.le
  rw [← Real.norm_eq_abs]
  have := intervalIntegral.norm_integral_le_of_norm_le_const (a := 0) (b := 1) (C := 5 / 10 ^ 9)
    (f := fun x => (∑ k ∈ Finset.range 6, y ^ k * (x * (1 - x) ^ (k + 1))) - x * (1 - x) / (1 - (1 - x) * y)) ?_
  · simpa using this
  intro x hx
  rw [Set.uIoc_of_le zero_le_one] at hx
  have hd := hden x ⟨hx.1.le, hx.2⟩
  obtain ⟨z, hz⟩ : ∃ z, z = (1 - x) * y := ⟨_, rfl⟩
  rw [← hz] at hd
  have hz1 := abs_le.1 hd
  have hzne : 1 - z ≠ 0 := by norm_num at hz1; intro h; linarith [hz1.2]
  have hzp : 95 / 100 ≤ 1 - z := by norm_num at hz1 ⊢; linarith [hz1.2]
  have e : (∑ k ∈ Finset.range 6, y ^ k * (x * (1 - x) ^ (k + 1))) - x * (1 - x) / (1 - (1 - x) * y)
      = -(x * (1 - x)) * z ^ 6 / (1 - z) := by
    have : (∑ k ∈ Finset.range 6, y ^ k * (x * (1 - x) ^ (k + 1))) = x * (1 - x) * (1 + z + z ^ 2 + z ^ 3 + z ^ 4 + z ^ 5) := by
      rw [hz]; simp only [Finset.sum_range_succ, Finset.sum_range_zero]; ring
    rw [this, ← hz]
    field_simp
    ring
  rw [Real.norm_eq_abs, e, abs_div, abs_mul, abs_neg, abs_of_pos (by linarith : 0 < 1 - z), abs_pow]
  have hx0 : 0 ≤ x * (1 - x) := mul_nonneg hx.1.le (by linarith [hx.2])
  have hx1 : x * (1 - x) ≤ 1 / 4 := by nlinarith [sq_nonneg (x - 1 / 2)]
  have hz6 : |z| ^ 6 ≤ (5 / 100) ^ 6 := pow_le_pow_left₀ (abs_nonneg z) hd 6
  rw [abs_of_nonneg hx0, div_le_iff₀ (by linarith)]
  have := mul_le_mul hx1 hz6 (by positivity) (by norm_num)
  norm_num at this hzp ⊢
  linarith

/-- **C31** For all masses `d1_b0` is the derivative integral, up to `1e-8` in units of the larger squared mass (away from the
absolute cut at squared masses `1e-15`). -/
theorem C31_d1b0_accuracy {a b : ℝ} (ha : 0 < a) (hb : 0 < b) (h : EPSTOL ≤ max a b) :
    |d1b0 a b - feynD1B0 a b| ≤ 1 / 10 ^ 8 / max a b := by
  have hmax : 0 < max a b := lt_max_of_lt_left ha
  unfold d1b0 d1b0Abs
  rw [abs_of_pos ha, abs_of_pos hb]
  by_cases h1 : a < 1 / 10 ^ 14 * b
  · have hab : a ≤ b := by norm_num at h1; linarith
    have h2 : ¬b < 1 / 10 ^ 14 * a := by norm_num at h1 ⊢; linarith
    rw [if_pos (fun hh => h2 (hh.1 h1)), max_eq_right hab]
    exact feynD_hier ha hb h1
  by_cases h2 : b < 1 / 10 ^ 14 * a
  · have hab : b ≤ a := by norm_num at h2; linarith
    rw [if_pos (fun hh => h1 (hh.2 h2)), max_eq_left hab, feynD_symm]
    have := feynD_hier hb ha h2
    have hne : a - b ≠ 0 := by intro h; norm_num at h2; linarith
    have hne' : b - a ≠ 0 := by intro h; norm_num at h2; linarith
    have e : (a - b) * (a + b) / (2 * (a - b) ^ 3) = (b - a) * (b + a) / (2 * (b - a) ^ 3) := by
      rw [show b - a = -(a - b) by ring, show (-(a - b)) ^ 3 = -(a - b) ^ 3 by ring]
      field_simp
      ring
    rw [e]; exact this
  rw [if_neg (fun hn => hn ⟨fun h => absurd h h1, fun h => absurd h h2⟩), if_neg (fun hh => by
    have := max_lt hh.1 hh.2; linarith)]
  split_ifs with h3
  · refine (feynD_deg ha hb h3).trans ?_
    have hm : max a b ≤ 2 * a := by
      have := (abs_lt.1 h3).2
      norm_num at this
      apply max_le <;> linarith
    rw [div_le_div_iff₀ ha hmax]
    norm_num; linarith
  · have hne : a ≠ b := by
      rintro rfl
      apply h3
      rw [sub_self, abs_zero]; positivity
    rw [feynD_eq ha hb hne, sub_self, abs_zero]
    positivity

example : EPSTOL ≤ max (10000:ℝ) 10100 := by unfold EPSTOL; norm_num

/-- **C31** (finding) Unlike the integral, `d1_b0` is not symmetric: its expansion is around the first argument. -/
theorem C31_d1b0_not_symmetric : ∃ a b : ℝ, 0 < a ∧ 0 < b ∧ d1b0 a b ≠ d1b0 b a ∧ feynD1B0 a b = feynD1B0 b a := by
  refine ⟨1, 26 / 25, by norm_num, by norm_num, ?_, feynD_symm _ _⟩
  unfold d1b0 d1b0Abs EPSTOL
  norm_num [abs_of_pos]

end Himalaya.PV
