import Verif.PV.Model
import Mathlib.Tactic.LinearCombination
import Mathlib.Tactic.Positivity

/-!
# C78: the one-loop integrals in other units of mass
-/

set_option linter.unusedVariables false
set_option linter.unusedSimpArgs false

namespace Himalaya.PV

open Real

variable {k : ℝ}

theorem u_lt (hk : 0 < k) (x y : ℝ) : (k * x < k * y) = (x < y) := propext (mul_lt_mul_iff_right₀ hk)

theorem u_div (hk : 0 < k) (x y : ℝ) : k * x / (k * y) = x / y := mul_div_mul_left _ _ hk.ne'

/-- `b0xx` -/
theorem u_b0xxAbs (hk : 0 < k) (p m q : ℝ) : b0xxAbs (k * p) (k * m) (k * q) = b0xxAbs p m q := by
  unfold b0xxAbs
  have e1 : (k * p < EPSTOL * (k * q)) = (p < EPSTOL * q) := by rw [show EPSTOL * (k * q) = k * (EPSTOL * q) by ring, u_lt hk]
  have e2 : (k * m < EPSTOL * (k * q)) = (m < EPSTOL * q) := by rw [show EPSTOL * (k * q) = k * (EPSTOL * q) by ring, u_lt hk]
  have e3 : (k * p < 1 / 1000 * (k * m)) = (p < 1 / 1000 * m) := by rw [show 1 / 1000 * (k * m) = k * (1 / 1000 * m) by ring, u_lt hk]
  have e4 : (k * p ≤ 4 * (k * m)) = (p ≤ 4 * m) := by
    rw [show 4 * (k * m) = k * (4 * m) by ring]; exact propext (mul_le_mul_iff_right₀ hk)
  have e5 : (k * p < 100 * (k * m)) = (p < 100 * m) := by rw [show 100 * (k * m) = k * (100 * m) by ring, u_lt hk]
  have e6 : (k * p * EPSTOL < k * m) = (p * EPSTOL < m) := by rw [mul_assoc, u_lt hk]
  have d1 : 4 * (k * m) / (k * p) = 4 * m / p := by rw [show 4 * (k * m) = k * (4 * m) by ring, u_div hk]
  have d2 : k * p / (4 * (k * m)) = p / (4 * m) := by rw [show 4 * (k * m) = k * (4 * m) by ring, u_div hk]
  have d3 : ∀ x, k * p * x / (2 * (k * m)) = p * x / (2 * m) := fun x => by
    rw [show 2 * (k * m) = k * (2 * m) by ring, mul_assoc, u_div hk]
  simp only [e1, e2, e3, e4, e5, e6, d1, d2, d3, u_div hk]

theorem u_abs (hk : 0 < k) (x : ℝ) : |k * x| = k * |x| := by rw [abs_mul, abs_of_pos hk]

/-- **C78.** `b0xx` is dimensionless. -/
theorem C78_b0xx (hk : 0 < k) (p m q : ℝ) : b0xx (k * p) (k * m) (k * q) = b0xx p m q := by
  unfold b0xx
  rw [u_abs hk, u_abs hk, u_abs hk, u_b0xxAbs hk]

theorem sgn_u (hk : 0 < k) (s : ℝ) : sgn (k * s) = sgn s := by
  unfold sgn
  have : (0 ≤ k * s) = (0 ≤ s) := propext (mul_nonneg_iff_of_pos_left hk)
  simp only [this]

theorem u_general (hk : 0 < k) (p m n q : ℝ) : b0General (k * p) (k * m) (k * n) (k * q) = b0General p m n q := by
  unfold b0General
  have hk' : (k : ℂ) ≠ 0 := by exact_mod_cast hk.ne'
  have es : k * p - k * n + k * m = k * (p - n + m) := by ring
  have ei : (⟨k * m, -EPSTOL * (k * m)⟩ : ℂ) = k * ⟨m, -EPSTOL * m⟩ := by
    apply Complex.ext <;> simp <;> ring
  simp only [es, ei, sgn_u hk]
  generalize (⟨m, -EPSTOL * m⟩ : ℂ) = I
  generalize p - n + m = s
  have ex : (((k * s : ℝ) : ℂ) ^ 2 - 4 * ((k * p : ℝ) : ℂ) * (k * I)) ^ ((1 : ℂ) / 2) = k * ((s : ℂ) ^ 2 - 4 * p * I) ^ ((1 : ℂ) / 2) := by
    rw [show ((k * s : ℝ) : ℂ) ^ 2 - 4 * ((k * p : ℝ) : ℂ) * (k * I) = ((k ^ 2 : ℝ) : ℂ) * ((s : ℂ) ^ 2 - 4 * p * I) by push_cast; ring]
    generalize (s : ℂ) ^ 2 - 4 * p * I = z
    by_cases hz : z = 0
    · subst hz; simp
    have hk2 : ((k ^ 2 : ℝ) : ℂ) ≠ 0 := by exact_mod_cast (by positivity : k ^ 2 ≠ 0)
    rw [Complex.cpow_def_of_ne_zero (mul_ne_zero hk2 hz), Complex.cpow_def_of_ne_zero hz, Complex.log_ofReal_mul (by positivity) hz, add_mul,
      Complex.exp_add]
    congr 1
    rw [Real.log_pow]
    rw [show (((2 : ℕ) * Real.log k : ℝ) : ℂ) * (1 / 2) = ((Real.log k : ℝ) : ℂ) by push_cast; ring, ← Complex.ofReal_exp, Real.exp_log hk]
  rw [ex]
  generalize ((s : ℂ) ^ 2 - 4 * p * I) ^ ((1 : ℂ) / 2) = x
  have ep : ((k * s : ℝ) : ℂ) + (sgn s : ℂ) * (k * x) = k * (s + sgn s * x) := by push_cast; ring
  have ep2 : (2 * ((k * p : ℝ) : ℂ)) = k * (2 * p) := by push_cast; ring
  rw [ep, ep2, mul_div_mul_left _ _ hk']
  generalize ((s : ℂ) + sgn s * x) / (2 * p) = y
  have em : k * I / (y * ((k * p : ℝ) : ℂ)) = I / (y * p) := by
    rw [show y * ((k * p : ℝ) : ℂ) = k * (y * p) by push_cast; ring, mul_div_mul_left _ _ hk']
  rw [em, u_div hk]

theorem u_ordered (hk : 0 < k) (p m n q : ℝ) : b0Ordered (k * p) (k * m) (k * n) (k * q) = b0Ordered p m n q := by
  unfold b0Ordered
  have e1 : (k * n < k * m * (1 + EPSTOL)) = (n < m * (1 + EPSTOL)) := by rw [mul_assoc, u_lt hk]
  have e2 : (k * p ≤ 1 / 10 ^ 11 * (k * m)) = (p ≤ 1 / 10 ^ 11 * m) := by
    rw [show 1 / 10 ^ 11 * (k * m) = k * (1 / 10 ^ 11 * m) by ring]; exact propext (mul_le_mul_iff_right₀ hk)
  have e3 : (k * m < EPSTOL * (k * n)) = (m < EPSTOL * n) := by rw [show EPSTOL * (k * n) = k * (EPSTOL * n) by ring, u_lt hk]
  have e4 : (k * m < EPSTOL * EPSTOL * (k * n)) = (m < EPSTOL * EPSTOL * n) := by
    rw [show EPSTOL * EPSTOL * (k * n) = k * (EPSTOL * EPSTOL * n) by ring, u_lt hk]
  have d1 : ∀ x, k * m * x / (k * m - k * n) = m * x / (m - n) := fun x => by rw [← mul_sub, mul_assoc, u_div hk]
  have d2 : sqrt ((k * n - k * p) ^ 2 + (EPSTOL * (k * n)) ^ 2) = k * sqrt ((n - p) ^ 2 + (EPSTOL * n) ^ 2) := by
    rw [show (k * n - k * p) ^ 2 + (EPSTOL * (k * n)) ^ 2 = k ^ 2 * ((n - p) ^ 2 + (EPSTOL * n) ^ 2) by ring, Real.sqrt_mul (by positivity),
      Real.sqrt_sq hk.le]
  have d3 : (k * n - k * p) / (k * p) = (n - p) / p := by rw [← mul_sub, u_div hk]
  simp only [e1, e2, e3, e4, d1, d2, d3, u_div hk, C78_b0xx hk, u_general hk]

/-- **C78.** `b0` is dimensionless: also in the branches for small masses and momenta. -/
theorem C78_b0 (hk : 0 < k) (p m n q : ℝ) : b0 (k * p) (k * m) (k * n) (k * q) = b0 p m n q := by
  unfold b0 b0Abs
  rw [u_abs hk, u_abs hk, u_abs hk, u_abs hk]
  have e : ∀ x, (k * x < EPSTOL * (k * |q|)) = (x < EPSTOL * |q|) := fun x => by
    rw [show EPSTOL * (k * |q|) = k * (EPSTOL * |q|) by ring, u_lt hk]
  simp only [e, u_lt hk, u_ordered hk]

/-- **C78 (partial).** `a0` has the dimension of a squared mass, unless the squared mass lies below `1e-15` in one of the units. -/
theorem C78_a0_partial (hk : 0 < k) (m q : ℝ) (h : EPSTOL ≤ |m|) (h' : EPSTOL ≤ k * |m|) : a0 (k * m) (k * q) = k * a0 m q := by
  unfold a0
  rw [u_abs hk, if_neg (not_lt.2 h), if_neg (not_lt.2 h'), u_div hk, mul_assoc]

/-- **C78.** `a0` depends on the units: a squared mass below `1e-15` counts as zero whatever the units are. -/
theorem C78_a0_violated : a0 (10 ^ 4 * (1 / 10 ^ 16)) (10 ^ 4 * 1) ≠ 10 ^ 4 * a0 (1 / 10 ^ 16) 1 := by
  have e : EPSTOL = 1 / 10 ^ 15 := by simp [EPSTOL]
  have h1 : a0 (1 / 10 ^ 16) 1 = 0 := by
    unfold a0
    rw [if_pos (by rw [e, abs_of_pos (by norm_num)]; norm_num)]
  have h2 : a0 (10 ^ 4 * (1 / 10 ^ 16)) (10 ^ 4 * 1) = 10 ^ 4 * (1 / 10 ^ 16) * (1 - log (1 / 10 ^ 16)) := by
    unfold a0
    rw [if_neg (by rw [e, abs_of_pos (by norm_num)]; norm_num), abs_of_pos (by norm_num), u_div (by norm_num), div_one]
  rw [h1, h2, mul_zero]
  have : log (1 / 10 ^ 16 : ℝ) < 0 := Real.log_neg (by norm_num) (by norm_num)
  have : 0 < 1 - log (1 / 10 ^ 16 : ℝ) := by linarith
  positivity

/-- **C78 (partial).** `d1_b0` has the dimension of an inverse squared mass, unless both squared masses lie below `1e-15` in one of the
units. -/
theorem C78_d1b0_partial (hk : 0 < k) (m n : ℝ) (h : EPSTOL ≤ |m| ∨ EPSTOL ≤ |n|) (h' : EPSTOL ≤ k * |m| ∨ EPSTOL ≤ k * |n|) :
    k * d1b0 (k * m) (k * n) = d1b0 m n := by
  unfold d1b0
  rw [u_abs hk, u_abs hk]
  unfold d1b0Abs
  generalize |m| = m at *
  generalize |n| = n at *
  have n1 : ¬ (m < EPSTOL ∧ n < EPSTOL) := by rintro ⟨a, b⟩; rcases h with h | h <;> linarith
  have n2 : ¬ (k * m < EPSTOL ∧ k * n < EPSTOL) := by rintro ⟨a, b⟩; rcases h' with h | h <;> linarith
  have e1 : (k * m < 1 / 10 ^ 14 * (k * n)) = (m < 1 / 10 ^ 14 * n) := by rw [show 1 / 10 ^ 14 * (k * n) = k * (1 / 10 ^ 14 * n) by ring, u_lt hk]
  have e2 : (k * n < 1 / 10 ^ 14 * (k * m)) = (n < 1 / 10 ^ 14 * m) := by rw [show 1 / 10 ^ 14 * (k * m) = k * (1 / 10 ^ 14 * m) by ring, u_lt hk]
  have e3 : (|k * n - k * m| < 5 / 100 * (k * m)) = (|n - m| < 5 / 100 * m) := by
    rw [← mul_sub, u_abs hk, show 5 / 100 * (k * m) = k * (5 / 100 * m) by ring, u_lt hk]
  simp only [e1, e2, e3, if_neg n1, if_neg n2, u_div hk]
  have k0 := hk.ne'
  split_ifs
  all_goals first
    | rw [show (k * m - k * n) * (k * m + k * n) + 2 * (k * m) * (k * n) * log (n / m) = k ^ 2 * ((m - n) * (m + n) + 2 * m * n * log (n / m)) by ring,
        show 2 * (k * m - k * n) ^ 3 = k ^ 3 * (2 * (m - n) ^ 3) by ring]
      field_simp
    | rw [show (k * m - k * n) * (k * m + k * n) = k ^ 2 * ((m - n) * (m + n)) by ring, show 2 * (k * m - k * n) ^ 3 = k ^ 3 * (2 * (m - n) ^ 3) by ring]
      field_simp
    | field_simp

/-- **C78.** `d1_b0` depends on the units. -/
theorem C78_d1b0_violated : 10 ^ 4 * d1b0 (10 ^ 4 * (1 / 10 ^ 16)) (10 ^ 4 * (1 / 10 ^ 16)) ≠ d1b0 (1 / 10 ^ 16) (1 / 10 ^ 16) := by
  have e : EPSTOL = 1 / 10 ^ 15 := by simp [EPSTOL]
  have h1 : d1b0 (1 / 10 ^ 16) (1 / 10 ^ 16) = 0 := by
    unfold d1b0 d1b0Abs
    rw [abs_of_pos (by norm_num), if_neg (by simp), if_pos (by rw [e]; norm_num)]
  have h2 : d1b0 (10 ^ 4 * (1 / 10 ^ 16)) (10 ^ 4 * (1 / 10 ^ 16)) = 10 ^ 12 / 6 := by
    unfold d1b0 d1b0Abs
    rw [abs_of_pos (by norm_num), if_neg (by simp), if_neg (by rw [e]; norm_num), if_pos (by norm_num)]
    norm_num
  rw [h1, h2]
  norm_num

example : b0 (10 ^ 6 * 2) (10 ^ 6 * 1) (10 ^ 6 * 3) (10 ^ 6 * 4) = b0 2 1 3 4 := C78_b0 (by norm_num) 2 1 3 4

example : a0 (10 ^ 6 * 2) (10 ^ 6 * 4) = 10 ^ 6 * a0 2 4 :=
  C78_a0_partial (by norm_num) 2 4 (by norm_num [EPSTOL]) (by norm_num [EPSTOL])

example : 10 ^ 6 * d1b0 (10 ^ 6 * 2) (10 ^ 6 * 4) = d1b0 2 4 :=
  C78_d1b0_partial (by norm_num) 2 4 (Or.inl (by norm_num [EPSTOL])) (Or.inl (by norm_num [EPSTOL]))

end Himalaya.PV
