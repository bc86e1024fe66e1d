import Verif.PV.Equal

set_option linter.unusedSimpArgs false
set_option linter.unusedVariables false

namespace Himalaya.PV

open Real

/-- `x |log x| ≤ 4 x^(3/4)` -/
theorem mul_log_small {r w : ℝ} (hw : 0 < w) (hr : r = w ^ 4) : r * -log r ≤ 4 * w ^ 3 := by
  have h := log_le_sub_one_of_pos (show 0 < w⁻¹ by positivity)
  rw [log_inv] at h
  rw [hr, log_pow]
  push_cast
  have : w ^ 4 * (-(4 * log w)) = 4 * w ^ 3 * (w * -log w) := by ring
  rw [this]
  have h2 : w * -log w ≤ 1 := by
    calc w * -log w ≤ w * (w⁻¹ - 1) := mul_le_mul_of_nonneg_left h hw.le
      _ = 1 - w := by field_simp
      _ ≤ 1 := by linarith
  have : 0 ≤ 4 * w ^ 3 := by positivity
  nlinarith

theorem mul_log_tiny {r : ℝ} (h0 : 0 ≤ r) (h1 : r ≤ 1 / 10 ^ 15) : 0 ≤ r * -log r ∧ r * -log r ≤ 3 / 10 ^ 11 := by
  rcases eq_or_lt_of_le h0 with h | h
  · rw [← h]; norm_num
  constructor
  · exact mul_nonneg h.le (by have := log_nonpos h.le (by norm_num at h1 ⊢; linarith); linarith)
  · have hw : 0 < sqrt (sqrt r) := by positivity
    have hr : r = sqrt (sqrt r) ^ 4 := by
      rw [show (4:ℕ) = 2 * 2 from rfl, pow_mul, Real.sq_sqrt (by positivity), Real.sq_sqrt h.le]
    refine (mul_log_small hw hr).trans ?_
    have hb : sqrt (sqrt r) ≤ 18 / 10 ^ 5 := by
      rw [Real.sqrt_le_left (by positivity), Real.sqrt_le_left (by positivity)]
      refine h1.trans (by norm_num)
    have := pow_le_pow_left₀ hw.le hb 3
    norm_num at this ⊢; linarith

/-- the smaller root -/
theorem small_root {d : ℝ} (h0 : 0 ≤ d) (h1 : d ≤ 1 / 100) : ∃ b, 0 ≤ b ∧ b ≤ 103 / 10000 ∧ b * (1 - b) = d ∧ b ≤ 2 * d ∧ (0 < d → 0 < b) := by
  obtain ⟨w, hw⟩ : ∃ w, w = sqrt (1 - 4 * d) := ⟨_, rfl⟩
  have hw2 : w ^ 2 = 1 - 4 * d := by rw [hw, Real.sq_sqrt (by norm_num at h1; linarith)]
  have hwl : 9794 / 10000 ≤ w := by
    rw [hw]; apply Real.le_sqrt_of_sq_le; norm_num at h1 ⊢; linarith
  have hwu : w ≤ 1 := by nlinarith
  refine ⟨(1 - w) / 2, by linarith, by norm_num at hwl ⊢; linarith, by nlinarith, by norm_num at hwl; nlinarith, fun hd => ?_⟩
  have : w < 1 := by nlinarith
  linarith

theorem roots_form {p m q b : ℝ} (hp : 0 < p) (hq : 0 < q) (hb : b * (1 - b) = m / p) :
    feynB0 p m m q = 2 - log (p / q) - 2 * ((1 - b) * log (1 - b) + b * log b) := by
  refine feyn_roots hp hq (by ring) ?_
  rw [mul_comm (1 - b), hb]; field_simp

/-- large momentum, series branch -/
theorem feyn_large {p m q : ℝ} (h0 : 0 < m) (hm : 100 * m ≤ p) (hl : p * EPSTOL < m) (hq : 0 < q)
    (hir : ¬(p < EPSTOL * q ∧ m < EPSTOL * q)) : |b0xxAbs p m q - feynB0 p m m q| ≤ 1 / 10 ^ 11 := by
  have hp : 0 < p := by linarith
  unfold b0xxAbs
  rw [if_neg hir, if_neg (by norm_num; linarith), if_neg (by linarith), if_neg (by linarith), if_pos hl]
  dsimp only
  obtain ⟨d, hd⟩ : ∃ d, d = m / p := ⟨_, rfl⟩
  have hd0 : 0 < d := by rw [hd]; positivity
  have hd1 : d ≤ 1 / 100 := by rw [hd, div_le_iff₀ hp]; linarith
  have hd2 : 1 / 10 ^ 15 < d := by rw [hd, lt_div_iff₀ hp]; unfold EPSTOL at hl; linarith
  obtain ⟨b, b0, b1, hb, _, hbp⟩ := small_root hd0.le hd1
  have bp := hbp hd0
  rw [roots_form hp hq (hb.trans hd), ← hd]
  have hlog : log b = log d - log (1 - b) := by
    rw [← hb, log_mul bp.ne' (by linarith)]; ring
  rw [hlog]
  have hL : |log d| ≤ 35 := by
    have hn : log d ≤ 0 := log_nonpos hd0.le (by linarith)
    rw [abs_of_nonpos hn]
    have := log_le_log (by norm_num) hd2.le
    rw [one_div, log_inv, log_pow] at this
    have h10 : log 10 ≤ 7 / 3 := by
      have e : (10:ℝ) = 2 ^ 3 * (5 / 4) := by norm_num
      rw [e, log_mul (by norm_num) (by norm_num), log_pow]
      have h2 := log_two_lt_d9
      have h54 := log_le_sub_one_of_pos (show (0:ℝ) < 5 / 4 by norm_num)
      push_cast; norm_num at *; linarith
    push_cast at this; linarith
  have hr := abs_log_sub_add_sum_range_le (x := b) (by rw [abs_of_nonneg b0]; norm_num at b1; linarith) 8
  rw [abs_of_nonneg b0] at hr
  have b9 : b ^ 9 ≤ (103 / 10000) ^ 9 := pow_le_pow_left₀ b0 b1 9
  have hr2 : b ^ (8 + 1) / (1 - b) ≤ 2 * b ^ 9 := by
    rw [div_le_iff₀ (by norm_num at b1; linarith)]
    have : 0 ≤ b ^ 9 := by positivity
    norm_num at b1 ⊢; nlinarith
  obtain ⟨r, hrr⟩ : ∃ r, r = (∑ i ∈ Finset.range 8, b ^ (i + 1) / ((i : ℝ) + 1)) + log (1 - b) := ⟨_, rfl⟩
  rw [← hrr] at hr
  have hl1 : log (1 - b) = r - (b + b ^ 2 / 2 + b ^ 3 / 3 + b ^ 4 / 4 + b ^ 5 / 5 + b ^ 6 / 6 + b ^ 7 / 7 + b ^ 8 / 8) := by
    rw [hrr]; simp only [Finset.sum_range_succ, Finset.sum_range_zero]; push_cast; ring
  have hdb : d = b * (1 - b) := hb.symm
  obtain ⟨L, hLL⟩ : ∃ L, L = log d := ⟨_, rfl⟩
  rw [← hLL] at hL ⊢
  rw [hl1]
  obtain ⟨R, hR⟩ : ∃ R, R = -1430 + 8008 * b - 19656 * b ^ 2 + 27300 * b ^ 3 - 23100 * b ^ 4 + 11880 * b ^ 5 - 3432 * b ^ 6 + 429 * b ^ 7 := ⟨_, rfl⟩
  obtain ⟨S, hS⟩ : ∃ S, S = 48637/14 - 96411/5 * b + 235542/5 * b ^ 2 - 391559/6 * b ^ 3 + 165428/3 * b ^ 4 - 198375/7 * b ^ 5 + 859394/105 * b ^ 6 - 429697/420 * b ^ 7 := ⟨_, rfl⟩
  have key : (2 - log (p / q) + d * (2 * (1 - L) + d * (-1 - 2 * L + d * (-(10/3) - 4 * L + d * (-(59/6) - 10 * L
      + d * (-(449/15) - 28 * L + d * (-(1417/15) - 84 * L + d * (-(32254/105) - 264 * L
      + d * (-(429697/420) - 858 * L))))))))) - (2 - log (p / q) - 2 * ((1 - b) * (r - (b + b ^ 2 / 2 + b ^ 3 / 3 + b ^ 4 / 4 + b ^ 5 / 5 + b ^ 6 / 6 + b ^ 7 / 7 + b ^ 8 / 8))
        + b * (L - (r - (b + b ^ 2 / 2 + b ^ 3 / 3 + b ^ 4 / 4 + b ^ 5 / 5 + b ^ 6 / 6 + b ^ 7 / 7 + b ^ 8 / 8)))))
      = -2 * L * (b ^ 9 * R) + b ^ 9 * S + 2 * (1 - 2 * b) * r := by
    rw [hdb, hR, hS]; ring
  rw [key]
  have pw : ∀ n : ℕ, b ^ n ≤ 1 := fun n => pow_le_one₀ b0 (by norm_num at b1; linarith)
  have pn : ∀ n : ℕ, 0 ≤ b ^ n := fun n => pow_nonneg b0 n
  have aR : |R| ≤ 10 ^ 5 := by
    rw [abs_le, hR]
    constructor <;> linarith [pw 2, pw 3, pw 4, pw 5, pw 6, pw 7, pn 2, pn 3, pn 4, pn 5, pn 6, pn 7]
  have aS : |S| ≤ 3 * 10 ^ 5 := by
    rw [abs_le, hS]
    constructor <;> linarith [pw 2, pw 3, pw 4, pw 5, pw 6, pw 7, pn 2, pn 3, pn 4, pn 5, pn 6, pn 7]
  have h9 := pn 9
  have t1 : |-2 * L * (b ^ 9 * R)| ≤ 2 * 35 * (b ^ 9 * 10 ^ 5) := by
    rw [abs_mul, abs_mul, abs_mul, abs_of_nonneg h9]
    norm_num at aR ⊢
    gcongr
    linarith
  have t2 : |b ^ 9 * S| ≤ b ^ 9 * (3 * 10 ^ 5) := by
    rw [abs_mul, abs_of_nonneg h9]; gcongr
  have t3 : |2 * (1 - 2 * b) * r| ≤ 2 * (2 * b ^ 9) := by
    rw [abs_mul]
    have : |2 * (1 - 2 * b)| ≤ 2 := by rw [abs_le]; constructor <;> norm_num at b1 <;> linarith
    exact mul_le_mul this (hr.trans hr2) (abs_nonneg _) (by norm_num)
  refine (abs_add_le _ _).trans ((add_le_add_left (abs_add_le _ _) _).trans ?_)
  norm_num at b9 t1 t2 t3 ⊢
  linarith

/-- very large momentum -/
theorem feyn_huge {p m q : ℝ} (hp : 0 < p) (h0 : 0 ≤ m) (hl : m ≤ p * EPSTOL) (hq : 0 < q)
    (hir : ¬(p < EPSTOL * q ∧ m < EPSTOL * q)) : |b0xxAbs p m q - feynB0 p m m q| ≤ 1 / 10 ^ 9 := by
  have hpe : p * EPSTOL ≤ p / 10 ^ 15 := by unfold EPSTOL; apply le_of_eq; ring
  unfold b0xxAbs
  rw [if_neg hir, if_neg (by norm_num at *; linarith), if_neg (by norm_num at *; linarith), if_neg (by norm_num at *; linarith), if_neg (not_lt.2 hl)]
  obtain ⟨d, hd⟩ : ∃ d, d = m / p := ⟨_, rfl⟩
  have hd0 : 0 ≤ d := by rw [hd]; positivity
  have hd1 : d ≤ 1 / 10 ^ 15 := by rw [hd, div_le_iff₀ hp]; linarith
  obtain ⟨b, b0, b1, hb, hbd, _⟩ := small_root hd0 (hd1.trans (by norm_num))
  rw [roots_form hp hq (hb.trans hd)]
  have e : 2 - log (p / q) - (2 - log (p / q) - 2 * ((1 - b) * log (1 - b) + b * log b)) = 2 * ((1 - b) * log (1 - b) + b * log b) := by ring
  rw [e]
  have hb1 : b ≤ 2 / 10 ^ 15 := by linarith
  have l1 : |(1 - b) * log (1 - b)| ≤ 1 / 10 ^ 14 := by
    have hpos : 0 < 1 - b := by norm_num at hb1; linarith
    have hn : log (1 - b) ≤ 0 := log_nonpos hpos.le (by linarith)
    have h2 := log_le_sub_one_of_pos (show 0 < (1 - b)⁻¹ by positivity)
    rw [log_inv] at h2
    rw [abs_of_nonpos (mul_nonpos_of_nonneg_of_nonpos hpos.le hn)]
    have : (1 - b) * -log (1 - b) ≤ (1 - b) * ((1 - b)⁻¹ - 1) := mul_le_mul_of_nonneg_left h2 hpos.le
    have e2 : (1 - b) * ((1 - b)⁻¹ - 1) = b := by field_simp; ring
    norm_num at hb1 ⊢; linarith
  have l2 : |b * log b| ≤ 7 / 10 ^ 11 := by
    rcases eq_or_lt_of_le b0 with h | h
    · rw [← h]; norm_num
    have hn : log b ≤ 0 := log_nonpos b0 (by linarith)
    rw [abs_of_nonpos (mul_nonpos_of_nonneg_of_nonpos b0 hn)]
    have hh : b / 2 ≤ 1 / 10 ^ 15 := by linarith
    have h3 := (mul_log_tiny (by linarith) hh).2
    rw [log_div h.ne' (by norm_num)] at h3
    have h2 : 0 < log 2 := log_pos (by norm_num)
    have : 0 ≤ b * log 2 := mul_nonneg b0 h2.le
    have h4 : b / 2 * -(log b - log 2) = (b * -log b) / 2 + b * log 2 / 2 := by ring
    rw [h4] at h3
    norm_num at h3 ⊢; linarith
  rw [abs_mul]
  have := abs_add_le ((1 - b) * log (1 - b)) (b * log b)
  norm_num at l1 l2 this ⊢
  linarith

end Himalaya.PV
