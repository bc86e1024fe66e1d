import Verif.TLF.RealForm
import Mathlib.Analysis.SpecialFunctions.Log.Deriv

/-!
# The Taylor branches of the one-variable threshold loop functions
-/

set_option linter.unusedSimpArgs false

namespace Himalaya.TLF
open Real

/-- Horner scheme -/
noncomputable def hev : List ℝ → ℝ → ℝ
  | [], _ => 0
  | a :: l, d => a + d * hev l d
/-- bound of the Horner scheme for `|d| ≤ 1/49` -/
noncomputable def habs : List ℝ → ℝ
  | [] => 0
  | a :: l => |a| + 1 / 49 * habs l

theorem horner_le (l : List ℝ) {d : ℝ} (hd : |d| ≤ 1 / 49) : |hev l d| ≤ habs l := by
  induction l with
  | nil => simp [hev, habs]
  | cons a l ih =>
    simp only [hev, habs]
    refine (abs_add_le _ _).trans ?_
    rw [abs_mul]
    have := mul_le_mul hd ih (abs_nonneg _) (by norm_num)
    linarith

theorem log_expand (N : ℕ) {d : ℝ} (h0 : d ≠ 0) (hd : |d| ≤ 1 / 49) :
    ∃ ρ, |ρ| ≤ 49 / 48 ∧ log (1 + d) = ∑ i ∈ Finset.range N, -(-d) ^ (i + 1) / (i + 1) + d ^ (N + 1) * ρ := by
  have h := Real.abs_log_sub_add_sum_range_le (x := -d) (by rw [abs_neg]; linarith) N
  rw [abs_neg, sub_neg_eq_add] at h
  refine ⟨(∑ i ∈ Finset.range N, (-d) ^ (i + 1) / (i + 1) + log (1 + d)) / d ^ (N + 1), ?_, ?_⟩
  · rw [abs_div, abs_pow, div_le_iff₀ (by positivity)]
    refine h.trans ?_
    rw [div_le_iff₀ (by linarith)]
    have : 0 ≤ |d| ^ (N + 1) := by positivity
    nlinarith
  · rw [mul_div_cancel₀ _ (pow_ne_zero _ h0)]
    have : ∑ i ∈ Finset.range N, -(-d) ^ (i + 1) / ((i : ℝ) + 1) = -∑ i ∈ Finset.range N, (-d) ^ (i + 1) / ((i : ℝ) + 1) := by
      rw [← Finset.sum_neg_distrib]; exact Finset.sum_congr rfl fun i _ => by ring
    rw [this]; ring

theorem unit_pos {d : ℝ} (hd : |d| ≤ 1 / 49) : (1.9 : ℝ) ≤ 2 + d := by
  have := (abs_le.1 hd).1; norm_num at this ⊢; linarith

theorem final_bound {d ρ C : ℝ} {Q B : List ℝ} {m k : ℕ} (hd : |d| ≤ 1 / 49) (hρ : |ρ| ≤ 49 / 48)
    (h : habs Q + 1 / 48 * habs B ≤ C * 1.9 ^ k) :
    |d ^ m * (hev Q d + d * hev B d * ρ) / (2 + d) ^ k| ≤ C * |d| ^ m := by
  have hu := unit_pos hd
  have h19 : (0:ℝ) < 1.9 := by norm_num
  have hk : (1.9 : ℝ) ^ k ≤ (2 + d) ^ k := pow_le_pow_left₀ h19.le hu k
  have hk0 : (0:ℝ) < 1.9 ^ k := pow_pos h19 k
  have hB0 : 0 ≤ habs B := (abs_nonneg _).trans (horner_le B hd)
  have h1 : |hev Q d + d * hev B d * ρ| ≤ C * 1.9 ^ k := by
    refine (abs_add_le _ _).trans (le_trans (add_le_add (horner_le Q hd) ?_) h)
    rw [abs_mul, abs_mul]
    have := mul_le_mul (mul_le_mul hd (horner_le B hd) (abs_nonneg _) (by norm_num)) hρ (abs_nonneg _)
      (mul_nonneg (by norm_num) hB0)
    linarith
  have hC : 0 ≤ C := nonneg_of_mul_nonneg_left ((abs_nonneg _).trans h1) hk0
  rw [abs_div, abs_mul, abs_pow, abs_of_pos (hk0.trans_le hk), div_le_iff₀ (hk0.trans_le hk)]
  have hd0 : 0 ≤ |d| ^ m := by positivity
  calc |d| ^ m * |hev Q d + d * hev B d * ρ| ≤ |d| ^ m * (C * 1.9 ^ k) := mul_le_mul_of_nonneg_left h1 hd0
    _ ≤ |d| ^ m * (C * (2 + d) ^ k) := mul_le_mul_of_nonneg_left (mul_le_mul_of_nonneg_left hk hC) hd0
    _ = C * |d| ^ m * (2 + d) ^ k := by ring

/-- Taylor branch of `F1` -/
theorem F1_near {d : ℝ} (h0 : d ≠ 0) (hd : |d| ≤ 1 / 49) :
    |Spec.F1 (1 + d) - (1 + d * (0 + d * ((-1/6) + d * ((1/6) + d * ((-2/15))))))| ≤ (107/1000) * |d| ^ 5 := by
  obtain ⟨ρ, hρ, hl⟩ := log_expand 7 h0 hd
  simp only [Finset.sum_range_succ, Finset.sum_range_zero] at hl
  have hu := unit_pos hd
  have hu' : (2 + d) ≠ 0 := by linarith
  have hq : (1 + d) ^ 2 - 1 = d * (2 + d) := by ring
  have hq' : 1 - (1 + d) ^ 2 = -(d * (2 + d)) := by ring
  have hl2 : Real.log ((1 + d) ^ 2) = 2 * Real.log (1 + d) := by rw [Real.log_pow]; norm_num
  have key : Spec.F1 (1 + d) - (1 + d * (0 + d * ((-1/6) + d * ((1/6) + d * ((-2/15)))))) =
      d ^ 5 * (hev [1/5, -1/21, 2/7] d + d * hev [0, 2, 2] d * ρ) / (2 + d) ^ 1 := by
    rw [Spec.F1, hl2, hl, hq]
    simp only [hev]
    field_simp
    push_cast
    ring
  rw [key]
  exact final_bound hd hρ (by norm_num [habs, abs_of_pos, abs_of_neg])

/-- Taylor branch of `F3` -/
theorem F3_near {d : ℝ} (h0 : d ≠ 0) (hd : |d| ≤ 1 / 49) :
    |Spec.F3 (1 + d) - (1 + d * ((5/9) + d * ((-4/9) + d * ((2/9) + d * ((-7/90))))))| ≤ (7/1000) * |d| ^ 5 := by
  obtain ⟨ρ, hρ, hl⟩ := log_expand 8 h0 hd
  simp only [Finset.sum_range_succ, Finset.sum_range_zero] at hl
  have hu := unit_pos hd
  have hu' : (2 + d) ≠ 0 := by linarith
  have hq : (1 + d) ^ 2 - 1 = d * (2 + d) := by ring
  have hq' : 1 - (1 + d) ^ 2 = -(d * (2 + d)) := by ring
  have hl2 : Real.log ((1 + d) ^ 2) = 2 * Real.log (1 + d) := by rw [Real.log_pow]; norm_num
  have key : Spec.F3 (1 + d) - (1 + d * ((5/9) + d * ((-4/9) + d * ((2/9) + d * ((-7/90)))))) =
      d ^ 5 * (hev [2/105, 38/315, -97/126, -26/21, -2/3] d + d * hev [0, 20/3, 52/3, 16, 16/3] d * ρ) / (2 + d) ^ 2 := by
    rw [Spec.F3, hl2, hl, hq]
    simp only [hev]
    field_simp
    push_cast
    ring
  rw [key]
  exact final_bound hd hρ (by norm_num [habs, abs_of_pos, abs_of_neg])

/-- Taylor branch of `F4` -/
theorem F4_near {d : ℝ} (h0 : d ≠ 0) (hd : |d| ≤ 1 / 49) :
    |Spec.F4 (1 + d) - (1 + d * ((-1/3) + d * (0 + d * ((2/15) + d * ((-1/6))))))| ≤ (22/125) * |d| ^ 5 := by
  obtain ⟨ρ, hρ, hl⟩ := log_expand 8 h0 hd
  simp only [Finset.sum_range_succ, Finset.sum_range_zero] at hl
  have hu := unit_pos hd
  have hu' : (2 + d) ≠ 0 := by linarith
  have hq : (1 + d) ^ 2 - 1 = d * (2 + d) := by ring
  have hq' : 1 - (1 + d) ^ 2 = -(d * (2 + d)) := by ring
  have hl2 : Real.log ((1 + d) ^ 2) = 2 * Real.log (1 + d) := by rw [Real.log_pow]; norm_num
  have key : Spec.F4 (1 + d) - (1 + d * ((-1/3) + d * (0 + d * ((2/15) + d * ((-1/6)))))) =
      d ^ 5 * (hev [22/35, 2/21, 1/2] d + d * hev [0, -4, -4] d * ρ) / (2 + d) ^ 2 := by
    rw [Spec.F4, hl2, hl, hq]
    simp only [hev]
    field_simp
    push_cast
    ring
  rw [key]
  exact final_bound hd hρ (by norm_num [habs, abs_of_pos, abs_of_neg])

/-- Taylor branch of `F5` -/
theorem F5_near {d : ℝ} (h0 : d ≠ 0) (hd : |d| ≤ 1 / 49) :
    |Spec.F5 (1 + d) - (1 + d * (0 + d * ((-3/10) + d * ((3/10) + d * ((-3/14))))))| ≤ (77/500) * |d| ^ 5 := by
  obtain ⟨ρ, hρ, hl⟩ := log_expand 9 h0 hd
  simp only [Finset.sum_range_succ, Finset.sum_range_zero] at hl
  have hu := unit_pos hd
  have hu' : (2 + d) ≠ 0 := by linarith
  have hq : (1 + d) ^ 2 - 1 = d * (2 + d) := by ring
  have hq' : 1 - (1 + d) ^ 2 = -(d * (2 + d)) := by ring
  have hl2 : Real.log ((1 + d) ^ 2) = 2 * Real.log (1 + d) := by rw [Real.log_pow]; norm_num
  have key : Spec.F5 (1 + d) - (1 + d * (0 + d * ((-3/10) + d * ((3/10) + d * ((-3/14)))))) =
      d ^ 5 * (hev [36/35, 106/105, -1, -5/2, -4/3] d + d * hev [0, -12, -36, -36, -12] d * ρ) / (2 + d) ^ 3 := by
    rw [Spec.F5, hl2, hl, hq']
    simp only [hev]
    field_simp
    push_cast
    ring
  rw [key]
  exact final_bound hd hρ (by norm_num [habs, abs_of_pos, abs_of_neg])

/-- Taylor branch of `F2` -/
theorem F2_near {x d : ℝ} (hx : x ^ 2 = 1 + d) (h0 : d ≠ 0) (hd : |d| ≤ 1 / 49) :
    |Spec.F2 x - (1 + d * (0 + d * ((-1/10) + d * ((1/10) + d * ((-3/35))))))| ≤ (79/1000) * |d| ^ 5 := by
  obtain ⟨ρ, hρ, hl⟩ := log_expand 9 h0 hd
  simp only [Finset.sum_range_succ, Finset.sum_range_zero] at hl
  have hx4 : x ^ 4 = (1 + d) ^ 2 := by rw [← hx]; ring
  have hq : (1 + d) - 1 = d := by ring
  have hq' : 1 - (1 + d) = -d := by ring
  have key : Spec.F2 x - (1 + d * (0 + d * ((-1/10) + d * ((1/10) + d * ((-3/35)))))) =
      d ^ 5 * (hev [1/14, -5/84, 5/4, 2/3] d + d * hev [0, 12, 18, 6] d * ρ) / (2 + d) ^ 0 := by
    simp only [Spec.F2, hx4, hx, hq, hq', hl]
    simp only [hev]
    field_simp
    push_cast
    ring
  rw [key]
  exact final_bound hd hρ (by norm_num [habs, abs_of_pos, abs_of_neg])

/-- Taylor branch of `F6` -/
theorem F6_near {x d : ℝ} (hx : x ^ 2 = 1 + d) (h0 : d ≠ 0) (hd : |d| ≤ 1 / 49) :
    |Spec.F6 x - (0 + d * ((1/3) + d * ((-1/8) + d * ((1/15) + d * ((1/24))))))| ≤ (17/200) * |d| ^ 4 := by
  obtain ⟨ρ, hρ, hl⟩ := log_expand 7 h0 hd
  simp only [Finset.sum_range_succ, Finset.sum_range_zero] at hl
  have hx4 : x ^ 4 = (1 + d) ^ 2 := by rw [← hx]; ring
  have hq : (1 + d) - 1 = d := by ring
  have hq' : 1 - (1 + d) = -d := by ring
  have key : Spec.F6 x - (0 + d * ((1/3) + d * ((-1/8) + d * ((1/15) + d * ((1/24)))))) =
      d ^ 4 * (hev [-1/12, 1/35, -1/12, 1/14] d + d * hev [0, -1/2, 0, 1/2] d * ρ) / (2 + d) ^ 0 := by
    simp only [Spec.F6, hx4, hx, hq, hq', hl]
    simp only [hev]
    field_simp
    push_cast
    ring
  rw [key]
  exact final_bound hd hρ (by norm_num [habs, abs_of_pos, abs_of_neg])

/-- Taylor branch of `F7` -/
theorem F7_near {x d : ℝ} (hx : x ^ 2 = 1 + d) (h0 : d ≠ 0) (hd : |d| ≤ 1 / 49) :
    |Spec.F7 x - (1 + d * ((3/2) + d * ((-9/20) + d * ((1/5) + d * ((-3/28))))))| ≤ (69/1000) * |d| ^ 5 := by
  obtain ⟨ρ, hρ, hl⟩ := log_expand 9 h0 hd
  simp only [Finset.sum_range_succ, Finset.sum_range_zero] at hl
  have hx4 : x ^ 4 = (1 + d) ^ 2 := by rw [← hx]; ring
  have hq : (1 + d) - 1 = d := by ring
  have hq' : 1 - (1 + d) = -d := by ring
  have key : Spec.F7 x - (1 + d * ((3/2) + d * ((-9/20) + d * ((1/5) + d * ((-3/28)))))) =
      d ^ 5 * (hev [9/140, -1/24, -4/7, -3/8, 1/3] d + d * hev [0, -6, -9, 0, 3] d * ρ) / (2 + d) ^ 0 := by
    simp only [Spec.F7, hx4, hx, hq, hq', hl]
    simp only [hev]
    field_simp
    push_cast
    ring
  rw [key]
  exact final_bound hd hρ (by norm_num [habs, abs_of_pos, abs_of_neg])

/-- Taylor branch of `f1` -/
theorem f1_near {x d : ℝ} (hx : x ^ 2 = 1 + d) (h0 : d ≠ 0) (hd : |d| ≤ 1 / 49) :
    |Spec.f1 x - (1 + d * ((4/7) + d * ((-13/70) + d * ((3/35) + d * ((-23/490))))))| ≤ (31/1000) * |d| ^ 5 := by
  obtain ⟨ρ, hρ, hl⟩ := log_expand 9 h0 hd
  simp only [Finset.sum_range_succ, Finset.sum_range_zero] at hl
  have hx4 : x ^ 4 = (1 + d) ^ 2 := by rw [← hx]; ring
  have hq : (1 + d) - 1 = d := by ring
  have hq' : 1 - (1 + d) = -d := by ring
  have key : Spec.f1 x - (1 + d * ((4/7) + d * ((-13/70) + d * ((3/35) + d * ((-23/490)))))) =
      d ^ 5 * (hev [1/35, -11/588, -97/294, -25/84, 2/21] d + d * hev [0, -24/7, -6, -12/7, 6/7] d * ρ) / (2 + d) ^ 0 := by
    simp only [Spec.f1, hx4, hx, hq, hq', hl]
    simp only [hev]
    field_simp
    push_cast
    ring
  rw [key]
  exact final_bound hd hρ (by norm_num [habs, abs_of_pos, abs_of_neg])

/-- Taylor branch of `f2` -/
theorem f2_near {x d : ℝ} (hx : x ^ 2 = 1 + d) (h0 : d ≠ 0) (hd : |d| ≤ 1 / 49) :
    |Spec.f2 x - (1 + d * ((16/27) + d * ((-49/270) + d * ((11/135) + d * ((-83/1890))))))| ≤ (29/1000) * |d| ^ 5 := by
  obtain ⟨ρ, hρ, hl⟩ := log_expand 9 h0 hd
  simp only [Finset.sum_range_succ, Finset.sum_range_zero] at hl
  have hx4 : x ^ 4 = (1 + d) ^ 2 := by rw [← hx]; ring
  have hq : (1 + d) - 1 = d := by ring
  have hq' : 1 - (1 + d) = -d := by ring
  have key : Spec.f2 x - (1 + d * ((16/27) + d * ((-49/270) + d * ((11/135) + d * ((-83/1890)))))) =
      d ^ 5 * (hev [5/189, -13/756, -289/1134, -61/324, 10/81] d + d * hev [0, -8/3, -38/9, -4/9, 10/9] d * ρ) / (2 + d) ^ 0 := by
    simp only [Spec.f2, hx4, hx, hq, hq', hl]
    simp only [hev]
    field_simp
    push_cast
    ring
  rw [key]
  exact final_bound hd hρ (by norm_num [habs, abs_of_pos, abs_of_neg])

/-- Taylor branch of `f3` -/
theorem f3_near {x d : ℝ} (hx : x ^ 2 = 1 + d) (h0 : d ≠ 0) (hd : |d| ≤ 1 / 49) :
    |Spec.f3 x - (1 + d * ((2/9) + d * ((1/90) + d * ((-2/45) + d * ((29/630))))))| ≤ (23/500) * |d| ^ 5 := by
  obtain ⟨ρ, hρ, hl⟩ := log_expand 9 h0 hd
  simp only [Finset.sum_range_succ, Finset.sum_range_zero] at hl
  have hx4 : x ^ 4 = (1 + d) ^ 2 := by rw [← hx]; ring
  have hq : (1 + d) - 1 = d := by ring
  have hq' : 1 - (1 + d) = -d := by ring
  have key : Spec.f3 x - (1 + d * ((2/9) + d * ((1/90) + d * ((-2/45) + d * ((29/630)))))) =
      d ^ 5 * (hev [-13/315, 1/28, -157/189, -41/108, 2/27] d + d * hev [0, -8, -34/3, -8/3, 2/3] d * ρ) / (2 + d) ^ 0 := by
    simp only [Spec.f3, hx4, hx, hq, hq', hl]
    simp only [hev]
    field_simp
    push_cast
    ring
  rw [key]
  exact final_bound hd hρ (by norm_num [habs, abs_of_pos, abs_of_neg])

/-- Taylor branch of `f4` -/
theorem f4_near {x d : ℝ} (hx : x ^ 2 = 1 + d) (h0 : d ≠ 0) (hd : |d| ≤ 1 / 49) :
    |Spec.f4 x - (1 + d * ((2/21) + d * ((13/210) + d * ((-8/105) + d * ((101/1470))))))| ≤ (13/200) * |d| ^ 5 := by
  obtain ⟨ρ, hρ, hl⟩ := log_expand 9 h0 hd
  simp only [Finset.sum_range_succ, Finset.sum_range_zero] at hl
  have hx4 : x ^ 4 = (1 + d) ^ 2 := by rw [← hx]; ring
  have hq : (1 + d) - 1 = d := by ring
  have hq' : 1 - (1 + d) = -d := by ring
  have key : Spec.f4 x - (1 + d * ((2/21) + d * ((13/210) + d * ((-8/105) + d * ((101/1470)))))) =
      d ^ 5 * (hev [-43/735, 29/588, -472/441, -137/252, 2/63] d + d * hev [0, -72/7, -106/7, -32/7, 2/7] d * ρ) / (2 + d) ^ 0 := by
    simp only [Spec.f4, hx4, hx, hq, hq', hl]
    simp only [hev]
    field_simp
    push_cast
    ring
  rw [key]
  exact final_bound hd hρ (by norm_num [habs, abs_of_pos, abs_of_neg])

/-- Taylor branch of `F6` -/
theorem F6_near_correct {x d : ℝ} (hx : x ^ 2 = 1 + d) (h0 : d ≠ 0) (hd : |d| ≤ 1 / 49) :
    |Spec.F6 x - (0 + d * ((1/3) + d * ((-1/8) + d * ((1/15) + d * ((-1/24))))))| ≤ (3/100) * |d| ^ 5 := by
  obtain ⟨ρ, hρ, hl⟩ := log_expand 8 h0 hd
  simp only [Finset.sum_range_succ, Finset.sum_range_zero] at hl
  have hx4 : x ^ 4 = (1 + d) ^ 2 := by rw [← hx]; ring
  have hq : (1 + d) - 1 = d := by ring
  have hq' : 1 - (1 + d) = -d := by ring
  have key : Spec.F6 x - (0 + d * ((1/3) + d * ((-1/8) + d * ((1/15) + d * ((-1/24)))))) =
      d ^ 5 * (hev [1/35, -1/48, 1/14, -1/16] d + d * hev [0, -1/2, 0, 1/2] d * ρ) / (2 + d) ^ 0 := by
    simp only [Spec.F6, hx4, hx, hq, hq', hl]
    simp only [hev]
    field_simp
    push_cast
    ring
  rw [key]
  exact final_bound hd hρ (by norm_num [habs, abs_of_pos, abs_of_neg])

end Himalaya.TLF
