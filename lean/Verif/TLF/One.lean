import Verif.TLF.Near
import Verif.Base.Dbl
import Mathlib.Analysis.SpecialFunctions.Log.NegMulLog
import Mathlib.Analysis.SpecialFunctions.Pow.Real

/-!
# C32: the one-variable threshold loop functions
-/

set_option linter.unusedSimpArgs false

namespace Himalaya.TLF
open Real Filter Topology

/-! ### small arguments -/

theorem mul_log_small {y s : ℝ} (h0 : 0 < y) (h1 : y ≤ 1) (hs : 0 ≤ s) (hy : y ≤ s ^ 4) : y * |log y| ≤ 4 * s ^ 3 := by
  set u := y ^ ((1:ℝ)/4) with hu
  have hu0 : 0 < u := rpow_pos_of_pos h0 _
  have hu4 : u ^ 4 = y := by
    rw [hu, ← rpow_natCast, ← rpow_mul h0.le]; norm_num
  have hus : u ≤ s := by
    rw [← hu4] at hy
    exact le_of_pow_le_pow_left₀ (by norm_num) hs hy
  have h2 := (Real.abs_log_mul_self_rpow_lt y (1/4) h0 h1 (by norm_num)).le
  rw [abs_mul, abs_of_pos (show 0 < y ^ ((1:ℝ)/4) from hu0), ← hu] at h2
  norm_num at h2
  have h3 : u ^ 3 ≤ s ^ 3 := pow_le_pow_left₀ hu0.le hus 3
  have : y * |log y| = u ^ 3 * (|log y| * u) := by rw [← hu4]; ring
  rw [this]
  have h4 : 0 ≤ |log y| * u := by positivity
  have h5 : 0 ≤ u ^ 3 := by positivity
  nlinarith

/-- `x log x²` is below `10⁻¹⁰` for `|x| ≤ 2⁻⁵²` -/
theorem xlog_small {x : ℝ} (h0 : x ≠ 0) (hx : |x| ≤ 1 / 2 ^ 52) : |x * log (x ^ 2)| ≤ 1 / 10 ^ 10 := by
  have h1 : 0 < |x| := abs_pos.2 h0
  have h2 := mul_log_small h1 (hx.trans (by norm_num)) (s := 1 / 2 ^ 13) (by norm_num) (by norm_num at hx ⊢; linarith)
  rw [log_pow, abs_mul, abs_mul, ← log_abs x]
  norm_num at h2 ⊢
  nlinarith [abs_nonneg (log |x|)]

/-- `q log q` for `q ≤ s⁴` with `q = x²` -/
theorem qlog_small {x s : ℝ} (h0 : x ≠ 0) (hs : 0 ≤ s) (hs1 : s ≤ 1) (hx : x ^ 2 ≤ s ^ 4) : |x ^ 2 * log (x ^ 2)| ≤ 4 * s ^ 3 := by
  have h1 : 0 < x ^ 2 := by positivity
  rw [abs_mul, abs_of_pos h1]
  exact mul_log_small h1 (hx.trans (pow_le_one₀ hs hs1)) hs hx

theorem quot_small {N D b : ℝ} (k : ℕ) (hD : 1 / 2 ≤ |D|) (hN : |N| ≤ b / 2 ^ k) : |N / D ^ k| ≤ b := by
  have hp : (0:ℝ) < |D| ^ k := pow_pos (by linarith) k
  rw [abs_div, abs_pow, div_le_iff₀ hp]
  have h1 : (1 / 2 : ℝ) ^ k ≤ |D| ^ k := pow_le_pow_left₀ (by norm_num) hD k
  have hb : 0 ≤ b := by
    have := (abs_nonneg N).trans hN
    rw [le_div_iff₀ (by positivity)] at this; linarith
  calc |N| ≤ b / 2 ^ k := hN
    _ = b * (1 / 2) ^ k := by rw [div_pow, one_pow]; ring
    _ ≤ b * |D| ^ k := mul_le_mul_of_nonneg_left h1 hb

theorem lin_small {x a P Q A B p r b : ℝ} (hx : |x| ≤ A) (ha : |a| ≤ B) (hP : |P| ≤ p) (hQ : |Q| ≤ r) (h : A * p + B * r ≤ b) :
    |x * P + a * Q| ≤ b := by
  refine (abs_add_le _ _).trans (le_trans ?_ h)
  rw [abs_mul, abs_mul]
  exact add_le_add (mul_le_mul hx hP (abs_nonneg _) ((abs_nonneg _).trans hx)) (mul_le_mul ha hQ (abs_nonneg _) ((abs_nonneg _).trans ha))

section zero
variable {x : ℝ} (h0 : x ≠ 0) (hx : |x| ≤ 1 / 2 ^ 52)
include h0 hx

theorem sq_tiny : 0 < x ^ 2 ∧ x ^ 2 ≤ 1 / 10 ^ 15 ∧ 1 / 2 ≤ |x ^ 2 - 1| ∧ x ^ 2 - 1 ≠ 0 := by
  have h1 : x ^ 2 ≤ (1 / 2 ^ 52) ^ 2 := by rw [← sq_abs]; exact pow_le_pow_left₀ (abs_nonneg _) hx 2
  have h2 : 0 < x ^ 2 := by positivity
  norm_num at h1
  refine ⟨h2, by linarith, ?_, by linarith⟩
  rw [abs_sub_comm, abs_of_nonneg (by linarith)]; linarith

theorem F1_zero : |Spec.F1 x - 0| ≤ 1 / 10 ^ 9 := by
  obtain ⟨q0, q1, hD, hne⟩ := sq_tiny h0 hx
  have ha := xlog_small h0 hx
  have : Spec.F1 x - 0 = (x * 0 + (x * log (x ^ 2)) * 1) / (x ^ 2 - 1) ^ 1 := by rw [Spec.F1]; field_simp; ring
  rw [this]
  exact quot_small 1 hD (lin_small hx ha (p := 0) (r := 1) (by norm_num) (by norm_num) (by norm_num))

theorem F2_zero : |Spec.F2 x - 0| ≤ 1 / 10 ^ 9 := by
  obtain ⟨q0, q1, hD, hne⟩ := sq_tiny h0 hx
  have ha := xlog_small h0 hx
  have : Spec.F2 x - 0 = (x * (6 * x * (2 - 2 * x ^ 2)) + (x * log (x ^ 2)) * (6 * x * (1 + x ^ 2))) / (x ^ 2 - 1) ^ 3 := by
    rw [Spec.F2]; field_simp; ring
  rw [this]
  have hx1 : |x| ≤ 1 := hx.trans (by norm_num)
  refine quot_small 3 hD (lin_small hx ha (p := 12) (r := 1) ?_ ?_ (by norm_num))
  · rw [abs_mul, abs_mul, abs_of_nonneg (by linarith : (0:ℝ) ≤ 2 - 2 * x ^ 2)]; norm_num; nlinarith [abs_nonneg x]
  · have hx2 : |x| ≤ 1 / 100 := hx.trans (by norm_num)
    rw [abs_mul, abs_mul, abs_of_nonneg (by linarith : (0:ℝ) ≤ 1 + x ^ 2)]; norm_num; nlinarith [abs_nonneg x]

theorem F3_zero : |Spec.F3 x - 0| ≤ 1 / 10 ^ 9 := by
  obtain ⟨q0, q1, hD, hne⟩ := sq_tiny h0 hx
  have ha := xlog_small h0 hx
  have : Spec.F3 x - 0 = (x * (10 / 3 * (1 - x ^ 2)) + (x * log (x ^ 2)) * (2 / 3 * (1 + 4 * x ^ 2))) / (x ^ 2 - 1) ^ 2 := by
    rw [Spec.F3]; field_simp; ring
  rw [this]
  refine quot_small 2 hD (lin_small hx ha (p := 4) (r := 1) ?_ ?_ (by norm_num))
  · rw [abs_of_nonneg (by linarith)]; linarith
  · rw [abs_of_nonneg (by linarith)]; linarith

theorem F4_zero : |Spec.F4 x - 0| ≤ 1 / 10 ^ 9 := by
  obtain ⟨q0, q1, hD, hne⟩ := sq_tiny h0 hx
  have ha := xlog_small h0 hx
  have : Spec.F4 x - 0 = (x * (2 * (x ^ 2 - 1)) + (x * log (x ^ 2)) * (-2)) / (x ^ 2 - 1) ^ 2 := by
    rw [Spec.F4]; field_simp; ring
  rw [this]
  refine quot_small 2 hD (lin_small hx ha (p := 2) (r := 2) ?_ ?_ (by norm_num))
  · rw [abs_of_nonpos (by linarith)]; linarith
  · norm_num

theorem F5_zero : |Spec.F5 x - 0| ≤ 1 / 10 ^ 9 := by
  obtain ⟨q0, q1, hD, hne⟩ := sq_tiny h0 hx
  have ha := xlog_small h0 hx
  have hne' : 1 - x ^ 2 ≠ 0 := by intro h; apply hne; linarith
  have : Spec.F5 x - 0 = (x * (-3 * (1 - x ^ 4)) + (x * log (x ^ 2)) * (-6 * x ^ 2)) / (x ^ 2 - 1) ^ 3 := by
    rw [Spec.F5, show 1 - x ^ 2 = -(x ^ 2 - 1) by ring]; field_simp; ring
  rw [this]
  have h4 : x ^ 4 = (x ^ 2) ^ 2 := by ring
  refine quot_small 3 hD (lin_small hx ha (p := 3) (r := 1) ?_ ?_ (by norm_num))
  · rw [h4, abs_of_nonpos (by nlinarith)]; nlinarith
  · rw [abs_of_nonpos (by linarith)]; linarith

theorem F6_zero : |Spec.F6 x - (-3 / 4)| ≤ 1 / 10 ^ 9 := by
  obtain ⟨q0, q1, hD, hne⟩ := sq_tiny h0 hx
  have ha := xlog_small h0 hx
  have : Spec.F6 x - (-3 / 4) = (x * (x * (x ^ 2 - 1) / 2) + (x * log (x ^ 2)) * (x * (x ^ 2 - 2) / 2)) / (x ^ 2 - 1) ^ 2 := by
    rw [Spec.F6, show 1 - x ^ 2 = -(x ^ 2 - 1) by ring]; field_simp; ring
  rw [this]
  have hx1 : |x| ≤ 1 := hx.trans (by norm_num)
  refine quot_small 2 hD (lin_small hx ha (p := 1) (r := 1) ?_ ?_ (by norm_num))
  · rw [abs_div, abs_mul, abs_of_nonpos (by linarith : x ^ 2 - 1 ≤ 0)]; norm_num; nlinarith [abs_nonneg x]
  · rw [abs_div, abs_mul, abs_of_nonpos (by linarith : x ^ 2 - 2 ≤ 0)]; norm_num; nlinarith [abs_nonneg x]

theorem F7_zero : |Spec.F7 x - (-3 / 2)| ≤ 1 / 10 ^ 9 := by
  obtain ⟨q0, q1, hD, hne⟩ := sq_tiny h0 hx
  have ha := xlog_small h0 hx
  have : Spec.F7 x - (-3 / 2) = (x * (6 * x * (x ^ 2 - 1)) + (x * log (x ^ 2)) * (3 * x * x ^ 2 * (x ^ 2 - 3))) / (x ^ 2 - 1) ^ 3 := by
    rw [Spec.F7]; field_simp; ring
  rw [this]
  have hx1 : |x| ≤ 1 := hx.trans (by norm_num)
  refine quot_small 3 hD (lin_small hx ha (p := 6) (r := 1) ?_ ?_ (by norm_num))
  · rw [abs_mul, abs_mul, abs_of_nonpos (by linarith : x ^ 2 - 1 ≤ 0)]; norm_num; nlinarith [abs_nonneg x]
  · rw [abs_mul, abs_mul, abs_mul, abs_of_nonpos (by linarith : x ^ 2 - 3 ≤ 0), abs_of_pos q0]; norm_num
    have h1 : |x| * x ^ 2 ≤ 1 / 10 ^ 15 := by nlinarith [abs_nonneg x]
    have h2 : 0 ≤ |x| * x ^ 2 := by positivity
    nlinarith
end zero

/-- common part of the small-argument expansions of `f1`, `f2`, `f3`, `f4` -/
theorem small_quot {x s N P Q c : ℝ} (k : ℕ) (h0 : x ≠ 0) (hs : 0 ≤ s) (hs1 : s ≤ 1 / 10) (hx : x ^ 2 ≤ s ^ 4)
    (hN : N = (x ^ 2) ^ k * (x ^ 2 * P + (x ^ 2 * log (x ^ 2)) * Q)) (hP : |P| ≤ c) (hQ : |Q| ≤ c) :
    |N / (x ^ 2 - 1) ^ 3| ≤ 1.1 * s ^ (4 * k) * (c * (s ^ 4 + 4 * s ^ 3)) := by
  have hq0 : 0 < x ^ 2 := by positivity
  have hs4 : s ^ 4 ≤ 1 / 10 ^ 4 := by
    have := pow_le_pow_left₀ hs hs1 4; norm_num at this ⊢; linarith
  have hD : (0.999:ℝ) ≤ 1 - x ^ 2 := by norm_num at hs4 ⊢; linarith
  have hl := qlog_small h0 hs (by linarith) hx
  have h1 : |x ^ 2 * P + (x ^ 2 * log (x ^ 2)) * Q| ≤ c * (s ^ 4 + 4 * s ^ 3) :=
    lin_small (A := s ^ 4) (by rw [abs_of_pos hq0]; exact hx) hl hP hQ (by linarith)
  have h2 : |(x ^ 2) ^ k| ≤ s ^ (4 * k) := by
    rw [abs_of_pos (by positivity), pow_mul]; exact pow_le_pow_left₀ hq0.le hx k
  have hD3 : (0.999:ℝ) ^ 3 ≤ |(x ^ 2 - 1) ^ 3| := by
    rw [abs_pow, abs_sub_comm, abs_of_pos (by linarith [hD] : 0 < 1 - x ^ 2)]
    exact pow_le_pow_left₀ (by norm_num) hD 3
  rw [abs_div, div_le_iff₀ ((show (0:ℝ) < 0.999 ^ 3 by norm_num).trans_le hD3), hN, abs_mul]
  have h3 := mul_le_mul h2 h1 (abs_nonneg _) (by positivity)
  have h4 : 0 ≤ s ^ (4 * k) * (c * (s ^ 4 + 4 * s ^ 3)) := (mul_nonneg (abs_nonneg _) (abs_nonneg _)).trans h3
  have h5 : (1:ℝ) ≤ 1.1 * |(x ^ 2 - 1) ^ 3| := by norm_num at hD3 ⊢; linarith
  calc _ ≤ s ^ (4 * k) * (c * (s ^ 4 + 4 * s ^ 3)) := h3
    _ ≤ s ^ (4 * k) * (c * (s ^ 4 + 4 * s ^ 3)) * (1.1 * |(x ^ 2 - 1) ^ 3|) := le_mul_of_one_le_right h4 h5
    _ = _ := by ring

theorem sq_le_of_abs {x a : ℝ} (h : |x| ≤ a) : x ^ 2 ≤ a ^ 2 := by
  rw [← sq_abs]; exact pow_le_pow_left₀ (abs_nonneg _) h 2

theorem f1_zero {x : ℝ} (h0 : x ≠ 0) (hx : |x| < 1 / 100) :
    |Spec.f1 x - x ^ 2 * (18 / 7 + 6 / 7 * x ^ 2 * (7 + 5 * log (x ^ 2)))| ≤ 1 / 10 ^ 9 := by
  have hq := sq_le_of_abs hx.le
  have hq0 : 0 < x ^ 2 := by positivity
  have hne : x ^ 2 - 1 ≠ 0 := by norm_num at hq; linarith
  have e : Spec.f1 x - x ^ 2 * (18 / 7 + 6 / 7 * x ^ 2 * (7 + 5 * log (x ^ 2))) =
      ((x ^ 2) ^ 2 * (x ^ 2 * ((-66 + 108 * x ^ 2 - 42 * (x ^ 2) ^ 2) / 7) +
        (x ^ 2 * log (x ^ 2)) * ((-84 + 90 * x ^ 2 - 30 * (x ^ 2) ^ 2) / 7))) / (x ^ 2 - 1) ^ 3 := by
    rw [Spec.f1]; field_simp; ring
  rw [e]
  norm_num at hq
  refine (small_quot 2 h0 (s := 1 / 10) (by norm_num) (by norm_num) (by norm_num; linarith) rfl (c := 12) ?_ ?_).trans (by norm_num)
  · rw [abs_le]; constructor <;> nlinarith
  · rw [abs_le]; constructor <;> nlinarith

theorem f2_zero {x : ℝ} (h0 : x ≠ 0) (hx : |x| < 1 / 100) :
    |Spec.f2 x - x ^ 2 * (22 / 9 + 2 / 9 * x ^ 2 * (23 + 17 * log (x ^ 2)))| ≤ 1 / 10 ^ 9 := by
  have hq := sq_le_of_abs hx.le
  have hq0 : 0 < x ^ 2 := by positivity
  have hne : x ^ 2 - 1 ≠ 0 := by norm_num at hq; linarith
  have e : Spec.f2 x - x ^ 2 * (22 / 9 + 2 / 9 * x ^ 2 * (23 + 17 * log (x ^ 2))) =
      ((x ^ 2) ^ 2 * (x ^ 2 * ((-70 + 116 * x ^ 2 - 46 * (x ^ 2) ^ 2) / 9) +
        (x ^ 2 * log (x ^ 2)) * ((-92 + 102 * x ^ 2 - 34 * (x ^ 2) ^ 2) / 9))) / (x ^ 2 - 1) ^ 3 := by
    rw [Spec.f2]; field_simp; ring
  rw [e]
  norm_num at hq
  refine (small_quot 2 h0 (s := 1 / 10) (by norm_num) (by norm_num) (by norm_num; linarith) rfl (c := 12) ?_ ?_).trans (by norm_num)
  · rw [abs_le]; constructor <;> nlinarith
  · rw [abs_le]; constructor <;> nlinarith

theorem f3_zero {x : ℝ} (h0 : x ≠ 0) (hx : |x| ≤ 1 / 1000000) :
    |Spec.f3 x - (4 / 3 + 2 / 3 * x ^ 2 * (13 + 6 * log (x ^ 2)))| ≤ 1 / 10 ^ 9 := by
  have hq := sq_le_of_abs hx
  have hq0 : 0 < x ^ 2 := by positivity
  have hne : x ^ 2 - 1 ≠ 0 := by norm_num at hq; linarith
  have e : Spec.f3 x - (4 / 3 + 2 / 3 * x ^ 2 * (13 + 6 * log (x ^ 2))) =
      ((x ^ 2) ^ 1 * (x ^ 2 * ((-50 + 76 * x ^ 2 - 26 * (x ^ 2) ^ 2) / 3) +
        (x ^ 2 * log (x ^ 2)) * ((-50 + 38 * x ^ 2 - 12 * (x ^ 2) ^ 2) / 3))) / (x ^ 2 - 1) ^ 3 := by
    rw [Spec.f3]; field_simp; ring
  rw [e]
  norm_num at hq
  refine (small_quot 1 h0 (s := 1 / 1000) (by norm_num) (by norm_num) (by norm_num; linarith) rfl (c := 40) ?_ ?_).trans (by norm_num)
  · rw [abs_le]; constructor <;> nlinarith
  · rw [abs_le]; constructor <;> nlinarith

theorem f4_zero {x : ℝ} (h0 : x ≠ 0) (hx : |x| ≤ 1 / 1000000) :
    |Spec.f4 x - (12 / 7 + 2 / 7 * x ^ 2 * (37 + 18 * log (x ^ 2)))| ≤ 1 / 10 ^ 9 := by
  have hq := sq_le_of_abs hx
  have hq0 : 0 < x ^ 2 := by positivity
  have hne : x ^ 2 - 1 ≠ 0 := by norm_num at hq; linarith
  have e : Spec.f4 x - (12 / 7 + 2 / 7 * x ^ 2 * (37 + 18 * log (x ^ 2))) =
      ((x ^ 2) ^ 1 * (x ^ 2 * ((-146 + 220 * x ^ 2 - 74 * (x ^ 2) ^ 2) / 7) +
        (x ^ 2 * log (x ^ 2)) * ((-146 + 110 * x ^ 2 - 36 * (x ^ 2) ^ 2) / 7))) / (x ^ 2 - 1) ^ 3 := by
    rw [Spec.f4]; field_simp; ring
  rw [e]
  norm_num at hq
  refine (small_quot 1 h0 (s := 1 / 1000) (by norm_num) (by norm_num) (by norm_num; linarith) rfl (c := 40) ?_ ?_).trans (by norm_num)
  · rw [abs_le]; constructor <;> nlinarith
  · rw [abs_le]; constructor <;> nlinarith

/-! ### accuracy for every argument -/

theorem pow_small {d : ℝ} {k : ℕ} {η C b : ℝ} (hd : |d| ≤ η) (hC : 0 ≤ C) (h : C * η ^ k ≤ b) : C * |d| ^ k ≤ b :=
  (mul_le_mul_of_nonneg_left (pow_le_pow_left₀ (abs_nonneg _) hd k) hC).trans h

theorem sq_near {x : ℝ} (h : |x - 1| ≤ 1 / 100) : |x ^ 2 - 1| ≤ 201 / 10000 := by
  have := abs_le.1 h
  rw [abs_le]; constructor <;> nlinarith

theorem abs_near {x : ℝ} (h : |(|x| - 1)| ≤ 1 / 100) : |x ^ 2 - 1| ≤ 201 / 10000 := by
  rw [← sq_abs]; exact sq_near h

theorem Spec.F5_neg (x : ℝ) : Spec.F5 (-x) = -Spec.F5 x := by
  simp only [Spec.F5, neg_sq, show (-x) ^ 4 = x ^ 4 by ring]; ring

theorem F1_acc {x : ℝ} (h0 : x ≠ 0) (h1 : x ^ 2 ≠ 1) : |F1 x - Spec.F1 x| ≤ 1 / 10 ^ 9 := by
  have hx1 : x - 1 ≠ 0 := by intro h; apply h1; rw [sub_eq_zero.1 h]; norm_num
  rw [F1_real, abs_sub_comm]
  split_ifs with a b
  · exact F1_zero h0 a
  · have := F1_near hx1 (b.trans (by norm_num))
    rw [add_sub_cancel] at this
    exact this.trans (pow_small b (by norm_num) (by norm_num))
  · simp

theorem F3_acc {x : ℝ} (h0 : x ≠ 0) (h1 : x ^ 2 ≠ 1) : |F3 x - Spec.F3 x| ≤ 1 / 10 ^ 9 := by
  have hx1 : x - 1 ≠ 0 := by intro h; apply h1; rw [sub_eq_zero.1 h]; norm_num
  rw [F3_real, abs_sub_comm]
  split_ifs with a b
  · exact F3_zero h0 a
  · have := F3_near hx1 (b.trans (by norm_num))
    rw [add_sub_cancel] at this
    exact this.trans (pow_small b (by norm_num) (by norm_num))
  · simp

theorem F4_acc {x : ℝ} (h0 : x ≠ 0) (h1 : x ^ 2 ≠ 1) : |F4 x - Spec.F4 x| ≤ 1 / 10 ^ 9 := by
  have hx1 : x - 1 ≠ 0 := by intro h; apply h1; rw [sub_eq_zero.1 h]; norm_num
  rw [F4_real, abs_sub_comm]
  split_ifs with a b
  · exact F4_zero h0 a
  · have := F4_near hx1 (b.trans (by norm_num))
    rw [add_sub_cancel] at this
    exact this.trans (pow_small b (by norm_num) (by norm_num))
  · simp

theorem F5_acc {x : ℝ} (h0 : x ≠ 0) (h1 : x ^ 2 ≠ 1) : |F5 x - Spec.F5 x| ≤ 1 / 10 ^ 9 := by
  have hx1 : x - 1 ≠ 0 := by intro h; apply h1; rw [sub_eq_zero.1 h]; norm_num
  have hx2 : -x - 1 ≠ 0 := by intro h; apply h1; rw [show x = -1 by linarith]; norm_num
  rw [F5_real, abs_sub_comm]
  split_ifs with a b c
  · exact F5_zero h0 a
  · have := F5_near hx1 (b.trans (by norm_num))
    rw [add_sub_cancel] at this
    exact this.trans (pow_small b (by norm_num) (by norm_num))
  · have c' : |-x - 1| ≤ 1 / 100 := by rw [← abs_neg]; convert c using 2; ring
    have := F5_near hx2 (c'.trans (by norm_num))
    rw [add_sub_cancel, Spec.F5_neg] at this
    rw [← abs_neg]
    refine le_trans (le_of_eq ?_) (this.trans (pow_small c' (by norm_num) (by norm_num)))
    congr 1; ring
  · simp

theorem F2_acc {x : ℝ} (h0 : x ≠ 0) (h1 : x ^ 2 ≠ 1) : |F2 x - Spec.F2 x| ≤ 1 / 10 ^ 9 := by
  have hx1 : x ^ 2 - 1 ≠ 0 := sub_ne_zero.2 h1
  rw [F2_real, abs_sub_comm]
  split_ifs with a b
  · exact F2_zero h0 a
  · replace b := sq_near b
    have := F2_near (add_sub_cancel _ _).symm hx1 (b.trans (by norm_num))
    exact this.trans (pow_small b (by norm_num) (by norm_num))
  · simp

theorem F6_acc {x : ℝ} (h0 : x ≠ 0) (h1 : x ^ 2 ≠ 1) : |F6 x - Spec.F6 x| ≤ 1 / 10 ^ 9 := by
  have hx1 : x ^ 2 - 1 ≠ 0 := sub_ne_zero.2 h1
  rw [F6_real, abs_sub_comm]
  split_ifs with a b
  · exact F6_zero h0 a
  · have := F6_near (add_sub_cancel _ _).symm hx1 (b.trans (by norm_num))
    exact this.trans (pow_small b (by norm_num) (by norm_num))
  · simp

theorem F7_acc {x : ℝ} (h0 : x ≠ 0) (h1 : x ^ 2 ≠ 1) : |F7 x - Spec.F7 x| ≤ 1 / 10 ^ 9 := by
  have hx1 : x ^ 2 - 1 ≠ 0 := sub_ne_zero.2 h1
  rw [F7_real, abs_sub_comm]
  split_ifs with a b
  · exact F7_zero h0 a
  · have := F7_near (add_sub_cancel _ _).symm hx1 (b.trans (by norm_num))
    exact this.trans (pow_small b (by norm_num) (by norm_num))
  · simp

theorem f1_acc {x : ℝ} (h0 : x ≠ 0) (h1 : x ^ 2 ≠ 1) : |f1 x - Spec.f1 x| ≤ 1 / 10 ^ 9 := by
  have hx1 : x ^ 2 - 1 ≠ 0 := sub_ne_zero.2 h1
  rw [f1_real, abs_sub_comm]
  split_ifs with a b
  · exact f1_zero h0 a
  · replace b := abs_near b
    have := f1_near (add_sub_cancel _ _).symm hx1 (b.trans (by norm_num))
    exact this.trans (pow_small b (by norm_num) (by norm_num))
  · simp

theorem f2_acc {x : ℝ} (h0 : x ≠ 0) (h1 : x ^ 2 ≠ 1) : |f2 x - Spec.f2 x| ≤ 1 / 10 ^ 9 := by
  have hx1 : x ^ 2 - 1 ≠ 0 := sub_ne_zero.2 h1
  rw [f2_real, abs_sub_comm]
  split_ifs with a b
  · exact f2_zero h0 a
  · replace b := abs_near b
    have := f2_near (add_sub_cancel _ _).symm hx1 (b.trans (by norm_num))
    exact this.trans (pow_small b (by norm_num) (by norm_num))
  · simp

theorem f3_acc {x : ℝ} (h0 : x ≠ 0) (h1 : x ^ 2 ≠ 1) : |f3 x - Spec.f3 x| ≤ 1 / 10 ^ 9 := by
  have hx1 : x ^ 2 - 1 ≠ 0 := sub_ne_zero.2 h1
  rw [f3_real, abs_sub_comm]
  split_ifs with a b
  · exact f3_zero h0 a
  · replace b := abs_near b
    have := f3_near (add_sub_cancel _ _).symm hx1 (b.trans (by norm_num))
    exact this.trans (pow_small b (by norm_num) (by norm_num))
  · simp

theorem f4_acc {x : ℝ} (h0 : x ≠ 0) (h1 : x ^ 2 ≠ 1) : |f4 x - Spec.f4 x| ≤ 1 / 10 ^ 9 := by
  have hx1 : x ^ 2 - 1 ≠ 0 := sub_ne_zero.2 h1
  rw [f4_real, abs_sub_comm]
  split_ifs with a b
  · exact f4_zero h0 a
  · replace b := abs_near b
    have := f4_near (add_sub_cancel _ _).symm hx1 (b.trans (by norm_num))
    exact this.trans (pow_small b (by norm_num) (by norm_num))
  · simp


end Himalaya.TLF
