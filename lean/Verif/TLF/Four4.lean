import Verif.TLF.Four3

/-!
# C32: `f5 … f8`, accuracy
-/

set_option linter.unusedSimpArgs false
set_option linter.unusedVariables false
set_option linter.unusedSectionVars false

namespace Himalaya.TLF
open Real

theorem f6I_spec {r s : ℝ} (hr : r ≠ 0) (hs : s ≠ 0) (hr1 : r ^ 2 ≠ 1) (hs1 : s ^ 2 ≠ 1) (hrs : r ≠ s) : Spec.f6I r s = Spec.f6 r s :=
  (f6_int hr hs hr1 hs1 hrs).symm
theorem f7I_spec {r s : ℝ} (hr : r ≠ 0) (hs : s ≠ 0) (hr1 : r ^ 2 ≠ 1) (hs1 : s ^ 2 ≠ 1) (hrs : r ≠ s) : Spec.f7I r s = Spec.f7 r s :=
  (f7_int hr hs hr1 hs1 hrs).symm
theorem f8I_spec {r s : ℝ} (hr : r ≠ 0) (hs : s ≠ 0) (hr1 : r ^ 2 ≠ 1) (hs1 : s ^ 2 ≠ 1) (hrs : r ≠ s) : Spec.f8I r s = Spec.f8 r s :=
  (f8_int hr hs hr1 hs1 hrs).symm
theorem f5I_eq {r s : ℝ} (hr : r ≠ 0) (hs : s ≠ 0) : Spec.f5I r s = 7 / 8 * Spec.f6I r s + 1 / 8 * Spec.f7I r s := by
  have hp : 0 < r ^ 2 := by positivity
  have hq : 0 < s ^ 2 := by positivity
  have e6 : Spec.f6I r s = 6 / 7 * J (fun t => (1 - t) * ((1 - t) * (r ^ 2 + r * s + s ^ 2) + t * r ^ 2 * s ^ 2) / (D (r ^ 2) t * D (s ^ 2) t)) := rfl
  have e7 : Spec.f7I r s = 6 * J (fun t => (1 - t) * ((1 - t) - t * r * s) / (D (r ^ 2) t * D (s ^ 2) t)) := rfl
  have e5 : Spec.f5I r s = 3 / 4 * J (fun t => (1 - t) * ((1 - t) * (r ^ 2 + r * s + s ^ 2 + 1) + t * r * s * (r * s - 1)) / (D (r ^ 2) t * D (s ^ 2) t)) := rfl
  have e : J (fun t => (1 - t) * ((1 - t) * (r ^ 2 + r * s + s ^ 2 + 1) + t * r * s * (r * s - 1)) / (D (r ^ 2) t * D (s ^ 2) t)) =
      J (fun t => (1 - t) * ((1 - t) * (r ^ 2 + r * s + s ^ 2) + t * r ^ 2 * s ^ 2) / (D (r ^ 2) t * D (s ^ 2) t)) +
      J (fun t => (1 - t) * ((1 - t) - t * r * s) / (D (r ^ 2) t * D (s ^ 2) t)) := by
    rw [← J_add (by c0) (by c0)]
    apply J_congr
    intro t ht
    rw [← add_div]; congr 1; ring
  rw [e5, e6, e7, e]; ring
theorem f5I_spec {r s : ℝ} (hr : r ≠ 0) (hs : s ≠ 0) (hr1 : r ^ 2 ≠ 1) (hs1 : s ^ 2 ≠ 1) (hrs : r ≠ s) : Spec.f5I r s = Spec.f5 r s := by
  rw [f5I_eq hr hs, f6I_spec hr hs hr1 hs1 hrs, f7I_spec hr hs hr1 hs1 hrs, f5_eq hr1 hs1 hrs]

theorem Spec.f5I_symm (r s : ℝ) : Spec.f5I r s = Spec.f5I s r := by
  unfold Spec.f5I; congr 2; funext t; rw [mul_comm (Spec.den (r ^ 2) t)]; ring
theorem Spec.f6I_symm (r s : ℝ) : Spec.f6I r s = Spec.f6I s r := by
  unfold Spec.f6I; congr 2; funext t; rw [mul_comm (Spec.den (r ^ 2) t)]; ring
theorem Spec.f7I_symm (r s : ℝ) : Spec.f7I r s = Spec.f7I s r := by
  unfold Spec.f7I; congr 2; funext t; rw [mul_comm (Spec.den (r ^ 2) t)]; ring
theorem Spec.f8I_symm (r s : ℝ) : Spec.f8I r s = Spec.f8I s r := by
  unfold Spec.f8I; congr 2; funext t; rw [mul_comm (Spec.den (r ^ 2) t)]; ring
theorem Spec.f5I_neg (r s : ℝ) : Spec.f5I (-r) (-s) = Spec.f5I r s := by
  unfold Spec.f5I; simp only [neg_sq, mul_neg, neg_mul, neg_neg]
theorem Spec.f6I_neg (r s : ℝ) : Spec.f6I (-r) (-s) = Spec.f6I r s := by
  unfold Spec.f6I; simp only [neg_sq, mul_neg, neg_mul, neg_neg]
theorem Spec.f7I_neg (r s : ℝ) : Spec.f7I (-r) (-s) = Spec.f7I r s := by
  unfold Spec.f7I; simp only [neg_sq, mul_neg, neg_mul, neg_neg]
theorem Spec.f8I_neg (r s : ℝ) : Spec.f8I (-r) (-s) = -Spec.f8I r s := by
  unfold Spec.f8I
  rw [← mul_neg, ← intervalIntegral.integral_neg]
  congr 2; funext t; rw [neg_sq, neg_sq]; ring

theorem sq1 {r : ℝ} (h : r ≠ 1) (h' : r ≠ -1) : r ^ 2 ≠ 1 := by
  intro e
  have : (r - 1) * (r + 1) = 0 := by linear_combination e
  rcases mul_eq_zero.1 this with e | e
  · exact h (by linarith)
  · exact h' (by linarith)
theorem ne1 {r ρ : ℝ} (hρ : 0 ≤ ρ) (h : ¬ |r - 1| ≤ ρ) : r ≠ 1 := by
  rintro rfl; apply h; rw [sub_self, abs_zero]; exact hρ
theorem ners {r s : ℝ} (h : ¬ |r - s| ≤ 1 / 10000) : r ≠ s := by
  rintro rfl; apply h; rw [sub_self, abs_zero]; norm_num

theorem f5_real (r s : ℝ) : f5 r s =
    if |r| ≤ 1 / 10000 ∧ |s| ≤ 1 / 10000 then f5_0_0 r s
    else if |r - 1| ≤ 1 / 100 ∧ |s - 1| ≤ 1 / 100 then f5_1_1 r s
    else if |r - -1| ≤ 1 / 100 ∧ |s - -1| ≤ 1 / 100 then f5_1_1 (-r) (-s)
    else if |r - 1| ≤ 1 / 100 then f5_1_r2 r s
    else if |s - 1| ≤ 1 / 100 then f5_1_r2 s r
    else if |r| ≤ 1 / 10000 then f5_0_r2 r s
    else if |s| ≤ 1 / 10000 then f5_0_r2 s r
    else if |r - s| ≤ 1 / 10000 then f5_r1_r2 s r
    else Spec.f5 r s := by
  simp only [f5, isZero_real, isEqual_real, real_ofNat, real_lit, decide_eq_true_eq, sqr, cube, quad, pow5, real_log, real_abs, Bool.and_eq_true, Spec.f5]
  push_cast
  simp only [← pow_two]
  split_ifs <;> ring_nf

theorem f6_real (r s : ℝ) : f6 r s =
    if |r| ≤ 1 / 10000 ∧ |s| ≤ 1 / 10000 then f6_0_0 r s
    else if |r - 1| ≤ 1 / 50 ∧ |s - 1| ≤ 1 / 50 then f6_1_1 r s
    else if |r - -1| ≤ 1 / 50 ∧ |s - -1| ≤ 1 / 50 then f6_1_1 (-r) (-s)
    else if |r - 1| ≤ 1 / 1000 then f6_1_r2 r s
    else if |s - 1| ≤ 1 / 1000 then f6_1_r2 s r
    else if |r| ≤ 1 / 10000 then f6_0_r2 r s
    else if |s| ≤ 1 / 10000 then f6_0_r2 s r
    else if |r - s| ≤ 1 / 10000 then f6_r1_r2 s r
    else Spec.f6 r s := by
  simp only [f6, isZero_real, isEqual_real, real_ofNat, real_lit, decide_eq_true_eq, sqr, cube, quad, pow5, real_log, real_abs, Bool.and_eq_true, Spec.f6]
  push_cast
  simp only [← pow_two]
  split_ifs <;> ring_nf

theorem f7_real (r s : ℝ) : f7 r s =
    if |r| ≤ 1 / 10000 ∧ |s| ≤ 1 / 10000 then f7_0_0 r s
    else if |r - 1| ≤ 1 / 50 ∧ |s - 1| ≤ 1 / 50 then f7_1_1 r s
    else if |r - -1| ≤ 1 / 50 ∧ |s - -1| ≤ 1 / 50 then f7_1_1 (-r) (-s)
    else if |r - 1| ≤ 1 / 50 then f7_1_r2 r s
    else if |s - 1| ≤ 1 / 50 then f7_1_r2 s r
    else if |r| ≤ 1 / 10000 then f7_0_r2 r s
    else if |s| ≤ 1 / 10000 then f7_0_r2 s r
    else if |r - s| ≤ 1 / 10000 then f7_r1_r2 s r
    else Spec.f7 r s := by
  simp only [f7, isZero_real, isEqual_real, real_ofNat, real_lit, decide_eq_true_eq, sqr, cube, quad, pow5, real_log, real_abs, Bool.and_eq_true, Spec.f7]
  push_cast
  simp only [← pow_two]
  split_ifs <;> ring_nf

theorem f8_real (r s : ℝ) : f8 r s =
    if |r| ≤ 1 / 20000 ∧ |s| ≤ 1 / 20000 then f8_0_0 r s
    else if |r - 1| ≤ 1 / 100 ∧ |s - 1| ≤ 1 / 100 then f8_1_1 r s
    else if |r - -1| ≤ 1 / 100 ∧ |s - -1| ≤ 1 / 100 then -1
    else if |r - 1| ≤ 1 / 100 then f8_1_r2 r s
    else if |s - 1| ≤ 1 / 100 then f8_1_r2 s r
    else if |r| ≤ 1 / 20000 then f8_0_r2 r s
    else if |s| ≤ 1 / 20000 then f8_0_r2 s r
    else if |r - s| ≤ 1 / 10000 then f8_r1_r2 s r
    else Spec.f8 r s := by
  simp only [f8, isZero_real, isEqual_real, real_ofNat, real_lit, decide_eq_true_eq, sqr, cube, quad, pow5, real_log, real_abs, Bool.and_eq_true, Spec.f8]
  push_cast
  simp only [← pow_two]
  split_ifs <;> ring_nf

section acc
variable {r s : ℝ} (hr : r ≠ 0) (hs : s ≠ 0)
include hr hs

theorem f6_11_spec {ρ : ℝ} (a : |r - 1| ≤ ρ) (b : |s - 1| ≤ ρ) (hρ : ρ ≤ 1 / 49) :
    |Spec.f6I r s - 6 / 7 * hsum (U6 (r - 1) (s - 1)) (fun n => 1 / ((n : ℝ) + 1)) 0| ≤ 6 / 7 * (49 * ρ ^ 5) := by
  have h := U6_close a b hρ
  simp only [add_sub_cancel] at h
  rw [show Spec.f6I r s = 6 / 7 * J (fun t => (1 - t) * ((1 - t) * (r ^ 2 + r * s + s ^ 2) + t * r ^ 2 * s ^ 2) / (D (r ^ 2) t * D (s ^ 2) t)) from rfl, ← mul_sub, abs_mul, abs_of_pos (show (0:ℝ) < 6 / 7 by norm_num)]
  exact mul_le_mul_of_nonneg_left h (by norm_num)

theorem f6_1r_spec (a : |r - 1| ≤ 1 / 49) :
    |Spec.f6I r s - 6 / 7 * hsum (T6 s (r - 1)) (M (s ^ 2)) 0| ≤ 6 / 7 * (65 * |r - 1| ^ 5) := by
  have h := T6_close hs a
  simp only [add_sub_cancel] at h
  rw [show Spec.f6I r s = 6 / 7 * J (fun t => (1 - t) * ((1 - t) * (r ^ 2 + r * s + s ^ 2) + t * r ^ 2 * s ^ 2) / (D (r ^ 2) t * D (s ^ 2) t)) from rfl, ← mul_sub, abs_mul, abs_of_pos (show (0:ℝ) < 6 / 7 by norm_num)]
  exact mul_le_mul_of_nonneg_left h (by norm_num)

theorem f7_11_spec {ρ : ℝ} (a : |r - 1| ≤ ρ) (b : |s - 1| ≤ ρ) (hρ : ρ ≤ 1 / 49) :
    |Spec.f7I r s - 6 * hsum (U7 (r - 1) (s - 1)) (fun n => 1 / ((n : ℝ) + 1)) 0| ≤ 6 * (31 * ρ ^ 5) := by
  have h := U7_close a b hρ
  simp only [add_sub_cancel] at h
  rw [show Spec.f7I r s = 6 * J (fun t => (1 - t) * ((1 - t) - t * r * s) / (D (r ^ 2) t * D (s ^ 2) t)) from rfl, ← mul_sub, abs_mul, abs_of_pos (show (0:ℝ) < 6 by norm_num)]
  exact mul_le_mul_of_nonneg_left h (by norm_num)

theorem f7_1r_spec (a : |r - 1| ≤ 1 / 49) :
    |Spec.f7I r s - 6 * hsum (T7 s (r - 1)) (M (s ^ 2)) 0| ≤ 6 * (15 * |r - 1| ^ 5) := by
  have h := T7_close hs a
  simp only [add_sub_cancel] at h
  rw [show Spec.f7I r s = 6 * J (fun t => (1 - t) * ((1 - t) - t * r * s) / (D (r ^ 2) t * D (s ^ 2) t)) from rfl, ← mul_sub, abs_mul, abs_of_pos (show (0:ℝ) < 6 by norm_num)]
  exact mul_le_mul_of_nonneg_left h (by norm_num)

theorem f8_11_spec {ρ : ℝ} (a : |r - 1| ≤ ρ) (b : |s - 1| ≤ ρ) (hρ : ρ ≤ 1 / 49) :
    |Spec.f8I r s - 3 / 2 * hsum (U8 (r - 1) (s - 1)) (fun n => 1 / ((n : ℝ) + 1)) 0| ≤ 3 / 2 * (31 * ρ ^ 5) := by
  have h := U8_close a b hρ
  simp only [add_sub_cancel] at h
  rw [show Spec.f8I r s = 3 / 2 * J (fun t => (1 - t) * ((1 - t) * (r + s)) / (D (r ^ 2) t * D (s ^ 2) t)) from rfl, ← mul_sub, abs_mul, abs_of_pos (show (0:ℝ) < 3 / 2 by norm_num)]
  exact mul_le_mul_of_nonneg_left h (by norm_num)

theorem f8_1r_spec (a : |r - 1| ≤ 1 / 49) :
    |Spec.f8I r s - 3 / 2 * hsum (T8 s (r - 1)) (M (s ^ 2)) 0| ≤ 3 / 2 * (20 * |r - 1| ^ 5) := by
  have h := T8_close hs a
  simp only [add_sub_cancel] at h
  rw [show Spec.f8I r s = 3 / 2 * J (fun t => (1 - t) * ((1 - t) * (r + s)) / (D (r ^ 2) t * D (s ^ 2) t)) from rfl, ← mul_sub, abs_mul, abs_of_pos (show (0:ℝ) < 3 / 2 by norm_num)]
  exact mul_le_mul_of_nonneg_left h (by norm_num)

theorem f6_eq_spec3 (hs1 : s ^ 2 ≠ 1) (a : |(r - s) / s| ≤ 1 / 49) :
    |Spec.f6I r s - 6 / 7 * (s ^ 2 * hsum (V6a (s ^ 2) ((r - s) / s)) (In (s ^ 2)) 0)| ≤
      6 / 7 * (|s ^ 2| * (80 * |(r - s) / s| ^ 4)) := by
  have h := V6_close3 hs hs1 a
  have e : s * (1 + (r - s) / s) = r := by field_simp; ring
  simp only [e] at h
  rw [show Spec.f6I r s = 6 / 7 * J (fun t => (1 - t) * ((1 - t) * (r ^ 2 + r * s + s ^ 2) + t * r ^ 2 * s ^ 2) / (D (r ^ 2) t * D (s ^ 2) t)) from rfl, ← mul_sub, abs_mul, abs_of_pos (show (0:ℝ) < 6 / 7 by norm_num)]
  exact mul_le_mul_of_nonneg_left h (by norm_num)

theorem f6_eq_spec (hs1 : s ^ 2 ≠ 1) (a : |(r - s) / s| ≤ 1 / 49) :
    |Spec.f6I r s - 6 / 7 * (s ^ 2 * hsum (padd (V6a (s ^ 2) ((r - s) / s)) (V6b (s ^ 2) ((r - s) / s))) (In (s ^ 2)) 0)| ≤
      6 / 7 * (|s ^ 2| * (80 * |(r - s) / s| ^ 5)) := by
  have h := V6_close hs hs1 a
  have e : s * (1 + (r - s) / s) = r := by field_simp; ring
  simp only [e] at h
  rw [show Spec.f6I r s = 6 / 7 * J (fun t => (1 - t) * ((1 - t) * (r ^ 2 + r * s + s ^ 2) + t * r ^ 2 * s ^ 2) / (D (r ^ 2) t * D (s ^ 2) t)) from rfl, ← mul_sub, abs_mul, abs_of_pos (show (0:ℝ) < 6 / 7 by norm_num)]
  exact mul_le_mul_of_nonneg_left h (by norm_num)

theorem f7_eq_spec3 (hs1 : s ^ 2 ≠ 1) (a : |(r - s) / s| ≤ 1 / 49) :
    |Spec.f7I r s - 6 * (1 * hsum (V7a (s ^ 2) ((r - s) / s)) (In (s ^ 2)) 0)| ≤
      6 * (|1| * (25 * |(r - s) / s| ^ 4)) := by
  have h := V7_close3 hs hs1 a
  have e : s * (1 + (r - s) / s) = r := by field_simp; ring
  simp only [e] at h
  rw [show Spec.f7I r s = 6 * J (fun t => (1 - t) * ((1 - t) - t * r * s) / (D (r ^ 2) t * D (s ^ 2) t)) from rfl, ← mul_sub, abs_mul, abs_of_pos (show (0:ℝ) < 6 by norm_num)]
  exact mul_le_mul_of_nonneg_left h (by norm_num)

theorem f7_eq_spec (hs1 : s ^ 2 ≠ 1) (a : |(r - s) / s| ≤ 1 / 49) :
    |Spec.f7I r s - 6 * (1 * hsum (padd (V7a (s ^ 2) ((r - s) / s)) (V7b (s ^ 2) ((r - s) / s))) (In (s ^ 2)) 0)| ≤
      6 * (|1| * (25 * |(r - s) / s| ^ 5)) := by
  have h := V7_close hs hs1 a
  have e : s * (1 + (r - s) / s) = r := by field_simp; ring
  simp only [e] at h
  rw [show Spec.f7I r s = 6 * J (fun t => (1 - t) * ((1 - t) - t * r * s) / (D (r ^ 2) t * D (s ^ 2) t)) from rfl, ← mul_sub, abs_mul, abs_of_pos (show (0:ℝ) < 6 by norm_num)]
  exact mul_le_mul_of_nonneg_left h (by norm_num)

theorem f8_eq_spec (hs1 : s ^ 2 ≠ 1) (a : |(r - s) / s| ≤ 1 / 49) :
    |Spec.f8I r s - 3 / 2 * (s * hsum (padd (V8a (s ^ 2) ((r - s) / s)) (V8b (s ^ 2) ((r - s) / s))) (In (s ^ 2)) 0)| ≤
      3 / 2 * (|s| * (25 * |(r - s) / s| ^ 5)) := by
  have h := V8_close hs hs1 a
  have e : s * (1 + (r - s) / s) = r := by field_simp; ring
  simp only [e] at h
  rw [show Spec.f8I r s = 3 / 2 * J (fun t => (1 - t) * ((1 - t) * (r + s)) / (D (r ^ 2) t * D (s ^ 2) t)) from rfl, ← mul_sub, abs_mul, abs_of_pos (show (0:ℝ) < 3 / 2 by norm_num)]
  exact mul_le_mul_of_nonneg_left h (by norm_num)

theorem f6_11_acc (a : |r - 1| ≤ 1 / 50) (b : |s - 1| ≤ 1 / 50) : |f6_1_1 r s - Spec.f6I r s| ≤ 1 / 10 ^ 6 := by
  have h := f6_11_spec hr hs a b (by norm_num)
  have k := f6_1_1_code (r := r) (s := s) (a.trans (by norm_num)) (b.trans (by norm_num))
  simp only at k
  norm_num at h k ⊢
  rw [abs_le] at *
  constructor <;> linarith [h.1, h.2, k.1, k.2]

theorem f6_1r_acc (hs1 : s ^ 2 ≠ 1) (a : |r - 1| ≤ 1 / 1000) (b : ¬ |s| ≤ 1 / 10000) : |f6_1_r2 r s - Spec.f6I r s| ≤ 1 / 10 ^ 6 := by
  have h := f6_1r_spec hr hs (a.trans (by norm_num))
  rw [f6_1_r2_code hs hs1 b, abs_sub_comm]
  have h2 : (65:ℝ) * |r - 1| ^ 5 ≤ 1 / 10 ^ 7 := pow_small a (by norm_num) (by norm_num)
  norm_num at h2 h ⊢
  linarith

theorem f7_11_acc (a : |r - 1| ≤ 1 / 50) (b : |s - 1| ≤ 1 / 50) : |f7_1_1 r s - Spec.f7I r s| ≤ 1 / 10 ^ 6 := by
  have h := f7_11_spec hr hs a b (by norm_num)
  have k := f7_1_1_code (r := r) (s := s) (a.trans (by norm_num)) (b.trans (by norm_num))
  simp only at k
  norm_num at h k ⊢
  rw [abs_le] at *
  constructor <;> linarith [h.1, h.2, k.1, k.2]

theorem f7_1r_acc (hs1 : s ^ 2 ≠ 1) (a : |r - 1| ≤ 1 / 50) (b : ¬ |s| ≤ 1 / 10000) : |f7_1_r2 r s - Spec.f7I r s| ≤ 1 / 10 ^ 6 := by
  have h := f7_1r_spec hr hs (a.trans (by norm_num))
  rw [f7_1_r2_code hs hs1 b, abs_sub_comm]
  have h2 : (15:ℝ) * |r - 1| ^ 5 ≤ 1 / 10 ^ 7 := pow_small a (by norm_num) (by norm_num)
  norm_num at h2 h ⊢
  linarith

theorem f8_11_acc (a : |r - 1| ≤ 1 / 100) (b : |s - 1| ≤ 1 / 100) : |f8_1_1 r s - Spec.f8I r s| ≤ 1 / 10 ^ 6 := by
  have h := f8_11_spec hr hs a b (by norm_num)
  have k := f8_1_1_code (r := r) (s := s) (a.trans (by norm_num)) (b.trans (by norm_num))
  simp only at k
  norm_num at h k ⊢
  rw [abs_le] at *
  constructor <;> linarith [h.1, h.2, k.1, k.2]

theorem f8_1r_acc (hs1 : s ^ 2 ≠ 1) (a : |r - 1| ≤ 1 / 100) (b : ¬ |s| ≤ 1 / 10000) : |f8_1_r2 r s - Spec.f8I r s| ≤ 1 / 10 ^ 6 := by
  have h := f8_1r_spec hr hs (a.trans (by norm_num))
  rw [f8_1_r2_code hs hs1 b, abs_sub_comm]
  have h2 : (20:ℝ) * |r - 1| ^ 5 ≤ 1 / 10 ^ 7 := pow_small a (by norm_num) (by norm_num)
  norm_num at h2 h ⊢
  linarith

omit hr in
theorem e_small (a : |s - r| ≤ 1 / 10000) (b : 1 / 100 < |s|) :
    |(r - s) / s| ≤ 1 / 100 ∧ |s| * |(r - s) / s| ≤ 1 / 10000 ∧ |s ^ 2| * |(r - s) / s| ^ 2 ≤ 1 / 10 ^ 8 := by
  have h0 : 0 < |s| := abs_pos.2 hs
  rw [abs_div, abs_sub_comm r s]
  have h1 : |s| * (|s - r| / |s|) = |s - r| := by field_simp
  refine ⟨?_, ?_, ?_⟩
  · rw [div_le_iff₀ h0]; linarith
  · rw [h1]; exact a
  · rw [abs_pow, ← mul_pow, h1]
    calc |s - r| ^ 2 ≤ (1 / 10000) ^ 2 := pow_le_pow_left₀ (abs_nonneg _) a 2
      _ = _ := by norm_num

theorem f6_eq_acc (hs1 : s ^ 2 ≠ 1) (a : |s - r| ≤ 1 / 10000) (b : 1 / 100 < |s|) : |f6_r1_r2 r s - Spec.f6I r s| ≤ 1 / 10 ^ 6 := by
  obtain ⟨h1, h2, h3⟩ := e_small hs a b
  have h := f6_eq_spec hr hs hs1 (h1.trans (by norm_num))
  rw [f6_r1_r2_code hs hs1, abs_sub_comm]
  refine h.trans ?_
  have h4 : |(r - s) / s| ^ 3 ≤ 1 := pow_le_one₀ (abs_nonneg _) (h1.trans (by norm_num))
  have h5 := mul_le_mul h3 h4 (by positivity) (by positivity)
  have e : |s ^ 2| * (80 * |(r - s) / s| ^ 5) = 80 * (|s ^ 2| * |(r - s) / s| ^ 2 * |(r - s) / s| ^ 3) := by ring
  rw [e]
  norm_num at h5 ⊢
  linarith

theorem f7_eq_acc (hs1 : s ^ 2 ≠ 1) (a : |s - r| ≤ 1 / 10000) (b : 1 / 100 < |s|) : |f7_r1_r2 r s - Spec.f7I r s| ≤ 1 / 10 ^ 6 := by
  obtain ⟨h1, h2, h3⟩ := e_small hs a b
  have h := f7_eq_spec hr hs hs1 (h1.trans (by norm_num))
  rw [f7_r1_r2_code hs hs1, abs_sub_comm]
  refine h.trans ?_
  have h5 : |(r - s) / s| ^ 5 ≤ (1 / 100) ^ 5 := pow_le_pow_left₀ (abs_nonneg _) h1 5
  rw [abs_one, one_mul]
  norm_num at h5 ⊢
  linarith

theorem f8_eq_acc (hs1 : s ^ 2 ≠ 1) (a : |s - r| ≤ 1 / 10000) (b : 1 / 100 < |s|) : |f8_r1_r2 r s - Spec.f8I r s| ≤ 1 / 10 ^ 6 := by
  obtain ⟨h1, h2, h3⟩ := e_small hs a b
  have h := f8_eq_spec hr hs hs1 (h1.trans (by norm_num))
  rw [f8_r1_r2_code hs hs1, abs_sub_comm]
  refine h.trans ?_
  have h4 : |(r - s) / s| ^ 4 ≤ (1 / 100) ^ 4 := pow_le_pow_left₀ (abs_nonneg _) h1 4
  have h5 := mul_le_mul h2 h4 (by positivity) (by positivity)
  have e : |s| * (25 * |(r - s) / s| ^ 5) = 25 * (|s| * |(r - s) / s| * |(r - s) / s| ^ 4) := by ring
  rw [e]
  norm_num at h5 ⊢
  linarith

theorem f5_eq_acc (hs1 : s ^ 2 ≠ 1) (a : |s - r| ≤ 1 / 10000) (b : 1 / 100 < |s|) : |f5_r1_r2 r s - Spec.f5I r s| ≤ 1 / 10 ^ 6 := by
  obtain ⟨h1, h2, h3⟩ := e_small hs a b
  have h6 := f6_eq_spec3 hr hs hs1 (h1.trans (by norm_num))
  have h7 := f7_eq_spec3 hr hs hs1 (h1.trans (by norm_num))
  rw [f5_r1_r2_code hs hs1, f5I_eq hr hs]
  have k4 : |(r - s) / s| ^ 2 ≤ (1 / 100) ^ 2 := pow_le_pow_left₀ (abs_nonneg _) h1 2
  have k5 := mul_le_mul h3 k4 (by positivity) (by positivity)
  have e : |s ^ 2| * (80 * |(r - s) / s| ^ 4) = 80 * (|s ^ 2| * |(r - s) / s| ^ 2 * |(r - s) / s| ^ 2) := by ring
  rw [e] at h6
  have k6 : |(r - s) / s| ^ 4 ≤ (1 / 100) ^ 4 := pow_le_pow_left₀ (abs_nonneg _) h1 4
  rw [abs_one, one_mul] at h7
  generalize |s ^ 2| * |(r - s) / s| ^ 2 * |(r - s) / s| ^ 2 = X at *
  generalize |(r - s) / s| ^ 4 = Y at *
  norm_num at k5 k6 h6 h7 ⊢
  rw [abs_le] at *
  constructor <;> linarith [h6.1, h6.2, h7.1, h7.2]

theorem f5_11_acc (a : |r - 1| ≤ 1 / 100) (b : |s - 1| ≤ 1 / 100) : |f5_1_1 r s - Spec.f5I r s| ≤ 1 / 10 ^ 6 := by
  have h6 := f6_11_spec hr hs a b (by norm_num)
  have h7 := f7_11_spec hr hs a b (by norm_num)
  have k := f5_1_1_code (r := r) (s := s) (a.trans (by norm_num)) (b.trans (by norm_num))
  simp only at k
  rw [f5I_eq hr hs]
  norm_num at h6 h7 k ⊢
  rw [abs_le] at *
  constructor <;> linarith [h6.1, h6.2, h7.1, h7.2, k.1, k.2]

theorem f5_1r_acc (hs1 : s ^ 2 ≠ 1) (a : |r - 1| ≤ 1 / 100) (b : ¬ |s| ≤ 1 / 100) : |f5_1_r2 r s - Spec.f5I r s| ≤ 1 / 10 ^ 6 := by
  have h6 := f6_1r_spec hr hs (a.trans (by norm_num))
  have h7 := f7_1r_spec hr hs (a.trans (by norm_num))
  rw [f5_1_r2_code hs hs1 b, f5I_eq hr hs]
  have k6 : (65:ℝ) * |r - 1| ^ 5 ≤ 1 / 10 ^ 7 := pow_small a (by norm_num) (by norm_num)
  have k7 : (15:ℝ) * |r - 1| ^ 5 ≤ 1 / 10 ^ 8 := pow_small a (by norm_num) (by norm_num)
  norm_num at h6 h7 k6 k7 ⊢
  rw [abs_le] at *
  constructor <;> linarith [h6.1, h6.2, h7.1, h7.2]

/-- `f8` close to `(-1,-1)` -/
theorem f8_neg_acc (a : |r - -1| ≤ 1 / 100) (b : |s - -1| ≤ 1 / 100) : |-1 - Spec.f8I r s| ≤ 4 / 10 ^ 5 := by
  have ha : |-r - 1| ≤ 1 / 100 := by rw [← abs_neg]; rwa [show -(-r - 1) = r - -1 by ring]
  have hb : |-s - 1| ≤ 1 / 100 := by rw [← abs_neg]; rwa [show -(-s - 1) = s - -1 by ring]
  have h := f8_11_acc (neg_ne_zero.2 hr) (neg_ne_zero.2 hs) ha hb
  rw [Spec.f8I_neg] at h
  have k : |f8_1_1 (-r) (-s) - 1| ≤ 35 / 10 ^ 6 := by
    simp only [f8_1_1, real_ofNat, sqr]
    push_cast
    generalize -r - 1 = a at *
    generalize -s - 1 = b at *
    rw [show ∀ x y : ℝ, 1 + x + y - 1 = x + y by intros; ring]
    apply le_trans
    · bnd
    norm_num
  rw [abs_le] at *
  norm_num at h k ⊢
  constructor <;> linarith [h.1, h.2, k.1, k.2]

/-- `f5` is accurate to `10⁻⁶` -/
theorem f5_acc (hr1 : r ≠ -1) (hs1 : s ≠ -1) (br : ¬ |r| ≤ 1 / 100) (bs : ¬ |s| ≤ 1 / 100) : |f5 r s - Spec.f5I r s| ≤ 1 / 10 ^ 6 := by
  have br' := br
  have bs' := bs
  have bb : |r - s| ≤ 1 / 10000 → 1 / 100 < |r| := fun _ => not_le.1 br
  rw [f5_real]
  split_ifs with a b c d e f g h
  · exact absurd (a.1.trans (by norm_num)) br
  · exact f5_11_acc hr hs b.1 b.2
  · have ha : |-r - 1| ≤ 1 / 100 := by rw [← abs_neg]; rw [show -(-r - 1) = r - -1 by ring]; exact c.1
    have hb : |-s - 1| ≤ 1 / 100 := by rw [← abs_neg]; rw [show -(-s - 1) = s - -1 by ring]; exact c.2
    rw [← Spec.f5I_neg]
    exact f5_11_acc (neg_ne_zero.2 hr) (neg_ne_zero.2 hs) ha hb
  · exact f5_1r_acc hr hs (sq1 (ne1 (by norm_num) fun h => b ⟨d.trans (by norm_num), h⟩) hs1) d bs
  · rw [Spec.f5I_symm]; exact f5_1r_acc hs hr (sq1 (ne1 (by norm_num) d) hr1) e br
  · exact absurd (f.trans (by norm_num)) br
  · exact absurd (g.trans (by norm_num)) bs
  · rw [Spec.f5I_symm]; exact f5_eq_acc hs hr (sq1 (ne1 (by norm_num) d) hr1) h (bb h)
  · rw [f5I_spec hr hs (sq1 (ne1 (by norm_num) d) hr1) (sq1 (ne1 (by norm_num) e) hs1) (ners h), sub_self, abs_zero]; norm_num

/-- `f6` is accurate to `10⁻⁶` -/
theorem f6_acc (hr1 : r ≠ -1) (hs1 : s ≠ -1) (br : ¬ |r| ≤ 1 / 10000) (bs : ¬ |s| ≤ 1 / 10000) (hm : 1 / 50 < |r| ∨ 1 / 50 < |s|) : |f6 r s - Spec.f6I r s| ≤ 1 / 10 ^ 6 := by
  have bb : |r - s| ≤ 1 / 10000 → 1 / 100 < |r| := fun h => by
    have h1 : |s| ≤ |r - s| + |r| := by have := abs_sub_abs_le_abs_sub s r; rw [abs_sub_comm s r] at this; linarith
    rcases hm with h | h <;> linarith
  rw [f6_real]
  split_ifs with a b c d e h
  · exact absurd (a.1.trans (by norm_num)) br
  · exact f6_11_acc hr hs b.1 b.2
  · have ha : |-r - 1| ≤ 1 / 50 := by rw [← abs_neg]; rw [show -(-r - 1) = r - -1 by ring]; exact c.1
    have hb : |-s - 1| ≤ 1 / 50 := by rw [← abs_neg]; rw [show -(-s - 1) = s - -1 by ring]; exact c.2
    rw [← Spec.f6I_neg]
    exact f6_11_acc (neg_ne_zero.2 hr) (neg_ne_zero.2 hs) ha hb
  · exact f6_1r_acc hr hs (sq1 (ne1 (by norm_num) fun h => b ⟨d.trans (by norm_num), h⟩) hs1) d bs
  · rw [Spec.f6I_symm]; exact f6_1r_acc hs hr (sq1 (ne1 (by norm_num) d) hr1) e br
  · rw [Spec.f6I_symm]; exact f6_eq_acc hs hr (sq1 (ne1 (by norm_num) d) hr1) h (bb h)
  · rw [f6I_spec hr hs (sq1 (ne1 (by norm_num) d) hr1) (sq1 (ne1 (by norm_num) e) hs1) (ners h), sub_self, abs_zero]; norm_num

/-- `f7` is accurate to `10⁻⁶` -/
theorem f7_acc (hr1 : r ≠ -1) (hs1 : s ≠ -1) (br : ¬ |r| ≤ 1 / 10000) (bs : ¬ |s| ≤ 1 / 10000) (hm : 1 / 50 < |r| ∨ 1 / 50 < |s|) : |f7 r s - Spec.f7I r s| ≤ 1 / 10 ^ 6 := by
  have bb : |r - s| ≤ 1 / 10000 → 1 / 100 < |r| := fun h => by
    have h1 : |s| ≤ |r - s| + |r| := by have := abs_sub_abs_le_abs_sub s r; rw [abs_sub_comm s r] at this; linarith
    rcases hm with h | h <;> linarith
  rw [f7_real]
  split_ifs with a b c d e h
  · exact absurd (a.1.trans (by norm_num)) br
  · exact f7_11_acc hr hs b.1 b.2
  · have ha : |-r - 1| ≤ 1 / 50 := by rw [← abs_neg]; rw [show -(-r - 1) = r - -1 by ring]; exact c.1
    have hb : |-s - 1| ≤ 1 / 50 := by rw [← abs_neg]; rw [show -(-s - 1) = s - -1 by ring]; exact c.2
    rw [← Spec.f7I_neg]
    exact f7_11_acc (neg_ne_zero.2 hr) (neg_ne_zero.2 hs) ha hb
  · exact f7_1r_acc hr hs (sq1 (ne1 (by norm_num) fun h => b ⟨d.trans (by norm_num), h⟩) hs1) d bs
  · rw [Spec.f7I_symm]; exact f7_1r_acc hs hr (sq1 (ne1 (by norm_num) d) hr1) e br
  · rw [Spec.f7I_symm]; exact f7_eq_acc hs hr (sq1 (ne1 (by norm_num) d) hr1) h (bb h)
  · rw [f7I_spec hr hs (sq1 (ne1 (by norm_num) d) hr1) (sq1 (ne1 (by norm_num) e) hs1) (ners h), sub_self, abs_zero]; norm_num

/-- `f8` is accurate to `10⁻⁶`, and to `4·10⁻⁵` when both arguments are close to `-1` -/
theorem f8_acc (hr1 : r ≠ -1) (hs1 : s ≠ -1) (br : ¬ |r| ≤ 1 / 10000) (bs : ¬ |s| ≤ 1 / 10000) (hm : 1 / 50 < |r| ∨ 1 / 50 < |s|) :
    |f8 r s - Spec.f8I r s| ≤ if |r - -1| ≤ 1 / 100 ∧ |s - -1| ≤ 1 / 100 then 4 / 10 ^ 5 else 1 / 10 ^ 6 := by
  have bb : |r - s| ≤ 1 / 10000 → 1 / 100 < |r| := fun h => by
    have h1 : |s| ≤ |r - s| + |r| := by have := abs_sub_abs_le_abs_sub s r; rw [abs_sub_comm s r] at this; linarith
    rcases hm with h | h <;> linarith
  have up : ∀ x : ℝ, x ≤ 1 / 10 ^ 6 → x ≤ if |r - -1| ≤ 1 / 100 ∧ |s - -1| ≤ 1 / 100 then 4 / 10 ^ 5 else 1 / 10 ^ 6 := by
    intro x hx; split_ifs
    · exact hx.trans (by norm_num)
    · exact hx
  rw [f8_real]
  by_cases a : |r| ≤ 1 / 20000 ∧ |s| ≤ 1 / 20000
  · exact absurd (a.1.trans (by norm_num)) br
  rw [if_neg a]
  by_cases b : |r - 1| ≤ 1 / 100 ∧ |s - 1| ≤ 1 / 100
  · rw [if_pos b]; exact up _ (f8_11_acc hr hs b.1 b.2)
  rw [if_neg b]
  by_cases c : |r - -1| ≤ 1 / 100 ∧ |s - -1| ≤ 1 / 100
  · rw [if_pos c, if_pos c]; exact f8_neg_acc hr hs c.1 c.2
  rw [if_neg c, if_neg c]
  split_ifs with d e f g h
  · exact f8_1r_acc hr hs (sq1 (ne1 (by norm_num) fun h => b ⟨d.trans (by norm_num), h⟩) hs1) d bs
  · rw [Spec.f8I_symm]; exact f8_1r_acc hs hr (sq1 (ne1 (by norm_num) d) hr1) e br
  · exact absurd (f.trans (by norm_num)) br
  · exact absurd (g.trans (by norm_num)) bs
  · rw [Spec.f8I_symm]; exact f8_eq_acc hs hr (sq1 (ne1 (by norm_num) d) hr1) h (bb h)
  · rw [f8I_spec hr hs (sq1 (ne1 (by norm_num) d) hr1) (sq1 (ne1 (by norm_num) e) hs1) (ners h), sub_self, abs_zero]; norm_num

end acc

end Himalaya.TLF
