import Verif.TLF.Model
import Verif.TLF.Spec
import Verif.Misc.Props

set_option linter.unusedSimpArgs false

namespace Himalaya.TLF
open scoped Himalaya

theorem isZero_real (a p : ℝ) : Misc.isZero a p = decide (|a| ≤ p) := by
  rw [Bool.eq_iff_iff, decide_eq_true_eq]; exact (Misc.C44_is_equal a 0 p).1
theorem isEqual_real (a b p : ℝ) : Misc.isEqual a b p = decide (|a - b| ≤ p) := by
  rw [Bool.eq_iff_iff, decide_eq_true_eq]; exact (Misc.C44_is_equal a b p).2
theorem epsD_real : (epsD : ℝ) = 1 / 2 ^ 52 := by simp [epsD, Misc.eps]

theorem eqz (x : ℝ) : ((x ≤ ((0 : ℕ) : ℝ)) ∧ (((0 : ℕ) : ℝ) ≤ x)) ↔ x = 0 := by
  push_cast; exact ⟨fun h => le_antisymm h.1 h.2, fun h => by subst h; exact ⟨le_refl _, le_refl _⟩⟩
theorem nsq (x : ℝ) : (x - 1) * (x + 1) = x ^ 2 - 1 := by ring

theorem F1_real (x : ℝ) : F1 x = if |x| ≤ 1 / 2 ^ 52 then 0 else if |x - 1| ≤ 1 / 100 then
    1 + (x - 1) * ((0) + (x - 1) * ((-1/6) + (x - 1) * ((1/6) + (x - 1) * ((-2/15))))) else Spec.F1 x := by
  simp only [F1, isZero_real, isEqual_real, epsD_real, real_ofNat, real_lit, decide_eq_true_eq, sqr, cube, quad, real_log, real_abs, real_lt_iff, real_le_iff, Bool.and_eq_true, eqz, Spec.F1]
  push_cast
  simp only [← pow_two, ← sub_eq_add_neg, nsq]
  split_ifs <;> ring_nf

theorem F2_real (x : ℝ) : F2 x = if |x| ≤ 1 / 2 ^ 52 then 0 else if |x - 1| ≤ 1 / 100 then
    1 + (x ^ 2 - 1) * ((0) + (x ^ 2 - 1) * ((-1/10) + (x ^ 2 - 1) * ((1/10) + (x ^ 2 - 1) * ((-3/35))))) else Spec.F2 x := by
  simp only [F2, isZero_real, isEqual_real, epsD_real, real_ofNat, real_lit, decide_eq_true_eq, sqr, cube, quad, real_log, real_abs, real_lt_iff, real_le_iff, Bool.and_eq_true, eqz, Spec.F2]
  push_cast
  simp only [← pow_two, ← sub_eq_add_neg, nsq]
  split_ifs <;> ring_nf

theorem F3_real (x : ℝ) : F3 x = if |x| ≤ 1 / 2 ^ 52 then 0 else if |x - 1| ≤ 1 / 100 then
    1 + (x - 1) * ((5/9) + (x - 1) * ((-4/9) + (x - 1) * ((2/9) + (x - 1) * ((-7/90))))) else Spec.F3 x := by
  simp only [F3, isZero_real, isEqual_real, epsD_real, real_ofNat, real_lit, decide_eq_true_eq, sqr, cube, quad, real_log, real_abs, real_lt_iff, real_le_iff, Bool.and_eq_true, eqz, Spec.F3]
  push_cast
  simp only [← pow_two, ← sub_eq_add_neg, nsq]
  split_ifs <;> ring_nf

theorem F4_real (x : ℝ) : F4 x = if |x| ≤ 1 / 2 ^ 52 then 0 else if |x - 1| ≤ 1 / 100 then
    1 + (x - 1) * ((-1/3) + (x - 1) * ((0) + (x - 1) * ((2/15) + (x - 1) * ((-1/6))))) else Spec.F4 x := by
  simp only [F4, isZero_real, isEqual_real, epsD_real, real_ofNat, real_lit, decide_eq_true_eq, sqr, cube, quad, real_log, real_abs, real_lt_iff, real_le_iff, Bool.and_eq_true, eqz, Spec.F4]
  push_cast
  simp only [← pow_two, ← sub_eq_add_neg, nsq]
  split_ifs <;> ring_nf

theorem F6_real (x : ℝ) : F6 x = if |x| ≤ 1 / 2 ^ 52 then -3 / 4 else if |x ^ 2 - 1| ≤ 1 / 100 then
    0 + (x ^ 2 - 1) * ((1/3) + (x ^ 2 - 1) * ((-1/8) + (x ^ 2 - 1) * ((1/15) + (x ^ 2 - 1) * ((1/24))))) else Spec.F6 x := by
  simp only [F6, isZero_real, isEqual_real, epsD_real, real_ofNat, real_lit, decide_eq_true_eq, sqr, cube, quad, real_log, real_abs, real_lt_iff, real_le_iff, Bool.and_eq_true, eqz, Spec.F6]
  push_cast
  simp only [← pow_two, ← sub_eq_add_neg, nsq]
  split_ifs <;> ring_nf

theorem F7_real (x : ℝ) : F7 x = if |x| ≤ 1 / 2 ^ 52 then -3 / 2 else if |x ^ 2 - 1| ≤ 1 / 100 then
    1 + (x ^ 2 - 1) * ((3/2) + (x ^ 2 - 1) * ((-9/20) + (x ^ 2 - 1) * ((1/5) + (x ^ 2 - 1) * ((-3/28))))) else Spec.F7 x := by
  simp only [F7, isZero_real, isEqual_real, epsD_real, real_ofNat, real_lit, decide_eq_true_eq, sqr, cube, quad, real_log, real_abs, real_lt_iff, real_le_iff, Bool.and_eq_true, eqz, Spec.F7]
  push_cast
  simp only [← pow_two, ← sub_eq_add_neg, nsq]
  split_ifs <;> ring_nf

theorem f1_real (x : ℝ) : f1 x = if |x| < 1 / 100 then x ^ 2 * (18 / 7 + 6 / 7 * x ^ 2 * (7 + 5 * Real.log (x ^ 2))) else if |(|x| - 1)| ≤ 1 / 100 then
    1 + (x ^ 2 - 1) * ((4/7) + (x ^ 2 - 1) * ((-13/70) + (x ^ 2 - 1) * ((3/35) + (x ^ 2 - 1) * ((-23/490))))) else Spec.f1 x := by
  simp only [f1, isZero_real, isEqual_real, epsD_real, real_ofNat, real_lit, decide_eq_true_eq, sqr, cube, quad, real_log, real_abs, real_lt_iff, real_le_iff, Bool.and_eq_true, eqz, Spec.f1]
  push_cast
  simp only [← pow_two, ← sub_eq_add_neg, nsq]
  by_cases h0 : x = 0
  · subst h0; norm_num
  · simp only [h0, if_false]
    split_ifs <;> ring_nf

theorem f2_real (x : ℝ) : f2 x = if |x| < 1 / 100 then x ^ 2 * (22 / 9 + 2 / 9 * x ^ 2 * (23 + 17 * Real.log (x ^ 2))) else if |(|x| - 1)| ≤ 1 / 100 then
    1 + (x ^ 2 - 1) * ((16/27) + (x ^ 2 - 1) * ((-49/270) + (x ^ 2 - 1) * ((11/135) + (x ^ 2 - 1) * ((-83/1890))))) else Spec.f2 x := by
  simp only [f2, isZero_real, isEqual_real, epsD_real, real_ofNat, real_lit, decide_eq_true_eq, sqr, cube, quad, real_log, real_abs, real_lt_iff, real_le_iff, Bool.and_eq_true, eqz, Spec.f2]
  push_cast
  simp only [← pow_two, ← sub_eq_add_neg, nsq]
  by_cases h0 : x = 0
  · subst h0; norm_num
  · simp only [h0, if_false]
    split_ifs <;> ring_nf

theorem f3_real (x : ℝ) : f3 x = if |x| ≤ 1 / 1000000 then 4 / 3 + 2 / 3 * x ^ 2 * (13 + 6 * Real.log (x ^ 2)) else if |(|x| - 1)| ≤ 1 / 100 then
    1 + (x ^ 2 - 1) * ((2/9) + (x ^ 2 - 1) * ((1/90) + (x ^ 2 - 1) * ((-2/45) + (x ^ 2 - 1) * ((29/630))))) else Spec.f3 x := by
  simp only [f3, isZero_real, isEqual_real, epsD_real, real_ofNat, real_lit, decide_eq_true_eq, sqr, cube, quad, real_log, real_abs, real_lt_iff, real_le_iff, Bool.and_eq_true, eqz, Spec.f3]
  push_cast
  simp only [← pow_two, ← sub_eq_add_neg, nsq]
  by_cases h0 : x = 0
  · subst h0; norm_num
  · simp only [h0, if_false]
    split_ifs <;> ring_nf

theorem f4_real (x : ℝ) : f4 x = if |x| ≤ 1 / 1000000 then 12 / 7 + 2 / 7 * x ^ 2 * (37 + 18 * Real.log (x ^ 2)) else if |(|x| - 1)| ≤ 1 / 100 then
    1 + (x ^ 2 - 1) * ((2/21) + (x ^ 2 - 1) * ((13/210) + (x ^ 2 - 1) * ((-8/105) + (x ^ 2 - 1) * ((101/1470))))) else Spec.f4 x := by
  simp only [f4, isZero_real, isEqual_real, epsD_real, real_ofNat, real_lit, decide_eq_true_eq, sqr, cube, quad, real_log, real_abs, real_lt_iff, real_le_iff, Bool.and_eq_true, eqz, Spec.f4]
  push_cast
  simp only [← pow_two, ← sub_eq_add_neg, nsq]
  by_cases h0 : x = 0
  · subst h0; norm_num
  · simp only [h0, if_false]
    split_ifs <;> ring_nf

theorem F5_real (x : ℝ) : F5 x = if |x| ≤ 1 / 2 ^ 52 then 0 else if |x - 1| ≤ 1 / 100 then
    1 + (x - 1) * (0 + (x - 1) * ((-3/10) + (x - 1) * ((3/10) + (x - 1) * (-3/14)))) else if |x + 1| ≤ 1 / 100 then
    -1 + (x + 1) * (0 + (x + 1) * ((3/10) + (x + 1) * ((3/10) + (x + 1) * (3/14)))) else Spec.F5 x := by
  simp only [F5, isZero_real, isEqual_real, epsD_real, real_ofNat, real_lit, decide_eq_true_eq, sqr, cube, quad, real_log, real_abs, real_lt_iff, real_le_iff, Bool.and_eq_true, eqz, Spec.F5]
  push_cast
  simp only [← pow_two, sub_neg_eq_add, nsq]
  split_ifs <;> ring_nf

end Himalaya.TLF
