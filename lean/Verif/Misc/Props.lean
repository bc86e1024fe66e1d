import Verif.Misc.Model
import Mathlib.Analysis.Real.Pi.Bounds
import Mathlib.Analysis.SpecialFunctions.Log.Deriv
import Mathlib.Algebra.BigOperators.Intervals
import Mathlib.Order.Interval.Finset.Basic

/-!
# C44: numeric helpers
-/

set_option linter.unusedSimpArgs false
set_option linter.unusedVariables false

namespace Himalaya.Misc

open scoped Himalaya

/-! ### Powers -/

/-- **C44** `pow2`, ..., `pow20` are the mathematical powers. -/
theorem C44_powers (x : ℝ) :
    pow2 x = x ^ 2 ∧ pow3 x = x ^ 3 ∧ pow4 x = x ^ 4 ∧ pow5 x = x ^ 5 ∧ pow6 x = x ^ 6 ∧ pow7 x = x ^ 7 ∧ pow8 x = x ^ 8 ∧
    pow9 x = x ^ 9 ∧ power10 x = x ^ 10 ∧ pow11 x = x ^ 11 ∧ pow12 x = x ^ 12 ∧ pow13 x = x ^ 13 ∧ pow14 x = x ^ 14 ∧
    pow15 x = x ^ 15 ∧ pow16 x = x ^ 16 ∧ pow17 x = x ^ 17 ∧ pow18 x = x ^ 18 ∧ pow19 x = x ^ 19 ∧ pow20 x = x ^ 20 := by
  unfold pow20 pow19 pow18 pow17 pow16 pow15 pow14 pow13 pow12 pow11 power10 pow9 pow8 pow7 pow6 pow5 pow4 pow3 pow2
  refine ⟨?_, ?_, ?_, ?_, ?_, ?_, ?_, ?_, ?_, ?_, ?_, ?_, ?_, ?_, ?_, ?_, ?_, ?_, ?_⟩ <;> ring

/-! ### Comparisons of finite numbers -/

private theorem dabs_real (a : ℝ) : dabs a = |a| := by
  unfold dabs
  rw [real_lit]
  by_cases h : (0:ℝ) ≤ a
  · rw [if_pos (by simpa using h), abs_of_nonneg h]
  · rw [if_neg (by simpa using h), abs_of_neg (not_le.1 h)]

private theorem stdMin_real (a b : ℝ) : stdMin a b = min a b := by
  unfold stdMin
  by_cases h : b < a
  · rw [if_pos (by simpa using h), min_eq_right h.le]
  · rw [if_neg (by simpa using h), min_eq_left (not_lt.1 h)]

private theorem stdMax_real (a b : ℝ) : stdMax a b = max a b := by
  unfold stdMax
  by_cases h : a < b
  · rw [if_pos (by simpa using h), max_eq_right h.le]
  · rw [if_neg (by simpa using h), max_eq_left (not_lt.1 h)]

/-- `2^-52` -/
private theorem eps_real : (eps : ℝ) = 1 / 2 ^ 52 := by
  unfold eps; rw [real_lit]; push_cast; rfl

/-- **C44** `is_zero` and `is_equal` are the documented comparisons of absolute values. -/
theorem C44_is_equal (a b prec : ℝ) : (isZero a prec = true ↔ |a| ≤ prec) ∧ (isEqual a b prec = true ↔ |a - b| ≤ prec) := by
  unfold isEqual isZero
  simp only [dabs_real, real_le_iff, and_self]

/-- **C44** `is_close` compares relative to `1 + max(|a|,|b|)`. -/
theorem C44_is_close (a b prec : ℝ) : isClose a b prec = true ↔ |a - b| ≤ prec * (1 + max |a| |b|) := by
  unfold isClose isZero
  simp only [dabs_real, real_le_iff, stdMax_real, real_lit, Rat.cast_one]

/-- **C44** `is_equal_rel`: numbers closer than `2^-52` count as equal; otherwise the difference is compared with `prec` if one of
them is smaller than `2^-52`, and with `prec * max(|a|,|b|)` else. -/
theorem C44_is_equal_rel (a b prec : ℝ) : isEqualRel a b prec = true ↔
    |a - b| ≤ 1 / 2 ^ 52 ∨ (min |a| |b| < 1 / 2 ^ 52 ∧ |a - b| ≤ prec) ∨
      (1 / 2 ^ 52 ≤ min |a| |b| ∧ |a - b| ≤ prec * max |a| |b|) := by
  unfold isEqualRel isEqual isZero
  simp only [dabs_real, stdMin_real, stdMax_real, eps_real]
  by_cases h1 : |a - b| ≤ 1 / 2 ^ 52
  · rw [if_pos (by rw [real_le_iff]; exact h1)]
    simp only [h1, true_or, true_iff]
  · rw [if_neg (by rw [real_le_iff]; exact h1)]
    by_cases h2 : min |a| |b| < 1 / 2 ^ 52
    · rw [if_pos (by rw [real_lt_iff]; exact h2), real_le_iff]
      simp only [h1, h2, false_or, true_and, not_le.2 h2, false_and, or_false]
    · rw [if_neg (by rw [real_lt_iff]; exact h2), real_le_iff]
      simp only [h1, h2, false_or, true_and, not_lt.1 h2, false_and]

/-- **C44** On finite numbers the comparisons are symmetric and (for a nonnegative precision) reflexive. -/
theorem C44_symmetric_reflexive (a b prec : ℝ) :
    isEqual a b prec = isEqual b a prec ∧ isEqualRel a b prec = isEqualRel b a prec ∧ isClose a b prec = isClose b a prec ∧
    (0 ≤ prec → isEqual a a prec = true ∧ isEqualRel a a prec = true ∧ isClose a a prec = true) := by
  have e : |a - b| = |b - a| := abs_sub_comm a b
  refine ⟨?_, ?_, ?_, fun hp => ⟨?_, ?_, ?_⟩⟩
  · rw [Bool.eq_iff_iff, (C44_is_equal a b prec).2, (C44_is_equal b a prec).2, e]
  · rw [Bool.eq_iff_iff, C44_is_equal_rel, C44_is_equal_rel, e, min_comm, max_comm]
  · rw [Bool.eq_iff_iff, C44_is_close, C44_is_close, e, max_comm]
  · rw [(C44_is_equal a a prec).2]; simpa using hp
  · rw [C44_is_equal_rel]; left; rw [sub_self, abs_zero]; positivity
  · rw [C44_is_close, sub_self, abs_zero]; positivity

/-- **C44** `is_equal_rel` is scale free for numbers of absolute value at least 1 (scaled by a factor of at least 1) and precisions not
below `2^-52`. -/
theorem C44_is_equal_rel_scale (a b prec l : ℝ) (ha : 1 ≤ |a|) (hb : 1 ≤ |b|) (hp : 1 / 2 ^ 52 ≤ prec) (hl : 1 ≤ l) :
    isEqualRel (l * a) (l * b) prec = isEqualRel a b prec := by
  have key : ∀ x y : ℝ, 1 ≤ |x| → 1 ≤ |y| → (isEqualRel x y prec = true ↔ |x - y| ≤ prec * max |x| |y|) := by
    intro x y hx hy
    rw [C44_is_equal_rel]
    have h1 : 1 ≤ max |x| |y| := le_trans hx (le_max_left _ _)
    have h2 : (1:ℝ) / 2 ^ 52 ≤ min |x| |y| := le_trans (by norm_num) (le_min hx hy)
    constructor
    · rintro (h | ⟨h, _⟩ | ⟨_, h⟩)
      · have : prec * 1 ≤ prec * max |x| |y| := mul_le_mul_of_nonneg_left h1 (le_trans (by norm_num) hp)
        linarith
      · linarith
      · exact h
    · intro h; exact Or.inr (Or.inr ⟨h2, h⟩)
  have hl0 : 0 < l := by linarith
  have sc : ∀ x : ℝ, |l * x| = l * |x| := fun x => by rw [abs_mul, abs_of_pos hl0]
  have ge : ∀ x : ℝ, 1 ≤ |x| → 1 ≤ |l * x| := fun x hx => by rw [sc]; nlinarith
  rw [Bool.eq_iff_iff, key _ _ (ge a ha) (ge b hb), key a b ha hb, ← mul_sub, sc, sc, sc,
    ← mul_max_of_nonneg _ _ hl0.le, mul_left_comm]
  exact mul_le_mul_iff_right₀ hl0

example : isEqualRel (100 * (10:ℝ)) (100 * 11) (1/5) = true ∧ isEqualRel (100 * (10:ℝ)) (100 * 20) (1/5) = false := by
  rw [C44_is_equal_rel_scale _ _ _ _ (by norm_num) (by norm_num) (by norm_num) (by norm_num),
    C44_is_equal_rel_scale _ _ _ _ (by norm_num) (by norm_num) (by norm_num) (by norm_num)]
  constructor
  · rw [C44_is_equal_rel]; right; right; norm_num
  · rw [Bool.eq_false_iff, Ne, C44_is_equal_rel]; norm_num

/-- It is not scale free for small numbers: `1e-20` and `3e-20` count as equal for every precision, `1` and `3` do not. -/
theorem C44_is_equal_rel_not_scale_free : ∃ a b l prec : ℝ, 0 < a ∧ 0 < b ∧ 0 < l ∧
    isEqualRel a b prec = true ∧ isEqualRel (l * a) (l * b) prec = false := by
  refine ⟨1 / 10 ^ 20, 3 / 10 ^ 20, 10 ^ 20, 1 / 10, by norm_num, by norm_num, by norm_num, ?_, ?_⟩
  · rw [C44_is_equal_rel]; left; norm_num [abs_of_neg]
  · rw [Bool.eq_false_iff, Ne, C44_is_equal_rel]; norm_num [abs_of_neg]

/-! ### NaN and infinities -/

/-- **C44** No comparison succeeds when one of the numbers is NaN. -/
theorem C44_nan (b prec : Dbl) :
    isZero Dbl.nan prec = false ∧ isEqual Dbl.nan b prec = false ∧ isEqual b Dbl.nan prec = false ∧
    isEqualRel Dbl.nan b prec = false ∧ isEqualRel b Dbl.nan prec = false ∧
    isClose Dbl.nan b prec = false ∧ isClose b Dbl.nan prec = false := by
  have z : ∀ p : Dbl, isZero Dbl.nan p = false := by
    intro p
    unfold isZero dabs
    have : (FOps.le (FOps.lit 0) Dbl.nan : Bool) = false := by
      simp [FOps.le, FOps.lit, Dbl.leb]
    rw [this]
    simp only [Bool.false_eq_true, if_false]
    show Dbl.leb Dbl.nan p = false
    cases p <;> rfl
  have s1 : Dbl.nan - b = Dbl.nan := by cases b <;> rfl
  have s2 : b - Dbl.nan = Dbl.nan := by cases b <;> rfl
  refine ⟨z _, ?_, ?_, ?_, ?_, ?_, ?_⟩
  · unfold isEqual; rw [s1, z]
  · unfold isEqual; rw [s2, z]
  · unfold isEqualRel isEqual; simp only [s1, z, Bool.false_eq_true, if_false, ite_self]
  · unfold isEqualRel isEqual; simp only [s2, z, Bool.false_eq_true, if_false, ite_self]
  · unfold isClose; rw [s1, z]
  · unfold isClose; rw [s2, z]

/-- **C44** An infinity is not equal to itself: reflexivity holds on finite numbers only. -/
theorem C44_inf_not_reflexive (prec : Dbl) :
    isEqual Dbl.pinf Dbl.pinf prec = false ∧ isEqualRel Dbl.pinf Dbl.pinf prec = false ∧ isClose Dbl.pinf Dbl.pinf prec = false := by
  have h : Dbl.pinf - Dbl.pinf = Dbl.nan := rfl
  have z := fun p => (C44_nan Dbl.nan p).1
  refine ⟨?_, ?_, ?_⟩
  · unfold isEqual; rw [h, z]
  · unfold isEqualRel isEqual; simp only [h, z, Bool.false_eq_true, if_false, ite_self]
  · unfold isClose; rw [h, z]

/-! ### Sums -/

private theorem sumLoop_eq (f : Int → ℝ) (fin : Int) : ∀ (n : ℕ) (i : Int) (s : ℝ), (fin + 1 - i).toNat = n →
    sumLoop f fin i s = s + ∑ k ∈ Finset.Icc i fin, f k := by
  intro n
  induction n with
  | zero =>
    intro i s h
    rw [sumLoop, if_neg (by omega), Finset.Icc_eq_empty (by omega)]
    simp
  | succ n ih =>
    intro i s h
    have hi : i ≤ fin := by omega
    rw [sumLoop, if_pos hi, ih (i + 1) _ (by omega)]
    have : Finset.Icc i fin = insert i (Finset.Icc (i + 1) fin) := by
      ext k; simp only [Finset.mem_Icc, Finset.mem_insert]; omega
    rw [this, Finset.sum_insert (by simp), add_assoc]

/-- **C44** `SUM(i, ini, fin, expr)` is the sum over the inclusive range, and zero if the range is empty. -/
theorem C44_sum (f : Int → ℝ) (ini fin : Int) : sum 0 ini fin f = ∑ k ∈ Finset.Icc ini fin, f k := by
  unfold sum
  rw [sumLoop_eq f fin _ ini 0 rfl, zero_add]

example : sum (0:ℝ) 1 3 (fun k => (k : ℝ) * k) = 14 ∧ sum (0:ℝ) 3 1 (fun k => (k : ℝ) * k) = 0 := by
  rw [C44_sum, C44_sum]
  constructor
  · rw [show Finset.Icc (1:ℤ) 3 = {1, 2, 3} from rfl]; norm_num
  · rw [Finset.Icc_eq_empty (by norm_num)]; simp

/-! ### Constants -/

private theorem sqrt_near {x c e : ℝ} (hc : 0 ≤ c - e) (h1 : (c - e) ^ 2 ≤ x) (h2 : x ≤ (c + e) ^ 2) (he : 0 ≤ e) :
    |c - Real.sqrt x| ≤ e := by
  have a : c - e ≤ Real.sqrt x := Real.le_sqrt_of_sq_le h1
  have b : Real.sqrt x ≤ c + e := (Real.sqrt_le_left (by linarith)).2 h2
  rw [abs_le]; constructor <;> linarith

private theorem pi_pow (n : ℕ) : (3.14159265358979323846:ℝ) ^ n ≤ Real.pi ^ n ∧ Real.pi ^ n ≤ (3.14159265358979323847:ℝ) ^ n :=
  ⟨pow_le_pow_left₀ (by norm_num) Real.pi_gt_d20.le n, pow_le_pow_left₀ Real.pi_pos.le Real.pi_lt_d20.le n⟩

private theorem loop_near {c e : ℝ} {n : ℕ} (hc : 0 ≤ c) (h1 : 1 - e ≤ c * 4 ^ n * (3.14159265358979323846:ℝ) ^ n)
    (h2 : c * 4 ^ n * (3.14159265358979323847:ℝ) ^ n ≤ 1 + e) : |c - 1 / (4 * Real.pi) ^ n| ≤ e * (1 / (4 * Real.pi) ^ n) := by
  obtain ⟨a, b⟩ := pi_pow n
  have h4 : 0 ≤ c * 4 ^ n := by positivity
  have a' := mul_le_mul_of_nonneg_left a h4
  have b' := mul_le_mul_of_nonneg_left b h4
  have hp : 0 < (4 * Real.pi) ^ n := by have := Real.pi_pos; positivity
  rw [show c - 1 / (4 * Real.pi) ^ n = (c * (4 * Real.pi) ^ n - 1) / (4 * Real.pi) ^ n by field_simp, abs_div,
    abs_of_pos hp, ← div_eq_mul_one_div]
  apply div_le_div_of_nonneg_right _ hp.le
  rw [mul_pow, ← mul_assoc, abs_le]
  constructor <;> linarith

/-- **C44** The decimal literals are the named constants, up to a relative error below half a unit in the last place of a `double`
(`2^-53`). -/
theorem C44_constants (c : Const) : |(literal c : ℝ) - c.value| ≤ 1 / 2 ^ 53 * c.value := by
  obtain ⟨p1, p2⟩ := pi_pow 1
  obtain ⟨q1, q2⟩ := pi_pow 2
  have sq : ∀ {l : ℚ} {x c : ℝ}, (l : ℝ) = c → 1 / 10 ≤ Real.sqrt x → 0 ≤ c - 1 / 10 ^ 17 → (c - 1 / 10 ^ 17) ^ 2 ≤ x → x ≤ (c + 1 / 10 ^ 17) ^ 2 →
      |(l : ℝ) - Real.sqrt x| ≤ 1 / 2 ^ 53 * Real.sqrt x := by
    intro l x c hl hx h0 h1 h2
    rw [hl]
    refine (sqrt_near h0 h1 h2 (by norm_num)).trans ?_
    calc (1:ℝ) / 10 ^ 17 ≤ 1 / 2 ^ 53 * (1 / 10) := by norm_num
      _ ≤ _ := mul_le_mul_of_nonneg_left hx (by norm_num)
  have lo : ∀ {x : ℝ}, 1 / 100 ≤ x → 1 / 10 ≤ Real.sqrt x := fun h => Real.le_sqrt_of_sq_le (by linarith)
  cases c
  · simp only [literal, Const.value]
    rw [abs_le]; constructor <;> push_cast <;> norm_num at p1 p2 ⊢ <;> linarith
  · simp only [literal, Const.value]
    rw [abs_le]; constructor <;> push_cast <;> norm_num at q1 q2 ⊢ <;> linarith
  · simp only [literal, Const.value]
    exact sq (c := 1.41421356237309505) (by push_cast; norm_num) (lo (by norm_num)) (by norm_num) (by norm_num) (by norm_num)
  · simp only [literal, Const.value]
    rw [show (1:ℝ) / Real.sqrt 2 = Real.sqrt (1 / 2) by rw [Real.sqrt_div zero_le_one, Real.sqrt_one]]
    exact sq (c := 0.707106781186547524) (by push_cast; norm_num) (lo (by norm_num)) (by norm_num) (by norm_num) (by norm_num)
  · simp only [literal, Const.value]
    exact sq (c := 3.87298334620741689) (by push_cast; norm_num) (lo (by norm_num)) (by norm_num) (by norm_num) (by norm_num)
  · simp only [literal, Const.value]
    exact sq (c := 0.774596669241483377) (by push_cast; norm_num) (lo (by norm_num)) (by norm_num) (by norm_num) (by norm_num)
  · simp only [literal, Const.value]
    exact loop_near (by push_cast; norm_num) (by push_cast; norm_num) (by push_cast; norm_num)
  · simp only [literal, Const.value]
    exact loop_near (by push_cast; norm_num) (by push_cast; norm_num) (by push_cast; norm_num)
  · simp only [literal, Const.value]
    exact loop_near (by push_cast; norm_num) (by push_cast; norm_num) (by push_cast; norm_num)

/-- **C44** The literals `sqrt3`, `z4 = π⁴/90` and `log2`. -/
theorem C44_more_constants : |(litSqrt3 : ℝ) - Real.sqrt 3| ≤ 1 / 2 ^ 53 ∧ |(litZ4 : ℝ) - Real.pi ^ 4 / 90| ≤ 1 / 2 ^ 53 ∧
    |(litLog2 : ℝ) - Real.log 2| ≤ 1 / 2 ^ 54 := by
  refine ⟨?_, ?_, ?_⟩
  · unfold litSqrt3
    refine le_trans ?_ (show (1:ℝ) / 10 ^ 17 ≤ 1 / 2 ^ 53 by norm_num)
    push_cast
    exact sqrt_near (by norm_num) (by norm_num) (by norm_num) (by norm_num)
  · unfold litZ4
    obtain ⟨q1, q2⟩ := pi_pow 4
    rw [abs_le]; constructor <;> push_cast <;> norm_num at q1 q2 ⊢ <;> linarith
  · unfold litLog2
    have h := Real.abs_log_sub_add_sum_range_le (show |(1/2:ℝ)| < 1 by norm_num [abs_of_pos]) 60
    have e : Real.log (1 - 1/2) = -Real.log 2 := by
      rw [show (1:ℝ) - 1/2 = 2⁻¹ by norm_num, Real.log_inv]
    rw [e, abs_of_pos (by norm_num : (0:ℝ) < 1/2)] at h
    rw [abs_le] at h ⊢
    simp only [Finset.sum_range_succ, Finset.sum_range_zero] at h
    push_cast
    norm_num at h ⊢
    constructor <;> linarith [h.1, h.2]

end Himalaya.Misc
