import Verif.Li2.ClPade
import Mathlib.Analysis.Complex.ExponentialBounds

/-!
# C34: the Clausen function
-/

set_option linter.unusedVariables false

namespace Himalaya.Clausen
open Real Set

theorem PI_lt : PI < π := by unfold PI; have := Real.pi_gt_d20; norm_num at this ⊢; linarith
theorem PI_close : π - PI ≤ 1.2248e-16 := by unfold PI; have := Real.pi_lt_d20; norm_num at this ⊢; linarith
theorem PI_far : 1.2246e-16 ≤ π - PI := by unfold PI; have := Real.pi_gt_d20; norm_num at this ⊢; linarith
theorem PI_pos : 0 < PI := by unfold PI; norm_num
theorem PI_gt : 3.14 < PI := by unfold PI; norm_num
theorem two_pi_close : |2 * π - (p0 + p1)| ≤ 1.2e-19 := by
  unfold p0 p1; have := Real.pi_lt_d20; have := Real.pi_gt_d20; norm_num [abs_le] at *; constructor <;> linarith

/-! ### Modulus of continuity of the specification -/

theorem Cl2_lipschitz {a b M : ℝ} (h : ∀ t ∈ uIcc a b, abs (Real.log |2 * Real.sin (t / 2)|) ≤ M) : |Cl2 a - Cl2 b| ≤ M * |a - b| := by
  have e : Cl2 a - Cl2 b = ∫ t in a..b, Real.log |2 * Real.sin (t / 2)| := by
    have := intervalIntegral.integral_interval_sub_left (integrable_sin 0 b) (integrable_sin 0 a)
    unfold Cl2; linarith
  rw [e, abs_sub_comm a b]
  have hb : ∀ t ∈ uIoc a b, ‖Real.log |2 * Real.sin (t / 2)|‖ ≤ M := fun t ht => h t (uIoc_subset_uIcc ht)
  exact intervalIntegral.norm_integral_le_of_norm_le_const hb

theorem log_mid {t : ℝ} (h0 : 1.5 ≤ t) (h1 : t ≤ 4) : abs (Real.log |2 * Real.sin (t / 2)|) ≤ 0.6932 := by
  have hs : 1 / 2 ≤ sin (t / 2) := by
    rw [← Real.sin_pi_div_six]
    by_cases h : t / 2 ≤ π / 2
    · exact sin_le_sin_of_le_of_le_pi_div_two (by linarith [pi_pos]) h (by linarith [pi_lt_d2])
    · rw [← Real.sin_pi_sub (t / 2)]
      exact sin_le_sin_of_le_of_le_pi_div_two (by linarith [pi_pos]) (by linarith) (by linarith [pi_gt_d2])
  have h2 := sin_le_one (t / 2)
  rw [abs_of_pos (a := 2 * sin (t / 2)) (by linarith), abs_of_nonneg (Real.log_nonneg (by linarith))]
  have := Real.log_le_log (by linarith) (by linarith : 2 * sin (t / 2) ≤ 2)
  have := Real.log_two_lt_d9
  linarith

theorem log_low {t : ℝ} (h0 : 2e-16 ≤ t) (h1 : t ≤ 4) : abs (Real.log |2 * Real.sin (t / 2)|) ≤ 38 := by
  by_cases h : 1.5 ≤ t
  · have := log_mid h h1; linarith
  have hs : 2 / π * (t / 2) ≤ sin (t / 2) := mul_le_sin (by linarith) (by linarith [pi_gt_d2])
  have hp : (3 : ℝ) / 10 ≤ 1 / π := by rw [div_le_div_iff₀ (by norm_num) pi_pos]; linarith [pi_lt_d2]
  have h3 : 1e-16 ≤ 2 * sin (t / 2) := by
    have : 2 / π * (t / 2) = 1 / π * t := by ring
    rw [this] at hs
    have : 3 / 10 * t ≤ 1 / π * t := mul_le_mul_of_nonneg_right hp (by linarith)
    linarith
  have h2 := sin_le_one (t / 2)
  have pos : 0 < 2 * sin (t / 2) := by linarith
  rw [abs_of_pos pos, abs_le]
  have l2 := Real.log_two_lt_d9
  constructor
  · have : Real.log ((2 : ℝ)⁻¹ ^ 54) ≤ Real.log (2 * sin (t / 2)) := Real.log_le_log (by positivity) (le_trans (by norm_num) h3)
    rw [Real.log_pow, Real.log_inv] at this
    push_cast at this
    linarith
  · have := Real.log_le_log pos (by linarith : 2 * sin (t / 2) ≤ 2)
    linarith

/-! ### Error on the reduced range -/

theorem small_total {x : ℝ} (h0 : 0 < x) (h1 : x < PI / 2) : |core x - Cl2 x| ≤ 1 / 10 ^ 17 := by
  have hx : x ≤ 1.5708 := by have := PI_lt; have := pi_lt_d4; linarith
  have hx2 : x < 2 * π := by linarith [pi_gt_d2]
  have e1 := small_error h0.le (by nlinarith : x * x ≤ 2.48)
  have e2 := G_trunc h0.le hx2 15
  have hr : x / (2 * π) ≤ 1 / 4 := by
    rw [div_le_div_iff₀ (by positivity) (by norm_num)]; have := PI_lt; linarith
  have hr0 : 0 ≤ x / (2 * π) := by positivity
  have hB : 2 * (x / (2 * π)) ^ (2 * (15 + 1)) / (1 - (x / (2 * π)) ^ 2) ≤ 1 / 10 ^ 18 := by
    have p1 : (x / (2 * π)) ^ (2 * (15 + 1)) ≤ (1 / 4) ^ (2 * (15 + 1)) := pow_le_pow_left₀ hr0 hr _
    have p2 : (x / (2 * π)) ^ 2 ≤ (1 / 4) ^ 2 := pow_le_pow_left₀ hr0 hr _
    calc 2 * (x / (2 * π)) ^ (2 * (15 + 1)) / (1 - (x / (2 * π)) ^ 2) ≤ 2 * (1 / 4) ^ (2 * (15 + 1)) / (1 - (1 / 4) ^ 2) :=
          div_le_div₀ (by norm_num) (by linarith) (by norm_num) (by linarith)
      _ ≤ _ := by norm_num
  have hB' := e2.trans (mul_le_mul_of_nonneg_right hB h0.le)
  rw [Cl2_small h0.le hx2]
  simp only [core, if_pos h1]
  have : x * (1 - Real.log x + x * x * pS (x * x) / qS (x * x)) - (x * (1 - Real.log x) + G x) =
      (x * (x * x * pS (x * x) / qS (x * x)) - Gser 15 x) - (G x - Gser 15 x) := by ring
  rw [this]
  refine (abs_sub _ _).trans ?_
  linarith

theorem large_pade {y : ℝ} (h0 : 0 ≤ y) (h1 : y ≤ π / 2) :
    |y * pL (y * y - PI * PI / 8) / qL (y * y - PI * PI / 8) - Cl2 (π - y)| ≤ 25 / 10 ^ 18 := by
  have hy : y ≤ 1.5708 := by linarith [pi_lt_d4]
  have e1 := large_error h0 (by nlinarith : y * y ≤ 2.48)
  have hr0 : 0 ≤ y / (2 * π) := by positivity
  have key : ∀ z : ℝ, 0 ≤ z → z ≤ π → |G z - Gser 30 z| ≤ 1 / 10 ^ 18 * z := fun z z0 z1 => by
    have e2 := G_trunc z0 (by linarith [pi_pos]) 30
    have hr : z / (2 * π) ≤ 1 / 2 := by
      rw [div_le_div_iff₀ (by positivity) (by norm_num)]; linarith
    have hr0 : 0 ≤ z / (2 * π) := by positivity
    have hB : 2 * (z / (2 * π)) ^ (2 * (30 + 1)) / (1 - (z / (2 * π)) ^ 2) ≤ 1 / 10 ^ 18 := by
      have p1 : (z / (2 * π)) ^ (2 * (30 + 1)) ≤ (1 / 2) ^ (2 * (30 + 1)) := pow_le_pow_left₀ hr0 hr _
      have p2 : (z / (2 * π)) ^ 2 ≤ (1 / 2) ^ 2 := pow_le_pow_left₀ hr0 hr _
      calc 2 * (z / (2 * π)) ^ (2 * (30 + 1)) / (1 - (z / (2 * π)) ^ 2) ≤ 2 * (1 / 2) ^ (2 * (30 + 1)) / (1 - (1 / 2) ^ 2) :=
            div_le_div₀ (by norm_num) (by linarith) (by norm_num) (by linarith)
        _ ≤ _ := by norm_num
    exact e2.trans (mul_le_mul_of_nonneg_right hB z0)
  have k1 := key y h0 (by linarith [pi_pos])
  have k2 := key (2 * y) (by linarith) (by linarith)
  rw [Cl2_large h0 (by linarith [pi_pos])]
  rw [abs_le] at e1 k1 k2 ⊢
  constructor <;> linarith [e1.1, e1.2, k1.1, k1.2, k2.1, k2.2]

theorem large_total {x : ℝ} (h0 : PI / 2 ≤ x) (h1 : x ≤ PI + 3e-16) : |core x - Cl2 x| ≤ 111 / 10 ^ 18 := by
  have c1 := PI_lt; have c2 := PI_close; have c3 := PI_gt
  have e1 : |(PI - x) * pL ((PI - x) * (PI - x) - PI * PI / 8) / qL ((PI - x) * (PI - x) - PI * PI / 8) - Cl2 (π - (PI - x))| ≤
      25 / 10 ^ 18 := by
    by_cases h : 0 ≤ PI - x
    · exact large_pade h (by linarith)
    · have := large_pade (y := x - PI) (by linarith) (by linarith)
      have e : Cl2 (π - (PI - x)) = -Cl2 (π - (x - PI)) := by
        rw [← Cl2_odd_about_pi]; congr 1; ring
      rw [e, ← abs_neg]
      refine le_of_eq_of_le ?_ this
      congr 1
      rw [show (PI - x) * (PI - x) = (x - PI) * (x - PI) by ring]
      ring
  have e2 := Cl2_lipschitz (a := π - (PI - x)) (b := x) (M := 0.6932) fun t ht => by
    rw [uIcc_of_ge (by linarith)] at ht
    exact log_mid (by linarith [ht.1]) (by linarith [ht.2, pi_lt_d2])
  have e3 : |π - (PI - x) - x| ≤ 1.2248e-16 := by rw [show π - (PI - x) - x = π - PI by ring, abs_of_nonneg (by linarith)]; exact c2
  have hc : core x = (PI - x) * pL ((PI - x) * (PI - x) - PI * PI / 8) / qL ((PI - x) * (PI - x) - PI * PI / 8) := by
    simp only [core, if_neg (not_lt.2 h0)]
  rw [hc]
  have := abs_sub_le ((PI - x) * pL ((PI - x) * (PI - x) - PI * PI / 8) / qL ((PI - x) * (PI - x) - PI * PI / 8)) (Cl2 (π - (PI - x))) (Cl2 x)
  have : (0.6932 : ℝ) * |π - (PI - x) - x| ≤ 0.6932 * 1.2248e-16 := mul_le_mul_of_nonneg_left e3 (by norm_num)
  norm_num at *
  linarith

/-- what is returned for a reduced argument -/
noncomputable def value (x : ℝ) : ℝ := if x = 0 then x else if x = PI then 0 else core x

theorem value_error {x : ℝ} (h0 : 0 ≤ x) (h1 : x ≤ PI + 3e-16) : |value x - Cl2 x| ≤ 111 / 10 ^ 18 := by
  unfold value
  split_ifs with a b
  · rw [a, Cl2_zero]; norm_num
  · have := large_total (x := x) (by rw [b]; linarith [PI_pos]) h1
    have : core x = 0 := by
      rw [b]; simp only [core, if_neg (show ¬ PI < PI / 2 by linarith [PI_pos]), sub_self, zero_mul, zero_div]
    rw [← this]; assumption
  · rcases lt_or_ge x (PI / 2) with h | h
    · have := small_total (lt_of_le_of_ne h0 (Ne.symm a)) h
      refine this.trans (by norm_num)
    · exact large_total h h1

/-! ### The argument reduction -/

theorem clausen2_value (x : ℝ) : clausen2 x = (reduce x).2 * value (reduce x).1 := by
  simp only [clausen2, value]
  split_ifs with a b
  · rw [a]; simp
  · simp
  · rfl

theorem reduce_nonneg {x : ℝ} (h0 : 0 ≤ x) (h1 : x < 2 * PI) :
    reduce x = if PI < x then ((p0 - x) + p1, -1) else (x, 1) := by
  simp only [reduce, if_neg (not_lt.2 h0), if_neg (not_le.2 h1)]

theorem error_nonneg {x : ℝ} (h0 : 0 ≤ x) (h1 : x < 2 * PI) : |clausen2 x - Cl2 x| ≤ 12 / 10 ^ 17 := by
  rw [clausen2_value, reduce_nonneg h0 h1]
  by_cases h : PI < x
  · rw [if_pos h]
    have b := two_pi_close
    rw [abs_le] at b
    have c1 := PI_lt; have c2 := PI_close; have c3 := PI_gt; have c4 := PI_far
    norm_num at b c2 c4
    have v := value_error (x := p0 - x + p1) (by linarith) (by norm_num; linarith)
    have l := Cl2_lipschitz (a := p0 - x + p1) (b := 2 * π - x) (M := 38) fun t ht => by
      have := ht.1; have := ht.2
      rw [inf_le_iff] at *
      rw [le_sup_iff] at *
      apply log_low
      · norm_num
        rcases ‹p0 - x + p1 ≤ t ∨ 2 * π - x ≤ t› with h | h <;> linarith
      · rcases ‹t ≤ p0 - x + p1 ∨ t ≤ 2 * π - x› with h | h <;> linarith [pi_lt_d2]
    have hd : |p0 - x + p1 - (2 * π - x)| ≤ 1.2e-19 := by rw [abs_le]; norm_num; constructor <;> linarith
    have e : Cl2 x = -Cl2 (2 * π - x) := by rw [Cl2_two_pi_sub, neg_neg]
    rw [e]
    have : |(-1) * value (p0 - x + p1) - -Cl2 (2 * π - x)| = |value (p0 - x + p1) - Cl2 (2 * π - x)| := by
      rw [← abs_neg]; congr 1; ring
    simp only [this]
    have t := abs_sub_le (value (p0 - x + p1)) (Cl2 (p0 - x + p1)) (Cl2 (2 * π - x))
    norm_num at hd v ⊢
    linarith
  · rw [if_neg h]
    simp only [one_mul]
    refine (value_error h0 (by have := not_lt.1 h; norm_num; linarith)).trans (by norm_num)

theorem fmod_neg_free {x : ℝ} : reduce (-x) = ((reduce x).1, -(reduce x).2) ∨ x = 0 := by
  rcases lt_trichotomy x 0 with h | h | h
  · left
    simp only [reduce, if_pos h, if_neg (show ¬ -x < 0 by linarith)]
    split_ifs <;> simp
  · right; exact h
  · left
    simp only [reduce, if_pos (show -x < 0 by linarith), if_neg (show ¬ x < 0 by linarith), neg_neg]
    split_ifs <;> simp

/-! ### The property -/

/-- **C34.** `clausen_2` is odd. -/
theorem C34_odd (x : ℝ) : clausen2 (-x) = -clausen2 x := by
  rcases fmod_neg_free (x := x) with h | h
  · rw [clausen2_value, h, clausen2_value]; ring
  · subst h
    have : clausen2 0 = 0 := by
      rw [clausen2_value, reduce_nonneg le_rfl (by linarith [PI_pos]), if_neg (by linarith [PI_pos])]
      simp [value]
    rw [neg_zero, this, neg_zero]

/-- **C34.** For arguments within one period on either side of zero (`|x| < 2 PI`, `PI` the binary64 value) the result differs from the
Clausen integral by at most `1.2e-16`. -/
theorem C34_error {x : ℝ} (h : |x| < 2 * PI) :
    abs (clausen2 x - -∫ t in (0:ℝ)..x, Real.log |2 * Real.sin (t / 2)|) ≤ 12 / 10 ^ 17 := by
  change |clausen2 x - Cl2 x| ≤ _
  rw [abs_lt] at h
  rcases le_or_gt 0 x with h0 | h0
  · exact error_nonneg h0 h.2
  · have := error_nonneg (x := -x) (by linarith) (by linarith)
    rw [C34_odd, Cl2_neg, ← neg_sub', abs_neg] at this
    exact this

/-- non-trivial arguments meet the hypothesis -/
example : |(-5 : ℝ)| < 2 * PI ∧ |(1 : ℝ)| < 2 * PI := by
  have := PI_gt
  norm_num at this ⊢
  constructor <;> linarith

/-- **C34.** On each side of zero the implementation is exactly periodic, with period `2 PI`. -/
theorem C34_period {x : ℝ} (h : 0 ≤ x) (n : ℕ) : clausen2 (x + n * (2 * PI)) = clausen2 x := by
  have hP := PI_pos
  have key : ∀ y : ℝ, 0 ≤ y → reduce y = (if PI < fmod y (2 * PI) then ((p0 - fmod y (2 * PI)) + p1, -1) else (fmod y (2 * PI), 1)) := by
    intro y hy
    simp only [reduce, if_neg (not_lt.2 hy)]
    by_cases h : 2 * PI ≤ y
    · simp only [if_pos h]
    · have : fmod y (2 * PI) = y := by
        unfold fmod
        have : ⌊y / (2 * PI)⌋ = 0 := by
          rw [Int.floor_eq_zero_iff]
          exact ⟨by positivity, by rw [div_lt_one (by positivity)]; exact not_le.1 h⟩
        rw [this]; simp
      simp only [if_neg h, this]
  have hf : fmod (x + n * (2 * PI)) (2 * PI) = fmod x (2 * PI) := by
    unfold fmod
    have : (x + n * (2 * PI)) / (2 * PI) = x / (2 * PI) + n := by field_simp
    rw [this, Int.floor_add_natCast]
    push_cast; ring
  rw [clausen2_value, clausen2_value, key _ (by positivity), key x h, hf]

/-- the nearest multiple below: every argument is covered by the two theorems above -/
theorem fmod_range {x : ℝ} : 0 ≤ fmod x (2 * PI) ∧ fmod x (2 * PI) < 2 * PI := by
  have hP : 0 < 2 * PI := by linarith [PI_pos]
  unfold fmod
  have h1 := Int.floor_le (x / (2 * PI))
  have h2 := Int.lt_floor_add_one (x / (2 * PI))
  rw [le_div_iff₀ hP] at h1
  rw [div_lt_iff₀ hP] at h2
  constructor <;> nlinarith

/-- **C34.** The reduced argument: it lies between zero and `PI` (up to `3e-16`), the rational functions are evaluated only where
their denominators are at least `1/10`, and the logarithm only at positive arguments. -/
theorem C34_reduced (x : ℝ) : 0 ≤ (reduce x).1 ∧ (reduce x).1 ≤ PI + 3e-16 ∧ ((reduce x).2 = 1 ∨ (reduce x).2 = -1) ∧
    ((reduce x).1 < PI / 2 → 1 / 10 ≤ qS ((reduce x).1 * (reduce x).1)) ∧
    (PI / 2 ≤ (reduce x).1 → 1 / 10 ≤ qL ((PI - (reduce x).1) * (PI - (reduce x).1) - PI * PI / 8)) := by
  have c1 := PI_lt; have c2 := PI_close; have c3 := PI_gt; have c4 := PI_far
  have b := two_pi_close
  rw [abs_le] at b
  have hr : 0 ≤ (reduce x).1 ∧ (reduce x).1 ≤ PI + 3e-16 ∧ ((reduce x).2 = 1 ∨ (reduce x).2 = -1) := by
    norm_num at b c2 c4 ⊢
    obtain ⟨y, s, hy0, hy1, hs, e⟩ : ∃ y s, 0 ≤ y ∧ y < 2 * PI ∧ (s = 1 ∨ s = -1) ∧
        reduce x = if PI < y then ((p0 - y) + p1, -s) else (y, s) := by
      simp only [reduce]
      by_cases h0 : x < 0 <;> simp only [h0, if_true, if_false]
      · by_cases h : 2 * PI ≤ -x <;> simp only [h, if_true, if_false]
        · exact ⟨_, -1, fmod_range.1, fmod_range.2, Or.inr rfl, rfl⟩
        · exact ⟨_, -1, by linarith, not_le.1 h, Or.inr rfl, rfl⟩
      · by_cases h : 2 * PI ≤ x <;> simp only [h, if_true, if_false]
        · exact ⟨_, 1, fmod_range.1, fmod_range.2, Or.inl rfl, rfl⟩
        · exact ⟨_, 1, not_lt.1 h0, not_le.1 h, Or.inl rfl, rfl⟩
    rw [e]
    split_ifs with h
    · refine ⟨by simp only; linarith, by simp only; linarith, ?_⟩
      rcases hs with rfl | rfl
      · right; rfl
      · left; simp
    · exact ⟨hy0, by have := not_lt.1 h; simp only; linarith, hs⟩
  obtain ⟨h0, h1, h2⟩ := hr
  refine ⟨h0, h1, h2, fun h => ?_, fun h => ?_⟩
  · have : (reduce x).1 ≤ 1.5708 := by linarith [pi_lt_d4]
    have := qS_ge (y := (reduce x).1 * (reduce x).1) (by positivity) (by nlinarith)
    linarith
  · norm_num at h1 c2
    apply qL_ge (mul_self_nonneg _)
    have u : PI - (reduce x).1 ≤ 1.5708 := by linarith [pi_lt_d4]
    have l : -1 ≤ PI - (reduce x).1 := by linarith
    nlinarith

/-- **C34.** Consequence for every argument: with `n` the number of whole periods `2 PI` in `|x|`, the result is the Clausen integral
at `|x| - n 2 PI`, with the sign of `x`, up to `1.2e-16`.  (The true period `2 π` is larger by `2.45e-16`, so the phase drifts by
`2.45e-16 n`.) -/
theorem C34_every_argument (x : ℝ) : ∃ n : ℕ, ∃ r, 0 ≤ r ∧ r < 2 * PI ∧ |x| = r + n * (2 * PI) ∧
    abs (clausen2 |x| - Cl2 r) ≤ 12 / 10 ^ 17 ∧ clausen2 x = (if x < 0 then -1 else 1) * clausen2 |x| := by
  have hP : 0 < 2 * PI := by linarith [PI_pos]
  have hn : 0 ≤ ⌊|x| / (2 * PI)⌋ := Int.floor_nonneg.2 (by positivity)
  refine ⟨⌊|x| / (2 * PI)⌋.toNat, fmod |x| (2 * PI), fmod_range.1, fmod_range.2, ?_, ?_, ?_⟩
  · have : ((⌊|x| / (2 * PI)⌋.toNat : ℕ) : ℝ) = (⌊|x| / (2 * PI)⌋ : ℝ) := by exact_mod_cast Int.toNat_of_nonneg hn
    rw [this]; unfold fmod; ring
  · have e : |x| = fmod |x| (2 * PI) + (⌊|x| / (2 * PI)⌋.toNat : ℕ) * (2 * PI) := by
      have : ((⌊|x| / (2 * PI)⌋.toNat : ℕ) : ℝ) = (⌊|x| / (2 * PI)⌋ : ℝ) := by exact_mod_cast Int.toNat_of_nonneg hn
      rw [this]; unfold fmod; ring
    have := C34_period (x := fmod |x| (2 * PI)) fmod_range.1 ⌊|x| / (2 * PI)⌋.toNat
    rw [← e] at this
    rw [this]
    exact error_nonneg fmod_range.1 fmod_range.2
  · split_ifs with h
    · rw [abs_of_neg h, C34_odd]; ring
    · rw [abs_of_nonneg (not_lt.1 h)]; ring

/-- **C34, finding.** The drift is not harmless for relative accuracy: at the binary64 number nearest to `2 π` the result is exactly
`0`, while the Clausen function is below `-7e-15` there. -/
theorem C34_zero_at_two_PI : clausen2 (2 * PI) = 0 ∧ Cl2 (2 * PI) ≤ -7e-15 := by
  have c1 := PI_lt; have c2 := PI_close; have c3 := PI_gt; have c4 := PI_far
  constructor
  · have := C34_period le_rfl 1
    rw [zero_add, Nat.cast_one, one_mul] at this
    rw [this]
    have := C34_odd 0
    rw [neg_zero] at this
    linarith
  · have e : Cl2 (2 * PI) = -Cl2 (2 * π - 2 * PI) := by rw [Cl2_two_pi_sub, neg_neg]
    rw [e]
    set d := 2 * π - 2 * PI with hd
    have d0 : 2.4492e-16 ≤ d := by rw [hd]; norm_num at c4 ⊢; linarith
    have d1 : d ≤ 2.4496e-16 := by rw [hd]; norm_num at c2 ⊢; linarith
    have dp : 0 < d := lt_of_lt_of_le (by norm_num) d0
    rw [Cl2_small dp.le (by norm_num at d1; linarith [pi_gt_d2])]
    have hG : 0 ≤ G d := by
      unfold G
      apply intervalIntegral.integral_nonneg dp.le
      intro t ht
      rw [neg_nonneg]
      exact Real.log_nonpos (sinc_pos (by linarith [ht.1]) (by norm_num at d1; linarith [ht.2, pi_gt_d2])).le (sinc_le_one _)
    have hl : Real.log d ≤ -(51 * Real.log 2) := by
      have : Real.log d ≤ Real.log ((2 : ℝ)⁻¹ ^ 51) := Real.log_le_log dp (d1.trans (by norm_num))
      rw [Real.log_pow, Real.log_inv] at this
      push_cast at this; linarith
    have l2 := Real.log_two_gt_d9
    have : 36 ≤ 1 - Real.log d := by linarith
    have : 2.4492e-16 * 36 ≤ d * (1 - Real.log d) := mul_le_mul d0 this (by norm_num) dp.le
    norm_num at this ⊢
    linarith

end Himalaya.Clausen
