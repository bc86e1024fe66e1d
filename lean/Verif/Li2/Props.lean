import Verif.Li2.Pade

/-!
# Properties of the dilogarithm (C33)
-/

namespace Himalaya.Li2
open Real

/-- The argument reduction always produces a value in `(0, 1/2]` and a sign. -/
theorem reduce_range (x : ℝ) {y r s : ℝ} (h : reduce x = .rational y r s) :
    0 < y ∧ y ≤ 1 / 2 ∧ (s = 1 ∨ s = -1) := by
  unfold reduce at h
  split_ifs at h with h1 h2 h3 h4 h5 h6 h7 h8 <;> simp only [Red.rational.injEq] at h <;>
    obtain ⟨rfl, -, rfl⟩ := h
  · have : 0 < 1 - x := by linarith
    refine ⟨by positivity, ?_, Or.inl rfl⟩
    rw [div_le_div_iff₀ this (by norm_num)]; linarith
  · have h5 : x - 1 < 0 := by linarith
    have h2' : -1 < x := lt_of_le_of_ne (not_lt.1 h1) (Ne.symm h2)
    refine ⟨div_pos_of_neg_of_neg h3 h5, ?_, Or.inr rfl⟩
    rw [div_le_iff_of_neg h5]; linarith
  · have : 0 < x := lt_of_le_of_ne (not_lt.1 h3) (Ne.symm h4)
    exact ⟨this, by norm_num at h5 ⊢; linarith, Or.inl rfl⟩
  · norm_num at h5
    exact ⟨by linarith, by linarith, Or.inr rfl⟩
  · have hx : 1 < x := lt_of_le_of_ne (not_lt.1 h6) (Ne.symm h7)
    have : 0 < x := by linarith
    have e : 1 - 1 / x = (x - 1) / x := by field_simp
    rw [e]
    refine ⟨div_pos (by linarith) this, ?_, Or.inl rfl⟩
    rw [div_le_div_iff₀ this (by norm_num)]; linarith
  · have : 2 ≤ x := not_lt.1 h8
    have hx : 0 < x := by linarith
    refine ⟨by positivity, ?_, Or.inr rfl⟩
    rw [div_le_div_iff₀ hx (by norm_num)]; linarith

theorem PI_sq_bound : |PI * PI - π * π| ≤ 25 / 10 ^ 17 := by
  have h1 := Real.pi_gt_d20
  have h2 := Real.pi_lt_d20
  have e : PI * PI - π * π = (PI - π) * (PI + π) := by ring
  rw [e, abs_mul]
  have a1 : |PI - π| ≤ 39 / 10 ^ 18 := by
    unfold PI; rw [abs_le]; constructor <;> linarith
  have a2 : |PI + π| ≤ 64 / 10 := by
    unfold PI; rw [abs_of_pos (by positivity)]; linarith
  calc |PI - π| * |PI + π| ≤ 39 / 10 ^ 18 * (64 / 10) := by gcongr
    _ ≤ _ := by norm_num

/-- The reduction is exact up to the literal used for `π`: with `r` corrected by `c (π² - PI²)`, `|c| ≤ 1/3`. -/
theorem reduce_exact (x : ℝ) :
    (∀ v, reduce x = .value v → |v - Li2 x| ≤ 5 / 10 ^ 17) ∧
    ∀ y r s, reduce x = .rational y r s → |r + s * Li2 y - Li2 x| ≤ 9 / 10 ^ 17 := by
  have hpi := abs_le.1 PI_sq_bound
  constructor
  · intro v h
    unfold reduce at h
    split_ifs at h with h1 h2 h3 h4 h5 h6 h7 h8 <;> simp only [Red.value.injEq] at h <;> subst h
    · rw [h2, Li2_neg_one, abs_le]; constructor <;> nlinarith
    · rw [h4, Li2_zero]; norm_num
    · rw [h7, Li2_one, abs_le]; constructor <;> nlinarith
  · intro y r s h
    unfold reduce at h
    split_ifs at h with h1 h2 h3 h4 h5 h6 h7 h8 <;> simp only [Red.rational.injEq] at h <;>
      obtain ⟨rfl, rfl, rfl⟩ := h
    · rw [reduce_lt_neg_one (x := x) (by linarith), abs_le]
      constructor <;> nlinarith
    · have := Li2_landen (x := x) (by linarith)
      have e : Li2 x = -(Real.log (1 + -x)) ^ 2 / 2 - Li2 (x / (x - 1)) := by
        rw [← sub_eq_add_neg]; linarith
      rw [e, abs_le]
      constructor <;> nlinarith
    · norm_num
    · have := Li2_reflect x
      rw [sub_eq_add_neg] at this
      have e : Li2 x = π * π / 6 - Real.log x * Real.log (1 + -x) - Li2 (1 + -x) := by linarith
      rw [e, ← sub_eq_add_neg, abs_le]
      constructor <;> nlinarith
    · have hx : 1 < x := lt_of_le_of_ne (not_lt.1 h6) (Ne.symm h7)
      rw [reduce_one_two (x := x) (by linarith), abs_le]
      constructor <;> nlinarith
    · have hx : 2 ≤ x := not_lt.1 h8
      have := Li2_inv (x := x) (by linarith)
      have e : Li2 x = π * π / 3 - (Real.log x) ^ 2 / 2 - Li2 (1 / x) := by linarith
      rw [e, abs_le]
      constructor <;> nlinarith

/-- **C33.** For every real argument the routine differs from the real part of the dilogarithm,
`-∫₀ˣ log|1-t|/t dt`, by at most `1.4·10⁻¹⁶`. -/
theorem C33_dilog_error (x : ℝ) : |dilog x - ∫ t in (0:ℝ)..x, -Real.log (1 - t) / t| ≤ 14 / 10 ^ 17 := by
  show |dilog x - Li2 x| ≤ _
  have hr := reduce_exact x
  rcases h : reduce x with v | ⟨y, r, s⟩
  · have := hr.1 v h
    have e : dilog x = v := by simp [dilog, h]
    rw [e]; linarith
  · have h1 := hr.2 y r s h
    obtain ⟨h0, h2, hs⟩ := reduce_range x h
    have h3 := pade_error h0.le h2
    have e : dilog x = r + s * y * dilogP y / dilogQ y := by simp [dilog, h]
    have e2 : dilog x - Li2 x = (r + s * Li2 y - Li2 x) + s * (y * dilogP y / dilogQ y - Li2 y) := by
      rw [e]; ring
    have h4 : |s * (y * dilogP y / dilogQ y - Li2 y)| ≤ 5 / 10 ^ 17 := by
      rw [abs_mul]
      have : |s| = 1 := by rcases hs with rfl | rfl <;> simp
      rw [this, one_mul]; exact h3
    rw [e2]
    refine (abs_add_le _ _).trans ?_
    linarith

/-- **C33, documented accuracy.** On `[0, 1/2)`, where no reduction is needed, the error is at most the `5·10⁻¹⁷` documented in
the source; the reference value is the power series. -/
theorem C33_documented_error {x : ℝ} (h0 : 0 ≤ x) (h1 : x < 1 / 2) :
    |dilog x - ∑' n : ℕ, x ^ (n + 1) / ((n : ℝ) + 1) ^ 2| ≤ 5 / 10 ^ 17 := by
  rw [← Li2_eq_tsum h0 (by linarith)]
  rcases h0.eq_or_lt with rfl | h
  · rw [Li2_zero]; norm_num [dilog, reduce]
  · have e : reduce x = .rational x 0 1 := by
      unfold reduce
      rw [if_neg (by linarith), if_neg (by linarith), if_neg (by linarith), if_neg h.ne', if_pos (by norm_num; exact h1)]
    have := pade_error h0 h1.le
    have e2 : dilog x = x * dilogP x / dilogQ x := by simp [dilog, e]
    rw [e2]; exact this

/-- **C33, no division by zero.** In every branch the denominator is positive. -/
theorem C33_denominator (x : ℝ) {y r s : ℝ} (h : reduce x = .rational y r s) :
    0 < y ∧ y ≤ 1 / 2 ∧ 1 / 10 ≤ dilogQ y :=
  ⟨(reduce_range x h).1, (reduce_range x h).2.1, dilogQ_ge (reduce_range x h).1.le (reduce_range x h).2.1⟩

/-- **C33, consequence.** The identities between dilogarithms on which cancellations in the threshold corrections rely hold for
the routine up to rounding of the reference: Euler's reflection for every argument. -/
theorem C33_reflection (x : ℝ) :
    |dilog x + dilog (1 - x) - (π ^ 2 / 6 - Real.log x * Real.log (1 - x))| ≤ 28 / 10 ^ 17 := by
  have h1 := abs_le.1 (C33_dilog_error x)
  have h2 := abs_le.1 (C33_dilog_error (1 - x))
  have h3 := Li2_reflect x
  unfold Li2 at h3
  rw [abs_le]
  constructor <;> linarith [h1.1, h1.2, h2.1, h2.2]

/-- **C33, inversion.** -/
theorem C33_inversion {x : ℝ} (hx : 0 < x) :
    |dilog x + dilog (1 / x) - (π ^ 2 / 3 - (Real.log x) ^ 2 / 2)| ≤ 28 / 10 ^ 17 := by
  have h1 := abs_le.1 (C33_dilog_error x)
  have h2 := abs_le.1 (C33_dilog_error (1 / x))
  have h3 := Li2_inv hx
  unfold Li2 at h3
  rw [abs_le]
  constructor <;> linarith [h1.1, h1.2, h2.1, h2.2]

/-- The branches are taken: one argument in each. -/
example : (∃ y r s, reduce (-3) = .rational y r s) ∧ (∃ v, reduce (-1) = .value v) ∧
    (∃ y r s, reduce (3 / 2) = .rational y r s) ∧ (∃ y r s, reduce 5 = .rational y r s) := by
  refine ⟨?_, ?_, ?_, ?_⟩ <;> norm_num [reduce]

/-! ### Complex argument -/

/-- value of the polynomial with coefficients `cs` (highest first) -/
def polyRev (z : ℂ) (cs : List ℝ) : ℂ := cs.foldl (fun (acc : ℂ) (c : ℝ) => acc * z + (c : ℂ)) 0

theorem hornerLoop_spec (z : ℂ) (cs : List ℝ) (a b : ℝ) :
    (z * ((hornerLoop (z.re + z.re) (z.re ^ 2 + z.im ^ 2) (a, b) cs).1 : ℂ)
      + ((hornerLoop (z.re + z.re) (z.re ^ 2 + z.im ^ 2) (a, b) cs).2 : ℂ))
      = cs.foldl (fun (acc : ℂ) (c : ℝ) => acc * z + (c : ℂ)) (z * a + b) := by
  induction cs generalizing a b with
  | nil => simp [hornerLoop]
  | cons c cs ih =>
    simp only [hornerLoop, List.foldl_cons, ih]
    congr 1
    push_cast
    have hz : z * z = (z.re + z.re) * z - (z.re ^ 2 + z.im ^ 2) := by
      apply Complex.ext <;> simp [pow_two] <;> ring
    linear_combination (-(a : ℂ)) * hz

/-- **C33, complex Horner scheme.** For every complex argument and every list of at least two real coefficients, the two-term
recurrence evaluates the polynomial `Σ c_k z^k`. -/
theorem C33_horner (z : ℂ) (c1 c0 : ℝ) (cs : List ℝ) :
    horner z (c1 :: c0 :: cs) = polyRev z (c1 :: c0 :: cs) := by
  have h := hornerLoop_spec z cs c1 c0
  have e : polyRev z (c1 :: c0 :: cs) = cs.foldl (fun (acc : ℂ) (c : ℝ) => acc * z + (c : ℂ)) (z * c1 + c0) := by
    simp [polyRev, mul_comm]
  rw [e, ← h]
  simp only [horner]
  apply Complex.ext <;> simp

example : horner Complex.I [1, 0, 0] = -1 := by
  rw [C33_horner]; simp [polyRev]

/-- **C33, real axis.** The complex routine agrees with the real one on the real axis and returns the imaginary part of the
branch that is continuous from below, `-π log x` for `x > 1`, to within `4·10⁻¹⁷ log x`. -/
theorem C33_complex_real_axis (x : ℝ) :
    (cdilog x).re = dilog x ∧
    (x ≤ 1 → (cdilog x).im = 0) ∧
    (1 < x → |(cdilog x).im - -(π * Real.log x)| ≤ 4 / 10 ^ 17 * Real.log x) := by
  refine ⟨?_, ?_, ?_⟩
  · by_cases h : x ≤ 1 <;> simp [cdilog, h]
  · intro h; simp [cdilog, h]
  · intro h
    have hl : 0 < Real.log x := Real.log_pos h
    have e : (cdilog x).im = -PI * Real.log x := by simp [cdilog, not_le.2 h]
    have h1 := Real.pi_gt_d20
    have h2 := Real.pi_lt_d20
    have hp : |π - PI| ≤ 4 / 10 ^ 17 := by
      unfold PI; rw [abs_le]; constructor <;> linarith
    have : (cdilog x).im - -(π * Real.log x) = (π - PI) * Real.log x := by rw [e]; ring
    rw [this, abs_mul, abs_of_pos hl]
    gcongr

end Himalaya.Li2
