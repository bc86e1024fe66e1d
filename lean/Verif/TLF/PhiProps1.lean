import Verif.TLF.Phi
import Verif.TLF.PhiSpec

/-!
# The two-loop function `phi_xyz`: symmetry, homogeneity and accuracy for `λ² > 0` (C39)
-/

namespace Himalaya.TLF.Phi
open Real

/-! ### sorting -/

theorem sort_spec (x y z : ℝ) : (sort x y z).1 ≤ (sort x y z).2.1 ∧ (sort x y z).2.1 ≤ (sort x y z).2.2 ∧
    ([(sort x y z).1, (sort x y z).2.1, (sort x y z).2.2].Perm [x, y, z]) := by
  unfold sort
  by_cases h1 : y < x <;> simp only [h1, if_true, if_false]
  · by_cases h2 : z < x <;> simp only [h2, if_true, if_false]
    · by_cases h3 : z < y <;> simp only [h3, if_true, if_false]
      · exact ⟨h3.le, h1.le, by
          refine (List.Perm.swap y z [x]).trans ?_
          refine (List.Perm.cons y (List.Perm.swap x z [])).trans ?_
          exact (List.Perm.swap x y [z])⟩
      · exact ⟨not_lt.1 h3, h2.le, (List.Perm.cons y (List.Perm.swap x z [])).trans (List.Perm.swap x y [z])⟩
    · simp only [not_lt.2 h1.le, if_false]
      exact ⟨h1.le, not_lt.1 h2, List.Perm.swap x y [z]⟩
  · by_cases h2 : z < y <;> simp only [h2, if_true, if_false]
    · by_cases h3 : z < x <;> simp only [h3, if_true, if_false]
      · exact ⟨h3.le, not_lt.1 h1, (List.Perm.swap x z [y]).trans (List.Perm.cons x (List.Perm.swap y z []))⟩
      · exact ⟨not_lt.1 h3, h2.le, List.Perm.cons x (List.Perm.swap y z [])⟩
    · simp only [h1, if_false]
      exact ⟨not_lt.1 h1, not_lt.1 h2, List.Perm.refl _⟩

theorem sort_of_sorted {x y z : ℝ} (h1 : x ≤ y) (h2 : y ≤ z) : sort x y z = (x, y, z) := by
  unfold sort
  simp only [not_lt.2 h1, not_lt.2 h2, if_false]

/-- a sorted triple is determined by its elements -/
theorem sorted_unique {a b c x y z : ℝ} (h1 : a ≤ b) (h2 : b ≤ c) (k1 : x ≤ y) (k2 : y ≤ z) (h : [a, b, c].Perm [x, y, z]) :
    a = x ∧ b = y ∧ c = z := by
  have := List.Perm.eq_of_pairwise (le := (· ≤ ·)) (fun a b _ _ h1 h2 => le_antisymm h1 h2)
    (by simp [h1, h2, h1.trans h2]) (by simp [k1, k2, k1.trans k2]) h
  simpa using this

theorem sort_perm {x y z x' y' z' : ℝ} (h : [x, y, z].Perm [x', y', z']) : sort x y z = sort x' y' z' := by
  obtain ⟨a1, a2, a3⟩ := sort_spec x y z
  obtain ⟨b1, b2, b3⟩ := sort_spec x' y' z'
  obtain ⟨e1, e2, e3⟩ := sorted_unique a1 a2 b1 b2 (a3.trans (h.trans b3.symm))
  exact Prod.ext e1 (Prod.ext e2 e3)

/-- **C39**: the function does not depend on the order of its arguments -/
theorem C39_symmetric {x y z x' y' z' : ℝ} (h : [x, y, z].Perm [x', y', z']) : phi_xyz x y z = phi_xyz x' y' z' := by
  unfold phi_xyz; rw [sort_perm h]

example : phi_xyz 1 2 3 = phi_xyz 3 1 2 := C39_symmetric
  ((List.Perm.cons 1 (List.Perm.swap 3 2 [])).trans (List.Perm.swap 3 1 [2]))

theorem sort_mul {c : ℝ} (hc : 0 < c) (x y z : ℝ) :
    sort (c * x) (c * y) (c * z) = (c * (sort x y z).1, c * (sort x y z).2.1, c * (sort x y z).2.2) := by
  unfold sort
  simp only [mul_lt_mul_iff_right₀ hc]
  by_cases h1 : y < x
  · simp only [h1, if_true, mul_lt_mul_iff_right₀ hc]
    by_cases h2 : z < x
    · simp only [h2, if_true, mul_lt_mul_iff_right₀ hc]
      by_cases h3 : z < y <;> simp only [h3, if_true, if_false]
    · simp only [h2, if_false, mul_lt_mul_iff_right₀ hc]
      by_cases h3 : x < y <;> simp only [h3, if_true, if_false]
  · simp only [h1, if_false, mul_lt_mul_iff_right₀ hc]
    by_cases h2 : z < y
    · simp only [h2, if_true, mul_lt_mul_iff_right₀ hc]
      by_cases h3 : z < x <;> simp only [h3, if_true, if_false]
    · simp only [h2, if_false, mul_lt_mul_iff_right₀ hc, h1]

/-- **C39**: rescaling all squared masses rescales the function -/
theorem C39_homogeneous {c : ℝ} (hc : 0 < c) (x y z : ℝ) : phi_xyz (c * x) (c * y) (c * z) = c * phi_xyz x y z := by
  unfold phi_xyz
  rw [sort_mul hc]
  simp only [mul_div_mul_left _ _ hc.ne']
  ring

/-- `delta_xyz` is the Källén function of the three squared masses -/
theorem C39_delta {x y z : ℝ} (hz : z ≠ 0) : delta_xyz x y z = z ^ 2 * Spec.lambda2 (x / z) (y / z) := by
  unfold delta_xyz Spec.lambda2; field_simp; ring

theorem C39_delta_symmetric {x y z x' y' z' : ℝ} (h : [x, y, z].Perm [x', y', z']) : delta_xyz x y z = delta_xyz x' y' z' := by
  have e : ∀ a b c : ℝ, delta_xyz a b c = 2 * ([a, b, c].map (fun t => t ^ 2)).sum - ([a, b, c].sum) ^ 2 := by
    intro a b c; unfold delta_xyz; simp; ring
  rw [e, e, (h.map _).sum_eq, h.sum_eq]

/-! ### positive `λ²` -/

theorem eps_pos : 0 < eps := by unfold eps; norm_num
theorem eps_lt : eps < 2.3e-15 := by unfold eps; norm_num
theorem qdrt_pos : 0 < qdrt_eps := rpow_pos_of_pos eps_pos _
theorem qdrt_four : qdrt_eps ^ 4 = eps := by
  unfold qdrt_eps; rw [← rpow_natCast, ← rpow_mul eps_pos.le]; norm_num
theorem qdrt_lt : qdrt_eps < 2.18e-4 := by
  refine lt_of_pow_lt_pow_left₀ 4 (by norm_num) ?_
  rw [qdrt_four]; unfold eps; norm_num
theorem qdrt_gt : 2.17e-4 < qdrt_eps := by
  refine lt_of_pow_lt_pow_left₀ 4 qdrt_pos.le ?_
  rw [qdrt_four]; unfold eps; norm_num

theorem lambda_eq (u v : ℝ) : lambda_2 u v = Spec.lambda2 u v := by unfold lambda_2 Spec.lambda2; ring

/-- the roots used by the code -/
theorem roots_of {u v : ℝ} (hu : 0 < u) (huv : u ≤ v) (hv : v ≤ 1) (hl : 0 < Spec.lambda2 u v) :
    let l := √(Spec.lambda2 u v)
    let x := (1 - l + u - v) / 2
    let y := (1 - l - u + v) / 2
    0 < l ∧ l ≤ 1 ∧ 0 < x ∧ 0 < y ∧ x + y < 1 ∧ 1 - x - y = l ∧ x * (1 - y) = u ∧ y * (1 - x) = v := by
  intro l x y
  have hl0 : 0 < l := sqrt_pos.2 hl
  have hsq : l ^ 2 = (1 - u - v) ^ 2 - 4 * u * v := by rw [show l ^ 2 = _ from sq_sqrt hl.le]; rfl
  have hs : u + v < 1 := by
    by_contra hc
    have hc : 1 ≤ u + v := not_lt.1 hc
    have h1 : (v - u) ^ 2 ≤ (2 - u - v) ^ 2 := by apply pow_le_pow_left₀ <;> linarith
    have : 0 < l ^ 2 := by positivity
    nlinarith
  have h1 : l < 1 + u - v := by nlinarith
  have h2 : l < 1 - u + v := by nlinarith
  have h3 : l < 1 := by nlinarith
  refine ⟨hl0, h3.le, by simp only [x]; linarith, by simp only [y]; linarith, by simp only [x, y]; linarith, by simp only [x, y]; ring, ?_, ?_⟩
  · simp only [x, y]; linear_combination (-1 / 4) * hsq
  · simp only [x, y]; linear_combination (-1 / 4) * hsq

theorem pi23_close : |(3.2898681336964529 : ℝ) - π ^ 2 / 3| ≤ 1e-16 := by
  have h1 := Real.pi_gt_d20
  have h2 := Real.pi_lt_d20
  rw [abs_le]; constructor <;> norm_num at h1 h2 ⊢ <;> nlinarith

theorem dilog_err (x : ℝ) : |Li2.dilog x - Li2.Li2 x| ≤ 14 / 10 ^ 17 := Li2.C33_dilog_error x

/-- the bracket computed by the code, for arbitrary approximations `x`, `y` of the roots -/
theorem bracket_err (u v x y : ℝ) :
    |(-(log u * log v) + 2 * log x * log y - 2 * Li2.dilog x - 2 * Li2.dilog y + 3.2898681336964529) -
      (-(log u * log v) + 2 * log x * log y - 2 * Li2.Li2 x - 2 * Li2.Li2 y + π ^ 2 / 3)| ≤ 7e-16 := by
  have h1 := abs_le.1 (dilog_err x)
  have h2 := abs_le.1 (dilog_err y)
  have h3 := abs_le.1 pi23_close
  rw [abs_le]; constructor <;> norm_num at * <;> linarith

/-- from an error of the bracket to an error of the function -/
theorem pos_err {u v A B E : ℝ} (hl : 0 < Spec.lambda2 u v) (hl1 : √(Spec.lambda2 u v) ≤ 1) (hE : |A - B| ≤ E) {z : ℝ} (hz : 0 < z) :
    |A / √(Spec.lambda2 u v) * z * Spec.lambda2 u v / 2 - z * Spec.lambda2 u v / 2 * (B / √(Spec.lambda2 u v))| ≤ E / 2 * z := by
  have h0 : 0 < √(Spec.lambda2 u v) := sqrt_pos.2 hl
  have e : A / √(Spec.lambda2 u v) * z * Spec.lambda2 u v / 2 - z * Spec.lambda2 u v / 2 * (B / √(Spec.lambda2 u v)) =
      (A - B) * (√(Spec.lambda2 u v) * z / 2) := by
    have := sq_sqrt hl.le
    generalize √(Spec.lambda2 u v) = l at *
    rw [← this]; field_simp
  rw [e, abs_mul, abs_of_pos (by positivity : 0 < √(Spec.lambda2 u v) * z / 2)]
  have hE0 : 0 ≤ E := (abs_nonneg _).trans hE
  calc |A - B| * (√(Spec.lambda2 u v) * z / 2) ≤ E * (1 * z / 2) := by gcongr
    _ = E / 2 * z := by ring

/-- what the code evaluates for sorted positive arguments with `λ² > eps` -/
theorem phi_pos_unfold {x y z : ℝ} (hx : 0 < x) (hxy : x ≤ y) (hyz : y ≤ z) (hl : eps < Spec.lambda2 (x / z) (y / z)) :
    phi_xyz x y z = phi_pos (x / z) (y / z) * z * Spec.lambda2 (x / z) (y / z) / 2 := by
  have hz : 0 < z := hx.trans_le (hxy.trans hyz)
  have hu : x / z ≤ 1 := (div_le_one hz).2 (hxy.trans hyz)
  have hv : y / z ≤ 1 := (div_le_one hz).2 hyz
  have n0 : ¬ isZero (Spec.lambda2 (x / z) (y / z)) eps := by
    unfold isZero; rw [not_le]; exact hl.trans_le (le_abs_self _)
  unfold phi_xyz
  rw [sort_of_sorted hxy hyz]
  simp only [phi_uv, lambda_eq, n0, if_false, eps_pos.trans hl, if_true, hu, hv, true_and]

/-- the constant branch is not taken for `λ² > 0` -/
theorem not_one {u v : ℝ} (hu : 0 < u) (huv : u ≤ v) (hv : v ≤ 1) (hl : 0 < Spec.lambda2 u v) : ¬ (isEqual u 1 eps ∧ isEqual v 1 eps) := by
  obtain ⟨_, _, _, _, h5, h6, h7, h8⟩ := roots_of hu huv hv hl
  rintro ⟨h, _⟩
  unfold isEqual at h
  have := abs_le.1 h
  have := eps_lt
  have : 1 / 2 < u := by linarith [this]
  unfold Spec.lambda2 at hl
  nlinarith [mul_nonneg (sub_nonneg.2 hv) (sub_nonneg.2 huv)]

/-- **C39**: accuracy above threshold, `√x + √y < √z` (i.e. `λ² > 0`), outside of the series branches.  The arguments are sorted; for
other orders use `C39_symmetric`.  `Spec.phi` is the integral of Davydychev and Tausk. -/
theorem C39_accuracy_pos {x y z : ℝ} (hx : 0 < x) (hxy : x ≤ y) (hyz : y ≤ z) (hl : eps < Spec.lambda2 (x / z) (y / z))
    (hu : qdrt_eps ≤ x / z) (hsep : x = y ∨ eps < y / z - x / z) : |phi_xyz x y z - Spec.phi x y z| ≤ 4e-16 * z := by
  have hz : 0 < z := hx.trans_le (hxy.trans hyz)
  rw [phi_pos_unfold hx hxy hyz hl]
  unfold Spec.phi
  have hu0 : 0 < x / z := by positivity
  have huv : x / z ≤ y / z := by gcongr
  have hv1 : y / z ≤ 1 := (div_le_one hz).2 hyz
  have hsep : x / z = y / z ∨ eps < y / z - x / z := hsep.imp (fun h => by rw [h]) id
  generalize x / z = u at *
  generalize y / z = v at *
  have hl0 := eps_pos.trans hl
  obtain ⟨h1, h2, h3, h4, h5, h6, h7, h8⟩ := roots_of hu0 huv hv1 hl0
  have hP := Phi_pos h3 h4 h5
  rw [h7, h8, h6] at hP
  rw [hP]
  have key : phi_pos u v = (-(log u * log v) + 2 * log ((1 - √(Spec.lambda2 u v) + u - v) / 2) * log ((1 - √(Spec.lambda2 u v) - u + v) / 2)
      - 2 * Li2.dilog ((1 - √(Spec.lambda2 u v) + u - v) / 2) - 2 * Li2.dilog ((1 - √(Spec.lambda2 u v) - u + v) / 2) + 3.2898681336964529)
        / √(Spec.lambda2 u v) := by
    unfold phi_pos
    rw [if_neg (not_one hu0 huv hv1 hl0)]
    simp only [lambda_eq]
    rcases hsep with h | h
    · subst h
      have e1 : (1 - √(Spec.lambda2 u u) + u - u) / 2 = 0.5 * (1 - √(Spec.lambda2 u u)) := by ring
      have e2 : (1 - √(Spec.lambda2 u u) - u + u) / 2 = 0.5 * (1 - √(Spec.lambda2 u u)) := by ring
      have : isEqual u u eps := by unfold isEqual; simp [eps_pos.le]
      rw [if_pos this, if_neg (not_lt.2 hu), e1, e2]
      ring
    · have : ¬ isEqual u v eps := by unfold isEqual; rw [not_le, abs_sub_comm]; exact h.trans_le (le_abs_self _)
      rw [if_neg this]
      have hv : ¬ v < qdrt_eps := not_lt.2 (hu.trans huv)
      simp only [luv, hv, not_lt.2 hu, if_false]
      rw [show (0.5 : ℝ) * (1 - √(Spec.lambda2 u v) + u - v) = (1 - √(Spec.lambda2 u v) + u - v) / 2 by ring,
        show (0.5 : ℝ) * (1 - √(Spec.lambda2 u v) - u + v) = (1 - √(Spec.lambda2 u v) - u + v) / 2 by ring]
      ring
  rw [key]
  refine (pos_err hl0 h2 (bracket_err u v _ _) hz).trans ?_
  apply mul_le_mul_of_nonneg_right _ hz.le
  norm_num

example : |phi_xyz 1 2 10 - Spec.phi 1 2 10| ≤ 4e-16 * 10 := by
  have := qdrt_lt
  have := eps_lt
  refine C39_accuracy_pos (by norm_num) (by norm_num) (by norm_num) ?_ (by linarith) (Or.inr (by linarith))
  unfold Spec.lambda2; norm_num; linarith

/-- near the threshold the function vanishes, and the code returns zero -/
theorem C39_threshold {x y z : ℝ} (hxy : x ≤ y) (hyz : y ≤ z) (hl : |Spec.lambda2 (x / z) (y / z)| ≤ eps) : phi_xyz x y z = 0 := by
  unfold phi_xyz
  rw [sort_of_sorted hxy hyz]
  have : isZero (Spec.lambda2 (x / z) (y / z)) eps := hl
  simp only [phi_uv, lambda_eq, this, if_true, zero_mul, zero_div]

example : phi_xyz 1 1 4 = 0 := C39_threshold (by norm_num) (by norm_num) (by unfold Spec.lambda2; norm_num; exact eps_pos.le)

end Himalaya.TLF.Phi
