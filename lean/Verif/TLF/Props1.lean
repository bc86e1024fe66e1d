import Verif.TLF.One

/-!
# C32: the one-variable threshold loop functions

`F1 … F7`, `f1 … f4` below are the models (`Verif.TLF.Model`) in exact real arithmetic; `Spec.F1 …` are the formulas of arXiv:1407.4081.
-/

set_option linter.unusedSimpArgs false

namespace Himalaya.TLF
open Real Filter Topology

theorem tendsto_of_eq {f g : ℝ → ℝ} {a v : ℝ} (h : ∀ x, f x = g x) (hg : ContinuousAt g a) (hv : g a = v) : Tendsto f (𝓝[≠] a) (𝓝 v) := by
  have : f = g := funext h
  rw [this, ← hv]
  exact hg.tendsto.mono_left nhdsWithin_le_nhds

theorem tendsto_of_near {f p δ : ℝ → ℝ} {a v C : ℝ} {k : ℕ} (h : ∀ᶠ x in 𝓝[≠] a, |f x - p x| ≤ C * |δ x| ^ k) (hk : k ≠ 0)
    (hp : ContinuousAt p a) (hδ : ContinuousAt δ a) (h0 : δ a = 0) (hv : p a = v) : Tendsto f (𝓝[≠] a) (𝓝 v) := by
  have h1 : Tendsto (fun x => C * |δ x| ^ k) (𝓝[≠] a) (𝓝 0) := by
    have : ContinuousAt (fun x => C * |δ x| ^ k) a := by fun_prop
    have h2 := this.tendsto.mono_left (nhdsWithin_le_nhds (s := {a}ᶜ))
    simpa [h0, hk] using h2
  have h2 : Tendsto (fun x => f x - p x) (𝓝[≠] a) (𝓝 0) := squeeze_zero_norm' h h1
  have h3 := h2.add (hp.tendsto.mono_left (nhdsWithin_le_nhds (s := {a}ᶜ)))
  rw [zero_add, hv] at h3
  exact h3.congr fun x => by ring

/-- `x log x²` -/
noncomputable def xl (x : ℝ) : ℝ := x * log (x ^ 2)
theorem continuous_xl : Continuous xl := by
  have : xl = fun x => 2 * (x * log x) := by funext x; unfold xl; rw [log_pow]; push_cast; ring
  rw [this]; exact continuous_const.mul Real.continuous_mul_log
theorem xl_zero : xl 0 = 0 := by simp [xl]

theorem ev_near (η : ℝ) (hη : 0 < η) (a : ℝ) : ∀ᶠ x in 𝓝[≠] a, |x - a| ≤ η ∧ x ≠ a := by
  have h1 : ∀ᶠ x in 𝓝 a, |x - a| ≤ η := by
    have := Metric.ball_mem_nhds a hη
    filter_upwards [this] with x hx
    rw [Metric.mem_ball, Real.dist_eq] at hx; exact hx.le
  filter_upwards [nhdsWithin_le_nhds h1, self_mem_nhdsWithin] with x h h2
  exact ⟨h, h2⟩

theorem sq_sub_ne {x : ℝ} (h : |x - 1| ≤ 1 / 100) (hx : x ≠ 1) : x ^ 2 - 1 ≠ 0 := by
  have := abs_le.1 h
  have h2 : x ^ 2 - 1 = (x - 1) * (x + 1) := by ring
  rw [h2]; exact mul_ne_zero (sub_ne_zero.2 hx) (by linarith)

theorem five_ne : 5 ≠ 0 := by norm_num
theorem four_ne : 4 ≠ 0 := by norm_num
theorem tendsto_neg_punct : Tendsto (fun x : ℝ => -x) (𝓝[≠] (-1)) (𝓝[≠] 1) := by
  refine tendsto_nhdsWithin_iff.2 ⟨?_, ?_⟩
  · have : ContinuousAt (fun x : ℝ => -x) (-1) := by fun_prop
    have h := this.tendsto.mono_left (nhdsWithin_le_nhds (s := {(-1 : ℝ)}ᶜ))
    simpa using h
  · filter_upwards [self_mem_nhdsWithin] with x hx
    intro h; apply hx
    have : -x = 1 := h
    show x = -1; linarith

theorem F1_tend_one : Tendsto Spec.F1 (𝓝[≠] 1) (𝓝 (F1 1)) := by
  have hv : (F1 1 : ℝ) = 1 := by rw [F1_real]; norm_num
  rw [hv]
  refine tendsto_of_near (C := 1) (δ := fun x => x - 1) ?_ five_ne ?_ ?_ ?_ ?_ (p := fun x => 1 + (x - 1) * (0 + (x - 1) * ((-1/6) + (x - 1) * ((1/6) + (x - 1) * ((-2/15))))))
  · filter_upwards [ev_near (1 / 100) (by norm_num) 1] with x hx
    have := F1_near (sub_ne_zero.2 hx.2) (hx.1.trans (by norm_num))
    rw [add_sub_cancel] at this
    exact this.trans (mul_le_mul_of_nonneg_right (by norm_num) (by positivity))
  · fun_prop
  · fun_prop
  · norm_num
  · norm_num

theorem F3_tend_one : Tendsto Spec.F3 (𝓝[≠] 1) (𝓝 (F3 1)) := by
  have hv : (F3 1 : ℝ) = 1 := by rw [F3_real]; norm_num
  rw [hv]
  refine tendsto_of_near (C := 1) (δ := fun x => x - 1) ?_ five_ne ?_ ?_ ?_ ?_ (p := fun x => 1 + (x - 1) * ((5/9) + (x - 1) * ((-4/9) + (x - 1) * ((2/9) + (x - 1) * ((-7/90))))))
  · filter_upwards [ev_near (1 / 100) (by norm_num) 1] with x hx
    have := F3_near (sub_ne_zero.2 hx.2) (hx.1.trans (by norm_num))
    rw [add_sub_cancel] at this
    exact this.trans (mul_le_mul_of_nonneg_right (by norm_num) (by positivity))
  · fun_prop
  · fun_prop
  · norm_num
  · norm_num

theorem F4_tend_one : Tendsto Spec.F4 (𝓝[≠] 1) (𝓝 (F4 1)) := by
  have hv : (F4 1 : ℝ) = 1 := by rw [F4_real]; norm_num
  rw [hv]
  refine tendsto_of_near (C := 1) (δ := fun x => x - 1) ?_ five_ne ?_ ?_ ?_ ?_ (p := fun x => 1 + (x - 1) * ((-1/3) + (x - 1) * (0 + (x - 1) * ((2/15) + (x - 1) * ((-1/6))))))
  · filter_upwards [ev_near (1 / 100) (by norm_num) 1] with x hx
    have := F4_near (sub_ne_zero.2 hx.2) (hx.1.trans (by norm_num))
    rw [add_sub_cancel] at this
    exact this.trans (mul_le_mul_of_nonneg_right (by norm_num) (by positivity))
  · fun_prop
  · fun_prop
  · norm_num
  · norm_num

theorem F5_tend_one : Tendsto Spec.F5 (𝓝[≠] 1) (𝓝 (F5 1)) := by
  have hv : (F5 1 : ℝ) = 1 := by rw [F5_real]; norm_num
  rw [hv]
  refine tendsto_of_near (C := 1) (δ := fun x => x - 1) ?_ five_ne ?_ ?_ ?_ ?_ (p := fun x => 1 + (x - 1) * (0 + (x - 1) * ((-3/10) + (x - 1) * ((3/10) + (x - 1) * ((-3/14))))))
  · filter_upwards [ev_near (1 / 100) (by norm_num) 1] with x hx
    have := F5_near (sub_ne_zero.2 hx.2) (hx.1.trans (by norm_num))
    rw [add_sub_cancel] at this
    exact this.trans (mul_le_mul_of_nonneg_right (by norm_num) (by positivity))
  · fun_prop
  · fun_prop
  · norm_num
  · norm_num

theorem F2_tend_one : Tendsto Spec.F2 (𝓝[≠] 1) (𝓝 (F2 1)) := by
  have hv : (F2 1 : ℝ) = 1 := by rw [F2_real]; norm_num
  rw [hv]
  refine tendsto_of_near (C := 1) (δ := fun x => x ^ 2 - 1) ?_ (five_ne) ?_ ?_ ?_ ?_ (p := fun x => 1 + (x ^ 2 - 1) * (0 + (x ^ 2 - 1) * ((-1/10) + (x ^ 2 - 1) * ((1/10) + (x ^ 2 - 1) * ((-3/35))))))
  · filter_upwards [ev_near (1 / 100) (by norm_num) 1] with x hx
    exact (F2_near (add_sub_cancel _ _).symm (sq_sub_ne hx.1 hx.2) ((sq_near hx.1).trans (by norm_num))).trans (mul_le_mul_of_nonneg_right (by norm_num) (by positivity))
  · fun_prop
  · fun_prop
  · norm_num
  · norm_num

theorem F6_tend_one : Tendsto Spec.F6 (𝓝[≠] 1) (𝓝 (F6 1)) := by
  have hv : (F6 1 : ℝ) = 0 := by rw [F6_real]; norm_num
  rw [hv]
  refine tendsto_of_near (C := 1) (δ := fun x => x ^ 2 - 1) ?_ (four_ne) ?_ ?_ ?_ ?_ (p := fun x => 0 + (x ^ 2 - 1) * ((1/3) + (x ^ 2 - 1) * ((-1/8) + (x ^ 2 - 1) * ((1/15) + (x ^ 2 - 1) * ((1/24))))))
  · filter_upwards [ev_near (1 / 100) (by norm_num) 1] with x hx
    exact (F6_near (add_sub_cancel _ _).symm (sq_sub_ne hx.1 hx.2) ((sq_near hx.1).trans (by norm_num))).trans (mul_le_mul_of_nonneg_right (by norm_num) (by positivity))
  · fun_prop
  · fun_prop
  · norm_num
  · norm_num

theorem Spec.F6_neg (x : ℝ) : Spec.F6 (-x) = Spec.F6 x := by
  simp only [Spec.F6, neg_sq, show (-x) ^ 4 = x ^ 4 by ring]
theorem F6_tend_neg_one : Tendsto Spec.F6 (𝓝[≠] (-1)) (𝓝 (F6 (-1))) := by
  have hv : (F6 (-1) : ℝ) = F6 1 := by rw [F6_real, F6_real]; norm_num
  rw [hv]
  have := F6_tend_one.comp tendsto_neg_punct
  exact this.congr fun x => Spec.F6_neg x

theorem F7_tend_one : Tendsto Spec.F7 (𝓝[≠] 1) (𝓝 (F7 1)) := by
  have hv : (F7 1 : ℝ) = 1 := by rw [F7_real]; norm_num
  rw [hv]
  refine tendsto_of_near (C := 1) (δ := fun x => x ^ 2 - 1) ?_ (five_ne) ?_ ?_ ?_ ?_ (p := fun x => 1 + (x ^ 2 - 1) * ((3/2) + (x ^ 2 - 1) * ((-9/20) + (x ^ 2 - 1) * ((1/5) + (x ^ 2 - 1) * ((-3/28))))))
  · filter_upwards [ev_near (1 / 100) (by norm_num) 1] with x hx
    exact (F7_near (add_sub_cancel _ _).symm (sq_sub_ne hx.1 hx.2) ((sq_near hx.1).trans (by norm_num))).trans (mul_le_mul_of_nonneg_right (by norm_num) (by positivity))
  · fun_prop
  · fun_prop
  · norm_num
  · norm_num

theorem Spec.F7_neg (x : ℝ) : Spec.F7 (-x) = Spec.F7 x := by
  simp only [Spec.F7, neg_sq, show (-x) ^ 4 = x ^ 4 by ring]
theorem F7_tend_neg_one : Tendsto Spec.F7 (𝓝[≠] (-1)) (𝓝 (F7 (-1))) := by
  have hv : (F7 (-1) : ℝ) = F7 1 := by rw [F7_real, F7_real]; norm_num
  rw [hv]
  have := F7_tend_one.comp tendsto_neg_punct
  exact this.congr fun x => Spec.F7_neg x

theorem f1_tend_one : Tendsto Spec.f1 (𝓝[≠] 1) (𝓝 (f1 1)) := by
  have hv : (f1 1 : ℝ) = 1 := by rw [f1_real]; norm_num
  rw [hv]
  refine tendsto_of_near (C := 1) (δ := fun x => x ^ 2 - 1) ?_ (five_ne) ?_ ?_ ?_ ?_ (p := fun x => 1 + (x ^ 2 - 1) * ((4/7) + (x ^ 2 - 1) * ((-13/70) + (x ^ 2 - 1) * ((3/35) + (x ^ 2 - 1) * ((-23/490))))))
  · filter_upwards [ev_near (1 / 100) (by norm_num) 1] with x hx
    exact (f1_near (add_sub_cancel _ _).symm (sq_sub_ne hx.1 hx.2) ((sq_near hx.1).trans (by norm_num))).trans (mul_le_mul_of_nonneg_right (by norm_num) (by positivity))
  · fun_prop
  · fun_prop
  · norm_num
  · norm_num

theorem Spec.f1_neg (x : ℝ) : Spec.f1 (-x) = Spec.f1 x := by
  simp only [Spec.f1, neg_sq, show (-x) ^ 4 = x ^ 4 by ring]
theorem f1_tend_neg_one : Tendsto Spec.f1 (𝓝[≠] (-1)) (𝓝 (f1 (-1))) := by
  have hv : (f1 (-1) : ℝ) = f1 1 := by rw [f1_real, f1_real]; norm_num
  rw [hv]
  have := f1_tend_one.comp tendsto_neg_punct
  exact this.congr fun x => Spec.f1_neg x

theorem f2_tend_one : Tendsto Spec.f2 (𝓝[≠] 1) (𝓝 (f2 1)) := by
  have hv : (f2 1 : ℝ) = 1 := by rw [f2_real]; norm_num
  rw [hv]
  refine tendsto_of_near (C := 1) (δ := fun x => x ^ 2 - 1) ?_ (five_ne) ?_ ?_ ?_ ?_ (p := fun x => 1 + (x ^ 2 - 1) * ((16/27) + (x ^ 2 - 1) * ((-49/270) + (x ^ 2 - 1) * ((11/135) + (x ^ 2 - 1) * ((-83/1890))))))
  · filter_upwards [ev_near (1 / 100) (by norm_num) 1] with x hx
    exact (f2_near (add_sub_cancel _ _).symm (sq_sub_ne hx.1 hx.2) ((sq_near hx.1).trans (by norm_num))).trans (mul_le_mul_of_nonneg_right (by norm_num) (by positivity))
  · fun_prop
  · fun_prop
  · norm_num
  · norm_num

theorem Spec.f2_neg (x : ℝ) : Spec.f2 (-x) = Spec.f2 x := by
  simp only [Spec.f2, neg_sq, show (-x) ^ 4 = x ^ 4 by ring]
theorem f2_tend_neg_one : Tendsto Spec.f2 (𝓝[≠] (-1)) (𝓝 (f2 (-1))) := by
  have hv : (f2 (-1) : ℝ) = f2 1 := by rw [f2_real, f2_real]; norm_num
  rw [hv]
  have := f2_tend_one.comp tendsto_neg_punct
  exact this.congr fun x => Spec.f2_neg x

theorem f3_tend_one : Tendsto Spec.f3 (𝓝[≠] 1) (𝓝 (f3 1)) := by
  have hv : (f3 1 : ℝ) = 1 := by rw [f3_real]; norm_num
  rw [hv]
  refine tendsto_of_near (C := 1) (δ := fun x => x ^ 2 - 1) ?_ (five_ne) ?_ ?_ ?_ ?_ (p := fun x => 1 + (x ^ 2 - 1) * ((2/9) + (x ^ 2 - 1) * ((1/90) + (x ^ 2 - 1) * ((-2/45) + (x ^ 2 - 1) * ((29/630))))))
  · filter_upwards [ev_near (1 / 100) (by norm_num) 1] with x hx
    exact (f3_near (add_sub_cancel _ _).symm (sq_sub_ne hx.1 hx.2) ((sq_near hx.1).trans (by norm_num))).trans (mul_le_mul_of_nonneg_right (by norm_num) (by positivity))
  · fun_prop
  · fun_prop
  · norm_num
  · norm_num

theorem Spec.f3_neg (x : ℝ) : Spec.f3 (-x) = Spec.f3 x := by
  simp only [Spec.f3, neg_sq, show (-x) ^ 4 = x ^ 4 by ring]
theorem f3_tend_neg_one : Tendsto Spec.f3 (𝓝[≠] (-1)) (𝓝 (f3 (-1))) := by
  have hv : (f3 (-1) : ℝ) = f3 1 := by rw [f3_real, f3_real]; norm_num
  rw [hv]
  have := f3_tend_one.comp tendsto_neg_punct
  exact this.congr fun x => Spec.f3_neg x

theorem f4_tend_one : Tendsto Spec.f4 (𝓝[≠] 1) (𝓝 (f4 1)) := by
  have hv : (f4 1 : ℝ) = 1 := by rw [f4_real]; norm_num
  rw [hv]
  refine tendsto_of_near (C := 1) (δ := fun x => x ^ 2 - 1) ?_ (five_ne) ?_ ?_ ?_ ?_ (p := fun x => 1 + (x ^ 2 - 1) * ((2/21) + (x ^ 2 - 1) * ((13/210) + (x ^ 2 - 1) * ((-8/105) + (x ^ 2 - 1) * ((101/1470))))))
  · filter_upwards [ev_near (1 / 100) (by norm_num) 1] with x hx
    exact (f4_near (add_sub_cancel _ _).symm (sq_sub_ne hx.1 hx.2) ((sq_near hx.1).trans (by norm_num))).trans (mul_le_mul_of_nonneg_right (by norm_num) (by positivity))
  · fun_prop
  · fun_prop
  · norm_num
  · norm_num

theorem Spec.f4_neg (x : ℝ) : Spec.f4 (-x) = Spec.f4 x := by
  simp only [Spec.f4, neg_sq, show (-x) ^ 4 = x ^ 4 by ring]
theorem f4_tend_neg_one : Tendsto Spec.f4 (𝓝[≠] (-1)) (𝓝 (f4 (-1))) := by
  have hv : (f4 (-1) : ℝ) = f4 1 := by rw [f4_real, f4_real]; norm_num
  rw [hv]
  have := f4_tend_one.comp tendsto_neg_punct
  exact this.congr fun x => Spec.f4_neg x

theorem F5_tend_neg_one : Tendsto Spec.F5 (𝓝[≠] (-1)) (𝓝 (F5 (-1))) := by
  have hv : (F5 (-1) : ℝ) = -F5 1 := by rw [F5_real, F5_real]; norm_num
  rw [hv]
  have := (F5_tend_one.comp tendsto_neg_punct).neg
  exact this.congr fun x => by simp [Spec.F5_neg]

theorem F1_tend_zero : Tendsto Spec.F1 (𝓝[≠] 0) (𝓝 (F1 0)) := by
  have hv : (F1 0 : ℝ) = 0 := by rw [F1_real]; norm_num
  rw [hv]
  have hc := continuous_xl
  refine tendsto_of_eq (g := fun x => xl x / (x ^ 2 - 1)) (fun x => ?_) ?_ ?_
  · simp only [Spec.F1, xl]
  · fun_prop (disch := norm_num)
  · norm_num [xl_zero]

theorem F2_tend_zero : Tendsto Spec.F2 (𝓝[≠] 0) (𝓝 (F2 0)) := by
  have hv : (F2 0 : ℝ) = 0 := by rw [F2_real]; norm_num
  rw [hv]
  have hc := continuous_xl
  refine tendsto_of_eq (g := fun x => 6 * x * (x * (2 - 2 * x ^ 2) + (1 + x ^ 2) * xl x) / (x ^ 2 - 1) ^ 3) (fun x => ?_) ?_ ?_
  · simp only [Spec.F2, xl]; ring
  · fun_prop (disch := norm_num)
  · norm_num [xl_zero]

theorem F3_tend_zero : Tendsto Spec.F3 (𝓝[≠] 0) (𝓝 (F3 0)) := by
  have hv : (F3 0 : ℝ) = 0 := by rw [F3_real]; norm_num
  rw [hv]
  have hc := continuous_xl
  refine tendsto_of_eq (g := fun x => 2 * (x * (5 * (1 - x ^ 2)) + (1 + 4 * x ^ 2) * xl x) / (3 * (x ^ 2 - 1) ^ 2)) (fun x => ?_) ?_ ?_
  · simp only [Spec.F3, xl]; ring
  · fun_prop (disch := norm_num)
  · norm_num [xl_zero]

theorem F4_tend_zero : Tendsto Spec.F4 (𝓝[≠] 0) (𝓝 (F4 0)) := by
  have hv : (F4 0 : ℝ) = 0 := by rw [F4_real]; norm_num
  rw [hv]
  have hc := continuous_xl
  refine tendsto_of_eq (g := fun x => 2 * (x * (x ^ 2 - 1) - xl x) / (x ^ 2 - 1) ^ 2) (fun x => ?_) ?_ ?_
  · simp only [Spec.F4, xl]; ring
  · fun_prop (disch := norm_num)
  · norm_num [xl_zero]

theorem F5_tend_zero : Tendsto Spec.F5 (𝓝[≠] 0) (𝓝 (F5 0)) := by
  have hv : (F5 0 : ℝ) = 0 := by rw [F5_real]; norm_num
  rw [hv]
  have hc := continuous_xl
  refine tendsto_of_eq (g := fun x => 3 * (x * (1 - x ^ 4) + 2 * x ^ 2 * xl x) / (1 - x ^ 2) ^ 3) (fun x => ?_) ?_ ?_
  · simp only [Spec.F5, xl]; ring
  · fun_prop (disch := norm_num)
  · norm_num [xl_zero]

theorem F6_tend_zero : Tendsto Spec.F6 (𝓝[≠] 0) (𝓝 (F6 0)) := by
  have hv : (F6 0 : ℝ) = -3 / 4 := by rw [F6_real]; norm_num
  rw [hv]
  have hc := continuous_xl
  refine tendsto_of_eq (g := fun x => (x ^ 2 - 3) / (4 * (1 - x ^ 2)) + x * (x ^ 2 - 2) / (2 * (1 - x ^ 2) ^ 2) * xl x) (fun x => ?_) ?_ ?_
  · simp only [Spec.F6, xl]; ring
  · fun_prop (disch := norm_num)
  · norm_num [xl_zero]

theorem F7_tend_zero : Tendsto Spec.F7 (𝓝[≠] 0) (𝓝 (F7 0)) := by
  have hv : (F7 0 : ℝ) = -3 / 2 := by rw [F7_real]; norm_num
  rw [hv]
  have hc := continuous_xl
  refine tendsto_of_eq (g := fun x => -3 * (x ^ 4 - 6 * x ^ 2 + 1) / (2 * (x ^ 2 - 1) ^ 2) + 3 * x ^ 3 * (x ^ 2 - 3) / (x ^ 2 - 1) ^ 3 * xl x) (fun x => ?_) ?_ ?_
  · simp only [Spec.F7, xl]; ring
  · fun_prop (disch := norm_num)
  · norm_num [xl_zero]

theorem f1_tend_zero : Tendsto Spec.f1 (𝓝[≠] 0) (𝓝 (f1 0)) := by
  have hv : (f1 0 : ℝ) = 0 := by rw [f1_real]; norm_num
  rw [hv]
  have hc := continuous_xl
  refine tendsto_of_eq (g := fun x => 6 * (x ^ 2 + 3) * x ^ 2 / (7 * (x ^ 2 - 1) ^ 2) + 6 * (x ^ 2 - 5) * x ^ 3 * xl x / (7 * (x ^ 2 - 1) ^ 3)) (fun x => ?_) ?_ ?_
  · simp only [Spec.f1, xl]; ring
  · fun_prop (disch := norm_num)
  · norm_num [xl_zero]

theorem f2_tend_zero : Tendsto Spec.f2 (𝓝[≠] 0) (𝓝 (f2 0)) := by
  have hv : (f2 0 : ℝ) = 0 := by rw [f2_real]; norm_num
  rw [hv]
  have hc := continuous_xl
  refine tendsto_of_eq (g := fun x => 2 * (x ^ 2 + 11) * x ^ 2 / (9 * (x ^ 2 - 1) ^ 2) + 2 * (5 * x ^ 2 - 17) * x ^ 3 * xl x / (9 * (x ^ 2 - 1) ^ 3)) (fun x => ?_) ?_ ?_
  · simp only [Spec.f2, xl]; ring
  · fun_prop (disch := norm_num)
  · norm_num [xl_zero]

theorem f3_tend_zero : Tendsto Spec.f3 (𝓝[≠] 0) (𝓝 (f3 0)) := by
  have hv : (f3 0 : ℝ) = 4 / 3 := by rw [f3_real]; norm_num
  rw [hv]
  have hc := continuous_xl
  refine tendsto_of_eq (g := fun x => 2 * (x ^ 4 + 9 * x ^ 2 + 2) / (3 * (x ^ 2 - 1) ^ 2) + 2 * (x ^ 4 - 7 * x ^ 2 - 6) * x * xl x / (3 * (x ^ 2 - 1) ^ 3)) (fun x => ?_) ?_ ?_
  · simp only [Spec.f3, xl]; ring
  · fun_prop (disch := norm_num)
  · norm_num [xl_zero]

theorem f4_tend_zero : Tendsto Spec.f4 (𝓝[≠] 0) (𝓝 (f4 0)) := by
  have hv : (f4 0 : ℝ) = 12 / 7 := by rw [f4_real]; norm_num
  rw [hv]
  have hc := continuous_xl
  refine tendsto_of_eq (g := fun x => 2 * (5 * x ^ 4 + 25 * x ^ 2 + 6) / (7 * (x ^ 2 - 1) ^ 2) + 2 * (x ^ 4 - 19 * x ^ 2 - 18) * x * xl x / (7 * (x ^ 2 - 1) ^ 3)) (fun x => ?_) ?_ ?_
  · simp only [Spec.f4, xl]; ring
  · fun_prop (disch := norm_num)
  · norm_num [xl_zero]


/-! ### The claims -/

/-- **Accuracy.**  Away from the points where the closed formulas are `0/0`, each of the eleven one-variable functions returns the value of
its formula up to `10⁻⁹`, whatever special branch is taken. -/
theorem C32_one_variable_accuracy (x : ℝ) (h0 : x ≠ 0) (h1 : x ≠ 1) (h2 : x ≠ -1) :
    |F1 x - Spec.F1 x| ≤ 1 / 10 ^ 9 ∧
    |F2 x - Spec.F2 x| ≤ 1 / 10 ^ 9 ∧
    |F3 x - Spec.F3 x| ≤ 1 / 10 ^ 9 ∧
    |F4 x - Spec.F4 x| ≤ 1 / 10 ^ 9 ∧
    |F5 x - Spec.F5 x| ≤ 1 / 10 ^ 9 ∧
    |F6 x - Spec.F6 x| ≤ 1 / 10 ^ 9 ∧
    |F7 x - Spec.F7 x| ≤ 1 / 10 ^ 9 ∧
    |f1 x - Spec.f1 x| ≤ 1 / 10 ^ 9 ∧
    |f2 x - Spec.f2 x| ≤ 1 / 10 ^ 9 ∧
    |f3 x - Spec.f3 x| ≤ 1 / 10 ^ 9 ∧
    |f4 x - Spec.f4 x| ≤ 1 / 10 ^ 9 := by
  have h : x ^ 2 ≠ 1 := by
    intro h
    have h' : (x - 1) * (x + 1) = 0 := by linear_combination h
    rcases mul_eq_zero.1 h' with h | h
    · exact h1 (by linarith)
    · exact h2 (by linarith)
  exact ⟨F1_acc h0 h, F2_acc h0 h, F3_acc h0 h, F4_acc h0 h, F5_acc h0 h, F6_acc h0 h, F7_acc h0 h, f1_acc h0 h, f2_acc h0 h, f3_acc h0 h, f4_acc h0 h⟩

/-- **Limits.**  The values at `0` and `1` (and at `-1` for the seven functions that treat it) are the limits of the formulas. -/
theorem C32_one_variable_limits :
    Tendsto Spec.F1 (𝓝[≠] 0) (𝓝 (F1 0)) ∧
    Tendsto Spec.F1 (𝓝[≠] 1) (𝓝 (F1 1)) ∧
    Tendsto Spec.F2 (𝓝[≠] 0) (𝓝 (F2 0)) ∧
    Tendsto Spec.F2 (𝓝[≠] 1) (𝓝 (F2 1)) ∧
    Tendsto Spec.F3 (𝓝[≠] 0) (𝓝 (F3 0)) ∧
    Tendsto Spec.F3 (𝓝[≠] 1) (𝓝 (F3 1)) ∧
    Tendsto Spec.F4 (𝓝[≠] 0) (𝓝 (F4 0)) ∧
    Tendsto Spec.F4 (𝓝[≠] 1) (𝓝 (F4 1)) ∧
    Tendsto Spec.F5 (𝓝[≠] 0) (𝓝 (F5 0)) ∧
    Tendsto Spec.F5 (𝓝[≠] 1) (𝓝 (F5 1)) ∧
    Tendsto Spec.F5 (𝓝[≠] (-1)) (𝓝 (F5 (-1))) ∧
    Tendsto Spec.F6 (𝓝[≠] 0) (𝓝 (F6 0)) ∧
    Tendsto Spec.F6 (𝓝[≠] 1) (𝓝 (F6 1)) ∧
    Tendsto Spec.F6 (𝓝[≠] (-1)) (𝓝 (F6 (-1))) ∧
    Tendsto Spec.F7 (𝓝[≠] 0) (𝓝 (F7 0)) ∧
    Tendsto Spec.F7 (𝓝[≠] 1) (𝓝 (F7 1)) ∧
    Tendsto Spec.F7 (𝓝[≠] (-1)) (𝓝 (F7 (-1))) ∧
    Tendsto Spec.f1 (𝓝[≠] 0) (𝓝 (f1 0)) ∧
    Tendsto Spec.f1 (𝓝[≠] 1) (𝓝 (f1 1)) ∧
    Tendsto Spec.f1 (𝓝[≠] (-1)) (𝓝 (f1 (-1))) ∧
    Tendsto Spec.f2 (𝓝[≠] 0) (𝓝 (f2 0)) ∧
    Tendsto Spec.f2 (𝓝[≠] 1) (𝓝 (f2 1)) ∧
    Tendsto Spec.f2 (𝓝[≠] (-1)) (𝓝 (f2 (-1))) ∧
    Tendsto Spec.f3 (𝓝[≠] 0) (𝓝 (f3 0)) ∧
    Tendsto Spec.f3 (𝓝[≠] 1) (𝓝 (f3 1)) ∧
    Tendsto Spec.f3 (𝓝[≠] (-1)) (𝓝 (f3 (-1))) ∧
    Tendsto Spec.f4 (𝓝[≠] 0) (𝓝 (f4 0)) ∧
    Tendsto Spec.f4 (𝓝[≠] 1) (𝓝 (f4 1)) ∧
    Tendsto Spec.f4 (𝓝[≠] (-1)) (𝓝 (f4 (-1))) :=
  ⟨F1_tend_zero, F1_tend_one, F2_tend_zero, F2_tend_one, F3_tend_zero, F3_tend_one, F4_tend_zero, F4_tend_one, F5_tend_zero, F5_tend_one, F5_tend_neg_one, F6_tend_zero, F6_tend_one, F6_tend_neg_one, F7_tend_zero, F7_tend_one, F7_tend_neg_one, f1_tend_zero, f1_tend_one, f1_tend_neg_one, f2_tend_zero, f2_tend_one, f2_tend_neg_one, f3_tend_zero, f3_tend_one, f3_tend_neg_one, f4_tend_zero, f4_tend_one, f4_tend_neg_one⟩

/-- the hypotheses are met, e.g. in the Taylor region of every function -/
example : |F1 (1.005 : ℝ) - Spec.F1 1.005| ≤ 1 / 10 ^ 9 :=
  (C32_one_variable_accuracy 1.005 (by norm_num) (by norm_num) (by norm_num)).1

/-- **Finding.**  The polynomial used by `F6` near `|x| = 1` has degree four, but the last coefficient has the wrong sign: the error is
`d⁴/12` (`d = x² - 1`) up to fifth order, so that the fourth-order term makes the result worse, not better. -/
theorem C32_F6_fourth_order_wrong (x : ℝ) (h : |x ^ 2 - 1| ≤ 1 / 100) (h1 : x ^ 2 ≠ 1) :
    |F6 x - Spec.F6 x - (x ^ 2 - 1) ^ 4 / 12| ≤ 0.05 * |x ^ 2 - 1| ^ 5 ∧ (x ^ 2 - 1) ^ 4 / 13 ≤ |F6 x - Spec.F6 x| := by
  have hz : ¬ |x| ≤ 1 / 2 ^ 52 := by
    intro hc
    have h2 := sq_le_of_abs hc
    have h3 := (abs_le.1 h).1
    norm_num at h2 h3; linarith
  have hn := F6_near_correct (add_sub_cancel _ _).symm (sub_ne_zero.2 h1) (h.trans (by norm_num))
  have key : |F6 x - Spec.F6 x - (x ^ 2 - 1) ^ 4 / 12| ≤ 0.05 * |x ^ 2 - 1| ^ 5 := by
    rw [F6_real, if_neg hz, if_pos h, abs_sub_comm] 
    refine le_trans (le_of_eq ?_) (hn.trans (mul_le_mul_of_nonneg_right (by norm_num) (by positivity)))
    congr 1; ring
  refine ⟨key, ?_⟩
  have h4 : |x ^ 2 - 1| ^ 5 ≤ 1 / 100 * (x ^ 2 - 1) ^ 4 := by
    have : |x ^ 2 - 1| ^ 5 = |x ^ 2 - 1| * (x ^ 2 - 1) ^ 4 := by
      have h5 : |x ^ 2 - 1| ^ 4 = (x ^ 2 - 1) ^ 4 := by rw [← abs_pow]; exact abs_of_nonneg (by positivity)
      rw [← h5]; ring
    rw [this]; exact mul_le_mul_of_nonneg_right h (by positivity)
  have h6 : 0 ≤ (x ^ 2 - 1) ^ 4 := by positivity
  have h7 := (abs_le.1 key).1
  have h8 := le_abs_self (F6 x - Spec.F6 x)
  norm_num at h7
  linarith

/-- with the sign of the last coefficient corrected the same polynomial would be accurate to fifth order -/
theorem C32_F6_corrected (x : ℝ) (h : |x ^ 2 - 1| ≤ 1 / 100) (h1 : x ^ 2 ≠ 1) :
    let d := x ^ 2 - 1
    |d * (1 / 3 + d * (-1 / 8 + d * (1 / 15 - d / 24))) - Spec.F6 x| ≤ 0.05 * |d| ^ 5 := by
  intro d
  have hn := F6_near_correct (add_sub_cancel _ _).symm (sub_ne_zero.2 h1) (h.trans (by norm_num))
  rw [abs_sub_comm]
  refine le_trans (le_of_eq ?_) (hn.trans (mul_le_mul_of_nonneg_right (by norm_num) (by positivity)))
  congr 1; simp only [d]; ring

example : (1 : ℝ) / 1300000000 ≤ |F6 (Real.sqrt 1.01) - Spec.F6 (Real.sqrt 1.01)| := by
  have hs : Real.sqrt 1.01 ^ 2 = 1.01 := Real.sq_sqrt (by norm_num)
  have := (C32_F6_fourth_order_wrong (Real.sqrt 1.01) (by rw [hs]; norm_num) (by rw [hs]; norm_num)).2
  rw [hs] at this
  refine le_trans (by norm_num) this

/-- **Finding.**  `F1 … F4` have no branch for `x = -1`, where their formula is `0/0`: the result is NaN although the limit is finite.
`F5 … F7` and `f1 … f4` do treat it (`C32_one_variable_limits`). -/
theorem C32_no_branch_at_minus_one :
    F1 (Dbl.fin (-1)) = Dbl.nan ∧ F2 (Dbl.fin (-1)) = Dbl.nan ∧ F3 (Dbl.fin (-1)) = Dbl.nan ∧ F4 (Dbl.fin (-1)) = Dbl.nan := by
  have hl : FOps.log (Dbl.fin 1) = Dbl.fin 0 := by
    show Dbl.logd _ = _; simp [Dbl.logd]
  have hd : (Dbl.fin 0 / Dbl.fin 0 : Dbl) = Dbl.nan := by
    show Dbl.div _ _ = _; simp [Dbl.div, Dbl.infOfSign]
  refine ⟨?_, ?_, ?_, ?_⟩
  · simp only [F1, Misc.isZero, Misc.isEqual, Misc.dabs, epsD, Misc.eps, sqr, cube, Dbl.fin_ofNat, Dbl.fin_lit, Dbl.fin_neg, Dbl.fin_mul,
      Dbl.fin_sub, Dbl.fin_add, Dbl.fin_le]
    norm_num [hl, hd]
  · simp only [F2, Misc.isZero, Misc.isEqual, Misc.dabs, epsD, Misc.eps, sqr, cube, Dbl.fin_ofNat, Dbl.fin_lit, Dbl.fin_neg, Dbl.fin_mul,
      Dbl.fin_sub, Dbl.fin_add, Dbl.fin_le]
    norm_num [hl, hd]
  · simp only [F3, Misc.isZero, Misc.isEqual, Misc.dabs, epsD, Misc.eps, sqr, cube, Dbl.fin_ofNat, Dbl.fin_lit, Dbl.fin_neg, Dbl.fin_mul,
      Dbl.fin_sub, Dbl.fin_add, Dbl.fin_le]
    norm_num [hl, hd]
  · simp only [F4, Misc.isZero, Misc.isEqual, Misc.dabs, epsD, Misc.eps, sqr, cube, Dbl.fin_ofNat, Dbl.fin_lit, Dbl.fin_neg, Dbl.fin_mul,
      Dbl.fin_sub, Dbl.fin_add, Dbl.fin_le]
    norm_num [hl, hd]

end Himalaya.TLF
