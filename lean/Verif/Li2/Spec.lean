import Mathlib.Analysis.SpecialFunctions.Integrals.Basic
import Mathlib.Analysis.SpecialFunctions.Log.NegMulLog
import Mathlib.NumberTheory.ZetaValues
import Mathlib.MeasureTheory.Integral.DivergenceTheorem
import Mathlib.Analysis.Calculus.DSlope

/-!
# The real dilogarithm: specification and functional equations

Specification used for property C33, independent of the code: the textbook
integral `Re Li₂(x) = - ∫₀ˣ log|1 - t| / t dt`.  Mathlib's `Real.log` is the
logarithm of the absolute value, so the integrand needs no absolute value.
-/

set_option linter.dupNamespace false

namespace Himalaya.Li2
open Real Set Filter Topology MeasureTheory intervalIntegral

/-- The integrand `-log|1-t|/t` of the dilogarithm. -/
noncomputable def kern (t : ℝ) : ℝ := -Real.log (1 - t) / t

/-- Specification: real part of the dilogarithm, as the textbook integral. -/
noncomputable def Li2 (x : ℝ) : ℝ := ∫ t in (0:ℝ)..x, -Real.log (1 - t) / t

/-- continuous extension of the integrand across `t = 0` -/
noncomputable def kernC (t : ℝ) : ℝ := dslope (fun t => -Real.log (1 - t)) 0 t

theorem hasDerivAt_neglog {x : ℝ} (h : x ≠ 1) :
    HasDerivAt (fun t : ℝ => -Real.log (1 - t)) (1 / (1 - x)) x := by
  have h1 : (1 - x) ≠ 0 := sub_ne_zero.2 h.symm
  have := ((hasDerivAt_id x).const_sub 1).log h1
  refine HasDerivAt.congr_deriv this.neg ?_
  simp only [id, neg_div, neg_neg]

theorem kernC_of_ne {t : ℝ} (h : t ≠ 0) : kernC t = kern t := by
  unfold kernC kern
  rw [dslope_of_ne _ h, slope_def_field]
  simp

theorem continuousAt_kernC {t : ℝ} (h : t ≠ 1) : ContinuousAt kernC t := by
  unfold kernC
  by_cases h0 : t = 0
  · subst h0
    exact continuousAt_dslope_same.2 (hasDerivAt_neglog (by norm_num)).differentiableAt
  · rw [continuousAt_dslope_of_ne h0]
    exact (hasDerivAt_neglog h).continuousAt

theorem kern_ae : kern =ᵐ[volume] kernC := by
  have : ({0}ᶜ : Set ℝ) ∈ ae volume := by
    rw [mem_ae_iff]; simp
  filter_upwards [this] with t ht
  exact (kernC_of_ne ht).symm

theorem intervalIntegrable_kern_left {a b : ℝ} (ha : a < 1) (hb : b < 1) :
    IntervalIntegrable kern volume a b := by
  have h : IntervalIntegrable kernC volume a b := by
    apply ContinuousOn.intervalIntegrable
    intro t ht
    have : t < 1 := lt_of_le_of_lt ht.2 (max_lt ha hb)
    exact (continuousAt_kernC this.ne).continuousWithinAt
  exact h.congr_ae (ae_restrict_of_ae (kern_ae.symm))

theorem intervalIntegrable_kern_right {a b : ℝ} (ha : 0 < a) (hb : 0 < b) :
    IntervalIntegrable kern volume a b := by
  have h : IntervalIntegrable (fun t => Real.log (1 - t)) volume a b := by
    have := (intervalIntegral.intervalIntegrable_log' (a := 1 - a) (b := 1 - b)).comp_sub_left 1
    simpa using this
  have h2 : ContinuousOn (fun t : ℝ => -t⁻¹) (uIcc a b) := by
    apply ContinuousOn.neg
    apply continuousOn_id.inv₀
    intro t ht
    have : 0 < t := lt_of_lt_of_le (lt_min ha hb) ht.1
    exact this.ne'
  have := h.mul_continuousOn h2
  refine this.congr ?_
  intro t _
  simp only [kern]
  ring

theorem intervalIntegrable_kern (a b : ℝ) : IntervalIntegrable kern volume a b := by
  have key : ∀ c, IntervalIntegrable kern volume (1/2) c := by
    intro c
    rcases lt_or_ge c 1 with h | h
    · exact intervalIntegrable_kern_left (by norm_num) h
    · exact intervalIntegrable_kern_right (by norm_num) (by linarith)
  exact (key a).symm.trans (key b)

theorem Li2_eq (x : ℝ) : Li2 x = ∫ t in (0:ℝ)..x, kern t := rfl

theorem continuous_Li2 : Continuous Li2 :=
  intervalIntegral.continuous_primitive intervalIntegrable_kern 0

theorem Li2_zero : Li2 0 = 0 := by simp [Li2]

theorem measurable_kern : Measurable kern := by
  unfold kern
  exact ((Real.measurable_log.comp (measurable_const.sub measurable_id)).neg).div measurable_id

theorem continuousAt_kern {x : ℝ} (h0 : x ≠ 0) (h1 : x ≠ 1) : ContinuousAt kern x :=
  (hasDerivAt_neglog h1).continuousAt.div continuousAt_id h0

theorem hasDerivAt_Li2 {x : ℝ} (h0 : x ≠ 0) (h1 : x ≠ 1) :
    HasDerivAt Li2 (-Real.log (1 - x) / x) x :=
  intervalIntegral.integral_hasDerivAt_right (intervalIntegrable_kern 0 x)
    (measurable_kern.stronglyMeasurable.stronglyMeasurableAtFilter) (continuousAt_kern h0 h1)

/-- A continuous function whose derivative vanishes off a countable set is constant. -/
theorem const_of_deriv_zero {f : ℝ → ℝ} {s : Set ℝ} (hs : s.Countable) {a b : ℝ}
    (hc : ContinuousOn f (uIcc a b))
    (hd : ∀ x ∈ Ioo (min a b) (max a b) \ s, HasDerivAt f 0 x) : f b = f a := by
  have := MeasureTheory.integral_eq_of_hasDerivAt_off_countable f (fun _ => 0) hs hc hd
    (by simp)
  simp at this
  linarith

theorem log_mul_log_eq (x : ℝ) : Real.log x * Real.log (1 - x) = -(x * Real.log x) * kernC x := by
  by_cases h : x = 0
  · subst h; simp
  · rw [kernC_of_ne h, kern]; field_simp

theorem continuous_log_mul_log : Continuous fun x : ℝ => Real.log x * Real.log (1 - x) := by
  have key : ∀ x : ℝ, x ≠ 1 → ContinuousAt (fun x : ℝ => Real.log x * Real.log (1 - x)) x := by
    intro x hx
    simp only [log_mul_log_eq]
    exact (Real.continuous_mul_log.continuousAt.neg).mul (continuousAt_kernC hx)
  rw [continuous_iff_continuousAt]
  intro x
  by_cases hx : x = 1
  · have h0 : x ≠ 0 := by rw [hx]; norm_num
    have h := key (1 - x) (by rw [hx]; norm_num)
    have hcomp : ContinuousAt (fun y : ℝ => 1 - y) x := (continuous_const.sub continuous_id).continuousAt
    have := ContinuousAt.comp (f := fun y : ℝ => 1 - y) (x := x) h hcomp
    refine this.congr ?_
    filter_upwards with y
    simp [Function.comp, mul_comm]
  · exact key x hx

/-! ### Series -/

theorem kern_trunc {t : ℝ} (h0 : 0 < t) (h1 : t < 1) (n : ℕ) :
    |kern t - ∑ i ∈ Finset.range n, t ^ i / (i + 1)| ≤ t ^ n / (1 - t) := by
  have h := Real.abs_log_sub_add_sum_range_le (x := t) (by rw [abs_of_pos h0]; exact h1) n
  rw [abs_of_pos h0] at h
  have e : kern t - ∑ i ∈ Finset.range n, t ^ i / ((i:ℝ) + 1)
      = -((∑ i ∈ Finset.range n, t ^ (i + 1) / ((i:ℝ) + 1)) + Real.log (1 - t)) / t := by
    have : ∑ i ∈ Finset.range n, t ^ (i + 1) / ((i:ℝ) + 1)
        = t * ∑ i ∈ Finset.range n, t ^ i / ((i:ℝ) + 1) := by
      rw [Finset.mul_sum]
      apply Finset.sum_congr rfl
      intro i _
      rw [pow_succ]; ring
    rw [this, kern]
    field_simp
    ring
  rw [e, abs_div, abs_neg, abs_of_pos h0, div_le_iff₀ h0]
  calc _ ≤ t ^ (n + 1) / (1 - t) := h
    _ = _ := by rw [pow_succ]; ring

theorem Li2_trunc {y : ℝ} (h0 : 0 ≤ y) (h1 : y < 1) (n : ℕ) :
    |Li2 y - ∑ i ∈ Finset.range n, y ^ (i + 1) / ((i:ℝ) + 1) ^ 2|
      ≤ y ^ (n + 1) / ((n + 1) * (1 - y)) := by
  have e1 : ∑ i ∈ Finset.range n, y ^ (i + 1) / ((i:ℝ) + 1) ^ 2
      = ∫ t in (0:ℝ)..y, ∑ i ∈ Finset.range n, t ^ i / ((i:ℝ) + 1) := by
    rw [intervalIntegral.integral_finsetSum]
    · apply Finset.sum_congr rfl
      intro i _
      rw [intervalIntegral.integral_div, integral_pow]
      simp
      field_simp
    · intro i _
      exact (Continuous.intervalIntegrable (by fun_prop) _ _)
  have hint : IntervalIntegrable (fun t : ℝ => ∑ i ∈ Finset.range n, t ^ i / ((i:ℝ) + 1)) volume 0 y :=
    Continuous.intervalIntegrable (by fun_prop) _ _
  rw [e1, Li2_eq, ← intervalIntegral.integral_sub (intervalIntegrable_kern 0 y) hint]
  have hb : ∀ t ∈ Ioo 0 y, ‖kern t - ∑ i ∈ Finset.range n, t ^ i / ((i:ℝ) + 1)‖ ≤ t ^ n / (1 - y) := by
    intro t ht
    rw [Real.norm_eq_abs]
    refine (kern_trunc ht.1 (ht.2.trans h1) n).trans ?_
    have : 0 ≤ t ^ n := pow_nonneg ht.1.le n
    exact div_le_div_of_nonneg_left this (by linarith) (by linarith [ht.2])
  have hI : IntervalIntegrable (fun t : ℝ => t ^ n / (1 - y)) volume 0 y :=
    Continuous.intervalIntegrable (by fun_prop) _ _
  have := intervalIntegral.norm_integral_le_of_norm_le (μ := volume)
    (f := fun t => kern t - ∑ i ∈ Finset.range n, t ^ i / ((i:ℝ) + 1))
    (g := fun t : ℝ => t ^ n / (1 - y)) h0 (by
      have hne : ({y}ᶜ : Set ℝ) ∈ ae (volume : Measure ℝ) := by rw [mem_ae_iff]; simp
      filter_upwards [hne] with t hty ht
      exact hb t ⟨ht.1, lt_of_le_of_ne ht.2 hty⟩) hI
  rw [Real.norm_eq_abs] at this
  refine this.trans (le_of_eq ?_)
  rw [intervalIntegral.integral_div, integral_pow]
  have : (1 - y) ≠ 0 := by linarith
  field_simp
  simp

/-- `Li₂` is the power series `Σ yⁿ/n²` on `[0,1)`. -/
theorem Li2_hasSum {y : ℝ} (h0 : 0 ≤ y) (h1 : y < 1) :
    Tendsto (fun n => ∑ i ∈ Finset.range n, y ^ (i + 1) / ((i:ℝ) + 1) ^ 2) atTop (𝓝 (Li2 y)) := by
  rw [tendsto_iff_dist_tendsto_zero]
  have hz : Tendsto (fun n : ℕ => y ^ (n + 1) * (1 / (1 - y))) atTop (𝓝 0) := by
    have h := (tendsto_pow_atTop_nhds_zero_of_lt_one h0 h1)
    have := ((tendsto_add_atTop_iff_nat 1).2 h).mul_const (1 / (1 - y))
    simpa using this
  refine squeeze_zero (fun _ => dist_nonneg) (fun n => ?_) hz
  rw [dist_comm, Real.dist_eq]
  refine (Li2_trunc h0 h1 n).trans ?_
  have h2 : 0 < 1 - y := by linarith
  rw [mul_one_div]
  have : 0 ≤ y ^ (n+1) := by positivity
  gcongr
  have : (0:ℝ) ≤ n := n.cast_nonneg
  nlinarith

theorem Li2_eq_tsum {y : ℝ} (h0 : 0 ≤ y) (h1 : y < 1) :
    Li2 y = ∑' i : ℕ, y ^ (i + 1) / ((i:ℝ) + 1) ^ 2 := by
  have hs : Summable fun i : ℕ => y ^ (i + 1) / ((i:ℝ) + 1) ^ 2 := by
    refine Summable.of_nonneg_of_le (fun i => by positivity) (fun i => ?_)
      ((summable_nat_add_iff 1).2 (summable_geometric_of_lt_one h0 h1))
    have : 0 ≤ y ^ (i+1) := by positivity
    refine div_le_self this ?_
    have : (0:ℝ) ≤ i := i.cast_nonneg
    nlinarith
  exact tendsto_nhds_unique (Li2_hasSum h0 h1) hs.hasSum.tendsto_sum_nat

theorem zeta_two_shift : HasSum (fun i : ℕ => (1:ℝ) / ((i:ℝ) + 1) ^ 2) (π ^ 2 / 6) := by
  have h := (hasSum_nat_add_iff' (f := fun n : ℕ => (1 : ℝ) / (n : ℝ) ^ 2) 1).2 hasSum_zeta_two
  simpa using h

theorem Li2_one : Li2 1 = π ^ 2 / 6 := by
  have hc : ContinuousOn (fun y : ℝ => ∑' i : ℕ, y ^ (i + 1) / ((i:ℝ) + 1) ^ 2) (Icc 0 1) := by
    refine continuousOn_tsum (u := fun i : ℕ => (1:ℝ) / ((i:ℝ) + 1) ^ 2) ?_ zeta_two_shift.summable ?_
    · intro i
      exact (Continuous.continuousOn (by fun_prop))
    · intro i y hy
      rw [Real.norm_eq_abs, abs_of_nonneg (by have := hy.1; positivity)]
      gcongr
      exact pow_le_one₀ hy.1 hy.2
  have e : ∑' i : ℕ, (1:ℝ) ^ (i + 1) / ((i:ℝ) + 1) ^ 2 = π ^ 2 / 6 := by
    simp only [one_pow]; exact zeta_two_shift.tsum_eq
  rw [← e]
  have hl : Tendsto Li2 (𝓝[<] 1) (𝓝 (Li2 1)) := continuous_Li2.continuousAt.tendsto.mono_left nhdsWithin_le_nhds
  have hr : Tendsto (fun y : ℝ => ∑' i : ℕ, y ^ (i + 1) / ((i:ℝ) + 1) ^ 2) (𝓝[<] 1)
      (𝓝 (∑' i : ℕ, (1:ℝ) ^ (i + 1) / ((i:ℝ) + 1) ^ 2)) := by
    have h := hc 1 (by simp)
    have h2 : ContinuousWithinAt (fun y : ℝ => ∑' i : ℕ, y ^ (i + 1) / ((i:ℝ) + 1) ^ 2) (Ico 0 1) 1 :=
      h.mono Ico_subset_Icc_self
    have : 𝓝[Ico 0 1] (1:ℝ) = 𝓝[<] 1 := nhdsWithin_Ico_eq_nhdsLT (by norm_num)
    unfold ContinuousWithinAt at h2
    rwa [this] at h2
  refine tendsto_nhds_unique hl (hr.congr' ?_)
  filter_upwards [Ioo_mem_nhdsLT (show (0:ℝ) < 1 by norm_num)] with y hy
  exact (Li2_eq_tsum hy.1.le hy.2).symm

/-! ### Functional equations -/

/-- Euler's reflection formula, for every real argument (real parts). -/
theorem Li2_reflect (x : ℝ) :
    Li2 x + Li2 (1 - x) + Real.log x * Real.log (1 - x) = π ^ 2 / 6 := by
  set f : ℝ → ℝ := fun x => Li2 x + Li2 (1 - x) + Real.log x * Real.log (1 - x) with hf
  have hc : Continuous f :=
    (continuous_Li2.add (continuous_Li2.comp (continuous_const.sub continuous_id))).add
      continuous_log_mul_log
  have h : f x = f 0 := by
    apply const_of_deriv_zero (s := {0, 1}) (by simp) hc.continuousOn
    rintro z ⟨-, hz⟩
    simp only [mem_insert_iff, mem_singleton_iff, not_or] at hz
    obtain ⟨hz0, hz1⟩ := hz
    have h1 : (1 - z) ≠ 0 := sub_ne_zero.2 (Ne.symm hz1)
    have d0 := hasDerivAt_Li2 hz0 hz1
    have dl : HasDerivAt (fun z : ℝ => 1 - z) (-1) z := by
      simpa using (hasDerivAt_id z).const_sub 1
    have d1 := (hasDerivAt_Li2 (x := 1 - z) h1 (by intro h; apply hz0; linarith)).comp z dl
    have d2 := (Real.hasDerivAt_log hz0).mul (dl.log h1)
    have := (d0.add d1).add d2
    refine HasDerivAt.congr_deriv this ?_
    have e : 1 - (1 - z) = z := by ring
    rw [e]
    field_simp
    ring
  have h0 : f 0 = π ^ 2 / 6 := by simp [hf, Li2_zero, Li2_one]
  exact h.trans h0

/-- Duplication formula. -/
theorem Li2_dup (x : ℝ) : Li2 x + Li2 (-x) = Li2 (x ^ 2) / 2 := by
  set f : ℝ → ℝ := fun x => Li2 x + Li2 (-x) - Li2 (x ^ 2) / 2 with hf
  have hc : Continuous f :=
    (continuous_Li2.add (continuous_Li2.comp continuous_neg)).sub
      ((continuous_Li2.comp (continuous_pow 2)).div_const 2)
  have h : f x = f 0 := by
    apply const_of_deriv_zero (s := {0, 1, -1}) (by simp) hc.continuousOn
    rintro z ⟨-, hz⟩
    simp only [mem_insert_iff, mem_singleton_iff, not_or] at hz
    obtain ⟨hz0, hz1, hz2⟩ := hz
    have d0 := hasDerivAt_Li2 hz0 hz1
    have d1 := (hasDerivAt_Li2 (x := -z) (neg_ne_zero.2 hz0)
      (by intro h; apply hz2; linarith)).comp z (hasDerivAt_neg z)
    have hsq : z ^ 2 ≠ 1 := by
      intro h
      have h2 : (z - 1) * (z + 1) = 0 := by
        have : (z - 1) * (z + 1) = z ^ 2 - 1 := by ring
        rw [this, h, sub_self]
      rcases mul_eq_zero.1 h2 with h | h
      · exact hz1 (by linarith)
      · exact hz2 (by linarith)
    have d2 := (HasDerivAt.comp (h := fun x : ℝ => x ^ 2) z
      (hasDerivAt_Li2 (x := z ^ 2) (pow_ne_zero 2 hz0) hsq) (hasDerivAt_pow 2 z)).div_const 2
    have := (d0.add d1).sub d2
    refine HasDerivAt.congr_deriv this ?_
    have a1 : (1 - z) ≠ 0 := sub_ne_zero.2 (Ne.symm hz1)
    have a2 : (1 + z) ≠ 0 := by intro h; apply hz2; linarith
    have e : Real.log (1 - z ^ 2) = Real.log (1 - z) + Real.log (1 + z) := by
      rw [← Real.log_mul a1 a2]; congr 1; ring
    rw [e, sub_neg_eq_add]
    field_simp
    push_cast
    ring
  have h0 : f 0 = 0 := by simp [hf, Li2_zero]
  have : Li2 x + Li2 (-x) - Li2 (x ^ 2) / 2 = 0 := h.trans h0
  linarith

theorem Li2_neg_one : Li2 (-1) = -π ^ 2 / 12 := by
  have := Li2_dup 1
  rw [one_pow, Li2_one] at this
  linarith

/-- Landen's identity, for `x < 1`. -/
theorem Li2_landen {x : ℝ} (hx : x < 1) :
    Li2 x + Li2 (x / (x - 1)) = -(Real.log (1 - x)) ^ 2 / 2 := by
  set f : ℝ → ℝ := fun x => Li2 x + Li2 (x / (x - 1)) + (Real.log (1 - x)) ^ 2 / 2 with hf
  have hlt : ∀ z ∈ uIcc 0 x, z < 1 := by
    intro z hz
    exact lt_of_le_of_lt hz.2 (max_lt (by norm_num) hx)
  have hc : ContinuousOn f (uIcc 0 x) := by
    have hq : ContinuousOn (fun x : ℝ => x / (x - 1)) (uIcc 0 x) := by
      apply continuousOn_id.div (continuousOn_id.sub continuousOn_const)
      intro z hz
      have := hlt z hz
      exact (sub_neg.2 this).ne
    refine (continuous_Li2.continuousOn.add (continuous_Li2.comp_continuousOn hq)).add ?_
    refine ((ContinuousOn.log (continuousOn_const.sub continuousOn_id) ?_).pow 2).div_const 2
    intro z hz
    have := hlt z hz
    exact (sub_pos.2 this).ne'
  have h : f x = f 0 := by
    apply const_of_deriv_zero (s := {0}) (by simp) hc
    rintro z ⟨hzi, hz⟩
    have hz0 : z ≠ 0 := by simpa using hz
    have hz1 : z < 1 := hlt z (Ioo_subset_Icc_self hzi)
    have a1 : (z - 1) ≠ 0 := (sub_neg.2 hz1).ne
    have a2 : (1 - z) ≠ 0 := (sub_pos.2 hz1).ne'
    have d0 := hasDerivAt_Li2 hz0 hz1.ne
    have dq : HasDerivAt (fun x : ℝ => x / (x - 1)) ((1 * (z - 1) - z * 1) / (z - 1) ^ 2) z :=
      (hasDerivAt_id z).div ((hasDerivAt_id z).sub_const 1) a1
    have hq1 : z / (z - 1) ≠ 1 := by
      intro h
      rw [div_eq_one_iff_eq a1] at h
      linarith
    have d1 := (hasDerivAt_Li2 (x := z / (z - 1)) (div_ne_zero hz0 a1) hq1).comp z dq
    have dl : HasDerivAt (fun z : ℝ => 1 - z) (-1) z := by
      simpa using (hasDerivAt_id z).const_sub 1
    have d2 := ((dl.log a2).pow 2).div_const 2
    have := (d0.add d1).add d2
    refine HasDerivAt.congr_deriv this ?_
    have e : Real.log (1 - z / (z - 1)) = -Real.log (1 - z) := by
      rw [← Real.log_inv]
      congr 1
      rw [eq_comm, inv_eq_iff_eq_inv]
      field_simp
      ring
    rw [e]
    have : 1 - z = -(z - 1) := by ring
    field_simp
    rw [this]
    field_simp
    ring
  have h0 : f 0 = 0 := by simp [hf, Li2_zero]
  have : Li2 x + Li2 (x / (x - 1)) + (Real.log (1 - x)) ^ 2 / 2 = 0 := h.trans h0
  linarith

/-- Inversion formula for positive arguments (real parts). -/
theorem Li2_inv {x : ℝ} (hx : 0 < x) :
    Li2 x + Li2 (1 / x) = π ^ 2 / 3 - (Real.log x) ^ 2 / 2 := by
  set f : ℝ → ℝ := fun x => Li2 x + Li2 (1 / x) + (Real.log x) ^ 2 / 2 with hf
  have hpos : ∀ z ∈ uIcc 1 x, 0 < z := by
    intro z hz
    exact lt_of_lt_of_le (lt_min one_pos hx) hz.1
  have hc : ContinuousOn f (uIcc 1 x) := by
    have hq : ContinuousOn (fun x : ℝ => 1 / x) (uIcc 1 x) :=
      continuousOn_const.div continuousOn_id (fun z hz => (hpos z hz).ne')
    exact (continuous_Li2.continuousOn.add (continuous_Li2.comp_continuousOn hq)).add
      (((continuousOn_id).log (fun z hz => (hpos z hz).ne')).pow 2 |>.div_const 2)
  have h : f x = f 1 := by
    apply const_of_deriv_zero (s := {1}) (by simp) hc
    rintro z ⟨hzi, hz⟩
    have hz1 : z ≠ 1 := by simpa using hz
    have hz0 : 0 < z := hpos z (Ioo_subset_Icc_self hzi)
    have a1 : (z - 1) ≠ 0 := sub_ne_zero.2 hz1
    have a2 : (1 - z) ≠ 0 := sub_ne_zero.2 hz1.symm
    have d0 := hasDerivAt_Li2 hz0.ne' hz1
    have dq : HasDerivAt (fun x : ℝ => 1 / x) (-(1 / z ^ 2)) z := by
      simpa [one_div] using hasDerivAt_inv hz0.ne'
    have hq1 : 1 / z ≠ 1 := by
      intro h
      rw [div_eq_one_iff_eq hz0.ne'] at h
      exact hz1 h.symm
    have d1 := (hasDerivAt_Li2 (x := 1 / z) (one_div_pos.2 hz0).ne' hq1).comp z dq
    have d2 := ((Real.hasDerivAt_log hz0.ne').pow 2).div_const 2
    have := (d0.add d1).add d2
    refine HasDerivAt.congr_deriv this ?_
    have e : Real.log (1 - 1 / z) = Real.log (1 - z) - Real.log z := by
      rw [← Real.log_div a2 hz0.ne', ← Real.log_neg_eq_log (1 - 1 / z)]
      congr 1
      field_simp
      ring
    rw [e]
    field_simp
    ring
  have h1 : f 1 = π ^ 2 / 3 := by simp [hf, Li2_one]; ring
  have : Li2 x + Li2 (1 / x) + (Real.log x) ^ 2 / 2 = π ^ 2 / 3 := h.trans h1
  linarith

/-! ### The five reductions used by the code -/

theorem reduce_lt_neg_one {x : ℝ} (hx : x < 0) :
    Li2 x = -(π * π) / 6 + Real.log (1 - x) * (Real.log (1 - x) / 2 - Real.log (-x))
      + Li2 (1 / (1 - x)) := by
  have h1 : (0:ℝ) < 1 - x := by linarith
  have hL := Li2_landen (x := x) (by linarith)
  have hR := Li2_reflect (x / (x - 1))
  have a1 : (x - 1) ≠ 0 := by intro h; linarith
  have e1 : 1 - x / (x - 1) = 1 / (1 - x) := by
    have : 1 - x = -(x - 1) := by ring
    rw [this]; field_simp; ring
  have e2 : Real.log (x / (x - 1)) = Real.log (-x) - Real.log (1 - x) := by
    rw [← Real.log_div (by linarith) h1.ne']
    congr 1
    have : 1 - x = -(x - 1) := by ring
    rw [this]; field_simp
  have e3 : Real.log (1 / (1 - x)) = -Real.log (1 - x) := by rw [one_div, Real.log_inv]
  rw [e1, e2, e3] at hR
  nlinarith [hL, hR]

theorem reduce_one_two {x : ℝ} (hx : 0 < x) :
    Li2 x = π * π / 6 - Real.log x * (Real.log (1 - 1 / x) + Real.log x / 2) + Li2 (1 - 1 / x) := by
  have hI := Li2_inv hx
  have hR := Li2_reflect (1 / x)
  have e3 : Real.log (1 / x) = -Real.log x := by rw [one_div, Real.log_inv]
  rw [e3] at hR
  nlinarith [hI, hR]

end Himalaya.Li2
