import Mathlib.Analysis.SpecialFunctions.Log.Deriv
import Mathlib.Analysis.Calculus.MeanValue

/-!
# Removable singularities: little-o remainders

Tools for the mass limits of the threshold corrections (`EFT/Cont*.lean`).
-/
set_option linter.unusedSimpArgs false
set_option linter.unusedVariables false
namespace Himalaya.Cont
open Filter Topology

/-- if `f e = G (e, r e)` with `G` continuous at `(0, z)` and `r → z`, then `f → G (0, z)` -/
theorem limit_of_repr {Z : Type} [TopologicalSpace Z] {f : ℝ → ℝ} {r : ℝ → Z} {G : ℝ × Z → ℝ} {z : Z}
    (hf : ∀ᶠ e in 𝓝[≠] (0 : ℝ), f e = G (e, r e))
    (hG : ContinuousAt G (0, z)) (hr : Tendsto r (𝓝[≠] 0) (𝓝 z)) :
    Tendsto f (𝓝[≠] 0) (𝓝 (G (0, z))) := by
  have h1 : Tendsto (fun e : ℝ => (e, r e)) (𝓝[≠] 0) (𝓝 ((0 : ℝ), z)) := by
    rw [nhds_prod_eq]
    exact (tendsto_nhdsWithin_of_tendsto_nhds tendsto_id).prodMk hr
  exact (hG.tendsto.comp h1).congr' (hf.mono fun e h => h.symm)

/-- conditions that hold at the origin hold near it -/
theorem near_ne {g : ℝ → ℝ} (hc : ContinuousAt g 0) (h : g 0 ≠ 0) : ∀ᶠ e in 𝓝[≠] (0 : ℝ), g e ≠ 0 :=
  nhdsWithin_le_nhds (hc.eventually_ne h)

theorem near_pos {g : ℝ → ℝ} (hc : ContinuousAt g 0) (h : 0 < g 0) : ∀ᶠ e in 𝓝[≠] (0 : ℝ), 0 < g e :=
  nhdsWithin_le_nhds (hc.eventually (lt_mem_nhds h))

/-- `g = o(eⁿ)` and `f' = g`, `f 0 = 0` give `f = o(eⁿ⁺¹)`; stated with the quotients -/
theorem quot_of_deriv {f g : ℝ → ℝ} (n : ℕ) (hd : ∀ᶠ e in 𝓝 (0 : ℝ), HasDerivAt f (g e) e) (h0 : f 0 = 0)
    (hg : Tendsto (fun e => g e / e ^ n) (𝓝[≠] 0) (𝓝 0)) (hg0 : g 0 = 0) :
    Tendsto (fun e => f e / e ^ (n + 1)) (𝓝[≠] 0) (𝓝 0) := by
  rw [Metric.tendsto_nhdsWithin_nhds] at hg ⊢
  intro ε hε
  obtain ⟨δ, hδ, hb⟩ := hg (ε / 2) (by positivity)
  rw [Metric.eventually_nhds_iff] at hd
  obtain ⟨δ', hδ', hd⟩ := hd
  refine ⟨min δ δ', lt_min hδ hδ', fun e he hed => ?_⟩
  rw [dist_zero_right] at hed ⊢
  have he0 : e ≠ 0 := he
  have h1 : ∀ x ∈ Set.uIcc 0 e, HasDerivWithinAt f (g x) (Set.uIcc 0 e) x := by
    intro x hx
    apply (hd _).hasDerivWithinAt
    rw [dist_zero_right]
    have : |x| ≤ |e| := by
      have := Set.abs_sub_left_of_mem_uIcc hx; simpa using this
    exact this.trans_lt (hed.trans_le (min_le_right _ _))
  have h2 : ∀ x ∈ Set.uIcc 0 e, ‖g x‖ ≤ ε / 2 * |e| ^ n := by
    intro x hx
    have hxe : |x| ≤ |e| := by
      have := Set.abs_sub_left_of_mem_uIcc hx; simpa using this
    by_cases hx0 : x = 0
    · subst hx0; rw [hg0, norm_zero]; positivity
    have h3 := hb (show x ∈ ({0}ᶜ : Set ℝ) from hx0) (by
      rw [dist_zero_right]; exact hxe.trans_lt (hed.trans_le (min_le_left _ _)))
    rw [dist_zero_right, norm_div, norm_pow, div_lt_iff₀ (by positivity)] at h3
    refine h3.le.trans ?_
    gcongr
    exact hxe
  have h4 := (convex_uIcc (0 : ℝ) e).norm_image_sub_le_of_norm_hasDerivWithin_le h1 h2 Set.left_mem_uIcc Set.right_mem_uIcc
  rw [h0, sub_zero, sub_zero] at h4
  rw [norm_div, norm_pow, div_lt_iff₀ (by positivity)]
  have h5 : 0 < ‖e‖ := norm_pos_iff.2 he0
  calc ‖f e‖ ≤ ε / 2 * ‖e‖ ^ n * ‖e‖ := h4
    _ = ε / 2 * ‖e‖ ^ (n + 1) := by ring
    _ < ε * ‖e‖ ^ (n + 1) := by
      have : 0 < ‖e‖ ^ (n + 1) := by positivity
      nlinarith

/-- the Taylor polynomial of `log(1+e)` below order `n+1` -/
noncomputable def logPoly (n : ℕ) (e : ℝ) : ℝ := ∑ i ∈ Finset.range n, (-1) ^ i * e ^ (i + 1) / (i + 1)
noncomputable def logRem (n : ℕ) (e : ℝ) : ℝ := (Real.log (1 + e) - logPoly n e) / e ^ n

theorem log_eq (n : ℕ) {e : ℝ} (he : e ≠ 0) : Real.log (1 + e) = logPoly n e + e ^ n * logRem n e := by
  unfold logRem; field_simp; ring

theorem logRem_tendsto (n : ℕ) : Tendsto (logRem n) (𝓝[≠] 0) (𝓝 0) := by
  have hb : ∀ᶠ e in 𝓝[≠] (0 : ℝ), ‖logRem n e‖ ≤ 2 * |e| := by
    have h1 : ∀ᶠ e in 𝓝[≠] (0 : ℝ), |e| < 1 / 2 := by
      apply nhdsWithin_le_nhds
      have := Metric.ball_mem_nhds (0 : ℝ) (show (0 : ℝ) < 1 / 2 by norm_num)
      filter_upwards [this] with e he
      simpa using he
    filter_upwards [h1, self_mem_nhdsWithin] with e he he0
    have h0 : e ≠ 0 := he0
    have h2 := Real.abs_log_sub_add_sum_range_le (x := -e) (by rw [abs_neg]; linarith) n
    have h3 : (∑ i ∈ Finset.range n, (-e) ^ (i + 1) / ((i : ℝ) + 1)) + Real.log (1 - -e) = Real.log (1 + e) - logPoly n e := by
      unfold logPoly
      rw [sub_neg_eq_add, sub_eq_neg_add, ← Finset.sum_neg_distrib]
      congr 1
      apply Finset.sum_congr rfl
      intro i _
      rw [neg_pow, pow_succ (-1 : ℝ)]; ring
    rw [h3, abs_neg] at h2
    unfold logRem
    rw [norm_div, norm_pow, Real.norm_eq_abs, Real.norm_eq_abs, div_le_iff₀ (by positivity)]
    refine h2.trans ?_
    rw [div_le_iff₀ (by linarith)]
    have : 0 < |e| ^ n * |e| := by positivity
    rw [pow_succ]
    nlinarith
  have h0 : Tendsto (fun e : ℝ => 2 * |e|) (𝓝[≠] 0) (𝓝 0) := by
    have : ContinuousAt (fun e : ℝ => 2 * |e|) 0 := by fun_prop
    have h := this.tendsto
    simp only [abs_zero, mul_zero] at h
    exact h.mono_left nhdsWithin_le_nhds
  exact squeeze_zero_norm' hb h0

/-- relative distance to the point of approach -/
theorem rel_tendsto {q : ℝ} (hq : q ≠ 0) : Tendsto (fun u => (u - q) / q) (𝓝[≠] q) (𝓝[≠] 0) := by
  rw [tendsto_nhdsWithin_iff]
  constructor
  · have : ContinuousAt (fun u : ℝ => (u - q) / q) q := by fun_prop (disch := exact hq)
    have h := this.tendsto
    rw [sub_self, zero_div] at h
    exact h.mono_left nhdsWithin_le_nhds
  · filter_upwards [self_mem_nhdsWithin] with u hu
    exact div_ne_zero (sub_ne_zero.2 hu) hq

/-- change of variable `u = q (1+e)` -/
theorem limit_rel {f : ℝ → ℝ} {l q : ℝ} (hq : q ≠ 0) (h : Tendsto (fun e => f (q * (1 + e))) (𝓝[≠] 0) (𝓝 l)) :
    Tendsto f (𝓝[≠] q) (𝓝 l) := by
  refine (h.comp (rel_tendsto hq)).congr' (Eventually.of_forall fun u => ?_)
  simp only [Function.comp]
  congr 1; field_simp; ring
end Himalaya.Cont
