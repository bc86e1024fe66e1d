import Verif.TLF.Near
import Mathlib.Analysis.SpecialFunctions.Integrals.Basic
import Mathlib.MeasureTheory.Integral.IntervalIntegral.FundThmCalculus

/-!
# Feynman-parameter integrals for the two-variable threshold loop functions
-/

set_option linter.unusedSimpArgs false
set_option linter.unusedVariables false

namespace Himalaya.TLF
open Real MeasureTheory

/-- the denominator `1 - t + t q` -/
def D (q t : ℝ) : ℝ := 1 - t + t * q

theorem D_pos {q t : ℝ} (hq : 0 < q) (h0 : 0 ≤ t) (h1 : t ≤ 1) : 0 < D q t := by
  unfold D
  rcases eq_or_lt_of_le h1 with h | h
  · subst h; linarith
  · have := mul_nonneg h0 hq.le; linarith

theorem D_ne {q t : ℝ} (hq : 0 < q) (ht : t ∈ Set.Icc (0:ℝ) 1) : D q t ≠ 0 := (D_pos hq ht.1 ht.2).ne'

@[fun_prop] theorem D_cont (q : ℝ) : Continuous (D q) := by unfold D; fun_prop

/-- integral over the unit interval -/
noncomputable def J (f : ℝ → ℝ) : ℝ := ∫ t in (0:ℝ)..1, f t

/-- continuity on the unit interval -/
abbrev C0 (f : ℝ → ℝ) : Prop := ContinuousOn f (Set.Icc 0 1)

theorem C0.ii {f : ℝ → ℝ} (h : C0 f) : IntervalIntegrable f volume 0 1 := by
  apply ContinuousOn.intervalIntegrable
  rwa [Set.uIcc_of_le (zero_le_one)]

theorem J_congr {f g : ℝ → ℝ} (h : ∀ t ∈ Set.Icc (0:ℝ) 1, f t = g t) : J f = J g := by
  unfold J
  apply intervalIntegral.integral_congr
  intro t ht
  rw [Set.uIcc_of_le zero_le_one] at ht
  exact h t ht

theorem J_add {f g : ℝ → ℝ} (hf : C0 f) (hg : C0 g) : J (fun t => f t + g t) = J f + J g :=
  intervalIntegral.integral_add hf.ii hg.ii
theorem J_sub {f g : ℝ → ℝ} (hf : C0 f) (hg : C0 g) : J (fun t => f t - g t) = J f - J g :=
  intervalIntegral.integral_sub hf.ii hg.ii
theorem J_smul (c : ℝ) (f : ℝ → ℝ) : J (fun t => c * f t) = c * J f :=
  intervalIntegral.integral_const_mul c f
theorem J_const (c : ℝ) : J (fun _ => c) = c := by unfold J; simp
theorem J_pow (n : ℕ) : J (fun t => t ^ n) = 1 / (n + 1) := by unfold J; rw [integral_pow]; simp

theorem J_bound {f : ℝ → ℝ} {C : ℝ} (h : ∀ t ∈ Set.Icc (0:ℝ) 1, |f t| ≤ C) : |J f| ≤ C := by
  have := intervalIntegral.norm_integral_le_of_norm_le_const (a := 0) (b := 1) (f := f) (C := C) (fun t ht => by
    rw [Set.uIoc_of_le zero_le_one] at ht
    exact h t ⟨ht.1.le, ht.2⟩)
  simpa [J] using this

/-- continuity on the unit interval of expressions with denominators `D q t` -/
macro "c0" : tactic => `(tactic| (show ContinuousOn _ _; fun_prop (disch := (intro t ht; first | exact D_ne ‹_› ht | exact pow_ne_zero _ (D_ne ‹_› ht) | exact mul_ne_zero (D_ne ‹_› ht) (D_ne ‹_› ht) | exact mul_ne_zero (D_ne ‹_› ht) (pow_ne_zero _ (D_ne ‹_› ht))))))

theorem C0_invD {q : ℝ} (hq : 0 < q) (n : ℕ) : C0 (fun t => 1 / D q t ^ n) :=
  ContinuousOn.div continuousOn_const ((D_cont q).continuousOn.pow n) fun t ht => pow_ne_zero _ (D_ne hq ht)
theorem C0_frac {q : ℝ} (hq : 0 < q) (n : ℕ) {f : ℝ → ℝ} (hf : Continuous f) : C0 (fun t => f t / D q t ^ n) :=
  ContinuousOn.div hf.continuousOn ((D_cont q).continuousOn.pow n) fun t ht => pow_ne_zero _ (D_ne hq ht)
theorem C0_frac1 {q : ℝ} (hq : 0 < q) {f : ℝ → ℝ} (hf : Continuous f) : C0 (fun t => f t / D q t) :=
  ContinuousOn.div hf.continuousOn (D_cont q).continuousOn fun t ht => D_ne hq ht

theorem D_deriv (q t : ℝ) : HasDerivAt (D q) (q - 1) t := by
  unfold D
  have := ((hasDerivAt_id t).const_sub 1).add ((hasDerivAt_id t).mul_const q)
  refine HasDerivAt.congr_deriv this ?_
  simp; ring

/-- `∫ dt/(1-t+tq) = log q/(q-1)` -/
theorem I1_eq {q : ℝ} (hq : 0 < q) (h1 : q ≠ 1) : J (fun t => 1 / D q t) = log q / (q - 1) := by
  have hy : q - 1 ≠ 0 := sub_ne_zero.2 h1
  have := intervalIntegral.integral_eq_sub_of_hasDerivAt (a := (0:ℝ)) (b := 1) (f := fun t => log (D q t) / (q - 1)) (f' := fun t => 1 / D q t)
    (fun t ht => by
      rw [Set.uIcc_of_le zero_le_one] at ht
      have := ((D_deriv q t).log (D_ne hq ht)).div_const (q - 1)
      refine HasDerivAt.congr_deriv this ?_
      have := D_ne hq ht
      field_simp)
    (C0_frac1 hq continuous_const).ii
  unfold J
  rw [this]
  simp [D]

/-- `∫ dt/(1-t+tq)^(n+2) = (1-q^(-n-1))/((n+1)(q-1))` -/
theorem In_eq {q : ℝ} (hq : 0 < q) (h1 : q ≠ 1) (n : ℕ) : J (fun t => 1 / D q t ^ (n + 2)) = (1 - 1 / q ^ (n + 1)) / ((n + 1) * (q - 1)) := by
  have hy : q - 1 ≠ 0 := sub_ne_zero.2 h1
  have hn : (n : ℝ) + 1 ≠ 0 := by positivity
  have := intervalIntegral.integral_eq_sub_of_hasDerivAt (a := (0:ℝ)) (b := 1)
    (f := fun t => -(D q t ^ (n + 1))⁻¹ / ((n + 1) * (q - 1))) (f' := fun t => 1 / D q t ^ (n + 2))
    (fun t ht => by
      rw [Set.uIcc_of_le zero_le_one] at ht
      have hne := D_ne hq ht
      have := (((D_deriv q t).pow (n + 1)).inv (pow_ne_zero _ hne)).neg.div_const (((n : ℝ) + 1) * (q - 1))
      refine HasDerivAt.congr_deriv this ?_
      simp only [Nat.add_sub_cancel, Pi.pow_apply]
      push_cast
      field_simp
      try ring)
    (C0_frac hq (n + 2) continuous_const).ii
  unfold J
  rw [this]
  simp [D]
  field_simp
  try ring

/-- moments `∫ (1-t) tᵏ/(1-t+tq)` -/
noncomputable def M (q : ℝ) (k : ℕ) : ℝ := J (fun t => (1 - t) * t ^ k / D q t)

theorem M_zero {q : ℝ} (hq : 0 < q) (h1 : q ≠ 1) : M q 0 = (q * log q - (q - 1)) / (q - 1) ^ 2 := by
  have hy : q - 1 ≠ 0 := sub_ne_zero.2 h1
  have : M q 0 = J (fun t => q / (q - 1) * (1 / D q t) - 1 / (q - 1)) := by
    unfold M
    apply J_congr
    intro t ht
    have := D_ne hq ht
    simp only [pow_zero, mul_one]
    field_simp
    unfold D; ring
  rw [this, J_sub (by c0) continuousOn_const, J_smul, I1_eq hq h1, J_const]
  field_simp

theorem M_succ {q : ℝ} (hq : 0 < q) (h1 : q ≠ 1) (k : ℕ) : M q (k + 1) = (1 / (((k : ℝ) + 1) * (k + 2)) - M q k) / (q - 1) := by
  have hy : q - 1 ≠ 0 := sub_ne_zero.2 h1
  have e : M q (k + 1) = J (fun t => 1 / (q - 1) * ((t ^ k - t ^ (k + 1)) - (1 - t) * t ^ k / D q t)) := by
    unfold M
    apply J_congr
    intro t ht
    have := D_ne hq ht
    field_simp
    unfold D; ring
  rw [e, J_smul, J_sub (by c0) (by c0), J_sub (by c0) (by c0), J_pow, J_pow]
  unfold M
  push_cast
  have : ((k:ℝ) + 1) ≠ 0 := by positivity
  have : ((k:ℝ) + 2) ≠ 0 := by positivity
  have : ((k:ℝ) + 1 + 1) ≠ 0 := by positivity
  field_simp
  ring

end Himalaya.TLF
