import Verif.PV.Model
import Mathlib.MeasureTheory.Integral.IntervalIntegral.FundThmCalculus
import Mathlib.Analysis.SpecialFunctions.Integrals.Basic
import Mathlib.Analysis.SpecialFunctions.Log.Deriv
import Mathlib.Analysis.Complex.ExponentialBounds
import Mathlib.Analysis.SpecialFunctions.Trigonometric.ArctanDeriv

/-!
# C31: Passarino-Veltman functions
-/

set_option linter.unusedSimpArgs false
set_option linter.unusedVariables false

namespace Himalaya.PV

open Real intervalIntegral

/-! ### Specification: Feynman parameter integrals -/

/-- `Re B0` below threshold: `-∫₀¹ log((x m1² + (1-x) m2² - x(1-x) p²)/Q²) dx` -/
noncomputable def feynB0 (p2 m12 m22 q2 : ℝ) : ℝ :=
  -∫ x in (0:ℝ)..1, log ((x * m12 + (1 - x) * m22 - x * (1 - x) * p2) / q2)

/-- `d B0/d p²` at `p² = 0`: `∫₀¹ x(1-x)/(x m1² + (1-x) m2²) dx` -/
noncomputable def feynD1B0 (m12 m22 : ℝ) : ℝ := ∫ x in (0:ℝ)..1, x * (1 - x) / (x * m12 + (1 - x) * m22)

private theorem eps_pos : 0 < EPSTOL := by unfold EPSTOL; positivity
private theorem eps_lt : EPSTOL < 1 := by unfold EPSTOL; norm_num

/-! ### Symmetry -/

/-- **C31** `b0` is symmetric under the exchange of the masses. -/
theorem C31_b0_symmetric (p2 m12 m22 q2 : ℝ) : b0 p2 m12 m22 q2 = b0 p2 m22 m12 q2 := by
  unfold b0 b0Abs
  rcases lt_trichotomy |m12| |m22| with h | h | h
  · simp only [h, not_lt.2 h.le, if_true, if_false]
    congr 1
    simp only [and_comm]
  · rw [h]
  · simp only [h, not_lt.2 h.le, if_true, if_false]
    congr 1
    simp only [and_comm]

/-! ### Renormalization scale -/

private theorem log_scale {x q q' : ℝ} (hx : x ≠ 0) (hq : 0 < q) (hq' : 0 < q') : log (x / q') = log (x / q) - log (q' / q) := by
  rw [log_div hx hq'.ne', log_div hx hq.ne', log_div hq'.ne' hq.ne']; ring

/-- **C31** Scale dependence of `a0` (outside the region treated as massless). -/
theorem C31_a0_scale {m2 q q' : ℝ} (hm : EPSTOL ≤ |m2|) (hq : 0 < q) (hq' : 0 < q') :
    a0 m2 q' = a0 m2 q + |m2| * log (q' / q) := by
  unfold a0
  rw [if_neg (not_lt.2 hm), if_neg (not_lt.2 hm), log_scale (lt_of_lt_of_le eps_pos hm).ne' hq hq']
  ring

/-- the arguments are not in the region treated as infrared divergent -/
def NotIR (p2 m12 m22 q2 : ℝ) : Prop := EPSTOL * |q2| ≤ |p2| ∨ EPSTOL * |q2| ≤ |m12| ∨ EPSTOL * |q2| ≤ |m22|

private theorem b0xxAbs_scale {p2 m2 q q' : ℝ} (hp : 0 ≤ p2) (hm : 0 ≤ m2) (hq : 0 < q) (hq' : 0 < q')
    (h : EPSTOL * q ≤ p2 ∨ EPSTOL * q ≤ m2) (h' : EPSTOL * q' ≤ p2 ∨ EPSTOL * q' ≤ m2) :
    b0xxAbs p2 m2 q' = b0xxAbs p2 m2 q + log (q' / q) := by
  have he := eps_pos
  have c : ¬(p2 < EPSTOL * q ∧ m2 < EPSTOL * q) := by rintro ⟨a, b⟩; rcases h with h | h <;> linarith
  have c' : ¬(p2 < EPSTOL * q' ∧ m2 < EPSTOL * q') := by rintro ⟨a, b⟩; rcases h' with h | h <;> linarith
  have hpos : 0 < p2 ∨ 0 < m2 := by
    have := mul_pos he hq
    rcases h with h | h
    · exact Or.inl (lt_of_lt_of_le this h)
    · exact Or.inr (lt_of_lt_of_le this h)
  unfold b0xxAbs
  rw [if_neg c, if_neg c']
  by_cases h1 : p2 < 1 / 1000 * m2
  · rw [if_pos h1, if_pos h1]
    have : 0 < m2 := by linarith
    dsimp only
    rw [log_scale this.ne' hq hq']; ring
  rw [if_neg h1, if_neg h1]
  by_cases h2 : p2 ≤ 4 * m2
  · rw [if_pos h2, if_pos h2]
    have : 0 < m2 := by rcases hpos with h | h <;> linarith
    rw [log_scale this.ne' hq hq']; ring
  rw [if_neg h2, if_neg h2]
  push Not at h2
  have hp0 : 0 < p2 := by linarith
  by_cases h3 : p2 < 100 * m2
  · rw [if_pos h3, if_pos h3]
    have : 0 < m2 := by linarith
    dsimp only
    rw [log_scale this.ne' hq hq']; ring
  rw [if_neg h3, if_neg h3]
  by_cases h4 : p2 * EPSTOL < m2
  · rw [if_pos h4, if_pos h4]
    dsimp only
    rw [log_scale hp0.ne' hq hq']; ring
  · rw [if_neg h4, if_neg h4, log_scale hp0.ne' hq hq']; ring

private theorem b0Ordered_scale {p2 m12 m22 q q' : ℝ} (hp : 0 ≤ p2) (hm : 0 ≤ m12) (hmm : m12 ≤ m22) (hq : 0 < q) (hq' : 0 < q')
    (h : EPSTOL * q ≤ p2 ∨ EPSTOL * q ≤ m12 ∨ EPSTOL * q ≤ m22)
    (h' : EPSTOL * q' ≤ p2 ∨ EPSTOL * q' ≤ m12 ∨ EPSTOL * q' ≤ m22)
    (hx : m22 < m12 * (1 + EPSTOL) → (EPSTOL * q ≤ p2 ∨ EPSTOL * q ≤ m12) ∧ (EPSTOL * q' ≤ p2 ∨ EPSTOL * q' ≤ m12)) :
    b0Ordered p2 m12 m22 q' = b0Ordered p2 m12 m22 q + log (q' / q) := by
  have he := eps_pos
  have hpos : 0 < p2 ∨ 0 < m22 := by
    have := mul_pos he hq
    rcases h with h | h | h
    · exact Or.inl (lt_of_lt_of_le this h)
    · exact Or.inr (lt_of_lt_of_le this (le_trans h hmm))
    · exact Or.inr (lt_of_lt_of_le this h)
  unfold b0Ordered
  by_cases h1 : m22 < m12 * (1 + EPSTOL)
  · rw [if_pos h1, if_pos h1]
    unfold b0xx
    rw [abs_of_nonneg hp, abs_of_nonneg hm, abs_of_pos hq, abs_of_pos hq']
    exact b0xxAbs_scale hp hm hq hq' (hx h1).1 (hx h1).2
  rw [if_neg h1, if_neg h1]
  by_cases h2 : p2 ≤ 1 / 10 ^ 11 * m12
  · rw [if_pos h2, if_pos h2]
    have hm22 : 0 < m22 := by
      rcases hpos with h0 | h0
      · have : 0 < m12 := by
          by_contra hn; push Not at hn
          have : p2 ≤ 0 := le_trans h2 (by nlinarith [show (0:ℝ) < 1 / 10 ^ 11 by norm_num])
          linarith
        linarith
      · exact h0
    by_cases h3 : m12 < EPSTOL * m22
    · rw [if_pos h3, if_pos h3, log_scale hm22.ne' hq hq']; ring
    · rw [if_neg h3, if_neg h3, log_scale hm22.ne' hq hq']; ring
  rw [if_neg h2, if_neg h2]
  push Not at h2
  have hp0 : 0 < p2 := lt_of_le_of_lt (by positivity) h2
  by_cases h3 : m12 < EPSTOL * EPSTOL * m22
  · rw [if_pos h3, if_pos h3]
    have hm22 : 0 < m22 := by
      by_contra hn; push Not at hn
      have : EPSTOL * EPSTOL * m22 ≤ 0 := mul_nonpos_of_nonneg_of_nonpos (by positivity) hn
      linarith
    dsimp only
    rw [log_scale hm22.ne' hq hq']; ring
  · rw [if_neg h3, if_neg h3]
    unfold b0General
    dsimp only
    rw [log_scale hp0.ne' hq hq']; ring

/-- **C31** Scale dependence of `b0`: `b0(Q'²) - b0(Q²) = log(Q'²/Q²)`, outside the infrared region (with a margin of `1 + 1e-15`
for nearly degenerate masses). -/
theorem C31_b0_scale {p2 m12 m22 q q' : ℝ} (hq : 0 < q) (hq' : 0 < q')
    (h : EPSTOL * q ≤ |p2| ∨ EPSTOL * q * (1 + EPSTOL) ≤ max |m12| |m22|)
    (h' : EPSTOL * q' ≤ |p2| ∨ EPSTOL * q' * (1 + EPSTOL) ≤ max |m12| |m22|) :
    b0 p2 m12 m22 q' = b0 p2 m12 m22 q + log (q' / q) := by
  wlog hle : |m12| ≤ |m22| generalizing m12 m22
  · rw [C31_b0_symmetric, C31_b0_symmetric p2 m12]
    exact this (by rwa [max_comm]) (by rwa [max_comm]) (le_of_not_ge hle)
  rw [max_eq_right hle] at h h'
  have he := eps_pos
  have k : ∀ {q : ℝ}, 0 < q → (EPSTOL * q ≤ |p2| ∨ EPSTOL * q * (1 + EPSTOL) ≤ |m22|) →
      (EPSTOL * q ≤ |p2| ∨ EPSTOL * q ≤ |m12| ∨ EPSTOL * q ≤ |m22|) ∧
      (|m22| < |m12| * (1 + EPSTOL) → EPSTOL * q ≤ |p2| ∨ EPSTOL * q ≤ |m12|) := by
    intro q hq h
    rcases h with h | h
    · exact ⟨Or.inl h, fun _ => Or.inl h⟩
    · have h0 : EPSTOL * q ≤ |m22| := le_trans (by nlinarith [mul_pos he hq]) h
      refine ⟨Or.inr (Or.inr h0), fun hx => Or.inr ?_⟩
      have : EPSTOL * q * (1 + EPSTOL) ≤ |m12| * (1 + EPSTOL) := le_trans h hx.le
      exact le_of_mul_le_mul_right this (by linarith)
  obtain ⟨a, b⟩ := k hq h
  obtain ⟨a', b'⟩ := k hq' h'
  have nir : ∀ {q : ℝ}, (EPSTOL * q ≤ |p2| ∨ EPSTOL * q ≤ |m12| ∨ EPSTOL * q ≤ |m22|) →
      ¬(|p2| < EPSTOL * q ∧ |m12| < EPSTOL * q ∧ |m22| < EPSTOL * q) := by
    rintro q h ⟨x, y, z⟩
    rcases h with h | h | h <;> linarith
  unfold b0 b0Abs
  rw [abs_of_pos hq, abs_of_pos hq', if_neg (nir a), if_neg (nir a'), if_neg (not_lt.2 hle), if_neg (not_lt.2 hle)]
  exact b0Ordered_scale (abs_nonneg _) (abs_nonneg _) hle hq hq' a a' fun hx => ⟨b hx, b' hx⟩

example : EPSTOL * 8315 ≤ |(15625:ℝ)| ∨ EPSTOL * 8315 * (1 + EPSTOL) ≤ max |(0:ℝ)| |0| := by
  left; unfold EPSTOL; norm_num

/-! ### Zero momentum -/

theorem pos_seg {a b x : ℝ} (ha : 0 < a) (hb : 0 < b) (hx : x ∈ Set.Icc (0:ℝ) 1) : 0 < x * a + (1 - x) * b := by
  obtain ⟨h0, h1⟩ := hx
  rcases eq_or_lt_of_le h0 with h | h
  · subst h; simpa using hb
  · have := mul_pos h ha; have := mul_nonneg (sub_nonneg.2 h1) hb.le; linarith

theorem feyn_eq {a b q : ℝ} (ha : 0 < a) (hb : 0 < b) (hq : 0 < q) (hne : a ≠ b) :
    feynB0 0 a b q = 1 - log (b / q) + a * log (b / a) / (a - b) := by
  have hD : a - b ≠ 0 := sub_ne_zero.2 hne
  have hder : ∀ x ∈ Set.uIcc (0:ℝ) 1, HasDerivAt
      (fun x => ((x * a + (1 - x) * b) * log (x * a + (1 - x) * b) - (x * a + (1 - x) * b)) / (a - b) - x * log q)
      (log ((x * a + (1 - x) * b - x * (1 - x) * 0) / q)) x := by
    intro x hx
    rw [Set.uIcc_of_le zero_le_one] at hx
    have hp := pos_seg ha hb hx
    have hu : HasDerivAt (fun x => x * a + (1 - x) * b) (a - b) x := by
      have := ((hasDerivAt_id x).mul_const a).add (((hasDerivAt_id x).const_sub 1).mul_const b)
      refine this.congr_deriv ?_
      ring
    have h1 := ((hu.mul (hu.log hp.ne')).sub hu).div_const (a - b)
    have h2 := h1.sub ((hasDerivAt_id x).mul_const (log q))
    refine h2.congr_deriv ?_
    rw [mul_zero, sub_zero, log_div hp.ne' hq.ne', mul_div_cancel₀ _ hp.ne']
    field_simp
    ring
  have hint : IntervalIntegrable (fun x => log ((x * a + (1 - x) * b - x * (1 - x) * 0) / q)) MeasureTheory.volume 0 1 := by
    apply ContinuousOn.intervalIntegrable
    rw [Set.uIcc_of_le zero_le_one]
    apply ContinuousOn.log
    · fun_prop
    · intro x hx
      have := pos_seg ha hb hx
      rw [mul_zero, sub_zero]
      exact (div_pos this hq).ne'
  unfold feynB0
  rw [integral_eq_sub_of_hasDerivAt hder hint, log_div hb.ne' hq.ne', log_div hb.ne' ha.ne']
  simp only [one_mul, sub_self, zero_mul, add_zero, zero_add, sub_zero]
  field_simp
  ring

theorem feyn_eq_deg {a q : ℝ} (ha : 0 < a) (hq : 0 < q) : feynB0 0 a a q = -log (a / q) := by
  unfold feynB0
  have : ∀ x : ℝ, log ((x * a + (1 - x) * a - x * (1 - x) * 0) / q) = log (a / q) := by
    intro x; congr 2; ring
  simp only [this, integral_const, sub_zero, one_smul]

/-- **C31** At zero momentum `b0` is the Feynman parameter integral, for equal masses and for masses that differ by more than a
relative `1e-15` and whose ratio is not below `1e-15`. -/
theorem C31_b0_zero_momentum {a b q : ℝ} (ha : 0 < a) (hb : 0 < b) (hq : 0 < q) (hIR : EPSTOL * q ≤ max a b)
    (h : a = b ∨ (min a b * (1 + EPSTOL) ≤ max a b ∧ EPSTOL * max a b ≤ min a b)) :
    b0 0 a b q = feynB0 0 a b q := by
  have symm : feynB0 0 a b q = feynB0 0 b a q := by
    rcases eq_or_ne a b with h | h
    · rw [h]
    · rw [feyn_eq ha hb hq h, feyn_eq hb ha hq h.symm, log_div hb.ne' hq.ne', log_div ha.ne' hq.ne', log_div hb.ne' ha.ne',
        log_div ha.ne' hb.ne']
      have h1 : a - b ≠ 0 := sub_ne_zero.2 h
      have h2 : b - a ≠ 0 := sub_ne_zero.2 h.symm
      field_simp
      ring
  wlog hle : a ≤ b generalizing a b
  · rw [C31_b0_symmetric, symm]
    exact this hb ha (by rwa [max_comm]) (by rw [min_comm, max_comm]; exact h.imp Eq.symm id) symm.symm (le_of_not_ge hle)
  have he := eps_pos
  rw [max_eq_right hle] at hIR h
  rw [min_eq_left hle] at h
  unfold b0 b0Abs
  simp only [abs_zero, abs_of_pos ha, abs_of_pos hb, abs_of_pos hq]
  rw [if_neg (fun hh => absurd hh.2.2 (not_lt.2 hIR)), if_neg (not_lt.2 hle)]
  unfold b0Ordered
  rcases h with h | ⟨h1, h2⟩
  · subst h
    rw [if_pos (by nlinarith), feyn_eq_deg ha hq]
    unfold b0xx b0xxAbs
    simp only [abs_zero, abs_of_pos ha, abs_of_pos hq]
    rw [if_neg (fun hh => absurd hh.2 (not_lt.2 hIR)), if_pos (by positivity)]
    simp
  · have hne : a ≠ b := by intro hh; subst hh; nlinarith
    rw [if_neg (not_lt.2 h1), if_pos (by positivity), if_neg (not_lt.2 h2), feyn_eq ha hb hq hne]

/-! ### The derivative -/

theorem feynD_eq {a b : ℝ} (ha : 0 < a) (hb : 0 < b) (hne : a ≠ b) :
    feynD1B0 a b = ((a - b) * (a + b) + 2 * a * b * log (b / a)) / (2 * (a - b) ^ 3) := by
  have hD : a - b ≠ 0 := sub_ne_zero.2 hne
  have hder : ∀ x ∈ Set.uIcc (0:ℝ) 1, HasDerivAt
      (fun x => (-(x * a + (1 - x) * b) ^ 2 / 2 + (a + b) * (x * a + (1 - x) * b) - a * b * log (x * a + (1 - x) * b)) / (a - b) ^ 3)
      (x * (1 - x) / (x * a + (1 - x) * b)) x := by
    intro x hx
    rw [Set.uIcc_of_le zero_le_one] at hx
    have hp := pos_seg ha hb hx
    have hu : HasDerivAt (fun x => x * a + (1 - x) * b) (a - b) x := by
      have := ((hasDerivAt_id x).mul_const a).add (((hasDerivAt_id x).const_sub 1).mul_const b)
      refine this.congr_deriv ?_
      ring
    have h1 := ((((hu.pow 2).neg).div_const 2).add (hu.const_mul (a + b))).sub ((hu.log hp.ne').const_mul (a * b))
    refine (h1.div_const ((a - b) ^ 3)).congr_deriv ?_
    have := hp.ne'
    field_simp
    ring
  have hint : IntervalIntegrable (fun x => x * (1 - x) / (x * a + (1 - x) * b)) MeasureTheory.volume 0 1 := by
    apply ContinuousOn.intervalIntegrable
    rw [Set.uIcc_of_le zero_le_one]
    apply ContinuousOn.div
    · fun_prop
    · fun_prop
    · intro x hx; exact (pos_seg ha hb hx).ne'
  unfold feynD1B0
  rw [integral_eq_sub_of_hasDerivAt hder hint, log_div hb.ne' ha.ne']
  simp only [one_mul, sub_self, zero_mul, add_zero, zero_add, sub_zero]
  field_simp
  ring

/-- **C31** For non-degenerate masses of comparable size `d1_b0` is the derivative integral. -/
theorem C31_d1b0_general {a b : ℝ} (ha : 0 < a) (hb : 0 < b) (h1 : 1 / 10 ^ 14 * b ≤ a) (h2 : 1 / 10 ^ 14 * a ≤ b)
    (h3 : EPSTOL ≤ max a b) (h4 : 5 / 100 * a ≤ |b - a|) : d1b0 a b = feynD1B0 a b := by
  have hne : a ≠ b := by
    rintro rfl
    rw [sub_self, abs_zero] at h4; linarith
  rw [feynD_eq ha hb hne]
  unfold d1b0 d1b0Abs
  rw [abs_of_pos ha, abs_of_pos hb]
  rw [if_neg (fun hn => hn ⟨fun h => absurd h (not_lt.2 h1), fun h => absurd h (not_lt.2 h2)⟩), if_neg (fun hh => by
    have := max_lt hh.1 hh.2; linarith), if_neg (not_lt.2 h4)]

example : 5 / 100 * (1:ℝ) ≤ |2 - 1| ∧ 1 / 10 ^ 14 * (2:ℝ) ≤ 1 ∧ 1 / 10 ^ 14 * (1:ℝ) ≤ 2 := by norm_num

/-- **C31** With one massless particle `d1_b0` is the derivative integral, `1/(2 m²)`. -/
theorem C31_d1b0_massless {b : ℝ} (hb : 0 < b) : d1b0 0 b = 1 / (2 * b) ∧ d1b0 b 0 = 1 / (2 * b) ∧ feynD1B0 0 b = 1 / (2 * b) := by
  refine ⟨?_, ?_, ?_⟩
  · unfold d1b0 d1b0Abs
    rw [abs_zero, abs_of_pos hb, if_pos]
    · have := hb.ne'
      rw [show (0 - b) ^ 3 = -(b ^ 3) by ring]; field_simp; ring
    · rw [mul_zero]
      intro h
      exact absurd (h.1 (by positivity)) (not_lt.2 hb.le)
  · unfold d1b0 d1b0Abs
    rw [abs_zero, abs_of_pos hb, if_pos]
    · have := hb.ne'
      rw [sub_zero, add_zero]; field_simp
    · rw [mul_zero]
      intro h
      exact absurd (h.2 (by positivity)) (not_lt.2 hb.le)
  · unfold feynD1B0
    have e : Set.EqOn (fun x => x * (1 - x) / (x * 0 + (1 - x) * b)) (fun x => x / b) (Set.uIoo (0:ℝ) 1) := by
      intro x hx
      rw [Set.uIoo_of_le zero_le_one] at hx
      have : 1 - x ≠ 0 := by linarith [hx.2]
      dsimp only
      have := hb.ne'
      rw [mul_zero, zero_add]
      field_simp
    have := integral_congr_uIoo (μ := MeasureTheory.volume) e
    rw [this]
    simp
    field_simp

end Himalaya.PV
