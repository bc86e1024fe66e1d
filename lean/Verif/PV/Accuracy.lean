import Verif.PV.Large

/-!
# C31: accuracy of `b0` for every momentum
-/

set_option linter.unusedSimpArgs false
set_option linter.unusedVariables false

namespace Himalaya.PV

open Real intervalIntegral MeasureTheory

theorem feyn_symm (p a b q : ℝ) : feynB0 p a b q = feynB0 p b a q := by
  rw [feyn_Dn]
  unfold feynB0
  congr 1
  apply integral_congr
  intro t _
  dsimp only
  congr 2
  unfold Dn; ring

/-! ### Equal masses -/

theorem b0xx_err {p m q : ℝ} (hp : 0 ≤ p) (hm : 0 ≤ m) (hq : 0 < q) (hir : ¬(p < EPSTOL * q ∧ m < EPSTOL * q)) :
    |b0xxAbs p m q - feynB0 p m m q| ≤ 1 / 10 ^ 9 := by
  have he := eps_pos'
  by_cases h1 : p < 1 / 1000 * m
  · exact ((feyn_small hp (by linarith) h1 hq).resolve_right hir).trans (by norm_num)
  push Not at h1
  have hp0 : 0 < p := by
    by_contra h
    have hp' : p = 0 := le_antisymm (not_lt.1 h) hp
    have hm' : m = 0 := by linarith
    apply hir
    rw [hp', hm']
    exact ⟨by positivity, by positivity⟩
  by_cases h2 : p ≤ 4 * m
  · unfold b0xxAbs
    rw [if_neg hir, if_neg (not_lt.2 h1), if_pos h2]
    have hm0 : 0 < m := by linarith
    rcases eq_or_lt_of_le h2 with h | h
    · rw [h, feyn_threshold hm0 hq, div_self (by positivity), sub_self, Real.sqrt_zero]
      norm_num
    · rw [feyn_below hp0 h hq, sub_self, abs_zero]; positivity
  push Not at h2
  by_cases h3 : p < 100 * m
  · unfold b0xxAbs
    rw [if_neg hir, if_neg (not_lt.2 h1), if_neg (not_le.2 h2), if_pos h3]
    rw [feyn_above hp0 h2.le (by linarith) hq, sub_self, abs_zero]; positivity
  push Not at h3
  by_cases h4 : p * EPSTOL < m
  · exact (feyn_large (lt_trans (by positivity) h4) h3 h4 hq hir).trans (by norm_num)
  · exact feyn_huge hp0 hm (not_lt.1 h4) hq hir

/-- two massless particles: the special values of `fB` are used -/
theorem both_massless {p q : ℝ} (hp : 0 < p) (hq : 0 < q) : b0Ordered p 0 0 q = feynB0 p 0 0 q := by
  have hpc : (p : ℂ) ≠ 0 := by exact_mod_cast hp.ne'
  unfold b0Ordered
  rw [if_neg (by simp), if_neg (by simpa using hp), if_neg (by simp)]
  unfold b0General
  have e0 : (⟨0, -EPSTOL * 0⟩ : ℂ) = 0 := by apply Complex.ext <;> simp
  have e1 : (((p - 0 + 0 : ℝ) : ℂ) ^ 2 - 4 * p * 0) ^ ((1 : ℂ) / 2) = p := by
    have : ((((p - 0 + 0 : ℝ) : ℂ) ^ 2 - 4 * p * 0)) = ((p ^ 2 : ℝ) : ℂ) := by push_cast; ring
    rw [this, show ((1 : ℂ) / 2) = ((1 / 2 : ℝ) : ℂ) by push_cast; ring, ← Complex.ofReal_cpow (by positivity), ← Real.sqrt_eq_rpow,
      Real.sqrt_sq hp.le]
  have e2 : sgn (p - 0 + 0) = 1 := by unfold sgn; rw [if_pos (by linarith)]
  dsimp only
  rw [e0, e1, e2]
  have e3 : (((p - 0 + 0 : ℝ) : ℂ) + ((1 : ℝ) : ℂ) * p) / (2 * p) = 1 := by push_cast; field_simp; ring
  rw [e3, zero_div]
  have f1 : fB 1 = -1 := by unfold fB; rw [if_pos (by simp)]
  have f0 : fB 0 = -1 := by unfold fB; rw [if_pos (by simp)]
  rw [f1, f0, roots_form (b := 0) hp hq (by simp)]
  simp
  ring

/-- `b0` for masses that agree up to `1e-15` -/
theorem ordered_equal {p a b q : ℝ} (h : b < a * (1 + EPSTOL)) (hp : 0 ≤ p) (ha : 0 ≤ a) (hq : 0 < q) :
    b0Ordered p a b q = b0xxAbs p a q := by
  unfold b0Ordered
  rw [if_pos h]
  unfold b0xx
  rw [abs_of_nonneg hp, abs_of_nonneg ha, abs_of_pos hq]

/-- **C31** For equal masses `b0` is the real part of the Feynman parameter integral at every momentum, up to `1e-9`; exactly so for
`m²/1000 ≤ p² < 100 m²`, through the threshold, and for massless particles. -/
theorem C31_b0_equal_masses (p2 m2 : ℝ) {q : ℝ} (hq : 0 < q) (hIR : EPSTOL * q ≤ |p2| ∨ EPSTOL * q ≤ |m2|) :
    |b0 p2 m2 m2 q - feynB0 |p2| |m2| |m2| q| ≤ 1 / 10 ^ 9 ∧
    (m2 = 0 ∨ (1 / 1000 * |m2| ≤ |p2| ∧ |p2| < 100 * |m2|) → b0 p2 m2 m2 q = feynB0 |p2| |m2| |m2| q) := by
  have he := eps_pos'
  have hir : ¬(|p2| < EPSTOL * q ∧ |m2| < EPSTOL * q) := by rintro ⟨a, b⟩; rcases hIR with h | h <;> linarith
  have hir' : ¬(|p2| < EPSTOL * q ∧ |m2| < EPSTOL * q ∧ |m2| < EPSTOL * q) := fun h => hir ⟨h.1, h.2.1⟩
  have e : b0 p2 m2 m2 q = b0Ordered |p2| |m2| |m2| q := by
    unfold b0 b0Abs
    rw [abs_of_pos hq, if_neg hir', if_neg (lt_irrefl _)]
  rw [e]
  rcases eq_or_lt_of_le (abs_nonneg m2) with h0 | h0
  · have hp : 0 < |p2| := by
      have := mul_pos he hq
      rcases hIR with h | h <;> linarith
    rw [← h0, both_massless hp hq]
    exact ⟨by rw [sub_self, abs_zero]; positivity, fun _ => rfl⟩
  · rw [ordered_equal (by nlinarith) (abs_nonneg _) h0.le hq]
    refine ⟨b0xx_err (abs_nonneg _) h0.le hq hir, fun h => ?_⟩
    rcases h with h | ⟨h1, h3⟩
    · rw [h] at h0; simp at h0
    have hp0 : 0 < |p2| := by linarith
    unfold b0xxAbs
    rw [if_neg hir, if_neg (not_lt.2 h1)]
    by_cases h2 : |p2| ≤ 4 * |m2|
    · rw [if_pos h2]
      rcases eq_or_lt_of_le h2 with h | h
      · rw [h, feyn_threshold h0 hq, div_self (by positivity), sub_self, Real.sqrt_zero]
        ring
      · rw [feyn_below hp0 h hq]
    · push Not at h2
      rw [if_neg (not_le.2 h2), if_pos h3, feyn_above hp0 h2.le h0 hq]

/-- top-quark loop at the Higgs mass, and above threshold -/
example : (1 / 1000 * |(173 ^ 2 : ℝ)| ≤ |125 ^ 2| ∧ |(125 ^ 2 : ℝ)| < 100 * |173 ^ 2|) ∧
    (1 / 1000 * |(1:ℝ)| ≤ |50| ∧ |(50 : ℝ)| < 100 * |1|) ∧ EPSTOL * 8315 ≤ |(125 ^ 2 : ℝ)| := by
  unfold EPSTOL; norm_num

/-! ### Small momentum -/

theorem small_mom {p a b q : ℝ} (hp : 0 ≤ p) (ha : 0 < a) (hab : a ≤ b) (hq : 0 < q) (h : p ≤ 1 / 10 ^ 11 * a) :
    |feynB0 0 a b q - feynB0 p a b q| ≤ 1 / 10 ^ 11 := by
  rcases eq_or_lt_of_le hp with h0 | h0
  · rw [← h0, sub_self, abs_zero]; positivity
  obtain ⟨hz, hint, -⟩ := ii_Dn (p2 := p) (m12 := a) (m22 := b) h0 hq
  have hD0 : ∀ t ∈ Set.Icc (0:ℝ) 1, a ≤ Dn 0 a b t := by
    intro t ht
    have := mul_nonneg (show 0 ≤ b - a by linarith) ht.1
    unfold Dn; linarith
  have hD0' : ∀ t ∈ Set.uIcc (0:ℝ) 1, Dn 0 a b t / q ≠ 0 := by
    intro t ht
    rw [Set.uIcc_of_le zero_le_one] at ht
    have := hD0 t ht
    exact (div_pos (by linarith) hq).ne'
  have hint0 : IntervalIntegrable (fun t => log (Dn 0 a b t / q)) volume 0 1 := by
    apply ContinuousOn.intervalIntegrable
    apply ContinuousOn.log _ hD0'
    unfold Dn; fun_prop
  rw [feyn_Dn, feyn_Dn, neg_sub_neg, ← integral_sub hint hint0, ← Real.norm_eq_abs]
  have := intervalIntegral.norm_integral_le_of_norm_le_const (a := 0) (b := 1) (C := 1 / 10 ^ 11)
    (f := fun t => log (Dn p a b t / q) - log (Dn 0 a b t / q)) ?_
  · simpa using this
  intro t ht
  rw [Set.uIoc_of_le zero_le_one] at ht
  have ht' : t ∈ Set.Icc (0:ℝ) 1 := ⟨ht.1.le, ht.2⟩
  have hl := Dn_lower h0 hab ht'
  have hl0 := hD0 t ht'
  have hd : Dn 0 a b t - Dn p a b t = t * (1 - t) * p := by unfold Dn; ring
  have ht0 : 0 ≤ t * (1 - t) := mul_nonneg ht.1.le (by linarith [ht.2])
  have ht1 : t * (1 - t) ≤ 1 / 4 := by nlinarith [sq_nonneg (t - 1 / 2)]
  have hd0 : 0 ≤ t * (1 - t) * p := mul_nonneg ht0 hp
  have hd1 : t * (1 - t) * p ≤ 1 / 4 * p := mul_le_mul_of_nonneg_right ht1 hp
  have hpa : p ≤ 1 / 10 * a := h.trans (mul_le_mul_of_nonneg_right (by norm_num) ha.le)
  have hlp : 0 < Dn p a b t := by linarith
  have h00 : 0 < Dn 0 a b t := by linarith
  rw [Real.norm_eq_abs, log_div hlp.ne' hq.ne', log_div h00.ne' hq.ne']
  have e : log (Dn p a b t) - log q - (log (Dn 0 a b t) - log q) = -log (Dn 0 a b t / Dn p a b t) := by
    rw [log_div h00.ne' hlp.ne']; ring
  have hge : 0 ≤ log (Dn 0 a b t / Dn p a b t) := by
    apply log_nonneg; rw [le_div_iff₀ hlp]; linarith
  rw [e, abs_neg, abs_of_nonneg hge]
  refine (log_le_sub_one_of_pos (div_pos h00 hlp)).trans ?_
  have : Dn 0 a b t / Dn p a b t - 1 = t * (1 - t) * p / Dn p a b t := by rw [← hd]; field_simp
  rw [this, div_le_iff₀ hlp]
  have : 1 / 10 ^ 11 * (9 / 10 * a) ≤ 1 / 10 ^ 11 * Dn p a b t := mul_le_mul_of_nonneg_left (by linarith) (by positivity)
  refine hd1.trans (le_trans ?_ this)
  norm_num at h ⊢; linarith

/-- massless and massive particle at zero momentum -/
theorem zero_massless {b q : ℝ} (hb : 0 < b) (hq : 0 < q) : feynB0 0 0 b q = 1 - log (b / q) := by
  rw [feyn_Dn]
  have : ∫ t in (0:ℝ)..1, log (Dn 0 0 b t / q) = ∫ t in (0:ℝ)..1, (log (b / q) + log (t - 0)) := by
    apply intervalIntegral.integral_congr_ae
    filter_upwards [ae_ne 0 0] with t ht _
    have hD : Dn 0 0 b t = b * t := by unfold Dn; ring
    rw [hD, sub_zero, mul_div_right_comm, log_mul (by positivity) ht.1]
  rw [this, integral_add intervalIntegrable_const (ii_log_sub 0), int_log_sub]
  simp
  ring

theorem ordered_small {p a b q : ℝ} (hp : 0 ≤ p) (ha : 0 ≤ a) (hb : 0 < b) (hab : a * (1 + EPSTOL) ≤ b) (hq : 0 < q) (h : p ≤ 1 / 10 ^ 11 * a) :
    |b0Ordered p a b q - feynB0 p a b q| ≤ 1 / 10 ^ 9 := by
  have he := eps_pos'
  unfold b0Ordered
  rw [if_neg (not_lt.2 hab), if_pos h]
  rcases eq_or_lt_of_le ha with h0 | h0
  · subst h0
    have : p = 0 := le_antisymm (by simpa using h) hp
    rw [if_pos (by positivity), this, zero_massless hb hq, sub_self, abs_zero]; positivity
  have hle : a ≤ b := by nlinarith
  have hne : a ≠ b := by rintro rfl; nlinarith
  have hs := small_mom hp h0 hle hq h
  rw [feyn_eq h0 hb hq hne] at hs
  split_ifs with h1
  · have hba : a - b ≠ 0 := sub_ne_zero.2 hne
    have hr1 : a / b ≤ 1 / 10 ^ 15 := by
      rw [div_le_iff₀ hb]; unfold EPSTOL at h1; exact h1.le
    have hr := mul_log_tiny (r := a / b) (by positivity) hr1
    have e : a * log (b / a) / (a - b) = -((a / b) * -log (a / b)) / (1 - a / b) := by
      rw [log_div hb.ne' h0.ne', log_div h0.ne' hb.ne']
      have : b - a ≠ 0 := by intro h; apply hba; linarith
      field_simp
      ring
    rw [e] at hs
    generalize a / b = r at *
    have hb2 : r * -log r / (1 - r) ≤ 4 / 10 ^ 11 := by
      rw [div_le_iff₀ (by norm_num at hr1; linarith)]
      norm_num at hr hr1 ⊢; linarith [hr.2]
    have hb3 : 0 ≤ r * -log r / (1 - r) := div_nonneg hr.1 (by norm_num at hr1; linarith)
    rw [neg_div] at hs
    rw [abs_le] at hs ⊢
    constructor <;> norm_num at hs hb2 hb3 ⊢ <;> linarith [hs.1, hs.2]
  · exact hs.trans (by norm_num)

/-! ### The result -/

theorem ordered_err {p a b q : ℝ} (hp : 0 ≤ p) (ha : 0 ≤ a) (hab : a ≤ b) (hq : 0 < q)
    (hIR : EPSTOL * q ≤ p ∨ EPSTOL * q * (1 + EPSTOL) ≤ b) (hml : EPSTOL ^ 2 * b ≤ a ∨ p ≤ 1 / 10 ^ 11 * a) :
    |b0Ordered p a b q - feynB0 p a b q| ≤ 1 / 10 ^ 6 ∧ (p ≤ a → |b0Ordered p a b q - feynB0 p a b q| ≤ 3 / 10 ^ 9) := by
  have he := eps_pos'
  have he1 : EPSTOL ≤ 1 := by unfold EPSTOL; norm_num
  have rb : regErr p a ≤ 6 / 10 ^ 7 ∧ (p ≤ a → regErr p a ≤ 2 / 10 ^ 15) := by
    unfold regErr
    split_ifs with h
    · exact ⟨by norm_num, fun _ => le_rfl⟩
    · exact ⟨le_rfl, fun h' => absurd h' h⟩
  have weak : ∀ {x : ℝ}, x ≤ 1 / 10 ^ 9 → x ≤ 1 / 10 ^ 6 ∧ (p ≤ a → x ≤ 3 / 10 ^ 9) := by
    intro x hx
    exact ⟨hx.trans (by norm_num), fun _ => hx.trans (by norm_num)⟩
  by_cases h1 : b < a * (1 + EPSTOL)
  · rw [ordered_equal h1 hp ha hq]
    have ha0 : 0 < a := by
      by_contra h
      have : a = 0 := le_antisymm (not_lt.1 h) ha
      rw [this] at h1; simp at h1; linarith
    have hir : ¬(p < EPSTOL * q ∧ a < EPSTOL * q) := by
      rintro ⟨h, h'⟩
      rcases hIR with hh | hh
      · linarith
      · nlinarith
    have hx := b0xx_err hp ha hq hir
    rcases eq_or_lt_of_le hp with hp0 | hp0
    · have hn : |feynB0 p a a q - feynB0 p a b q| ≤ 2 / 10 ^ 15 := by
        rw [← hp0, feyn_eq_deg ha0 hq]
        rcases eq_or_ne a b with hh | hne
        · subst hh; rw [feyn_eq_deg ha0 hq, sub_self, abs_zero]; positivity
        have hb0 : 0 < b := by linarith
        have hlt : a < b := lt_of_le_of_ne hab hne
        rw [feyn_eq ha0 hb0 hq hne]
        have hy1 : 1 ≤ b / a := by rw [le_div_iff₀ ha0]; linarith
        have l1 := log_le_sub_one_of_pos (show 0 < b / a by positivity)
        have l2 := log_le_sub_one_of_pos (show 0 < a / b by positivity)
        have l3 : log (a / b) = -log (b / a) := by rw [← log_inv, inv_div]
        rw [l3] at l2
        have ea : a * log (b / a) / (a - b) = -(a * log (b / a) / (b - a)) := by
          rw [← neg_sub b a, div_neg]
        have u1 : a * log (b / a) / (b - a) ≤ 1 := by
          rw [div_le_one (by linarith)]
          have := mul_le_mul_of_nonneg_left l1 ha
          have e : a * (b / a - 1) = b - a := by field_simp
          linarith
        have u2 : a / b ≤ a * log (b / a) / (b - a) := by
          rw [div_le_div_iff₀ hb0 (by linarith)]
          have := mul_le_mul_of_nonneg_left l2 (show 0 ≤ a * b by positivity)
          have e : a * b * (a / b - 1) = -(a * (b - a)) := by field_simp; ring
          linarith
        have e1 : log (b / q) = log (a / q) + log (b / a) := by
          rw [log_div hb0.ne' hq.ne', log_div ha0.ne' hq.ne', log_div hb0.ne' ha0.ne']; ring
        have r1 : b / a - 1 ≤ 1 / 10 ^ 15 := by
          rw [sub_le_iff_le_add, div_le_iff₀ ha0]; unfold EPSTOL at h1; linarith
        have r2 : 1 - a / b ≤ b / a - 1 := by
          have : 1 - a / b = (b - a) / b := by field_simp
          rw [this]
          have : b / a - 1 = (b - a) / a := by field_simp
          rw [this]
          apply div_le_div_of_nonneg_left (by linarith) ha0 hab
        have l0 : 0 ≤ log (b / a) := log_nonneg hy1
        rw [ea, e1, abs_le]
        constructor <;> norm_num at r1 ⊢ <;> linarith
      have : |b0xxAbs p a q - feynB0 p a b q| ≤ 2 / 10 ^ 9 := by
        have := abs_sub_le (b0xxAbs p a q) (feynB0 p a a q) (feynB0 p a b q)
        norm_num at hx hn this ⊢; linarith
      exact ⟨this.trans (by norm_num), fun _ => this.trans (by norm_num)⟩
    · have hn := near_equal hp0 ha0 hab hq h1.le
      have ht := abs_sub_le (b0xxAbs p a q) (feynB0 p a a q) (feynB0 p a b q)
      refine ⟨?_, fun h => ?_⟩
      · have := rb.1; norm_num at hx hn this ⊢; linarith
      · have := rb.2 h; norm_num at hx hn this ⊢; linarith
  push Not at h1
  by_cases h2 : p ≤ 1 / 10 ^ 11 * a
  · rcases eq_or_lt_of_le (ha.trans hab) with hb | hb
    · exfalso
      have ha0 : a = 0 := by linarith
      have hp0 : p = 0 := le_antisymm (by rw [ha0] at h2; simpa using h2) hp
      have := mul_pos he hq
      rcases hIR with h | h <;> nlinarith
    · exact weak (ordered_small hp ha hb h1 hq h2)
  have h3 := hml.resolve_right h2
  push Not at h2
  have hp0 : 0 < p := lt_of_le_of_lt (by positivity) h2
  rcases eq_or_lt_of_le ha with ha0 | ha0
  · subst ha0
    have : b = 0 := by
      have : EPSTOL ^ 2 * b = 0 := le_antisymm h3 (by positivity)
      rcases mul_eq_zero.1 this with h | h
      · exact absurd h (by positivity)
      · exact h
    subst this
    rw [both_massless hp0 hq, sub_self, abs_zero]
    exact weak (by positivity)
  · have hg := general_err hp0 ha0 hab hq h2.le
    unfold b0Ordered
    rw [if_neg (not_lt.2 h1), if_neg (not_le.2 h2), if_neg (not_lt.2 (by rw [← pow_two]; exact h3))]
    refine ⟨?_, fun h => ?_⟩
    · have := rb.1; norm_num at hg this ⊢; linarith
    · have := rb.2 h; norm_num at hg this ⊢; linarith

/-- **C31** For every momentum, below, at and above all thresholds, `b0` is the real part of the Feynman parameter integral up to
`1e-6` (and up to `3e-9` if `p²` does not exceed the smaller mass squared), outside the region treated as infrared divergent and
unless one particle is massless relative to the other one (ratio of the squared masses below `1e-30`) and the momentum is not. -/
theorem C31_b0_accuracy (p2 m12 m22 : ℝ) {q : ℝ} (hq : 0 < q)
    (hIR : EPSTOL * q ≤ |p2| ∨ EPSTOL * q * (1 + EPSTOL) ≤ max |m12| |m22|)
    (hml : EPSTOL ^ 2 * max |m12| |m22| ≤ min |m12| |m22| ∨ |p2| ≤ 1 / 10 ^ 11 * min |m12| |m22|) :
    |b0 p2 m12 m22 q - feynB0 |p2| |m12| |m22| q| ≤ 1 / 10 ^ 6 ∧
    (|p2| ≤ min |m12| |m22| → |b0 p2 m12 m22 q - feynB0 |p2| |m12| |m22| q| ≤ 3 / 10 ^ 9) := by
  wlog hle : |m12| ≤ |m22| generalizing m12 m22
  · rw [C31_b0_symmetric, feyn_symm, min_comm]
    rw [max_comm] at hIR hml
    rw [min_comm] at hml
    exact this m22 m12 hIR hml (le_of_not_ge hle)
  rw [max_eq_right hle] at hIR hml
  rw [min_eq_left hle] at hml ⊢
  have he := eps_pos'
  have hir : ¬(|p2| < EPSTOL * q ∧ |m12| < EPSTOL * q ∧ |m22| < EPSTOL * q) := by
    rintro ⟨x, y, z⟩
    have := mul_pos he hq
    rcases hIR with h | h
    · linarith
    · nlinarith
  have e : b0 p2 m12 m22 q = b0Ordered |p2| |m12| |m22| q := by
    unfold b0 b0Abs
    rw [abs_of_pos hq, if_neg hir, if_neg (not_lt.2 hle)]
  rw [e]
  exact ordered_err (abs_nonneg _) (abs_nonneg _) hle hq hIR hml

/-- chargino loop above threshold: `p² = 125²`, masses 40 and 60 -/
example : EPSTOL * 8315 ≤ |(15625:ℝ)| ∧ EPSTOL ^ 2 * max |(1600:ℝ)| |3600| ≤ min |(1600:ℝ)| |3600| := by
  unfold EPSTOL; norm_num

/-! ### One massless particle -/

/-- **C31** Specification of the massless case: `B0(p²; 0, m²) = 2 - log(m²/Q²) + (m²-p²)/p² log(|m²-p²|/m²)`. -/
theorem C31_massless_formula {p m q : ℝ} (hp : 0 < p) (hm : 0 < m) (hq : 0 < q) :
    feynB0 p 0 m q = 2 - log (m / q) + (m - p) / p * log (|m - p| / m) := by
  rw [feyn_Dn]
  obtain ⟨c, hc⟩ : ∃ c, c = (p - m) / p := ⟨_, rfl⟩
  have hpne := hp.ne'
  have : ∫ t in (0:ℝ)..1, log (Dn p 0 m t / q) = ∫ t in (0:ℝ)..1, (log (p / q) + log (t - 0) + log (t - c)) := by
    apply intervalIntegral.integral_congr_ae
    filter_upwards [ae_ne 0 c] with t ht _
    have ua := sub_ne_zero.2 ht.1
    have ub := sub_ne_zero.2 ht.2
    have hD : Dn p 0 m t = p * ((t - 0) * (t - c)) := by
      unfold Dn; rw [hc]; field_simp; ring
    rw [hD, mul_div_right_comm, log_mul (by positivity) (by positivity), log_mul ua ub]; ring
  rw [this, integral_add (intervalIntegrable_const.add (ii_log_sub 0)) (ii_log_sub c), integral_add intervalIntegrable_const (ii_log_sub 0),
    int_log_sub, int_log_sub]
  have h1 : 1 - c = m / p := by rw [hc]; field_simp; ring
  rw [h1, log_div hm.ne' hpne, log_div hpne hq.ne', log_div hm.ne' hq.ne']
  rcases eq_or_ne m p with h | h
  · have : c = 0 := by rw [hc, h]; simp
    rw [this, h]
    simp
    field_simp
    ring
  · have hmp : m - p ≠ 0 := sub_ne_zero.2 h
    have hpm : p - m ≠ 0 := sub_ne_zero.2 h.symm
    have e : log c = log |m - p| - log p := by
      rw [hc, log_div hpm hpne, log_abs, ← log_neg_eq_log (p - m), neg_sub]
    rw [e, log_div (abs_pos.2 hmp).ne' hm.ne', hc]
    simp
    field_simp
    ring

/-- **C31** (finding) With one massless particle and `p² ≠ 0` the function does not return the integral: PV.cpp:169 divides by `p2`
in the logarithm instead of `m22`.  The result is off by `(m²-p²)/p² log(m²/p²)`, up to the regularisation `1e-15 m²/p²`. -/
theorem C31_b0_massless {p m q : ℝ} (hp : 0 < p) (hm : 0 < m) (hq : 0 < q) (hIR : EPSTOL * q ≤ p ∨ EPSTOL * q ≤ m) :
    |b0 p 0 m q - (feynB0 p 0 m q + (m - p) / p * log (m / p))| ≤ EPSTOL * m / p := by
  have he := eps_pos'
  have hir : ¬(p < EPSTOL * q ∧ 0 < EPSTOL * q ∧ m < EPSTOL * q) := by
    rintro ⟨x, y, z⟩; rcases hIR with h | h <;> linarith
  rw [C31_massless_formula hp hm hq]
  unfold b0 b0Abs
  rw [abs_zero, abs_of_pos hp, abs_of_pos hm, abs_of_pos hq, if_neg hir, if_neg (not_lt.2 hm.le)]
  unfold b0Ordered
  rw [if_neg (by simpa using hm.le), if_neg (by simpa using hp), if_pos (by positivity)]
  dsimp only
  rcases eq_or_ne m p with h | h
  · rw [h]; simp; positivity
  have hmp : m - p ≠ 0 := sub_ne_zero.2 h
  have hx : 0 < |m - p| := abs_pos.2 hmp
  obtain ⟨x, hxx⟩ : ∃ x, x = m - p := ⟨_, rfl⟩
  rw [← hxx] at hx hmp ⊢
  have hem : 0 < EPSTOL * m := by positivity
  obtain ⟨e, hee⟩ : ∃ e, e = EPSTOL * m := ⟨_, rfl⟩
  rw [← hee] at hem ⊢
  have hs : sqrt (x ^ 2 + e ^ 2) ≠ 0 := by positivity
  rw [log_div hs hp.ne', log_div hx.ne' hm.ne', log_div hm.ne' hp.ne', Real.log_sqrt (by positivity)]
  have u := u_reg hem |x|
  rw [sq_abs] at u
  have e1 : 2 - log (m / q) + x / p * (log (x ^ 2 + e ^ 2) / 2 - log p) - (2 - log (m / q) + x / p * (log |x| - log m) + x / p * (log m - log p))
      = x / p * ((log (x ^ 2 + e ^ 2) - 2 * log |x|) / 2) := by ring
  rw [e1]
  have h0 : 0 ≤ log (x ^ 2 + e ^ 2) - 2 * log |x| := by
    have : 2 * log |x| = log (x ^ 2) := by rw [log_abs, log_pow]; norm_num
    rw [this, sub_nonneg]
    exact log_le_log (by positivity) (by nlinarith)
  rw [abs_mul, abs_div, abs_of_pos hp, abs_of_nonneg (a := (log (x ^ 2 + e ^ 2) - 2 * log |x|) / 2) (by linarith), div_mul_eq_mul_div]
  rw [div_le_div_iff_of_pos_right hp]
  linarith

/-- **C31** (finding) the values are not even close: for `p² = 1`, `m² = 100` the error exceeds 400. -/
theorem C31_b0_massless_wrong : ∃ p m q : ℝ, 0 < p ∧ 0 < m ∧ 0 < q ∧ EPSTOL * q ≤ p ∧ 400 ≤ |b0 p 0 m q - feynB0 p 0 m q| := by
  refine ⟨1, 100, 1, by norm_num, by norm_num, by norm_num, by unfold EPSTOL; norm_num, ?_⟩
  have h := C31_b0_massless (p := 1) (m := 100) (q := 1) (by norm_num) (by norm_num) (by norm_num) (Or.inl (by unfold EPSTOL; norm_num))
  have h2 : 4.05 ≤ log 100 := by
    have e : (100:ℝ) = 2 ^ 6 * (25 / 16) := by norm_num
    have l := log_two_gt_d9
    have l2 := one_sub_inv_le_log_of_pos (show (0:ℝ) < 25 / 16 by norm_num)
    rw [e, log_mul (by norm_num) (by norm_num), log_pow]
    push_cast; norm_num at *; linarith
  norm_num at h h2
  have he : EPSTOL * 100 ≤ 1 / 1000 := by unfold EPSTOL; norm_num
  rw [abs_le] at h
  refine le_trans ?_ (le_abs_self _)
  norm_num at he
  linarith [h.1]

end Himalaya.PV
