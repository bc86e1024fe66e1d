import Verif.PV.Reg

set_option linter.unusedSimpArgs false
set_option linter.unusedVariables false

namespace Himalaya.PV

open Real intervalIntegral MeasureTheory

/-- the regularisation error for an imaginary part `1e-15 m1²` -/
noncomputable def regErr (p2 m12 : ℝ) : ℝ := if p2 ≤ m12 then 2 / 10 ^ 15 else 6 / 10 ^ 7

theorem exc_int {p2 m12 m22 q : ℝ} (hp : 0 < p2) (hm : 0 < m12) (hmm : m12 ≤ m22) (hq : 0 < q) :
    0 ≤ ∫ t in (0:ℝ)..1, exc (Dn p2 m12 m22 t) (EPSTOL * m12) ∧
    ∫ t in (0:ℝ)..1, exc (Dn p2 m12 m22 t) (EPSTOL * m12) ≤ regErr p2 m12 := by
  have he := eps_pos'
  obtain ⟨hz, hint, hex⟩ := ii_Dn (p2 := p2) (m12 := m12) (m22 := m22) hp hq
  have hem : 0 < EPSTOL * m12 := by positivity
  refine ⟨(hex hem).1, ?_⟩
  unfold regErr
  split_ifs with h
  · have hb : ∀ᵐ t, t ∈ Set.Icc (0:ℝ) 1 → exc (Dn p2 m12 m22 t) (EPSTOL * m12) ≤ 2 / 10 ^ 15 := by
      filter_upwards [hz] with t ht hti
      refine (exc_le_div hem ht).trans ?_
      have hl := Dn_lower hp hmm hti
      have : 3 / 4 * m12 ≤ |Dn p2 m12 m22 t| := le_trans (by linarith) (hl.trans (le_abs_self _))
      rw [div_le_iff₀ (by linarith)]
      unfold EPSTOL; norm_num at this ⊢; linarith
    refine (exc_between (ii_exc hem hq hint hz) (intervalIntegrable_const (c := (2 / 10 ^ 15 : ℝ))) ?_ hb ?_).2
    · filter_upwards [hz] with t ht _
      exact exc_nonneg hem ht
    · simp
  · push Not at h
    refine (hex hem).2.trans ?_
    have : sqrt (EPSTOL * m12 / p2) ≤ 36 / 10 ^ 9 := by
      rw [Real.sqrt_le_left (by positivity)]
      have : EPSTOL * m12 / p2 ≤ EPSTOL := by rw [div_le_iff₀ hp]; nlinarith
      refine this.trans ?_
      unfold EPSTOL; norm_num
    norm_num at this ⊢; linarith

/-- `log|N|` and `log|D|` for `|D| ≤ |N| ≤ |D| + e` -/
theorem log_pert {p2 m12 m22 q : ℝ} (hp : 0 < p2) (hm : 0 < m12) (hmm : m12 ≤ m22) (hq : 0 < q) {N : ℝ → ℝ}
    (hN : IntervalIntegrable (fun t => log (N t / q)) volume 0 1) (hNz : ∀ᵐ t, N t ≠ 0)
    (h : ∀ t ∈ Set.Icc (0:ℝ) 1, |N t| ≤ |Dn p2 m12 m22 t| + EPSTOL * m12) :
    ∫ t in (0:ℝ)..1, log (N t / q) ≤ (∫ t in (0:ℝ)..1, log (Dn p2 m12 m22 t / q)) + regErr p2 m12 := by
  have hem : 0 < EPSTOL * m12 := by have := eps_pos'; positivity
  obtain ⟨hz, hint, hex⟩ := ii_Dn (p2 := p2) (m12 := m12) (m22 := m22) hp hq
  have ie := ii_exc hem hq hint hz
  have b := (exc_int hp hm hmm hq).2
  have : ∫ t in (0:ℝ)..1, log (N t / q) ≤ ∫ t in (0:ℝ)..1, (log (Dn p2 m12 m22 t / q) + exc (Dn p2 m12 m22 t) (EPSTOL * m12)) := by
    refine integral_mono_ae_restrict (μ := volume) zero_le_one hN (hint.add ie) ?_
    rw [Filter.EventuallyLE, ae_restrict_iff' measurableSet_Icc]
    filter_upwards [hz, hNz] with t ht hn hti
    have := log_le_log (abs_pos.2 hn) (h t hti)
    unfold exc
    rw [log_div ht hq.ne', log_div hn hq.ne', ← log_abs (Dn p2 m12 m22 t), ← log_abs (N t)]
    linarith
  rw [integral_add hint ie] at this
  linarith

theorem general_err {p2 m12 m22 q : ℝ} (hp : 0 < p2) (hm : 0 < m12) (hmm : m12 ≤ m22) (hq : 0 < q) (hb : 1 / 10 ^ 11 * m12 ≤ p2) :
    |b0General p2 m12 m22 q - feynB0 p2 m12 m22 q| ≤ 2 / 10 ^ 9 + regErr p2 m12 := by
  have hem : 0 < EPSTOL * m12 := by have := eps_pos'; positivity
  have h1 := general_close hp hm hmm hq hb
  rw [feyn_Dn]
  obtain ⟨hz, hint, hex⟩ := ii_Dn (p2 := p2) (m12 := m12) (m22 := m22) hp hq
  have nn : ∀ t, (⟨Dn p2 m12 m22 t, -EPSTOL * m12⟩ : ℂ) ≠ 0 := by
    intro t h; have := congrArg Complex.im h; simp at this
    rcases this with h | h
    · have := eps_pos'; linarith
    · linarith
  have iN : IntervalIntegrable (fun t => log (‖(⟨Dn p2 m12 m22 t, -EPSTOL * m12⟩ : ℂ)‖ / q)) volume 0 1 := by
    apply Continuous.intervalIntegrable
    apply Continuous.log
    · simp only [Complex.mk_eq_add_mul_I]
      unfold Dn
      fun_prop
    · intro t
      have := norm_pos_iff.2 (nn t)
      positivity
  have up := log_pert hp hm hmm hq (N := fun t => ‖(⟨Dn p2 m12 m22 t, -EPSTOL * m12⟩ : ℂ)‖) iN
    (Filter.Eventually.of_forall fun t => norm_ne_zero_iff.2 (nn t)) (fun t _ => by
      rw [abs_norm, neg_mul]; exact norm_le_add hem)
  have lo : ∫ t in (0:ℝ)..1, log (Dn p2 m12 m22 t / q) ≤
      ∫ t in (0:ℝ)..1, log (‖(⟨Dn p2 m12 m22 t, -EPSTOL * m12⟩ : ℂ)‖ / q) := by
    refine integral_mono_ae_restrict (μ := volume) zero_le_one hint iN ?_
    rw [Filter.EventuallyLE, ae_restrict_iff' measurableSet_Icc]
    filter_upwards [hz] with t ht _
    rw [log_div ht hq.ne', log_div (norm_ne_zero_iff.2 (nn t)) hq.ne', ← log_abs (Dn p2 m12 m22 t)]
    have := log_le_log (abs_pos.2 ht) (Complex.abs_re_le_norm (⟨Dn p2 m12 m22 t, -EPSTOL * m12⟩ : ℂ))
    linarith
  rw [abs_le] at h1 ⊢
  constructor <;> linarith [h1.1, h1.2]

/-- masses that agree up to a relative `1e-15` -/
theorem near_equal {p2 m12 m22 q : ℝ} (hp : 0 < p2) (hm : 0 < m12) (hmm : m12 ≤ m22) (hq : 0 < q) (h : m22 ≤ m12 * (1 + EPSTOL)) :
    |feynB0 p2 m12 m12 q - feynB0 p2 m12 m22 q| ≤ regErr p2 m12 := by
  obtain ⟨hz, hint, hex⟩ := ii_Dn (p2 := p2) (m12 := m12) (m22 := m22) hp hq
  obtain ⟨hz', hint', hex'⟩ := ii_Dn (p2 := p2) (m12 := m12) (m22 := m12) hp hq
  have d : ∀ t ∈ Set.Icc (0:ℝ) 1, |Dn p2 m12 m22 t - Dn p2 m12 m12 t| ≤ EPSTOL * m12 := by
    intro t ht
    have : Dn p2 m12 m22 t - Dn p2 m12 m12 t = (m22 - m12) * t := by unfold Dn; ring
    rw [this, abs_of_nonneg (mul_nonneg (by linarith) ht.1)]
    have := mul_le_mul_of_nonneg_left ht.2 (show 0 ≤ m22 - m12 by linarith)
    linarith
  have u1 := log_pert hp hm hmm hq hint' hz' (fun t ht => by
    have := d t ht
    have h2 := abs_sub_abs_le_abs_sub (Dn p2 m12 m12 t) (Dn p2 m12 m22 t)
    rw [abs_sub_comm] at h2
    linarith)
  have u2 := log_pert hp hm le_rfl hq hint hz (fun t ht => by
    have := d t ht
    have h2 := abs_sub_abs_le_abs_sub (Dn p2 m12 m22 t) (Dn p2 m12 m12 t)
    linarith)
  rw [feyn_Dn, feyn_Dn, abs_le]
  constructor <;> linarith

end Himalaya.PV
