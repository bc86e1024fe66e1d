import Verif.PV.FB

set_option linter.unusedSimpArgs false
set_option linter.unusedVariables false

namespace Himalaya.PV

open Real intervalIntegral MeasureTheory

/-- the denominator of the parameter integral, at `1 - x` -/
noncomputable def Dn (p2 m12 m22 t : ℝ) : ℝ := p2 * t ^ 2 - (p2 - m22 + m12) * t + m12

theorem eps_pos' : 0 < EPSTOL := by unfold EPSTOL; positivity

theorem feyn_Dn (p2 m12 m22 q : ℝ) : feynB0 p2 m12 m22 q = -∫ t in (0:ℝ)..1, log (Dn p2 m12 m22 t / q) := by
  unfold feynB0
  have := integral_comp_sub_left (a := 0) (b := 1) (fun t : ℝ => log (Dn p2 m12 m22 t / q)) 1
  simp only [sub_self, sub_zero] at this
  rw [← this]
  congr 1
  apply integral_congr
  intro t _
  dsimp only
  congr 2
  unfold Dn; ring

theorem sgn_sq (s : ℝ) : (sgn s : ℂ) ^ 2 = 1 := by
  unfold sgn
  split_ifs <;> simp

theorem sqrt_sq (z : ℂ) : (z ^ ((1 : ℂ) / 2)) ^ 2 = z := by
  have := Complex.cpow_nat_inv_pow z (n := 2) (by norm_num)
  rw [one_div]; exact_mod_cast this

theorem root_im {p s m e : ℝ} {z : ℂ} (h : (p : ℂ) * z ^ 2 - s * z + ⟨m, -e⟩ = 0) : z.im * (2 * p * z.re - s) = e := by
  have := congrArg Complex.im h
  simp [pow_two] at this
  linarith

theorem root_ok {p s m e : ℝ} {z : ℂ} (hp : 0 < p) (he : 0 < e) (hs : s ≤ p) (hb : e ≤ 1 / 10000 * p)
    (h : (p : ℂ) * z ^ 2 - s * z + ⟨m, -e⟩ = 0) : z.im ≠ 0 ∧ (|z.re - 1| < 1 / 1000 → |z.im| ≤ 1 / 1000) := by
  have hi := root_im h
  refine ⟨fun h0 => ?_, fun h1 => ?_⟩
  · rw [h0, zero_mul] at hi; exact he.ne hi
  · rw [abs_lt] at h1
    have hd : 998 / 1000 * p ≤ 2 * p * z.re - s := by
      have : 2 * p * (999 / 1000) ≤ 2 * p * z.re := mul_le_mul_of_nonneg_left (by norm_num at *; linarith) (by linarith)
      linarith
    have hpos : 0 < 2 * p * z.re - s := by linarith
    have : z.im = e / (2 * p * z.re - s) := by rw [eq_div_iff hpos.ne']; exact hi
    rw [this, abs_of_pos (div_pos he hpos), div_le_iff₀ hpos]
    linarith

theorem general_close {p2 m12 m22 q : ℝ} (hp : 0 < p2) (hm : 0 < m12) (hmm : m12 ≤ m22) (hq : 0 < q) (hb : 1 / 10 ^ 11 * m12 ≤ p2) :
    |b0General p2 m12 m22 q + ∫ t in (0:ℝ)..1, log (‖(⟨Dn p2 m12 m22 t, -EPSTOL * m12⟩ : ℂ)‖ / q)| ≤ 2 / 10 ^ 9 := by
  have he := eps_pos'
  unfold b0General
  dsimp only
  obtain ⟨s, hs⟩ : ∃ s, s = p2 - m22 + m12 := ⟨_, rfl⟩
  rw [← hs]
  obtain ⟨e, hee⟩ : ∃ e, e = EPSTOL * m12 := ⟨_, rfl⟩
  have hepos : 0 < e := by rw [hee]; positivity
  have heb : e ≤ 1 / 10000 * p2 := by
    rw [hee]; unfold EPSTOL; norm_num at hb ⊢; linarith
  have hmul : -EPSTOL * m12 = -e := by rw [hee]; ring
  simp only [hmul]
  obtain ⟨w, hw⟩ : ∃ w : ℂ, w = (⟨m12, -e⟩ : ℂ) := ⟨_, rfl⟩
  rw [← hw]
  have hw0 : w ≠ 0 := by
    intro h; have := congrArg Complex.re h; rw [hw] at this; simp at this; exact hm.ne' this
  have hpc : (p2 : ℂ) ≠ 0 := by exact_mod_cast hp.ne'
  obtain ⟨x, hx⟩ : ∃ x : ℂ, x = ((s : ℂ) ^ 2 - 4 * p2 * w) ^ ((1 : ℂ) / 2) := ⟨_, rfl⟩
  rw [← hx]
  have hx2 : x ^ 2 = (s : ℂ) ^ 2 - 4 * p2 * w := by rw [hx, sqrt_sq]
  obtain ⟨a, ha⟩ : ∃ a : ℂ, a = (s + sgn s * x) / (2 * p2) := ⟨_, rfl⟩
  rw [← ha]
  have ra : (p2 : ℂ) * a ^ 2 - s * a + w = 0 := by
    have h2 : 2 * (p2 : ℂ) * a - s = sgn s * x := by rw [ha]; field_simp; ring
    have h3 : (2 * (p2 : ℂ) * a - s) ^ 2 = (s : ℂ) ^ 2 - 4 * p2 * w := by rw [h2, mul_pow, sgn_sq, one_mul, hx2]
    have h4 : (4 * (p2 : ℂ)) * ((p2 : ℂ) * a ^ 2 - s * a + w) = 0 := by linear_combination h3
    exact (mul_eq_zero.1 h4).resolve_left (mul_ne_zero (by norm_num) hpc)
  have ha0 : a ≠ 0 := by rintro h; rw [h] at ra; simp at ra; exact hw0 ra
  obtain ⟨b, hbb⟩ : ∃ b : ℂ, b = w / (a * p2) := ⟨_, rfl⟩
  rw [← hbb]
  have hwb : w = a * b * p2 := by rw [hbb]; field_simp
  have hsum : (s : ℂ) = p2 * (a + b) := by
    have : a * (s - p2 * (a + b)) = 0 := by rw [hwb] at ra; linear_combination -ra
    have := (mul_eq_zero.1 this).resolve_left ha0
    linear_combination this
  have rb : (p2 : ℂ) * b ^ 2 - s * b + w = 0 := by rw [hwb, hsum]; ring
  have hsp : s ≤ p2 := by rw [hs]; linarith
  have oka := root_ok hp hepos hsp heb (hw ▸ ra)
  have okb := root_ok hp hepos hsp heb (hw ▸ rb)
  have ca := fB_close oka.1 oka.2
  have cb := fB_close okb.1 okb.2
  have hint : ∫ t in (0:ℝ)..1, log (‖(⟨Dn p2 m12 m22 t, -e⟩ : ℂ)‖ / q) = log (p2 / q) + J a + J b := by
    have : ∀ t : ℝ, log (‖(⟨Dn p2 m12 m22 t, -e⟩ : ℂ)‖ / q) = log (p2 / q) + log ‖(t : ℂ) - a‖ + log ‖(t : ℂ) - b‖ := by
      intro t
      have hD : (⟨Dn p2 m12 m22 t, -e⟩ : ℂ) = p2 * (((t : ℂ) - a) * (t - b)) := by
        have h1 : (⟨Dn p2 m12 m22 t, -e⟩ : ℂ) = p2 * (t : ℂ) ^ 2 - s * t + w := by
          rw [hw]
          apply Complex.ext
          · simp [Dn, hs, pow_two]
          · simp [pow_two]
        rw [h1, hsum, hwb]; ring
      have na : ‖(t : ℂ) - a‖ ≠ 0 := norm_ne_zero_iff.2 (Complex.slitPlane_ne_zero (slit_sub oka.1 t))
      have nb : ‖(t : ℂ) - b‖ ≠ 0 := norm_ne_zero_iff.2 (Complex.slitPlane_ne_zero (slit_sub okb.1 t))
      rw [hD, norm_mul, norm_mul, Complex.norm_real, Real.norm_of_nonneg hp.le, mul_div_right_comm,
        log_mul (div_pos hp hq).ne' (mul_ne_zero na nb), log_mul na nb]
      ring
    simp only [this]
    have ia := intervalIntegrable_norm oka.1
    have ib := intervalIntegrable_norm okb.1
    rw [integral_add (intervalIntegrable_const.add ia) ib, integral_add intervalIntegrable_const ia]
    simp [J]
  rw [hint]
  rw [abs_le] at ca cb ⊢
  constructor <;> norm_num at * <;> linarith [ca.1, ca.2, cb.1, cb.2]

end Himalaya.PV
