import Verif.TLF.PhiProps4
import Mathlib.Analysis.Complex.ExponentialBounds

/-!
# The two-loop function `phi_xyz`: where the series branches fail (C39)
-/

namespace Himalaya.TLF.Phi
open Real Set

theorem Spec_phi_homogeneous {c : ℝ} (hc : 0 < c) (x y z : ℝ) : Spec.phi (c * x) (c * y) (c * z) = c * Spec.phi x y z := by
  unfold Spec.phi
  simp only [mul_div_mul_left _ _ hc.ne']
  ring

/-- the exact bracket for the roots `x`, `y` -/
noncomputable def T (x y : ℝ) : ℝ := -((log x + log (1 - y)) * (log y + log (1 - x))) + 2 * log x * log y - 2 * Li2.Li2 x - 2 * Li2.Li2 y + π ^ 2 / 3

/-- the bracket vanishes at threshold -/
theorem T_threshold (x : ℝ) : T x (1 - x) = 0 := by
  have := Li2.Li2_reflect x
  unfold T
  rw [sub_sub_cancel]
  linarith

theorem hasDerivAt_T {x y : ℝ} (y0 : 0 < y) (y1 : y < 1) :
    HasDerivAt (T x) ((log x + log (1 - y)) / y + (log y + log (1 - x)) / (1 - y)) y := by
  have h1 : 0 < 1 - y := by linarith
  have d1 : HasDerivAt (fun y => log (1 - y)) (-1 / (1 - y)) y := by
    simpa using ((hasDerivAt_id y).const_sub 1).log h1.ne'
  have d2 : HasDerivAt log (1 / y) y := by simpa using hasDerivAt_log y0.ne'
  have d3 := Li2.hasDerivAt_Li2 y0.ne' y1.ne
  have := ((((((d1.const_add (log x)).mul (d2.add_const (log (1 - x)))).neg).add (d2.const_mul (2 * log x))).sub_const (2 * Li2.Li2 x)).sub
    (d3.const_mul 2)).add_const (π ^ 2 / 3)
  refine this.congr_deriv ?_
  field_simp
  ring

/-- `7 log 2 < 4.853`, used to bound logarithms -/
theorem log_ge {t : ℝ} (h : 1 / 128 ≤ t) : -4.853 ≤ log t := by
  have : log (1 / 128) ≤ log t := log_le_log (by norm_num) h
  have e : log (1 / 128 : ℝ) = -(7 * log 2) := by
    rw [show (1 / 128 : ℝ) = (2 ^ 7)⁻¹ by norm_num, log_inv, log_pow]; norm_num
  have := log_two_lt_d9
  norm_num at *; linarith
theorem log_le' {t : ℝ} (h0 : 0 < t) (h : t ≤ 1 / 64) : log t ≤ -4.158 := by
  have : log t ≤ log (1 / 64) := log_le_log h0 h
  have e : log (1 / 64 : ℝ) = -(6 * log 2) := by
    rw [show (1 / 64 : ℝ) = (2 ^ 6)⁻¹ by norm_num, log_inv, log_pow]; norm_num
  have := log_two_gt_d9
  norm_num at *; linarith

/-- the exact bracket close to threshold -/
theorem T_bound : 0 < T 0.009 0.989 ∧ T 0.009 0.989 ≤ 0.0241 := by
  have hd : ∀ y ∈ Icc (0.989 : ℝ) 0.991, HasDerivAt (T 0.009) ((log 0.009 + log (1 - y)) / y + (log y + log (1 - 0.009)) / (1 - y)) y :=
    fun y hy => hasDerivAt_T (by norm_num at hy; linarith [hy.1]) (by norm_num at hy; linarith [hy.2])
  have hc : ContinuousOn (T 0.009) (Icc 0.989 0.991) := fun t ht => (hd t ht).continuousAt.continuousWithinAt
  have hab : (0.989 : ℝ) < 0.991 := by norm_num
  obtain ⟨y, hy, he⟩ := exists_hasDerivAt_eq_slope (T 0.009) _ hab hc (fun y hy => hd y ⟨hy.1.le, hy.2.le⟩)
  have ht := T_threshold 0.009
  rw [show (1 - 0.009 : ℝ) = 0.991 by norm_num] at ht
  rw [ht] at he
  have y1 : (0.989 : ℝ) < y := hy.1
  have y2 : y < (0.991 : ℝ) := hy.2
  have y0 : 0 < y := by norm_num at y1; linarith
  have w0 : 0.009 < 1 - y := by norm_num at y2 ⊢; linarith
  have w1 : 1 - y < 0.011 := by norm_num at y1 ⊢; linarith
  have w00 : 0 < 1 - y := by norm_num at w0; linarith
  have a1 : -4.853 ≤ log 0.009 := log_ge (by norm_num)
  have a1' : log 0.009 ≤ -4.158 := log_le' (by norm_num) (by norm_num)
  have a2 : -4.853 ≤ log (1 - y) := log_ge (by norm_num at w0 ⊢; linarith)
  have a2' : log (1 - y) ≤ 0 := log_nonpos w00.le (by linarith)
  have a3 : 1 - y⁻¹ ≤ log y := one_sub_inv_le_log_of_pos y0
  have a3' : log y ≤ 0 := log_nonpos y0.le (by norm_num at y2; linarith)
  have a4 : 1 - (1 - 0.009 : ℝ)⁻¹ ≤ log (1 - 0.009) := one_sub_inv_le_log_of_pos (by norm_num)
  have a4' : log (1 - 0.009) ≤ 0 := log_nonpos (by norm_num) (by norm_num)
  have b1 : -9.82 ≤ (log 0.009 + log (1 - y)) / y := by
    rw [le_div_iff₀ y0]; norm_num at *; linarith
  have b1' : (log 0.009 + log (1 - y)) / y < 0 := div_neg_of_neg_of_pos (by norm_num at *; linarith) y0
  have b2 : -2.1 ≤ (log y + log (1 - 0.009)) / (1 - y) := by
    rw [le_div_iff₀ w00]
    have : y⁻¹ - 1 ≤ 1.02 * (1 - y) := by
      rw [show y⁻¹ - 1 = (1 - y) * y⁻¹ by field_simp]
      rw [mul_comm]
      gcongr
      rw [inv_le_comm₀ y0 (by norm_num)]
      norm_num at y1 ⊢; linarith
    norm_num at *; linarith
  have b2' : (log y + log (1 - 0.009)) / (1 - y) ≤ 0 := div_nonpos_of_nonpos_of_nonneg (by linarith) w00.le
  have hs : T 0.009 0.989 = -((log 0.009 + log (1 - y)) / y + (log y + log (1 - 0.009)) / (1 - y)) * 0.002 := by
    rw [he]; norm_num
  rw [hs]
  constructor
  · norm_num at *; linarith
  · norm_num at *; linarith

/-- lower bound of the effect of the approximation of the roots -/
theorem brk_gap {x y a b : ℝ} (ha : 0 < a) (hb : 0 < b) (hax : a ≤ x) (hby : b ≤ y) (hxy : x + y < 1) :
    2 * ((1 - a / x) * (1 - b) + (1 - b / y) * -log x) + 2 * (-log (1 - b) * (y - b)) ≤ brk a b - brk x y := by
  have x0 := ha.trans_le hax
  have y0 := hb.trans_le hby
  have lx : 1 - a / x ≤ log x - log a := by
    rw [← log_div x0.ne' ha.ne']
    have := one_sub_inv_le_log_of_pos (div_pos x0 ha)
    rwa [inv_div] at this
  have ly : 1 - b / y ≤ log y - log b := by
    rw [← log_div y0.ne' hb.ne']
    have := one_sub_inv_le_log_of_pos (div_pos y0 hb)
    rwa [inv_div] at this
  have hax' : a / x ≤ 1 := (div_le_one x0).2 hax
  have hby' : b / y ≤ 1 := (div_le_one y0).2 hby
  have nx : 0 ≤ -log x := neg_nonneg.2 (log_nonpos x0.le (by linarith))
  have nb : 1 - b ≤ -log b := by have := log_le_sub_one_of_pos hb; linarith
  have na : 0 ≤ -log (1 - a) := neg_nonneg.2 (log_nonpos (by linarith) (by linarith))
  obtain ⟨p1, p2⟩ := Li2_slope ha hax (by linarith)
  obtain ⟨q1, q2⟩ := Li2_slope hb hby (by linarith)
  have p0 : 0 ≤ Li2.Li2 x - Li2.Li2 a := (mul_nonneg na (sub_nonneg.2 hax)).trans p1
  have e : brk a b - brk x y = 2 * ((log x - log a) * -log b + (log y - log b) * -log x) + 2 * (Li2.Li2 x - Li2.Li2 a) + 2 * (Li2.Li2 y - Li2.Li2 b) := by
    unfold brk; ring
  have m1 : (1 - a / x) * (1 - b) ≤ (log x - log a) * -log b := mul_le_mul lx nb (by linarith) (by linarith)
  have m2 := mul_le_mul_of_nonneg_right ly nx
  rw [e]
  linarith

theorem phi_scaled_threshold : 0 < Spec.phi 0.000099 0.980099 1 ∧ 2 * Spec.phi 0.000099 0.980099 1 ≤ phi_xyz 0.000099 0.980099 1 := by
  obtain ⟨t0, t1⟩ := T_bound
  have hlam : Spec.lambda2 (0.000099 / 1) (0.980099 / 1) = 0.002 ^ 2 := by unfold Spec.lambda2; norm_num
  have hsq : √((0.002 : ℝ) ^ 2) = 0.002 := sqrt_sq (by norm_num)
  have hPhi : Spec.Phi (0.000099 / 1) (0.980099 / 1) = T 0.009 0.989 / 0.002 := by
    have := Phi_pos (x := 0.009) (y := 0.989) (by norm_num) (by norm_num) (by norm_num)
    rw [show (0.009 : ℝ) * (1 - 0.989) = 0.000099 / 1 by norm_num, show (0.989 : ℝ) * (1 - 0.009) = 0.980099 / 1 by norm_num,
      show (1 : ℝ) - 0.009 - 0.989 = 0.002 by norm_num] at this
    rw [this]
    unfold T
    rw [← log_mul (by norm_num) (by norm_num), ← log_mul (by norm_num) (by norm_num),
      show (0.009 : ℝ) * (1 - 0.989) = 0.000099 / 1 by norm_num, show (0.989 : ℝ) * (1 - 0.009) = 0.980099 / 1 by norm_num]
  have hspec : Spec.phi 0.000099 0.980099 1 = 0.001 * T 0.009 0.989 := by
    unfold Spec.phi
    rw [hPhi, hlam]; norm_num; ring
  have he := eps_lt
  have hq := qdrt_gt
  have hq' := qdrt_lt
  have hl : eps < Spec.lambda2 (0.000099 / 1) (0.980099 / 1) := by rw [hlam]; norm_num at *; linarith
  have hphi := phi_pos_sep (u := 0.000099 / 1) (v := 0.980099 / 1) (by norm_num) (by norm_num) (by norm_num) (eps_pos.trans hl)
    (by norm_num at *; linarith)
  rw [hlam, hsq] at hphi
  have hluv : luv 0.002 (0.000099 / 1) (0.980099 / 1) = (l0v (0.000099 / 1) (0.980099 / 1), lv0 (0.000099 / 1) (0.980099 / 1)) := by
    have h1 : ¬ (0.980099 / 1 : ℝ) < qdrt_eps := by norm_num at *; linarith
    have h2 : (0.000099 / 1 : ℝ) < qdrt_eps := by norm_num at *; linarith
    simp only [luv, h1, h2, if_true, if_false]
  rw [hluv] at hphi
  have a1 : l0v (0.000099 / 1) (0.980099 / 1) ≤ 0.0068 := by unfold l0v; norm_num
  have a0 : 0.0067 ≤ l0v (0.000099 / 1) (0.980099 / 1) := by unfold l0v; norm_num
  have b1 : lv0 (0.000099 / 1) (0.980099 / 1) ≤ 0.9868 := by unfold lv0; norm_num
  have b0 : 0.9867 ≤ lv0 (0.000099 / 1) (0.980099 / 1) := by unfold lv0; norm_num
  have hphix := phi_pos_unfold (x := 0.000099) (y := 0.980099) (z := 1) (by norm_num) (by norm_num) (by norm_num) hl
  rw [hspec, hphix, hphi, hlam]
  have hbe := bracket_err (0.000099 / 1) (0.980099 / 1) (l0v (0.000099 / 1) (0.980099 / 1)) (lv0 (0.000099 / 1) (0.980099 / 1))
  have hT : T 0.009 0.989 = -(log (0.000099 / 1) * log (0.980099 / 1)) + brk 0.009 0.989 + π ^ 2 / 3 := by
    unfold T brk
    rw [← log_mul (by norm_num) (by norm_num), ← log_mul (by norm_num) (by norm_num),
      show (0.009 : ℝ) * (1 - 0.989) = 0.000099 / 1 by norm_num, show (0.989 : ℝ) * (1 - 0.009) = 0.980099 / 1 by norm_num]
    ring
  generalize l0v (0.000099 / 1) (0.980099 / 1) = a at *
  generalize lv0 (0.000099 / 1) (0.980099 / 1) = b at *
  have gap := brk_gap (x := 0.009) (y := 0.989) (a := a) (b := b) (by norm_num at a0; linarith) (by norm_num at b0; linarith)
    (by norm_num at a1 ⊢; linarith) (by norm_num at b1 ⊢; linarith) (by norm_num)
  have g1 : (0.24 : ℝ) ≤ 1 - a / 0.009 := by norm_num at a1 ⊢; linarith
  have g2 : (0.0132 : ℝ) ≤ 1 - b := by norm_num at b1 ⊢; linarith
  have g3 : (0.0022 : ℝ) ≤ 1 - b / 0.989 := by norm_num at b1 ⊢; linarith
  have g4 : (4.158 : ℝ) ≤ -log 0.009 := by have := log_le' (t := 0.009) (by norm_num) (by norm_num); linarith
  have g5 : (4.158 : ℝ) ≤ -log (1 - b) := by
    have := log_le' (t := 1 - b) (by norm_num at b1 ⊢; linarith) (by norm_num at b0 ⊢; linarith); linarith
  have g6 : (0.0022 : ℝ) ≤ 0.989 - b := by norm_num at b1 ⊢; linarith
  have m1 : (0.24 : ℝ) * 0.0132 ≤ (1 - a / 0.009) * (1 - b) := mul_le_mul g1 g2 (by norm_num) (by norm_num at g1 ⊢; linarith)
  have m2 : (0.0022 : ℝ) * 4.158 ≤ (1 - b / 0.989) * -log 0.009 := mul_le_mul g3 g4 (by norm_num) (by norm_num at g3 ⊢; linarith)
  have m3 : (4.158 : ℝ) * 0.0022 ≤ -log (1 - b) * (0.989 - b) := mul_le_mul g5 g6 (by norm_num) (by norm_num at g5 ⊢; linarith)
  have G : (0.04 : ℝ) ≤ brk a b - brk 0.009 0.989 := by norm_num at m1 m2 m3 gap ⊢; linarith
  have H : -(log (0.000099 / 1) * log (0.980099 / 1)) + 2 * log a * log b - 2 * Li2.Li2 a - 2 * Li2.Li2 b + π ^ 2 / 3 =
      T 0.009 0.989 + (brk a b - brk 0.009 0.989) := by rw [hT]; unfold brk; ring
  rw [H] at hbe
  have hbe' := (abs_le.1 hbe).1
  generalize -(log (0.000099 / 1) * log (0.980099 / 1)) + 2 * log a * log b - 2 * Li2.dilog a - 2 * Li2.dilog b + 3.2898681336964529 = C at *
  generalize T 0.009 0.989 = t at *
  generalize brk a b - brk 0.009 0.989 = d at *
  clear hbe hphi hphix hluv hT H hl hlam hPhi gap m1 m2 m3 g1 g2 g3 g4 g5 g6 he hq hq' a0 a1 b0 b1 hspec
  constructor
  · norm_num; exact t0
  · norm_num at t1 G hbe' ⊢; linarith

/-- **C39**: the series for one small mass is used up to the threshold `√x + √y = √z`, where it does not converge: for squared masses in the ratio
`0.000099 : 0.980099 : 1` the result is more than twice the integral of Davydychev and Tausk -/
theorem C39_series_wrong_near_threshold {c : ℝ} (hc : 0 < c) :
    0 < Spec.phi (c * 0.000099) (c * 0.980099) c ∧ 2 * Spec.phi (c * 0.000099) (c * 0.980099) c ≤ phi_xyz (c * 0.000099) (c * 0.980099) c := by
  have h := phi_scaled_threshold
  have e1 := Spec_phi_homogeneous hc 0.000099 0.980099 1
  have e2 := C39_homogeneous hc 0.000099 0.980099 1
  rw [mul_one] at e1 e2
  rw [e1, e2]
  refine ⟨mul_pos hc h.1, ?_⟩
  nlinarith [h.2]

theorem Li2_nonneg {x : ℝ} (h0 : 0 < x) (h1 : x < 1) : 0 ≤ Li2.Li2 x := by
  unfold Li2.Li2
  apply intervalIntegral.integral_nonneg h0.le
  intro t ht
  exact div_nonneg (neg_nonneg.2 (log_nonpos (by linarith [ht.2]) (by linarith [ht.1]))) ht.1

theorem Li2_le {x : ℝ} (h0 : 0 < x) (h1 : x < 1) : Li2.Li2 x ≤ π ^ 2 / 6 := by
  have h := Li2.Li2_reflect x
  have h2 := Li2_nonneg (x := 1 - x) (by linarith) (by linarith)
  have h3 : 0 ≤ log x * log (1 - x) := mul_nonneg_of_nonpos_of_nonpos (log_nonpos h0.le h1.le) (log_nonpos (by linarith) (by linarith))
  linarith

theorem log_le_of_le_two {t u : ℝ} (h0 : 0 < t) (hu : 0 < u) (h : t ≤ 2 * u) : log t ≤ 1 + log u := by
  have h1 := log_le_log h0 h
  rw [log_mul (by norm_num) hu.ne'] at h1
  have := log_two_lt_d9
  norm_num at this; linarith

theorem pi_sq_le : π ^ 2 ≤ 10 := by
  have h1 := pi_lt_d2
  have h2 := pi_pos
  norm_num at h1; nlinarith

theorem half_le {a b c : ℝ} (h : a * (1 - b) = c) (hb : b ≤ 1 / 2) (ha : 0 < a) : a ≤ 2 * c := by nlinarith

theorem hierarchy_arith {L p c tt A B C d : ℝ} (hL : 15 ≤ L) (c1 : (2 * L - 1) * (L - 1) ≤ c) (c2 : c ≤ 2 * L * L)
    (c3 : (2 * L - 1) * (2 * L - 1) ≤ tt) (hA : 0 ≤ A) (hB : 0 ≤ B) (hA' : A ≤ p / 6) (hB' : B ≤ p / 6) (hC : C ≤ p / 6)
    (hd : d - C ≤ 1) (hp : p ≤ 10) (_hp0 : 0 < p) :
    0 < -(2 * L * L) + 2 * c - 2 * A - 2 * B + p / 3 ∧
      3 / 2 * (-(2 * L * L) + 2 * c - 2 * A - 2 * B + p / 3) ≤ -(4 * L * L) + 2 * tt - 2 * d - 2 * d + 3 := by
  have LL : 15 * L ≤ L * L := by nlinarith
  have e1 : (2 * L - 1) * (L - 1) = 2 * (L * L) - 3 * L + 1 := by ring
  have e2 : (2 * L - 1) * (2 * L - 1) = 4 * (L * L) - 4 * L + 1 := by ring
  rw [e1] at c1
  rw [e2] at c3
  rw [mul_assoc] at c2
  constructor <;> simp only [mul_assoc] <;> linarith

theorem phi_scaled_hierarchy {v : ℝ} (hv : 0 < v) (hv1 : v ≤ 1 / 10 ^ 15) :
    0 < Spec.phi (v ^ 2) v 1 ∧ 3 / 2 * Spec.phi (v ^ 2) v 1 ≤ phi_xyz (v ^ 2) v 1 := by
  have hL : 15 ≤ -log v := by
    have h1 : log v ≤ log (1 / 10 ^ 15) := log_le_log hv hv1
    rw [one_div, log_inv, log_pow] at h1
    have h2 : 1 ≤ log 10 := by
      rw [← log_exp 1]; exact log_le_log (exp_pos 1) (by have := exp_one_lt_d9; norm_num at this; linarith)
    push_cast at h1
    linarith
  obtain ⟨u, hu⟩ : ∃ u, u = v ^ 2 := ⟨_, rfl⟩
  rw [← hu]
  have lu : log u = 2 * log v := by rw [hu, log_pow]; norm_num
  have hu0 : 0 < u := by rw [hu]; positivity
  have hs : v ≤ 1 / 1000 := hv1.trans (by norm_num)
  have huv : u ≤ v := by rw [hu]; nlinarith
  have he := eps_lt
  have hq := qdrt_gt
  have he' : v ≤ eps := hv1.trans (by unfold eps; norm_num)
  have hl9 : 0.9 ≤ Spec.lambda2 u v := by
    unfold Spec.lambda2
    have : u * v ≤ 1 / 1000 * (1 / 1000) := by gcongr; linarith
    norm_num at this ⊢; nlinarith
  have hl : eps < Spec.lambda2 u v := by norm_num at he hl9 ⊢; linarith
  have hl0 := eps_pos.trans hl
  have hphi := phi_pos_equal hu0 huv (by linarith) hl0 (by unfold isEqual; rw [abs_le]; constructor <;> linarith)
    (by norm_num at hq hv1 ⊢; linarith)
  have hphix := phi_pos_unfold (x := u) (y := v) (z := 1) hu0 huv (by linarith) (by simpa using hl)
  rw [div_one, div_one] at hphix
  obtain ⟨h1, h2, h3, h4, h5, h6, h7, h8⟩ := roots_of hu0 huv (by linarith) hl0
  have hP := Phi_pos h3 h4 h5
  rw [h7, h8, h6] at hP
  have hp0 : 0 < u * (1 + u * (2 + 5 * u)) := by positivity
  have hp1 : u * (1 + u * (2 + 5 * u)) ≤ 1 / 1000 * (1 + 1 / 1000 * (2 + 5 * (1 / 1000))) := by
    have : u ≤ 1 / 1000 := huv.trans hs
    gcongr
  have ht0 : 0 < u * (1 + u * (1 + u * (2 + 5 * u))) := by positivity
  have ht1 : u * (1 + u * (1 + u * (2 + 5 * u))) ≤ 2 * u := by norm_num at hp1; nlinarith
  have hspec : Spec.phi u v 1 = 1 * Spec.lambda2 u v / 2 * Spec.Phi u v := by unfold Spec.phi; rw [div_one, div_one]
  rw [hphix, hspec, hphi, hP]
  have hxy : (1 - √(Spec.lambda2 u v) + u - v) / 2 ≤ (1 - √(Spec.lambda2 u v) - u + v) / 2 := by linarith
  have hdi := dilog_err (u * (1 + u * (1 + u * (2 + 5 * u))))
  have hlam2 := sq_sqrt hl0.le
  clear hP hphi hphix hl he he' hq hspec
  generalize √(Spec.lambda2 u v) = l at *
  generalize u * (1 + u * (1 + u * (2 + 5 * u))) = t at *
  generalize (1 - l + u - v) / 2 = x at *
  generalize (1 - l - u + v) / 2 = y at *
  have x1 : x ≤ 1 / 2 := by linarith
  have y2 : y ≤ 2 * v := half_le h8 x1 h4
  have x2 : x ≤ 2 * u := half_le h7 (by linarith) h3
  have a1 := log_le_of_le_two h3 hu0 x2
  have a2 := log_le_of_le_two h4 hv y2
  have a3 := log_le_of_le_two ht0 hu0 ht1
  have a4 : log u ≤ log x := log_le_log hu0 (by rw [← h7]; exact mul_le_of_le_one_right h3.le (by linarith))
  have a5 : log v ≤ log y := log_le_log hv (by rw [← h8]; exact mul_le_of_le_one_right h4.le (by linarith))
  have b1 := Li2_nonneg h3 (by linarith)
  have b2 := Li2_nonneg h4 (by linarith)
  have b3 := Li2_le h3 (by linarith)
  have b4 := Li2_le h4 (by linarith)
  have b5 := Li2_le ht0 (by linarith)
  have hpi := pi_sq_le
  have hpi0 : 0 < π ^ 2 := by positivity
  rw [lu] at *
  have hdi' := (abs_le.1 hdi).2
  set L := -log v with hLd
  have hvL : log v = -L := by rw [hLd]; ring
  rw [hvL] at *
  have c1 : (2 * L - 1) * (L - 1) ≤ log x * log y := by
    have : (2 * L - 1) * (L - 1) ≤ (-log x) * (-log y) := mul_le_mul (by linarith) (by linarith) (by linarith) (by linarith)
    linarith
  have c2 : log x * log y ≤ 2 * L * L := by
    have : (-log x) * (-log y) ≤ (2 * L) * L := mul_le_mul (by linarith) (by linarith) (by linarith) (by linarith)
    linarith
  have c3 : (2 * L - 1) * (2 * L - 1) ≤ log t * log t := by
    have : (2 * L - 1) * (2 * L - 1) ≤ (-log t) * (-log t) := mul_le_mul (by linarith) (by linarith) (by linarith) (by linarith)
    linarith
  have ar := hierarchy_arith hL c1 c2 c3 b1 b2 b3 b4 b5 (hdi'.trans (by norm_num)) hpi hpi0
  have hT0 : 0 < -(2 * -L * -L) + 2 * log x * log y - 2 * Li2.Li2 x - 2 * Li2.Li2 y + π ^ 2 / 3 := by
    refine ar.1.trans_eq ?_; ring
  have hTc : 3 / 2 * (-(2 * -L * -L) + 2 * log x * log y - 2 * Li2.Li2 x - 2 * Li2.Li2 y + π ^ 2 / 3) ≤
      -(2 * -L * (2 * -L)) + 2 * log t * log t - 2 * Li2.dilog t - 2 * Li2.dilog t + 3.2898681336964529 := by
    refine le_trans (le_of_eq (by ring)) (ar.2.trans ?_)
    rw [show -(2 * -L * (2 * -L)) = -(4 * L * L) by ring, show 2 * log t * log t = 2 * (log t * log t) by ring]
    norm_num
  generalize -(2 * -L * -L) + 2 * log x * log y - 2 * Li2.Li2 x - 2 * Li2.Li2 y + π ^ 2 / 3 = A at *
  generalize -(2 * -L * (2 * -L)) + 2 * log t * log t - 2 * Li2.dilog t - 2 * Li2.dilog t + 3.2898681336964529 = B at *
  constructor
  · positivity
  · have : 3 / 2 * (1 * Spec.lambda2 u v / 2 * (A / l)) = 3 / 2 * A * (Spec.lambda2 u v / (2 * l)) := by field_simp
    rw [this]
    have : B / l * 1 * Spec.lambda2 u v / 2 = B * (Spec.lambda2 u v / (2 * l)) := by field_simp
    rw [this]
    gcongr

/-- **C39**: two small squared masses are considered to be equal if their difference is small compared to the largest one, even if their ratio
is not close to one: for squared masses in the ratio `v² : v : 1` with `v ≤ 10⁻¹⁵` the result is too large by at least one half -/
theorem C39_hierarchy_wrong {c v : ℝ} (hc : 0 < c) (hv : 0 < v) (hv1 : v ≤ 1 / 10 ^ 15) :
    0 < Spec.phi (c * v ^ 2) (c * v) c ∧ 3 / 2 * Spec.phi (c * v ^ 2) (c * v) c ≤ phi_xyz (c * v ^ 2) (c * v) c := by
  have h := phi_scaled_hierarchy hv hv1
  have e1 := Spec_phi_homogeneous hc (v ^ 2) v 1
  have e2 := C39_homogeneous hc (v ^ 2) v 1
  rw [mul_one] at e1 e2
  rw [e1, e2]
  refine ⟨mul_pos hc h.1, ?_⟩
  nlinarith [h.2]

example : 3 / 2 * Spec.phi (10 ^ 30 * (1 / 10 ^ 15) ^ 2) (10 ^ 30 * (1 / 10 ^ 15)) (10 ^ 30) ≤
    phi_xyz (10 ^ 30 * (1 / 10 ^ 15) ^ 2) (10 ^ 30 * (1 / 10 ^ 15)) (10 ^ 30) :=
  (C39_hierarchy_wrong (by norm_num) (by norm_num) le_rfl).2

end Himalaya.TLF.Phi
