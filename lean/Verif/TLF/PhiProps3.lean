import Verif.TLF.PhiProps2

/-!
# The two-loop function `phi_xyz`: the series branches (C39)
-/

namespace Himalaya.TLF.Phi
open Real Set

/-- the part of the bracket that depends on the roots -/
noncomputable def brk (x y : ℝ) : ℝ := 2 * log x * log y - 2 * Li2.Li2 x - 2 * Li2.Li2 y

theorem Li2_slope {a b : ℝ} (h0 : 0 < a) (hab : a ≤ b) (hb : b < 1) :
    -log (1 - a) * (b - a) ≤ Li2.Li2 b - Li2.Li2 a ∧ Li2.Li2 b - Li2.Li2 a ≤ (b - a) / (1 - b) := by
  have hd : ∀ t ∈ Icc a b, HasDerivAt Li2.Li2 (-log (1 - t) / t) t := fun t ht =>
    Li2.hasDerivAt_Li2 (h0.trans_le ht.1).ne' (ht.2.trans_lt hb).ne
  have hc : ContinuousOn Li2.Li2 (Icc a b) := fun t ht => (hd t ht).continuousAt.continuousWithinAt
  have hdf : DifferentiableOn ℝ Li2.Li2 (interior (Icc a b)) := fun t ht =>
    (hd t (interior_subset ht)).differentiableAt.differentiableWithinAt
  have lb : ∀ t ∈ interior (Icc a b), -log (1 - a) ≤ deriv Li2.Li2 t := by
    intro t ht
    have ht := interior_subset ht
    have t0 : 0 < t := h0.trans_le ht.1
    rw [(hd t ht).deriv, le_div_iff₀ t0]
    have h1 : -log (1 - a) ≤ -log (1 - t) := neg_le_neg (log_le_log (by linarith [ht.2]) (by linarith [ht.1]))
    have h2 : 0 ≤ -log (1 - a) := neg_nonneg.2 (log_nonpos (by linarith) (by linarith))
    nlinarith [ht.2]
  have ub : ∀ t ∈ interior (Icc a b), deriv Li2.Li2 t ≤ 1 / (1 - b) := by
    intro t ht
    have ht := interior_subset ht
    have t0 : 0 < t := h0.trans_le ht.1
    have t1 : 0 < 1 - t := by linarith [ht.2]
    rw [(hd t ht).deriv, div_le_iff₀ t0]
    have h1 := one_sub_inv_le_log_of_pos t1
    have h2 : 1 / (1 - t) ≤ 1 / (1 - b) := one_div_le_one_div_of_le (by linarith) (by linarith [ht.2])
    have h3 : (1 - t)⁻¹ - 1 = 1 / (1 - t) * t := by field_simp; ring
    nlinarith
  have := (convex_Icc a b).mul_sub_le_image_sub_of_le_deriv hc hdf lb a ⟨le_rfl, hab⟩ b ⟨hab, le_rfl⟩ hab
  have := (convex_Icc a b).image_sub_le_mul_sub_of_deriv_le hc hdf ub a ⟨le_rfl, hab⟩ b ⟨hab, le_rfl⟩ hab
  constructor
  · assumption
  · rw [div_eq_mul_one_div, mul_comm]; assumption

/-- propagation of errors of the roots -/
theorem brk_err {x y a b dx dy : ℝ} (ha : 0 < a) (hb : 0 < b) (hax : a ≤ x) (hby : b ≤ y) (hxy : x + y < 1)
    (hx : x - a ≤ dx * a) (hy : y - b ≤ dy * b) :
    |brk a b - brk x y| ≤ 2 * (dx * -log b + dy * -log x) + 2 * ((x - a) / (1 - x)) + 2 * ((y - b) / (1 - y)) := by
  have x0 := ha.trans_le hax
  have y0 := hb.trans_le hby
  have lx : log x - log a ≤ dx := by
    rw [← log_div x0.ne' ha.ne']
    refine (log_le_sub_one_of_pos (by positivity)).trans ?_
    rw [div_sub_one ha.ne', div_le_iff₀ ha]; exact hx
  have ly : log y - log b ≤ dy := by
    rw [← log_div y0.ne' hb.ne']
    refine (log_le_sub_one_of_pos (by positivity)).trans ?_
    rw [div_sub_one hb.ne', div_le_iff₀ hb]; exact hy
  have lx0 : 0 ≤ log x - log a := sub_nonneg.2 (log_le_log ha hax)
  have ly0 : 0 ≤ log y - log b := sub_nonneg.2 (log_le_log hb hby)
  have nx : 0 ≤ -log x := neg_nonneg.2 (log_nonpos x0.le (by linarith))
  have nb : 0 ≤ -log b := neg_nonneg.2 (log_nonpos hb.le (by linarith))
  have na : 0 ≤ -log (1 - a) := neg_nonneg.2 (log_nonpos (by linarith) (by linarith))
  have nb' : 0 ≤ -log (1 - b) := neg_nonneg.2 (log_nonpos (by linarith) (by linarith))
  obtain ⟨p1, p2⟩ := Li2_slope ha hax (by linarith)
  obtain ⟨q1, q2⟩ := Li2_slope hb hby (by linarith)
  have p0 : 0 ≤ Li2.Li2 x - Li2.Li2 a := (mul_nonneg na (sub_nonneg.2 hax)).trans p1
  have q0 : 0 ≤ Li2.Li2 y - Li2.Li2 b := (mul_nonneg nb' (sub_nonneg.2 hby)).trans q1
  have e : brk a b - brk x y = 2 * ((log x - log a) * -log b + (log y - log b) * -log x) + 2 * (Li2.Li2 x - Li2.Li2 a) + 2 * (Li2.Li2 y - Li2.Li2 b) := by
    unfold brk; ring
  have m1 := mul_le_mul_of_nonneg_right lx nb
  have m2 := mul_le_mul_of_nonneg_right ly nx
  have m3 := mul_nonneg lx0 nb
  have m4 := mul_nonneg ly0 nx
  rw [e, abs_of_nonneg (by linarith)]
  linarith

/-- `t |log t| ≤ 2 √t` -/
theorem mul_log_le {t : ℝ} (h0 : 0 < t) : t * -log t ≤ 2 * √t := by
  have hs : 0 < √t := sqrt_pos.2 h0
  have h2 := sq_sqrt h0.le
  have h1 := one_sub_inv_le_log_of_pos hs
  have e : log t = 2 * log √t := by rw [log_sqrt h0.le]; ring
  rw [e]
  have : √t * (√t)⁻¹ = 1 := mul_inv_cancel₀ hs.ne'
  generalize √t = s at *
  subst h2
  nlinarith [mul_le_mul_of_nonneg_left h1 hs.le, mul_pos hs hs]

theorem le_of_sq_le_sq' {a b : ℝ} (h : a ^ 2 ≤ b ^ 2) (hb : 0 ≤ b) : a ≤ b := (le_abs_self a).trans (abs_le_of_sq_le_sq h hb)

/-- the residual of an approximate root determines its error -/
theorem root_err {t x x' R m : ℝ} (hR : (t - x) * (t - x') = R) (h0 : 0 ≤ R) (hm : 0 < m) (h : m ≤ x' - t) :
    t ≤ x ∧ x - t ≤ R / m := by
  have e : (x - t) * (x' - t) = R := by rw [← hR]; ring
  have h1 : 0 ≤ x - t := by
    by_contra hc
    nlinarith [not_le.1 hc]
  refine ⟨by linarith, ?_⟩
  rw [le_div_iff₀ hm]
  nlinarith

theorem l0v_poly {r v : ℝ} (hr0 : 0 < r) (hr1 : r ≤ 1 / 16) (hv : 0 < v) (hv1 : v < 1) :
    1 + r * v + r ^ 2 * v * (1 + v) ≤ 1.08 ∧ (1 + 3 * v + v ^ 2) + 2 * r * v * (1 + v) + r ^ 2 * v * (1 + v) ^ 2 ≤ 5.3 := by
  have hrv : r * v ≤ 1 / 16 := by nlinarith
  have hrr : r * (r * v) ≤ 1 / 16 * (1 / 16) := mul_le_mul hr1 hrv (by positivity) (by norm_num)
  have b1 : r * (r * v) * (1 + v) ≤ 1 / 16 * (1 / 16) * 2 := mul_le_mul hrr (by linarith) (by linarith) (by norm_num)
  have a1 : v ^ 2 ≤ 1 := by nlinarith
  have a2 : 2 * (r * v) * (1 + v) ≤ 2 * (1 / 16) * 2 := mul_le_mul (by linarith) (by linarith) (by linarith) (by norm_num)
  have a3 : r * (r * v) * (1 + v) ^ 2 ≤ 1 / 16 * (1 / 16) * 4 := mul_le_mul hrr (by nlinarith) (by positivity) (by norm_num)
  constructor
  · rw [show r ^ 2 * v = r * (r * v) by ring]; norm_num at b1 ⊢; linarith
  · rw [show r ^ 2 * v = r * (r * v) by ring, mul_assoc 2 r v]; norm_num at a2 a3 ⊢; linarith

theorem l0v_res {r v t : ℝ} (ht : t = r * (1 - v) * (1 + r * v + r ^ 2 * v * (1 + v))) :
    t ^ 2 - (1 + r * (1 - v) ^ 2 - v) * t + r * (1 - v) ^ 2 =
      r * (1 - v) ^ 2 * (v * r ^ 3 * ((1 + 3 * v + v ^ 2) + 2 * r * v * (1 + v) + r ^ 2 * v * (1 + v) ^ 2)) := by
  subst ht; ring

/-- the expansion for small `u` -/
theorem l0v_err {u v x y l : ℝ} (hu : 0 < u) (hv : 0 < v) (hv1 : v < 1) (hr : 16 * u ≤ (1 - v) ^ 2) (hl : 0 < l)
    (hx : x * (1 - y) = u) (hy : y * (1 - x) = v) (hxy : 1 - x - y = l) :
    let r := u / (1 - v) ^ 2
    0 < l0v u v ∧ lv0 u v - v = l0v u v - u ∧ u ≤ l0v u v ∧ l0v u v ≤ x ∧ x - l0v u v ≤ 6.3 * v * r ^ 3 * l0v u v ∧
      x - l0v u v ≤ 6.3 * u * v * r ^ 3 / (1 - v) ∧ 0.9 * (1 - v) ≤ 1 - y := by
  intro r
  have ha : 0 < 1 - v := by linarith
  have hr0 : 0 < r := by positivity
  have hr1 : r ≤ 1 / 16 := by simp only [r]; rw [div_le_iff₀ (by positivity)]; linarith
  have hur : u = r * (1 - v) ^ 2 := by simp only [r]; field_simp
  have e1 : l0v u v = u / (1 - v) * (1 + r * v + r ^ 2 * v * (1 + v)) := by
    simp only [l0v, r]; field_simp; ring
  have e2 : lv0 u v - v = l0v u v - u := by
    simp only [l0v, lv0]; field_simp; ring
  have hlsq : l ^ 2 = (1 - v) ^ 2 - 2 * u * (1 + v) + u ^ 2 := by
    rw [← hxy, ← hx, ← hy]; ring
  have hl86 : 0.86 * (1 - v) ≤ l := by
    refine le_of_sq_le_sq' ?_ hl.le
    rw [hlsq]
    have : u * (1 + v) ≤ u * 2 := by gcongr; linarith
    rw [mul_pow]; norm_num; linarith [sq_nonneg u, sq_nonneg (1 - v)]
  have hy1 : 1 - y = (1 + l + u - v) / 2 := by rw [← hx, ← hy, ← hxy]; ring
  have hy2 : 0.9 * (1 - v) ≤ 1 - y := by rw [hy1]; norm_num at hl86 ⊢; linarith
  set t := l0v u v with ht
  have hρ1 : 1 ≤ 1 + r * v + r ^ 2 * v * (1 + v) := by have : 0 < r * v + r ^ 2 * v * (1 + v) := by positivity
                                                       linarith
  obtain ⟨hρ2, hS⟩ := l0v_poly hr0 hr1 hv hv1
  have hua : u / (1 - v) = r * (1 - v) := by rw [hur]; field_simp
  have hua0 : 0 < u / (1 - v) := by positivity
  have ht0 : 0 < t := by rw [e1]; positivity
  have ht1 : u / (1 - v) ≤ t := by rw [e1]; exact le_mul_of_one_le_right hua0.le hρ1
  have ht2 : t ≤ 0.07 * (1 - v) := by
    rw [e1, hua]
    calc r * (1 - v) * (1 + r * v + r ^ 2 * v * (1 + v)) ≤ 1 / 16 * (1 - v) * 1.08 := by gcongr
      _ ≤ 0.07 * (1 - v) := by norm_num; linarith
  have hR : (t - x) * (t - (1 - y)) = u * (v * r ^ 3 * ((1 + 3 * v + v ^ 2) + 2 * r * v * (1 + v) + r ^ 2 * v * (1 + v) ^ 2)) := by
    have h1 : (t - x) * (t - (1 - y)) = t ^ 2 - (1 + u - v) * t + u := by rw [← hx, ← hy]; ring
    rw [h1]
    have := l0v_res (r := r) (v := v) (t := t) (by rw [e1, hua])
    rwa [← hur] at this
  have hR0 : 0 ≤ u * (v * r ^ 3 * ((1 + 3 * v + v ^ 2) + 2 * r * v * (1 + v) + r ^ 2 * v * (1 + v) ^ 2)) := by positivity
  obtain ⟨k1, k2⟩ := root_err hR hR0 (m := 0.86 * (1 - v)) (by positivity) (by rw [hy1]; norm_num at ht2 hl86 ⊢; linarith)
  have k3 : x - t ≤ 6.3 * u * v * r ^ 3 / (1 - v) := by
    refine k2.trans ?_
    rw [div_le_div_iff₀ (by positivity) ha]
    have : u * (v * r ^ 3 * ((1 + 3 * v + v ^ 2) + 2 * r * v * (1 + v) + r ^ 2 * v * (1 + v) ^ 2)) ≤ u * (v * r ^ 3 * 5.3) := by gcongr
    have h0 : 0 < u * (v * r ^ 3) := by positivity
    calc _ ≤ u * (v * r ^ 3 * 5.3) * (1 - v) := by gcongr
      _ = u * (v * r ^ 3) * (1 - v) * 5.3 := by ring
      _ ≤ u * (v * r ^ 3) * (1 - v) * (6.3 * 0.86) := by gcongr; norm_num
      _ = _ := by ring
  refine ⟨ht0, e2, ?_, k1, ?_, k3, hy2⟩
  · refine le_trans ?_ ht1
    rw [le_div_iff₀ ha]; exact mul_le_of_le_one_right hu.le (by linarith)
  · refine k3.trans ?_
    rw [show 6.3 * u * v * r ^ 3 / (1 - v) = 6.3 * v * r ^ 3 * (u / (1 - v)) by ring]
    gcongr

/-- the expansion for small `u` and `v`: `l00 s t` approximates the root `y` with `y (1 - x) = t`, `x (1 - y) = s` -/
theorem l00_err {s t x y l : ℝ} (hs : 0 < s) (ht : 0 < t) (hs1 : s ≤ 1 / 4000) (ht1 : t ≤ 1 / 4000) (hl : 0 < l)
    (hx : x * (1 - y) = s) (hy : y * (1 - x) = t) (hxy : 1 - x - y = l) :
    t ≤ l00 s t ∧ l00 s t ≤ y ∧ y - l00 s t ≤ 1.1 * s * (s ^ 3 + t ^ 3) * l00 s t := by
  have e1 : l00 s t = t * (1 + s * ((1 + s * (1 + s)) + t * ((1 + s * (3 + 6 * s)) + (1 + s * (6 + 20 * s)) * t))) := by
    unfold l00; ring
  set T := l00 s t with hT
  have hpos : 0 < s * ((1 + s * (1 + s)) + t * ((1 + s * (3 + 6 * s)) + (1 + s * (6 + 20 * s)) * t)) := by positivity
  have hT0 : t ≤ T := by rw [e1]; nlinarith
  obtain ⟨c, hc⟩ : ∃ c : ℝ, c = 1 / 4000 := ⟨_, rfl⟩
  rw [← hc] at hs1 ht1
  have hc0 : 0 < c := by rw [hc]; norm_num
  have hT1 : T ≤ 1 / 1000 := by
    have : s * ((1 + s * (1 + s)) + t * ((1 + s * (3 + 6 * s)) + (1 + s * (6 + 20 * s)) * t)) ≤
      c * ((1 + c * (1 + c)) + c * ((1 + c * (3 + 6 * c)) + (1 + c * (6 + 20 * c)) * c)) := by
      gcongr
    have : c * ((1 + c * (1 + c)) + c * ((1 + c * (3 + 6 * c)) + (1 + c * (6 + 20 * c)) * c)) ≤ 1 := by rw [hc]; norm_num
    rw [e1]
    calc _ ≤ c * (1 + 1) := by gcongr; linarith
      _ ≤ 1 / 1000 := by rw [hc]; norm_num
  have hlsq : l ^ 2 = (1 - s - t) ^ 2 - 4 * s * t := by rw [← hxy, ← hx, ← hy]; ring
  have hl9 : 0.99 ≤ l := by
    refine le_of_sq_le_sq' ?_ hl.le
    rw [hlsq]
    have : s * t ≤ c * c := by gcongr
    rw [hc] at hs1 ht1 this; norm_num at this ⊢; nlinarith
  have hx1 : 1 - x = (1 + l - s + t) / 2 := by rw [← hx, ← hy, ← hxy]; ring
  have hR : (T - y) * (T - (1 - x)) = t * (s * (t ^ 3 * (1 + 9*s + 2*s*t + s*t^2 + 40*s^2 + 18*s^2*t + 12*s^2*t^2) +
      s ^ 3 * (1 + 9*t + 40*t^2 + 75*t^3 + 88*t^4 + 76*t^5 + 2*s*t + 18*s*t^2 + 88*s*t^3 + 192*s*t^4 + 240*s*t^5 +
        s^2*t + 12*s^2*t^2 + 76*s^2*t^3 + 240*s^2*t^4 + 400*s^2*t^5))) := by
    have h1 : (T - y) * (T - (1 - x)) = T ^ 2 - (1 + t - s) * T + t := by rw [← hx, ← hy]; ring
    rw [h1, e1]; ring
  have hb : t ^ 3 * (1 + 9*s + 2*s*t + s*t^2 + 40*s^2 + 18*s^2*t + 12*s^2*t^2) +
      s ^ 3 * (1 + 9*t + 40*t^2 + 75*t^3 + 88*t^4 + 76*t^5 + 2*s*t + 18*s*t^2 + 88*s*t^3 + 192*s*t^4 + 240*s*t^5 +
        s^2*t + 12*s^2*t^2 + 76*s^2*t^3 + 240*s^2*t^4 + 400*s^2*t^5) ≤ t ^ 3 * 1.01 + s ^ 3 * 1.01 := by
    apply add_le_add
    · apply mul_le_mul_of_nonneg_left _ (by positivity)
      calc _ ≤ 1 + 9*c + 2*c*c + c*c^2 + 40*c^2 + 18*c^2*c + 12*c^2*c^2 := by gcongr
        _ ≤ _ := by rw [hc]; norm_num
    · apply mul_le_mul_of_nonneg_left _ (by positivity)
      calc _ ≤ 1 + 9*c + 40*c^2 + 75*c^3 + 88*c^4 + 76*c^5 + 2*c*c + 18*c*c^2 + 88*c*c^3 + 192*c*c^4 + 240*c*c^5 +
        c^2*c + 12*c^2*c^2 + 76*c^2*c^3 + 240*c^2*c^4 + 400*c^2*c^5 := by gcongr
        _ ≤ _ := by rw [hc]; norm_num
  have hm : (0.95 : ℝ) ≤ 1 - x - T := by rw [hx1]; rw [hc] at hs1 ht1; norm_num at hl9 ⊢; linarith
  obtain ⟨k1, k2⟩ := root_err hR (by positivity) (m := 0.95) (by norm_num) hm
  refine ⟨hT0, k1, k2.trans ?_⟩
  rw [div_le_iff₀ (by norm_num)]
  calc _ ≤ t * (s * (t ^ 3 * 1.01 + s ^ 3 * 1.01)) := by gcongr
    _ = 1.01 * s * (s ^ 3 + t ^ 3) * t := by ring
    _ ≤ (1.1 * 0.95) * s * (s ^ 3 + t ^ 3) * T := by gcongr; norm_num
    _ = _ := by ring

/-- from approximate roots to the function -/
theorem approx_err {x y z a b A B E : ℝ} (hx : 0 < x) (hxy : x ≤ y) (hyz : y ≤ z) (hl : eps < Spec.lambda2 (x / z) (y / z))
    (hA : A = (1 - √(Spec.lambda2 (x / z) (y / z)) + x / z - y / z) / 2) (hB : B = (1 - √(Spec.lambda2 (x / z) (y / z)) - x / z + y / z) / 2)
    (hphi : phi_pos (x / z) (y / z) = (-(log (x / z) * log (y / z)) + 2 * log a * log b - 2 * Li2.dilog a - 2 * Li2.dilog b + 3.2898681336964529)
      / √(Spec.lambda2 (x / z) (y / z))) (hE : |brk a b - brk A B| ≤ E) : |phi_xyz x y z - Spec.phi x y z| ≤ (4e-16 + E / 2) * z := by
  have hz : 0 < z := hx.trans_le (hxy.trans hyz)
  rw [phi_pos_unfold hx hxy hyz hl, hphi]
  unfold Spec.phi
  have hu0 : 0 < x / z := by positivity
  have huv : x / z ≤ y / z := by gcongr
  have hv1 : y / z ≤ 1 := (div_le_one hz).2 hyz
  generalize x / z = u at *
  generalize y / z = v at *
  have hl0 := eps_pos.trans hl
  obtain ⟨h1, h2, h3, h4, h5, h6, h7, h8⟩ := roots_of hu0 huv hv1 hl0
  have hP := Phi_pos h3 h4 h5
  rw [h7, h8, h6] at hP
  rw [hP, ← hA, ← hB]
  have hb := bracket_err u v a b
  refine (pos_err hl0 h2 (E := 7e-16 + E) ?_ hz).trans ?_
  · refine (abs_sub_le _ _ _).trans (add_le_add hb ?_)
    refine le_trans (le_of_eq ?_) hE
    unfold brk; congr 1; ring
  · apply mul_le_mul_of_nonneg_right _ hz.le
    norm_num; linarith

/-- the general form of `phi_pos` for separated arguments -/
theorem phi_pos_sep {u v : ℝ} (hu : 0 < u) (huv : u ≤ v) (hv : v ≤ 1) (hl : 0 < Spec.lambda2 u v) (h : eps < v - u) :
    phi_pos u v = (-(log u * log v) + 2 * log (luv √(Spec.lambda2 u v) u v).1 * log (luv √(Spec.lambda2 u v) u v).2 -
      2 * Li2.dilog (luv √(Spec.lambda2 u v) u v).1 - 2 * Li2.dilog (luv √(Spec.lambda2 u v) u v).2 + 3.2898681336964529) / √(Spec.lambda2 u v) := by
  unfold phi_pos
  have : ¬ isEqual u v eps := by unfold isEqual; rw [not_le, abs_sub_comm]; exact h.trans_le (le_abs_self _)
  rw [if_neg (not_one hu huv hv hl)]
  simp only [lambda_eq, if_neg this]
  ring

theorem log_one_le {t : ℝ} (h0 : 0 < t) : t * -log t ≤ 1 - t := by
  have := one_sub_inv_le_log_of_pos h0
  have h : t * t⁻¹ = 1 := mul_inv_cancel₀ h0.ne'
  nlinarith

/-- **C39**: accuracy of the branch with one small argument.  The error grows with the cube of `u/(1-v)²`, which is `1/4` at threshold -/
theorem C39_accuracy_small {x y z : ℝ} (hx : 0 < x) (hxy : x ≤ y) (hyz : y ≤ z) (hl : eps < Spec.lambda2 (x / z) (y / z))
    (hu : x / z < qdrt_eps) (hv : qdrt_eps ≤ y / z) (hsep : eps < y / z - x / z) (hr : 16 * (x / z) ≤ (1 - y / z) ^ 2) :
    |phi_xyz x y z - Spec.phi x y z| ≤ (4e-16 + 13 * (x / z / (1 - y / z) ^ 2) ^ 3) * z := by
  have hz : 0 < z := hx.trans_le (hxy.trans hyz)
  have hu0 : 0 < x / z := by positivity
  have huv : x / z ≤ y / z := by gcongr
  have hv1 : y / z ≤ 1 := (div_le_one hz).2 hyz
  have hl0 := eps_pos.trans hl
  obtain ⟨h1, h2, h3, h4, h5, h6, h7, h8⟩ := roots_of hu0 huv hv1 hl0
  have hphi := phi_pos_sep hu0 huv hv1 hl0 hsep
  have hluv : luv √(Spec.lambda2 (x / z) (y / z)) (x / z) (y / z) = (l0v (x / z) (y / z), lv0 (x / z) (y / z)) := by
    simp only [luv, not_lt.2 hv, hu, if_true, if_false]
  rw [hluv] at hphi
  refine (approx_err hx hxy hyz hl rfl rfl hphi (E := 26 * (x / z / (1 - y / z) ^ 2) ^ 3) ?_).trans (le_of_eq (by ring))
  have hv0 : 0 < y / z := hu0.trans_le huv
  clear hphi hluv hsep hxy hyz
  generalize x / z = u at *
  generalize y / z = v at *
  have hvlt : v < 1 := by
    rcases hv1.lt_or_eq with h | h
    · exact h
    · subst h; norm_num at hr; linarith
  obtain ⟨k1, k2, k3, k4, k5, k6, k7⟩ := l0v_err hu0 hv0 hvlt hr h1 h7 h8 h6
  have hdiff : (1 - √(Spec.lambda2 u v) + u - v) / 2 - l0v u v = (1 - √(Spec.lambda2 u v) - u + v) / 2 - lv0 u v := by linarith
  set X := (1 - √(Spec.lambda2 u v) + u - v) / 2 with hX
  set Y := (1 - √(Spec.lambda2 u v) - u + v) / 2 with hY
  set r := u / (1 - v) ^ 2 with hr'
  have ha : 0 < 1 - v := by linarith
  have hr0 : 0 < r := by positivity
  have hr1 : r ≤ 1 / 16 := by rw [hr', div_le_iff₀ (by positivity)]; linarith
  have hur : u = r * (1 - v) ^ 2 := by rw [hr']; field_simp
  have hvl : v ≤ lv0 u v := by linarith
  have hXu : u ≤ X := k3.trans k4
  have b := brk_err (dx := 6.3 * v * r ^ 3) (dy := 6.3 * u * r ^ 3 / (1 - v)) k1 (hv0.trans_le hvl) k4 (by linarith) h5 k5 (by
    rw [← hdiff]
    refine k6.trans ?_
    rw [show 6.3 * u * v * r ^ 3 / (1 - v) = 6.3 * u * r ^ 3 / (1 - v) * v by ring]
    gcongr)
  refine b.trans ?_
  have r3 : 0 < r ^ 3 := by positivity
  have hX1 : X ≤ 1 / 2 := by
    have : X ≤ Y := by rw [hX, hY]; linarith
    linarith
  have c1 : 6.3 * v * r ^ 3 * -log (lv0 u v) ≤ 6.3 * r ^ 3 := by
    have e1 : -log (lv0 u v) ≤ -log v := neg_le_neg (log_le_log hv0 hvl)
    have e2 := log_one_le hv0
    calc _ ≤ 6.3 * v * r ^ 3 * -log v := by gcongr
      _ = 6.3 * r ^ 3 * (v * -log v) := by ring
      _ ≤ 6.3 * r ^ 3 * 1 := by gcongr; linarith
      _ = _ := by ring
  have c2 : 6.3 * u * r ^ 3 / (1 - v) * -log X ≤ 3.15 * r ^ 3 := by
    have e1 : -log X ≤ -log u := neg_le_neg (log_le_log hu0 hXu)
    have e2 := mul_log_le hu0
    have e3 : √u ≤ (1 - v) / 4 := by
      apply sqrt_le_iff.2 ⟨by positivity, ?_⟩
      linarith [show ((1 - v) / 4) ^ 2 = (1 - v) ^ 2 / 16 by ring]
    calc _ ≤ 6.3 * u * r ^ 3 / (1 - v) * -log u := by gcongr
      _ = 6.3 * r ^ 3 / (1 - v) * (u * -log u) := by ring
      _ ≤ 6.3 * r ^ 3 / (1 - v) * ((1 - v) / 2) := by gcongr; linarith
      _ = 3.15 * r ^ 3 := by field_simp; norm_num
  have hδ : X - l0v u v ≤ 0.4 * r ^ 3 * (1 - v) := by
    refine k6.trans ?_
    rw [show 6.3 * u * v * r ^ 3 / (1 - v) = 6.3 * (r * v) * r ^ 3 * (1 - v) by rw [hur]; field_simp]
    have : r * v ≤ 1 / 16 := by nlinarith
    have : 6.3 * (r * v) ≤ 0.4 := by norm_num; linarith
    gcongr
  have c3 : (X - l0v u v) / (1 - X) ≤ 0.8 * r ^ 3 := by
    rw [div_le_iff₀ (by linarith)]
    refine hδ.trans ?_
    have : 0.8 * r ^ 3 * (1 / 2) ≤ 0.8 * r ^ 3 * (1 - X) := by gcongr; linarith
    refine le_trans ?_ this
    have : 0.4 * r ^ 3 * (1 - v) ≤ 0.4 * r ^ 3 * 1 := by gcongr; linarith
    refine this.trans (le_of_eq (by ring))
  have c4 : (Y - lv0 u v) / (1 - Y) ≤ 0.5 * r ^ 3 := by
    rw [← hdiff, div_le_iff₀ (by linarith)]
    refine hδ.trans ?_
    calc 0.4 * r ^ 3 * (1 - v) ≤ 0.5 * r ^ 3 * (0.9 * (1 - v)) := by
          rw [show 0.5 * r ^ 3 * (0.9 * (1 - v)) = 0.45 * (r ^ 3 * (1 - v)) by ring, mul_assoc]
          gcongr; norm_num
      _ ≤ _ := by gcongr
  norm_num at c1 c2 c3 c4 ⊢
  linarith

example : |phi_xyz 1 3000 10000 - Spec.phi 1 3000 10000| ≤ (4e-16 + 13 * ((1:ℝ) / 10000 / (1 - 3000 / 10000) ^ 2) ^ 3) * 10000 := by
  have := qdrt_lt
  have := qdrt_gt
  have := eps_lt
  refine C39_accuracy_small (by norm_num) (by norm_num) (by norm_num) ?_ ?_ ?_ ?_ ?_ <;> norm_num [Spec.lambda2] at * <;> linarith

end Himalaya.TLF.Phi
