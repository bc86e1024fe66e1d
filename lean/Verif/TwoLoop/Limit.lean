import Verif.TwoLoop.PhiC
import Mathlib.Analysis.Calculus.LHopital

/-!
# The stop masses become equal: limits of the general O(at as) functions

`phi` is any function that satisfies the differential equation of the Davydychev–Tausk function near the common stop mass.
-/

set_option linter.unusedSimpArgs false
set_option linter.unusedSectionVars false
set_option linter.unusedVariables false

namespace Himalaya.TwoLoop
open Real Filter Topology

/-- what is known about the masses and the two-loop function; `T` is the common stop mass -/
structure NearT (phi : ℝ → ℝ → ℝ → ℝ) (t mg T q : ℝ) : Prop where
  t_pos : 0 < t
  g_pos : 0 < mg ^ 2
  T_pos : 0 < T
  q_pos : 0 < q
  del_ne : delF (mg ^ 2) t T ≠ 0
  ode : ∀ᶠ y in 𝓝 T, HasDerivAt (fun y => phi t y (mg ^ 2)) (deRHS t y (mg ^ 2) (phi t y (mg ^ 2))) y

/-- difference quotient of the logarithm and of the two-loop function between the two stop masses -/
noncomputable def ell (T y : ℝ) : ℝ := log (T / y) / (T - y)
noncomputable def psi (phi : ℝ → ℝ → ℝ → ℝ) (t g T y : ℝ) : ℝ := (phi t T g - phi t y g) / (T - y)

variable {phi : ℝ → ℝ → ℝ → ℝ} {t mg T q : ℝ}

theorem NearT.d_phi (h : NearT phi t mg T q) : HasDerivAt (fun y => phi t y (mg ^ 2)) (deRHS t T (mg ^ 2) (phi t T (mg ^ 2))) T := h.ode.self_of_nhds

theorem tend_y (T : ℝ) : Tendsto (fun y : ℝ => y) (𝓝[≠] T) (𝓝 T) := tendsto_id.mono_left nhdsWithin_le_nhds
theorem NearT.tend_phi (h : NearT phi t mg T q) : Tendsto (fun y => phi t y (mg ^ 2)) (𝓝[≠] T) (𝓝 (phi t T (mg ^ 2))) :=
  h.d_phi.continuousAt.tendsto.mono_left nhdsWithin_le_nhds
theorem NearT.tend_log (h : NearT phi t mg T q) : Tendsto (fun y => log (y / q)) (𝓝[≠] T) (𝓝 (log (T / q))) := by
  have : ContinuousAt (fun y => log (y / q)) T := ContinuousAt.log (by fun_prop) (div_pos h.T_pos h.q_pos).ne'
  exact this.tendsto.mono_left nhdsWithin_le_nhds
theorem NearT.tend_ell (h : NearT phi t mg T q) : Tendsto (ell T) (𝓝[≠] T) (𝓝 (1 / T)) := by
  have := hasDerivAt_iff_tendsto_slope.1 (hasDerivAt_log h.T_pos.ne')
  rw [one_div]
  refine this.congr' ?_
  filter_upwards [self_mem_nhdsWithin, nhdsWithin_le_nhds (lt_mem_nhds h.T_pos)] with y hy hy0
  rw [slope_def_field, ell, log_div h.T_pos.ne' (ne_of_gt hy0), ← neg_sub, ← neg_sub y T, neg_div, div_neg]
theorem NearT.tend_psi (h : NearT phi t mg T q) : Tendsto (psi phi t (mg ^ 2) T) (𝓝[≠] T) (𝓝 (deRHS t T (mg ^ 2) (phi t T (mg ^ 2)))) := by
  have := hasDerivAt_iff_tendsto_slope.1 h.d_phi
  refine this.congr fun y => ?_
  rw [slope_def_field, psi, ← neg_sub, ← neg_sub y T, neg_div, div_neg]

/-! ### the combination that multiplies `s2t` -/

noncomputable def omega (phi : ℝ → ℝ → ℝ → ℝ) (t g q x y : ℝ) : ℝ :=
  16 * x - 4 * (3 * x + y) * log (x / q) + 2 * (2 * (g - t) * log (g / t) + (x + y) * log (t * g / q ^ 2)) * log (x / q)
    + 2 / g * (2 * delF g t x + (g + t - x) * (x - y)) * phi t x g

theorem deRHS_tend (h : NearT phi t mg T q) :
    Tendsto (fun y => deRHS t y (mg ^ 2) (phi t y (mg ^ 2))) (𝓝[≠] T) (𝓝 (deRHS t T (mg ^ 2) (phi t T (mg ^ 2)))) := by
  have hT := h.T_pos
  have hg := h.g_pos
  have hd := h.del_ne
  have hc := h.d_phi.continuousAt
  have : ContinuousAt (fun y => deRHS t y (mg ^ 2) (phi t y (mg ^ 2))) T := by
    unfold deRHS
    refine ContinuousAt.div ?_ (by unfold delF; fun_prop) hd
    refine ContinuousAt.add (ContinuousAt.add (ContinuousAt.mul (by fun_prop) hc) (ContinuousAt.mul (by fun_prop) (ContinuousAt.log (by fun_prop) (by positivity)))) ?_
    exact ContinuousAt.mul (ContinuousAt.div (by fun_prop) (by fun_prop) hT.ne') (by fun_prop)
  exact this.tendsto.mono_left nhdsWithin_le_nhds

/-- the logarithms in the derivative of `omega T y - omega y T` -/
noncomputable def logPart (t g q T y : ℝ) : ℝ :=
  -4 * log (T / q) + 2 * log (t * g / q ^ 2) * log (T / q)
  - (16 - 12 * log (y / q) - 4 * (3 * y + T) / y + 2 * log (t * g / q ^ 2) * log (y / q) + 2 * (2 * (g - t) * log (g / t) + (y + T) * log (t * g / q ^ 2)) / y
     + 8 * log (y / g) + 4 * (g - t - y) / y * log (t / g))

theorem logPart_zero {t g q T : ℝ} (ht : 0 < t) (hg : 0 < g) (hq : 0 < q) (hT : 0 < T) : logPart t g q T T = 0 := by
  unfold logPart
  rw [log_div hT.ne' hq.ne', log_div (by positivity) (by positivity), log_mul ht.ne' hg.ne', log_pow, log_div hg.ne' ht.ne', log_div hT.ne' hg.ne',
    log_div ht.ne' hg.ne']
  have := hT.ne'
  push_cast
  field_simp
  ring

theorem logPart_deriv {t g q T : ℝ} (ht : 0 < t) (hg : 0 < g) (hq : 0 < q) (hT : 0 < T) : HasDerivAt (logPart t g q T) 0 T := by
  have dl : HasDerivAt (fun y => log (y / q)) (1 / T) T := by
    have := ((hasDerivAt_id T).div_const q).log (div_pos hT hq).ne'
    refine this.congr_deriv ?_
    have := hT.ne'; have := hq.ne'
    simp only [id]; field_simp
  have dg : HasDerivAt (fun y => log (y / g)) (1 / T) T := by
    have := ((hasDerivAt_id T).div_const g).log (div_pos hT hg).ne'
    refine this.congr_deriv ?_
    have := hT.ne'; have := hg.ne'
    simp only [id]; field_simp
  have d1 := ((((hasDerivAt_id T).const_mul 3).add_const T).const_mul 4).div (hasDerivAt_id T) hT.ne'
  have d2 := ((((hasDerivAt_id T).add_const T).mul_const (log (t * g / q ^ 2))).const_add (2 * (g - t) * log (g / t))).const_mul 2 |>.div (hasDerivAt_id T) hT.ne'
  have d3 := (((((hasDerivAt_id T).const_sub (g - t)).const_mul 4)).div (hasDerivAt_id T) hT.ne').mul_const (log (t / g))
  have key := ((((((dl.const_mul 12).const_sub 16).sub d1).add (dl.const_mul (2 * log (t * g / q ^ 2)))).add d2).add (dg.const_mul 8)).add d3 |>.const_sub
    (-4 * log (T / q) + 2 * log (t * g / q ^ 2) * log (T / q))
  refine key.congr_deriv ?_
  simp only [id]
  rw [log_div (by positivity) (by positivity), log_mul ht.ne' hg.ne', log_pow, log_div hg.ne' ht.ne', log_div ht.ne' hg.ne']
  have := hT.ne'
  push_cast
  field_simp
  ring

theorem Omega_deriv (h : NearT phi t mg T q) {y : ℝ} (hy : 0 < y) (hdy : delF (mg ^ 2) t y ≠ 0)
    (hode : HasDerivAt (fun y => phi t y (mg ^ 2)) (deRHS t y (mg ^ 2) (phi t y (mg ^ 2))) y) :
    HasDerivAt (fun y => omega phi t (mg ^ 2) q T y - omega phi t (mg ^ 2) q y T)
      (2 / mg ^ 2 * ((mg ^ 2 + t - T) * (phi t y (mg ^ 2) - phi t T (mg ^ 2)) - (mg ^ 2 + t - y) * (y - T) * deRHS t y (mg ^ 2) (phi t y (mg ^ 2)))
        + logPart t (mg ^ 2) q T y) y := by
  have hg := h.g_pos
  have hq := h.q_pos
  have ht := h.t_pos
  generalize mg ^ 2 = g at *
  have dl : HasDerivAt (fun y => log (y / q)) (1 / y) y := by
    have := ((hasDerivAt_id y).div_const q).log (div_pos hy hq).ne'
    refine this.congr_deriv ?_
    have := hy.ne'; have := hq.ne'
    simp only [id]; field_simp
  have i := hasDerivAt_id y
  have d1 : HasDerivAt (fun y => omega phi t g q T y) (-4 * log (T / q) + 2 * log (t * g / q ^ 2) * log (T / q) - 2 / g * (g + t - T) * phi t T g) y := by
    unfold omega
    have := (((((i.const_add (3 * T)).const_mul 4).mul_const (log (T / q))).const_sub (16 * T)).add
      ((((((i.const_add T).mul_const (log (t * g / q ^ 2))).const_add (2 * (g - t) * log (g / t))).const_mul 2)).mul_const (log (T / q)))).add
      (((((i.const_sub T).const_mul (g + t - T)).const_add (2 * delF g t T)).const_mul (2 / g)).mul_const (phi t T g))
    refine this.congr_deriv ?_
    ring
  have dd : HasDerivAt (fun y => delF g t y) (2 * (y - g - t)) y := by
    unfold delF
    have := ((i.pow 2).const_add (g ^ 2 + t ^ 2)).sub ((((i.const_mul g).const_add (g * t)).add (i.const_mul t)).const_mul 2)
    refine this.congr_deriv ?_
    simp only [id, Nat.cast_ofNat]; ring
  have d2 : HasDerivAt (fun y => omega phi t g q y T) (16 - 12 * log (y / q) - 4 * (3 * y + T) / y + 2 * log (t * g / q ^ 2) * log (y / q)
      + 2 * (2 * (g - t) * log (g / t) + (y + T) * log (t * g / q ^ 2)) / y
      + 2 / g * (-4 * (g + t - y) - (y - T) + (g + t - y)) * phi t y g + 2 / g * (2 * delF g t y + (g + t - y) * (y - T)) * deRHS t y g (phi t y g)) y := by
    unfold omega
    have := (((i.const_mul 16).sub ((((i.const_mul 3).add_const T).const_mul 4).mul dl)).add
      ((((((i.add_const T).mul_const (log (t * g / q ^ 2))).const_add (2 * (g - t) * log (g / t))).const_mul 2)).mul dl)).add
      (((((dd.const_mul 2).add ((i.const_sub (g + t)).mul (i.sub_const T))).const_mul (2 / g))).mul hode)
    refine this.congr_deriv ?_
    show 16 * 1 - (4 * (3 * 1) * log (y / q) + 4 * (3 * y + T) * (1 / y)) + (2 * (1 * log (t * g / q ^ 2)) * log (y / q)
      + 2 * (2 * (g - t) * log (g / t) + (y + T) * log (t * g / q ^ 2)) * (1 / y))
      + (2 / g * (2 * (2 * (y - g - t)) + (-1 * (y - T) + (g + t - y) * 1)) * phi t y g + 2 / g * (2 * delF g t y + (g + t - y) * (y - T)) * deRHS t y g (phi t y g)) = _
    ring
  refine (d1.sub d2).congr_deriv ?_
  have e : 2 / g * (2 * delF g t y) * deRHS t y g (phi t y g) = 4 / g * ((g + t - y) * phi t y g + 2 * g * log (y / g) + g * (g - t - y) / y * log (t / g)) := by
    unfold deRHS; field_simp; ring
  unfold logPart
  have hgn := hg.ne'
  have hyn := hy.ne'
  have e2 : 4 / g * ((g + t - y) * phi t y g + 2 * g * log (y / g) + g * (g - t - y) / y * log (t / g)) =
    4 / g * ((g + t - y) * phi t y g) + 8 * log (y / g) + 4 * (g - t - y) / y * log (t / g) := by field_simp; ring
  rw [e2] at e
  linear_combination -e

theorem Omega_small (h : NearT phi t mg T q) :
    Tendsto (fun y => (omega phi t (mg ^ 2) q T y - omega phi t (mg ^ 2) q y T) / (T - y) ^ 2) (𝓝[≠] T) (𝓝 0) := by
  have hT := h.T_pos
  have hev : ∀ᶠ y in 𝓝 T, 0 < y ∧ delF (mg ^ 2) t y ≠ 0 := by
    have hc : ContinuousAt (fun y => delF (mg ^ 2) t y) T := by unfold delF; fun_prop
    filter_upwards [lt_mem_nhds hT, hc.eventually_ne h.del_ne] with y a b using ⟨a, b⟩
  have hd : ∀ᶠ y in 𝓝 T, HasDerivAt (fun y => omega phi t (mg ^ 2) q T y - omega phi t (mg ^ 2) q y T)
      (2 / mg ^ 2 * ((mg ^ 2 + t - T) * (phi t y (mg ^ 2) - phi t T (mg ^ 2)) - (mg ^ 2 + t - y) * (y - T) * deRHS t y (mg ^ 2) (phi t y (mg ^ 2)))
        + logPart t (mg ^ 2) q T y) y := by
    filter_upwards [hev, h.ode] with y a b using Omega_deriv h a.1 a.2 b
  have hsq : ∀ y : ℝ, HasDerivAt (fun y : ℝ => (T - y) ^ 2) (2 * (y - T)) y := by
    intro y
    have := ((hasDerivAt_id y).const_sub T).pow 2
    refine this.congr_deriv ?_
    simp only [id, Nat.cast_ofNat]; ring
  refine HasDerivAt.lhopital_zero_nhdsNE (nhdsWithin_le_nhds hd) (Eventually.of_forall hsq) ?_ ?_ ?_ ?_
  · filter_upwards [self_mem_nhdsWithin] with y hy
    exact mul_ne_zero two_ne_zero (sub_ne_zero.2 hy)
  · have := hd.self_of_nhds.continuousAt.tendsto
    simp only [sub_self] at this
    exact this.mono_left nhdsWithin_le_nhds
  · have := (hsq T).continuousAt.tendsto
    simp only [sub_self, ne_eq, OfNat.ofNat_ne_zero, not_false_eq_true, zero_pow] at this
    exact this.mono_left nhdsWithin_le_nhds
  · have hl := hasDerivAt_iff_tendsto_slope.1 (logPart_deriv (q := q) h.t_pos h.g_pos h.q_pos hT)
    have hp := hasDerivAt_iff_tendsto_slope.1 h.d_phi
    have hr := deRHS_tend h
    have hy := tend_y T
    have key := ((((hp.const_mul (mg ^ 2 + t - T)).sub ((hy.const_sub (mg ^ 2 + t)).mul hr)).const_mul (2 / mg ^ 2)).add hl).div_const 2
    simp only [sub_self, mul_zero, add_zero, zero_div] at key
    refine key.congr' ?_
    filter_upwards [self_mem_nhdsWithin] with y hy
    have hne : y - T ≠ 0 := sub_ne_zero.2 hy
    have hg := h.g_pos.ne'
    rw [slope_def_field, slope_def_field, logPart_zero h.t_pos h.g_pos h.q_pos hT]
    generalize mg ^ 2 = g at *
    field_simp
    ring

/-! ### the remaining combinations -/

/-- what the code's functions see: `x`, `y` the two masses, `P = phi t x g`, `R = phi t y g`, and the two difference quotients -/
structure Atoms (phi : ℝ → ℝ → ℝ → ℝ) (t g q x y : ℝ) (l p : ℝ) : Prop where
  dx : x - y ≠ 0
  x0 : 0 < x
  y0 : 0 < y
  L : log (x / q) = log (y / q) + l * (x - y)
  Lxy : log (x / y) = l * (x - y)
  Lm : log (x * y / q ^ 2) = 2 * log (y / q) + l * (x - y)
  P : phi t x g = phi t y g + p * (x - y)

theorem NearT.atoms (h : NearT phi t mg T q) {y : ℝ} (hy0 : 0 < y) (hy : y ≠ T) : Atoms phi t (mg ^ 2) q T y (ell T y) (psi phi t (mg ^ 2) T y) := by
  have hT := h.T_pos
  have hq := h.q_pos
  have d : T - y ≠ 0 := sub_ne_zero.2 hy.symm
  have e1 : log (T / y) = ell T y * (T - y) := by unfold ell; field_simp
  have e2 : log (T / q) = log (y / q) + ell T y * (T - y) := by
    rw [← e1, log_div hT.ne' hq.ne', log_div hy0.ne' hq.ne', log_div hT.ne' hy0.ne']; ring
  refine ⟨d, hT, hy0, e2, e1, ?_, ?_⟩
  · rw [← e1, log_div (by positivity) (by positivity), log_mul hT.ne' hy0.ne', log_pow, log_div hy0.ne' hq.ne', log_div hT.ne' hy0.ne']; push_cast; ring
  · unfold psi; field_simp; ring

section ids
variable {g x y l p s c : ℝ}

/-- `F3` without the terms linear in `s2t` and `1/s2t`, in terms of the difference quotients; no division by `x - y` -/
noncomputable def F3n (t g q Lg Lt s c x y Ly P R l p : ℝ) : ℝ :=
  (3 + 9 * c ^ 2) * (2 - (x + y) * l) + 4 - (3 + 13 * c ^ 2) * (x * l + Ly) + 3 * (x + y) * l * (2 * Ly + l * (x - y))
  - c ^ 2 * (4 - (x + y) ^ 2 * l ^ 2 - 6 * (x + y) * (x * l + Ly) * l)
  - s ^ 2 * (x / y + y / x + 2 * (2 * Ly + l * (x - y)) - (x ^ 3 * l + (x ^ 2 + x * y + y ^ 2) * Ly) / (x * y))
  + 4 * (g + t) * (x + y) / (x * y) - 4 * g * Lg * (x + y) / (x * y) - 8 * (t + g) * l
  + 4 * t / x / delF g t x * (2 * g * x * (Ly + l * (x - y)) - g * (g - t + x) * Lg + (g * (t + x) - (t - x) ^ 2) * Lt)
  + 4 * t / y / delF g t y * (2 * g * y * Ly - g * (g - t + y) * Lg + (g * (t + y) - (t - y) ^ 2) * Lt)
  + 2 * (2 * g + 2 * t - x - y) * (Lt + Lg) * l
  - 1 / g * ((4 * delF g t x + 8 * g * t) * p + 4 * R * (x + y - 2 * g - 2 * t)) - 2 / g * ((g + t - x) * P + (g + t - y) * R)
  + 4 * t * ((g + t - x) / delF g t x * P + (g + t - y) / delF g t y * R)

/-- the terms linear in `s2t` that are not singular -/
noncomputable def F3b (t g Lg Lt x Lx P : ℝ) : ℝ :=
  -4 / (x * delF g t x) * (t * (g - t + x) * Lt - g * (g - t - x) * Lg + x * (g + t - x) * Lx) - 8 * t / delF g t x * P

theorem strF3_eq (h : Atoms phi t (mg ^ 2) q x y l p) (hg : mg ≠ 0) (ht : 0 < t) (hq : 0 < q) (hx : delF (mg ^ 2) t x ≠ 0) (hy : delF (mg ^ 2) t y ≠ 0) (hs : s ≠ 0) :
    strF3 phi t mg x y s c q = F3n t (mg ^ 2) q (log (mg ^ 2 / q)) (log (t / q)) s c x y (log (y / q)) (phi t x (mg ^ 2)) (phi t y (mg ^ 2)) l p
      + mg * √t * s * (6 * ((omega phi t (mg ^ 2) q x y - omega phi t (mg ^ 2) q y x) / (x - y) ^ 2) + 4 * (x - y) / (x * y)
        + (F3b t (mg ^ 2) (log (mg ^ 2 / q)) (log (t / q)) x (log (x / q)) (phi t x (mg ^ 2))
          - F3b t (mg ^ 2) (log (mg ^ 2 / q)) (log (t / q)) y (log (y / q)) (phi t y (mg ^ 2))))
      - 4 * mg * √t / s * ((omega phi t (mg ^ 2) q x y - omega phi t (mg ^ 2) q y x) / (x - y) ^ 2) := by
  have hgp : 0 < mg ^ 2 := by positivity
  have l1 : log (mg ^ 2 / t) = log (mg ^ 2 / q) - log (t / q) := by
    rw [log_div hgp.ne' ht.ne', log_div hgp.ne' hq.ne', log_div ht.ne' hq.ne']; ring
  have l2 : log (t * mg ^ 2 / q ^ 2) = log (mg ^ 2 / q) + log (t / q) := by
    rw [log_div (by positivity) (by positivity), log_mul ht.ne' hgp.ne', log_div hgp.ne' hq.ne', log_div ht.ne' hq.ne', log_pow q 2]; push_cast; ring
  have l3 : log (mg ^ 2 * t / q ^ 2) = log (mg ^ 2 / q) + log (t / q) := by rw [mul_comm, l2]
  unfold strF3 strF3ab strF3c omega F3n F3b
  simp only [h.L, h.Lxy, h.Lm, h.P, l1, l2, l3]
  have hx0 := h.x0.ne'
  have hy0 := h.y0.ne'
  have hd := h.dx
  rw [show y - x = -(x - y) by ring]
  simp only [div_eq_mul_inv, mul_inv, inv_neg]
  generalize (delF (mg ^ 2) t x)⁻¹ = ix, (delF (mg ^ 2) t y)⁻¹ = iy, phi t y (mg ^ 2) = R, log (y * q⁻¹) = Ly, log (mg ^ 2 * q⁻¹) = Lg, log (t * q⁻¹) = Lt, √t = m
  unfold delF
  clear h l1 l2 l3 hx hy
  obtain ⟨d, ed⟩ : ∃ d, d = x - y := ⟨_, rfl⟩
  have ex : x = y + d := by linarith
  rw [← ed] at hd ⊢
  clear ed
  subst ex
  field_simp
  ring

/-- `F2` without the terms linear in `s2t` and `1/s2t` -/
noncomputable def F2n1 (t g Lg Lt x Lx P : ℝ) : ℝ :=
  4 * (t + g) / x - 4 * (g + t) / x * Lg - 2 * (Lx - Lg)
  + 2 / delF g t x * (2 * g * (g + t - x) * (Lx - Lg) + 2 * t * (3 * g + 2 * t - x + (g * t - t ^ 2) / x) * (Lt - Lg)) + 8 * g * t / delF g t x * P
noncomputable def F2n (t g Lg Lt s c x y Lx Ly P R l : ℝ) : ℝ :=
  5 * l * (x - y) - 3 * l * (x - y) * (Lx + Ly) + c ^ 2 * (5 * l * (x - y) - (x + y) * l ^ 2 * (x - y) - 2 * (x * l + Ly) * l * (x - y))
  + s ^ 2 * (x / y * (1 - Lx) - y / x * (1 - Ly)) + F2n1 t g Lg Lt x Lx P - F2n1 t g Lg Lt y Ly R

noncomputable def F2b1 (t g Lg Lt x Lx P : ℝ) : ℝ :=
  -4 * t / (delF g t x * x) * (2 * g * x * (Lx - Lg) - ((t - x) ^ 2 - g * (t + x)) * (Lt - Lg)) + (x - g - t) ^ 3 / (g * delF g t x) * P
/-- coefficient of `mg / mt * s2t` in `F2` -/
noncomputable def F2b (t g Lg Lt x y Lx Ly P R l p : ℝ) : ℝ :=
  -4 * (3 + t * (x + y) / (x * y)) + 2 * ((4 * t + 5 * x + y) * l + 4 * Ly) + 4 * t * Lg * (x + y) / (x * y) - (x + y) * l * (Lx + Ly)
  - (10 * t - 2 * g + x + y) * Lt * l - (2 * g - 2 * t + x + y) * Lg * l + 2 / g * ((4 * g * t - delF g t x) * p - R * (x + y - 2 * g - 2 * t))
  + F2b1 t g Lg Lt x Lx P + F2b1 t g Lg Lt y Ly R

theorem strF2_eq (h : Atoms phi t (mg ^ 2) q x y l p) (hg : mg ≠ 0) (ht : 0 < t) (hq : 0 < q) (hs : s ≠ 0) :
    strF2 phi t mg x y s c q = F2n t (mg ^ 2) (log (mg ^ 2 / q)) (log (t / q)) s c x y (log (x / q)) (log (y / q)) (phi t x (mg ^ 2)) (phi t y (mg ^ 2)) l
      + mg / √t * s * F2b t (mg ^ 2) (log (mg ^ 2 / q)) (log (t / q)) x y (log (x / q)) (log (y / q)) (phi t x (mg ^ 2)) (phi t y (mg ^ 2)) l p
      + F2_s phi t mg x y q / s := by
  have hgp : 0 < mg ^ 2 := by positivity
  have l1 : log (t / mg ^ 2) = log (t / q) - log (mg ^ 2 / q) := by
    rw [log_div ht.ne' hgp.ne', log_div hgp.ne' hq.ne', log_div ht.ne' hq.ne']; ring
  have l2 : log (x / mg ^ 2) = log (x / q) - log (mg ^ 2 / q) := by
    rw [log_div h.x0.ne' hgp.ne', log_div hgp.ne' hq.ne', log_div h.x0.ne' hq.ne']; ring
  have l3 : log (y / mg ^ 2) = log (y / q) - log (mg ^ 2 / q) := by
    rw [log_div h.y0.ne' hgp.ne', log_div hgp.ne' hq.ne', log_div h.y0.ne' hq.ne']; ring
  unfold strF2 strF2ab strF2c F2n F2n1 F2b F2b1 F2_s
  simp only [l1, l2, l3, h.Lxy]
  simp only [h.L, h.P]
  have hx0 := h.x0.ne'
  have hy0 := h.y0.ne'
  have hd := h.dx
  have hm : √t ≠ 0 := (sqrt_pos.2 ht).ne'
  have htm : t = √t ^ 2 := (sq_sqrt ht.le).symm
  rw [show y - x = -(x - y) by ring]
  simp only [div_eq_mul_inv, mul_inv, inv_neg]
  generalize (delF (mg ^ 2) t x)⁻¹ = ix, (delF (mg ^ 2) t y)⁻¹ = iy, phi t y (mg ^ 2) = R, log (y * q⁻¹) = Ly, log (mg ^ 2 * q⁻¹) = Lg, log (t * q⁻¹) = Lt
  unfold delF
  clear h l1 l2 l3
  obtain ⟨d, ed⟩ : ∃ d, d = x - y := ⟨_, rfl⟩
  have ex : x = y + d := by linarith
  rw [← ed] at hd ⊢
  clear ed
  subst ex
  generalize √t = m at *
  subst htm
  field_simp
  ring

/-- `FA / (T1 - T2)` without the term linear in `s2t` -/
noncomputable def FAn (t g mg A Lg Lt s x y Ly P R l p : ℝ) : ℝ :=
  (8 - s ^ 2 * (2 - (x + y) * l)) * (1 - x * l - Ly) + 2 * (x * l * (2 * Ly + l * (x - y)) + Ly ^ 2) + 2 * (x * l + Ly) ^ 2
  - 4 * (g + t) * l - 2 * mg / A * (5 - 4 * (x * l + Ly)) + 2 * ((g + t - x) * l - Ly) * (Lt + Lg) + 2 * (1 + mg / A) * Lg * Lt
  - 2 * mg / A * ((g - t) * (Lg - Lt) * l + (x * l + Ly) * (Lt + Lg))
  - (4 * t * p + 2 / g * (1 + mg / A) * (delF g t x * p + R * (x + y - 2 * g - 2 * t)))

theorem strFA_eq {A : ℝ} (h : Atoms phi t (mg ^ 2) q x y l p) (hg : mg ≠ 0) (ht : 0 < t) (hq : 0 < q) (hA : A ≠ 0) :
    (strFAab x y s q + strFAc phi t mg x y s A q - strFAc phi t mg y x (-s) A q) / (x - y) =
      FAn t (mg ^ 2) mg A (log (mg ^ 2 / q)) (log (t / q)) s x y (log (y / q)) (phi t x (mg ^ 2)) (phi t y (mg ^ 2)) l p
      + mg * √t * s * ((omega phi t (mg ^ 2) q x y - omega phi t (mg ^ 2) q y x) / (x - y) ^ 2) := by
  have hgp : 0 < mg ^ 2 := by positivity
  have l1 : log (mg ^ 2 / t) = log (mg ^ 2 / q) - log (t / q) := by
    rw [log_div hgp.ne' ht.ne', log_div hgp.ne' hq.ne', log_div ht.ne' hq.ne']; ring
  have l2 : log (t * mg ^ 2 / q ^ 2) = log (mg ^ 2 / q) + log (t / q) := by
    rw [log_div (by positivity) (by positivity), log_mul ht.ne' hgp.ne', log_div hgp.ne' hq.ne', log_div ht.ne' hq.ne', log_pow q 2]; push_cast; ring
  unfold strFAab strFAc omega FAn
  simp only [h.L, h.Lxy, h.P, l1, l2]
  have hd := h.dx
  have hm : √t ≠ 0 := (sqrt_pos.2 ht).ne'
  have htm : t = √t ^ 2 := (sq_sqrt ht.le).symm
  rw [show y - x = -(x - y) by ring]
  generalize phi t y (mg ^ 2) = R, log (y / q) = Ly, log (mg ^ 2 / q) = Lg, log (t / q) = Lt
  unfold delF
  clear h l1 l2
  obtain ⟨d, ed⟩ : ∃ d, d = x - y := ⟨_, rfl⟩
  have ex : x = y + d := by linarith
  rw [← ed] at hd ⊢
  clear ed
  subst ex
  generalize √t = m at *
  subst htm
  field_simp
  ring
end ids

/-! ### their limits -/

theorem NearT.lim (h : NearT phi t mg T q) {G : ℝ × ℝ × ℝ × ℝ × ℝ → ℝ}
    (hG : ContinuousAt G (T, log (T / q), phi t T (mg ^ 2), 1 / T, deRHS t T (mg ^ 2) (phi t T (mg ^ 2)))) :
    Tendsto (fun y => G (y, log (y / q), phi t y (mg ^ 2), ell T y, psi phi t (mg ^ 2) T y)) (𝓝[≠] T)
      (𝓝 (G (T, log (T / q), phi t T (mg ^ 2), 1 / T, deRHS t T (mg ^ 2) (phi t T (mg ^ 2))))) :=
  hG.tendsto.comp ((tend_y T).prodMk_nhds (h.tend_log.prodMk_nhds (h.tend_phi.prodMk_nhds (h.tend_ell.prodMk_nhds h.tend_psi))))

/-- the expanded right-hand side at the common mass -/
theorem deRHS_eq {g : ℝ} (ht : 0 < t) (hg : 0 < g) (hT : 0 < T) (hq : 0 < q) (F : ℝ) :
    deRHS t T g F = ((g + t - T) * F + 2 * g * (log (T / q) - log (g / q)) + g * (g - t - T) / T * (log (t / q) - log (g / q))) / delF g t T := by
  unfold deRHS
  rw [log_div hT.ne' hg.ne', log_div ht.ne' hg.ne', log_div hT.ne' hq.ne', log_div hg.ne' hq.ne', log_div ht.ne' hq.ne']
  ring

theorem F3n_lim (h : NearT phi t mg T q) {s c : ℝ} (hsc : s ^ 2 + c ^ 2 = 1) :
    Tendsto (fun y => F3n t (mg ^ 2) q (log (mg ^ 2 / q)) (log (t / q)) s c T y (log (y / q)) (phi t T (mg ^ 2)) (phi t y (mg ^ 2)) (ell T y) (psi phi t (mg ^ 2) T y))
      (𝓝[≠] T) (𝓝 0) := by
  have ht := h.t_pos
  have hg := h.g_pos
  have hT := h.T_pos
  have hq := h.q_pos
  have hd := h.del_ne
  have key := h.lim (G := fun z => F3n t (mg ^ 2) q (log (mg ^ 2 / q)) (log (t / q)) s c T z.1 z.2.1 (phi t T (mg ^ 2)) z.2.2.1 z.2.2.2.1 z.2.2.2.2) (by
    unfold F3n
    have hT' := hT.ne'
    have c1 : ContinuousAt (fun z : ℝ × ℝ × ℝ × ℝ × ℝ => delF (mg ^ 2) t z.1) (T, log (T / q), phi t T (mg ^ 2), 1 / T, deRHS t T (mg ^ 2) (phi t T (mg ^ 2))) := by
      unfold delF; fun_prop
    fun_prop (disch := first | assumption | exact mul_ne_zero hT' hT'))
  convert key using 2
  simp only
  rw [deRHS_eq ht hg hT hq]
  have hT' := hT.ne'
  have hg' := hg.ne'
  generalize phi t T (mg ^ 2) = P, log (T / q) = L, log (mg ^ 2 / q) = Lg, log (t / q) = Lt
  generalize mg ^ 2 = g at *
  unfold F3n
  have hs : s ^ 2 = 1 - c ^ 2 := by linarith
  rw [hs]
  obtain ⟨D, hD⟩ : ∃ D, D = delF g t T := ⟨_, rfl⟩
  rw [← hD] at hd ⊢
  field_simp
  rw [hD]
  unfold delF
  ring

theorem F3b_lim (h : NearT phi t mg T q) :
    Tendsto (fun y => F3b t (mg ^ 2) (log (mg ^ 2 / q)) (log (t / q)) T (log (T / q)) (phi t T (mg ^ 2))
      - F3b t (mg ^ 2) (log (mg ^ 2 / q)) (log (t / q)) y (log (y / q)) (phi t y (mg ^ 2))) (𝓝[≠] T) (𝓝 0) := by
  have hd := h.del_ne
  have hT' := h.T_pos.ne'
  have key := h.lim (G := fun z => F3b t (mg ^ 2) (log (mg ^ 2 / q)) (log (t / q)) T (log (T / q)) (phi t T (mg ^ 2))
      - F3b t (mg ^ 2) (log (mg ^ 2 / q)) (log (t / q)) z.1 z.2.1 z.2.2.1) (by
    unfold F3b
    have c1 : ContinuousAt (fun z : ℝ × ℝ × ℝ × ℝ × ℝ => delF (mg ^ 2) t z.1) (T, log (T / q), phi t T (mg ^ 2), 1 / T, deRHS t T (mg ^ 2) (phi t T (mg ^ 2))) := by
      unfold delF; fun_prop
    fun_prop (disch := first | assumption | exact mul_ne_zero hT' hd))
  simpa using key

theorem F2n_lim (h : NearT phi t mg T q) (s c : ℝ) :
    Tendsto (fun y => F2n t (mg ^ 2) (log (mg ^ 2 / q)) (log (t / q)) s c T y (log (T / q)) (log (y / q)) (phi t T (mg ^ 2)) (phi t y (mg ^ 2)) (ell T y))
      (𝓝[≠] T) (𝓝 0) := by
  have hd := h.del_ne
  have hT' := h.T_pos.ne'
  have key := h.lim (G := fun z => F2n t (mg ^ 2) (log (mg ^ 2 / q)) (log (t / q)) s c T z.1 (log (T / q)) z.2.1 (phi t T (mg ^ 2)) z.2.2.1 z.2.2.2.1) (by
    unfold F2n F2n1
    have c1 : ContinuousAt (fun z : ℝ × ℝ × ℝ × ℝ × ℝ => delF (mg ^ 2) t z.1) (T, log (T / q), phi t T (mg ^ 2), 1 / T, deRHS t T (mg ^ 2) (phi t T (mg ^ 2))) := by
      unfold delF; fun_prop
    fun_prop (disch := first | assumption | exact mul_ne_zero hT' hd))
  convert key using 2
  simp only
  unfold F2n
  field_simp
  ring

theorem F2b_lim (h : NearT phi t mg T q) :
    Tendsto (fun y => F2b t (mg ^ 2) (log (mg ^ 2 / q)) (log (t / q)) T y (log (T / q)) (log (y / q)) (phi t T (mg ^ 2)) (phi t y (mg ^ 2)) (ell T y) (psi phi t (mg ^ 2) T y))
      (𝓝[≠] T) (𝓝 0) := by
  have ht := h.t_pos
  have hg := h.g_pos
  have hT := h.T_pos
  have hq := h.q_pos
  have hd := h.del_ne
  have hT' := h.T_pos.ne'
  have hg' := hg.ne'
  have key := h.lim (G := fun z => F2b t (mg ^ 2) (log (mg ^ 2 / q)) (log (t / q)) T z.1 (log (T / q)) z.2.1 (phi t T (mg ^ 2)) z.2.2.1 z.2.2.2.1 z.2.2.2.2) (by
    unfold F2b F2b1
    have c1 : ContinuousAt (fun z : ℝ × ℝ × ℝ × ℝ × ℝ => delF (mg ^ 2) t z.1) (T, log (T / q), phi t T (mg ^ 2), 1 / T, deRHS t T (mg ^ 2) (phi t T (mg ^ 2))) := by
      unfold delF; fun_prop
    fun_prop (disch := first | assumption | exact mul_ne_zero hT' hT' | exact mul_ne_zero hd hT' | exact mul_ne_zero hg' hd))
  convert key using 2
  simp only
  rw [deRHS_eq ht hg hT hq]
  generalize phi t T (mg ^ 2) = P, log (T / q) = L, log (mg ^ 2 / q) = Lg, log (t / q) = Lt
  generalize mg ^ 2 = g at *
  unfold F2b F2b1
  obtain ⟨D, hD⟩ : ∃ D, D = delF g t T := ⟨_, rfl⟩
  rw [← hD] at hd ⊢
  field_simp
  rw [hD]
  unfold delF
  ring

/-- the limit of `FA / (T1 - T2)`; `F` and `dF` are the two-loop function and its derivative -/
noncomputable def FAlim (t g mg A q T F dF : ℝ) : ℝ :=
  -8 * log (T / q) + 4 * log (T / q) + 2 * log (T / q) ^ 2 + 2 * (1 + log (T / q)) ^ 2 - 4 * (g + t) / T - 2 * mg / A * (1 - 4 * log (T / q))
  + 2 * ((g + t - T) / T - log (T / q)) * (log (t / q) + log (g / q)) + 2 * (1 + mg / A) * log (g / q) * log (t / q)
  - 2 * mg / A * ((g - t) * (log (g / q) - log (t / q)) / T + (1 + log (T / q)) * (log (t / q) + log (g / q)))
  - (4 * t * dF + 2 / g * (1 + mg / A) * (delF g t T * dF + F * (2 * T - 2 * g - 2 * t)))

theorem FAn_lim (h : NearT phi t mg T q) (s : ℝ) {A : ℝ → ℝ} {A0 : ℝ} (hA : Tendsto A (𝓝[≠] T) (𝓝 A0)) (hA0 : A0 ≠ 0) :
    Tendsto (fun y => FAn t (mg ^ 2) mg (A y) (log (mg ^ 2 / q)) (log (t / q)) s T y (log (y / q)) (phi t T (mg ^ 2)) (phi t y (mg ^ 2)) (ell T y) (psi phi t (mg ^ 2) T y))
      (𝓝[≠] T) (𝓝 (FAlim t (mg ^ 2) mg A0 q T (phi t T (mg ^ 2)) (deRHS t T (mg ^ 2) (phi t T (mg ^ 2))))) := by
  have hg' := h.g_pos.ne'
  have hT' := h.T_pos.ne'
  have tup := hA.prodMk_nhds ((tend_y T).prodMk_nhds (h.tend_log.prodMk_nhds (h.tend_phi.prodMk_nhds (h.tend_ell.prodMk_nhds h.tend_psi))))
  have hc : ContinuousAt (fun z : ℝ × ℝ × ℝ × ℝ × ℝ × ℝ => FAn t (mg ^ 2) mg z.1 (log (mg ^ 2 / q)) (log (t / q)) s T z.2.1 z.2.2.1 (phi t T (mg ^ 2)) z.2.2.2.1 z.2.2.2.2.1 z.2.2.2.2.2)
      (A0, T, log (T / q), phi t T (mg ^ 2), 1 / T, deRHS t T (mg ^ 2) (phi t T (mg ^ 2))) := by
    unfold FAn
    fun_prop (disch := first | assumption | exact mul_ne_zero hT' hT')
  have key := hc.tendsto.comp tup
  suffices e : FAlim t (mg ^ 2) mg A0 q T (phi t T (mg ^ 2)) (deRHS t T (mg ^ 2) (phi t T (mg ^ 2))) =
      FAn t (mg ^ 2) mg A0 (log (mg ^ 2 / q)) (log (t / q)) s T T (log (T / q)) (phi t T (mg ^ 2)) (phi t T (mg ^ 2)) (1 / T) (deRHS t T (mg ^ 2) (phi t T (mg ^ 2))) by
    rw [e]; exact key
  unfold FAn FAlim
  generalize deRHS t T (mg ^ 2) (phi t T (mg ^ 2)) = dF, phi t T (mg ^ 2) = P, log (T / q) = L, log (mg ^ 2 / q) = Lg, log (t / q) = Lt, delF (mg ^ 2) t T = D
  generalize mg ^ 2 = g at *
  field_simp
  ring

theorem F2s_eq (h : NearT phi t mg T q) {y : ℝ} (hy0 : 0 < y) (hy : y ≠ T) :
    F2_s phi t mg T y q = -8 * mg * √t * (ell T y - log (t / q) * ell T y + psi phi t (mg ^ 2) T y) := by
  have a := h.atoms hy0 hy
  unfold F2_s
  rw [a.L, a.P]
  have := a.dx
  field_simp
  ring

theorem F2s_lim (h : NearT phi t mg T q) :
    Tendsto (fun y => F2_s phi t mg T y q) (𝓝[≠] T) (𝓝 (-8 * mg * √t * (1 / T - log (t / q) / T + deRHS t T (mg ^ 2) (phi t T (mg ^ 2))))) := by
  have key := (((h.tend_ell.sub (h.tend_ell.const_mul (log (t / q)))).add h.tend_psi).const_mul (-8 * mg * √t))
  rw [show log (t / q) / T = log (t / q) * (1 / T) by ring]
  refine key.congr' ?_
  filter_upwards [self_mem_nhdsWithin, nhdsWithin_le_nhds (lt_mem_nhds h.T_pos)] with y hy hy0
  rw [F2s_eq h hy0 hy]

theorem F1_lim (h : NearT phi t mg T q) (s c : ℝ) :
    Tendsto (fun y => strF1 phi t mg T y s c q) (𝓝[≠] T) (𝓝 (strF1 phi t mg T T s c q)) := by
  have hd := h.del_ne
  have hT := h.T_pos
  have ht := h.t_pos
  have hq := h.q_pos
  have hg := h.g_pos
  have hT' := hT.ne'
  have hphi := h.d_phi.continuousAt
  have : ContinuousAt (fun y => strF1 phi t mg T y s c q) T := by
    unfold strF1 strF1ab strF1c
    dsimp only
    have l1 : ContinuousAt (fun y => log (T * y / t ^ 2)) T := ContinuousAt.log (by fun_prop) (by positivity)
    have l2 : ContinuousAt (fun y => log (y / q)) T := ContinuousAt.log (by fun_prop) (by positivity)
    have l3 : ContinuousAt (fun y => log (T / y)) T := ContinuousAt.log (by fun_prop (disch := assumption)) (by rw [div_self hT']; exact one_ne_zero)
    have l4 : ContinuousAt (fun y => log (y / mg ^ 2)) T := ContinuousAt.log (by fun_prop) (by positivity)
    have c1 : ContinuousAt (fun y => delF (mg ^ 2) t y) T := by unfold delF; fun_prop
    fun_prop (disch := first | assumption | positivity)
  exact this.tendsto.mono_left nhdsWithin_le_nhds

theorem sF3A_lim (h : NearT phi t mg T q) : Tendsto (fun y => sF3_A mg T y q) (𝓝[≠] T) (𝓝 0) := by
  have key := h.lim (G := fun z => mg * (8 + 2 * (T + z.1) * z.2.2.2.1 * (2 * z.2.1 + z.2.2.2.1 * (T - z.1)) - 8 * (T * z.2.2.2.1 + z.2.1))) (by fun_prop)
  have hT' := h.T_pos.ne'
  have e : mg * (8 + 2 * (T + T) * (1 / T) * (2 * log (T / q) + 1 / T * (T - T)) - 8 * (T * (1 / T) + log (T / q))) = 0 := by field_simp; ring
  simp only [e] at key
  refine key.congr' ?_
  filter_upwards [self_mem_nhdsWithin, nhdsWithin_le_nhds (lt_mem_nhds h.T_pos)] with y hy hy0
  have a := h.atoms hy0 hy
  unfold sF3_A
  rw [a.L]
  have := a.dx
  field_simp
  ring

theorem sF2A_lim (h : NearT phi t mg T q) : Tendsto (fun y => sF2_A mg T y q) (𝓝[≠] T) (𝓝 0) := by
  have key := ((h.tend_log.pow 2).sub_const (log (T / q) ^ 2)).const_mul (mg * 2)
  simpa [sF2_A] using key

end Himalaya.TwoLoop
