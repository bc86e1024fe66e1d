import Verif.TwoLoop.Model
import Verif.TLF.PhiProps2
import Mathlib.Analysis.SpecialFunctions.Trigonometric.InverseDeriv

/-!
# The two-loop function used for degenerate stops

The C++ code has a second implementation of the Davydychev–Tausk function (`phi` and `dphi_010` in mh2l/DSZHiggs.cpp), used only when the
two stop masses agree.  Here it is compared with the function itself.
-/

set_option linter.unusedSimpArgs false
set_option linter.unusedSectionVars false
set_option linter.unusedVariables false

namespace Himalaya.TwoLoop
open Real Filter Topology

/-- The Davydychev–Tausk function of three squared masses, in the normalisation of Degrassi, Slavich and Zwirner (the third argument is
distinguished).  The integral `Spec.Phi` is taken with the largest squared mass as unit, as in Nucl. Phys. B397 (1993) 23, eq. (4.10). -/
noncomputable def dtPhi (x y z : ℝ) : ℝ :=
  if x ≤ z ∧ y ≤ z then TLF.Spec.Phi (x / z) (y / z)
  else if z ≤ x ∧ y ≤ x then z / x * TLF.Spec.Phi (z / x) (y / x)
  else z / y * TLF.Spec.Phi (z / y) (x / y)

/-- the closed form in terms of the ratios -/
noncomputable def phiUV (u v : ℝ) : ℝ :=
  let l := √(TLF.Spec.lambda2 u v)
  let P := (1 + (u - v) - l) / 2
  let M := (1 - (u - v) - l) / 2
  (2 * log P * log M - log u * log v - 2 * (Li2.Li2 P + Li2.Li2 M) + π ^ 2 / 3) / l

theorem logabs_eq (x : ℝ) : logabs x = log x := Real.log_abs x

theorem phiC_eq (x y z : ℝ) (h : 0 ≤ TLF.Spec.lambda2 (x / z) (y / z)) : phiC Li2.Li2 x y z = phiUV (x / z) (y / z) := by
  unfold phiC phiUV
  simp only [logabs_eq]
  have : sqrtabs ((1 - x / z - y / z) ^ 2 - 4 * (x / z) * (y / z)) = √(TLF.Spec.lambda2 (x / z) (y / z)) := by
    unfold sqrtabs; rw [show (1 - x / z - y / z) ^ 2 - 4 * (x / z) * (y / z) = TLF.Spec.lambda2 (x / z) (y / z) from rfl, abs_of_nonneg h]
  simp only [this]
  rw [show (1:ℝ)/2 * (1 + (x / z - y / z) - √(TLF.Spec.lambda2 (x / z) (y / z))) = (1 + (x / z - y / z) - √(TLF.Spec.lambda2 (x / z) (y / z))) / 2 by ring,
    show (1:ℝ)/2 * (1 - (x / z - y / z) - √(TLF.Spec.lambda2 (x / z) (y / z))) = (1 - (x / z - y / z) - √(TLF.Spec.lambda2 (x / z) (y / z))) / 2 by ring]
  ring

theorem phiUV_comm (u v : ℝ) : phiUV u v = phiUV v u := by
  unfold phiUV
  have : TLF.Spec.lambda2 u v = TLF.Spec.lambda2 v u := by unfold TLF.Spec.lambda2; ring
  simp only [this]
  rw [show 1 + (u - v) - √(TLF.Spec.lambda2 v u) = 1 - (v - u) - √(TLF.Spec.lambda2 v u) by ring,
    show 1 - (u - v) - √(TLF.Spec.lambda2 v u) = 1 + (v - u) - √(TLF.Spec.lambda2 v u) by ring]
  ring

theorem Phi_comm_of_roots {x y : ℝ} (hx : 0 < x) (hy : 0 < y) (hxy : x + y < 1) :
    TLF.Spec.Phi (x * (1 - y)) (y * (1 - x)) = TLF.Spec.Phi (y * (1 - x)) (x * (1 - y)) := by
  rw [TLF.Phi_pos hx hy hxy, TLF.Phi_pos hy hx (by linarith)]
  rw [show (1:ℝ) - x - y = 1 - y - x by ring]
  ring

/-- below threshold with the third mass largest -/
theorem roots_any {u v : ℝ} (hu : 0 < u) (hu1 : u ≤ 1) (hv0 : 0 < v) (hv : v ≤ 1) (hl : 0 < TLF.Spec.lambda2 u v) :
    let l := √(TLF.Spec.lambda2 u v)
    let x := (1 + (u - v) - l) / 2
    let y := (1 - (u - v) - l) / 2
    0 < l ∧ 0 < x ∧ 0 < y ∧ x + y < 1 ∧ 1 - x - y = l ∧ x * (1 - y) = u ∧ y * (1 - x) = v := by
  intro l x y
  rcases le_total u v with h | h
  · obtain ⟨a, b, c, d, e, f, g, i⟩ := TLF.Phi.roots_of hu h hv hl
    have ex : x = (1 - l + u - v) / 2 := by simp only [x]; ring
    have ey : y = (1 - l - u + v) / 2 := by simp only [y]; ring
    rw [ex, ey]
    exact ⟨a, c, d, e, f, g, i⟩
  · have hs : TLF.Spec.lambda2 u v = TLF.Spec.lambda2 v u := by unfold TLF.Spec.lambda2; ring
    rw [hs] at hl
    obtain ⟨a, b, c, d, e, f, g, i⟩ := TLF.Phi.roots_of hv0 h hu1 hl
    have el : l = √(TLF.Spec.lambda2 v u) := by simp only [l, hs]
    rw [← el] at a b c d e f g i
    have ex : x = (1 - l - v + u) / 2 := by simp only [x]; ring
    have ey : y = (1 - l + v - u) / 2 := by simp only [y]; ring
    rw [ex, ey]
    exact ⟨a, d, c, by linarith, by linarith, i, g⟩

theorem phiUV_below {u v : ℝ} (hu : 0 < u) (hu1 : u ≤ 1) (hv0 : 0 < v) (hv : v ≤ 1) (hl : 0 < TLF.Spec.lambda2 u v) :
    phiUV u v = TLF.Spec.Phi u v := by
  obtain ⟨l0, x0, y0, xy, el, eu, ev⟩ := roots_any hu hu1 hv0 hv hl
  have h := TLF.Phi_pos x0 y0 xy
  rw [eu, ev, el] at h
  rw [h]; unfold phiUV
  ring

/-- with the second mass largest: `v = 1/u'`, `u = v'/u'` -/
theorem phiUV_above {u v : ℝ} (hu : 0 < u) (hv : 1 < v) (huv : u ≤ v) (hl : 0 < TLF.Spec.lambda2 u v) :
    phiUV u v = 1 / v * TLF.Spec.Phi (1 / v) (u / v) := by
  have hv0 : 0 < v := by linarith
  have hlam : TLF.Spec.lambda2 (1 / v) (u / v) = TLF.Spec.lambda2 u v / v ^ 2 := by
    unfold TLF.Spec.lambda2; field_simp; ring
  have hl' : 0 < TLF.Spec.lambda2 (1 / v) (u / v) := by rw [hlam]; positivity
  obtain ⟨l0, x0, y0, xy, el, eu, ev⟩ := roots_any (u := 1 / v) (v := u / v) (by positivity) ((div_le_one hv0).2 hv.le) (by positivity)
    ((div_le_one hv0).2 huv) hl'
  have hsq : √(TLF.Spec.lambda2 (1 / v) (u / v)) = √(TLF.Spec.lambda2 u v) / v := by
    rw [hlam, sqrt_div hl.le, sqrt_sq hv0.le]
  set a := (1 + (1 / v - u / v) - √(TLF.Spec.lambda2 (1 / v) (u / v))) / 2 with ha
  set b := (1 - (1 / v - u / v) - √(TLF.Spec.lambda2 (1 / v) (u / v))) / 2 with hb
  have h := TLF.Phi_pos x0 y0 xy
  rw [eu, ev] at h
  rw [h, el]
  clear_value a b
  have hsl : √(TLF.Spec.lambda2 u v) = v * (1 - a - b) := by rw [el, hsq]; field_simp
  have a1 : 0 < 1 - a := by linarith
  have b1 : 0 < 1 - b := by linarith
  have ab : 0 < 1 - a - b := by linarith
  have hvab : v = 1 / (a * (1 - b)) := by rw [eu]; field_simp
  have huab : u = b * (1 - a) / (a * (1 - b)) := by rw [eu, ev]; field_simp
  unfold phiUV
  simp only [hsl]
  have eP : (1 + (u - v) - v * (1 - a - b)) / 2 = 1 - 1 / a := by rw [huab, hvab]; field_simp; ring
  have eM : (1 - (u - v) - v * (1 - a - b)) / 2 = 1 / (1 - b) := by rw [huab, hvab]; field_simp; ring
  rw [eP, eM]
  have i1 := Li2.Li2_inv b1
  have r1 := Li2.Li2_reflect b
  have r2 := Li2.Li2_reflect a
  have la := Li2.Li2_landen (x := 1 - a) (by linarith)
  rw [show (1 - a) / (1 - a - 1) = 1 - 1 / a by rw [show (1:ℝ) - a - 1 = -a by ring]; field_simp; ring, show (1:ℝ) - (1 - a) = a by ring] at la
  have e1 : log (1 - 1 / a) = log (1 - a) - log a := by
    rw [show 1 - 1 / a = -((1 - a) / a) by field_simp; ring, log_neg_eq_log, log_div a1.ne' x0.ne']
  have e2 : log (1 / (1 - b)) = -log (1 - b) := by rw [one_div, log_inv]
  have e3 : log v = -(log a + log (1 - b)) := by rw [hvab, one_div, log_inv, log_mul x0.ne' b1.ne']
  have e4 : log u = log b + log (1 - a) - (log a + log (1 - b)) := by
    rw [huab, log_div (by positivity) (by positivity), log_mul y0.ne' a1.ne', log_mul x0.ne' b1.ne']
  have e5 : log (1 / v) = log a + log (1 - b) := by rw [one_div, log_inv, e3]; ring
  have e6 : log (u / v) = log b + log (1 - a) := by rw [log_div hu.ne' hv0.ne', e3, e4]; ring
  rw [← el, e1, e2, e3, e4, e5, e6]
  have f1 : Li2.Li2 (1 - 1 / a) = -(log a) ^ 2 / 2 - (π ^ 2 / 6 - Li2.Li2 a - log a * log (1 - a)) := by linarith
  have f2 : Li2.Li2 (1 / (1 - b)) = π ^ 2 / 3 - (log (1 - b)) ^ 2 / 2 - (π ^ 2 / 6 - Li2.Li2 b - log b * log (1 - b)) := by linarith
  rw [f1, f2]
  have hne := ab.ne'
  have hvne := hv0.ne'
  clear * - hne hvne
  field_simp
  ring

theorem delF_eq (x y z : ℝ) (hz : z ≠ 0) : delF z x y = z ^ 2 * TLF.Spec.lambda2 (x / z) (y / z) := by
  unfold delF TLF.Spec.lambda2; field_simp; ring

theorem lambda_pos {x y z : ℝ} (hz : 0 < z) (h : 0 < delF z x y) : 0 < TLF.Spec.lambda2 (x / z) (y / z) := by
  rw [delF_eq x y z hz.ne'] at h
  exact pos_of_mul_pos_right h (by positivity)

theorem lambda_neg {x y z : ℝ} (hz : 0 < z) (h : delF z x y < 0) : TLF.Spec.lambda2 (x / z) (y / z) < 0 := by
  rw [delF_eq x y z hz.ne'] at h
  by_contra hc
  have : 0 ≤ z ^ 2 * TLF.Spec.lambda2 (x / z) (y / z) := mul_nonneg (by positivity) (not_lt.1 hc)
  linarith

/-- the three cases of the specification -/
theorem dtPhi_cases {P : Prop} (x y z : ℝ) (h1 : x ≤ z → y ≤ z → P) (h2 : z < x → y ≤ x → ¬ (x ≤ z ∧ y ≤ z) → P)
    (h3 : z < y → x ≤ y → ¬ (x ≤ z ∧ y ≤ z) → ¬ (z ≤ x ∧ y ≤ x) → P) : P := by
  by_cases c1 : x ≤ z ∧ y ≤ z
  · exact h1 c1.1 c1.2
  by_cases c2 : z ≤ x ∧ y ≤ x
  · refine h2 ?_ c2.2 c1
    by_contra hc
    exact c1 ⟨not_lt.1 hc, c2.2.trans (not_lt.1 hc)⟩
  · have : z < y := by
      by_contra hc
      have hc := not_lt.1 hc
      have : ¬ x ≤ z := fun h => c1 ⟨h, hc⟩
      exact c2 ⟨(not_le.1 this).le, hc.trans (not_le.1 this).le⟩
    refine h3 this ?_ c1 c2
    by_contra hc
    have hc := not_le.1 hc
    exact c2 ⟨(this.trans hc).le, hc.le⟩

theorem dtPhi_pos {x y z : ℝ} (hx : 0 < x) (hy : 0 < y) (hz : 0 < z) (h : 0 < delF z x y) : dtPhi x y z = phiUV (x / z) (y / z) := by
  have hl := lambda_pos hz h
  have hs : TLF.Spec.lambda2 (y / z) (x / z) = TLF.Spec.lambda2 (x / z) (y / z) := by unfold TLF.Spec.lambda2; ring
  refine dtPhi_cases x y z (fun a b => ?_) (fun a b c => ?_) (fun a b c d => ?_)
  · rw [dtPhi, if_pos ⟨a, b⟩, phiUV_below (by positivity) ((div_le_one hz).2 a) (by positivity) ((div_le_one hz).2 b) hl]
  · rw [dtPhi, if_neg c, if_pos ⟨a.le, b⟩, phiUV_comm,
      phiUV_above (by positivity) ((one_lt_div hz).2 a) ((div_le_div_iff_of_pos_right hz).2 b) (by rw [hs]; exact hl)]
    rw [one_div_div, div_div_div_cancel_right₀ hz.ne']
  · rw [dtPhi, if_neg c, if_neg d,
      phiUV_above (by positivity) ((one_lt_div hz).2 a) ((div_le_div_iff_of_pos_right hz).2 b) hl]
    rw [one_div_div, div_div_div_cancel_right₀ hz.ne']

theorem Phi_rot {u v : ℝ} (hu : 0 < u) (hv : 0 < v) (hl : TLF.Spec.lambda2 u v < 0) :
    1 / v * TLF.Spec.Phi (1 / v) (u / v) = TLF.Spec.Phi u v ∧ TLF.Spec.Phi v u = TLF.Spec.Phi u v := by
  have hlam : TLF.Spec.lambda2 (1 / v) (u / v) = TLF.Spec.lambda2 u v / v ^ 2 := by
    unfold TLF.Spec.lambda2; field_simp; ring
  have hl' : TLF.Spec.lambda2 (1 / v) (u / v) < 0 := by rw [hlam]; exact div_neg_of_neg_of_pos hl (by positivity)
  have hs : TLF.Spec.lambda2 v u = TLF.Spec.lambda2 u v := by unfold TLF.Spec.lambda2; ring
  have hv2 : √v * √v = v := mul_self_sqrt hv.le
  have hvs : 0 < √v := sqrt_pos.2 hv
  have hus : 0 < √u := sqrt_pos.2 hu
  have hL : √(-TLF.Spec.lambda2 (1 / v) (u / v)) = √(-TLF.Spec.lambda2 u v) / v := by
    rw [hlam, ← neg_div, sqrt_div (by linarith), sqrt_sq hv.le]
  have hLp : 0 < √(-TLF.Spec.lambda2 u v) := sqrt_pos.2 (by linarith)
  constructor
  · rw [(TLF.Phi.triangle (u := 1 / v) (v := u / v) (by positivity) (by positivity) hl').2.2.2.2.2.2.2,
      (TLF.Phi.triangle hu hv hl).2.2.2.2.2.2.2, hL]
    rw [show (1 + 1 / v - u / v) / 2 / √(1 / v) = (1 - u + v) / 2 / √v by
        rw [sqrt_div zero_le_one, sqrt_one]; field_simp; rw [sq_sqrt hv.le]; ring,
      show (1 - 1 / v + u / v) / 2 / √(u / v) = (-1 + u + v) / 2 / (√u * √v) by
        rw [sqrt_div hu.le]; field_simp; rw [sq_sqrt hv.le]; ring,
      show (-1 + 1 / v + u / v) / 2 / (√(1 / v) * √(u / v)) = (1 + u - v) / 2 / √u by
        rw [sqrt_div zero_le_one, sqrt_one, sqrt_div hu.le]; field_simp; rw [sq_sqrt hv.le]; ring]
    field_simp
    ring
  · rw [(TLF.Phi.triangle hv hu (by rw [hs]; exact hl)).2.2.2.2.2.2.2, (TLF.Phi.triangle hu hv hl).2.2.2.2.2.2.2, hs]
    rw [show (1 + v - u) = (1 - u + v) by ring, show (1 - v + u) = (1 + u - v) by ring, show (-1 + v + u) = (-1 + u + v) by ring, mul_comm √v √u]
    ring

theorem dtPhi_neg {x y z : ℝ} (hx : 0 < x) (hy : 0 < y) (hz : 0 < z) (h : delF z x y < 0) : dtPhi x y z = TLF.Spec.Phi (x / z) (y / z) := by
  have hl := lambda_neg hz h
  have hs : TLF.Spec.lambda2 (y / z) (x / z) = TLF.Spec.lambda2 (x / z) (y / z) := by unfold TLF.Spec.lambda2; ring
  have h1 := Phi_rot (u := x / z) (v := y / z) (by positivity) (by positivity) hl
  have h2 := Phi_rot (u := y / z) (v := x / z) (by positivity) (by positivity) (by rw [hs]; exact hl)
  rw [one_div_div, div_div_div_cancel_right₀ hz.ne'] at h1 h2
  refine dtPhi_cases x y z (fun a b => ?_) (fun a b c => ?_) (fun a b c d => ?_)
  · rw [dtPhi, if_pos ⟨a, b⟩]
  · rw [dtPhi, if_neg c, if_pos ⟨a.le, b⟩, h2.1, h1.2]
  · rw [dtPhi, if_neg c, if_neg d, h1.1]

/-! ### the derivative -/

/-- right-hand side of the first-order differential equation satisfied by the function -/
noncomputable def deRHS (t y g F : ℝ) : ℝ :=
  ((g + t - y) * F + 2 * g * log (y / g) + g * (g - t - y) / y * log (t / g)) / delF g t y

theorem phiUV_deriv {u v : ℝ} (hu : 0 < u) (hv : 0 < v) (hl : 0 < TLF.Spec.lambda2 u v) :
    HasDerivAt (fun v => phiUV u v) (((1 + u - v) * phiUV u v + 2 * log v + (1 - u - v) / v * log u) / TLF.Spec.lambda2 u v) v := by
  have dl : HasDerivAt (fun v => TLF.Spec.lambda2 u v) (-2 * (1 + u - v)) v := by
    unfold TLF.Spec.lambda2
    have := (((((hasDerivAt_id v).const_sub (1 - u)).pow 2)).sub ((hasDerivAt_id v).const_mul (4 * u)))
    refine this.congr_deriv ?_
    simp only [id, Nat.cast_ofNat]; ring
  have ds := dl.sqrt hl.ne'
  set l := √(TLF.Spec.lambda2 u v) with hl_def
  have l0 : 0 < l := sqrt_pos.2 hl
  have hsq : l ^ 2 = (1 - u - v) ^ 2 - 4 * u * v := by rw [show l ^ 2 = _ from sq_sqrt hl.le]; rfl
  have hlam : TLF.Spec.lambda2 u v = l ^ 2 := (sq_sqrt hl.le).symm
  set P := (1 + (u - v) - l) / 2 with hP
  set M := (1 - (u - v) - l) / 2 with hM
  have ePM : 1 - P - M = l := by rw [hP, hM]; ring
  have eu : P * (1 - M) = u := by rw [hP, hM]; linear_combination (-1 / 4) * hsq
  have ev : M * (1 - P) = v := by rw [hP, hM]; linear_combination (-1 / 4) * hsq
  have P0 : P ≠ 0 := fun h => by rw [h, zero_mul] at eu; exact hu.ne eu
  have M1 : M ≠ 1 := fun h => by rw [h, sub_self, mul_zero] at eu; exact hu.ne eu
  have M0 : M ≠ 0 := fun h => by rw [h, zero_mul] at ev; exact hv.ne ev
  have P1 : P ≠ 1 := fun h => by rw [h, sub_self, mul_zero] at ev; exact hv.ne ev
  have P1' : 1 - P ≠ 0 := sub_ne_zero.2 P1.symm
  have M1' : 1 - M ≠ 0 := sub_ne_zero.2 M1.symm
  have dP : HasDerivAt (fun v => (1 + (u - v) - √(TLF.Spec.lambda2 u v)) / 2) (P / l) v := by
    have := ((((hasDerivAt_id v).const_sub u).const_add 1).sub ds).div_const 2
    refine this.congr_deriv ?_
    rw [hP]; field_simp; ring
  have dM : HasDerivAt (fun v => (1 - (u - v) - √(TLF.Spec.lambda2 u v)) / 2) ((1 - M) / l) v := by
    have := ((((hasDerivAt_id v).const_sub u).const_sub 1).sub ds).div_const 2
    refine this.congr_deriv ?_
    rw [hM]; field_simp; ring
  have lP := dP.log P0
  have lM := dM.log M0
  have LP := (Li2.hasDerivAt_Li2 P0 P1).comp v dP
  have LM := (Li2.hasDerivAt_Li2 M0 M1).comp v dM
  have key := ((((((lP.const_mul 2).mul lM).sub ((hasDerivAt_log hv.ne').const_mul (log u))).sub ((LP.add LM).const_mul 2)).add_const (π ^ 2 / 3))).div ds l0.ne'
  have : phiUV u v = (2 * log P * log M - log u * log v - 2 * (Li2.Li2 P + Li2.Li2 M) + π ^ 2 / 3) / l := rfl
  refine key.congr_deriv ?_
  show (((2 * (P / l / P)) * log M + 2 * log P * ((1 - M) / l / M) - log u * v⁻¹ - 2 * (-log (1 - P) / P * (P / l) + -log (1 - M) / M * ((1 - M) / l))) * l
    - (2 * log P * log M - log u * log v - 2 * (Li2.Li2 P + Li2.Li2 M) + π ^ 2 / 3) * (-2 * (1 + u - v) / (2 * l))) / l ^ 2 = _
  rw [this, hlam]
  have lu : log u = log P + log (1 - M) := by rw [← eu, log_mul P0 M1']
  have lv : log v = log M + log (1 - P) := by rw [← ev, log_mul M0 P1']
  rw [lu, lv]
  have ev' : v⁻¹ = (M * (1 - P))⁻¹ := by rw [ev]
  rw [ev', show (1 - u - v) / v = (1 - P * (1 - M) - M * (1 - P)) / (M * (1 - P)) by rw [eu, ev],
    show 1 + u - v = 1 + P - M by rw [← eu, ← ev]; ring]
  have hl3 : (1 - P - M) ≠ 0 := by rw [ePM]; exact l0.ne'
  rw [← ePM]
  generalize log P = a1, log M = a2, log (1 - P) = a3, log (1 - M) = a4, Li2.Li2 P = b1, Li2.Li2 M = b2
  clear_value P M
  clear * - P0 M0 P1' M1' hl3
  field_simp
  ring

theorem Phi_neg_deriv {u v : ℝ} (hu : 0 < u) (hv : 0 < v) (hl : TLF.Spec.lambda2 u v < 0) :
    HasDerivAt (fun v => TLF.Spec.Phi u v) (((1 + u - v) * TLF.Spec.Phi u v + 2 * log v + (1 - u - v) / v * log u) / TLF.Spec.lambda2 u v) v := by
  have dl : HasDerivAt (fun v => -TLF.Spec.lambda2 u v) (2 * (1 + u - v)) v := by
    unfold TLF.Spec.lambda2
    have := (((((hasDerivAt_id v).const_sub (1 - u)).pow 2)).sub ((hasDerivAt_id v).const_mul (4 * u))).neg
    refine this.congr_deriv ?_
    simp only [id, Nat.cast_ofNat]; ring
  have ds := dl.sqrt (by linarith : -TLF.Spec.lambda2 u v ≠ 0)
  have hcont : ContinuousAt (fun v => TLF.Spec.lambda2 u v) v := by unfold TLF.Spec.lambda2; fun_prop
  have hev : ∀ᶠ w in 𝓝 v, TLF.Spec.Phi u w = 2 * (Clausen.Cl2 (2 * arccos ((1 + u - w) / 2 / √u)) + Clausen.Cl2 (2 * arccos ((1 - u + w) / 2 / √w))
      + Clausen.Cl2 (2 * arccos ((-1 + u + w) / 2 / (√u * √w)))) / √(-TLF.Spec.lambda2 u w) := by
    filter_upwards [hcont.eventually (gt_mem_nhds hl), lt_mem_nhds hv] with w h1 h2
    exact (TLF.Phi.triangle hu h2 h1).2.2.2.2.2.2.2
  obtain ⟨a0, b0, g0, hsum, sa, sb, sg, hPhi⟩ := TLF.Phi.triangle hu hv hl
  have hL0 : 0 < √(-TLF.Spec.lambda2 u v) := sqrt_pos.2 (by linarith)
  have hL2 : √(-TLF.Spec.lambda2 u v) ^ 2 = -TLF.Spec.lambda2 u v := sq_sqrt (by linarith)
  have hp : 0 < √u := sqrt_pos.2 hu
  have hq : 0 < √v := sqrt_pos.2 hv
  have hp2 : √u ^ 2 = u := sq_sqrt hu.le
  have hq2 : √v ^ 2 = v := sq_sqrt hv.le
  have arc : ∀ {c s : ℝ}, sin (arccos c) = s → 0 < s → c ≠ -1 ∧ c ≠ 1 ∧ √(1 - c ^ 2) = s := by
    intro c s h hs
    rw [sin_arccos] at h
    refine ⟨?_, ?_, h⟩ <;> · rintro rfl; norm_num at h; linarith
  set L := √(-TLF.Spec.lambda2 u v) with hL
  set ca := (1 + u - v) / 2 / √u with hca
  set cb := (1 - u + v) / 2 / √v with hcb
  set cg := (-1 + u + v) / 2 / (√u * √v) with hcg
  obtain ⟨a1, a2, a3⟩ := arc sa (by positivity)
  obtain ⟨b1, b2, b3⟩ := arc sb (by positivity)
  obtain ⟨g1, g2, g3⟩ := arc sg (by positivity)
  have dq : HasDerivAt (fun w : ℝ => √w) (1 / (2 * √v)) v := by
    have := (hasDerivAt_id v).sqrt hv.ne'
    exact this
  have dca : HasDerivAt (fun w => (1 + u - w) / 2 / √u) (-1 / (2 * √u)) v := by
    have := (((hasDerivAt_id v).const_sub (1 + u)).div_const 2).div_const √u
    refine this.congr_deriv ?_
    field_simp
  have dcb : HasDerivAt (fun w => (1 - u + w) / 2 / √w) ((u + v - 1) / (4 * v * √v)) v := by
    have := (((hasDerivAt_id v).const_add (1 - u)).div_const 2).div dq hq.ne'
    refine this.congr_deriv ?_
    simp only [id]
    rw [hq2]
    field_simp
    rw [hq2]
    ring
  have dcg : HasDerivAt (fun w => (-1 + u + w) / 2 / (√u * √w)) ((1 - u + v) / (4 * v * (√u * √v))) v := by
    have := (((hasDerivAt_id v).const_add (-1 + u)).div_const 2).div (dq.const_mul √u) (by positivity : √u * √v ≠ 0)
    refine this.congr_deriv ?_
    simp only [id]
    rw [mul_pow, hp2, hq2]
    field_simp
    rw [hq2, hp2]
    ring
  have dA := ((hasDerivAt_arccos a1 a2).comp v dca).const_mul 2
  have dB := ((hasDerivAt_arccos b1 b2).comp v dcb).const_mul 2
  have dG := ((hasDerivAt_arccos g1 g2).comp v dcg).const_mul 2
  have pa : arccos ca < π := by linarith
  have pb : arccos cb < π := by linarith
  have pg : arccos cg < π := by linarith
  have CA := (TLF.hasDerivAt_Cl2 (x := 2 * arccos ca) (by linarith) (by linarith)).comp v dA
  have CB := (TLF.hasDerivAt_Cl2 (x := 2 * arccos cb) (by linarith) (by linarith)).comp v dB
  have CG := (TLF.hasDerivAt_Cl2 (x := 2 * arccos cg) (by linarith) (by linarith)).comp v dG
  have key := (((CA.add CB).add CG).const_mul 2).div ds hL0.ne'
  refine HasDerivAt.congr_of_eventuallyEq (f := fun w => 2 * (Clausen.Cl2 (2 * arccos ((1 + u - w) / 2 / √u)) + Clausen.Cl2 (2 * arccos ((1 - u + w) / 2 / √w))
      + Clausen.Cl2 (2 * arccos ((-1 + u + w) / 2 / (√u * √w)))) / √(-TLF.Spec.lambda2 u w)) ?_ hev
  refine key.congr_deriv ?_
  show ((2 * (-log (2 * sin (2 * arccos ca / 2)) * (2 * (-(1 / √(1 - ca ^ 2)) * (-1 / (2 * √u))))
      + -log (2 * sin (2 * arccos cb / 2)) * (2 * (-(1 / √(1 - cb ^ 2)) * ((u + v - 1) / (4 * v * √v))))
      + -log (2 * sin (2 * arccos cg / 2)) * (2 * (-(1 / √(1 - cg ^ 2)) * ((1 - u + v) / (4 * v * (√u * √v))))))) * L
    - (2 * (Clausen.Cl2 (2 * arccos ca) + Clausen.Cl2 (2 * arccos cb) + Clausen.Cl2 (2 * arccos cg))) * (2 * (1 + u - v) / (2 * L))) / L ^ 2 = _
  rw [hPhi, a3, b3, g3, mul_div_cancel_left₀ _ two_ne_zero, mul_div_cancel_left₀ _ two_ne_zero, mul_div_cancel_left₀ _ two_ne_zero, sa, sb, sg]
  have hlu : log u = 2 * log √u := by rw [← hp2, log_pow, hp2]; norm_num
  have hlv : log v = 2 * log √v := by rw [← hq2, log_pow, hq2]; norm_num
  have la : log (2 * (L / (2 * √u))) = log L - log √u := by
    rw [show 2 * (L / (2 * √u)) = L / √u by field_simp, log_div hL0.ne' hp.ne']
  have lb : log (2 * (L / (2 * √v))) = log L - log √v := by
    rw [show 2 * (L / (2 * √v)) = L / √v by field_simp, log_div hL0.ne' hq.ne']
  have lg : log (2 * (L / (2 * √u * √v))) = log L - log √u - log √v := by
    rw [show 2 * (L / (2 * √u * √v)) = L / (√u * √v) by field_simp, log_div hL0.ne' (by positivity), log_mul hp.ne' hq.ne']; ring
  rw [la, lb, lg, hlu, hlv, show TLF.Spec.lambda2 u v = -L ^ 2 by rw [hL2]; ring]
  generalize Clausen.Cl2 (2 * arccos ca) = k1, Clausen.Cl2 (2 * arccos cb) = k2, Clausen.Cl2 (2 * arccos cg) = k3, log L = k4, log √u = k5, log √v = k6
  have hvv : v = √v ^ 2 := hq2.symm
  have huu : u = √u ^ 2 := hp2.symm
  clear_value L
  have hLn := hL0.ne'
  have hpn := hp.ne'
  have hqn := hq.ne'
  generalize √u = p at *
  generalize √v = r at *
  subst hvv huu
  clear * - hLn hpn hqn
  field_simp
  ring

/-- the differential equation, on both sides of the threshold -/
theorem dtPhi_deriv {t g T : ℝ} (ht : 0 < t) (hg : 0 < g) (hT : 0 < T) (hd : delF g t T ≠ 0) :
    HasDerivAt (fun y => dtPhi t y g) (deRHS t T g (dtPhi t T g)) T := by
  have hcont : ContinuousAt (fun y => delF g t y) T := by unfold delF; fun_prop
  have hdiv : HasDerivAt (fun y => y / g) (1 / g) T := (hasDerivAt_id T).div_const g
  have hg0 := hg.ne'
  rcases lt_or_gt_of_ne hd with h | h
  · have hev : (fun y => dtPhi t y g) =ᶠ[𝓝 T] fun y => TLF.Spec.Phi (t / g) (y / g) := by
      filter_upwards [hcont.eventually (gt_mem_nhds h), lt_mem_nhds hT] with w h1 h2
      exact dtPhi_neg ht h2 hg h1
    have d := (Phi_neg_deriv (u := t / g) (v := T / g) (by positivity) (by positivity) (lambda_neg hg h)).comp T hdiv
    refine HasDerivAt.congr_of_eventuallyEq (f := fun y => TLF.Spec.Phi (t / g) (y / g)) (d.congr_deriv ?_) hev
    rw [deRHS, dtPhi_neg ht hT hg h, delF_eq t T g hg0]
    have hl := (lambda_neg hg h).ne
    generalize TLF.Spec.lambda2 (t / g) (T / g) = l at *
    generalize TLF.Spec.Phi (t / g) (T / g) = F
    generalize log (T / g) = a, log (t / g) = b
    field_simp
  · have hev : (fun y => dtPhi t y g) =ᶠ[𝓝 T] fun y => phiUV (t / g) (y / g) := by
      filter_upwards [hcont.eventually (lt_mem_nhds h), lt_mem_nhds hT] with w h1 h2
      exact dtPhi_pos ht h2 hg h1
    have d := (phiUV_deriv (u := t / g) (v := T / g) (by positivity) (by positivity) (lambda_pos hg h)).comp T hdiv
    refine HasDerivAt.congr_of_eventuallyEq (f := fun y => phiUV (t / g) (y / g)) (d.congr_deriv ?_) hev
    rw [deRHS, dtPhi_pos ht hT hg h, delF_eq t T g hg0]
    have hl := (lambda_pos hg h).ne'
    generalize TLF.Spec.lambda2 (t / g) (T / g) = l at *
    generalize phiUV (t / g) (T / g) = F
    generalize log (T / g) = a, log (t / g) = b
    field_simp

/-- **C52.** Away from thresholds of the wrong sign (`del > 0`: one of the three masses is larger than the sum of the other two) the C++
`phi` is the Davydychev–Tausk function, whichever mass is largest. -/
theorem C52_phi {x y z : ℝ} (hx : 0 < x) (hy : 0 < y) (hz : 0 < z) (h : 0 < delF z x y) : phiC Li2.Li2 x y z = dtPhi x y z := by
  rw [phiC_eq x y z (lambda_pos hz h).le, dtPhi_pos hx hy hz h]

theorem pow15_sq {l : ℝ} (hl : 0 < l) : pow15 (l ^ 2) = l ^ 3 := by
  unfold pow15
  rw [abs_of_nonneg (by positivity), ← Real.rpow_natCast, ← Real.rpow_mul hl.le, ← Real.rpow_natCast]
  norm_num

theorem dphi010_eq {t g T : ℝ} (ht : 0 < t) (hg : 0 < g) (hT : 0 < T) (hd : 0 < delF g t T) :
    dphi010 Li2.Li2 t T g = deRHS t T g (dtPhi t T g) := by
  have hl := lambda_pos hg hd
  rw [deRHS, dtPhi_pos ht hT hg hd, delF_eq t T g hg.ne']
  have hg0 := hg.ne'
  have hab : -4 * t * T / g ^ 2 + (1 - t / g - T / g) ^ 2 = TLF.Spec.lambda2 (t / g) (T / g) := by
    unfold TLF.Spec.lambda2; field_simp; ring
  unfold dphi010 phiUV
  simp only [hab]
  have hsq : √(TLF.Spec.lambda2 (t / g) (T / g)) ^ 2 = (1 - t / g - T / g) ^ 2 - 4 * (t / g) * (T / g) := by rw [sq_sqrt hl.le]; rfl
  rw [show sqrtabs (TLF.Spec.lambda2 (t / g) (T / g)) = √(TLF.Spec.lambda2 (t / g) (T / g)) by unfold sqrtabs; rw [abs_of_pos hl]]
  have l0 : 0 < √(TLF.Spec.lambda2 (t / g) (T / g)) := sqrt_pos.2 hl
  have hlam : TLF.Spec.lambda2 (t / g) (T / g) = √(TLF.Spec.lambda2 (t / g) (T / g)) ^ 2 := (sq_sqrt hl.le).symm
  have hp15 : pow15 (TLF.Spec.lambda2 (t / g) (T / g)) = √(TLF.Spec.lambda2 (t / g) (T / g)) ^ 3 := by
    conv_lhs => rw [hlam]
    exact pow15_sq l0
  rw [hp15]
  generalize TLF.Spec.lambda2 (t / g) (T / g) = lam at *
  generalize √lam = l at *
  subst hlam
  obtain ⟨u, hu⟩ : ∃ u, u = t / g := ⟨_, rfl⟩
  obtain ⟨v, hv⟩ : ∃ v, v = T / g := ⟨_, rfl⟩
  have hu0 : 0 < u := by rw [hu]; positivity
  have hv0 : 0 < v := by rw [hv]; positivity
  have et : t = u * g := by rw [hu]; field_simp
  have eT : T = v * g := by rw [hv]; field_simp
  rw [← hu, ← hv] at hsq ⊢
  clear hab hp15 hd
  subst et eT
  obtain ⟨P, hP⟩ : ∃ P, P = (1 + (u - v) - l) / 2 := ⟨_, rfl⟩
  obtain ⟨M, hM⟩ : ∃ M, M = (1 - (u - v) - l) / 2 := ⟨_, rfl⟩
  have ePM : l = 1 - P - M := by rw [hP, hM]; ring
  have eu : P * (1 - M) = u := by rw [hP, hM]; linear_combination (-1 / 4) * hsq
  have ev : M * (1 - P) = v := by rw [hP, hM]; linear_combination (-1 / 4) * hsq
  have P0 : P ≠ 0 := fun h => by rw [h, zero_mul] at eu; exact hu0.ne eu
  have M1 : M ≠ 1 := fun h => by rw [h, sub_self, mul_zero] at eu; exact hu0.ne eu
  have M0 : M ≠ 0 := fun h => by rw [h, zero_mul] at ev; exact hv0.ne ev
  have P1 : P ≠ 1 := fun h => by rw [h, sub_self, mul_zero] at ev; exact hv0.ne ev
  have P1' : 1 - P ≠ 0 := sub_ne_zero.2 P1.symm
  have M1' : 1 - M ≠ 0 := sub_ne_zero.2 M1.symm
  rw [← hP, ← hM]
  simp only [logabs_eq]
  have eP2 : g - l * g + u * g - v * g = g * (2 * P) := by rw [hP]; ring
  have eM2 : g - l * g - u * g + v * g = g * (2 * M) := by rw [hM]; ring
  have e1M : g + l * g + u * g - v * g = g * (2 * (1 - M)) := by rw [hM]; ring
  have e1P : g + l * g - u * g + v * g = g * (2 * (1 - P)) := by rw [hP]; ring
  have ed : (-1 + l) * g + u * g - v * g = -(g * (2 * M)) := by rw [hM]; ring
  simp only [eP2, eM2, e1M, e1P, ed]
  simp only [mul_div_mul_left _ _ hg0, mul_div_cancel_left₀ _ hg0, mul_div_mul_right _ _ hg0, mul_div_assoc, div_self hg0, mul_one]
  rw [show g * (2 * (P / (2 * g))) = P by field_simp, show g * (2 * (M / (2 * g))) = M by field_simp]
  have h2 : (2:ℝ) ≠ 0 := two_ne_zero
  have l4 : log 4 = 2 * log 2 := by rw [show (4:ℝ) = 2 ^ 2 by norm_num, log_pow]; norm_num
  have lu : log u = log P + log (1 - M) := by rw [← eu, log_mul P0 M1']
  have lv : log v = log M + log (1 - P) := by rw [← ev, log_mul M0 P1']
  rw [l4, log_mul h2 P0, log_mul h2 M0, log_mul h2 P1', log_mul h2 M1', lu, lv]
  have hl3 : (1 - P - M) ≠ 0 := by rw [← ePM]; exact l0.ne'
  generalize log P = a1, log M = a2, log (1 - P) = a3, log (1 - M) = a4, Li2.Li2 P = b1, Li2.Li2 M = b2, log 2 = b3
  clear eP2 eM2 e1M e1P ed hP hM hsq hu hv l0 hl ht hT
  subst ePM eu ev
  clear * - P0 M0 P1' M1' hl3 hg0
  field_simp
  ring

/-- **C52.** ... and the C++ `dphi_010` is its derivative with respect to the second argument. -/
theorem C52_dphi {t g T : ℝ} (ht : 0 < t) (hg : 0 < g) (hT : 0 < T) (h : 0 < delF g t T) :
    HasDerivAt (fun y => dtPhi t y g) (dphi010 Li2.Li2 t T g) T := by
  rw [dphi010_eq ht hg hT h]
  exact dtPhi_deriv ht hg hT h.ne'

/-- a gluino heavier than stop plus top, a stop heavier than gluino plus top (units of the top mass) -/
example : 0 < delF (10 ^ 2) (1 ^ 2) (6 ^ 2) ∧ 0 < delF (6 ^ 2) (1 ^ 2) (10 ^ 2) := by unfold delF; norm_num

end Himalaya.TwoLoop
