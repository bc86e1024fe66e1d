import Verif.TwoLoop.Degenerate
import Verif.TLF.PhiProps5
import Verif.TwoLoop.Sym

/-!
# C52: equal stop masses in the two-loop correction of order `αt αs`
-/

set_option linter.unusedSimpArgs false
set_option linter.unusedVariables false

namespace Himalaya.TwoLoop
open Real Filter Topology

/-- C51: the two-loop function depends on ratios of masses only, as `C51_units` assumes -/
theorem C51_phi_homogeneous : HomPhi dtPhi := by
  intro l x y z hl
  unfold dtPhi
  simp only [mul_le_mul_iff_right₀ hl, mul_div_mul_left _ _ hl.ne']

/-! ### the property -/

/-- a matrix-valued function tends to a matrix, entry by entry -/
def MTendsto {α : Type} (f : α → Mat2 ℝ) (l : Filter α) (M : Mat2 ℝ) : Prop :=
  Tendsto (fun y => (f y).m00) l (𝓝 M.m00) ∧ Tendsto (fun y => (f y).m01) l (𝓝 M.m01) ∧
  Tendsto (fun y => (f y).m10) l (𝓝 M.m10) ∧ Tendsto (fun y => (f y).m11) l (𝓝 M.m11)

/-- the result of the calculation that distinguishes the two stop masses (`dszhiggs_`, `dszodd_`) -/
noncomputable def generalAtAs (phi : ℝ → ℝ → ℝ → ℝ) (a : AtAs) (heavy : Bool) : Mat2 ℝ :=
  madd (storeDiagFirst (dszhiggsOut phi a)) (rotateBy (if heavy then dszoddF phi a else 0) a.tanb)

theorem ht_sq {v2 t sb : ℝ} (hv : 0 < v2) (ht : 0 < t) : (√(2 / v2) * √t / sb) ^ 2 = 2 / v2 * t / sb ^ 2 := by
  rw [div_pow, mul_pow, sq_sqrt (by positivity), sq_sqrt ht.le]

theorem rot_lim {f : ℝ → ℝ} {l : Filter ℝ} {c tanb : ℝ} (h : Tendsto f l (𝓝 c)) : MTendsto (fun y => rotateBy (f y) tanb) l (rotateBy c tanb) := by
  refine ⟨h.mul_const _, ?_, ?_, h.mul_const _⟩ <;> exact (h.neg.mul_const _).mul_const _

theorem MTendsto.madd {α : Type} {f g : α → Mat2 ℝ} {l : Filter α} {M N : Mat2 ℝ} (hf : MTendsto f l M) (hg : MTendsto g l N) :
    MTendsto (fun y => TwoLoop.madd (f y) (g y)) l (TwoLoop.madd M N) :=
  ⟨hf.1.add hg.1, hf.2.1.add hg.2.1, hf.2.2.1.add hg.2.2.1, hf.2.2.2.add hg.2.2.2⟩

theorem dtPhi_near {a : AtAs} (ht : 0 < a.t) (hg : 0 < a.mg) (hT : 0 < a.T1) (hq : 0 < a.q) (hd : delF (a.mg ^ 2) a.t a.T1 ≠ 0) :
    NearT dtPhi a.t a.mg a.T1 a.q := by
  have hg2 : 0 < a.mg ^ 2 := by positivity
  have hdc : ContinuousAt (fun y => delF (a.mg ^ 2) a.t y) a.T1 := by unfold delF; fun_prop
  refine ⟨ht, hg2, hT, hq, hd, ?_⟩
  filter_upwards [lt_mem_nhds hT, hdc.eventually_ne hd] with y h1 h2
  exact dtPhi_deriv ht hg2 h1 h2

/-- the limit of the CP-even part, on both sides of the threshold -/
theorem even_general (a : AtAs) (ht : 0 < a.t) (hg : 0 < a.mg) (hT : 0 < a.T1) (hq : 0 < a.q) (hd : delF (a.mg ^ 2) a.t a.T1 ≠ 0)
    (htb : 0 < a.tanb) (hv : 0 < a.v2) (hsc : a.st ^ 2 + a.ct ^ 2 = 1) :
    let ht2 := 2 / a.v2 * a.t / sin (arctan a.tanb) ^ 2
    let k := 4 * a.gs ^ 2 / (16 * π ^ 2) ^ 2
    let K := -8 * a.mg * (1 / a.T1 - log (a.t / a.q) / a.T1 + deRHS a.t a.T1 (a.mg ^ 2) (dtPhi a.t a.T1 (a.mg ^ 2)))
    MTendsto (fun y => storeDiagFirst (dszhiggsOut dtPhi (a.second y))) (𝓝[≠] a.T1)
      ⟨0, k * (ht2 * a.t * a.mu * K), k * (ht2 * a.t * a.mu * K),
        k * (2 * ht2 * a.t * strF1 dtPhi a.t a.mg a.T1 a.T1 0 1 a.q + 2 * ht2 * a.t * (-(a.mu / a.tanb)) * K)⟩ := by
  intro ht2 k K
  have hs : (2 * a.ct * a.st) ^ 2 + (a.ct ^ 2 - a.st ^ 2) ^ 2 = 1 := by
    rw [show (2 * a.ct * a.st) ^ 2 + (a.ct ^ 2 - a.st ^ 2) ^ 2 = (a.st ^ 2 + a.ct ^ 2) ^ 2 by ring, hsc]; norm_num
  have hA : -(a.mu / a.tanb) = 0 → a.mu = 0 := by
    intro e; by_contra hne; exact (neg_ne_zero.2 (div_ne_zero hne htb.ne')) e
  have key := even_lim (dtPhi_near ht hg hT hq hd) (s := 2 * a.ct * a.st) (c := a.ct ^ 2 - a.st ^ 2) (mu := a.mu) (A0 := -(a.mu / a.tanb))
    (ht := √(2 / a.v2) * √a.t / sin (arctan a.tanb)) (k := k) hs hA
  obtain ⟨k1, k2, k3⟩ := key
  rw [ht_sq hv ht] at k2 k3
  have hm : √a.t * √a.t = a.t := mul_self_sqrt ht.le
  have e : ∀ y, dszhiggsF dtPhi (a.second y) = dszElements dtPhi a.t a.mg a.T1 y (2 * a.ct * a.st) (a.ct ^ 2 - a.st ^ 2) a.q a.mu
      ((a.T1 - y) * (2 * a.ct * a.st) / 2 / √a.t + -(a.mu / a.tanb)) (√(2 / a.v2) * √a.t / sin (arctan a.tanb)) k := fun y => rfl
  simp only [← e] at k1 k2 k3
  have c2 : k * (2 / a.v2 * a.t / sin (arctan a.tanb) ^ 2 * √a.t * a.mu * (-8 * a.mg * √a.t * (1 / a.T1 - log (a.t / a.q) / a.T1 + deRHS a.t a.T1 (a.mg ^ 2) (dtPhi a.t a.T1 (a.mg ^ 2)))))
      = k * (ht2 * a.t * a.mu * K) := by
    simp only [K]; linear_combination (k * ht2 * a.mu * -8 * a.mg * (1 / a.T1 - log (a.t / a.q) / a.T1 + deRHS a.t a.T1 (a.mg ^ 2) (dtPhi a.t a.T1 (a.mg ^ 2)))) * hm
  rw [c2] at k2
  refine ⟨k1, k2, k2, ?_⟩
  have c3 : k * (2 * (2 / a.v2 * a.t / sin (arctan a.tanb) ^ 2) * √a.t ^ 2 * strF1 dtPhi a.t a.mg a.T1 a.T1 0 1 a.q +
        2 * (2 / a.v2 * a.t / sin (arctan a.tanb) ^ 2) * √a.t * -(a.mu / a.tanb) * (-8 * a.mg * √a.t * (1 / a.T1 - log (a.t / a.q) / a.T1 + deRHS a.t a.T1 (a.mg ^ 2) (dtPhi a.t a.T1 (a.mg ^ 2)))))
      = k * (2 * ht2 * a.t * strF1 dtPhi a.t a.mg a.T1 a.T1 0 1 a.q + 2 * ht2 * a.t * (-(a.mu / a.tanb)) * K) := by
    simp only [K]; rw [sq_sqrt ht.le]
    linear_combination (k * 2 * ht2 * (-(a.mu / a.tanb)) * (-8 * a.mg * (1 / a.T1 - log (a.t / a.q) / a.T1 + deRHS a.t a.T1 (a.mg ^ 2) (dtPhi a.t a.T1 (a.mg ^ 2))))) * hm
  rw [c3] at k3
  exact k3

/-- **C52.** One of the three masses of gluino, stop and top larger than the sum of the other two: the two-loop correction the API returns
for equal stop masses (closed formulas, C++) is the limit of the calculation with different stop masses (Fortran), for every mixing
angle, with and without the heavy-Higgs part. -/
theorem C52_limit_partial (a : AtAs) (ht : 0 < a.t) (hg : 0 < a.mg) (hT : 0 < a.T1) (hq : 0 < a.q) (htb : 0 < a.tanb) (hv : 0 < a.v2)
    (hsc : a.st ^ 2 + a.ct ^ 2 = 1) (hd : 0 < delF (a.mg ^ 2) a.t a.T1) (hmu : a.mu = 0 ∨ 1 / 2 ^ 52 ≤ |a.mu / a.tanb|) (heavy : Bool) :
    MTendsto (fun y => generalAtAs dtPhi (a.second y) heavy) (𝓝[≠] a.T1) (deltaAtAs ⟨dtPhi, Li2.Li2⟩ (a.second a.T1) heavy) := by
  have hg2 : 0 < a.mg ^ 2 := by positivity
  have h0 : |((a.second a.T1).T1 - (a.second a.T1).T2) / (a.second a.T1).T1| < 1 / 10 ^ 8 := by
    have : (a.second a.T1).T1 - (a.second a.T1).T2 = 0 := sub_self a.T1
    rw [this]; norm_num
  unfold generalAtAs deltaAtAs
  rw [if_pos h0]
  refine MTendsto.madd ?_ (rot_lim ?_)
  · have k := even_general a ht hg hT hq hd.ne' htb hv hsc
    have e : atAsDegenerate Li2.Li2 a.t a.mg a.T1 a.q a.mu a.tanb a.v2 a.gs = _ :=
      show atAsDegenerate Li2.Li2 a.t a.mg a.T1 a.q a.mu a.tanb a.v2 a.gs = ⟨0, (atAsDegenerate Li2.Li2 a.t a.mg a.T1 a.q a.mu a.tanb a.v2 a.gs).m01,
        (atAsDegenerate Li2.Li2 a.t a.mg a.T1 a.q a.mu a.tanb a.v2 a.gs).m01, (atAsDegenerate Li2.Li2 a.t a.mg a.T1 a.q a.mu a.tanb a.v2 a.gs).m11⟩ from rfl
    show MTendsto _ _ (atAsDegenerate Li2.Li2 a.t a.mg a.T1 a.q a.mu a.tanb a.v2 a.gs)
    rw [e, deg01 ht hg2 hT hd, deg11 ht hg2 hT hq hd]
    exact k
  · cases heavy with
    | false => simp only [Bool.false_eq_true, if_false]; exact tendsto_const_nhds
    | true =>
      simp only [if_true]
      have k := odd_lim a (dtPhi_near ht hg hT hq hd.ne') htb hv
      have hAt : calcAt a.t a.T1 a.T1 a.st a.ct a.mu a.tanb = -(a.mu / a.tanb) := by unfold calcAt; simp
      unfold maAtAs
      rw [if_pos h0]
      show Tendsto _ _ (𝓝 (if |calcAt a.t a.T1 a.T1 a.st a.ct a.mu a.tanb| < 1 / 2 ^ 52 then 0 else
        maAtAsDegenerate Li2.Li2 a.t a.mg a.T1 a.T1 a.st a.ct a.q a.mu a.tanb a.v2 a.gs))
      rw [hAt, abs_neg]
      by_cases hz : a.mu = 0
      · rw [if_pos hz] at k
        rw [if_pos (by rw [hz]; norm_num)]
        exact k
      · have hm := hmu.resolve_left hz
        rw [if_neg hz, ht_sq hv ht] at k
        rw [if_neg (not_lt.2 hm), degA ht hg2 hT hq hd htb hz]
        exact k

/-- the hypotheses of `C52_limit_partial` for a gluino of mass 10 and stops of mass 6, and with the two exchanged (units of the top mass) -/
noncomputable def demoDeg (mg T : ℝ) : AtAs := ⟨1, mg, T, T, 3/5, 4/5, 36, 2, 5, 4, 1⟩

example (heavy : Bool) : MTendsto (fun y => generalAtAs dtPhi ((demoDeg 10 36).second y) heavy) (𝓝[≠] 36) (deltaAtAs ⟨dtPhi, Li2.Li2⟩ (demoDeg 10 36) heavy) :=
  C52_limit_partial (demoDeg 10 36) (by norm_num [demoDeg]) (by norm_num [demoDeg]) (by norm_num [demoDeg]) (by norm_num [demoDeg]) (by norm_num [demoDeg])
    (by norm_num [demoDeg]) (by norm_num [demoDeg]) (by norm_num [demoDeg, delF]) (Or.inr (by norm_num [demoDeg])) heavy

example (heavy : Bool) : MTendsto (fun y => generalAtAs dtPhi ((demoDeg 6 100).second y) heavy) (𝓝[≠] 100) (deltaAtAs ⟨dtPhi, Li2.Li2⟩ (demoDeg 6 100) heavy) :=
  C52_limit_partial (demoDeg 6 100) (by norm_num [demoDeg]) (by norm_num [demoDeg]) (by norm_num [demoDeg]) (by norm_num [demoDeg]) (by norm_num [demoDeg])
    (by norm_num [demoDeg]) (by norm_num [demoDeg]) (by norm_num [demoDeg, delF]) (Or.inr (by norm_num [demoDeg])) heavy

/-- **C52.** For stop masses that differ by at least `10⁻⁸` of the first, the API returns the general calculation. -/
theorem C52_general (X : Ext) (a : AtAs) (heavy : Bool) (h : 1 / 10 ^ 8 ≤ |(a.T1 - a.T2) / a.T1|) : deltaAtAs X a heavy = generalAtAs X.phi a heavy := by
  unfold deltaAtAs generalAtAs maAtAs
  rw [if_neg (not_lt.2 h), if_neg (not_lt.2 h)]

example : (1 : ℝ) / 10 ^ 8 ≤ |((36 : ℝ) - 35) / 36| := by rw [abs_of_nonneg (by norm_num)]; norm_num

/-- **C52.** The same for the bottom-sbottom correction (`delta_mh2_2loop_ab_as`), where the rôles of the two Higgs doublets are
exchanged. -/
theorem C52_bottom_partial (a : AtAs) (ht : 0 < a.t) (hg : 0 < a.mg) (hT : 0 < a.T1) (hq : 0 < a.q) (htb : 0 < a.tanb) (hv : 0 < a.v2)
    (hsc : a.st ^ 2 + a.ct ^ 2 = 1) (hd : 0 < delF (a.mg ^ 2) a.t a.T1) (hmu : a.mu = 0 ∨ 1 / 2 ^ 52 ≤ |a.mu / a.tanb|) (heavy : Bool) :
    MTendsto (fun y => (⟨(generalAtAs dtPhi (a.second y) heavy).m11, (generalAtAs dtPhi (a.second y) heavy).m01, (generalAtAs dtPhi (a.second y) heavy).m10,
      (generalAtAs dtPhi (a.second y) heavy).m00⟩ : Mat2 ℝ)) (𝓝[≠] a.T1) (deltaAbAs ⟨dtPhi, Li2.Li2⟩ (a.second a.T1) heavy) := by
  obtain ⟨h1, h2, h3, h4⟩ := C52_limit_partial a ht hg hT hq htb hv hsc hd hmu heavy
  exact ⟨h4, h2, h3, h1⟩

/-! ### stop and gluino of equal mass -/

theorem Phi_one_nonneg {u : ℝ} (h0 : 0 < u) (h1 : u ≤ 1) : 0 ≤ TLF.Spec.Phi 1 u := by
  unfold TLF.Spec.Phi
  rw [← intervalIntegral.integral_neg]
  refine intervalIntegral.integral_nonneg zero_le_one fun ξ hξ => ?_
  rw [← neg_div]
  refine div_nonneg ?_ ?_
  · have h2 : log (u / 1) ≤ 0 := log_nonpos (by positivity) (by simpa using h1)
    have h3 : log ξ ≤ 0 := log_nonpos hξ.1 hξ.2
    linarith
  · have : (1 - ξ) * u ≤ 1 := by nlinarith [hξ.1, hξ.2]
    nlinarith [hξ.1, hξ.2, mul_nonneg hξ.1 hξ.1, mul_nonneg hξ.1 h0.le]

theorem Li2_nonpos {x : ℝ} (h : x ≤ 0) : Li2.Li2 x ≤ 0 := by
  unfold Li2.Li2
  rw [intervalIntegral.integral_symm, neg_nonpos]
  apply intervalIntegral.integral_nonneg h
  intro t ht
  show 0 ≤ Li2.kern t
  unfold Li2.kern
  exact div_nonneg_of_nonpos (neg_nonpos.2 (log_nonneg (by linarith [ht.2]))) ht.2

/-- what the closed formula has in the place of the derivative of the two-loop function when the gluino is as heavy as the stops, in units
of the gluino mass (`u = mt²/mg²`, `l = √(4u-u²)`) -/
noncomputable def codeD (u l : ℝ) : ℝ :=
  -(-log u + 2 / (l * ((2 - u - l) / 2)) * ((u + l) / 2 * (log ((l - u) / 2) + log ((u + l) / 2)) + (2 - u - l) / 2 * (log ((2 - u - l) / 2) + log ((2 - u + l) / 2)))) / l
  + u * (π ^ 2 + 6 * log ((l - u) / 2) * log ((2 - u - l) / 2) - 6 * Li2.Li2 ((u - l) / 2) - 6 * Li2.Li2 ((2 - u - l) / 2)) / (3 * l ^ 3)

theorem deg01_equal {t mg q mu tanb v2 gs : ℝ} (ht : 0 < t) (hmg : 0 < mg) (h2 : t ≤ mg ^ 2 / 2) :
    (atAsDegenerate Li2.Li2 t mg (mg ^ 2) q mu tanb v2 gs).m01 =
      gs ^ 2 * (2 / v2 * t / sin (arctan tanb) ^ 2) * mg * t * mu / (8 * π ^ 4 * mg ^ 2) * (-1 + log (t / q) - codeD (t / mg ^ 2) (√(4 * (t / mg ^ 2) - (t / mg ^ 2) ^ 2))) := by
  have hg : 0 < mg ^ 2 := by positivity
  obtain ⟨u, hu⟩ : ∃ u, u = t / mg ^ 2 := ⟨_, rfl⟩
  have hu0 : 0 < u := by rw [hu]; positivity
  have hu1 : u ≤ 1 / 2 := by rw [hu, div_le_iff₀ hg]; linarith
  have et : t = u * mg ^ 2 := by rw [hu]; field_simp
  have hl2 : 0 < 4 * u - u ^ 2 := by nlinarith
  obtain ⟨l, hl⟩ : ∃ l, l = √(4 * u - u ^ 2) := ⟨_, rfl⟩
  have l0 : 0 < l := by rw [hl]; exact sqrt_pos.2 hl2
  have hlsq : l ^ 2 = 4 * u - u ^ 2 := by rw [hl, sq_sqrt hl2.le]
  have hdel : ((mg ^ 2) ^ 2 + t ^ 2 + (mg ^ 2) ^ 2 - 2 * (mg ^ 2 * t + mg ^ 2 * mg ^ 2 + t * mg ^ 2)) = -(l ^ 2) * (mg ^ 2) ^ 2 := by
    rw [et, hlsq]; ring
  have hr : sqrtabs (-(l ^ 2) * (mg ^ 2) ^ 2 / (mg ^ 2) ^ 2) = l := by
    rw [mul_div_cancel_right₀ _ (by positivity)]; unfold sqrtabs; rw [abs_neg, abs_of_nonneg (by positivity), sqrt_sq l0.le]
  have hp : pow15 (-(l ^ 2) * (mg ^ 2) ^ 2 / (mg ^ 2) ^ 2) = l ^ 3 := by
    rw [mul_div_cancel_right₀ _ (by positivity), ← pow15_sq l0]; unfold pow15; rw [abs_neg]
  rw [← hu, ← hl]
  dsimp only [atAsDegenerate]
  rw [hdel, hr, hp]
  simp only [logabs_eq]
  have hg0 := hg.ne'
  have h2g : 2 * mg ^ 2 ≠ 0 := by positivity
  have a1 : mg ^ 2 + t - mg ^ 2 - mg ^ 2 * l = (u - l) / 2 * (2 * mg ^ 2) := by rw [et]; ring
  have a2 : mg ^ 2 - t + mg ^ 2 - mg ^ 2 * l = (2 - u - l) / 2 * (2 * mg ^ 2) := by rw [et]; ring
  have a3 : mg ^ 2 + t - mg ^ 2 + mg ^ 2 * l = (u + l) / 2 * (2 * mg ^ 2) := by rw [et]; ring
  have a4 : mg ^ 2 - t + mg ^ 2 + mg ^ 2 * l = (2 - u + l) / 2 * (2 * mg ^ 2) := by rw [et]; ring
  have a5 : t - mg ^ 2 + mg ^ 2 * (-1 + l) = -((2 - u - l) / 2 * (2 * mg ^ 2)) := by rw [et]; ring
  have a7 : mg ^ 2 + t - mg ^ 2 = u * mg ^ 2 := by rw [et]; ring
  have l1 : log (mg ^ 2 / mg ^ 2) = 0 := by rw [div_self hg0, log_one]
  have l2 : log ((u - l) / 2) = log ((l - u) / 2) := by rw [← log_neg_eq_log]; congr 1; ring
  simp only [a1, a2, a3, a4, a5, mul_div_cancel_right₀ _ h2g, l1, l2]
  simp only [a7, ← hu]
  unfold codeD
  have hM : (2 - u - l) / 2 ≠ 0 := by
    intro h
    have : l = 2 - u := by linarith
    rw [this] at hlsq; nlinarith
  generalize log ((l - u) / 2) = b1, log ((2 - u - l) / 2) = b2, log ((u + l) / 2) = b3, log ((2 - u + l) / 2) = b4, log u = b5, Li2.Li2 ((u - l) / 2) = c1,
    Li2.Li2 ((2 - u - l) / 2) = c2, log (t / q) = c3, sin (arctan tanb) ^ 2 = sb, 2 / v2 = r
  have hpi : π ≠ 0 := pi_ne_zero
  have hl0 := l0.ne'
  have hm0 := hmg.ne'
  generalize hMM : (2 - u - l) / 2 = M at *
  clear * - hpi hl0 hm0 hM hg0
  generalize π = p at *
  generalize (u + l) / 2 = N
  field_simp
  ring

theorem codeD_ge {u l : ℝ} (h0 : 0 < u) (h1 : u ≤ 1 / 2) (hl : 0 < l) (hlsq : l ^ 2 = 4 * u - u ^ 2) : -(log u) / 2 ≤ codeD u l := by
  have hlu : u < l := by nlinarith
  have hM : 0 < (2 - u - l) / 2 := by
    have : l < 2 - u := by
      by_contra h; push Not at h; nlinarith
    linarith
  have hM1 : (2 - u - l) / 2 < 1 := by linarith
  have hP : 0 < (l - u) / 2 := by linarith
  have hP1 : (l - u) / 2 ≤ 1 := by linarith
  have hlogu : log u ≤ 0 := log_nonpos h0.le (by linarith)
  have e1 : log ((l - u) / 2) + log ((u + l) / 2) ≤ log u := by
    rw [← log_mul hP.ne' (by positivity)]
    refine log_le_log (by positivity) ?_
    nlinarith
  have e2 : log ((2 - u - l) / 2) + log ((2 - u + l) / 2) ≤ 0 := by
    rw [← log_mul hM.ne' (by linarith)]
    refine log_nonpos (mul_nonneg hM.le (by linarith)) ?_
    nlinarith
  have hY : 0 ≤ π ^ 2 + 6 * log ((l - u) / 2) * log ((2 - u - l) / 2) - 6 * Li2.Li2 ((u - l) / 2) - 6 * Li2.Li2 ((2 - u - l) / 2) := by
    have a := TLF.Phi.Li2_le hM hM1
    have b := Li2_nonpos (x := (u - l) / 2) (by linarith)
    have c := mul_nonneg_of_nonpos_of_nonpos (log_nonpos hP.le hP1) (log_nonpos hM.le hM1.le)
    linarith
  have hY2 : 0 ≤ u * (π ^ 2 + 6 * log ((l - u) / 2) * log ((2 - u - l) / 2) - 6 * Li2.Li2 ((u - l) / 2) - 6 * Li2.Li2 ((2 - u - l) / 2)) / (3 * l ^ 3) := by
    positivity
  unfold codeD
  refine le_trans ?_ (le_add_of_nonneg_right hY2)
  generalize hMM : (2 - u - l) / 2 = M at *
  generalize log ((l - u) / 2) + log ((u + l) / 2) = A at *
  generalize log M + log ((2 - u + l) / 2) = B at *
  have hX : 2 / (l * M) * ((u + l) / 2 * A + M * B) ≤ 2 / (l * M) * ((u + l) / 2 * log u) := by
    refine mul_le_mul_of_nonneg_left ?_ (by positivity)
    have := mul_le_mul_of_nonneg_left e1 (show 0 ≤ (u + l) / 2 by linarith)
    have := mul_nonpos_of_nonneg_of_nonpos hM.le e2
    linarith
  have hk : 1 + l / 2 ≤ (u + l) / (l * M) := by
    rw [le_div_iff₀ (by positivity)]
    have : M = (2 - u - l) / 2 := hMM.symm
    rw [this]; nlinarith [mul_pos hl hl, mul_pos hl h0, mul_pos (mul_pos hl hl) hl]
  rw [le_div_iff₀ hl]
  have e : 2 / (l * M) * ((u + l) / 2 * log u) = (u + l) / (l * M) * log u := by field_simp
  rw [e] at hX
  have := mul_le_mul_of_nonpos_right hk hlogu
  nlinarith

/-- **C52.** Where it fails: the gluino is as heavy as the two stops (and `2 mt² ≤ mg²`).  The calculation with different stop masses
has a limit `L` for the off-diagonal element, but the value returned for equal masses is off by at least `3/4 log(mg²/mt²)` times the
overall factor of the correction, for every scale, `μ`, `tan β`, vev and coupling. -/
theorem C52_wrong_stop_eq_gluino (a : AtAs) (ht : 0 < a.t) (hg : 0 < a.mg) (hT : a.T1 = a.mg ^ 2) (h2 : a.t ≤ a.mg ^ 2 / 2) (hq : 0 < a.q) (htb : 0 < a.tanb)
    (hv : 0 < a.v2) (hsc : a.st ^ 2 + a.ct ^ 2 = 1) :
    ∃ L δ : ℝ, Tendsto (fun y => (generalAtAs dtPhi (a.second y) false).m01) (𝓝[≠] a.T1) (𝓝 L) ∧
      (deltaAtAs ⟨dtPhi, Li2.Li2⟩ (a.second a.T1) false).m01 = L - a.gs ^ 2 * (2 / a.v2 * a.t / sin (arctan a.tanb) ^ 2) * a.t * a.mu / (8 * π ^ 4 * a.mg) * δ ∧
      3 / 4 * log (a.mg ^ 2 / a.t) ≤ δ := by
  have hg2 : 0 < a.mg ^ 2 := by positivity
  have hT0 : 0 < a.T1 := hT ▸ hg2
  obtain ⟨u, hu⟩ : ∃ u, u = a.t / a.mg ^ 2 := ⟨_, rfl⟩
  have hu0 : 0 < u := by rw [hu]; positivity
  have hu1 : u ≤ 1 / 2 := by rw [hu, div_le_iff₀ hg2]; linarith
  have et : a.t = u * a.mg ^ 2 := by rw [hu]; field_simp
  have hdeq : delF (a.mg ^ 2) a.t (a.mg ^ 2) = -(a.mg ^ 2) ^ 2 * (u * (4 - u)) := by rw [et]; unfold delF; ring
  have hd : delF (a.mg ^ 2) a.t (a.mg ^ 2) < 0 := by
    rw [hdeq, neg_mul]
    have : 0 < u * (4 - u) := mul_pos hu0 (by linarith)
    have := mul_pos (pow_pos hg2 2) this
    linarith
  have k := even_general a ht hg hT0 hq (by rw [hT]; exact hd.ne) htb hv hsc
  have kr := (MTendsto.madd k (rot_lim (tanb := a.tanb) (tendsto_const_nhds (x := (0:ℝ))))).2.1
  refine ⟨_, codeD u (√(4 * u - u ^ 2)) - a.mg ^ 2 * deRHS a.t (a.mg ^ 2) (a.mg ^ 2) (dtPhi a.t (a.mg ^ 2) (a.mg ^ 2)), kr, ?_, ?_⟩
  · have h0 : |((a.second a.T1).T1 - (a.second a.T1).T2) / (a.second a.T1).T1| < 1 / 10 ^ 8 := by
      have : (a.second a.T1).T1 - (a.second a.T1).T2 = 0 := sub_self a.T1
      rw [this]; norm_num
    unfold deltaAtAs
    rw [if_pos h0]
    show (atAsDegenerate Li2.Li2 a.t a.mg a.T1 a.q a.mu a.tanb a.v2 a.gs).m01 + (rotateBy (if false = true then _ else 0) a.tanb).m01 = _
    rw [hT, deg01_equal ht hg h2, ← hu]
    simp only [Bool.false_eq_true, if_false]
    show _ = (4 * a.gs ^ 2 / (16 * π ^ 2) ^ 2 * (2 / a.v2 * a.t / sin (arctan a.tanb) ^ 2 * a.t * a.mu * _) + (rotateBy 0 a.tanb).m01) - _
    generalize (rotateBy 0 a.tanb).m01 = R, deRHS a.t (a.mg ^ 2) (a.mg ^ 2) (dtPhi a.t (a.mg ^ 2) (a.mg ^ 2)) = D, codeD u (√(4 * u - u ^ 2)) = C, log (a.t / a.q) = Lq
    generalize 2 / a.v2 * a.t / sin (arctan a.tanb) ^ 2 = r
    have hpi : π ≠ 0 := pi_ne_zero
    have hm := hg.ne'
    field_simp
    ring
  · have hl2 : 0 < 4 * u - u ^ 2 := by nlinarith
    have c1 := codeD_ge hu0 hu1 (sqrt_pos.2 hl2) (sq_sqrt hl2.le)
    have hphi : 0 ≤ dtPhi a.t (a.mg ^ 2) (a.mg ^ 2) := by
      rw [dtPhi_neg ht hg2 hg2 hd, div_self hg2.ne', ← hu, (Phi_rot zero_lt_one hu0 (by unfold TLF.Spec.lambda2; nlinarith)).2]
      exact Phi_one_nonneg hu0 (by linarith)
    have e : a.mg ^ 2 * deRHS a.t (a.mg ^ 2) (a.mg ^ 2) (dtPhi a.t (a.mg ^ 2) (a.mg ^ 2)) = -(dtPhi a.t (a.mg ^ 2) (a.mg ^ 2) - log u) / (4 - u) := by
      unfold deRHS
      rw [hdeq, div_self hg2.ne', log_one, ← hu]
      generalize dtPhi a.t (a.mg ^ 2) (a.mg ^ 2) = F
      rw [et]
      have := hu0.ne'
      have h4 : 4 - u ≠ 0 := by linarith
      have := hg2.ne'
      generalize log u = L
      generalize a.mg ^ 2 = g at *
      field_simp
      ring
    have e2 : log (a.mg ^ 2 / a.t) = -log u := by rw [hu, ← log_inv, inv_div]
    rw [e, e2]
    have hlogu : log u ≤ 0 := log_nonpos hu0.le (by linarith)
    generalize dtPhi a.t (a.mg ^ 2) (a.mg ^ 2) = F at *
    have : -(F - log u) / (4 - u) ≤ log u / 4 := by
      rw [div_le_iff₀ (by linarith)]
      nlinarith
    linarith

/-- **C52.** ... so for `μ ≠ 0` and a non-zero coupling the value at equal masses is not the limit. -/
theorem C52_not_limit (a : AtAs) (ht : 0 < a.t) (hg : 0 < a.mg) (hT : a.T1 = a.mg ^ 2) (h2 : a.t ≤ a.mg ^ 2 / 2) (hq : 0 < a.q) (htb : 0 < a.tanb)
    (hv : 0 < a.v2) (hsc : a.st ^ 2 + a.ct ^ 2 = 1) (hmu : a.mu ≠ 0) (hgs : a.gs ≠ 0) :
    ¬ MTendsto (fun y => generalAtAs dtPhi (a.second y) false) (𝓝[≠] a.T1) (deltaAtAs ⟨dtPhi, Li2.Li2⟩ (a.second a.T1) false) := by
  intro h
  obtain ⟨L, δ, h1, h3, h4⟩ := C52_wrong_stop_eq_gluino a ht hg hT h2 hq htb hv hsc
  have hL := tendsto_nhds_unique h.2.1 h1
  rw [hL] at h3
  have hlog : 0 < log (a.mg ^ 2 / a.t) := log_pos (by rw [lt_div_iff₀ ht]; nlinarith)
  have hδ : δ ≠ 0 := by intro e; rw [e] at h4; linarith
  have hs : sin (arctan a.tanb) ≠ 0 := by rw [Real.sin_arctan]; positivity
  have : a.gs ^ 2 * (2 / a.v2 * a.t / sin (arctan a.tanb) ^ 2) * a.t * a.mu / (8 * π ^ 4 * a.mg) * δ ≠ 0 := by
    have := pi_ne_zero
    have := ht.ne'; have := hg.ne'; have := hv.ne'
    positivity
  exact this (by linarith)

/-- stops and gluino at 1000 GeV, top at 173 GeV -/
example : ¬ MTendsto (fun y => generalAtAs dtPhi ((⟨173 ^ 2, 1000, 1000 ^ 2, 1000 ^ 2, 3/5, 4/5, 1000 ^ 2, 500, 10, 246 ^ 2, 1⟩ : AtAs).second y) false) (𝓝[≠] (1000 ^ 2))
    (deltaAtAs ⟨dtPhi, Li2.Li2⟩ ⟨173 ^ 2, 1000, 1000 ^ 2, 1000 ^ 2, 3/5, 4/5, 1000 ^ 2, 500, 10, 246 ^ 2, 1⟩ false) :=
  C52_not_limit ⟨173 ^ 2, 1000, 1000 ^ 2, 1000 ^ 2, 3/5, 4/5, 1000 ^ 2, 500, 10, 246 ^ 2, 1⟩ (by norm_num) (by norm_num) (by norm_num) (by norm_num) (by norm_num)
    (by norm_num) (by norm_num) (by norm_num) (by norm_num) (by norm_num)

end Himalaya.TwoLoop
