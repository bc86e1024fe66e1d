import Verif.TwoLoop.Limit

/-!
# C52: the formulas for equal stop masses
-/

set_option linter.unusedSimpArgs false
set_option linter.unusedSectionVars false
set_option linter.unusedVariables false

namespace Himalaya.TwoLoop
open Real Filter Topology

variable {phi : ℝ → ℝ → ℝ → ℝ} {t mg T q : ℝ}

/-! ### the limit of the general routines, for any function obeying the differential equation -/

theorem s2F3_lim (h : NearT phi t mg T q) {s c : ℝ} (hs : s ≠ 0) (hsc : s ^ 2 + c ^ 2 = 1) :
    Tendsto (fun y => strF3 phi t mg T y s c q) (𝓝[≠] T) (𝓝 0) := by
  have hg : mg ≠ 0 := fun e => by have := h.g_pos; rw [e] at this; norm_num at this
  have hdc : ContinuousAt (fun y => delF (mg ^ 2) t y) T := by unfold delF; fun_prop
  have c2 : Tendsto (fun y => 4 * (T - y) / (T * y)) (𝓝[≠] T) (𝓝 0) := by
    have hT' := h.T_pos.ne'
    have : ContinuousAt (fun y => 4 * (T - y) / (T * y)) T := by fun_prop (disch := exact mul_ne_zero hT' hT')
    have := this.tendsto.mono_left (nhdsWithin_le_nhds (s := {T}ᶜ))
    simpa using this
  have key := ((F3n_lim h hsc).add (((((Omega_small h).const_mul 6).add c2).add (F3b_lim h)).const_mul (mg * √t * s))).sub ((Omega_small h).const_mul (4 * mg * √t / s))
  simp only [mul_zero, add_zero, sub_zero] at key
  refine key.congr' ?_
  filter_upwards [self_mem_nhdsWithin, nhdsWithin_le_nhds (lt_mem_nhds h.T_pos), nhdsWithin_le_nhds (hdc.eventually_ne h.del_ne)] with y hy hy0 hdy
  rw [strF3_eq (h.atoms hy0 hy) hg h.t_pos h.q_pos h.del_ne hdy hs]

theorem sF2_lim (h : NearT phi t mg T q) {s c : ℝ} (hs : s ≠ 0) :
    Tendsto (fun y => s * strF2 phi t mg T y s c q) (𝓝[≠] T) (𝓝 (-8 * mg * √t * (1 / T - log (t / q) / T + deRHS t T (mg ^ 2) (phi t T (mg ^ 2))))) := by
  have hg : mg ≠ 0 := fun e => by have := h.g_pos; rw [e] at this; norm_num at this
  have key := (((F2n_lim h s c).add ((F2b_lim h).const_mul (mg / √t * s))).const_mul s).add (F2s_lim h)
  simp only [mul_zero, add_zero, zero_add] at key
  refine key.congr' ?_
  filter_upwards [self_mem_nhdsWithin, nhdsWithin_le_nhds (lt_mem_nhds h.T_pos)] with y hy hy0
  rw [strF2_eq (h.atoms hy0 hy) hg h.t_pos h.q_pos hs]
  field_simp

/-- `F1` at equal masses does not depend on the mixing angle -/
theorem F1_angle {s c : ℝ} (hsc : s ^ 2 + c ^ 2 = 1) (hT : T ≠ 0) : strF1 phi t mg T T s c q = strF1 phi t mg T T 0 1 q := by
  unfold strF1 strF1ab strF1c
  have hs : s ^ 2 = 1 - c ^ 2 := by linarith
  rw [hs]
  dsimp only
  have : log (T / T) = 0 := by rw [div_self hT, log_one]
  rw [this]
  generalize delF (mg ^ 2) t T = D, phi t T (mg ^ 2) = F, log (T / q) = L, √t = m
  field_simp
  ring

/-- the matrix elements as the stop masses become equal -/
theorem even_lim (h : NearT phi t mg T q) {s c mu A0 ht k : ℝ} (hsc : s ^ 2 + c ^ 2 = 1) (hA0 : A0 = 0 → mu = 0) :
    let E := fun y => dszElements phi t mg T y s c q mu ((T - y) * s / 2 / √t + A0) ht k
    let K := -8 * mg * √t * (1 / T - log (t / q) / T + deRHS t T (mg ^ 2) (phi t T (mg ^ 2)))
    Tendsto (fun y => (E y).S11) (𝓝[≠] T) (𝓝 0) ∧
    Tendsto (fun y => (E y).S12) (𝓝[≠] T) (𝓝 (k * (ht ^ 2 * √t * mu * K))) ∧
    Tendsto (fun y => (E y).S22) (𝓝[≠] T) (𝓝 (k * (2 * ht ^ 2 * √t ^ 2 * strF1 phi t mg T T 0 1 q + 2 * ht ^ 2 * √t * A0 * K))) := by
  intro E K
  have hF1 := F1_lim h s c
  rw [F1_angle hsc h.T_pos.ne'] at hF1
  have hm : √t ≠ 0 := (sqrt_pos.2 h.t_pos).ne'
  by_cases hs : s = 0
  · subst hs
    have hF2 := F2s_lim h
    by_cases hA : A0 = 0
    · have e : ∀ y, E y = ⟨k * 0, k * 0, k * (2 * ht ^ 2 * √t ^ 2 * strF1 phi t mg T y 0 c q)⟩ := by
        intro y; simp only [E, dszElements, hA]; simp
      simp only [e, hA, hA0 hA, mul_zero, zero_mul, add_zero]
      refine ⟨tendsto_const_nhds, tendsto_const_nhds, ?_⟩
      exact (hF1.const_mul _).const_mul _
    · have e : ∀ y, E y = ⟨k * 0, k * (ht ^ 2 * √t * mu * F2_s phi t mg T y q), k * (2 * ht ^ 2 * √t ^ 2 * strF1 phi t mg T y 0 c q + 2 * ht ^ 2 * √t * A0 * F2_s phi t mg T y q)⟩ := by
        intro y; simp only [E, dszElements, mul_zero, zero_div, zero_add, ne_eq, not_true_eq_false, false_and, if_false, hA, and_false, not_false_eq_true, and_true, if_true]
      simp only [e, mul_zero]
      exact ⟨tendsto_const_nhds, (hF2.const_mul _).const_mul _, ((hF1.const_mul _).add (hF2.const_mul _)).const_mul _⟩
  · have hA : Tendsto (fun y => (T - y) * s / 2 / √t + A0) (𝓝[≠] T) (𝓝 A0) := by
      have : ContinuousAt (fun y => (T - y) * s / 2 / √t + A0) T := by fun_prop (disch := assumption)
      have := this.tendsto.mono_left (nhdsWithin_le_nhds (s := {T}ᶜ))
      simpa using this
    have hne : ∀ᶠ y in 𝓝[≠] T, (T - y) * s / 2 / √t + A0 ≠ 0 := by
      by_cases hA' : A0 = 0
      · filter_upwards [self_mem_nhdsWithin] with y hy
        rw [hA', add_zero]
        have : T - y ≠ 0 := sub_ne_zero.2 (Ne.symm hy)
        positivity
      · exact hA.eventually_ne hA'
    have h3 := s2F3_lim h hs hsc
    have h2 := sF2_lim h (c := c) hs
    have a3 := sF3A_lim h
    have a2 := sF2A_lim h
    have e : ∀ᶠ y in 𝓝[≠] T, E y = ⟨k * (1/2 * ht ^ 2 * mu ^ 2 * s ^ 2 * strF3 phi t mg T y s c q),
        k * (1/2 * ht ^ 2 * mu * s ^ 2 * (((T - y) * s / 2 / √t + A0) * strF3 phi t mg T y s c q + sF3_A mg T y q) + ht ^ 2 * √t * mu * (s * strF2 phi t mg T y s c q)),
        k * (1/2 * ht ^ 2 * s ^ 2 * (((T - y) * s / 2 / √t + A0) * (((T - y) * s / 2 / √t + A0) * strF3 phi t mg T y s c q + 2 * sF3_A mg T y q))
          + 2 * ht ^ 2 * √t * (((T - y) * s / 2 / √t + A0) * (s * strF2 phi t mg T y s c q) + s * sF2_A mg T y q)
       + 2 * ht ^ 2 * √t ^ 2 * strF1 phi t mg T y s c q)⟩ := by
      filter_upwards [hne] with y hy
      simp only [E, dszElements, ne_eq, hs, hy, not_false_eq_true, and_true, if_true]
      have f3 : ((T - y) * s / 2 / √t + A0) * sF3 mg T y q ((T - y) * s / 2 / √t + A0) = sF3_A mg T y q := by
        unfold sF3 sF3_A; rw [← mul_assoc, mul_div_cancel₀ _ hy]
      have f2 : ((T - y) * s / 2 / √t + A0) * sF2 mg T y q ((T - y) * s / 2 / √t + A0) = sF2_A mg T y q := by
        unfold sF2 sF2_A; rw [← mul_assoc, ← mul_assoc, mul_div_cancel₀ _ hy]
      rw [← f3, ← f2]
      congr 1 <;> ring
    have key1 := (h3.const_mul (1/2 * ht ^ 2 * mu ^ 2 * s ^ 2)).const_mul k
    have key2 := ((((hA.mul h3).add a3).const_mul (1/2 * ht ^ 2 * mu * s ^ 2)).add (h2.const_mul (ht ^ 2 * √t * mu))).const_mul k
    have key3 := ((((hA.mul ((hA.mul h3).add (a3.const_mul 2))).const_mul (1/2 * ht ^ 2 * s ^ 2)).add (((hA.mul h2).add (a2.const_mul s)).const_mul (2 * ht ^ 2 * √t))).add
      (hF1.const_mul (2 * ht ^ 2 * √t ^ 2))).const_mul k
    refine ⟨?_, ?_, ?_⟩
    · rw [show (0:ℝ) = k * (1 / 2 * ht ^ 2 * mu ^ 2 * s ^ 2 * 0) by ring]
      refine Tendsto.congr' (e.mono fun y hy => ?_) key1
      show _ = (E y).S11
      rw [hy]
    · rw [show k * (ht ^ 2 * √t * mu * K) = k * (1 / 2 * ht ^ 2 * mu * s ^ 2 * (A0 * 0 + 0) + ht ^ 2 * √t * mu * K) by ring]
      refine Tendsto.congr' (e.mono fun y hy => ?_) key2
      show _ = (E y).S12
      rw [hy]
    · have e3 : k * (2 * ht ^ 2 * √t ^ 2 * strF1 phi t mg T T 0 1 q + 2 * ht ^ 2 * √t * A0 * K) =
        k * (1/2 * ht ^ 2 * s ^ 2 * (A0 * (A0 * 0 + 2 * 0)) + 2 * ht ^ 2 * √t * (A0 * K + s * 0) + 2 * ht ^ 2 * √t ^ 2 * strF1 phi t mg T T 0 1 q) := by ring
      rw [e3]
      refine Tendsto.congr' (e.mono fun y hy => ?_) key3
      show _ = (E y).S22
      rw [hy]

/-- `AtAs` with the second stop mass moved -/
def AtAs.second (a : AtAs) (y : ℝ) : AtAs := { a with T2 := y }

/-- the CP-odd routine as the stop masses become equal -/
theorem odd_lim (a : AtAs) (h : NearT phi a.t a.mg a.T1 a.q) (htb : 0 < a.tanb) (hv : 0 < a.v2) :
    Tendsto (fun y => dszoddF phi (a.second y)) (𝓝[≠] a.T1)
      (𝓝 (if a.mu = 0 then 0 else
        4 * a.gs ^ 2 / (16 * π ^ 2) ^ 2 * ((√(2 / a.v2) * √a.t / sin (arctan a.tanb)) ^ 2 * a.mu * (-(a.mu / a.tanb)) / sin (arctan a.tanb) / cos (arctan a.tanb)
          * FAlim a.t (a.mg ^ 2) a.mg (-(a.mu / a.tanb)) a.q a.T1 (phi a.t a.T1 (a.mg ^ 2)) (deRHS a.t a.T1 (a.mg ^ 2) (phi a.t a.T1 (a.mg ^ 2)))))) := by
  have hm : √a.t ≠ 0 := (sqrt_pos.2 h.t_pos).ne'
  by_cases hmu : a.mu = 0
  · rw [if_pos hmu]
    have : ∀ y, dszoddF phi (a.second y) = 0 := by intro y; simp [dszoddF, AtAs.second, hmu]
    simp only [this]; exact tendsto_const_nhds
  · rw [if_neg hmu]
    have hg : a.mg ≠ 0 := fun e => by have := h.g_pos; rw [e] at this; norm_num at this
    have hA0 : -(a.mu / a.tanb) ≠ 0 := neg_ne_zero.2 (div_ne_zero hmu htb.ne')
    have hA : Tendsto (fun y => (a.T1 - y) * (2 * a.ct * a.st) / 2 / √a.t - a.mu / a.tanb) (𝓝[≠] a.T1) (𝓝 (-(a.mu / a.tanb))) := by
      have : ContinuousAt (fun y => (a.T1 - y) * (2 * a.ct * a.st) / 2 / √a.t - a.mu / a.tanb) a.T1 := by fun_prop (disch := assumption)
      have := this.tendsto.mono_left (nhdsWithin_le_nhds (s := {a.T1}ᶜ))
      simpa using this
    have key := (((hA.const_mul ((√(2 / a.v2) * √a.t / sin (arctan a.tanb)) ^ 2 * a.mu)).div_const (sin (arctan a.tanb))).div_const (cos (arctan a.tanb))).mul
      ((FAn_lim h (2 * a.ct * a.st) hA hA0).add ((Omega_small h).const_mul (a.mg * √a.t * (2 * a.ct * a.st)))) |>.const_mul (4 * a.gs ^ 2 / (16 * π ^ 2) ^ 2)
    simp only [mul_zero, add_zero] at key
    refine Tendsto.congr' ?_ key
    filter_upwards [self_mem_nhdsWithin, nhdsWithin_le_nhds (lt_mem_nhds h.T_pos), hA.eventually_ne hA0] with y hy hy0 hAy
    rw [← strFA_eq (h.atoms hy0 hy) hg h.t_pos h.q_pos hAy]
    simp only [dszoddF, AtAs.second, ne_eq, hAy, not_false_eq_true, if_true]
    ring

/-! ### the C++ formulas below threshold -/

/-- the roots used by the closed forms, in units of the gluino mass -/
theorem roots_deg {t g T : ℝ} (ht : 0 < t) (hg : 0 < g) (hT : 0 < T) (hd : 0 < delF g t T) :
    ∃ P M : ℝ, P ≠ 0 ∧ M ≠ 0 ∧ 1 - P ≠ 0 ∧ 1 - M ≠ 0 ∧ 0 < 1 - P - M ∧ t = P * (1 - M) * g ∧ T = M * (1 - P) * g ∧ delF g t T = (g * (1 - P - M)) ^ 2
      ∧ sqrtabs (delF g t T) = g * (1 - P - M) ∧ sqrtabs (delF g t T / g ^ 2) = 1 - P - M ∧ pow15 (delF g t T) = (g * (1 - P - M)) ^ 3
      ∧ pow15 (delF g t T / g ^ 2) = (1 - P - M) ^ 3
      ∧ dtPhi t T g = (2 * log P * log M - (log P + log (1 - M)) * (log M + log (1 - P)) - 2 * (Li2.Li2 P + Li2.Li2 M) + π ^ 2 / 3) / (1 - P - M)
      ∧ log (t / g) = log P + log (1 - M) ∧ log (T / g) = log M + log (1 - P) := by
  have hl := lambda_pos hg hd
  have hphi := dtPhi_pos ht hT hg hd
  have hdel := delF_eq t T g hg.ne'
  obtain ⟨u, hu⟩ : ∃ u, u = t / g := ⟨_, rfl⟩
  obtain ⟨v, hv⟩ : ∃ v, v = T / g := ⟨_, rfl⟩
  have hu0 : 0 < u := by rw [hu]; positivity
  have hv0 : 0 < v := by rw [hv]; positivity
  have hg0 := hg.ne'
  have et : t = u * g := by rw [hu]; field_simp
  have eT : T = v * g := by rw [hv]; field_simp
  rw [← hu, ← hv] at hl hphi hdel
  have hsq : √(TLF.Spec.lambda2 u v) ^ 2 = (1 - u - v) ^ 2 - 4 * u * v := by rw [sq_sqrt hl.le]; rfl
  have l0 : 0 < √(TLF.Spec.lambda2 u v) := sqrt_pos.2 hl
  have hlam : TLF.Spec.lambda2 u v = √(TLF.Spec.lambda2 u v) ^ 2 := (sq_sqrt hl.le).symm
  obtain ⟨P, hP⟩ : ∃ P, P = (1 + (u - v) - √(TLF.Spec.lambda2 u v)) / 2 := ⟨_, rfl⟩
  obtain ⟨M, hM⟩ : ∃ M, M = (1 - (u - v) - √(TLF.Spec.lambda2 u v)) / 2 := ⟨_, rfl⟩
  have ePM : 1 - P - M = √(TLF.Spec.lambda2 u v) := by rw [hP, hM]; ring
  have eu : P * (1 - M) = u := by rw [hP, hM]; linear_combination (-1 / 4) * hsq
  have ev : M * (1 - P) = v := by rw [hP, hM]; linear_combination (-1 / 4) * hsq
  have P0 : P ≠ 0 := fun h => by rw [h, zero_mul] at eu; exact hu0.ne eu
  have M1 : M ≠ 1 := fun h => by rw [h, sub_self, mul_zero] at eu; exact hu0.ne eu
  have M0 : M ≠ 0 := fun h => by rw [h, zero_mul] at ev; exact hv0.ne ev
  have P1 : P ≠ 1 := fun h => by rw [h, sub_self, mul_zero] at ev; exact hv0.ne ev
  have P1' : 1 - P ≠ 0 := sub_ne_zero.2 P1.symm
  have M1' : 1 - M ≠ 0 := sub_ne_zero.2 M1.symm
  have hD : delF g t T = (g * (1 - P - M)) ^ 2 := by rw [hdel, ePM, mul_pow, ← hlam]
  have hD2 : delF g t T / g ^ 2 = (1 - P - M) ^ 2 := by rw [hD]; field_simp
  have hpos : 0 < 1 - P - M := by rw [ePM]; exact l0
  refine ⟨P, M, P0, M0, P1', M1', hpos, by rw [eu, et], by rw [ev, eT], hD, ?_, ?_, ?_, ?_, ?_, ?_, ?_⟩
  · rw [hD]; unfold sqrtabs; rw [abs_of_nonneg (by positivity), sqrt_sq (by positivity)]
  · rw [hD2]; unfold sqrtabs; rw [abs_of_nonneg (by positivity), sqrt_sq hpos.le]
  · rw [hD, pow15_sq (by positivity)]
  · rw [hD2, pow15_sq hpos]
  · rw [hphi]
    show (2 * log ((1 + (u - v) - √(TLF.Spec.lambda2 u v)) / 2) * log ((1 - (u - v) - √(TLF.Spec.lambda2 u v)) / 2) - log u * log v
      - 2 * (Li2.Li2 ((1 + (u - v) - √(TLF.Spec.lambda2 u v)) / 2) + Li2.Li2 ((1 - (u - v) - √(TLF.Spec.lambda2 u v)) / 2)) + π ^ 2 / 3) / √(TLF.Spec.lambda2 u v) = _
    rw [← hP, ← hM, ← ePM, ← log_mul P0 M1', ← log_mul M0 P1', eu, ev]
  · rw [← hu, ← eu, log_mul P0 M1']
  · rw [← hv, ← ev, log_mul M0 P1']

theorem deg01 {t mg T q mu tanb v2 gs : ℝ} (ht : 0 < t) (hmg : 0 < mg ^ 2) (hT : 0 < T) (hd : 0 < delF (mg ^ 2) t T) :
    (atAsDegenerate Li2.Li2 t mg T q mu tanb v2 gs).m01 =
      4 * gs ^ 2 / (16 * π ^ 2) ^ 2 * ((2 / v2 * t / sin (arctan tanb) ^ 2) * t * mu * (-8 * mg * (1 / T - log (t / q) / T + deRHS t T (mg ^ 2) (dtPhi t T (mg ^ 2))))) := by
  obtain ⟨P, M, P0, M0, P1, M1, hl, et, eT, e1, e2, e3, e4, e5, e6, e7, e8⟩ := roots_deg ht hmg hT hd
  unfold deRHS
  show gs ^ 2 * (2 / v2 * t / sin (arctan tanb) ^ 2) * mg * t * mu * (-1 + _ - T * ((2 * (delF (mg ^ 2) t T) * _) / (mg ^ 2) ^ 2 + _) / (2 * pow15 (delF (mg ^ 2) t T / (mg ^ 2) ^ 2))) / (8 * (π * π * π * π) * T) = _
  simp only [logabs_eq]
  have hdd : (mg ^ 2) ^ 2 + t ^ 2 + T ^ 2 - 2 * ((mg ^ 2) * t + (mg ^ 2) * T + t * T) = delF (mg ^ 2) t T := rfl
  simp only [hdd]
  have hg0 := hmg.ne'
  have hl0 := hl.ne'
  have h2g : 2 * mg ^ 2 ≠ 0 := mul_ne_zero two_ne_zero hg0
  have a1 : (mg ^ 2 + t - T - mg ^ 2 * (1 - P - M)) = P * (2 * mg ^ 2) := by rw [et, eT]; ring
  have a2 : (mg ^ 2 - t + T - mg ^ 2 * (1 - P - M)) = M * (2 * mg ^ 2) := by rw [et, eT]; ring
  have a3 : (mg ^ 2 + t - T + mg ^ 2 * (1 - P - M)) = (1 - M) * (2 * mg ^ 2) := by rw [et, eT]; ring
  have a4 : (mg ^ 2 - t + T + mg ^ 2 * (1 - P - M)) = (1 - P) * (2 * mg ^ 2) := by rw [et, eT]; ring
  have a5 : t - T + mg ^ 2 * (-1 + (1 - P - M)) = -(M * (2 * mg ^ 2)) := by rw [et, eT]; ring
  have a6 : (t - T) = (P - M) * mg ^ 2 := by rw [et, eT]; ring
  have a7 : mg ^ 2 + t - T = (1 + P - M) * mg ^ 2 := by rw [et, eT]; ring
  have a8 : mg ^ 2 - t - T = (1 - P - M + 2 * P * M) * mg ^ 2 := by rw [et, eT]; ring
  simp only [e3, e5, e6, e7, e8]
  simp only [a1, a2, a3, a4, a5, mul_div_cancel_right₀ _ h2g]
  simp only [a7, a8, e1]
  generalize log P = b1, log M = b2, log (1 - P) = b3, log (1 - M) = b4, Li2.Li2 P = c1, Li2.Li2 M = c2, log (t / q) = c3, sin (arctan tanb) = sb
  generalize t / v2 = r at *
  have hpi : π ≠ 0 := pi_ne_zero
  have hg1 : mg ≠ 0 := by rintro rfl; norm_num at hmg
  clear * - P0 M0 P1 M1 hl0 eT et hpi hg1 hg0
  generalize π = p at *
  subst eT
  clear et
  field_simp
  ring

set_option maxHeartbeats 1000000 in
theorem deg11 {t mg T q mu tanb v2 gs : ℝ} (ht : 0 < t) (hmg : 0 < mg ^ 2) (hT : 0 < T) (hq : 0 < q) (hd : 0 < delF (mg ^ 2) t T) :
    (atAsDegenerate Li2.Li2 t mg T q mu tanb v2 gs).m11 =
      4 * gs ^ 2 / (16 * π ^ 2) ^ 2 * (2 * (2 / v2 * t / sin (arctan tanb) ^ 2) * t * strF1 dtPhi t mg T T 0 1 q
        + 2 * (2 / v2 * t / sin (arctan tanb) ^ 2) * t * (-(mu / tanb)) * (-8 * mg * (1 / T - log (t / q) / T + deRHS t T (mg ^ 2) (dtPhi t T (mg ^ 2))))) := by
  obtain ⟨P, M, P0, M0, P1, M1, hl, et, eT, e1, e2, e3, e4, e5, e6, e7, e8⟩ := roots_deg ht hmg hT hd
  unfold deRHS strF1 strF1ab strF1c
  dsimp only [atAsDegenerate]
  simp only [logabs_eq]
  have hdd : (mg ^ 2) ^ 2 + t ^ 2 + T ^ 2 - 2 * ((mg ^ 2) * t + (mg ^ 2) * T + t * T) = delF (mg ^ 2) t T := rfl
  simp only [hdd]
  have hg0 := hmg.ne'
  have hl0 := hl.ne'
  have hg1 : mg ≠ 0 := by rintro rfl; norm_num at hmg
  have h2g : 2 * mg ^ 2 ≠ 0 := mul_ne_zero two_ne_zero hg0
  have a1 : (mg ^ 2 + t - T - mg ^ 2 * (1 - P - M)) = P * (2 * mg ^ 2) := by rw [et, eT]; ring
  have a2 : (mg ^ 2 - t + T - mg ^ 2 * (1 - P - M)) = M * (2 * mg ^ 2) := by rw [et, eT]; ring
  have a3 : (mg ^ 2 + t - T + mg ^ 2 * (1 - P - M)) = (1 - M) * (2 * mg ^ 2) := by rw [et, eT]; ring
  have a4 : (mg ^ 2 - t + T + mg ^ 2 * (1 - P - M)) = (1 - P) * (2 * mg ^ 2) := by rw [et, eT]; ring
  have a5 : t - T + mg ^ 2 * (-1 + (1 - P - M)) = -(M * (2 * mg ^ 2)) := by rw [et, eT]; ring
  have a5' : -t + T + mg ^ 2 * (-1 + (1 - P - M)) = -(P * (2 * mg ^ 2)) := by rw [et, eT]; ring
  have b1' : -(mg ^ 2 * (1 - P - M)) + mg ^ 2 + t - T = P * (2 * mg ^ 2) := by rw [et, eT]; ring
  have b2' : -(mg ^ 2 * (1 - P - M)) + mg ^ 2 - t + T = M * (2 * mg ^ 2) := by rw [et, eT]; ring
  have b3' : mg ^ 2 * (1 - P - M) + mg ^ 2 + t - T = (1 - M) * (2 * mg ^ 2) := by rw [et, eT]; ring
  have b4' : mg ^ 2 * (1 - P - M) - mg ^ 2 - t + T = -(P * (2 * mg ^ 2)) := by rw [et, eT]; ring
  have b5' : mg ^ 2 * (1 - P - M) - mg ^ 2 + t - T = -(M * (2 * mg ^ 2)) := by rw [et, eT]; ring
  have a7 : mg ^ 2 + t - T = (1 + P - M) * mg ^ 2 := by rw [et, eT]; ring
  have a8 : mg ^ 2 - t - T = (1 - P - M + 2 * P * M) * mg ^ 2 := by rw [et, eT]; ring
  have l1 : log (P * (2 * mg ^ 2) / mg ^ 2) = log 2 + log P := by rw [← log_mul two_ne_zero P0]; congr 1; field_simp
  have l2 : log (M * (2 * mg ^ 2) / mg ^ 2) = log 2 + log M := by rw [← log_mul two_ne_zero M0]; congr 1; field_simp
  have l4 : log 4 = 2 * log 2 := by rw [show (4:ℝ) = 2 ^ 2 by norm_num, log_pow]; norm_num
  have l5 : log (T ^ 2 / t ^ 2) = 2 * (log (T / mg ^ 2) - log (t / mg ^ 2)) := by
    rw [← log_div (by positivity) (by positivity), show T / mg ^ 2 / (t / mg ^ 2) = T / t by field_simp, ← div_pow, log_pow]; norm_num
  have l5' : log (T * T / t ^ 2) = 2 * (log (T / mg ^ 2) - log (t / mg ^ 2)) := by rw [← l5]; congr 2; ring
  have l6 : log (t / q) = log (t / mg ^ 2) + log (mg ^ 2 / q) := by
    rw [← log_mul (by positivity) (by positivity)]; congr 1; field_simp
  have l7 : log (T / q) = log (T / mg ^ 2) + log (mg ^ 2 / q) := by
    rw [← log_mul (by positivity) (by positivity)]; congr 1; field_simp
  have l8 : log (T / T) = 0 := by rw [div_self hT.ne', log_one]
  simp only [l5, l5', l6, l7, l8]
  simp only [e2, e3, e4, e5, e6, e7, e8, l4]
  simp only [a1, a2, a3, a4, a5, a5', b1', b2', b3', b4', b5', mul_div_cancel_right₀ _ h2g, l1, l2]
  simp only [e1]
  generalize log P = b1, log M = b2, log (1 - P) = b3, log (1 - M) = b4, Li2.Li2 P = c1, Li2.Li2 M = c2, log (mg ^ 2 / q) = c3, sin (arctan tanb) = sb, log 2 = d2, √t = mt
  have hpi : π ≠ 0 := pi_ne_zero
  clear * - P0 M0 P1 M1 hl0 eT et hpi hg1 hg0
  generalize π = p at *
  have h0 : T ≠ 0 := by rw [eT]; exact mul_ne_zero (mul_ne_zero M0 P1) hg0
  generalize hg : mg ^ 2 = g at *
  have h0t : t ≠ 0 := by rw [et]; exact mul_ne_zero (mul_ne_zero P0 M1) hg0
  generalize sb ^ 2 = sb2, 2 / v2 = r
  subst eT et
  field_simp
  ring

theorem degA {t mg T q mu tanb v2 gs st ct : ℝ} (ht : 0 < t) (hmg : 0 < mg ^ 2) (hT : 0 < T) (hq : 0 < q) (hd : 0 < delF (mg ^ 2) t T)
    (htb : 0 < tanb) (hmu : mu ≠ 0) :
    maAtAsDegenerate Li2.Li2 t mg T T st ct q mu tanb v2 gs =
      4 * gs ^ 2 / (16 * π ^ 2) ^ 2 * ((2 / v2 * t / sin (arctan tanb) ^ 2) * mu * (-(mu / tanb)) / sin (arctan tanb) / cos (arctan tanb)
          * FAlim t (mg ^ 2) mg (-(mu / tanb)) q T (dtPhi t T (mg ^ 2)) (deRHS t T (mg ^ 2) (dtPhi t T (mg ^ 2)))) := by
  dsimp only [maAtAsDegenerate]
  rw [C52_phi ht hT hmg hd, dphi010_eq ht hmg hT hd]
  have hA : calcAt t T T st ct mu tanb = -(mu / tanb) := by unfold calcAt; simp
  rw [hA]
  have hA0 : -(mu / tanb) ≠ 0 := neg_ne_zero.2 (div_ne_zero hmu htb.ne')
  have hg1 : mg ≠ 0 := by rintro rfl; norm_num at hmg
  have hc : cos (arctan tanb) ≠ 0 := (cos_arctan_pos _).ne'
  have hs : sin (arctan tanb) = tanb * cos (arctan tanb) := by
    rw [← Real.tan_arctan tanb] ; rw [Real.tan_arctan, ← Real.tan_mul_cos hc, Real.tan_arctan]
  have h1 : cos (arctan tanb) ^ 2 * (1 + tanb ^ 2) = 1 := by
    rw [Real.cos_sq_arctan]; field_simp
  simp only [logabs_eq]
  have l6 : log (mg ^ 2 * t / q ^ 2) = log (t / q) + log (mg ^ 2 / q) := by
    rw [← log_mul (by positivity) (by positivity)]; congr 1; field_simp
  have l7 : log (mg ^ 2 / t) = log (mg ^ 2 / q) - log (t / q) := by
    rw [← log_div (by positivity) (by positivity)]; congr 1; field_simp
  rw [l6, l7, hs]
  unfold FAlim delF
  generalize deRHS t T (mg ^ 2) (dtPhi t T (mg ^ 2)) = dF, dtPhi t T (mg ^ 2) = F, log (T / q) = L, log (mg ^ 2 / q) = Lg, log (t / q) = Lt
  generalize cos (arctan tanb) = c at *
  generalize hA1 : -(mu / tanb) = A at *
  have hmu2 : mu = - (A * tanb) := by rw [← hA1]; field_simp
  have htb0 := htb.ne'
  have hT0 := hT.ne'
  have hpi : π ≠ 0 := pi_ne_zero
  clear hA hA1 l6 l7
  have e : 1 / tanb + tanb = 1 / (tanb * c * c) := by
    field_simp
    linear_combination h1
  rw [e]
  clear * - hA0 hg1 hc htb0 hT0 hpi
  generalize 2 / v2 = r, (tanb * c) ^ 2 = u, π = p at *
  field_simp
  ring

end Himalaya.TwoLoop
