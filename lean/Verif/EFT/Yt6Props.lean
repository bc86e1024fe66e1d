import Verif.EFT.Yt6Api
import Verif.Misc.Props
set_option linter.unusedSimpArgs false
set_option linter.unusedVariables false
namespace Himalaya.Scale
open Filter Topology
open Himalaya.Cont
open Yt6

/-- every parameter point lies on a solution of the renormalization group equations -/
theorem exists_top_running (p : Params ℝ) (hs : 0 < p.scale) (h3 : p.g3 = 0) (h : TopMasses p) :
    ∃ (P : ℝ → Params ℝ) (t : ℝ), TopRunning P t ∧ P t = p ∧ ∀ s, TopMasses (P s) := by
  let t := Real.log (p.scale ^ 2)
  let e : ℝ → ℝ → ℝ := fun c s => Real.exp ((s - t) * c)
  let k := at4 p
  let S := massSum p
  let P : ℝ → Params ℝ := fun s =>
    { p with
      scale := Real.exp (s / 2), vu := p.vu * e (-(3 / 2) * k) s, Mt := p.Mt * e (3 / 2 * k) s, mu := p.mu * e (3 / 2 * k) s,
      Au := p.Au.set22 (p.Au 2 2 * e (6 * k) s), mq2 := p.mq2.set22 (p.mq2 2 2 * e (k * S / p.mq2 2 2) s),
      mu2 := p.mu2.set22 (p.mu2 2 2 * e (2 * k * S / p.mu2 2 2) s) }
  have e0 : ∀ c, e c t = 1 := fun c => by simp [e]
  have ep : ∀ c s, 0 < e c s := fun c s => Real.exp_pos _
  have s22 : ∀ m : Mat3 ℝ, m.set22 (m 2 2) = m := fun m => by
    funext i j; unfold Mat3.set22; split_ifs with h
    · rw [h.1, h.2]
    · rfl
  have ht : P t = p := by
    have h1 : Real.exp (t / 2) = p.scale := by
      rw [show t / 2 = Real.log p.scale by simp only [t, Real.log_pow]; push_cast; ring, Real.exp_log hs]
    simp only [P, e0, mul_one, h1, s22]
  have hd : ∀ x c : ℝ, HasDerivAt (fun s => x * e c s) (x * c) t := fun x c => by
    have h1 : HasDerivAt (fun s : ℝ => Real.exp ((s - t) * c)) c t := by
      have := (((hasDerivAt_id t).sub_const t).mul_const c).exp
      simpa using this
    exact h1.const_mul x
  have hq := h.mq.ne'
  have hu := h.mu.ne'
  refine ⟨P, t, ⟨fun s => rfl, fun s => h3, fun s => rfl, fun s => rfl, ?_, ?_, ?_, ?_, ?_, ?_⟩, ht, fun s => ?_⟩
  · rw [ht]; exact (hd p.vu _).congr_deriv (by ring)
  · rw [ht]; exact (hd p.Mt _).congr_deriv (by ring)
  · rw [ht]; exact (hd p.mu _).congr_deriv (by ring)
  · rw [ht]; exact (hd (p.Au 2 2) _).congr_deriv (by ring)
  · rw [ht]; exact (hd (p.mq2 2 2) _).congr_deriv (by simp only [k, S]; field_simp)
  · rw [ht]; exact (hd (p.mu2 2 2) _).congr_deriv (by simp only [k, S]; field_simp)
  · exact ⟨mul_pos h.mq (ep _ _), mul_pos h.mu (ep _ _), h.MA, mul_ne_zero h.mu0 (ep _ _).ne', h.MG,
      mul_ne_zero h.Mt (ep _ _).ne', h.MSt, mul_pos h.vu (ep _ _), h.vd⟩

/-- a point with stop masses 1 and 2, `MA = 2`, `μ = At = 10`, `tan β = 1` -/
noncomputable def topPoint : Params ℝ :=
  { onePoint with
    scale := 1, g3 := 0, mu2 := fun _ _ => 4, MA := 2, mu := 10, Au := fun _ _ => 10, MSt := ⟨1, 2⟩ }

theorem topPoint_masses : TopMasses topPoint := by
  refine ⟨?_, ?_, ?_, ?_, ?_, ?_, ?_, ?_, ?_⟩ <;> norm_num [topPoint, onePoint]

theorem topPoint_general : GeneralMasses topPoint := by
  refine ⟨topPoint_masses, ?_, ?_, ?_, ?_⟩ <;> norm_num [topPoint, onePoint, kallen]

theorem topPoint_shifted : ShiftedMasses topPoint := by
  have e : Misc.isEqualRel (1 : ℝ) 4 (1 / 10) = false := by
    rw [Bool.eq_false_iff, Ne, Misc.C44_is_equal_rel]
    norm_num [abs_of_neg]
  refine ⟨topPoint_masses, ?_, ?_, ?_, ?_, ?_⟩
  · show (Misc.isEqualRel (1 : ℝ) 4 (1 / 10) && _) = false
    rw [e, Bool.false_and]
  all_goals norm_num [topPoint, onePoint, kallen]

theorem topPoint_xt : calcXt topPoint = 0 := by norm_num [calcXt, eftTanBeta, topPoint, onePoint]
theorem topPoint_yt : calcYt topPoint = 20 := by norm_num [calcYt, eftTanBeta, topPoint, onePoint]

/-- the slope for vanishing stop mixing -/
theorem slope_unmixed {p : Params ℝ} (hx : calcXt p = 0) (q u M lq L : ℝ) (hv : 0 < p.vu) : Yt6.slope (argOf p q u M) lq L =
    36 * lq + 18 * L - 60 + (6 * (q + u + p.MA ^ 2 * cosSq p - 2 * M ^ 2 + calcYt p ^ 2 * cosSq p) / q
      + 12 * (q + u + p.MA ^ 2 * cosSq p - 2 * M ^ 2 + calcYt p ^ 2 * cosSq p) / u) / (p.vu ^ 2 / (p.vu ^ 2 + p.vd ^ 2)) := by
  obtain ⟨-, -, c2, s2⟩ := trig_beta (p := p) hv
  unfold Yt6.slope d4 flow1 flowL p4 fS fX argOf
  simp only [hx, Himalaya.pow2, Misc.pow3, Misc.pow2, real_ofNat, ← sq, c2, s2]
  push_cast
  ring

/-- The slope of the code is wrong at this point. -/
theorem topPoint_slopes : slopeCode topPoint < slopeAt topPoint := by
  have hv : 0 < topPoint.vu := topPoint_masses.vu
  have s3 : Real.sqrt (103 / 100) ^ 2 = 103 / 100 := Real.sq_sqrt (by norm_num)
  unfold slopeCode slopeAt argCode argAt
  rw [slope_unmixed topPoint_xt _ _ _ _ _ hv, slope_unmixed topPoint_xt _ _ _ _ _ hv, topPoint_yt, mul_pow, s3]
  have l : Real.log (4 * (98 / 100) / (1 * (102 / 100))) ≤ Real.log 4 := Real.log_le_log (by norm_num) (by norm_num)
  norm_num [topPoint, onePoint, cosSq]
  norm_num at l
  linarith

/-- **C62 (negation).** What the code computes is not independent of the renormalization scale: there are a parameter point and a
solution of the renormalization group equations through it for which the changes of the one- and two-loop corrections of orders
`yt^4` and `yt^6` do not cancel. -/
theorem C62_not_scale_independent (dl : ℝ → ℝ) (phi : ℝ → ℝ → ℝ → ℝ) (rest : TcObj ℝ → ThrOrder → Int → Except String ℝ)
    (fB : ℝ → ℝ → ℝ → ℝ) (msq2 : ℝ) : ∃ (P : ℝ → Params ℝ) (t : ℝ), TopRunning P t ∧ (∀ s, TopMasses (P s)) ∧
    GeneralMasses (P t) ∧ ShiftedMasses (P t) ∧ ∃ (m1 m2 : ℝ → ℝ) (D1 D2 : ℝ),
      (∀ s, EftCalc.loop1 (fun o n => (tc .general (P s) msq2).thr (thrFns3 dl phi rest) o .DRBARPRIME n) fB
        ⟨P s, topOrders⟩ 1 1 = .ok (m1 s)) ∧
      (∀ s, EftCalc.loop2 (fun o n => (tc .general (atScale (P t) s) msq2).thr (thrFns3 dl phi rest) o .DRBARPRIME n)
        ⟨atScale (P t) s, topOrders⟩ 1 1 = .ok (m2 s)) ∧
      HasDerivAt m1 D1 t ∧ HasDerivAt m2 D2 t ∧ D1 + D2 ≠ 0 := by
  obtain ⟨P, t, hP, e, hm⟩ := exists_top_running topPoint (by norm_num [topPoint]) rfl topPoint_masses
  have hg : GeneralMasses (P t) := by rw [e]; exact topPoint_general
  have hs : ShiftedMasses (P t) := by rw [e]; exact topPoint_shifted
  obtain ⟨m1, m2, D, e1, e2, d1, d2⟩ := C62_scale_dependence dl phi rest fB msq2 hP hm hg.qu hs
  refine ⟨P, t, hP, hm, hg, hs, m1, m2, D, _, e1, e2, d1, d2, fun h => ?_⟩
  have h1 : pref6 (P t) * (slopeCode (P t) - slopeAt (P t)) = 0 := by linarith
  rw [e] at h1
  rcases mul_eq_zero.1 h1 with h2 | h2
  · have : 0 < pref6 topPoint := by
      have := Real.pi_pos
      simp only [pref6, topPoint, onePoint]; positivity
    linarith
  · linarith [topPoint_slopes]

/-- The hypotheses of `C62_scale_independence_partial` are met by the same point. -/
example : ∃ (P : ℝ → Params ℝ) (t : ℝ), TopRunning P t ∧ (∀ s, TopMasses (P s)) ∧ GeneralMasses (P t) := by
  obtain ⟨P, t, hP, e, hm⟩ := exists_top_running topPoint (by norm_num [topPoint]) rfl topPoint_masses
  exact ⟨P, t, hP, hm, by rw [e]; exact topPoint_general⟩

end Himalaya.Scale
