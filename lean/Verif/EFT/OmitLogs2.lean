import Verif.EFT.Dep

/-!
# C63: switching off the logarithms, two-loop corrections with bottom and tau Yukawa couplings
-/

set_option linter.unusedSimpArgs false
set_option linter.unusedVariables false

namespace Himalaya.Scale

theorem ytau4yb2_off (c : TcObj ℝ) (Q : ℝ) : (withScale c Q).dLamYtau4Yb2 0 = c.dLamYtau4Yb2 0 := by
  simp only [TcObj.dLamYtau4Yb2, real_ofInt, Int.cast_zero, zero_mul, mul_zero]
  rfl

theorem ytau2yb4_off (c : TcObj ℝ) (Q : ℝ) : (withScale c Q).dLamYtau2Yb4 0 = c.dLamYtau2Yb4 0 := by
  simp only [TcObj.dLamYtau2Yb4, real_ofInt, Int.cast_zero, zero_mul, mul_zero]
  rfl

/-- the stau mass parameters are so different that the general formula is used -/
def StausDiffer (p : Params ℝ) : Prop := 1 / 10 * √(p.me2 2 2) ≤ |√(p.me2 2 2) - √(p.ml2 2 2)|

/-- the sbottom mass parameters are so different that the formula for equal masses is not used -/
def SbottomsDiffer (p : Params ℝ) : Prop := 1 / 100 * √(p.mq2 2 2) ≤ |√(p.md2 2 2) - √(p.mq2 2 2)|

theorem ytau6_off (dl : ℝ → ℝ) (phi : ℝ → ℝ → ℝ → ℝ) {c : TcObj ℝ} (h : StausDiffer c.p) (Q : ℝ) :
    (withScale c Q).dLamYtau6 dl phi 0 = c.dLamYtau6 dl phi 0 := by
  have e : FOps.lt (FOps.abs (FOps.sqrt (c.p.me2 2 2) - FOps.sqrt (c.p.ml2 2 2))) (FOps.lit (1 / 10) * FOps.sqrt (c.p.me2 2 2)) = false := by
    simp only [real_lit, real_sqrt]
    exact decide_eq_false (not_lt.2 (by have := h; unfold StausDiffer at this; push_cast; exact this))
  have e' : FOps.lt (FOps.abs (FOps.sqrt ((withScale c Q).p.me2 2 2) - FOps.sqrt ((withScale c Q).p.ml2 2 2)))
    (FOps.lit (1 / 10) * FOps.sqrt ((withScale c Q).p.me2 2 2)) = false := e
  have e0 : ∀ Q, (FOps.ofInt 0 * FOps.log (Himalaya.pow2 Q) : ℝ) = 0 := fun Q => by simp [real_ofInt]
  unfold TcObj.dLamYtau6
  simp only [e, e', e0, Bool.false_eq_true, if_false]
  rfl

theorem yb4g32_off (dl : ℝ → ℝ) {c : TcObj ℝ} (h : SbottomsDiffer c.p) (Q : ℝ) :
    (withScale c Q).dLamYb4G32 dl 0 = c.dLamYb4G32 dl 0 := by
  have e : FOps.lt (FOps.abs (FOps.sqrt (c.p.md2 2 2) - FOps.sqrt (c.p.mq2 2 2))) (FOps.lit (1 / 100) * FOps.sqrt (c.p.mq2 2 2)) = false := by
    simp only [real_lit, real_sqrt]
    exact decide_eq_false (not_lt.2 (by have := h; unfold SbottomsDiffer at this; push_cast; exact this))
  have e0 : ∀ Q, (FOps.ofInt 0 * FOps.log (Himalaya.pow2 Q) : ℝ) = 0 := fun Q => by simp [real_ofInt]
  have e' : FOps.lt (FOps.abs (FOps.sqrt ((withScale c Q).p.md2 2 2) - FOps.sqrt ((withScale c Q).p.mq2 2 2)))
    (FOps.lit (1 / 100) * FOps.sqrt ((withScale c Q).p.mq2 2 2)) = false := e
  unfold TcObj.dLamYb4G32
  simp only [e, e', e0, Bool.false_eq_true, if_false, sub_zero]
  rfl

/-- **C63 (partial: with the corrections of order `yt^6`, `yb^6`, `yt^2 yb^4` and `yt^4 yb^2` off, and those of order `ytau^6`
(`g3^2 yb^4`) off or the stau (sbottom) mass parameters different).** With both switches for the logarithms off, the two-loop
correction does not depend on the renormalization scale, for any other choice of the coupling orders.  Here all threshold
corrections are those of the code. -/
theorem C63_two_loop_all_partial (dl : ℝ → ℝ) (phi : ℝ → ℝ → ℝ → ℝ) (t : TcObj ℝ) (c : EftCalc ℝ) (Q : ℝ)
    (h6 : c.on .YT6 = false) (hb : c.on .YB6 = false) (h2 : c.on .YT2YB4 = false) (h4 : c.on .YB2YT4 = false)
    (ht : c.on .YTAU6 = false ∨ StausDiffer t.p) (hg : c.on .G32YB4 = false ∨ SbottomsDiffer t.p) :
    (withScaleE c Q).loop2 (thrOf (thrFns4 dl phi) (withScale t Q)) 0 0 = c.loop2 (thrOf (thrFns4 dl phi) t) 0 0 := by
  have h : ∀ o, o ≠ .LAMBDA_YT6 → o ≠ .LAMBDA_YB6 → o ≠ .LAMBDA_YT2_YB4 → o ≠ .LAMBDA_YT4_YB2 → o ≠ .LAMBDA_YTAU6 →
      o ≠ .LAMBDA_YB4_G32 → thrOf (thrFns4 dl phi) (withScale t Q) o 0 = thrOf (thrFns4 dl phi) t o 0 := fun o a1 a2 a3 a4 a5 a6 => by
    refine C63_threshold dl (yt6Fns dl phi (yukFns dl phi)) t Q o _ ?_
    cases o
    case LAMBDA_YTAU4_YB2 => exact congrArg Except.ok (ytau4yb2_off t Q)
    case LAMBDA_YTAU2_YB4 => exact congrArg Except.ok (ytau2yb4_off t Q)
    all_goals first | exact absurd rfl ‹_› | rfl
  have ht' : calcIf (c.on .YTAU6) (thrOf (thrFns4 dl phi) (withScale t Q) .LAMBDA_YTAU6 0) =
      calcIf (c.on .YTAU6) (thrOf (thrFns4 dl phi) t .LAMBDA_YTAU6 0) := by
    rcases ht with ht | ht
    · simp only [calcIf, ht, Bool.false_eq_true, if_false]
    · rw [show thrOf (thrFns4 dl phi) (withScale t Q) .LAMBDA_YTAU6 0 = thrOf (thrFns4 dl phi) t .LAMBDA_YTAU6 0 from
        congrArg Except.ok (ytau6_off dl phi ht Q)]
  have hg' : calcIf (c.on .G32YB4) (thrOf (thrFns4 dl phi) (withScale t Q) .LAMBDA_YB4_G32 0) =
      calcIf (c.on .G32YB4) (thrOf (thrFns4 dl phi) t .LAMBDA_YB4_G32 0) := by
    rcases hg with hg | hg
    · simp only [calcIf, hg, Bool.false_eq_true, if_false]
    · rw [show thrOf (thrFns4 dl phi) (withScale t Q) .LAMBDA_YB4_G32 0 = thrOf (thrFns4 dl phi) t .LAMBDA_YB4_G32 0 from
        congrArg Except.ok (yb4g32_off dl hg Q)]
  have e : ∀ o, (withScaleE c Q).on o = c.on o := fun o => rfl
  have k := fun o a => h o a
  unfold EftCalc.loop2
  simp only [e, ht', hg']
  simp only [real_ofInt, Int.cast_zero, zero_mul, h6, hb, h2, h4,
    h .YT_AS (by decide) (by decide) (by decide) (by decide) (by decide) (by decide),
    h .LAMBDA_YB4 (by decide) (by decide) (by decide) (by decide) (by decide) (by decide),
    h .LAMBDA_AT (by decide) (by decide) (by decide) (by decide) (by decide) (by decide),
    h .YT_YT (by decide) (by decide) (by decide) (by decide) (by decide) (by decide),
    h .VEV_YT2 (by decide) (by decide) (by decide) (by decide) (by decide) (by decide),
    h .YTAU_YTAU (by decide) (by decide) (by decide) (by decide) (by decide) (by decide),
    h .LAMBDA_YTAU4 (by decide) (by decide) (by decide) (by decide) (by decide) (by decide),
    h .YT_YB (by decide) (by decide) (by decide) (by decide) (by decide) (by decide),
    h .VEV_YTAU2 (by decide) (by decide) (by decide) (by decide) (by decide) (by decide),
    h .VEV_YB2 (by decide) (by decide) (by decide) (by decide) (by decide) (by decide),
    h .YTAU_YB (by decide) (by decide) (by decide) (by decide) (by decide) (by decide),
    h .LAMBDA_YTAU2_YB4 (by decide) (by decide) (by decide) (by decide) (by decide) (by decide),
    h .LAMBDA_YTAU4_YB2 (by decide) (by decide) (by decide) (by decide) (by decide) (by decide),
    h .YB_YT (by decide) (by decide) (by decide) (by decide) (by decide) (by decide),
    h .YB_AS (by decide) (by decide) (by decide) (by decide) (by decide) (by decide),
    h .YB_YB (by decide) (by decide) (by decide) (by decide) (by decide) (by decide),
    h .LAMBDA_AT_AS (by decide) (by decide) (by decide) (by decide) (by decide) (by decide), calcIf, Bool.false_eq_true, if_false]
  rfl

/-! ### the orders where the switch does not work -/

set_option maxRecDepth 8000
set_option maxHeartbeats 4000000

/-- second difference of the formula as a function of `log(MA²/Q²)` -/
theorem yb6_second (a : Yb6.Arg ℝ) (x h : ℝ) :
    Yb6.formula { a with log_mA2_MR2 := x + h } - 2 * Yb6.formula { a with log_mA2_MR2 := x } + Yb6.formula { a with log_mA2_MR2 := x - h }
      = 36 * a.sbeta ^ 2 / a.cbeta ^ 2 * h ^ 2 := by
  unfold Yb6.formula
  simp only [real_ofNat, Himalaya.pow2]
  push_cast
  rw [← sq a.sbeta, ← sq a.cbeta]
  ring

theorem yt2yb4_second (a : Yt2Yb4.Arg ℝ) (x h : ℝ) :
    Yt2Yb4.formula { a with log_mA2_MR2 := x + h } - 2 * Yt2Yb4.formula { a with log_mA2_MR2 := x } +
      Yt2Yb4.formula { a with log_mA2_MR2 := x - h } = 2 * (24 + 6 * a.cbeta ^ 2 / a.sbeta ^ 2) * h ^ 2 := by
  unfold Yt2Yb4.formula
  simp only [real_ofNat, Himalaya.pow2]
  push_cast
  rw [← sq a.sbeta, ← sq a.cbeta]
  ring

theorem yt4yb2_second (a : Yt4Yb2.Arg ℝ) (x h : ℝ) :
    Yt4Yb2.formula { a with log_mA2_MR2 := x + h } - 2 * Yt4Yb2.formula { a with log_mA2_MR2 := x } +
      Yt4Yb2.formula { a with log_mA2_MR2 := x - h } = 2 * (24 + 6 * a.sbeta ^ 2 / a.cbeta ^ 2) * h ^ 2 := by
  unfold Yt4Yb2.formula
  simp only [real_ofNat, Himalaya.pow2]
  push_cast
  rw [← sq a.sbeta, ← sq a.cbeta]
  ring

/-- the mass parameters of the sbottoms, `MA` and `mu` are so different that the general formula for `yb^6` is used -/
def GeneralYb6 (p : Params ℝ) : Prop := ¬ (|√(p.md2 2 2) - √(p.mq2 2 2)| < √(p.mq2 2 2) * (1 / 100) ∧
  |p.MA - √(p.mq2 2 2)| < √(p.mq2 2 2) * (1 / 100) ∧ |p.mu - √(p.mq2 2 2)| < √(p.mq2 2 2) * (1 / 100))

/-- the mass parameters of the squarks and `mu` are so different that the general formulas for `yt^2 yb^4`, `yt^4 yb^2` are used -/
def GeneralYtYb (p : Params ℝ) : Prop := ¬ (|√(p.mu2 2 2) - √(p.mq2 2 2)| < √(p.mq2 2 2) * (1 / 100) ∧
  |√(p.md2 2 2) - √(p.mq2 2 2)| < √(p.mq2 2 2) * (1 / 100) ∧ |p.mu - √(p.mq2 2 2)| < √(p.mq2 2 2) * (1 / 100))

/-- three values of a function with nonvanishing second difference are not equal -/
theorem second_ne {f : ℝ → Except String ℝ} {g : ℝ → ℝ} (hf : ∀ s, f s = .ok (g s)) {d : ℝ} (hd : 0 < d)
    (hg : g (-1) - 2 * g 0 + g 1 = d) : ∃ s s', f s ≠ f s' := by
  by_contra hc
  push Not at hc
  have h1 := hc (-1) 0
  have h2 := hc 1 0
  rw [hf, hf] at h1 h2
  have h1 := Except.ok.inj h1
  have h2 := Except.ok.inj h2
  linarith

theorem lt3_false {a b c a' b' c' : ℝ} (h : ¬ (|a| < a' ∧ |b| < b' ∧ |c| < c')) :
    (FOps.lt (FOps.abs a) a' && FOps.lt (FOps.abs b) b' && FOps.lt (FOps.abs c) c') = false := by
  rw [Bool.eq_false_iff]
  intro e
  simp only [Bool.and_eq_true] at e
  exact h ⟨of_decide_eq_true e.1.1, of_decide_eq_true e.1.2, of_decide_eq_true e.2⟩

end Himalaya.Scale
