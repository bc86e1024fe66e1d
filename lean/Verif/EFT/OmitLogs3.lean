import Verif.EFT.OmitLogs2

/-!
# C63: the orders for which switching off the logarithms does not work
-/

set_option linter.unusedSimpArgs false
set_option linter.unusedVariables false

namespace Himalaya.Scale

section
open FOps
open scoped Himalaya
/-- the arguments of the formula of `getDeltaLambdaYb6` without logarithms; `x` is the value of `log(MA²/Q²)`, `z = 0` -/
def argYb6 {F : Type} [Add F] [Sub F] [Mul F] [Div F] [Neg F] [FOps F] (dl : F → F) (phi : F → F → F → F) (p : Params F) (z x : F) :
    Yb6.Arg F :=
  let mQ32 := (p.mq2 2 2)
  let mD32 := (p.md2 2 2)
  let mQ3 := sqrt mQ32
  let mD3 := sqrt mD32
  let mA := p.MA
  let sbeta := (eftSinBeta p)
  let cbeta := (eftCosBeta p)
  let Xb := (calcXb p)
  let Yb := (calcYb p)
  let Mu := p.mu
  let Xb2 := pow2 Xb
  let mA2 := pow2 mA
  let Mu2 := pow2 Mu
  { Mu := Mu, Mu2 := Mu2, Xb := Xb, Xb2 := Xb2, Yb := Yb, cbeta := cbeta, lmQ3MR := z, lmUMR := z, mA := mA,
    mA2 := mA2, mD3 := mD3, mD32 := mD32, mQ3 := mQ3, mQ32 := mQ32, sbeta := sbeta, log_mA2_MR2 := x,
    dilog_Mu2_mD32 := dl (1 - Mu2 / mD32), dilog_Mu2_mQ32 := dl (1 - Mu2 / mQ32),
    dilog_mD32_mQ32 := dl (1 - mD32 / mQ32), log_mD32_mQ32 := log (mD32 / mQ32),
    phixyz_mA2_mD32_mD32 := phi mA2 mD32 mD32, phixyz_mA2_mQ32_mD32 := phi mA2 mQ32 mD32,
    phixyz_mA2_mQ32_mQ32 := phi mA2 mQ32 mQ32 }

/-- **C63 (negation).** The switch does not work for the order `yb^6`: whenever the general formula is used, the threshold
correction with the logarithms switched off still depends on the renormalization scale. -/
theorem C63_yb6_depends_on_scale (dl : ℝ → ℝ) (phi : ℝ → ℝ → ℝ → ℝ) (l : Limit) (msq2 : ℝ) {p : Params ℝ} (hA : p.MA ≠ 0)
    (hu : 0 < p.vu) (hd : 0 < p.vd) (hb : GeneralYb6 p) :
    ∃ s s', thrOf (thrFns4 dl phi) (tc l (atScale p s) msq2) .LAMBDA_YB6 0 ≠
      thrOf (thrFns4 dl phi) (tc l (atScale p s') msq2) .LAMBDA_YB6 0 := by
  have l1 : (FOps.lit (1 / 100) : ℝ) = 1 / 100 := by rw [real_lit]; norm_num
  have e := lt3_false hb
  have hA2 : Himalaya.pow2 p.MA ≠ 0 := mul_ne_zero hA hA
  have v : ∀ s, thrOf (thrFns4 dl phi) (tc l (atScale p s) msq2) .LAMBDA_YB6 0 =
      .ok (Yb6.formula (argYb6 dl phi p 0 (Real.log (Himalaya.pow2 p.MA) - s))) := fun s => by
    show Except.ok (TcObj.dLamYb6 dl phi _ 0) = _
    unfold TcObj.dLamYb6
    simp only [tc, TcObj.setLimit, atScale, l1, real_sqrt, e, Bool.false_eq_true, if_false,
      log_scale hA2, real_ofInt, Int.cast_zero, zero_mul]
    rfl
  obtain ⟨-, s0, c2, s2⟩ := trig_beta (p := p) hu
  refine second_ne v (d := 36 * eftSinBeta p ^ 2 / eftCosBeta p ^ 2) ?_ ?_
  · rw [c2, s2, cosSq]; positivity
  · have := yb6_second (argYb6 dl phi p 0 0) (Real.log (Himalaya.pow2 p.MA)) 1
    rw [sub_neg_eq_add, sub_zero]
    rw [one_pow, mul_one] at this
    exact this

/-- the arguments of the formula of `getDeltaLambdaYt2Yb4` without logarithms; `x` is the value of `log(MA²/Q²)`, `z = 0` -/
def argYt2Yb4 {F : Type} [Add F] [Sub F] [Mul F] [Div F] [Neg F] [FOps F] (dl : F → F) (phi : F → F → F → F) (p : Params F) (z x : F) :
    Yt2Yb4.Arg F :=
  let mQ32 := (p.mq2 2 2)
  let mD32 := (p.md2 2 2)
  let mU32 := (p.mu2 2 2)
  let mQ3 := sqrt mQ32
  let mU3 := sqrt mU32
  let mD3 := sqrt mD32
  let mA := p.MA
  let sbeta := (eftSinBeta p)
  let cbeta := (eftCosBeta p)
  let Xt := (calcXt p)
  let Yt := (calcYt p)
  let Xb := (calcXb p)
  let Yb := (calcYb p)
  let Mu := p.mu
  let Mu2 := pow2 Mu
  let Xt2 := pow2 Xt
  let mA2 := pow2 mA
  let Xb2 := pow2 Xb
  { Mu := Mu, Mu2 := Mu2, Xb := Xb, Xb2 := Xb2, Xt := Xt, Xt2 := Xt2, Yb := Yb, Yt := Yt, cbeta := cbeta,
    lmQ3MR := z, lmUMR := z, mA := mA, mA2 := mA2, mD3 := mD3, mD32 := mD32, mQ3 := mQ3, mQ32 := mQ32,
    mU3 := mU3, mU32 := mU32, sbeta := sbeta, abs_Mu := abs Mu, dilog_Mu2_mD32 := dl (1 - Mu2 / mD32),
    dilog_Mu2_mQ32 := dl (1 - Mu2 / mQ32), dilog_Mu2_mU32 := dl (1 - Mu2 / mU32), log_mA2_MR2 := x,
    log_mU32_mQ32 := log (mU32 / mQ32), pow_Mu2_15 := Mu2 * sqrt Mu2, dilog_mD32_mQ32 := dl (1 - mD32 / mQ32),
    log_mD32_mQ32 := log (mD32 / mQ32), phixyz_mA2_mU32_mD32 := phi mA2 mU32 mD32,
    phixyz_mA2_mQ32_mD32 := phi mA2 mQ32 mD32, phixyz_mA2_mQ32_mQ32 := phi mA2 mQ32 mQ32,
    phixyz_mA2_mU32_mQ32 := phi mA2 mU32 mQ32, dilog_mQ32_mU32 := dl (1 - mQ32 / mU32),
    dilog_mD32_mU32 := dl (1 - mD32 / mU32) }

/-- **C63 (negation).** The switch does not work for the order `yt^2 yb^4`: whenever the general formula is used, the threshold
correction with the logarithms switched off still depends on the renormalization scale. -/
theorem C63_yt2yb4_depends_on_scale (dl : ℝ → ℝ) (phi : ℝ → ℝ → ℝ → ℝ) (l : Limit) (msq2 : ℝ) {p : Params ℝ} (hA : p.MA ≠ 0)
    (hu : 0 < p.vu) (hd : 0 < p.vd) (hb : GeneralYtYb p) :
    ∃ s s', thrOf (thrFns4 dl phi) (tc l (atScale p s) msq2) .LAMBDA_YT2_YB4 0 ≠
      thrOf (thrFns4 dl phi) (tc l (atScale p s') msq2) .LAMBDA_YT2_YB4 0 := by
  have l1 : (FOps.lit (1 / 100) : ℝ) = 1 / 100 := by rw [real_lit]; norm_num
  have e := lt3_false hb
  have hA2 : Himalaya.pow2 p.MA ≠ 0 := mul_ne_zero hA hA
  have v : ∀ s, thrOf (thrFns4 dl phi) (tc l (atScale p s) msq2) .LAMBDA_YT2_YB4 0 =
      .ok (Yt2Yb4.formula (argYt2Yb4 dl phi p 0 (Real.log (Himalaya.pow2 p.MA) - s))) := fun s => by
    show Except.ok (TcObj.dLamYt2Yb4 dl phi _ 0) = _
    unfold TcObj.dLamYt2Yb4
    simp only [tc, TcObj.setLimit, atScale, l1, real_sqrt, e, Bool.false_eq_true, if_false,
      log_scale hA2, real_ofInt, Int.cast_zero, zero_mul]
    rfl
  obtain ⟨-, s0, c2, s2⟩ := trig_beta (p := p) hu
  refine second_ne v (d := 2 * (24 + 6 * eftCosBeta p ^ 2 / eftSinBeta p ^ 2)) ?_ ?_
  · rw [c2, s2, cosSq]; positivity
  · have := yt2yb4_second (argYt2Yb4 dl phi p 0 0) (Real.log (Himalaya.pow2 p.MA)) 1
    rw [sub_neg_eq_add, sub_zero]
    rw [one_pow, mul_one] at this
    exact this

/-- the arguments of the formula of `getDeltaLambdaYt4Yb2` without logarithms; `x` is the value of `log(MA²/Q²)`, `z = 0` -/
def argYt4Yb2 {F : Type} [Add F] [Sub F] [Mul F] [Div F] [Neg F] [FOps F] (dl : F → F) (phi : F → F → F → F) (p : Params F) (z x : F) :
    Yt4Yb2.Arg F :=
  let mQ32 := (p.mq2 2 2)
  let mD32 := (p.md2 2 2)
  let mU32 := (p.mu2 2 2)
  let mQ3 := sqrt mQ32
  let mU3 := sqrt mU32
  let mD3 := sqrt mD32
  let mA := p.MA
  let sbeta := (eftSinBeta p)
  let cbeta := (eftCosBeta p)
  let Xt := (calcXt p)
  let Yt := (calcYt p)
  let Xb := (calcXb p)
  let Yb := (calcYb p)
  let Mu := p.mu
  let Mu2 := pow2 Mu
  let Xt2 := pow2 Xt
  let Xt4 := pow2 Xt2
  let mA2 := pow2 mA
  let Xb2 := pow2 Xb
  { Mu := Mu, Mu2 := Mu2, Xb := Xb, Xb2 := Xb2, Xt := Xt, Xt2 := Xt2, Xt4 := Xt4, Yb := Yb, Yt := Yt, cbeta := cbeta,
    lmQ3MR := z, lmUMR := z, mA := mA, mA2 := mA2, mD3 := mD3, mD32 := mD32, mQ3 := mQ3, mQ32 := mQ32,
    mU3 := mU3, mU32 := mU32, sbeta := sbeta, abs_Mu := abs Mu, dilog_Mu2_mD32 := dl (1 - Mu2 / mD32),
    dilog_Mu2_mQ32 := dl (1 - Mu2 / mQ32), dilog_Mu2_mU32 := dl (1 - Mu2 / mU32), log_mA2_MR2 := x,
    dilog_mD32_mQ32 := dl (1 - mD32 / mQ32), phixyz_mA2_mQ32_mQ32 := phi mA2 mQ32 mQ32,
    log_mD32_mQ32 := log (mD32 / mQ32), pow_Mu2_15 := Mu2 * sqrt Mu2, log_mU32_mQ32 := log (mU32 / mQ32),
    phixyz_mA2_mQ32_mD32 := phi mA2 mQ32 mD32, dilog_mD32_mU32 := dl (1 - mD32 / mU32),
    dilog_mQ32_mU32 := dl (1 - mQ32 / mU32), phixyz_mA2_mU32_mD32 := phi mA2 mU32 mD32,
    phixyz_mA2_mU32_mQ32 := phi mA2 mU32 mQ32 }

/-- **C63 (negation).** The switch does not work for the order `yt^4 yb^2`: whenever the general formula is used, the threshold
correction with the logarithms switched off still depends on the renormalization scale. -/
theorem C63_yt4yb2_depends_on_scale (dl : ℝ → ℝ) (phi : ℝ → ℝ → ℝ → ℝ) (l : Limit) (msq2 : ℝ) {p : Params ℝ} (hA : p.MA ≠ 0)
    (hu : 0 < p.vu) (hd : 0 < p.vd) (hb : GeneralYtYb p) :
    ∃ s s', thrOf (thrFns4 dl phi) (tc l (atScale p s) msq2) .LAMBDA_YT4_YB2 0 ≠
      thrOf (thrFns4 dl phi) (tc l (atScale p s') msq2) .LAMBDA_YT4_YB2 0 := by
  have l1 : (FOps.lit (1 / 100) : ℝ) = 1 / 100 := by rw [real_lit]; norm_num
  have e := lt3_false hb
  have hA2 : Himalaya.pow2 p.MA ≠ 0 := mul_ne_zero hA hA
  have v : ∀ s, thrOf (thrFns4 dl phi) (tc l (atScale p s) msq2) .LAMBDA_YT4_YB2 0 =
      .ok (Yt4Yb2.formula (argYt4Yb2 dl phi p 0 (Real.log (Himalaya.pow2 p.MA) - s))) := fun s => by
    show Except.ok (TcObj.dLamYt4Yb2 dl phi _ 0) = _
    unfold TcObj.dLamYt4Yb2
    simp only [tc, TcObj.setLimit, atScale, l1, real_sqrt, e, Bool.false_eq_true, if_false,
      log_scale hA2, real_ofInt, Int.cast_zero, zero_mul]
    rfl
  obtain ⟨-, s0, c2, s2⟩ := trig_beta (p := p) hu
  refine second_ne v (d := 2 * (24 + 6 * eftSinBeta p ^ 2 / eftCosBeta p ^ 2)) ?_ ?_
  · rw [c2, s2, cosSq]; positivity
  · have := yt4yb2_second (argYt4Yb2 dl phi p 0 0) (Real.log (Himalaya.pow2 p.MA)) 1
    rw [sub_neg_eq_add, sub_zero]
    rw [one_pow, mul_one] at this
    exact this

end

/-- a point to which the last three theorems apply -/
noncomputable def generalPoint : Params ℝ :=
  { keep (fun _ => 1) with MA := 2
                           mu := 2 }

example : generalPoint.MA ≠ 0 ∧ 0 < generalPoint.vu ∧ 0 < generalPoint.vd ∧ GeneralYb6 generalPoint ∧ GeneralYtYb generalPoint := by
  simp only [generalPoint, keep, GeneralYb6, GeneralYtYb, Real.sqrt_one]
  refine ⟨by norm_num, by norm_num, by norm_num, fun h => ?_, fun h => ?_⟩
  · have := h.2.2; norm_num at this
  · have := h.2.2; norm_num at this

/-- **C63 (negation).** For almost equal stau masses the threshold correction of order `ytau^6` ignores the switch altogether. -/
theorem C63_ytau6_depends_on_scale (dl : ℝ → ℝ) (phi : ℝ → ℝ → ℝ → ℝ) (l : Limit) (msq2 : ℝ) {p : Params ℝ} (hm : 0 < p.ml2 2 2)
    (he : p.me2 2 2 = p.ml2 2 2) (hu : 0 < p.vu) (hd : 0 < p.vd) :
    ∃ s s', thrOf (thrFns4 dl phi) (tc l (atScale p s) msq2) .LAMBDA_YTAU6 0 ≠
      thrOf (thrFns4 dl phi) (tc l (atScale p s') msq2) .LAMBDA_YTAU6 0 := by
  have hM := Real.sqrt_pos.2 hm
  have e : FOps.lt (FOps.abs (√(p.ml2 2 2) - √(p.ml2 2 2))) (FOps.lit (1 / 10) * √(p.ml2 2 2)) = true := by
    rw [real_lit, sub_self]
    refine decide_eq_true ?_
    show |(0 : ℝ)| < _
    rw [abs_zero]; push_cast; positivity
  have v : ∀ s, thrOf (thrFns4 dl phi) (tc l (atScale p s) msq2) .LAMBDA_YTAU6 0 = .ok ((tc l (atScale p s) msq2).dLamYtau6 dl phi 0) :=
    fun s => rfl
  have x0 : ∀ s, calcXtau { p with scale := Real.exp (s / 2), massLimit3LThreshold := l.toInt } = calcXtau p := fun s => rfl
  have c0 : ∀ s, eftCosBeta { p with scale := Real.exp (s / 2), massLimit3LThreshold := l.toInt } = eftCosBeta p := fun s => rfl
  have s0 : ∀ s, eftSinBeta { p with scale := Real.exp (s / 2), massLimit3LThreshold := l.toInt } = eftSinBeta p := fun s => rfl
  obtain ⟨-, -, c2, s2⟩ := trig_beta (p := p) hu
  have cp : 0 < eftCosBeta p ^ 2 := by rw [c2, cosSq]; positivity
  refine second_ne v (d := 36 * (eftCosBeta p ^ 2) ^ 3) (by positivity) ?_
  simp only [TcObj.dLamYtau6, tc, TcObj.setLimit, atScale, he, real_sqrt, e, if_true, log_scale hm.ne', x0, c0, s0]
  generalize calcXtau p = X
  generalize eftCosBeta p = c
  generalize eftSinBeta p = s
  generalize √(p.ml2 2 2) = M at *
  generalize Real.log (p.ml2 2 2) = L
  simp only [Himalaya.pow2, Misc.pow3, Misc.pow4, Misc.pow5, Misc.pow6, Misc.pow2, real_ofNat, real_lit]
  push_cast
  have := hM.ne'
  field_simp
  ring

example : 0 < generalPoint.ml2 2 2 ∧ generalPoint.me2 2 2 = generalPoint.ml2 2 2 ∧ 0 < generalPoint.vu ∧ 0 < generalPoint.vd := by
  simp only [generalPoint, keep]; norm_num

/-- **C63 (negation).** For almost equal sbottom mass parameters and another gluino mass, the logarithm of the gluino mass in the
threshold correction of order `g3^2 yb^4` ignores the switch; shown without sbottom mixing, in units of the sbottom mass. -/
theorem C63_yb4g32_depends_on_scale (dl : ℝ → ℝ) (phi : ℝ → ℝ → ℝ → ℝ) (l : Limit) (msq2 : ℝ) {p : Params ℝ} (hq : p.mq2 2 2 = 1)
    (hd : p.md2 2 2 = 1) (hG : 2 ≤ p.MG) (hX : calcXb p = 0) :
    ∃ s s', thrOf (thrFns4 dl phi) (tc l (atScale p s) msq2) .LAMBDA_YB4_G32 0 ≠
      thrOf (thrFns4 dl phi) (tc l (atScale p s') msq2) .LAMBDA_YB4_G32 0 := by
  have l1 : (FOps.lit (1 / 100) : ℝ) = 1 / 100 := by rw [real_lit]; norm_num
  have hG2 : Himalaya.pow2 p.MG ≠ 0 := by unfold Himalaya.pow2; positivity
  have hs : √(Himalaya.pow2 p.MG) = p.MG := by unfold Himalaya.pow2; exact Real.sqrt_mul_self (by linarith)
  have e : FOps.lt (FOps.abs (1 - p.MG)) (1 / 100 * (1 : ℝ)) = false := by
    refine decide_eq_false (not_lt.2 ?_)
    show _ ≤ |1 - p.MG|
    rw [abs_of_nonpos (by linarith)]; norm_num at hG ⊢; linarith
  have e' : FOps.lt (FOps.abs ((1 : ℝ) - 1)) (1 / 100 * (1 : ℝ)) = true := by
    refine decide_eq_true ?_
    show |(1 : ℝ) - 1| < _
    norm_num
  have x0 : ∀ s, calcXb { p with scale := Real.exp (s / 2), massLimit3LThreshold := l.toInt } = 0 := fun s => hX
  have v : ∀ s, thrOf (thrFns4 dl phi) (tc l (atScale p s) msq2) .LAMBDA_YB4_G32 0 = .ok ((tc l (atScale p s) msq2).dLamYb4G32 dl 0) :=
    fun s => rfl
  have d : (tc l (atScale p 0) msq2).dLamYb4G32 dl 0 - (tc l (atScale p 1) msq2).dLamYb4G32 dl 0 =
      -4 * (48 * p.MG ^ 6 + 24 * p.MG ^ 4) / (3 * (p.MG ^ 2 - 1) ^ 2) := by
    simp only [TcObj.dLamYb4G32, tc, TcObj.setLimit, atScale, hq, hd, real_sqrt, Real.sqrt_one, hs, l1, e, e', Bool.false_and, Bool.and_false,
      Bool.false_eq_true, if_false, if_true, log_scale hG2, x0]
    simp only [Himalaya.pow2, Misc.pow3, Misc.pow4, Misc.pow5, Misc.pow6, Misc.pow7, Misc.pow8, Misc.power10, Misc.pow2, real_ofNat, real_ofInt,
      real_log, Real.log_one]
    push_cast
    have : p.MG * p.MG - 1 ≠ 0 := by nlinarith
    have h2 : p.MG ^ 2 - 1 ≠ 0 := by nlinarith
    rw [show p.MG * p.MG = p.MG ^ 2 by ring]
    generalize Real.log (p.MG ^ 2) = L
    generalize Real.log (p.MG ^ 2 / 1) = L'
    generalize dl _ = D
    field_simp
    ring
  refine ⟨0, 1, fun h => ?_⟩
  rw [v, v] at h
  rw [Except.ok.inj h, sub_self] at d
  have : 0 < (48 * p.MG ^ 6 + 24 * p.MG ^ 4) / (3 * (p.MG ^ 2 - 1) ^ 2) := by
    have h1 : 0 < p.MG := by linarith
    have h2 : p.MG ^ 2 - 1 ≠ 0 := by nlinarith
    positivity
  rw [mul_div_assoc] at d
  linarith

/-- a point to which `C63_yb4g32_depends_on_scale` applies -/
example : ∃ p : Params ℝ, p.mq2 2 2 = 1 ∧ p.md2 2 2 = 1 ∧ 2 ≤ p.MG ∧ calcXb p = 0 :=
  ⟨{ keep (fun _ => 1) with MG := 2 }, rfl, rfl, le_refl _, by simp [calcXb, eftTanBeta, keep]⟩

end Himalaya.Scale
