import Verif.EFT.Yt6
import Verif.TLF.Props2
import Verif.EFT.Switches
import Verif.Iface.Props4

/-!
# C64: a pole of the `yt^6` threshold correction

`getDeltaLambdaYt6` multiplies `mQ32` by 1.02 and `mU32` by 0.98 (ThresholdCalculator.cpp:1399-1400), which moves the pole of the general
formula at `mQ32 = mU32` to `51 mQ32 = 49 mU32`.
-/

set_option linter.unusedSimpArgs false
set_option linter.unusedVariables false

namespace Himalaya.Pole
open Himalaya.TLF

/-- A parameter point on the pole: all masses and VEVs are finite and positive, the stop mixing `Xt` vanishes and `MA` is far from
the stop masses. -/
structure OnPole (p : Params Dbl) (q A m w d Q : ℝ) : Prop where
  mq : p.mq2 2 2 = .fin q
  mu2 : p.mu2 2 2 = .fin (q * 51 / 49)
  MA : p.MA = .fin A
  mu : p.mu = .fin m
  vu : p.vu = .fin w
  vd : p.vd = .fin d
  At : p.Au 2 2 = .fin (m / (w / d))
  scale : p.scale = .fin Q
  q0 : 1 ≤ q
  w0 : 0 < w
  d0 : 0 < d
  A0 : 2 * q ≤ A ^ 2

theorem nan_div (a : Dbl) : (Dbl.nan / a : Dbl) = Dbl.nan := by cases a <;> rfl

theorem rel_false {a b : ℝ} (ha : 1 ≤ a) (hab : 3 / 2 * a ≤ b) : Misc.isEqualRel (Dbl.fin a) (Dbl.fin b) (FOps.lit (1 / 10)) = false := by
  have hb : 1 ≤ b := by linarith
  have ea : Misc.dabs (Dbl.fin a) = Dbl.fin a := by
    simp only [Misc.dabs, Dbl.fin_lit, Dbl.fin_le, Dbl.fin_neg, decide_eq_true_eq]
    rw [if_pos]; push_cast; linarith
  have eb : Misc.dabs (Dbl.fin b) = Dbl.fin b := by
    simp only [Misc.dabs, Dbl.fin_lit, Dbl.fin_le, Dbl.fin_neg, decide_eq_true_eq]
    rw [if_pos]; push_cast; linarith
  have hn : |a - b| = b - a := by rw [abs_of_nonpos (by linarith)]; ring
  have emin : Misc.stdMin (Dbl.fin a) (Dbl.fin b) = Dbl.fin a := by
    simp only [Misc.stdMin, Dbl.fin_lt, decide_eq_true_eq]; rw [if_neg (by linarith)]
  have emax : Misc.stdMax (Dbl.fin a) (Dbl.fin b) = Dbl.fin b := by
    simp only [Misc.stdMax, Dbl.fin_lt, decide_eq_true_eq]; rw [if_pos (by linarith)]
  unfold Misc.isEqualRel
  simp only [ea, eb, emin, emax, Misc.eps, Dbl.fin_lit, Dbl.fin_mul, isEqual_fin, Dbl.fin_lt, decide_eq_true_eq, hn]
  push_cast
  rw [if_neg, if_neg, decide_eq_false_iff_not]
  · norm_num; linarith
  · norm_num; linarith
  · norm_num; linarith

theorem formula_nan (dilog : Dbl → Dbl) (phi : Dbl → Dbl → Dbl → Dbl) (a : Yt6.Arg Dbl) (lA lq lm L : Dbl)
    (h : Yt6.k1 a = .nan) : Yt6.formula dilog phi a lA lq lm L = .nan := by
  unfold Yt6.formula
  rw [h]
  simp only [sub_nan, nan_sub, nan_add]

/-- **C64 (negation).** A parameter point with finite positive masses for which the `O(at^2)` threshold correction is NaN. -/
theorem C64_yt6_nan_at_pole (dilog : Dbl → Dbl) (phi : Dbl → Dbl → Dbl → Dbl) (c : TcObj Dbl) {q A m w d Q : ℝ}
    (h : OnPole c.p q A m w d Q) (n : Int) : c.dLamYt6 dilog phi n = .nan := by
  obtain ⟨mq, mu2, MA, mu, vu, vd, At, sc, q0, w0, d0, A0⟩ := h
  have hw := w0.ne'
  have hd := d0.ne'
  have tb : eftTanBeta c.p = .fin (w / d) := by unfold eftTanBeta; rw [vu, vd, Dbl.fin_div _ _ hd]
  have hx : calcXt c.p = .fin 0 := by
    unfold calcXt; rw [At, mu, tb, Dbl.fin_div _ _ (div_ne_zero hw hd), Dbl.fin_sub]; congr 1; ring
  have hy : calcYt c.p = .fin (m / (w / d) + m * (w / d)) := by
    unfold calcYt; rw [At, mu, tb, Dbl.fin_mul, Dbl.fin_add]
  have hv : eftV c.p = .fin (Real.sqrt (w * w + d * d)) := by
    unfold eftV eftV2 Himalaya.pow2; rw [vu, vd, Dbl.fin_mul, Dbl.fin_mul, Dbl.fin_add, Dbl.fin_sqrt _ (by positivity)]
  have v0 : Real.sqrt (w * w + d * d) ≠ 0 := (Real.sqrt_pos.2 (by positivity)).ne'
  have hs : eftSinBeta c.p = .fin (w / Real.sqrt (w * w + d * d)) := by unfold eftSinBeta; rw [vu, hv, Dbl.fin_div _ _ v0]
  have hc : eftCosBeta c.p = .fin (d / Real.sqrt (w * w + d * d)) := by unfold eftCosBeta; rw [vd, hv, Dbl.fin_div _ _ v0]
  have hA2 : Himalaya.pow2 c.p.MA = .fin (A * A) := by unfold Himalaya.pow2; rw [MA, Dbl.fin_mul]
  have b1 := rel_false (a := q) (b := A * A) q0 (by nlinarith)
  have b2 := rel_false (a := q * 51 / 49) (b := A * A) (by linarith) (by nlinarith)
  unfold TcObj.dLamYt6
  simp only [mq, mu2, hA2, b1, b2, Bool.or_self, Bool.and_false, Bool.false_eq_true, if_false]
  refine formula_nan _ _ _ _ _ _ _ ?_
  unfold Yt6.k1
  simp only [hx, hy, hs, hc, Dbl.fin_lit, Dbl.fin_mul, Himalaya.pow2, Misc.pow3, Dbl.fin_sub, Dbl.fin_ofNat]
  push_cast
  rw [show (q * (102 / 100) - q * 51 / 49 * (98 / 100)) = 0 by ring]
  norm_num [zero_div]

/-- A point on the pole exists. -/
example : ∃ p : Params Dbl, OnPole p 49 100 10 1 1 91 := by
  refine ⟨{ (Himalaya.demo 1 1) with
    mq2 := fun _ _ => .fin 49, mu2 := fun _ _ => .fin 51, MA := .fin 100, mu := .fin 10, vu := .fin 1, vd := .fin 1,
    Au := fun _ _ => .fin 10, scale := .fin 91 }, ⟨rfl, ?_, rfl, rfl, rfl, rfl, ?_, rfl, ?_, ?_, ?_, ?_⟩⟩ <;> norm_num

/-- **C64.** If the threshold correction of order `yt^6` is NaN, the two-loop correction is returned without any correction of this
order and without an error: the result is the same as with the order `yt^6` switched off. -/
theorem C64_silently_dropped (thr : ThrOrder → Int → Except String Dbl) (t : ThrOrder → Dbl) (m : Int) (ht : ∀ o, thr o m = .ok (t o))
    (hn : t .LAMBDA_YT6 = .nan) (c : EftCalc Dbl) (n : Int) :
    c.loop2 thr n m = (c.setFlag .YT6 0).loop2 thr n m := by
  have off6 : (c.setFlag .YT6 0).on .YT6 = false := by simp [EftCalc.setFlag, EftCalc.on, Flags.put]
  have on' : ∀ o, o ≠ .YT6 → (c.setFlag .YT6 0).on o = c.on o := fun o ho => by simp [EftCalc.setFlag, EftCalc.on, Flags.put, ho]
  have ci : ∀ (b : Bool) o, calcIf b (thr o m) = .ok (zeroIf b (t o)) := fun b o => by
    cases b <;> simp [calcIf, zeroIf, ht]
  unfold EftCalc.loop2
  simp only [ci, bindOk, off6, on' .G32YT4 (by decide), on' .G32YB4 (by decide), on' .YB6 (by decide), on' .YTAU2YB4 (by decide),
    on' .YT2YB4 (by decide), on' .YB2YT4 (by decide), on' .YTAU6 (by decide), on' .YTAU4YB2 (by decide)]
  have e : (c.setFlag .YT6 0).p = c.p := rfl
  rw [e]
  cases h6 : c.on .YT6 with
  | false => rfl
  | true =>
    simp only [zeroIf, if_true, hn, add_nan, nan_add, nan_sub, sub_nan, nan_mul, mul_nan, Bool.true_or, Bool.false_or,
      Bool.false_eq_true, if_false, discardNaN]
    cases c.on .YB2YT4 <;> cases c.on .YT2YB4 <;>
      simp only [nan_div, Dbl.nan_isNaN, if_true, Bool.false_eq_true, if_false, Bool.or_true, Bool.or_false, Bool.true_or]

end Himalaya.Pole
