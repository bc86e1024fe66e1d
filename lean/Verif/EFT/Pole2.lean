import Verif.EFT.Yuk
import Verif.EFT.Yt6Pole

/-!
# C72: equal soft masses and the orders `yb^6`, `yt^2 yb^4`, `yt^4 yb^2`

The general formulas of these threshold corrections have poles at `mQ3 = mD3` (and `mQ3 = mU3`). The limit formulas are used only if
`MA` or `mu` are degenerate with them, too.
-/

set_option linter.unusedSimpArgs false
set_option linter.unusedVariables false

namespace Himalaya.Pole
open Himalaya.TLF

/-- not a finite number -/
def NonFin : Dbl → Prop
  | .fin _ => False
  | _ => True

theorem nonfin_add {a : Dbl} (h : NonFin a) (b : Dbl) : NonFin (a + b) := by
  cases a <;> cases b <;> first | exact h.elim | exact trivial
theorem nonfin_sub {a : Dbl} (h : NonFin a) (b : Dbl) : NonFin (a - b) := by
  cases a <;> cases b <;> first | exact h.elim | exact trivial
theorem nonfin_div (a : Dbl) {d : Dbl} (h : d = .fin 0) : NonFin (a / d) := by
  subst h
  cases a with
  | nan => exact trivial
  | pinf => show NonFin (if (0 : ℝ) < 0 then _ else _); rw [if_neg (lt_irrefl _)]; exact trivial
  | ninf => show NonFin (if (0 : ℝ) < 0 then _ else _); rw [if_neg (lt_irrefl _)]; exact trivial
  | fin x =>
    show NonFin (if (0 : ℝ) = 0 then Dbl.infOfSign x else _)
    rw [if_pos rfl]; unfold Dbl.infOfSign; split_ifs <;> exact trivial
theorem zero_mul_nonfin {z a : Dbl} (hz : z = .fin 0) (h : NonFin a) : z * a = .nan := by
  subst hz
  cases a with
  | nan => rfl
  | fin x => exact h.elim
  | pinf => show Dbl.infOfSign 0 = _; simp [Dbl.infOfSign]
  | ninf => show Dbl.infOfSign (-0) = _; simp [Dbl.infOfSign]

theorem addR {a b : Dbl} (h : b = .nan) : a + b = .nan := by rw [h, add_nan]
theorem addL {a b : Dbl} (h : a = .nan) : a + b = .nan := by rw [h, nan_add]
theorem subR {a b : Dbl} (h : b = .nan) : a - b = .nan := by rw [h, sub_nan]
theorem subL {a b : Dbl} (h : a = .nan) : a - b = .nan := by rw [h, nan_sub]
theorem mulR {a b : Dbl} (h : b = .nan) : a * b = .nan := by rw [h, mul_nan]

/-- a sum whose first term has a vanishing denominator (proved by `t`) -/
syntax "nonfin" term : tactic
macro_rules
  | `(tactic| nonfin $t) => `(tactic| first | exact nonfin_div _ $t | (refine nonfin_add ?_ _; nonfin $t) | (refine nonfin_sub ?_ _; nonfin $t))

/-- a sum one of whose terms is a vanishing factor (`z`) times such a sum -/
syntax "nansum" term:max term:max : tactic
macro_rules
  | `(tactic| nansum $z $t) => `(tactic| first
      | (refine addR (zero_mul_nonfin $z ?_); nonfin $t)
      | (refine addL ?_; nansum $z $t) | (refine subL ?_; nansum $z $t))

theorem two_sq {l : Dbl} (h : l = .fin 0) (k : ℕ) : @OfNat.ofNat Dbl k (FOps.instOfNat k) * Himalaya.pow2 l = .fin 0 := by
  subst h; simp [Himalaya.pow2]

theorem yb6_nan (a : Yb6.Arg Dbl) (hl : a.log_mD32_mQ32 = .fin 0) (hd : (a.mD32 - a.mQ32) * Himalaya.pow2 a.cbeta = .fin 0) :
    Yb6.formula a = .nan := by
  unfold Yb6.formula
  refine mulR ?_
  nansum (two_sq hl 2) hd

theorem one_sq {l : Dbl} (h : l = .fin 0) : Himalaya.pow2 l = .fin 0 := by
  subst h; simp [Himalaya.pow2]

theorem yt2yb4_nan (a : Yt2Yb4.Arg Dbl) (hl : a.log_mD32_mQ32 = .fin 0)
    (hd : a.cbeta * a.mD32 * a.sbeta - a.cbeta * a.mQ32 * a.sbeta = .fin 0) : Yt2Yb4.formula a = .nan := by
  unfold Yt2Yb4.formula
  nansum (two_sq hl 6) hd

theorem yt4yb2_nan (a : Yt4Yb2.Arg Dbl) (hl : a.log_mD32_mQ32 = .fin 0)
    (hd : a.cbeta * (a.mD32 - a.mQ32) * (a.mD32 - a.Mu2) * a.sbeta = .fin 0) : Yt4Yb2.formula a = .nan := by
  unfold Yt4Yb2.formula
  nansum (two_sq hl 6) hd

theorem yt4yb2_nan_u (a : Yt4Yb2.Arg Dbl) (hl : a.log_mU32_mQ32 = .fin 0)
    (hd : a.cbeta * a.mQ32 * a.sbeta - a.cbeta * a.mU32 * a.sbeta = .fin 0) : Yt4Yb2.formula a = .nan := by
  unfold Yt4Yb2.formula
  nansum (two_sq hl 6) hd

theorem yt2yb4_nan_u (a : Yt2Yb4.Arg Dbl) (hl : a.log_mU32_mQ32 = .fin 0)
    (hd : a.cbeta * (a.Mu2 - a.mU32) * (-a.mQ32 + a.mU32) * a.sbeta = .fin 0) : Yt2Yb4.formula a = .nan := by
  unfold Yt2Yb4.formula
  nansum (one_sq hl) hd

theorem neg_nan : (-Dbl.nan : Dbl) = .nan := rfl
theorem discardNaN_nan : discardNaN Dbl.nan = Dbl.fin 0 := by simp [discardNaN]

/-- **C72.** If the threshold correction of order `yb^6` is NaN, the two-loop correction is returned without any correction of this
order and without an error: the result is the same as with this order switched off. -/
theorem C72_dropped_yb6 (thr : ThrOrder → Int → Except String Dbl) (t : ThrOrder → Dbl) (m : Int) (ht : ∀ o, thr o m = .ok (t o))
    (hn : t .LAMBDA_YB6 = .nan) (c : EftCalc Dbl) (n : Int) :
    c.loop2 thr n m = (c.setFlag .YB6 0).loop2 thr n m := by
  have off6 : (c.setFlag .YB6 0).on .YB6 = false := by simp [EftCalc.setFlag, EftCalc.on, Flags.put]
  have on' : ∀ o, o ≠ .YB6 → (c.setFlag .YB6 0).on o = c.on o := fun o ho => by simp [EftCalc.setFlag, EftCalc.on, Flags.put, ho]
  have ci : ∀ (b : Bool) o, calcIf b (thr o m) = .ok (zeroIf b (t o)) := fun b o => by
    cases b <;> simp [calcIf, zeroIf, ht]
  unfold EftCalc.loop2
  simp only [ci, bindOk, off6, on' .YT6 (by decide), on' .G32YT4 (by decide), on' .G32YB4 (by decide), on' .YTAU2YB4 (by decide), on' .YT2YB4 (by decide), on' .YB2YT4 (by decide), on' .YTAU6 (by decide), on' .YTAU4YB2 (by decide)]
  have e : (c.setFlag .YB6 0).p = c.p := rfl
  rw [e]
  cases h6 : c.on .YB6 with
  | false => rfl
  | true =>
    simp only [zeroIf, if_true, hn, add_nan, nan_add, nan_sub, sub_nan, nan_mul, mul_nan, neg_nan, Bool.true_or, Bool.false_or,
      Bool.or_true, Bool.or_false, Bool.false_eq_true, if_false, discardNaN]
    cases c.on .YTAU2YB4 <;> cases c.on .YT2YB4 <;> cases c.on .YTAU4YB2 <;> cases c.on .YB2YT4 <;> cases c.on .YB6 <;> cases c.on .YT6 <;>
      simp only [nan_div, Dbl.nan_isNaN, if_true, Bool.false_eq_true, if_false, Bool.or_true, Bool.or_false, Bool.true_or, Bool.false_or]

/-- **C72.** If the threshold correction of order `yt^2 yb^4` is NaN, the two-loop correction is returned without any correction of this
order and without an error: the result is the same as with this order switched off. -/
theorem C72_dropped_yt2yb4 (thr : ThrOrder → Int → Except String Dbl) (t : ThrOrder → Dbl) (m : Int) (ht : ∀ o, thr o m = .ok (t o))
    (hn : t .LAMBDA_YT2_YB4 = .nan) (c : EftCalc Dbl) (n : Int) :
    c.loop2 thr n m = (c.setFlag .YT2YB4 0).loop2 thr n m := by
  have off6 : (c.setFlag .YT2YB4 0).on .YT2YB4 = false := by simp [EftCalc.setFlag, EftCalc.on, Flags.put]
  have on' : ∀ o, o ≠ .YT2YB4 → (c.setFlag .YT2YB4 0).on o = c.on o := fun o ho => by simp [EftCalc.setFlag, EftCalc.on, Flags.put, ho]
  have ci : ∀ (b : Bool) o, calcIf b (thr o m) = .ok (zeroIf b (t o)) := fun b o => by
    cases b <;> simp [calcIf, zeroIf, ht]
  unfold EftCalc.loop2
  simp only [ci, bindOk, off6, on' .YT6 (by decide), on' .G32YT4 (by decide), on' .G32YB4 (by decide), on' .YB6 (by decide), on' .YTAU2YB4 (by decide), on' .YB2YT4 (by decide), on' .YTAU6 (by decide), on' .YTAU4YB2 (by decide)]
  have e : (c.setFlag .YT2YB4 0).p = c.p := rfl
  rw [e]
  cases h6 : c.on .YT2YB4 with
  | false => rfl
  | true =>
    simp only [zeroIf, if_true, hn, add_nan, nan_add, nan_sub, sub_nan, nan_mul, mul_nan, neg_nan, Bool.true_or, Bool.false_or,
      Bool.or_true, Bool.or_false, Bool.false_eq_true, if_false, discardNaN]
    cases c.on .YTAU2YB4 <;> cases c.on .YT2YB4 <;> cases c.on .YTAU4YB2 <;> cases c.on .YB2YT4 <;> cases c.on .YB6 <;> cases c.on .YT6 <;>
      simp only [nan_div, Dbl.nan_isNaN, if_true, Bool.false_eq_true, if_false, Bool.or_true, Bool.or_false, Bool.true_or, Bool.false_or]

/-- **C72.** If the threshold correction of order `yt^4 yb^2` is NaN, the two-loop correction is returned without any correction of this
order and without an error: the result is the same as with this order switched off. -/
theorem C72_dropped_yt4yb2 (thr : ThrOrder → Int → Except String Dbl) (t : ThrOrder → Dbl) (m : Int) (ht : ∀ o, thr o m = .ok (t o))
    (hn : t .LAMBDA_YT4_YB2 = .nan) (c : EftCalc Dbl) (n : Int) :
    c.loop2 thr n m = (c.setFlag .YB2YT4 0).loop2 thr n m := by
  have off6 : (c.setFlag .YB2YT4 0).on .YB2YT4 = false := by simp [EftCalc.setFlag, EftCalc.on, Flags.put]
  have on' : ∀ o, o ≠ .YB2YT4 → (c.setFlag .YB2YT4 0).on o = c.on o := fun o ho => by simp [EftCalc.setFlag, EftCalc.on, Flags.put, ho]
  have ci : ∀ (b : Bool) o, calcIf b (thr o m) = .ok (zeroIf b (t o)) := fun b o => by
    cases b <;> simp [calcIf, zeroIf, ht]
  unfold EftCalc.loop2
  simp only [ci, bindOk, off6, on' .YT6 (by decide), on' .G32YT4 (by decide), on' .G32YB4 (by decide), on' .YB6 (by decide), on' .YTAU2YB4 (by decide), on' .YT2YB4 (by decide), on' .YTAU6 (by decide), on' .YTAU4YB2 (by decide)]
  have e : (c.setFlag .YB2YT4 0).p = c.p := rfl
  rw [e]
  cases h6 : c.on .YB2YT4 with
  | false => rfl
  | true =>
    simp only [zeroIf, if_true, hn, add_nan, nan_add, nan_sub, sub_nan, nan_mul, mul_nan, neg_nan, Bool.true_or, Bool.false_or,
      Bool.or_true, Bool.or_false, Bool.false_eq_true, if_false, discardNaN]
    cases c.on .YTAU2YB4 <;> cases c.on .YT2YB4 <;> cases c.on .YTAU4YB2 <;> cases c.on .YB2YT4 <;> cases c.on .YB6 <;> cases c.on .YT6 <;>
      simp only [nan_div, Dbl.nan_isNaN, if_true, Bool.false_eq_true, if_false, Bool.or_true, Bool.or_false, Bool.true_or, Bool.false_or]

/-- Every threshold correction is returned, unless the mass limit is outside the enumeration. -/
theorem thr_total (dl : Dbl → Dbl) (phi : Dbl → Dbl → Dbl → Dbl) (c : TcObj Dbl) (o : ThrOrder) (n : Int)
    (hl : ∀ i, c.limit ≠ .other i) : ∃ x, c.thr (thrFns4 dl phi) o .DRBARPRIME n = .ok x := by
  unfold TcObj.thr
  rcases h : c.limit with _ | _ | _ | _ | _ | _ | i
  on_goal 7 => exact absurd h (hl i)
  all_goals cases o <;> exact ⟨_, rfl⟩

/-- Parameter points with `mQ3^2 = mD3^2`: the masses and VEVs are finite and positive, and `mu` is not within 1% of `mQ3`
(it may be negative). -/
structure EqualDQ (p : Params Dbl) (q m w d : ℝ) : Prop where
  mq : p.mq2 2 2 = .fin q
  md : p.md2 2 2 = .fin q
  mu : p.mu = .fin m
  vu : p.vu = .fin w
  vd : p.vd = .fin d
  q0 : 0 < q
  w0 : 0 < w
  d0 : 0 < d
  far : Real.sqrt q / 100 ≤ |m - Real.sqrt q|

/-- Parameter points with `mQ3^2 = mU3^2`. -/
structure EqualUQ (p : Params Dbl) (q m w d : ℝ) : Prop where
  mq : p.mq2 2 2 = .fin q
  mu2 : p.mu2 2 2 = .fin q
  mu : p.mu = .fin m
  vu : p.vu = .fin w
  vd : p.vd = .fin d
  q0 : 0 < q
  w0 : 0 < w
  d0 : 0 < d
  far : Real.sqrt q / 100 ≤ |m - Real.sqrt q|

theorem beta_fin {p : Params Dbl} {w d : ℝ} (vu : p.vu = .fin w) (vd : p.vd = .fin d) (w0 : 0 < w) (d0 : 0 < d) :
    (∃ s, eftSinBeta p = .fin s) ∧ ∃ c, eftCosBeta p = .fin c := by
  have hv : eftV p = .fin (Real.sqrt (w * w + d * d)) := by
    unfold eftV eftV2 Himalaya.pow2; rw [vu, vd, Dbl.fin_mul, Dbl.fin_mul, Dbl.fin_add, Dbl.fin_sqrt _ (by positivity)]
  have v0 : Real.sqrt (w * w + d * d) ≠ 0 := (Real.sqrt_pos.2 (by positivity)).ne'
  exact ⟨⟨_, by unfold eftSinBeta; rw [vu, hv, Dbl.fin_div _ _ v0]⟩, ⟨_, by unfold eftCosBeta; rw [vd, hv, Dbl.fin_div _ _ v0]⟩⟩

theorem far_false {q m : ℝ} (q0 : 0 < q) (far : Real.sqrt q / 100 ≤ |m - Real.sqrt q|) :
    FOps.lt (FOps.abs (Dbl.fin m - FOps.sqrt (Dbl.fin q))) (FOps.sqrt (Dbl.fin q) * FOps.lit (1/100)) = false := by
  rw [Dbl.fin_sqrt _ q0.le, Dbl.fin_sub, Dbl.fin_abs, Dbl.fin_lit, Dbl.fin_mul, Dbl.fin_lt, decide_eq_false_iff_not]
  push_cast; linarith

theorem log_eq {q : ℝ} (q0 : 0 < q) : FOps.log (Dbl.fin q / Dbl.fin q) = Dbl.fin 0 := by
  rw [Dbl.fin_div _ _ q0.ne', div_self q0.ne', log_one_fin]

/-- **C72 (negation).** Equal soft masses `mQ3 = mD3`: the threshold correction of order `yb^6` is NaN. -/
theorem C72_yb6_nan (dilog : Dbl → Dbl) (phi : Dbl → Dbl → Dbl → Dbl) (c : TcObj Dbl) {q m w d : ℝ} (h : EqualDQ c.p q m w d) (n : Int) :
    c.dLamYb6 dilog phi n = .nan := by
  obtain ⟨mq, md, mu, vu, vd, q0, w0, d0, far⟩ := h
  obtain ⟨⟨s, hs⟩, ⟨k, hk⟩⟩ := beta_fin vu vd w0 d0
  have f := far_false q0 far
  unfold TcObj.dLamYb6
  simp only [mq, md, mu, f, Bool.and_false, Bool.false_eq_true, if_false]
  refine yb6_nan _ (log_eq q0) ?_
  simp only [hk, Dbl.fin_sub, Himalaya.pow2, Dbl.fin_mul, sub_self, zero_mul]

/-- **C72 (negation).** Equal soft masses `mQ3 = mD3`: the threshold correction of order `yt^2 yb^4` is NaN. -/
theorem C72_yt2yb4_nan (dilog : Dbl → Dbl) (phi : Dbl → Dbl → Dbl → Dbl) (c : TcObj Dbl) {q m w d : ℝ} (h : EqualDQ c.p q m w d)
    (n : Int) : c.dLamYt2Yb4 dilog phi n = .nan := by
  obtain ⟨mq, md, mu, vu, vd, q0, w0, d0, far⟩ := h
  obtain ⟨⟨s, hs⟩, ⟨k, hk⟩⟩ := beta_fin vu vd w0 d0
  have f := far_false q0 far
  unfold TcObj.dLamYt2Yb4
  simp only [mq, md, mu, f, Bool.and_false, Bool.false_eq_true, if_false]
  refine yt2yb4_nan _ (log_eq q0) ?_
  simp only [hk, hs, Dbl.fin_sub, Himalaya.pow2, Dbl.fin_mul, sub_self, zero_mul]

/-- **C72 (negation).** Equal soft masses `mQ3 = mD3`: the threshold correction of order `yt^4 yb^2` is NaN. -/
theorem C72_yt4yb2_nan (dilog : Dbl → Dbl) (phi : Dbl → Dbl → Dbl → Dbl) (c : TcObj Dbl) {q m w d : ℝ} (h : EqualDQ c.p q m w d)
    (n : Int) : c.dLamYt4Yb2 dilog phi n = .nan := by
  obtain ⟨mq, md, mu, vu, vd, q0, w0, d0, far⟩ := h
  obtain ⟨⟨s, hs⟩, ⟨k, hk⟩⟩ := beta_fin vu vd w0 d0
  have f := far_false q0 far
  unfold TcObj.dLamYt4Yb2
  simp only [mq, md, mu, f, Bool.and_false, Bool.false_eq_true, if_false]
  refine yt4yb2_nan _ (log_eq q0) ?_
  simp only [hk, hs, Dbl.fin_sub, Himalaya.pow2, Dbl.fin_mul, sub_self, zero_mul, mul_zero]

/-- **C72 (negation).** Equal soft masses `mQ3 = mU3`: the threshold correction of order `yt^2 yb^4` is NaN. -/
theorem C72_yt2yb4_nan_u (dilog : Dbl → Dbl) (phi : Dbl → Dbl → Dbl → Dbl) (c : TcObj Dbl) {q m w d : ℝ} (h : EqualUQ c.p q m w d)
    (n : Int) : c.dLamYt2Yb4 dilog phi n = .nan := by
  obtain ⟨mq, md, mu, vu, vd, q0, w0, d0, far⟩ := h
  obtain ⟨⟨s, hs⟩, ⟨k, hk⟩⟩ := beta_fin vu vd w0 d0
  have f := far_false q0 far
  unfold TcObj.dLamYt2Yb4
  simp only [mq, md, mu, f, Bool.and_false, Bool.false_eq_true, if_false]
  refine yt2yb4_nan_u _ (log_eq q0) ?_
  simp only [hk, hs, Dbl.fin_sub, Dbl.fin_neg, Dbl.fin_add, neg_add_cancel, Himalaya.pow2, Dbl.fin_mul, sub_self, zero_mul, mul_zero]

/-- **C72 (negation).** Equal soft masses `mQ3 = mU3`: the threshold correction of order `yt^4 yb^2` is NaN. -/
theorem C72_yt4yb2_nan_u (dilog : Dbl → Dbl) (phi : Dbl → Dbl → Dbl → Dbl) (c : TcObj Dbl) {q m w d : ℝ} (h : EqualUQ c.p q m w d)
    (n : Int) : c.dLamYt4Yb2 dilog phi n = .nan := by
  obtain ⟨mq, md, mu, vu, vd, q0, w0, d0, far⟩ := h
  obtain ⟨⟨s, hs⟩, ⟨k, hk⟩⟩ := beta_fin vu vd w0 d0
  have f := far_false q0 far
  unfold TcObj.dLamYt4Yb2
  simp only [mq, md, mu, f, Bool.and_false, Bool.false_eq_true, if_false]
  refine yt4yb2_nan_u _ (log_eq q0) ?_
  simp only [hk, hs, Dbl.fin_sub, Himalaya.pow2, Dbl.fin_mul, sub_self, zero_mul, mul_zero]

/-- Both kinds of points exist, with a common point: `mQ3 = mU3 = mD3 = 1000`, `mu = -1000`. -/
example : ∃ p : Params Dbl, EqualDQ p 1000000 (-1000) 1 1 ∧ EqualUQ p 1000000 (-1000) 1 1 := by
  have s : Real.sqrt 1000000 = 1000 := by rw [show (1000000 : ℝ) = 1000 ^ 2 by norm_num]; exact Real.sqrt_sq (by norm_num)
  have f : Real.sqrt 1000000 / 100 ≤ |(-1000) - Real.sqrt 1000000| := by rw [s]; norm_num
  exact ⟨{ (Himalaya.demo 1 1) with
    mq2 := fun _ _ => .fin 1000000, mu2 := fun _ _ => .fin 1000000, md2 := fun _ _ => .fin 1000000, mu := .fin (-1000),
    vu := .fin 1, vd := .fin 1 }, ⟨rfl, rfl, rfl, rfl, rfl, by norm_num, by norm_num, by norm_num, f⟩,
    ⟨rfl, rfl, rfl, rfl, rfl, by norm_num, by norm_num, by norm_num, f⟩⟩

/-- **C72 (negation).** With equal soft masses `mQ3 = mD3` the two-loop correction of the EFT calculation is returned without an error,
but without the contributions of the orders `yb^6`, `yt^2 yb^4` and `yt^4 yb^2`: switching any of these orders off does not change it. -/
theorem C72_equal_masses (dl : Dbl → Dbl) (phi : Dbl → Dbl → Dbl → Dbl) (t : TcObj Dbl) (hl : ∀ i, t.limit ≠ .other i)
    {q m w d : ℝ} (h : EqualDQ t.p q m w d) (c : EftCalc Dbl) (n k : Int) (o : Order) (ho : o = .YB6 ∨ o = .YT2YB4 ∨ o = .YB2YT4) :
    c.loop2 (fun o k => t.thr (thrFns4 dl phi) o .DRBARPRIME k) n k =
      (c.setFlag o 0).loop2 (fun o k => t.thr (thrFns4 dl phi) o .DRBARPRIME k) n k := by
  choose f hf using fun o => thr_total dl phi t o k hl
  rcases ho with rfl | rfl | rfl
  · refine C72_dropped_yb6 _ f k hf ?_ c n
    have e : t.thr (thrFns4 dl phi) .LAMBDA_YB6 .DRBARPRIME k = .ok (t.dLamYb6 dl phi k) := rfl
    rw [hf] at e; rw [Except.ok.inj e]; exact C72_yb6_nan dl phi t h k
  · refine C72_dropped_yt2yb4 _ f k hf ?_ c n
    have e : t.thr (thrFns4 dl phi) .LAMBDA_YT2_YB4 .DRBARPRIME k = .ok (t.dLamYt2Yb4 dl phi k) := rfl
    rw [hf] at e; rw [Except.ok.inj e]; exact C72_yt2yb4_nan dl phi t h k
  · refine C72_dropped_yt4yb2 _ f k hf ?_ c n
    have e : t.thr (thrFns4 dl phi) .LAMBDA_YT4_YB2 .DRBARPRIME k = .ok (t.dLamYt4Yb2 dl phi k) := rfl
    rw [hf] at e; rw [Except.ok.inj e]; exact C72_yt4yb2_nan dl phi t h k

/-- a finite number -/
def IsFin (a : Dbl) : Prop := ∃ x : ℝ, a = .fin x

theorem IsFin.add {a b : Dbl} : IsFin a → IsFin b → IsFin (a + b) := by rintro ⟨x, rfl⟩ ⟨y, rfl⟩; exact ⟨_, Dbl.fin_add _ _⟩
theorem IsFin.sub {a b : Dbl} : IsFin a → IsFin b → IsFin (a - b) := by rintro ⟨x, rfl⟩ ⟨y, rfl⟩; exact ⟨_, Dbl.fin_sub _ _⟩
theorem IsFin.mul {a b : Dbl} : IsFin a → IsFin b → IsFin (a * b) := by rintro ⟨x, rfl⟩ ⟨y, rfl⟩; exact ⟨_, Dbl.fin_mul _ _⟩
theorem IsFin.neg {a : Dbl} : IsFin a → IsFin (-a) := by rintro ⟨x, rfl⟩; exact ⟨_, Dbl.fin_neg _⟩
theorem IsFin.div {a b : Dbl} {x : ℝ} (h : b = .fin x) (hx : x ≠ 0) : IsFin a → IsFin (a / b) := by
  rintro ⟨y, rfl⟩; subst h; exact ⟨_, Dbl.fin_div _ _ hx⟩
theorem IsFin.lit (x : ℚ) : IsFin (FOps.lit x) := ⟨_, Dbl.fin_lit _⟩
theorem IsFin.nat (k : ℕ) : IsFin (@OfNat.ofNat Dbl k (FOps.instOfNat k)) := ⟨_, Dbl.fin_ofNat _⟩
theorem IsFin.p2 {a : Dbl} (h : IsFin a) : IsFin (Himalaya.pow2 a) := h.mul h
theorem IsFin.p3 {a : Dbl} (h : IsFin a) : IsFin (Misc.pow3 a) := (h.mul h).mul h
theorem IsFin.p4 {a : Dbl} (h : IsFin a) : IsFin (Misc.pow4 a) := (h.mul h).mul (h.mul h)
theorem IsFin.p5 {a : Dbl} (h : IsFin a) : IsFin (Misc.pow5 a) := ((h.mul h).mul (h.mul h)).mul h
theorem IsFin.p6 {a : Dbl} (h : IsFin a) : IsFin (Misc.pow6 a) := ((h.mul h).mul h).mul ((h.mul h).mul h)
theorem p6_ne {x : ℝ} (h : x ≠ 0) : ∃ y : ℝ, Misc.pow6 (Dbl.fin x) = .fin y ∧ y ≠ 0 :=
  ⟨(x * x * x) * (x * x * x), by simp only [Misc.pow6, Misc.pow3, Misc.pow2, Dbl.fin_mul], by positivity⟩

/-- sums and products of finite numbers -/
macro "finite" : tactic => `(tactic| repeat' first
  | assumption | exact IsFin.lit _ | exact IsFin.nat _ | refine IsFin.add ?_ ?_ | refine IsFin.sub ?_ ?_ | refine IsFin.mul ?_ ?_
  | refine IsFin.neg ?_ | refine IsFin.p2 ?_ | refine IsFin.p3 ?_ | refine IsFin.p4 ?_ | refine IsFin.p5 ?_ | refine IsFin.p6 ?_)

/-- Parameter points in the region of the limit formulas: `mU3`, `mD3`, `MA` and `mu` within 1% of `mQ3`, and finite trilinear
couplings. -/
structure Near (p : Params Dbl) (q u d A m w₁ w₂ : ℝ) : Prop where
  mq : p.mq2 2 2 = .fin q
  mu2 : p.mu2 2 2 = .fin u
  md : p.md2 2 2 = .fin d
  MA : p.MA = .fin A
  mu : p.mu = .fin m
  vu : p.vu = .fin w₁
  vd : p.vd = .fin w₂
  At : IsFin (p.Au 2 2)
  Ab : IsFin (p.Ad 2 2)
  q0 : 0 < q
  u0 : 0 < u
  d0 : 0 < d
  vu0 : 0 < w₁
  vd0 : 0 < w₂
  nu : |Real.sqrt u - Real.sqrt q| < Real.sqrt q / 100
  nd : |Real.sqrt d - Real.sqrt q| < Real.sqrt q / 100
  nA : |A - Real.sqrt q| < Real.sqrt q / 100
  nm : |m - Real.sqrt q| < Real.sqrt q / 100

theorem near_true {q x : ℝ} (q0 : 0 < q) (h : |x - Real.sqrt q| < Real.sqrt q / 100) :
    FOps.lt (FOps.abs (Dbl.fin x - FOps.sqrt (Dbl.fin q))) (FOps.sqrt (Dbl.fin q) * FOps.lit (1/100)) = true := by
  rw [Dbl.fin_sqrt _ q0.le, Dbl.fin_sub, Dbl.fin_abs, Dbl.fin_lit, Dbl.fin_mul, Dbl.fin_lt, decide_eq_true_eq]
  push_cast; linarith

theorem Near.facts {p : Params Dbl} {q u d A m vu vd : ℝ} (h : Near p q u d A m vu vd) :
    IsFin (eftSinBeta p) ∧ IsFin (eftCosBeta p) ∧ IsFin (calcXt p) ∧ IsFin (calcYt p) ∧ IsFin (calcXb p) ∧ IsFin (calcYb p) := by
  obtain ⟨hs, hc⟩ := beta_fin h.vu h.vd h.vu0 h.vd0
  have tb : eftTanBeta p = .fin (vu / vd) := by unfold eftTanBeta; rw [h.vu, h.vd, Dbl.fin_div _ _ h.vd0.ne']
  have t0 : vu / vd ≠ 0 := (div_pos h.vu0 h.vd0).ne'
  have m0 : IsFin p.mu := ⟨_, h.mu⟩
  have tb' : IsFin (eftTanBeta p) := ⟨_, tb⟩
  exact ⟨hs, hc, h.At.sub (m0.div tb t0), h.At.add (m0.mul tb'), h.Ab.sub (m0.mul tb'), h.Ab.add (m0.div tb t0)⟩

theorem msq_ne {q d : ℝ} (q0 : 0 < q) (d0 : 0 < d) :
    ∃ M : ℝ, FOps.sqrt (FOps.sqrt (Dbl.fin q) * FOps.sqrt (Dbl.fin d)) = .fin M ∧ M ≠ 0 := by
  have := Real.sqrt_pos.2 q0
  have := Real.sqrt_pos.2 d0
  exact ⟨_, by rw [Dbl.fin_sqrt _ q0.le, Dbl.fin_sqrt _ d0.le, Dbl.fin_mul, Dbl.fin_sqrt _ (by positivity)],
    (Real.sqrt_pos.2 (by positivity)).ne'⟩

/-- **C72.** In the region of the limit formulas the correction is a finite number. -/
theorem C72_yb6_finite (dilog : Dbl → Dbl) (phi : Dbl → Dbl → Dbl → Dbl) (c : TcObj Dbl) {q u d A m vu vd : ℝ}
    (h : Near c.p q u d A m vu vd) (n : Int) : ∃ x : ℝ, c.dLamYb6 dilog phi n = .fin x := by
  obtain ⟨hs, hc, hXt, hYt, hXb, hYb⟩ := h.facts
  have n1 : FOps.lt (FOps.abs (FOps.sqrt (Dbl.fin u) - FOps.sqrt (Dbl.fin q))) (FOps.sqrt (Dbl.fin q) * FOps.lit (1/100)) = true := by
    rw [Dbl.fin_sqrt u h.u0.le]; exact near_true h.q0 h.nu
  have n2 : FOps.lt (FOps.abs (FOps.sqrt (Dbl.fin d) - FOps.sqrt (Dbl.fin q))) (FOps.sqrt (Dbl.fin q) * FOps.lit (1/100)) = true := by
    rw [Dbl.fin_sqrt d h.d0.le]; exact near_true h.q0 h.nd
  have n3 := near_true h.q0 h.nA
  have n4 := near_true h.q0 h.nm
  obtain ⟨M, hM, M0⟩ := msq_ne h.q0 h.d0
  obtain ⟨y, hy, y0⟩ := p6_ne M0
  have hMf : IsFin (.fin M) := ⟨_, rfl⟩
  unfold TcObj.dLamYb6
  simp only [h.mq, h.mu2, h.md, h.MA, h.mu, n1, n2, n3, n4, Bool.and_self, if_true, hM]
  refine IsFin.div hy y0 ?_
  finite

/-- **C72.** In the region of the limit formulas the correction is a finite number. -/
theorem C72_yt2yb4_finite (dilog : Dbl → Dbl) (phi : Dbl → Dbl → Dbl → Dbl) (c : TcObj Dbl) {q u d A m vu vd : ℝ}
    (h : Near c.p q u d A m vu vd) (n : Int) : ∃ x : ℝ, c.dLamYt2Yb4 dilog phi n = .fin x := by
  obtain ⟨hs, hc, hXt, hYt, hXb, hYb⟩ := h.facts
  have n1 : FOps.lt (FOps.abs (FOps.sqrt (Dbl.fin u) - FOps.sqrt (Dbl.fin q))) (FOps.sqrt (Dbl.fin q) * FOps.lit (1/100)) = true := by
    rw [Dbl.fin_sqrt u h.u0.le]; exact near_true h.q0 h.nu
  have n2 : FOps.lt (FOps.abs (FOps.sqrt (Dbl.fin d) - FOps.sqrt (Dbl.fin q))) (FOps.sqrt (Dbl.fin q) * FOps.lit (1/100)) = true := by
    rw [Dbl.fin_sqrt d h.d0.le]; exact near_true h.q0 h.nd
  have n3 := near_true h.q0 h.nA
  have n4 := near_true h.q0 h.nm
  obtain ⟨M, hM, M0⟩ := msq_ne h.q0 h.d0
  obtain ⟨y, hy, y0⟩ := p6_ne M0
  have hMf : IsFin (.fin M) := ⟨_, rfl⟩
  unfold TcObj.dLamYt2Yb4
  simp only [h.mq, h.mu2, h.md, h.MA, h.mu, n1, n2, n3, n4, Bool.and_self, if_true, hM]
  refine IsFin.div hy y0 ?_
  finite

/-- **C72.** In the region of the limit formulas the correction is a finite number. -/
theorem C72_yt4yb2_finite (dilog : Dbl → Dbl) (phi : Dbl → Dbl → Dbl → Dbl) (c : TcObj Dbl) {q u d A m vu vd : ℝ}
    (h : Near c.p q u d A m vu vd) (n : Int) : ∃ x : ℝ, c.dLamYt4Yb2 dilog phi n = .fin x := by
  obtain ⟨hs, hc, hXt, hYt, hXb, hYb⟩ := h.facts
  have n1 : FOps.lt (FOps.abs (FOps.sqrt (Dbl.fin u) - FOps.sqrt (Dbl.fin q))) (FOps.sqrt (Dbl.fin q) * FOps.lit (1/100)) = true := by
    rw [Dbl.fin_sqrt u h.u0.le]; exact near_true h.q0 h.nu
  have n2 : FOps.lt (FOps.abs (FOps.sqrt (Dbl.fin d) - FOps.sqrt (Dbl.fin q))) (FOps.sqrt (Dbl.fin q) * FOps.lit (1/100)) = true := by
    rw [Dbl.fin_sqrt d h.d0.le]; exact near_true h.q0 h.nd
  have n3 := near_true h.q0 h.nA
  have n4 := near_true h.q0 h.nm
  obtain ⟨M, hM, M0⟩ := msq_ne h.q0 h.u0
  obtain ⟨y, hy, y0⟩ := p6_ne M0
  have hMf : IsFin (.fin M) := ⟨_, rfl⟩
  unfold TcObj.dLamYt4Yb2
  simp only [h.mq, h.mu2, h.md, h.MA, h.mu, n1, n2, n3, n4, Bool.and_self, if_true, hM]
  refine IsFin.div hy y0 ?_
  finite

/-- Points in this region exist. -/
example : ∃ p : Params Dbl, Near p 1000000 1000000 1000000 1000 1000 1 1 := by
  have s : Real.sqrt 1000000 = 1000 := by rw [show (1000000 : ℝ) = 1000 ^ 2 by norm_num]; exact Real.sqrt_sq (by norm_num)
  refine ⟨{ (Himalaya.demo 1 1) with
    mq2 := fun _ _ => .fin 1000000, mu2 := fun _ _ => .fin 1000000, md2 := fun _ _ => .fin 1000000, mu := .fin 1000, MA := .fin 1000,
    Au := fun _ _ => .fin 5, Ad := fun _ _ => .fin 7, vu := .fin 1, vd := .fin 1 },
    ⟨rfl, rfl, rfl, rfl, rfl, rfl, rfl, ⟨_, rfl⟩, ⟨_, rfl⟩, ?_, ?_, ?_, ?_, ?_, ?_, ?_, ?_, ?_⟩⟩ <;> (try rw [s]) <;> norm_num

end Himalaya.Pole
