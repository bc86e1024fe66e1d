import Verif.EFT.Signs
import Verif.Kron.LaurentSubst

/-!
# C74: `|μ|` in the corrections of the orders `yt^2 yb^4` and `yt^4 yb^2`

The C++ code of these two corrections contains `|μ|` and `(μ^2)^(3/2)` multiplied by odd powers of `X_t` and `X_b`.  They are therefore not symmetric
with respect to a common change of the signs of `μ` and the trilinear couplings.  Generated by `tools/gen_signsmu.py`.
-/

set_option linter.unusedSimpArgs false
set_option linter.unusedVariables false
set_option maxRecDepth 40000

namespace Himalaya.Signs

open scoped Himalaya
open Kron Scale

/-- a point with `μ` = 8 and vanishing trilinear couplings at the renormalisation scale `s` -/
noncomputable def muPoint (s : ℝ) : Params ℝ :=
  { examplePoint with scale := s, vu := 3, vd := 4, mq2 := fun _ _ => 1, mu2 := fun _ _ => 4, md2 := fun _ _ => 16, mu := 8, MA := 7, Au := fun _ _ => 0, Ad := fun _ _ => 0 }
noncomputable def muTc (s : ℝ) : TcObj ℝ := ⟨muPoint s, 1, 6⟩

/-- the two points, `x` is `μ` -/
structure AtPoint (p : Params ℝ) (x s : ℝ) : Prop where
  mu : p.mu = x
  scale : p.scale = s
  vu : p.vu = 3
  vd : p.vd = 4
  mq2 : p.mq2 2 2 = 1
  mu2 : p.mu2 2 2 = 4
  md2 : p.md2 2 2 = 16
  MA : p.MA = 7
  Au : p.Au 2 2 = 0
  Ad : p.Ad 2 2 = 0

theorem atPlus (s : ℝ) : AtPoint (muTc s).p 8 s := ⟨rfl, rfl, rfl, rfl, rfl, rfl, rfl, rfl, rfl, rfl⟩
theorem atMinus (s : ℝ) : AtPoint (flipT (muTc s)).p (-8) s :=
  ⟨rfl, rfl, rfl, rfl, rfl, rfl, rfl, rfl, neg_zero, neg_zero⟩

theorem at_v {p : Params ℝ} {x s : ℝ} (h : AtPoint p x s) : eftV p = 5 := by
  unfold eftV eftV2
  rw [h.vu, h.vd]
  show Real.sqrt (pow2 (3 : ℝ) + pow2 (4 : ℝ)) = 5
  rw [show pow2 (3 : ℝ) + pow2 (4 : ℝ) = 5 ^ 2 by norm_num [pow2]]
  exact Real.sqrt_sq (by norm_num)
theorem at_sin {p : Params ℝ} {x s : ℝ} (h : AtPoint p x s) : eftSinBeta p = ((3/5 : ℚ) : ℝ) := by
  unfold eftSinBeta; rw [at_v h, h.vu]; norm_num
theorem at_cos {p : Params ℝ} {x s : ℝ} (h : AtPoint p x s) : eftCosBeta p = ((4/5 : ℚ) : ℝ) := by
  unfold eftCosBeta; rw [at_v h, h.vd]; norm_num
theorem at_Xt {p : Params ℝ} {x s : ℝ} (h : AtPoint p x s) : calcXt p = -(4/3 * x) := by
  unfold calcXt eftTanBeta; rw [h.Au, h.mu, h.vu, h.vd]; ring
theorem at_Xb {p : Params ℝ} {x s : ℝ} (h : AtPoint p x s) : calcXb p = -(3/4 * x) := by
  unfold calcXb eftTanBeta; rw [h.Ad, h.mu, h.vu, h.vd]; ring
theorem at_Yt {p : Params ℝ} {x s : ℝ} (h : AtPoint p x s) : calcYt p = 3/4 * x := by
  unfold calcYt eftTanBeta; rw [h.Au, h.mu, h.vu, h.vd]; ring
theorem at_Yb {p : Params ℝ} {x s : ℝ} (h : AtPoint p x s) : calcYb p = 4/3 * x := by
  unfold calcYb eftTanBeta; rw [h.Ad, h.mu, h.vu, h.vd]; ring

theorem sqrt_of {x y : ℝ} (hy : 0 ≤ y) (h : x = y ^ 2) : FOps.sqrt x = y := by rw [h]; exact Real.sqrt_sq hy

theorem log_of {a s : ℝ} (ha : 0 < a) (hs : 0 < s) : FOps.log (a / pow2 s) = Real.log a + -(2 * Real.log s) := by
  show Real.log (a / (s * s)) = _
  rw [Real.log_div ha.ne' (mul_pos hs hs).ne', Real.log_mul hs.ne' hs.ne']
  ring
theorem log4 : Real.log 4 = 2 * Real.log 2 := by
  rw [show (4 : ℝ) = 2 ^ 2 by norm_num, Real.log_pow]; norm_num
theorem log16 : Real.log 16 = 4 * Real.log 2 := by
  rw [show (16 : ℝ) = 2 ^ 4 by norm_num, Real.log_pow]; norm_num
theorem log64 : Real.log 64 = 6 * Real.log 2 := by
  rw [show (64 : ℝ) = 2 ^ 6 by norm_num, Real.log_pow]; norm_num

theorem noLimit (a b : Bool) : (FOps.lt (FOps.abs ((2 : ℝ) - 1)) (1 * FOps.lit (1 / 100)) && a && b) = false := by
  have e : FOps.lt (FOps.abs ((2 : ℝ) - 1)) (1 * FOps.lit (1 / 100)) = false := by
    show decide (|(2 : ℝ) - 1| < _) = false
    apply decide_eq_false
    simp only [real_lit]; norm_num
  rw [e]; rfl

/-- the arguments of the formula for `μ` = 8 -/
noncomputable def yt2yb4_plus (dl : ℝ → ℝ) (phi : ℝ → ℝ → ℝ → ℝ) (ell lA L : ℝ) : Yt2Yb4.Arg ℝ :=
  ⟨((8 : ℚ) : ℝ), ((64 : ℚ) : ℝ), ((-6 : ℚ) : ℝ), ((36 : ℚ) : ℝ), ((-32/3 : ℚ) : ℝ), ((1024/9 : ℚ) : ℝ), ((32/3 : ℚ) : ℝ), ((6 : ℚ) : ℝ), ((4/5 : ℚ) : ℝ), L, ((6 : ℚ) : ℝ) * ell + L, ((7 : ℚ) : ℝ), ((49 : ℚ) : ℝ), ((4 : ℚ) : ℝ), ((16 : ℚ) : ℝ), ((1 : ℚ) : ℝ), ((1 : ℚ) : ℝ), ((2 : ℚ) : ℝ), ((4 : ℚ) : ℝ), ((3/5 : ℚ) : ℝ), ((8 : ℚ) : ℝ), dl ((-3 : ℚ) : ℝ), dl ((-63 : ℚ) : ℝ), dl ((-15 : ℚ) : ℝ), lA + L, ((2 : ℚ) : ℝ) * ell, ((512 : ℚ) : ℝ), dl ((-15 : ℚ) : ℝ), ((4 : ℚ) : ℝ) * ell, phi ((49 : ℚ) : ℝ) ((4 : ℚ) : ℝ) ((16 : ℚ) : ℝ), phi ((49 : ℚ) : ℝ) ((1 : ℚ) : ℝ) ((16 : ℚ) : ℝ), phi ((49 : ℚ) : ℝ) ((1 : ℚ) : ℝ) ((1 : ℚ) : ℝ), phi ((49 : ℚ) : ℝ) ((4 : ℚ) : ℝ) ((1 : ℚ) : ℝ), dl ((3/4 : ℚ) : ℝ), dl ((-3 : ℚ) : ℝ)⟩

theorem yt2yb4_plus_eq (dl : ℝ → ℝ) (phi : ℝ → ℝ → ℝ → ℝ) (c : TcObj ℝ) (s : ℝ) (hs : 0 < s) (h : AtPoint c.p 8 s) :
    c.dLamYt2Yb4 dl phi 1 = Yt2Yb4.formula (yt2yb4_plus dl phi (Real.log 2) (Real.log 49) (-(2 * Real.log s))) := by
  rw [Units.dLamYt2Yb4_eq]
  have q1 : FOps.sqrt (1 : ℝ) = 1 := sqrt_of (by norm_num) (by norm_num)
  have q2 : FOps.sqrt (4 : ℝ) = 2 := sqrt_of (by norm_num) (by norm_num)
  have q3 : FOps.sqrt (16 : ℝ) = 4 := sqrt_of (by norm_num) (by norm_num)
  have m2 : pow2 (8 : ℝ) = 64 := by norm_num [pow2]
  have q4 : FOps.sqrt (64 : ℝ) = 8 := sqrt_of (by norm_num) (by norm_num)
  have a2 : pow2 (7 : ℝ) = 49 := by norm_num [pow2]
  have ab : FOps.abs (8 : ℝ) = 8 := by show |_| = (8 : ℝ); norm_num
  have l1 : FOps.log ((1 : ℝ) / pow2 s) = -(2 * Real.log s) := by rw [log_of one_pos hs, Real.log_one, zero_add]
  have l2 : FOps.log ((64 : ℝ) / pow2 s) = 6 * Real.log 2 + -(2 * Real.log s) := by rw [log_of (by norm_num) hs, log64]
  have l3 : FOps.log ((49 : ℝ) / pow2 s) = Real.log 49 + -(2 * Real.log s) := log_of (by norm_num) hs
  have l4 : FOps.log ((4 : ℝ) / 1) = 2 * Real.log 2 := by rw [div_one]; exact log4
  have l5 : FOps.log ((16 : ℝ) / 1) = 4 * Real.log 2 := by rw [div_one]; exact log16
  simp only [at_sin h, at_cos h, at_Xt h, at_Xb h, at_Yt h, at_Yb h, h.mu, h.scale, h.mq2, h.mu2, h.md2, h.MA, q1, q2, q3, m2, q4, a2, ab, l1, l2, l3, l4, l5,
    noLimit, Bool.false_eq_true, if_false]
  refine congrArg _ ?_
  unfold yt2yb4_plus
  simp only [real_ofNat, real_ofInt, pow2]
  norm_num

/-- the arguments of the formula for `μ` = -8 -/
noncomputable def yt2yb4_minus (dl : ℝ → ℝ) (phi : ℝ → ℝ → ℝ → ℝ) (ell lA L : ℝ) : Yt2Yb4.Arg ℝ :=
  ⟨((-8 : ℚ) : ℝ), ((64 : ℚ) : ℝ), ((6 : ℚ) : ℝ), ((36 : ℚ) : ℝ), ((32/3 : ℚ) : ℝ), ((1024/9 : ℚ) : ℝ), ((-32/3 : ℚ) : ℝ), ((-6 : ℚ) : ℝ), ((4/5 : ℚ) : ℝ), L, ((6 : ℚ) : ℝ) * ell + L, ((7 : ℚ) : ℝ), ((49 : ℚ) : ℝ), ((4 : ℚ) : ℝ), ((16 : ℚ) : ℝ), ((1 : ℚ) : ℝ), ((1 : ℚ) : ℝ), ((2 : ℚ) : ℝ), ((4 : ℚ) : ℝ), ((3/5 : ℚ) : ℝ), ((8 : ℚ) : ℝ), dl ((-3 : ℚ) : ℝ), dl ((-63 : ℚ) : ℝ), dl ((-15 : ℚ) : ℝ), lA + L, ((2 : ℚ) : ℝ) * ell, ((512 : ℚ) : ℝ), dl ((-15 : ℚ) : ℝ), ((4 : ℚ) : ℝ) * ell, phi ((49 : ℚ) : ℝ) ((4 : ℚ) : ℝ) ((16 : ℚ) : ℝ), phi ((49 : ℚ) : ℝ) ((1 : ℚ) : ℝ) ((16 : ℚ) : ℝ), phi ((49 : ℚ) : ℝ) ((1 : ℚ) : ℝ) ((1 : ℚ) : ℝ), phi ((49 : ℚ) : ℝ) ((4 : ℚ) : ℝ) ((1 : ℚ) : ℝ), dl ((3/4 : ℚ) : ℝ), dl ((-3 : ℚ) : ℝ)⟩

theorem yt2yb4_minus_eq (dl : ℝ → ℝ) (phi : ℝ → ℝ → ℝ → ℝ) (c : TcObj ℝ) (s : ℝ) (hs : 0 < s) (h : AtPoint c.p (-8) s) :
    c.dLamYt2Yb4 dl phi 1 = Yt2Yb4.formula (yt2yb4_minus dl phi (Real.log 2) (Real.log 49) (-(2 * Real.log s))) := by
  rw [Units.dLamYt2Yb4_eq]
  have q1 : FOps.sqrt (1 : ℝ) = 1 := sqrt_of (by norm_num) (by norm_num)
  have q2 : FOps.sqrt (4 : ℝ) = 2 := sqrt_of (by norm_num) (by norm_num)
  have q3 : FOps.sqrt (16 : ℝ) = 4 := sqrt_of (by norm_num) (by norm_num)
  have m2 : pow2 ((-8) : ℝ) = 64 := by norm_num [pow2]
  have q4 : FOps.sqrt (64 : ℝ) = 8 := sqrt_of (by norm_num) (by norm_num)
  have a2 : pow2 (7 : ℝ) = 49 := by norm_num [pow2]
  have ab : FOps.abs ((-8) : ℝ) = 8 := by show |_| = (8 : ℝ); norm_num
  have l1 : FOps.log ((1 : ℝ) / pow2 s) = -(2 * Real.log s) := by rw [log_of one_pos hs, Real.log_one, zero_add]
  have l2 : FOps.log ((64 : ℝ) / pow2 s) = 6 * Real.log 2 + -(2 * Real.log s) := by rw [log_of (by norm_num) hs, log64]
  have l3 : FOps.log ((49 : ℝ) / pow2 s) = Real.log 49 + -(2 * Real.log s) := log_of (by norm_num) hs
  have l4 : FOps.log ((4 : ℝ) / 1) = 2 * Real.log 2 := by rw [div_one]; exact log4
  have l5 : FOps.log ((16 : ℝ) / 1) = 4 * Real.log 2 := by rw [div_one]; exact log16
  simp only [at_sin h, at_cos h, at_Xt h, at_Xb h, at_Yt h, at_Yb h, h.mu, h.scale, h.mq2, h.mu2, h.md2, h.MA, q1, q2, q3, m2, q4, a2, ab, l1, l2, l3, l4, l5,
    noLimit, Bool.false_eq_true, if_false]
  refine congrArg _ ?_
  unfold yt2yb4_minus
  simp only [real_ofNat, real_ofInt, pow2]
  norm_num

/-- the second difference with respect to the sign of `μ` and the scale, as an expression -/
def yt2yb4_dif : E := .sub (.sub (Yt2Yb4.formula ⟨(.lit (8)), (.lit (64)), (.lit (-6)), (.lit (36)), (.lit (-32/3)), (.lit (1024/9)), (.lit (32/3)), (.lit (6)), (.lit (4/5)), (.add (.var 0) (.lit 1)), (.add (.mul (.lit 6) (.var 1)) (.add (.var 0) (.lit 1))), (.lit (7)), (.lit (49)), (.lit (4)), (.lit (16)), (.lit (1)), (.lit (1)), (.lit (2)), (.lit (4)), (.lit (3/5)), (.lit (8)), (.var 3), (.var 4), (.var 5), (.add (.var 2) (.add (.var 0) (.lit 1))), (.mul (.lit 2) (.var 1)), (.lit (512)), (.var 6), (.mul (.lit 4) (.var 1)), (.var 9), (.var 10), (.var 11), (.var 12), (.var 7), (.var 8)⟩) (Yt2Yb4.formula ⟨(.lit (8)), (.lit (64)), (.lit (-6)), (.lit (36)), (.lit (-32/3)), (.lit (1024/9)), (.lit (32/3)), (.lit (6)), (.lit (4/5)), (.var 0), (.add (.mul (.lit 6) (.var 1)) (.var 0)), (.lit (7)), (.lit (49)), (.lit (4)), (.lit (16)), (.lit (1)), (.lit (1)), (.lit (2)), (.lit (4)), (.lit (3/5)), (.lit (8)), (.var 3), (.var 4), (.var 5), (.add (.var 2) (.var 0)), (.mul (.lit 2) (.var 1)), (.lit (512)), (.var 6), (.mul (.lit 4) (.var 1)), (.var 9), (.var 10), (.var 11), (.var 12), (.var 7), (.var 8)⟩)) (.sub (Yt2Yb4.formula ⟨(.lit (-8)), (.lit (64)), (.lit (6)), (.lit (36)), (.lit (32/3)), (.lit (1024/9)), (.lit (-32/3)), (.lit (-6)), (.lit (4/5)), (.add (.var 0) (.lit 1)), (.add (.mul (.lit 6) (.var 1)) (.add (.var 0) (.lit 1))), (.lit (7)), (.lit (49)), (.lit (4)), (.lit (16)), (.lit (1)), (.lit (1)), (.lit (2)), (.lit (4)), (.lit (3/5)), (.lit (8)), (.var 3), (.var 4), (.var 5), (.add (.var 2) (.add (.var 0) (.lit 1))), (.mul (.lit 2) (.var 1)), (.lit (512)), (.var 6), (.mul (.lit 4) (.var 1)), (.var 9), (.var 10), (.var 11), (.var 12), (.var 7), (.var 8)⟩) (Yt2Yb4.formula ⟨(.lit (-8)), (.lit (64)), (.lit (6)), (.lit (36)), (.lit (32/3)), (.lit (1024/9)), (.lit (-32/3)), (.lit (-6)), (.lit (4/5)), (.var 0), (.add (.mul (.lit 6) (.var 1)) (.var 0)), (.lit (7)), (.lit (49)), (.lit (4)), (.lit (16)), (.lit (1)), (.lit (1)), (.lit (2)), (.lit (4)), (.lit (3/5)), (.lit (8)), (.var 3), (.var 4), (.var 5), (.add (.var 2) (.var 0)), (.mul (.lit 2) (.var 1)), (.lit (512)), (.var 6), (.mul (.lit 4) (.var 1)), (.var 9), (.var 10), (.var 11), (.var 12), (.var 7), (.var 8)⟩))

theorem yt2yb4_dif_eq (dl : ℝ → ℝ) (phi : ℝ → ℝ → ℝ → ℝ) (ell lA L : ℝ) :
    (Yt2Yb4.formula (yt2yb4_plus dl phi ell lA (L + ((1 : ℚ) : ℝ))) - Yt2Yb4.formula (yt2yb4_plus dl phi ell lA L)) -
    (Yt2Yb4.formula (yt2yb4_minus dl phi ell lA (L + ((1 : ℚ) : ℝ))) - Yt2Yb4.formula (yt2yb4_minus dl phi ell lA L)) =
      ((-3072 : ℚ) : ℝ) + ((564736/105 : ℚ) : ℝ) * ell := by
  have z := Laur.zeroB_subst id (n := 14) (m := 0) (t := [(.cst .pi, .var 13)]) (e := .sub yt2yb4_dif (.add (.lit (-3072)) (.mul (.lit (564736/105)) (.var 1))))
    (by decide +kernel) [L, ell, lA, dl ((-3 : ℚ) : ℝ), dl ((-63 : ℚ) : ℝ), dl ((-15 : ℚ) : ℝ), dl ((-15 : ℚ) : ℝ), dl ((3/4 : ℚ) : ℝ), dl ((-3 : ℚ) : ℝ), phi ((49 : ℚ) : ℝ) ((4 : ℚ) : ℝ) ((16 : ℚ) : ℝ), phi ((49 : ℚ) : ℝ) ((1 : ℚ) : ℝ) ((16 : ℚ) : ℝ), phi ((49 : ℚ) : ℝ) ((1 : ℚ) : ℝ) ((1 : ℚ) : ℝ), phi ((49 : ℚ) : ℝ) ((4 : ℚ) : ℝ) ((1 : ℚ) : ℝ), Real.pi] rfl trivial
    (by intro p hp; rw [List.mem_singleton.1 hp]; rfl)
  refine sub_eq_zero.1 (Eq.trans ?_ z)
  krfl

/-- **C74 is violated by the correction of order `yt^2 yb^4`.** -/
theorem C74_yt2yb4_violated (dl : ℝ → ℝ) (phi : ℝ → ℝ → ℝ → ℝ) (s : Scheme) :
    ∃ c : TcObj ℝ, (flipT c).thr (thrFns4 dl phi) .LAMBDA_YT2_YB4 s 1 ≠ c.thr (thrFns4 dl phi) .LAMBDA_YT2_YB4 s 1 := by
  by_contra hc
  push Not at hc
  have h : ∀ c : TcObj ℝ, (flipT c).dLamYt2Yb4 dl phi 1 = c.dLamYt2Yb4 dl phi 1 := fun c => Except.ok.inj (hc c)
  have e1 := h (muTc 1)
  have e2 := h (muTc (Real.exp (-(1/2))))
  rw [yt2yb4_plus_eq dl phi _ 1 one_pos (atPlus 1), yt2yb4_minus_eq dl phi _ 1 one_pos (atMinus 1)] at e1
  rw [yt2yb4_plus_eq dl phi _ _ (Real.exp_pos _) (atPlus _), yt2yb4_minus_eq dl phi _ _ (Real.exp_pos _) (atMinus _), Real.log_exp] at e2
  rw [Real.log_one, mul_zero, neg_zero] at e1
  rw [show -(2 * -(1/2 : ℝ)) = 0 + ((1 : ℚ) : ℝ) by norm_num] at e2
  have v := yt2yb4_dif_eq dl phi (Real.log 2) (Real.log 49) 0
  rw [e1, e2, sub_self] at v
  have b1 := Real.log_two_gt_d9
  push_cast at v
  norm_num at v b1
  linarith

/-- the arguments of the formula for `μ` = 8 -/
noncomputable def yt4yb2_plus (dl : ℝ → ℝ) (phi : ℝ → ℝ → ℝ → ℝ) (ell lA L : ℝ) : Yt4Yb2.Arg ℝ :=
  ⟨((8 : ℚ) : ℝ), ((64 : ℚ) : ℝ), ((-6 : ℚ) : ℝ), ((36 : ℚ) : ℝ), ((-32/3 : ℚ) : ℝ), ((1024/9 : ℚ) : ℝ), ((1048576/81 : ℚ) : ℝ), ((32/3 : ℚ) : ℝ), ((6 : ℚ) : ℝ), ((4/5 : ℚ) : ℝ), L, ((6 : ℚ) : ℝ) * ell + L, ((7 : ℚ) : ℝ), ((49 : ℚ) : ℝ), ((4 : ℚ) : ℝ), ((16 : ℚ) : ℝ), ((1 : ℚ) : ℝ), ((1 : ℚ) : ℝ), ((2 : ℚ) : ℝ), ((4 : ℚ) : ℝ), ((3/5 : ℚ) : ℝ), ((8 : ℚ) : ℝ), dl ((-3 : ℚ) : ℝ), dl ((-63 : ℚ) : ℝ), dl ((-15 : ℚ) : ℝ), lA + L, dl ((-15 : ℚ) : ℝ), phi ((49 : ℚ) : ℝ) ((1 : ℚ) : ℝ) ((1 : ℚ) : ℝ), ((4 : ℚ) : ℝ) * ell, ((512 : ℚ) : ℝ), ((2 : ℚ) : ℝ) * ell, phi ((49 : ℚ) : ℝ) ((1 : ℚ) : ℝ) ((16 : ℚ) : ℝ), dl ((-3 : ℚ) : ℝ), dl ((3/4 : ℚ) : ℝ), phi ((49 : ℚ) : ℝ) ((4 : ℚ) : ℝ) ((16 : ℚ) : ℝ), phi ((49 : ℚ) : ℝ) ((4 : ℚ) : ℝ) ((1 : ℚ) : ℝ)⟩

theorem yt4yb2_plus_eq (dl : ℝ → ℝ) (phi : ℝ → ℝ → ℝ → ℝ) (c : TcObj ℝ) (s : ℝ) (hs : 0 < s) (h : AtPoint c.p 8 s) :
    c.dLamYt4Yb2 dl phi 1 = Yt4Yb2.formula (yt4yb2_plus dl phi (Real.log 2) (Real.log 49) (-(2 * Real.log s))) := by
  rw [Units.dLamYt4Yb2_eq]
  have q1 : FOps.sqrt (1 : ℝ) = 1 := sqrt_of (by norm_num) (by norm_num)
  have q2 : FOps.sqrt (4 : ℝ) = 2 := sqrt_of (by norm_num) (by norm_num)
  have q3 : FOps.sqrt (16 : ℝ) = 4 := sqrt_of (by norm_num) (by norm_num)
  have m2 : pow2 (8 : ℝ) = 64 := by norm_num [pow2]
  have q4 : FOps.sqrt (64 : ℝ) = 8 := sqrt_of (by norm_num) (by norm_num)
  have a2 : pow2 (7 : ℝ) = 49 := by norm_num [pow2]
  have ab : FOps.abs (8 : ℝ) = 8 := by show |_| = (8 : ℝ); norm_num
  have l1 : FOps.log ((1 : ℝ) / pow2 s) = -(2 * Real.log s) := by rw [log_of one_pos hs, Real.log_one, zero_add]
  have l2 : FOps.log ((64 : ℝ) / pow2 s) = 6 * Real.log 2 + -(2 * Real.log s) := by rw [log_of (by norm_num) hs, log64]
  have l3 : FOps.log ((49 : ℝ) / pow2 s) = Real.log 49 + -(2 * Real.log s) := log_of (by norm_num) hs
  have l4 : FOps.log ((4 : ℝ) / 1) = 2 * Real.log 2 := by rw [div_one]; exact log4
  have l5 : FOps.log ((16 : ℝ) / 1) = 4 * Real.log 2 := by rw [div_one]; exact log16
  simp only [at_sin h, at_cos h, at_Xt h, at_Xb h, at_Yt h, at_Yb h, h.mu, h.scale, h.mq2, h.mu2, h.md2, h.MA, q1, q2, q3, m2, q4, a2, ab, l1, l2, l3, l4, l5,
    noLimit, Bool.false_eq_true, if_false]
  refine congrArg _ ?_
  unfold yt4yb2_plus
  simp only [real_ofNat, real_ofInt, pow2]
  norm_num

/-- the arguments of the formula for `μ` = -8 -/
noncomputable def yt4yb2_minus (dl : ℝ → ℝ) (phi : ℝ → ℝ → ℝ → ℝ) (ell lA L : ℝ) : Yt4Yb2.Arg ℝ :=
  ⟨((-8 : ℚ) : ℝ), ((64 : ℚ) : ℝ), ((6 : ℚ) : ℝ), ((36 : ℚ) : ℝ), ((32/3 : ℚ) : ℝ), ((1024/9 : ℚ) : ℝ), ((1048576/81 : ℚ) : ℝ), ((-32/3 : ℚ) : ℝ), ((-6 : ℚ) : ℝ), ((4/5 : ℚ) : ℝ), L, ((6 : ℚ) : ℝ) * ell + L, ((7 : ℚ) : ℝ), ((49 : ℚ) : ℝ), ((4 : ℚ) : ℝ), ((16 : ℚ) : ℝ), ((1 : ℚ) : ℝ), ((1 : ℚ) : ℝ), ((2 : ℚ) : ℝ), ((4 : ℚ) : ℝ), ((3/5 : ℚ) : ℝ), ((8 : ℚ) : ℝ), dl ((-3 : ℚ) : ℝ), dl ((-63 : ℚ) : ℝ), dl ((-15 : ℚ) : ℝ), lA + L, dl ((-15 : ℚ) : ℝ), phi ((49 : ℚ) : ℝ) ((1 : ℚ) : ℝ) ((1 : ℚ) : ℝ), ((4 : ℚ) : ℝ) * ell, ((512 : ℚ) : ℝ), ((2 : ℚ) : ℝ) * ell, phi ((49 : ℚ) : ℝ) ((1 : ℚ) : ℝ) ((16 : ℚ) : ℝ), dl ((-3 : ℚ) : ℝ), dl ((3/4 : ℚ) : ℝ), phi ((49 : ℚ) : ℝ) ((4 : ℚ) : ℝ) ((16 : ℚ) : ℝ), phi ((49 : ℚ) : ℝ) ((4 : ℚ) : ℝ) ((1 : ℚ) : ℝ)⟩

theorem yt4yb2_minus_eq (dl : ℝ → ℝ) (phi : ℝ → ℝ → ℝ → ℝ) (c : TcObj ℝ) (s : ℝ) (hs : 0 < s) (h : AtPoint c.p (-8) s) :
    c.dLamYt4Yb2 dl phi 1 = Yt4Yb2.formula (yt4yb2_minus dl phi (Real.log 2) (Real.log 49) (-(2 * Real.log s))) := by
  rw [Units.dLamYt4Yb2_eq]
  have q1 : FOps.sqrt (1 : ℝ) = 1 := sqrt_of (by norm_num) (by norm_num)
  have q2 : FOps.sqrt (4 : ℝ) = 2 := sqrt_of (by norm_num) (by norm_num)
  have q3 : FOps.sqrt (16 : ℝ) = 4 := sqrt_of (by norm_num) (by norm_num)
  have m2 : pow2 ((-8) : ℝ) = 64 := by norm_num [pow2]
  have q4 : FOps.sqrt (64 : ℝ) = 8 := sqrt_of (by norm_num) (by norm_num)
  have a2 : pow2 (7 : ℝ) = 49 := by norm_num [pow2]
  have ab : FOps.abs ((-8) : ℝ) = 8 := by show |_| = (8 : ℝ); norm_num
  have l1 : FOps.log ((1 : ℝ) / pow2 s) = -(2 * Real.log s) := by rw [log_of one_pos hs, Real.log_one, zero_add]
  have l2 : FOps.log ((64 : ℝ) / pow2 s) = 6 * Real.log 2 + -(2 * Real.log s) := by rw [log_of (by norm_num) hs, log64]
  have l3 : FOps.log ((49 : ℝ) / pow2 s) = Real.log 49 + -(2 * Real.log s) := log_of (by norm_num) hs
  have l4 : FOps.log ((4 : ℝ) / 1) = 2 * Real.log 2 := by rw [div_one]; exact log4
  have l5 : FOps.log ((16 : ℝ) / 1) = 4 * Real.log 2 := by rw [div_one]; exact log16
  simp only [at_sin h, at_cos h, at_Xt h, at_Xb h, at_Yt h, at_Yb h, h.mu, h.scale, h.mq2, h.mu2, h.md2, h.MA, q1, q2, q3, m2, q4, a2, ab, l1, l2, l3, l4, l5,
    noLimit, Bool.false_eq_true, if_false]
  refine congrArg _ ?_
  unfold yt4yb2_minus
  simp only [real_ofNat, real_ofInt, pow2]
  norm_num

/-- the second difference with respect to the sign of `μ` and the scale, as an expression -/
def yt4yb2_dif : E := .sub (.sub (Yt4Yb2.formula ⟨(.lit (8)), (.lit (64)), (.lit (-6)), (.lit (36)), (.lit (-32/3)), (.lit (1024/9)), (.lit (1048576/81)), (.lit (32/3)), (.lit (6)), (.lit (4/5)), (.add (.var 0) (.lit 1)), (.add (.mul (.lit 6) (.var 1)) (.add (.var 0) (.lit 1))), (.lit (7)), (.lit (49)), (.lit (4)), (.lit (16)), (.lit (1)), (.lit (1)), (.lit (2)), (.lit (4)), (.lit (3/5)), (.lit (8)), (.var 3), (.var 4), (.var 5), (.add (.var 2) (.add (.var 0) (.lit 1))), (.var 6), (.var 11), (.mul (.lit 4) (.var 1)), (.lit (512)), (.mul (.lit 2) (.var 1)), (.var 10), (.var 8), (.var 7), (.var 9), (.var 12)⟩) (Yt4Yb2.formula ⟨(.lit (8)), (.lit (64)), (.lit (-6)), (.lit (36)), (.lit (-32/3)), (.lit (1024/9)), (.lit (1048576/81)), (.lit (32/3)), (.lit (6)), (.lit (4/5)), (.var 0), (.add (.mul (.lit 6) (.var 1)) (.var 0)), (.lit (7)), (.lit (49)), (.lit (4)), (.lit (16)), (.lit (1)), (.lit (1)), (.lit (2)), (.lit (4)), (.lit (3/5)), (.lit (8)), (.var 3), (.var 4), (.var 5), (.add (.var 2) (.var 0)), (.var 6), (.var 11), (.mul (.lit 4) (.var 1)), (.lit (512)), (.mul (.lit 2) (.var 1)), (.var 10), (.var 8), (.var 7), (.var 9), (.var 12)⟩)) (.sub (Yt4Yb2.formula ⟨(.lit (-8)), (.lit (64)), (.lit (6)), (.lit (36)), (.lit (32/3)), (.lit (1024/9)), (.lit (1048576/81)), (.lit (-32/3)), (.lit (-6)), (.lit (4/5)), (.add (.var 0) (.lit 1)), (.add (.mul (.lit 6) (.var 1)) (.add (.var 0) (.lit 1))), (.lit (7)), (.lit (49)), (.lit (4)), (.lit (16)), (.lit (1)), (.lit (1)), (.lit (2)), (.lit (4)), (.lit (3/5)), (.lit (8)), (.var 3), (.var 4), (.var 5), (.add (.var 2) (.add (.var 0) (.lit 1))), (.var 6), (.var 11), (.mul (.lit 4) (.var 1)), (.lit (512)), (.mul (.lit 2) (.var 1)), (.var 10), (.var 8), (.var 7), (.var 9), (.var 12)⟩) (Yt4Yb2.formula ⟨(.lit (-8)), (.lit (64)), (.lit (6)), (.lit (36)), (.lit (32/3)), (.lit (1024/9)), (.lit (1048576/81)), (.lit (-32/3)), (.lit (-6)), (.lit (4/5)), (.var 0), (.add (.mul (.lit 6) (.var 1)) (.var 0)), (.lit (7)), (.lit (49)), (.lit (4)), (.lit (16)), (.lit (1)), (.lit (1)), (.lit (2)), (.lit (4)), (.lit (3/5)), (.lit (8)), (.var 3), (.var 4), (.var 5), (.add (.var 2) (.var 0)), (.var 6), (.var 11), (.mul (.lit 4) (.var 1)), (.lit (512)), (.mul (.lit 2) (.var 1)), (.var 10), (.var 8), (.var 7), (.var 9), (.var 12)⟩))

theorem yt4yb2_dif_eq (dl : ℝ → ℝ) (phi : ℝ → ℝ → ℝ → ℝ) (ell lA L : ℝ) :
    (Yt4Yb2.formula (yt4yb2_plus dl phi ell lA (L + ((1 : ℚ) : ℝ))) - Yt4Yb2.formula (yt4yb2_plus dl phi ell lA L)) -
    (Yt4Yb2.formula (yt4yb2_minus dl phi ell lA (L + ((1 : ℚ) : ℝ))) - Yt4Yb2.formula (yt4yb2_minus dl phi ell lA L)) =
      ((-104857600/243 : ℚ) : ℝ) + ((515993600/729 : ℚ) : ℝ) * ell := by
  have z := Laur.zeroB_subst id (n := 14) (m := 0) (t := [(.cst .pi, .var 13)]) (e := .sub yt4yb2_dif (.add (.lit (-104857600/243)) (.mul (.lit (515993600/729)) (.var 1))))
    (by decide +kernel) [L, ell, lA, dl ((-3 : ℚ) : ℝ), dl ((-63 : ℚ) : ℝ), dl ((-15 : ℚ) : ℝ), dl ((-15 : ℚ) : ℝ), dl ((3/4 : ℚ) : ℝ), dl ((-3 : ℚ) : ℝ), phi ((49 : ℚ) : ℝ) ((4 : ℚ) : ℝ) ((16 : ℚ) : ℝ), phi ((49 : ℚ) : ℝ) ((1 : ℚ) : ℝ) ((16 : ℚ) : ℝ), phi ((49 : ℚ) : ℝ) ((1 : ℚ) : ℝ) ((1 : ℚ) : ℝ), phi ((49 : ℚ) : ℝ) ((4 : ℚ) : ℝ) ((1 : ℚ) : ℝ), Real.pi] rfl trivial
    (by intro p hp; rw [List.mem_singleton.1 hp]; rfl)
  refine sub_eq_zero.1 (Eq.trans ?_ z)
  krfl

/-- **C74 is violated by the correction of order `yt^4 yb^2`.** -/
theorem C74_yt4yb2_violated (dl : ℝ → ℝ) (phi : ℝ → ℝ → ℝ → ℝ) (s : Scheme) :
    ∃ c : TcObj ℝ, (flipT c).thr (thrFns4 dl phi) .LAMBDA_YT4_YB2 s 1 ≠ c.thr (thrFns4 dl phi) .LAMBDA_YT4_YB2 s 1 := by
  by_contra hc
  push Not at hc
  have h : ∀ c : TcObj ℝ, (flipT c).dLamYt4Yb2 dl phi 1 = c.dLamYt4Yb2 dl phi 1 := fun c => Except.ok.inj (hc c)
  have e1 := h (muTc 1)
  have e2 := h (muTc (Real.exp (-(1/2))))
  rw [yt4yb2_plus_eq dl phi _ 1 one_pos (atPlus 1), yt4yb2_minus_eq dl phi _ 1 one_pos (atMinus 1)] at e1
  rw [yt4yb2_plus_eq dl phi _ _ (Real.exp_pos _) (atPlus _), yt4yb2_minus_eq dl phi _ _ (Real.exp_pos _) (atMinus _), Real.log_exp] at e2
  rw [Real.log_one, mul_zero, neg_zero] at e1
  rw [show -(2 * -(1/2 : ℝ)) = 0 + ((1 : ℚ) : ℝ) by norm_num] at e2
  have v := yt4yb2_dif_eq dl phi (Real.log 2) (Real.log 49) 0
  rw [e1, e2, sub_self] at v
  have b1 := Real.log_two_gt_d9
  push_cast at v
  norm_num at v b1
  linarith

end Himalaya.Signs
