import Verif.EFT.SignsF
import Verif.EFT.UnitsApi

/-!
# C74: only relative signs of the supersymmetric parameters matter

The Lagrangian does not change if `μ`, the trilinear couplings and the gaugino masses change their signs together (a redefinition of
the fields).  Himalaya requires the gluino mass to be positive (`Parameters::validate`), so the property is stated for the corrections without
gluinos, for the change of sign of `μ`, `A_u`, `A_d`, `A_e`, `M1` and `M2`.
-/

set_option linter.unusedSimpArgs false
set_option linter.unusedVariables false
set_option linter.unusedSectionVars false
set_option linter.unusedTactic false
set_option linter.unreachableTactic false
set_option maxRecDepth 20000

namespace Himalaya.Signs

open scoped Himalaya
open Kron Scale

/-- The parameter point with the other sign of `μ`, the trilinear couplings and the masses of bino and wino. -/
noncomputable def flip (p : Params ℝ) : Params ℝ :=
  { p with mu := -p.mu, M1 := -p.M1, M2 := -p.M2, Au := fun i j => -p.Au i j, Ad := fun i j => -p.Ad i j, Ae := fun i j => -p.Ae i j }

/-- The threshold calculator at this parameter point. -/
noncomputable def flipT (c : TcObj ℝ) : TcObj ℝ := { c with p := flip c.p }

theorem f_mq2 (p : Params ℝ) (i j : Fin 3) : (flip p).mq2 i j = p.mq2 i j := rfl
theorem f_mu2 (p : Params ℝ) (i j : Fin 3) : (flip p).mu2 i j = p.mu2 i j := rfl
theorem f_md2 (p : Params ℝ) (i j : Fin 3) : (flip p).md2 i j = p.md2 i j := rfl
theorem f_ml2 (p : Params ℝ) (i j : Fin 3) : (flip p).ml2 i j = p.ml2 i j := rfl
theorem f_me2 (p : Params ℝ) (i j : Fin 3) : (flip p).me2 i j = p.me2 i j := rfl
theorem f_scale (p : Params ℝ) : (flip p).scale = p.scale := rfl
theorem f_mu (p : Params ℝ) : (flip p).mu = -p.mu := rfl
theorem f_M1 (p : Params ℝ) : (flip p).M1 = -p.M1 := rfl
theorem f_M2 (p : Params ℝ) : (flip p).M2 = -p.M2 := rfl
theorem f_Au (p : Params ℝ) (i j : Fin 3) : (flip p).Au i j = -p.Au i j := rfl
theorem f_Ad (p : Params ℝ) (i j : Fin 3) : (flip p).Ad i j = -p.Ad i j := rfl
theorem f_Ae (p : Params ℝ) (i j : Fin 3) : (flip p).Ae i j = -p.Ae i j := rfl
theorem f_MG (p : Params ℝ) : (flip p).MG = p.MG := rfl
theorem f_MA (p : Params ℝ) : (flip p).MA = p.MA := rfl
theorem f_vu (p : Params ℝ) : (flip p).vu = p.vu := rfl
theorem f_vd (p : Params ℝ) : (flip p).vd = p.vd := rfl
theorem f_MSt (p : Params ℝ) : (flip p).MSt = p.MSt := rfl
theorem f_p (c : TcObj ℝ) : (flipT c).p = flip c.p := rfl
theorem f_msq2 (c : TcObj ℝ) : (flipT c).msq2 = c.msq2 := rfl
theorem f_limit (c : TcObj ℝ) : (flipT c).limit = c.limit := rfl
theorem f_tan (p : Params ℝ) : eftTanBeta (flip p) = eftTanBeta p := rfl
theorem f_beta (p : Params ℝ) : eftBeta (flip p) = eftBeta p := rfl
theorem f_v2 (p : Params ℝ) : eftV2 (flip p) = eftV2 p := rfl
theorem f_v (p : Params ℝ) : eftV (flip p) = eftV p := rfl
theorem f_sin (p : Params ℝ) : eftSinBeta (flip p) = eftSinBeta p := rfl
theorem f_cos (p : Params ℝ) : eftCosBeta (flip p) = eftCosBeta p := rfl
theorem f_logMR (p : Params ℝ) : logMR (flip p) = logMR p := rfl
theorem f_Xt (p : Params ℝ) : calcXt (flip p) = -calcXt p := by unfold calcXt; rw [f_tan, f_Au, f_mu]; ring
theorem f_Xb (p : Params ℝ) : calcXb (flip p) = -calcXb p := by unfold calcXb; rw [f_tan, f_Ad, f_mu]; ring
theorem f_Xtau (p : Params ℝ) : calcXtau (flip p) = -calcXtau p := by unfold calcXtau; rw [f_tan, f_Ae, f_mu]; ring
theorem f_Yt (p : Params ℝ) : calcYt (flip p) = -calcYt p := by unfold calcYt; rw [f_tan, f_Au, f_mu]; ring
theorem f_Yb (p : Params ℝ) : calcYb (flip p) = -calcYb p := by unfold calcYb; rw [f_tan, f_Ad, f_mu]; ring
theorem f_Ytau (p : Params ℝ) : calcYtau (flip p) = -calcYtau p := by unfold calcYtau; rw [f_tan, f_Ae, f_mu]; ring
theorem f_pow2 (x : ℝ) : pow2 (-x) = pow2 x := by simp only [pow2]; ring
theorem f_div (x y : ℝ) : -x / -y = x / y := neg_div_neg_eq x y
theorem f_sqr (x : ℝ) : TLF.sqr (-x) = TLF.sqr x := by unfold TLF.sqr; ring
theorem f_abs (x : ℝ) : FOps.abs (-x) = FOps.abs x := abs_neg x

/-! ### loop functions -/

theorem dabs_eq (x : ℝ) : Misc.dabs x = |x| := by
  unfold Misc.dabs
  show (if decide _ = true then x else -x) = |x|
  simp only [decide_eq_true_eq, real_lit]
  push_cast
  split_ifs with h
  · exact (abs_of_nonneg h).symm
  · exact (abs_of_neg (not_le.1 h)).symm

theorem f_isZero (x e : ℝ) : Misc.isZero (-x) e = Misc.isZero x e := by
  unfold Misc.isZero; rw [dabs_eq, dabs_eq, abs_neg]

/-- `F6` is even. -/
theorem F6_even (x : ℝ) : TLF.F6 (-x) = TLF.F6 x := by
  unfold TLF.F6
  simp only [f_isZero, f_sqr]
  have : ∀ y : ℝ, (-x - y) * (-x + y) = (x - y) * (x + y) := fun y => by ring
  simp only [this]

theorem F9_even (x y : ℝ) : TLF.F9 (-x) (-y) = TLF.F9 x y := by
  have h : ∀ x y : ℝ, (-x - y) * (-x + y) = (x - y) * (x + y) := fun x y => by ring
  have h' : ∀ x y : ℝ, (-x - -y) * (-x + -y) = (x - y) * (x + y) := fun x y => by ring
  unfold TLF.F9 TLF.F9_1_1 TLF.F9_1_x2 TLF.F9_0_x2 TLF.F9_x1_x2
  simp only [h']
  simp only [f_isZero, f_sqr, f_abs, h]

/-- unfolds the parameters after the change of signs -/
macro "fsigns" : tactic => `(tactic| simp only [f_p, f_msq2, f_mq2, f_mu2, f_md2, f_ml2, f_me2, f_MA, f_M1, f_M2, f_mu, f_scale, f_vu, f_vd, f_pow2,
  f_Xt, f_Xb, f_Xtau, f_Yt, f_Yb, f_Ytau, f_logMR, f_div, f_beta, f_tan, f_sin, f_cos, f_v2, f_v, div_neg, F6_even, F9_even, f_abs])

/-! ### one-loop corrections -/

theorem s_dG3 (c : TcObj ℝ) (n : Int) : (flipT c).dG3 n = c.dG3 n := rfl
theorem s_dLamAt (c : TcObj ℝ) (L : Limit) (n : Int) : (flipT c).dLamAt L n = c.dLamAt L n := by
  unfold TcObj.dLamAt
  fsigns
  generalize (if (if (if L = .degenerate then Limit.qug else L) = .qg ∨ (if L = .degenerate then Limit.qug else L) = .ug then Limit.general
    else (if L = .degenerate then Limit.qug else L)) = .qug then Limit.qu else
    (if (if L = .degenerate then Limit.qug else L) = .qg ∨ (if L = .degenerate then Limit.qug else L) = .ug then Limit.general
    else (if L = .degenerate then Limit.qug else L))) = L'
  cases L' <;> dsimp only
  · unfold Thr.dLamAtGen; simp only [Misc.pow2, Misc.pow3, Misc.pow4, Misc.pow5, Misc.pow6, pow2]; refine congrArg Except.ok ?_; ring
  · unfold Thr.dLamAtQU; simp only [Misc.pow2, Misc.pow3, Misc.pow4, Misc.pow5, Misc.pow6, pow2]; refine congrArg Except.ok ?_; ring

theorem s_dLamYb2G12 (c : TcObj ℝ) (n : Int) : (flipT c).dLamYb2G12 n = c.dLamYb2G12 n := by
  unfold TcObj.dLamYb2G12
  first
    | rfl
    | (fsigns; done)
    | (fsigns; ring_nf)
theorem s_dLamG14 (c : TcObj ℝ) (n : Int) : (flipT c).dLamG14 n = c.dLamG14 n := by
  unfold TcObj.dLamG14
  first
    | rfl
    | (fsigns; done)
    | (fsigns; ring_nf)
theorem s_dLamRegG14 (c : TcObj ℝ) (n : Int) : (flipT c).dLamRegG14 n = c.dLamRegG14 n := by
  unfold TcObj.dLamRegG14
  first
    | rfl
    | (fsigns; done)
    | (fsigns; ring_nf)
theorem s_dLamChiG14 (c : TcObj ℝ) (n : Int) : (flipT c).dLamChiG14 n = c.dLamChiG14 n := by
  unfold TcObj.dLamChiG14
  first
    | rfl
    | (fsigns; done)
    | (fsigns; ring_nf)
theorem s_dLamChiG24 (c : TcObj ℝ) (n : Int) : (flipT c).dLamChiG24 n = c.dLamChiG24 n := by
  unfold TcObj.dLamChiG24
  first
    | rfl
    | (fsigns; done)
    | (fsigns; ring_nf)
theorem s_dLamG24 (c : TcObj ℝ) (n : Int) : (flipT c).dLamG24 n = c.dLamG24 n := by
  unfold TcObj.dLamG24
  first
    | rfl
    | (fsigns; done)
    | (fsigns; ring_nf)
theorem s_dLamRegG24 (c : TcObj ℝ) (n : Int) : (flipT c).dLamRegG24 n = c.dLamRegG24 n := by
  unfold TcObj.dLamRegG24
  first
    | rfl
    | (fsigns; done)
    | (fsigns; ring_nf)
theorem s_dLamG12G22 (c : TcObj ℝ) (n : Int) : (flipT c).dLamG12G22 n = c.dLamG12G22 n := by
  unfold TcObj.dLamG12G22
  first
    | rfl
    | (fsigns; done)
    | (fsigns; ring_nf)
theorem s_dLamRegG12G22 (c : TcObj ℝ) (n : Int) : (flipT c).dLamRegG12G22 n = c.dLamRegG12G22 n := by
  unfold TcObj.dLamRegG12G22
  first
    | rfl
    | (fsigns; done)
    | (fsigns; ring_nf)
theorem s_dLamChiG12G22 (c : TcObj ℝ) (n : Int) : (flipT c).dLamChiG12G22 n = c.dLamChiG12G22 n := by
  unfold TcObj.dLamChiG12G22
  first
    | rfl
    | (fsigns; done)
    | (fsigns; ring_nf)
theorem s_dLamYb2G22 (c : TcObj ℝ) (n : Int) : (flipT c).dLamYb2G22 n = c.dLamYb2G22 n := by
  unfold TcObj.dLamYb2G22
  first
    | rfl
    | (fsigns; done)
    | (fsigns; ring_nf)
theorem s_dLamYb4 (c : TcObj ℝ) (n : Int) : (flipT c).dLamYb4 n = c.dLamYb4 n := by
  unfold TcObj.dLamYb4
  first
    | rfl
    | (fsigns; done)
    | (fsigns; ring_nf)
theorem s_dLamYt2G12 (c : TcObj ℝ) (n : Int) : (flipT c).dLamYt2G12 n = c.dLamYt2G12 n := by
  unfold TcObj.dLamYt2G12
  first
    | rfl
    | (fsigns; done)
    | (fsigns; ring_nf)
theorem s_dLamYt2G22 (c : TcObj ℝ) (n : Int) : (flipT c).dLamYt2G22 n = c.dLamYt2G22 n := by
  unfold TcObj.dLamYt2G22
  first
    | rfl
    | (fsigns; done)
    | (fsigns; ring_nf)
theorem s_dLamYtau2G12 (c : TcObj ℝ) (n : Int) : (flipT c).dLamYtau2G12 n = c.dLamYtau2G12 n := by
  unfold TcObj.dLamYtau2G12
  first
    | rfl
    | (fsigns; done)
    | (fsigns; ring_nf)
theorem s_dLamYtau2G22 (c : TcObj ℝ) (n : Int) : (flipT c).dLamYtau2G22 n = c.dLamYtau2G22 n := by
  unfold TcObj.dLamYtau2G22
  first
    | rfl
    | (fsigns; done)
    | (fsigns; ring_nf)
theorem s_dLamYtau4 (c : TcObj ℝ) (n : Int) : (flipT c).dLamYtau4 n = c.dLamYtau4 n := by
  unfold TcObj.dLamYtau4
  first
    | rfl
    | (fsigns; done)
    | (fsigns; ring_nf)
theorem s_dG1G1 (c : TcObj ℝ) (n : Int) : (flipT c).dG1G1 n = c.dG1G1 n := by
  unfold TcObj.dG1G1
  first
    | rfl
    | (fsigns; done)
    | (fsigns; ring_nf)
theorem s_dG2G2 (c : TcObj ℝ) (n : Int) : (flipT c).dG2G2 n = c.dG2G2 n := by
  unfold TcObj.dG2G2
  first
    | rfl
    | (fsigns; done)
    | (fsigns; ring_nf)
theorem s_dYtYb (c : TcObj ℝ) (n : Int) : (flipT c).dYtYb n = c.dYtYb n := by
  unfold TcObj.dYtYb
  first
    | rfl
    | (fsigns; done)
    | (fsigns; ring_nf)
theorem s_dYtYt (c : TcObj ℝ) (n : Int) : (flipT c).dYtYt n = c.dYtYt n := by
  unfold TcObj.dYtYt
  first
    | rfl
    | (fsigns; done)
    | (fsigns; ring_nf)
theorem s_dYtauYtau (c : TcObj ℝ) (n : Int) : (flipT c).dYtauYtau n = c.dYtauYtau n := by
  unfold TcObj.dYtauYtau
  first
    | rfl
    | (fsigns; done)
    | (fsigns; ring_nf)
theorem s_dYbYb (c : TcObj ℝ) (n : Int) : (flipT c).dYbYb n = c.dYbYb n := by
  unfold TcObj.dYbYb
  first
    | rfl
    | (fsigns; done)
    | (fsigns; ring_nf)
theorem s_dYbYt (c : TcObj ℝ) (n : Int) : (flipT c).dYbYt n = c.dYbYt n := by
  unfold TcObj.dYbYt
  first
    | rfl
    | (fsigns; done)
    | (fsigns; ring_nf)
theorem s_dYtauYb (c : TcObj ℝ) (n : Int) : (flipT c).dYtauYb n = c.dYtauYb n := by
  unfold TcObj.dYtauYb
  first
    | rfl
    | (fsigns; done)
    | (fsigns; ring_nf)
theorem s_dVevYt2 (c : TcObj ℝ) (L : Limit) : (flipT c).dVevYt2 L = c.dVevYt2 L := by unfold TcObj.dVevYt2; fsigns
theorem s_dVevYb2 (c : TcObj ℝ) : (flipT c).dVevYb2 = c.dVevYb2 := by unfold TcObj.dVevYb2; fsigns
theorem s_dVevYtau2 (c : TcObj ℝ) : (flipT c).dVevYtau2 = c.dVevYtau2 := by unfold TcObj.dVevYtau2; fsigns

/-! ### two-loop corrections -/

/-- the arguments of a formula change their signs according to their parities -/
macro "odd_even" : tactic => `(tactic| (simp only [Scaled]; norm_num [zpow_ofNat]))

theorem f1HD_even (x : ℝ) : f1HD (-x) = f1HD x := by unfold f1HD; rw [f_pow2]
theorem f2HD_even (x : ℝ) : f2HD (-x) = f2HD x := by unfold f2HD; rw [f_pow2]
theorem f3HD_even (dl : ℝ → ℝ) (x : ℝ) : f3HD dl (-x) = f3HD dl x := by unfold f3HD; rw [f_pow2]

theorem s_dLamYt6HD (dl : ℝ → ℝ) (c : TcObj ℝ) (n : Int) : (flipT c).dLamYt6HD dl n = c.dLamYt6HD dl n := by
  unfold TcObj.dLamYt6HD
  fsigns
  simp only [neg_div, f1HD_even, f2HD_even, f3HD_even, f_pow2]
  generalize f1HD (F := ℝ) _ = f1; generalize f2HD (F := ℝ) _ = f2; generalize f3HD (F := ℝ) dl _ = f3
  generalize calcXt c.p / _ = x
  generalize c.p.mu / _ = m
  simp only [pow2, Misc.pow2, Misc.pow3, Misc.pow4, Misc.pow6]
  ring

theorem s_dLamYt6 (dl : ℝ → ℝ) (phi : ℝ → ℝ → ℝ → ℝ) (c : TcObj ℝ) (n : Int) : (flipT c).dLamYt6 dl phi n = c.dLamYt6 dl phi n := by
  unfold TcObj.dLamYt6
  rw [s_dLamYt6HD]
  fsigns
  simp only [neg_mul, f_pow2]
  split_ifs
  · rfl
  · refine Yt6_signs dl phi _ _ _ _ _ _ ?_
    odd_even

/-- neither `μ` nor `-μ` is close to the mass of the left-handed squark -/
def MuNotDegenerate (p : Params ℝ) : Prop :=
  ¬ (|p.mu - Real.sqrt (p.mq2 2 2)| < Real.sqrt (p.mq2 2 2) / 100) ∧ ¬ (|-p.mu - Real.sqrt (p.mq2 2 2)| < Real.sqrt (p.mq2 2 2) / 100)

theorem s_dLamYb6 (dl : ℝ → ℝ) (phi : ℝ → ℝ → ℝ → ℝ) (c : TcObj ℝ) (n : Int) (h : MuNotDegenerate c.p) :
    (flipT c).dLamYb6 dl phi n = c.dLamYb6 dl phi n := by
  rw [Units.dLamYb6_eq, Units.dLamYb6_eq]
  fsigns
  have e : ∀ x : ℝ, FOps.lt (FOps.abs (x - FOps.sqrt (c.p.mq2 2 2))) (FOps.sqrt (c.p.mq2 2 2) * FOps.lit (1 / 100)) =
      decide (|x - Real.sqrt (c.p.mq2 2 2)| < Real.sqrt (c.p.mq2 2 2) / 100) := fun x => by
    show decide (|_| < _) = _
    simp only [real_lit, real_sqrt]; push_cast; rw [mul_one_div]
  rw [e c.p.mu, e (-c.p.mu), decide_eq_false h.1, decide_eq_false h.2]
  simp only [Bool.and_false, if_false, Bool.false_eq_true]
  refine Yb6_signs _ _ ?_
  odd_even

theorem s_dLamYtau6 (dl : ℝ → ℝ) (phi : ℝ → ℝ → ℝ → ℝ) (c : TcObj ℝ) (n : Int)
    (h : ¬ (|Real.sqrt (c.p.me2 2 2) - Real.sqrt (c.p.ml2 2 2)| < Real.sqrt (c.p.me2 2 2) / 10)) :
    (flipT c).dLamYtau6 dl phi n = c.dLamYtau6 dl phi n := by
  unfold TcObj.dLamYtau6
  fsigns
  have e : FOps.lt (FOps.abs (FOps.sqrt (c.p.me2 2 2) - FOps.sqrt (c.p.ml2 2 2))) (FOps.lit (1 / 10) * FOps.sqrt (c.p.me2 2 2)) = false := by
    show decide (|_| < _) = _
    apply decide_eq_false
    intro h2; apply h
    simp only [real_lit, real_sqrt] at h2; push_cast at h2
    linarith
  rw [e]
  simp only [if_false, Bool.false_eq_true]
  refine Ytau6_signs _ _ ?_
  odd_even

theorem s_dLamYtau4Yb2 (c : TcObj ℝ) (n : Int) : (flipT c).dLamYtau4Yb2 n = c.dLamYtau4Yb2 n := by
  rw [Units.dLamYtau4Yb2_eq, Units.dLamYtau4Yb2_eq]
  fsigns
  split_ifs
  · refine Ytau4Yb2_l0_signs ?_; odd_even
  · refine Ytau4Yb2_l1_signs ?_; odd_even
  · refine Ytau4Yb2_l2_signs ?_; odd_even
  · refine Ytau4Yb2_l3_signs ?_; odd_even

theorem s_dLamYtau2Yb4 (c : TcObj ℝ) (n : Int) : (flipT c).dLamYtau2Yb4 n = c.dLamYtau2Yb4 n := by
  rw [Units.dLamYtau2Yb4_eq, Units.dLamYtau2Yb4_eq]
  fsigns
  split_ifs
  · refine Ytau2Yb4_l0_signs ?_; odd_even
  · refine Ytau2Yb4_l1_signs ?_; odd_even
  · refine Ytau2Yb4_l2_signs ?_; odd_even
  · refine Ytau2Yb4_l3_signs ?_; odd_even

/-! ### the property -/

/-- the corrections with a gluino and a left-right mixing term -/
def withGluino : List ThrOrder := [.YT_AS, .YT_AS2, .LAMBDA_AT_AS, .LAMBDA_AT_AS2, .YB_AS, .LAMBDA_YB4_G32]
/-- the two-loop corrections with a bottom or tau Yukawa coupling which are not always symmetric -/
def notSymmetric : List ThrOrder := [.LAMBDA_YB6, .LAMBDA_YTAU6, .LAMBDA_YT2_YB4, .LAMBDA_YT4_YB2]

/-- **C74.** The threshold corrections without gluinos do not depend on the overall sign of `μ`, the trilinear couplings and the gaugino masses. -/
theorem C74_threshold (dl : ℝ → ℝ) (phi : ℝ → ℝ → ℝ → ℝ) (c : TcObj ℝ) (o : ThrOrder) (s : Scheme) (n : Int)
    (h1 : o ∉ withGluino) (h2 : o ∉ notSymmetric) : (flipT c).thr (thrFns4 dl phi) o s n = c.thr (thrFns4 dl phi) o s n := by
  cases o <;> first
    | exact absurd (.head _) h1
    | exact absurd (.tail _ (.head _)) h1
    | exact absurd (.tail _ (.tail _ (.head _))) h1
    | exact absurd (.tail _ (.tail _ (.tail _ (.head _)))) h1
    | exact absurd (.tail _ (.tail _ (.tail _ (.tail _ (.head _))))) h1
    | exact absurd (.tail _ (.tail _ (.tail _ (.tail _ (.tail _ (.head _)))))) h1
    | exact absurd (.head _) h2
    | exact absurd (.tail _ (.head _)) h2
    | exact absurd (.tail _ (.tail _ (.head _))) h2
    | exact absurd (.tail _ (.tail _ (.tail _ (.head _)))) h2
    | rfl
    | exact s_dLamAt c c.limit n
    | exact congrArg Except.ok (s_dLamYb2G12 c n)
    | exact congrArg Except.ok (s_dLamG14 c n)
    | exact congrArg Except.ok (s_dLamRegG14 c n)
    | exact congrArg Except.ok (s_dLamChiG14 c n)
    | exact congrArg Except.ok (s_dLamChiG24 c n)
    | exact congrArg Except.ok (s_dLamG24 c n)
    | exact congrArg Except.ok (s_dLamRegG24 c n)
    | exact congrArg Except.ok (s_dLamG12G22 c n)
    | exact congrArg Except.ok (s_dLamRegG12G22 c n)
    | exact congrArg Except.ok (s_dLamChiG12G22 c n)
    | exact congrArg Except.ok (s_dLamYb2G22 c n)
    | exact congrArg Except.ok (s_dLamYb4 c n)
    | exact congrArg Except.ok (s_dLamYt2G12 c n)
    | exact congrArg Except.ok (s_dLamYt2G22 c n)
    | exact congrArg Except.ok (s_dLamYtau2G12 c n)
    | exact congrArg Except.ok (s_dLamYtau2G22 c n)
    | exact congrArg Except.ok (s_dLamYtau4 c n)
    | exact congrArg Except.ok (s_dG1G1 c n)
    | exact congrArg Except.ok (s_dG2G2 c n)
    | exact congrArg Except.ok (s_dYtYb c n)
    | exact congrArg Except.ok (s_dYtYt c n)
    | exact congrArg Except.ok (s_dYtauYtau c n)
    | exact congrArg Except.ok (s_dYbYb c n)
    | exact congrArg Except.ok (s_dYbYt c n)
    | exact congrArg Except.ok (s_dYtauYb c n)
    | exact congrArg Except.ok (s_dLamYtau4Yb2 c n)
    | exact congrArg Except.ok (s_dLamYtau2Yb4 c n)
    | exact congrArg Except.ok (s_dVevYt2 c c.limit)
    | exact congrArg Except.ok (s_dVevYb2 c)
    | exact congrArg Except.ok (s_dVevYtau2 c)
    | exact congrArg Except.ok (s_dLamYt6 dl phi c n)

/-- All but ten orders are covered, among them the ones with charginos and neutralinos and the order `yt^6`; the change of signs changes the point. -/
example : ThrOrder.LAMBDA_CHI_G14 ∉ withGluino ++ notSymmetric ∧ ThrOrder.LAMBDA_YT6 ∉ withGluino ++ notSymmetric ∧
    ThrOrder.YT_YB ∉ withGluino ++ notSymmetric := by decide
example : (flip { examplePoint with mu := 8 }).mu = -8 ∧ (flip { examplePoint with Au := fun _ _ => 3 }).Au 2 2 = -3 := ⟨rfl, rfl⟩

/-- **C74 (partial: not if `μ` or `-μ` is close to the mass of the left-handed squark).** The correction of order `yb^6`. -/
theorem C74_yb6_partial (dl : ℝ → ℝ) (phi : ℝ → ℝ → ℝ → ℝ) (c : TcObj ℝ) (s : Scheme) (n : Int) (h : MuNotDegenerate c.p) :
    (flipT c).thr (thrFns4 dl phi) .LAMBDA_YB6 s n = c.thr (thrFns4 dl phi) .LAMBDA_YB6 s n :=
  congrArg Except.ok (s_dLamYb6 dl phi c n h)

/-- `μ` = 8 and a mass of 1. -/
example : MuNotDegenerate { examplePoint with mu := 8, mq2 := fun _ _ => 1 } := by
  unfold MuNotDegenerate
  simp only [Real.sqrt_one]
  norm_num

/-- **C74 (partial: not if the masses of the left- and right-handed stau differ by less than 10%, see `C74_ytau6_violated`).** The correction of order `ytau^6`. -/
theorem C74_ytau6_partial (dl : ℝ → ℝ) (phi : ℝ → ℝ → ℝ → ℝ) (c : TcObj ℝ) (s : Scheme) (n : Int)
    (h : ¬ (|Real.sqrt (c.p.me2 2 2) - Real.sqrt (c.p.ml2 2 2)| < Real.sqrt (c.p.me2 2 2) / 10)) :
    (flipT c).thr (thrFns4 dl phi) .LAMBDA_YTAU6 s n = c.thr (thrFns4 dl phi) .LAMBDA_YTAU6 s n :=
  congrArg Except.ok (s_dLamYtau6 dl phi c n h)

/-- Masses of 1 and 2. -/
example : ¬ (|Real.sqrt (4 : ℝ) - Real.sqrt 1| < Real.sqrt (4 : ℝ) / 10) := by
  rw [Real.sqrt_one, show (4 : ℝ) = 2 ^ 2 by norm_num, Real.sqrt_sq (by norm_num)]
  norm_num

/-! ### the corrections to the squared Higgs mass -/

/-- the EFT calculator at the parameter point with the other signs -/
noncomputable def flipE (c : EftCalc ℝ) : EftCalc ℝ := { c with p := flip c.p }

/-- **C74.** The tree-level term and the one-loop correction, for all choices of the coupling orders, with or without logarithms. -/
theorem C74_one_loop (dl : ℝ → ℝ) (phi : ℝ → ℝ → ℝ → ℝ) (t : TcObj ℝ) (c : EftCalc ℝ) (b0 : ℝ → ℝ → ℝ → ℝ) (k n : Int) :
    (flipE c).loop0 = c.loop0 ∧
      (flipE c).loop1 (thrOf (thrFns4 dl phi) (flipT t)) b0 k n = c.loop1 (thrOf (thrFns4 dl phi) t) b0 k n := by
  refine ⟨rfl, ?_⟩
  have h : ∀ o ∈ oneLoopThr, thrOf (thrFns4 dl phi) (flipT t) o n = thrOf (thrFns4 dl phi) t o n := fun o ho =>
    C74_threshold dl phi t o _ n (by revert ho; revert o; decide) (by revert ho; revert o; decide)
  simp only [oneLoopThr, List.mem_cons, List.not_mem_nil, or_false, forall_eq_or_imp, forall_eq] at h
  obtain ⟨h1, h2, h3, h4, h5, h6, h7, h8, h9, h10, h11, h12, h13, h14, h15, h16, h17, h18, h19, h20, h21, h22, h23⟩ := h
  unfold EftCalc.loop1
  simp only [h1, h2, h3, h4, h5, h6, h7, h8, h9, h10, h11, h12, h13, h14, h15, h16, h17, h18, h19, h20, h21, h22, h23]
  rfl

/-- **C74.** The two-loop correction, if the orders with gluinos and the orders `yt^2 yb^4` and `yt^4 yb^2` are switched off, and the conditions of
`C74_yb6_partial` and `C74_ytau6_partial` hold if these orders are switched on. -/
theorem C74_two_loop_partial (dl : ℝ → ℝ) (phi : ℝ → ℝ → ℝ → ℝ) (t : TcObj ℝ) (c : EftCalc ℝ) (k n : Int)
    (hc : ∀ o ∈ [Order.G32YT4, .G32YB4, .YT2YB4, .YB2YT4], c.on o = false) (hb : c.on .YB6 = true → MuNotDegenerate t.p)
    (htau : c.on .YTAU6 = true → ¬ (|Real.sqrt (t.p.me2 2 2) - Real.sqrt (t.p.ml2 2 2)| < Real.sqrt (t.p.me2 2 2) / 10)) :
    (flipE c).loop2 (thrOf (thrFns4 dl phi) (flipT t)) k n = c.loop2 (thrOf (thrFns4 dl phi) t) k n := by
  simp only [List.mem_cons, List.not_mem_nil, or_false, forall_eq_or_imp, forall_eq] at hc
  obtain ⟨c1, c2, c3, c4⟩ := hc
  have cc : ∀ b (e e' : Except String ℝ), (b = true → e' = e) → calcIf b e' = calcIf b e := fun b e e' h => by
    unfold calcIf; cases b
    · rfl
    · simp [h rfl]
  have off : ∀ (e e' : Except String ℝ), calcIf false e' = calcIf false e := fun e e' => rfl
  have g : ∀ o, o ∉ withGluino → o ∉ notSymmetric → thrOf (thrFns4 dl phi) (flipT t) o n = thrOf (thrFns4 dl phi) t o n :=
    fun o h1 h2 => C74_threshold dl phi t o _ n h1 h2
  have e1 := cc (c.on .YB6) (thrOf (thrFns4 dl phi) t .LAMBDA_YB6 n) (thrOf (thrFns4 dl phi) (flipT t) .LAMBDA_YB6 n)
    fun h => C74_yb6_partial dl phi t _ n (hb h)
  have e2 := cc (c.on .YTAU6) (thrOf (thrFns4 dl phi) t .LAMBDA_YTAU6 n) (thrOf (thrFns4 dl phi) (flipT t) .LAMBDA_YTAU6 n)
    fun h => C74_ytau6_partial dl phi t _ n (htau h)
  have fo : ∀ o, (flipE c).on o = c.on o := fun _ => rfl
  unfold EftCalc.loop2
  simp only [fo, c1, c2, c3, c4, e1, e2, g .LAMBDA_YB4 (by decide) (by decide), g .LAMBDA_AT (by decide) (by decide),
    g .YT_YT (by decide) (by decide), g .LAMBDA_YT6 (by decide) (by decide), g .VEV_YT2 (by decide) (by decide), g .YTAU_YTAU (by decide) (by decide),
    g .LAMBDA_YTAU4 (by decide) (by decide), g .YT_YB (by decide) (by decide), g .VEV_YTAU2 (by decide) (by decide), g .VEV_YB2 (by decide) (by decide),
    g .YTAU_YB (by decide) (by decide), g .LAMBDA_YTAU2_YB4 (by decide) (by decide), g .LAMBDA_YTAU4_YB2 (by decide) (by decide),
    g .YB_YT (by decide) (by decide), g .YB_YB (by decide) (by decide)]
  simp only [calcIf, Bool.false_eq_true, if_false]
  rfl

/-- A calculator with only the order `yt^6` switched on meets the hypotheses. -/
noncomputable def onlyYt6 : EftCalc ℝ := ⟨examplePoint, fun o => if o = .YT6 then 1 else 0⟩
example : (∀ o ∈ [Order.G32YT4, .G32YB4, .YT2YB4, .YB2YT4], onlyYt6.on o = false) ∧ onlyYt6.on .YB6 = false ∧ onlyYt6.on .YTAU6 = false ∧
    onlyYt6.on .YT6 = true := by
  unfold EftCalc.on onlyYt6; decide

/-! ### violations -/

/-- A point with equal masses of the staus and `A_τ` = `x`, and its calculator. -/
noncomputable def tauPoint (x : ℝ) : Params ℝ :=
  { examplePoint with scale := 1, vu := 3, vd := 4, me2 := fun _ _ => 1, ml2 := fun _ _ => 1, mu := 0, Ae := fun _ _ => x }
noncomputable def tauTc (x : ℝ) : TcObj ℝ := ⟨tauPoint x, 1, 6⟩

theorem tau_flip (x : ℝ) (dl : ℝ → ℝ) (phi : ℝ → ℝ → ℝ → ℝ) (n : Int) : (flipT (tauTc x)).dLamYtau6 dl phi n = (tauTc (-x)).dLamYtau6 dl phi n := by
  have h : ∀ a b : Params ℝ, a.mu = 0 → b.mu = 0 → a.Ae 2 2 = b.Ae 2 2 → a.scale = b.scale → a.ml2 2 2 = b.ml2 2 2 → a.me2 2 2 = b.me2 2 2 →
      a.MA = b.MA → a.vu = b.vu → a.vd = b.vd → (⟨a, 1, 6⟩ : TcObj ℝ).dLamYtau6 dl phi n = (⟨b, 1, 6⟩ : TcObj ℝ).dLamYtau6 dl phi n := by
    intro a b h1 h2 h3 h4 h5 h6 h7 h8 h9
    unfold TcObj.dLamYtau6 calcXtau calcYtau eftTanBeta eftSinBeta eftCosBeta eftV eftV2
    simp only [h1, h2, h3, h4, h5, h6, h7, h8, h9]
  exact h _ _ (by simp [flip, tauTc, tauPoint]) rfl rfl rfl rfl rfl rfl rfl rfl

theorem tau_value (x : ℝ) (dl : ℝ → ℝ) (phi : ℝ → ℝ → ℝ → ℝ) (n : Int) :
    (tauTc x).dLamYtau6 dl phi n - (tauTc (-x)).dLamYtau6 dl phi n =
      2 * (4 / 5) ^ 3 * (3 / 5) * (4.994969600000008 * x ^ 3 + 4.507545599999993 * x - 0.24874240000000025 * x ^ 5) := by
  have hv : ∀ x, eftV (tauTc x).p = 5 := fun x => by
    unfold eftV eftV2
    show Real.sqrt (pow2 (3 : ℝ) + pow2 (4 : ℝ)) = 5
    rw [show pow2 (3 : ℝ) + pow2 (4 : ℝ) = 5 ^ 2 by norm_num [pow2]]
    exact Real.sqrt_sq (by norm_num)
  have hs : ∀ x, eftSinBeta (tauTc x).p = 3 / 5 := fun x => by unfold eftSinBeta; rw [hv]; rfl
  have hcb : ∀ x, eftCosBeta (tauTc x).p = 4 / 5 := fun x => by unfold eftCosBeta; rw [hv]; rfl
  have hx : ∀ x, calcXtau (tauTc x).p = x := fun x => by unfold calcXtau; simp [tauTc, tauPoint]
  have me : ∀ x, FOps.sqrt ((tauTc x).p.me2 2 2) = (1 : ℝ) := fun x => Real.sqrt_one
  have ml : ∀ x, FOps.sqrt ((tauTc x).p.ml2 2 2) = (1 : ℝ) := fun x => Real.sqrt_one
  have lg : ∀ x, FOps.log ((tauTc x).p.ml2 2 2 / pow2 (tauTc x).p.scale) = (0 : ℝ) := fun x => by
    show Real.log (1 / pow2 (1 : ℝ)) = 0
    norm_num [pow2]
  have e : FOps.lt (FOps.abs ((1 : ℝ) - 1)) (FOps.lit (1 / 10) * 1) = true := by
    show decide (|(1 : ℝ) - 1| < _) = true
    apply decide_eq_true
    simp only [real_lit]; norm_num
  unfold TcObj.dLamYtau6
  simp only [me, ml, e, if_true]
  simp only [lg, hs, hcb, hx, real_lit]
  simp only [pow2, Misc.pow2, Misc.pow3, Misc.pow4, Misc.pow5, Misc.pow6, real_ofNat]
  push_cast
  ring

/-- **C74 is violated by the limit of equal stau masses.** The correction of order `ytau^6` contains odd powers of `X_τ` without a factor `μ` or `Y_τ`. -/
theorem C74_ytau6_violated (dl : ℝ → ℝ) (phi : ℝ → ℝ → ℝ → ℝ) (s : Scheme) (n : Int) :
    ∃ c : TcObj ℝ, (flipT c).thr (thrFns4 dl phi) .LAMBDA_YTAU6 s n ≠ c.thr (thrFns4 dl phi) .LAMBDA_YTAU6 s n := by
  refine ⟨tauTc 1, fun h => ?_⟩
  have h : (flipT (tauTc 1)).dLamYtau6 dl phi n = (tauTc 1).dLamYtau6 dl phi n := Except.ok.inj h
  have v := tau_value 1 dl phi n
  rw [tau_flip] at h
  rw [h, sub_self] at v
  norm_num at v

end Himalaya.Signs
