import Verif.EFT.UnitsF
import Verif.Hier.UnitsBase

/-!
# C73: the EFT calculation does not depend on the units of mass
-/

set_option linter.unusedSimpArgs false
set_option linter.unusedVariables false
set_option linter.unusedSectionVars false
set_option linter.unusedTactic false
set_option linter.unreachableTactic false
set_option maxRecDepth 20000

namespace Himalaya.Units

open scoped Himalaya
open Kron

/-- The threshold calculator at the parameter point given in other units of mass. -/
noncomputable def rescaleT (l : ℝ) (c : TcObj ℝ) : TcObj ℝ := { c with p := c.p.rescale l, msq2 := l ^ 2 * c.msq2 }

variable {l : ℝ} (hl : 0 < l)

theorem r_mq2 (p : Params ℝ) (i j : Fin 3) : (p.rescale l).mq2 i j = l ^ 2 * p.mq2 i j := rfl
theorem r_mu2 (p : Params ℝ) (i j : Fin 3) : (p.rescale l).mu2 i j = l ^ 2 * p.mu2 i j := rfl
theorem r_md2 (p : Params ℝ) (i j : Fin 3) : (p.rescale l).md2 i j = l ^ 2 * p.md2 i j := rfl
theorem r_ml2 (p : Params ℝ) (i j : Fin 3) : (p.rescale l).ml2 i j = l ^ 2 * p.ml2 i j := rfl
theorem r_me2 (p : Params ℝ) (i j : Fin 3) : (p.rescale l).me2 i j = l ^ 2 * p.me2 i j := rfl
theorem r_Au (p : Params ℝ) (i j : Fin 3) : (p.rescale l).Au i j = l * p.Au i j := rfl
theorem r_Ad (p : Params ℝ) (i j : Fin 3) : (p.rescale l).Ad i j = l * p.Ad i j := rfl
theorem r_Ae (p : Params ℝ) (i j : Fin 3) : (p.rescale l).Ae i j = l * p.Ae i j := rfl
theorem r_scale (p : Params ℝ) : (p.rescale l).scale = l * p.scale := rfl
theorem r_mu (p : Params ℝ) : (p.rescale l).mu = l * p.mu := rfl
theorem r_MG (p : Params ℝ) : (p.rescale l).MG = l * p.MG := rfl
theorem r_MA (p : Params ℝ) : (p.rescale l).MA = l * p.MA := rfl
theorem r_M1 (p : Params ℝ) : (p.rescale l).M1 = l * p.M1 := rfl
theorem r_M2 (p : Params ℝ) : (p.rescale l).M2 = l * p.M2 := rfl
theorem r_vu (p : Params ℝ) : (p.rescale l).vu = l * p.vu := rfl
theorem r_vd (p : Params ℝ) : (p.rescale l).vd = l * p.vd := rfl
theorem r_MSt (p : Params ℝ) : (p.rescale l).MSt.x0 = l * p.MSt.x0 := rfl
theorem r_p (c : TcObj ℝ) : (rescaleT l c).p = c.p.rescale l := rfl
theorem r_msq2 (c : TcObj ℝ) : (rescaleT l c).msq2 = l ^ 2 * c.msq2 := rfl
theorem r_xt (c : TcObj ℝ) : (rescaleT l c).xtOrder = c.xtOrder := rfl
theorem r_limit (c : TcObj ℝ) : (rescaleT l c).limit = c.limit := rfl


include hl
theorem r_pow2' (x : ℝ) : pow2 (l ^ 2 * x) = l ^ 4 * pow2 x := by simp only [pow2]; ring
theorem r_pow2 (x : ℝ) : pow2 (l * x) = l ^ 2 * pow2 x := by simp only [pow2]; ring
theorem r_sqrt (x : ℝ) : FOps.sqrt (l ^ 2 * x) = l * FOps.sqrt x := by
  show Real.sqrt _ = l * Real.sqrt x
  rw [Real.sqrt_mul (by positivity), Real.sqrt_sq hl.le]
theorem r_div (x y : ℝ) : l * x / (l * y) = x / y := mul_div_mul_left _ _ hl.ne'
theorem r_div2 (x y : ℝ) : l ^ 2 * x / (l ^ 2 * y) = x / y := mul_div_mul_left _ _ (by positivity)
theorem r_tan (p : Params ℝ) : eftTanBeta (p.rescale l) = eftTanBeta p := r_div hl _ _
theorem r_beta (p : Params ℝ) : eftBeta (p.rescale l) = eftBeta p := by unfold eftBeta; rw [r_tan hl]
theorem r_v2 (p : Params ℝ) : eftV2 (p.rescale l) = l ^ 2 * eftV2 p := by
  unfold eftV2; rw [r_vu, r_vd, r_pow2 hl, r_pow2 hl, mul_add]
theorem r_v (p : Params ℝ) : eftV (p.rescale l) = l * eftV p := by unfold eftV; rw [r_v2 hl, r_sqrt hl]
theorem r_sin (p : Params ℝ) : eftSinBeta (p.rescale l) = eftSinBeta p := by unfold eftSinBeta; rw [r_v hl, r_vu, r_div hl]
theorem r_cos (p : Params ℝ) : eftCosBeta (p.rescale l) = eftCosBeta p := by unfold eftCosBeta; rw [r_v hl, r_vd, r_div hl]
theorem r_Xt (p : Params ℝ) : calcXt (p.rescale l) = l * calcXt p := by unfold calcXt; rw [r_tan hl, r_Au, r_mu]; ring
theorem r_Xb (p : Params ℝ) : calcXb (p.rescale l) = l * calcXb p := by unfold calcXb; rw [r_tan hl, r_Ad, r_mu]; ring
theorem r_Xtau (p : Params ℝ) : calcXtau (p.rescale l) = l * calcXtau p := by unfold calcXtau; rw [r_tan hl, r_Ae, r_mu]; ring
theorem r_Yt (p : Params ℝ) : calcYt (p.rescale l) = l * calcYt p := by unfold calcYt; rw [r_tan hl, r_Au, r_mu]; ring
theorem r_Yb (p : Params ℝ) : calcYb (p.rescale l) = l * calcYb p := by unfold calcYb; rw [r_tan hl, r_Ad, r_mu]; ring
theorem r_logMR (p : Params ℝ) (n : Int) (x : ℝ) : logMR (p.rescale l) n (l ^ 2 * x) = logMR p n x := by
  unfold logMR; rw [r_MSt, r_scale, r_pow2 hl, r_pow2 hl, r_div2 hl, r_div2 hl]

theorem u_dG3 (c : TcObj ℝ) (n : Int) : (rescaleT l c).dG3 n = c.dG3 n := by
  unfold TcObj.dG3
  simp only [r_p, r_msq2, r_mq2, r_mu2, r_MG, r_pow2 hl, r_logMR hl]

/-- unfolds the parameters in the new units -/
macro "runits" h:term : tactic => `(tactic| simp only [r_p, r_msq2, r_xt, r_mq2, r_mu2, r_md2, r_ml2, r_me2, r_MG, r_MA, r_M1, r_M2, r_mu, r_scale, r_pow2 $h,
  r_sqrt $h, r_Xt $h, r_Xb $h, r_Xtau $h, r_Yt $h, r_Yb $h, r_logMR $h, r_div $h, r_div2 $h, r_beta $h, r_tan $h, r_sin $h, r_cos $h])
/-- the arguments of a formula are scaled according to their dimensions -/
macro "scaled" : tactic => `(tactic| (simp only [Scaled]; norm_num [Misc.pow2, Misc.pow3, Misc.pow4, Misc.pow5, Misc.pow6, pow2, zpow_ofNat]; try ring_nf))

/-- a formula with a value, possibly without dilogarithms -/
macro "by_units" f:ident "," h:term : tactic => `(tactic| ((first | (refine congrArg Except.ok ($f _ (ne_of_gt $h) ?_)) | (refine congrArg Except.ok ($f id (ne_of_gt $h) ?_)) | (refine $f _ (ne_of_gt $h) ?_)); scaled))

theorem u_dYtAs (c : TcObj ℝ) (L : Limit) (n : Int) : (rescaleT l c).dYtAs L n = c.dYtAs L n := by
  unfold TcObj.dYtAs
  runits hl
  generalize (if L = .degenerate then Limit.qug else L) = L'
  cases L' <;> dsimp only
  · by_units dYtAsGen_units, hl
  · by_units dYtAsQU_units, hl
  · by_units dYtAsQG_units, hl
  · by_units dYtAsUG_units, hl
  · by_units dYtAsQUG_units, hl

theorem u_dLamAt (c : TcObj ℝ) (L : Limit) (n : Int) : (rescaleT l c).dLamAt L n = c.dLamAt L n := by
  unfold TcObj.dLamAt
  runits hl
  generalize (if (if (if L = .degenerate then Limit.qug else L) = .qg ∨ (if L = .degenerate then Limit.qug else L) = .ug then Limit.general
    else (if L = .degenerate then Limit.qug else L)) = .qug then Limit.qu else
    (if (if L = .degenerate then Limit.qug else L) = .qg ∨ (if L = .degenerate then Limit.qug else L) = .ug then Limit.general
    else (if L = .degenerate then Limit.qug else L))) = L'
  cases L' <;> dsimp only
  · by_units dLamAtGen_units, hl
  · by_units dLamAtQU_units, hl

theorem u_dLamAtAs (T : ThrFns ℝ) (c : TcObj ℝ) (L : Limit) (n : Int) : (rescaleT l c).dLamAtAs T L n = c.dLamAtAs T L n := by
  unfold TcObj.dLamAtAs
  runits hl
  generalize (if L = .degenerate then Limit.qug else L) = L'
  cases L' <;> dsimp only
  · by_units dLamAtAsGen_units, hl
  · by_units dLamAtAsQU_units, hl
  · by_units dLamAtAsQG_units, hl
  · by_units dLamAtAsUG_units, hl
  · by_units dLamAtAsQUG_units, hl

theorem u_dYtAs2 (dl : ℝ → ℝ) (c : TcObj ℝ) (L : Limit) (n : Int) : (rescaleT l c).dYtAs2 dl L n = c.dYtAs2 dl L n := by
  unfold TcObj.dYtAs2
  runits hl
  cases L <;> dsimp only
  · by_units dYtAs2Gen_units, hl
  · by_units dYtAs2QU_units, hl
  · by_units dYtAs2QG_units, hl
  · by_units dYtAs2UG_units, hl
  · by_units dYtAs2QUG_units, hl
  · by_units dYtAs2Deg_units, hl

theorem ite_scale (b : Prop) [Decidable b] (k : ℕ) (x : ℝ) :
    (if b then (@OfNat.ofNat ℝ 0 (FOps.instOfNat 0)) else l ^ k * x) = l ^ k * (if b then (@OfNat.ofNat ℝ 0 (FOps.instOfNat 0)) else x) := by
  split_ifs <;> simp [real_ofNat]
theorem r_pow4 (x : ℝ) : Misc.pow4 (l * x) = l ^ 4 * Misc.pow4 x := by simp only [Misc.pow4, Misc.pow2]; ring
theorem r_pow5 (x : ℝ) : Misc.pow5 (l * x) = l ^ 5 * Misc.pow5 x := by simp only [Misc.pow5, Misc.pow4, Misc.pow2]; ring
theorem r_pow6 (x : ℝ) : Misc.pow6 (l * x) = l ^ 6 * Misc.pow6 x := by simp only [Misc.pow6, Misc.pow3, Misc.pow2]; ring

theorem u_dLamAtAs2 (dl : ℝ → ℝ) (c : TcObj ℝ) (L : Limit) (n : Int) : (rescaleT l c).dLamAtAs2 dl L n = c.dLamAtAs2 dl L n := by
  unfold TcObj.dLamAtAs2
  runits hl
  simp only [r_pow4 hl, r_pow5 hl, ite_scale hl]
  generalize (if L = .degenerate then Limit.qug else L) = L'
  generalize (if c.xtOrder < 4 then (@OfNat.ofNat ℝ 0 (FOps.instOfNat 0)) else Misc.pow4 (calcXt c.p)) = x4
  generalize (if c.xtOrder < 5 then (@OfNat.ofNat ℝ 0 (FOps.instOfNat 0)) else Misc.pow5 (calcXt c.p)) = x5
  cases L' <;> dsimp only
  · by_units dLamAtAs2Gen_units, hl
  · by_units dLamAtAs2QU_units, hl
  · by_units dLamAtAs2QG_units, hl
  · by_units dLamAtAs2UG_units, hl
  · by_units dLamAtAs2QUG_units, hl

theorem u_dXtTerms (dl : ℝ → ℝ) (c : TcObj ℝ) (L : Limit) (k n : Int) : (rescaleT l c).dXtTerms dl L k n = c.dXtTerms dl L k n := by
  unfold TcObj.dXtTerms
  runits hl
  simp only [r_pow4 hl, r_pow5 hl, r_pow6 hl, ite_scale hl]
  generalize (if k ≠ 4 then (@OfNat.ofNat ℝ 0 (FOps.instOfNat 0)) else Misc.pow4 (calcXt c.p)) = x4
  generalize (if k ≠ 5 then (@OfNat.ofNat ℝ 0 (FOps.instOfNat 0)) else Misc.pow5 (calcXt c.p)) = x5
  generalize (if k ≠ 6 then (@OfNat.ofNat ℝ 0 (FOps.instOfNat 0)) else Misc.pow6 (calcXt c.p)) = x6
  cases L <;> dsimp only
  · by_units xtTermsGen_units, hl
  · by_units xtTermsQU_units, hl
  · by_units xtTermsQG_units, hl
  · by_units xtTermsUG_units, hl
  · by_units xtTermsQUG_units, hl
  · by_units xtTermsDeg_units, hl

theorem u_dLamYb2G12 (c : TcObj ℝ) (n : Int) : (rescaleT l c).dLamYb2G12 n = c.dLamYb2G12 n := by
  unfold TcObj.dLamYb2G12
  runits hl
  try simp only [r_vu, r_vd, r_pow2' hl]
  first | done | (have := hl.ne'; field_simp)
theorem u_dLamG14 (c : TcObj ℝ) (n : Int) : (rescaleT l c).dLamG14 n = c.dLamG14 n := by
  unfold TcObj.dLamG14
  runits hl
  try simp only [r_vu, r_vd, r_pow2' hl]
  first | done | (have := hl.ne'; field_simp)
theorem u_dLamRegG14 (c : TcObj ℝ) (n : Int) : (rescaleT l c).dLamRegG14 n = c.dLamRegG14 n := by
  unfold TcObj.dLamRegG14
  runits hl
  try simp only [r_vu, r_vd, r_pow2' hl]
  first | done | (have := hl.ne'; field_simp)
theorem u_dLamChiG14 (c : TcObj ℝ) (n : Int) : (rescaleT l c).dLamChiG14 n = c.dLamChiG14 n := by
  unfold TcObj.dLamChiG14
  runits hl
  try simp only [r_vu, r_vd, r_pow2' hl]
  first | done | (have := hl.ne'; field_simp)
theorem u_dLamChiG24 (c : TcObj ℝ) (n : Int) : (rescaleT l c).dLamChiG24 n = c.dLamChiG24 n := by
  unfold TcObj.dLamChiG24
  runits hl
  try simp only [r_vu, r_vd, r_pow2' hl]
  first | done | (have := hl.ne'; field_simp)
theorem u_dLamG24 (c : TcObj ℝ) (n : Int) : (rescaleT l c).dLamG24 n = c.dLamG24 n := by
  unfold TcObj.dLamG24
  runits hl
  try simp only [r_vu, r_vd, r_pow2' hl]
  first | done | (have := hl.ne'; field_simp)
theorem u_dLamRegG24 (c : TcObj ℝ) (n : Int) : (rescaleT l c).dLamRegG24 n = c.dLamRegG24 n := by
  unfold TcObj.dLamRegG24
  runits hl
  try simp only [r_vu, r_vd, r_pow2' hl]
  first | done | (have := hl.ne'; field_simp)
theorem u_dLamG12G22 (c : TcObj ℝ) (n : Int) : (rescaleT l c).dLamG12G22 n = c.dLamG12G22 n := by
  unfold TcObj.dLamG12G22
  runits hl
  try simp only [r_vu, r_vd, r_pow2' hl]
  first | done | (have := hl.ne'; field_simp)
theorem u_dLamRegG12G22 (c : TcObj ℝ) (n : Int) : (rescaleT l c).dLamRegG12G22 n = c.dLamRegG12G22 n := by
  unfold TcObj.dLamRegG12G22
  runits hl
  try simp only [r_vu, r_vd, r_pow2' hl]
  first | done | (have := hl.ne'; field_simp)
theorem u_dLamChiG12G22 (c : TcObj ℝ) (n : Int) : (rescaleT l c).dLamChiG12G22 n = c.dLamChiG12G22 n := by
  unfold TcObj.dLamChiG12G22
  runits hl
  try simp only [r_vu, r_vd, r_pow2' hl]
  first | done | (have := hl.ne'; field_simp)
theorem u_dLamYb2G22 (c : TcObj ℝ) (n : Int) : (rescaleT l c).dLamYb2G22 n = c.dLamYb2G22 n := by
  unfold TcObj.dLamYb2G22
  runits hl
  try simp only [r_vu, r_vd, r_pow2' hl]
  first | done | (have := hl.ne'; field_simp)
theorem u_dLamYb4 (c : TcObj ℝ) (n : Int) : (rescaleT l c).dLamYb4 n = c.dLamYb4 n := by
  unfold TcObj.dLamYb4
  runits hl
  try simp only [r_vu, r_vd, r_pow2' hl]
  first | done | (have := hl.ne'; field_simp)
theorem u_dLamYt2G12 (c : TcObj ℝ) (n : Int) : (rescaleT l c).dLamYt2G12 n = c.dLamYt2G12 n := by
  unfold TcObj.dLamYt2G12
  runits hl
  try simp only [r_vu, r_vd, r_pow2' hl]
  first | done | (have := hl.ne'; field_simp)
theorem u_dLamYt2G22 (c : TcObj ℝ) (n : Int) : (rescaleT l c).dLamYt2G22 n = c.dLamYt2G22 n := by
  unfold TcObj.dLamYt2G22
  runits hl
  try simp only [r_vu, r_vd, r_pow2' hl]
  first | done | (have := hl.ne'; field_simp)
theorem u_dLamYtau2G12 (c : TcObj ℝ) (n : Int) : (rescaleT l c).dLamYtau2G12 n = c.dLamYtau2G12 n := by
  unfold TcObj.dLamYtau2G12
  runits hl
  try simp only [r_vu, r_vd, r_pow2' hl]
  first | done | (have := hl.ne'; field_simp)
theorem u_dLamYtau2G22 (c : TcObj ℝ) (n : Int) : (rescaleT l c).dLamYtau2G22 n = c.dLamYtau2G22 n := by
  unfold TcObj.dLamYtau2G22
  runits hl
  try simp only [r_vu, r_vd, r_pow2' hl]
  first | done | (have := hl.ne'; field_simp)
theorem u_dLamYtau4 (c : TcObj ℝ) (n : Int) : (rescaleT l c).dLamYtau4 n = c.dLamYtau4 n := by
  unfold TcObj.dLamYtau4
  runits hl
  try simp only [r_vu, r_vd, r_pow2' hl]
  first | done | (have := hl.ne'; field_simp)
theorem u_dG1G1 (c : TcObj ℝ) (n : Int) : (rescaleT l c).dG1G1 n = c.dG1G1 n := by
  unfold TcObj.dG1G1
  runits hl
  try simp only [r_vu, r_vd, r_pow2' hl]
  first | done | (have := hl.ne'; field_simp)
theorem u_dG2G2 (c : TcObj ℝ) (n : Int) : (rescaleT l c).dG2G2 n = c.dG2G2 n := by
  unfold TcObj.dG2G2
  runits hl
  try simp only [r_vu, r_vd, r_pow2' hl]
  first | done | (have := hl.ne'; field_simp)
theorem u_dYtYb (c : TcObj ℝ) (n : Int) : (rescaleT l c).dYtYb n = c.dYtYb n := by
  unfold TcObj.dYtYb
  runits hl
  try simp only [r_vu, r_vd, r_pow2' hl]
  first | done | (have := hl.ne'; field_simp)
theorem u_dYtYt (c : TcObj ℝ) (n : Int) : (rescaleT l c).dYtYt n = c.dYtYt n := by
  unfold TcObj.dYtYt
  runits hl
  try simp only [r_vu, r_vd, r_pow2' hl]
  first | done | (have := hl.ne'; field_simp)
theorem u_dYtauYtau (c : TcObj ℝ) (n : Int) : (rescaleT l c).dYtauYtau n = c.dYtauYtau n := by
  unfold TcObj.dYtauYtau
  runits hl
  try simp only [r_vu, r_vd, r_pow2' hl]
  first | done | (have := hl.ne'; field_simp)
theorem u_dYbYb (c : TcObj ℝ) (n : Int) : (rescaleT l c).dYbYb n = c.dYbYb n := by
  unfold TcObj.dYbYb
  runits hl
  try simp only [r_vu, r_vd, r_pow2' hl]
  first | done | (have := hl.ne'; field_simp)
theorem u_dYbYt (c : TcObj ℝ) (n : Int) : (rescaleT l c).dYbYt n = c.dYbYt n := by
  unfold TcObj.dYbYt
  runits hl
  try simp only [r_vu, r_vd, r_pow2' hl]
  first | done | (have := hl.ne'; field_simp)
theorem u_dYbAs (c : TcObj ℝ) (n : Int) : (rescaleT l c).dYbAs n = c.dYbAs n := by
  unfold TcObj.dYbAs
  runits hl
  try simp only [r_vu, r_vd, r_pow2' hl]
  first | done | (have := hl.ne'; field_simp)
theorem u_dYtauYb (c : TcObj ℝ) (n : Int) : (rescaleT l c).dYtauYb n = c.dYtauYb n := by
  unfold TcObj.dYtauYb
  runits hl
  try simp only [r_vu, r_vd, r_pow2' hl]
  first | done | (have := hl.ne'; field_simp)

theorem r_lt (x y : ℝ) : FOps.lt (l * x) (l * y) = FOps.lt x y := by
  show decide _ = decide _
  exact decide_eq_decide.2 (mul_lt_mul_iff_right₀ hl)
theorem r_abs (x : ℝ) : FOps.abs (l * x) = l * FOps.abs x := by show |_| = l * |x|; rw [abs_mul, abs_of_pos hl]
theorem r_close (x y z : ℝ) (q : ℚ) : FOps.lt (FOps.abs (l * x - l * y)) (l * z * FOps.lit q) = FOps.lt (FOps.abs (x - y)) (z * FOps.lit q) := by
  rw [← mul_sub, r_abs hl, mul_assoc, r_lt hl]
theorem r_close2 (x y z : ℝ) (q : ℚ) : FOps.lt (FOps.abs (l ^ 2 * x - l ^ 2 * y)) (l ^ 2 * z * FOps.lit q) = FOps.lt (FOps.abs (x - y)) (z * FOps.lit q) :=
  r_close (l := l ^ 2) (by positivity) x y z q

theorem u_dVevYt2 (c : TcObj ℝ) (L : Limit) : (rescaleT l c).dVevYt2 L = c.dVevYt2 L := by
  unfold TcObj.dVevYt2
  runits hl
  generalize (if L = .qg ∨ L = .ug then Limit.general else L) = L'
  have := hl.ne'
  cases L' <;> simp only [pow2, Misc.pow3, Misc.pow2, ← mul_sub] <;> field_simp
theorem u_dVevYb2 (c : TcObj ℝ) : (rescaleT l c).dVevYb2 = c.dVevYb2 := by
  unfold TcObj.dVevYb2
  runits hl
  rw [r_close2 hl]
  have := hl.ne'
  split_ifs <;> simp only [pow2, Misc.pow3, Misc.pow2, ← mul_sub] <;> field_simp
theorem u_dVevYtau2 (c : TcObj ℝ) : (rescaleT l c).dVevYtau2 = c.dVevYtau2 := by
  unfold TcObj.dVevYtau2
  runits hl
  rw [r_close2 hl]
  have := hl.ne'
  split_ifs <;> simp only [pow2, Misc.pow3, Misc.pow2, ← mul_sub] <;> field_simp


theorem r_mulmul (x y : ℝ) : l * x * (l * y) = l ^ 2 * (x * y) := by ring
theorem r_litmul (x : ℝ) (y : ℝ) : l * x * y = l * (x * y) := by ring
theorem r_litmul2 (x : ℝ) (y : ℝ) : l ^ 2 * x * y = l ^ 2 * (x * y) := by ring
theorem r_pow3' (x : ℝ) : Misc.pow3 (l ^ 2 * x) = l ^ 6 * Misc.pow3 x := by simp only [Misc.pow3]; ring

theorem u_dLamYt6HD (dl : ℝ → ℝ) (c : TcObj ℝ) (n : Int) : (rescaleT l c).dLamYt6HD dl n = c.dLamYt6HD dl n := by
  unfold TcObj.dLamYt6HD
  runits hl
  simp only [r_mulmul hl, r_sqrt hl, r_div hl, r_div2 hl, r_beta hl, r_cos hl, r_sin hl]

omit hl in
/-- for masses far above the absolute precision, `isEqualRel` compares the relative difference with the given precision -/
theorem isEqualRel_big {a b : ℝ} (ha : 10 ^ (-14 : ℤ) ≤ a) (hb : 10 ^ (-14 : ℤ) ≤ b) :
    Misc.isEqualRel a b (FOps.lit (1 / 10)) = decide (|a - b| ≤ 1 / 10 * max a b) := by
  have dabs_eq : ∀ x : ℝ, Misc.dabs x = |x| := fun x => by
    unfold Misc.dabs
    show (if decide _ = true then x else -x) = |x|
    simp only [decide_eq_true_eq, real_lit]
    push_cast
    split_ifs with h
    · exact (abs_of_nonneg h).symm
    · exact (abs_of_neg (not_le.1 h)).symm
  have a0 : 0 < a := _root_.lt_of_lt_of_le (by norm_num) ha
  have b0 : 0 < b := _root_.lt_of_lt_of_le (by norm_num) hb
  have hmax : Misc.stdMax a b = max a b := by
    unfold Misc.stdMax
    show (if decide _ = true then b else a) = _
    simp only [decide_eq_true_eq]
    split_ifs with h
    · exact (max_eq_right h.le).symm
    · exact (max_eq_left (not_lt.1 h)).symm
  have hmin : ¬ (Misc.stdMin a b < (Misc.eps : ℝ)) := by
    unfold Misc.stdMin Misc.eps
    show ¬ (if decide _ = true then b else a) < _
    simp only [decide_eq_true_eq, real_lit]
    norm_num at ha hb ⊢
    split_ifs <;> linarith
  unfold Misc.isEqualRel Misc.isEqual Misc.isZero
  simp only [dabs_eq, abs_of_pos a0, abs_of_pos b0, hmax]
  have e2 : FOps.lt (Misc.stdMin a b) (Misc.eps : ℝ) = false := decide_eq_false hmin
  rw [e2]
  have e3 : ∀ x y : ℝ, FOps.le x y = decide (x ≤ y) := fun _ _ => rfl
  simp only [e3, real_lit]
  have h1 : (Misc.eps : ℝ) ≤ 1 / 10 * max a b := by
    unfold Misc.eps
    simp only [real_lit]
    have := le_max_left a b
    norm_num at ha ⊢
    linarith
  norm_num
  intro h
  norm_num at h1
  linarith

theorem r_isEqualRel {a b : ℝ} (ha : 10 ^ (-14 : ℤ) ≤ a) (hb : 10 ^ (-14 : ℤ) ≤ b) (ha' : 10 ^ (-14 : ℤ) ≤ l ^ 2 * a) (hb' : 10 ^ (-14 : ℤ) ≤ l ^ 2 * b) :
    Misc.isEqualRel (l ^ 2 * a) (l ^ 2 * b) (FOps.lit (1 / 10)) = Misc.isEqualRel a b (FOps.lit (1 / 10)) := by
  rw [isEqualRel_big ha hb, isEqualRel_big ha' hb']
  have h2 : 0 < l ^ 2 := by positivity
  rw [← mul_sub, abs_mul, abs_of_pos h2, ← mul_max_of_nonneg _ _ h2.le, mul_left_comm]
  exact decide_eq_decide.2 (mul_le_mul_iff_right₀ h2)

/-- the squared soft-breaking masses of the stops and the squared mass of the CP-odd Higgs boson are far above the absolute precision `2^-52`
of the comparison of floating-point numbers in the given units of mass -/
def Sizable (p : Params ℝ) : Prop := 10 ^ (-14 : ℤ) ≤ p.mq2 2 2 ∧ 10 ^ (-14 : ℤ) ≤ p.mu2 2 2 ∧ 10 ^ (-14 : ℤ) ≤ p.MA ^ 2

theorem u_dLamYt6 (dl : ℝ → ℝ) {phi : ℝ → ℝ → ℝ → ℝ} (hphi : ∀ x y z, phi (l ^ 2 * x) (l ^ 2 * y) (l ^ 2 * z) = phi x y z) (c : TcObj ℝ) (n : Int)
    (h : Sizable c.p) (h' : Sizable (c.p.rescale l)) : (rescaleT l c).dLamYt6 dl phi n = c.dLamYt6 dl phi n := by
  have hA : pow2 c.p.MA = c.p.MA ^ 2 := by simp only [pow2]; ring
  have hA' : l ^ 2 * pow2 c.p.MA = (c.p.rescale l).MA ^ 2 := by rw [r_MA]; simp only [pow2]; ring
  unfold TcObj.dLamYt6
  rw [u_dLamYt6HD hl]
  runits hl
  rw [r_isEqualRel hl h.1 h.2.1 h'.1 h'.2.1, r_isEqualRel hl h.1 (hA ▸ h.2.2) h'.1 (hA' ▸ h'.2.2), r_isEqualRel hl h.2.1 (hA ▸ h.2.2) h'.2.1 (hA' ▸ h'.2.2)]
  simp only [r_litmul hl, r_litmul2 hl, r_sqrt hl, r_pow2 hl, r_pow2' hl, r_pow3' hl, r_div2 hl]
  split_ifs
  · rfl
  · refine Yt6_units dl phi _ _ _ _ _ _ hl.ne' ?_
    simp only [hphi]
    scaled

theorem u_dLamYb6 (dl : ℝ → ℝ) {phi : ℝ → ℝ → ℝ → ℝ} (hphi : ∀ x y z, phi (l ^ 2 * x) (l ^ 2 * y) (l ^ 2 * z) = phi x y z) (c : TcObj ℝ) (n : Int) :
    (rescaleT l c).dLamYb6 dl phi n = c.dLamYb6 dl phi n := by
  rw [dLamYb6_eq, dLamYb6_eq]
  runits hl
  simp only [r_close hl, r_mulmul hl, r_sqrt hl, hphi]
  split_ifs
  · refine Yb6_l0_units hl.ne' ?_; scaled
  · refine Yb6_units _ _ hl.ne' ?_; scaled

theorem u_dLamYt2Yb4 (dl : ℝ → ℝ) {phi : ℝ → ℝ → ℝ → ℝ} (hphi : ∀ x y z, phi (l ^ 2 * x) (l ^ 2 * y) (l ^ 2 * z) = phi x y z) (c : TcObj ℝ) (n : Int) :
    (rescaleT l c).dLamYt2Yb4 dl phi n = c.dLamYt2Yb4 dl phi n := by
  rw [dLamYt2Yb4_eq, dLamYt2Yb4_eq]
  runits hl
  simp only [r_close hl, r_mulmul hl, r_sqrt hl, r_abs hl, hphi]
  split_ifs
  · refine Yt2Yb4_l0_units hl.ne' ?_; scaled
  · refine Yt2Yb4_units _ _ hl.ne' ?_; scaled

theorem u_dLamYt4Yb2 (dl : ℝ → ℝ) {phi : ℝ → ℝ → ℝ → ℝ} (hphi : ∀ x y z, phi (l ^ 2 * x) (l ^ 2 * y) (l ^ 2 * z) = phi x y z) (c : TcObj ℝ) (n : Int) :
    (rescaleT l c).dLamYt4Yb2 dl phi n = c.dLamYt4Yb2 dl phi n := by
  rw [dLamYt4Yb2_eq, dLamYt4Yb2_eq]
  runits hl
  simp only [r_close hl, r_mulmul hl, r_sqrt hl, r_abs hl, hphi, r_pow2' hl]
  split_ifs
  · refine Yt4Yb2_l0_units hl.ne' ?_; scaled
  · refine Yt4Yb2_units _ _ hl.ne' ?_; scaled

theorem u_dLamYtau4Yb2 (c : TcObj ℝ) (n : Int) : (rescaleT l c).dLamYtau4Yb2 n = c.dLamYtau4Yb2 n := by
  rw [dLamYtau4Yb2_eq, dLamYtau4Yb2_eq]
  runits hl
  simp only [r_close hl]
  have := hl.ne'
  split_ifs
  · refine Ytau4Yb2_l0_units hl.ne' ?_; scaled
  · refine Ytau4Yb2_l1_units hl.ne' ?_; scaled
  · refine Ytau4Yb2_l2_units hl.ne' ?_; scaled
  · refine Ytau4Yb2_l3_units hl.ne' ?_; scaled

theorem u_dLamYtau2Yb4 (c : TcObj ℝ) (n : Int) : (rescaleT l c).dLamYtau2Yb4 n = c.dLamYtau2Yb4 n := by
  rw [dLamYtau2Yb4_eq, dLamYtau2Yb4_eq]
  runits hl
  simp only [r_close hl]
  split_ifs
  · refine Ytau2Yb4_l0_units hl.ne' ?_; scaled
  · refine Ytau2Yb4_l1_units hl.ne' ?_; scaled
  · refine Ytau2Yb4_l2_units hl.ne' ?_; scaled
  · refine Ytau2Yb4_l3_units hl.ne' ?_; scaled

end Himalaya.Units
