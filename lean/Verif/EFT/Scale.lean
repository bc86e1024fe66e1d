import Verif.EFT.Dilog
import Verif.EFT.Switches

/-!
# Scale dependence of the EFT Higgs mass: derivatives of the threshold formulas

Points `x = (mQ32, mU32, Xt, L)` with `L = log(mQ32/Q²)`.  `flow` is the direction in which the one-loop QCD
renormalization group equations move the soft parameters.
-/

set_option linter.unusedSimpArgs false
set_option linter.unusedVariables false

namespace Himalaya.Scale
open Filter Topology

abbrev Pt := ℝ × ℝ × ℝ × ℝ

/-- velocity of `(mQ32, mU32, Xt, log mQ32)` per `g3²/(4π)²` and per `ln Q²` -/
noncomputable def flow (m : ℝ) (x : Pt) : Pt := (-(16 / 3) * m ^ 2, -(16 / 3) * m ^ 2, 16 / 3 * m, -(16 / 3) * m ^ 2 / x.1)

/-- What the three threshold formulas must satisfy at a point for scale independence. -/
structure Cs (m : ℝ) (y l1 l2 : Pt → ℝ) (x : Pt) : Prop where
  dy : DifferentiableAt ℝ y x
  d1 : DifferentiableAt ℝ l1 x
  d2 : DifferentiableAt ℝ l2 x
  ky : fderiv ℝ y x (0, 0, 0, 1) = -4 / 3
  k1 : fderiv ℝ l1 x (0, 0, 0, 1) = 12
  k2 : fderiv ℝ l2 x (0, 0, 0, 1) = 64 - 16 * l1 x + fderiv ℝ l1 x (flow m x)

/-- the remainder -/
noncomputable def rest (m : ℝ) (y l1 l2 : Pt → ℝ) (x : Pt) (lt : ℝ) : ℝ :=
  -(32 / 3) * (96 * lt ^ 2 + (-32 - 48 * y x) * lt + 24 * y x + (l2 x - 4 * l1 x * y x)) +
    ((2 * 96 * lt + (-32 - 48 * y x)) * (16 / 3) - 48 * fderiv ℝ y x (flow m x) * lt + 24 * fderiv ℝ y x (flow m x) +
      fderiv ℝ l2 x (flow m x) - 4 * (fderiv ℝ l1 x (flow m x) * y x + l1 x * fderiv ℝ y x (flow m x)))

theorem cs_core {m a C : ℝ} {y l1 l2 : Pt → ℝ} {x : ℝ → Pt} {Mt lt : ℝ → ℝ} {t : ℝ} (h : Cs m y l1 l2 (x t))
    (hx : HasDerivAt x ((0, 0, 0, -1) + a • flow m (x t)) t)
    (hM : HasDerivAt Mt (-(8 / 3) * a * Mt t) t) (hl : HasDerivAt lt (1 + 16 / 3 * a) t) :
    HasDerivAt (fun s => C * Mt s ^ 4 * (12 * lt s + l1 (x s)) +
        C * Mt s ^ 4 * a * (96 * lt s ^ 2 + (-32 + 48 * -y (x s)) * lt s - 24 * -y (x s) + (l2 (x s) - 4 * l1 (x s) * y (x s))))
      (C * Mt t ^ 4 * a ^ 2 * rest m y l1 l2 (x t) (lt t)) t := by
  have e : ((0, 0, 0, -1) : Pt) = -(0, 0, 0, 1) := by simp
  have ly := h.dy.hasFDerivAt.comp_hasDerivAt t hx
  have L1 := h.d1.hasFDerivAt.comp_hasDerivAt t hx
  have L2 := h.d2.hasFDerivAt.comp_hasDerivAt t hx
  simp only [map_add, map_smul, e, map_neg, h.ky, h.k1, h.k2, smul_eq_mul] at ly L1 L2
  set Y := fderiv ℝ y (x t) (flow m (x t))
  set F := fderiv ℝ l1 (x t) (flow m (x t))
  set G := fderiv ℝ l2 (x t) (flow m (x t))
  have hM4 := (hM.pow 4).const_mul C
  have k1 := hM4.mul ((hl.const_mul 12).add L1)
  have k2 := (hM4.mul_const a).mul
    (((((hl.pow 2).const_mul 96).add (((ly.neg.const_mul 48).const_add (-32)).mul hl)).sub (ly.neg.const_mul 24)).add
      (L2.sub ((L1.const_mul 4).mul ly)))
  refine HasDerivAt.congr_deriv (k1.add k2) ?_
  simp only [Pi.pow_apply, Function.comp_apply, Pi.add_apply, Pi.sub_apply, Pi.mul_apply, Pi.neg_apply, rest]
  simp only [Nat.cast_ofNat, show (4 - 1 : ℕ) = 3 from rfl, show (2 - 1 : ℕ) = 1 from rfl]
  ring

/-- a directional derivative from a curve -/
theorem dir_of {f : Pt → ℝ} {x v : Pt} {d : ℝ} (h : DifferentiableAt ℝ f x)
    (hc : HasDerivAt (fun s : ℝ => f (x.1 + s * v.1, x.2.1 + s * v.2.1, x.2.2.1 + s * v.2.2.1, x.2.2.2 + s * v.2.2.2)) d 0) :
    fderiv ℝ f x v = d := by
  have hx : HasDerivAt (fun s : ℝ => ((x.1 + s * v.1, x.2.1 + s * v.2.1, x.2.2.1 + s * v.2.2.1, x.2.2.2 + s * v.2.2.2) : Pt)) v 0 := by
    have h0 : ∀ p w : ℝ, HasDerivAt (fun s : ℝ => p + s * w) w 0 := fun p w => by
      simpa using ((hasDerivAt_id (0:ℝ)).mul_const w).const_add p
    exact (h0 _ _).prodMk ((h0 _ _).prodMk ((h0 _ _).prodMk (h0 _ _)))
  have h' : HasFDerivAt f (fderiv ℝ f x) ((fun s : ℝ => ((x.1 + s * v.1, x.2.1 + s * v.2.1, x.2.2.1 + s * v.2.2.1, x.2.2.2 + s * v.2.2.2) : Pt)) 0) := by
    simpa using h.hasFDerivAt
  exact (h'.comp_hasDerivAt 0 hx).unique hc

/-- the derivative with respect to `L` of a quadratic polynomial in `L` -/
theorem dirL_of {f : Pt → ℝ} {x : Pt} {d e : ℝ} (h : DifferentiableAt ℝ f x)
    (hc : ∀ s, f (x.1, x.2.1, x.2.2.1, x.2.2.2 + s) = f x + d * s + e * s ^ 2) :
    fderiv ℝ f x (0, 0, 0, 1) = d := by
  refine dir_of h ?_
  simp only [mul_zero, add_zero, mul_one, hc]
  have := (((hasDerivAt_id (0:ℝ)).const_mul d).const_add (f x)).add (((hasDerivAt_id (0:ℝ)).pow 2).const_mul e)
  refine HasDerivAt.congr_deriv this ?_
  simp

end Himalaya.Scale
