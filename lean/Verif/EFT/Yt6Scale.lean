import Verif.EFT.Yt6Check
import Verif.EFT.Scale1

/-!
# The scale dependence of the `yt^6` threshold correction
-/

set_option linter.unusedSimpArgs false
set_option linter.unusedVariables false

namespace Himalaya.Yt6
open Kron
open scoped Himalaya

/-- the derived entries of the argument list are consistent and no denominator of the formula vanishes -/
structure Regular (a : Arg ℝ) : Prop where
  q : a.mQ32 = a.mQ3 * a.mQ3
  u : a.mU32 = a.mU3 * a.mU3
  A : a.mA2 = a.mA * a.mA
  m : a.Mu2 = a.Mu * a.Mu
  X2 : a.Xt2 = a.Xt * a.Xt
  X4 : a.Xt4 = a.Xt2 * a.Xt2
  X6 : a.Xt6 = a.Xt4 * a.Xt2
  trig : a.sbeta ^ 2 + a.cbeta ^ 2 = 1
  s0 : a.sbeta ≠ 0
  q0 : a.mQ3 ≠ 0
  u0 : a.mU3 ≠ 0
  qu : a.mQ32 ≠ a.mU32
  qm : a.mQ32 ≠ a.Mu2
  um : a.mU32 ≠ a.Mu2
  del : deltaxyz a.mA2 a.mU32 a.mQ32 ≠ 0

/-- the values of the variables -/
noncomputable def rho (a : Arg ℝ) : ℕ → ℝ
  | 0 => a.mQ3 | 1 => a.mU3 | 2 => a.mA | 3 => a.Mu | 4 => a.sbeta | 5 => a.cbeta | 6 => a.Xt | 7 => a.Yt | 8 => a.sbeta⁻¹ | _ => 0

theorem facs_ne {a : Arg ℝ} (h : Regular a) (dl : ℝ → ℝ) : ∀ f ∈ cfg.facs, eval dl (rho a) f ≠ 0 := by
  obtain ⟨q, u, A, m, X2, X4, X6, tr, s0, q0, u0, qu, qm, um, del⟩ := h
  have nz : ∀ {a b : ℝ}, a ≠ b → a - b ≠ 0 := fun h => sub_ne_zero.2 h
  intro f hf
  simp only [cfg, List.mem_cons, List.not_mem_nil, or_false] at hf
  rw [q, u] at qu
  rw [q, m] at qm
  rw [u, m] at um
  rw [A, u, q] at del
  rcases hf with rfl | rfl | rfl | rfl | rfl | rfl
  · exact del
  · exact nz (Ne.symm um)
  · exact nz qu
  · exact nz qm
  · exact u0
  · exact q0

/-- the argument list built from the basic variables -/
def mkArg (q u A m s c X Y : ℝ) : Arg ℝ :=
  { mQ32 := q * q, mU32 := u * u, mQ3 := q, mU3 := u, mA := A, mA2 := A * A, Mu := m, Mu2 := m * m, sbeta := s, cbeta := c, Xt := X,
    Yt := Y, Xt2 := X * X, Xt4 := X * X * (X * X), Xt6 := X * X * (X * X) * (X * X) }

theorem mkArg_eq {a : Arg ℝ} (h : Regular a) : a = mkArg a.mQ3 a.mU3 a.mA a.Mu a.sbeta a.cbeta a.Xt a.Yt := by
  obtain ⟨q, u, A, m, X2, X4, X6, -⟩ := h
  cases a
  simp only at q u A m X2 X4 X6
  subst X2 X4 X6 q u A m
  rfl

set_option maxRecDepth 20000
set_option maxHeartbeats 1000000

theorem vanish {a : Arg ℝ} (h : Regular a) {G : E} (hG : zeroCheck cfg (subst [] (trig G)) = true) (dl : ℝ → ℝ) :
    eval dl (rho a) G = 0 := by
  refine eval_trig dl (rho a) ?_ h.trig G (zeroCheck_sound cfg dl [] _ hG _ (facs_ne h dl) (by simp))
  exact mul_inv_cancel₀ h.s0

theorem gq_zero {a : Arg ℝ} (h : Regular a) : gq a = 0 := by
  have := vanish h check_gq id
  rw [mkArg_eq h]; exact this
theorem gL_zero {a : Arg ℝ} (h : Regular a) : gL a = 0 := by
  have := vanish h check_gL id
  rw [mkArg_eq h]; exact this
theorem g1_zero {a : Arg ℝ} (h : Regular a) : g1 a = 0 := by
  have := vanish h check_g1 id
  rw [mkArg_eq h]; exact this
theorem k12_eq {a : Arg ℝ} (h : Regular a) : k12 a = k30 a := by
  have := zeroCheck_sound cfg id [] _ check_k12 (rho a) (facs_ne h id) (by simp)
  rw [mkArg_eq h]; exact sub_eq_zero.1 this

/-- the one-loop threshold correction of order `yt^4` -/
noncomputable def d4 (a : Arg ℝ) (lq L : ℝ) : ℝ := 12 * a.Xt4 / (a.mQ32 - a.mU32) ^ 2 + 12 * lq + p4 a * L

/-- coefficient of `-ln Q²` in the formula -/
noncomputable def slope (a : Arg ℝ) (lq L : ℝ) : ℝ := 3 * d4 a lq L - 60 + (flow1 a + flowL a * L) / a.sbeta ^ 2

/-- the formula is a quadratic polynomial in `ln Q²` -/
theorem formula_scale {a : Arg ℝ} (h : Regular a) (dl : ℝ → ℝ) (phi : ℝ → ℝ → ℝ → ℝ) (lA lq lm L s : ℝ) :
    formula dl phi a (lA - s) (lq - s) (lm - s) L = formula dl phi a lA lq lm L - s * slope a lq L + 18 * s ^ 2 := by
  have e1 := gq_zero h
  have e2 := gL_zero h
  have e3 := g1_zero h
  have e4 := k12_eq h
  unfold gq at e1
  unfold gL at e2
  unfold g1 at e3
  unfold formula slope d4
  simp only [real_ofNat, real_ofInt, Himalaya.pow2] at *
  push_cast at *
  rw [e4]
  rw [← sq a.sbeta, ← sq a.cbeta, ← sq (a.mQ32 - a.mU32)] at *
  simp only [div_eq_mul_inv] at *
  generalize ((a.mQ32 - a.Mu2) * (a.mQ32 - a.Mu2) * ((a.Mu2 - a.mU32) * (a.Mu2 - a.mU32)) * a.sbeta ^ 2)⁻¹ = dn at *
  generalize (a.sbeta ^ 2)⁻¹ = is at *
  linear_combination (s ^ 2 / 2 - s * lq) * e1 - s * L * e2 - s * e3

end Himalaya.Yt6
