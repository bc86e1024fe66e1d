import Verif.EFT.Yt6
import Verif.Kron.Check

/-!
# The logarithms of the `yt^6` threshold correction: the kernel checks

Helpers of `Verif.EFT.Yt6Scale`: the rational identities behind the scale dependence, checked by `Kron.zeroCheck`.
-/

set_option linter.unusedVariables false
set_option linter.unusedSimpArgs false

namespace Himalaya

open FOps
open scoped Himalaya

namespace Kron

/-- degree of a product in the variable `i` -/
def sdeg (i : ℕ) : E → Option ℕ
  | .lit _ => some 0
  | .var j => if j = i then some 1 else some 0
  | .mul a b => match sdeg i a, sdeg i b with
    | some k, some l => some (k + l)
    | _, _ => none
  | .neg a => sdeg i a
  | .add a b => match sdeg i a, sdeg i b with
    | some 0, some 0 => some 0
    | _, _ => none
  | .sub a b => match sdeg i a, sdeg i b with
    | some 0, some 0 => some 0
    | _, _ => none
  | _ => none

/-- the product without the variable `i` -/
def sdrop (i : ℕ) : E → E
  | .var j => if j = i then .lit 1 else .var j
  | .mul a b => .mul (sdrop i a) (sdrop i b)
  | .neg a => .neg (sdrop i a)
  | e => e

def epow (e : E) : ℕ → E
  | 0 => .lit 1
  | k + 1 => .mul (epow e k) e

/-- replaces division by powers of the variable `i` by multiplication with the variable `j` -/
def pull (i j : ℕ) : E → E
  | .add a b => .add (pull i j a) (pull i j b)
  | .sub a b => .sub (pull i j a) (pull i j b)
  | .mul a b => .mul (pull i j a) (pull i j b)
  | .neg a => .neg (pull i j a)
  | .div a b => match sdeg i b with
    | some k => .mul (.div (pull i j a) (sdrop i b)) (epow (.var j) k)
    | none => .div (pull i j a) b
  | e => e

/-- instantiates three variables -/
def inst (i j k : ℕ) (x y z : E) : E → E
  | .var n => if n = i then x else if n = j then y else if n = k then z else .var n
  | .add a b => .add (inst i j k x y z a) (inst i j k x y z b)
  | .sub a b => .sub (inst i j k x y z a) (inst i j k x y z b)
  | .mul a b => .mul (inst i j k x y z a) (inst i j k x y z b)
  | .div a b => .div (inst i j k x y z a) (inst i j k x y z b)
  | .neg a => .neg (inst i j k x y z a)
  | e => e

theorem eval_sdrop (dl : ℝ → ℝ) (ρ : ℕ → ℝ) (i : ℕ) (e : E) : ∀ k, sdeg i e = some k →
    eval dl ρ e = eval dl ρ (sdrop i e) * ρ i ^ k := by
  induction e with
  | lit q => intro k h; simp only [sdeg, Option.some.injEq] at h; subst h; simp [sdrop]
  | var j =>
    intro k h
    simp only [sdeg] at h
    split at h
    · rename_i e; subst e; injection h with h; subst h; simp [sdrop, eval]
    · rename_i e; injection h with h; subst h; simp [sdrop, eval, e]
  | mul a b iha ihb =>
    intro k h
    simp only [sdeg] at h
    split at h
    · rename_i m n h1 h2
      injection h with h; subst h
      simp only [eval, sdrop, iha m h1, ihb n h2, pow_add]; ring
    · cases h
  | neg a ih => intro k h; simp only [sdeg] at h; simp only [eval, sdrop, ih k h]; ring
  | add a b _ _ =>
    intro k h
    simp only [sdeg] at h
    split at h
    · injection h with h; subst h; simp [sdrop]
    · cases h
  | sub a b _ _ =>
    intro k h
    simp only [sdeg] at h
    split at h
    · injection h with h; subst h; simp [sdrop]
    · cases h
  | cst c => intro k h; simp [sdeg] at h
  | div a b _ _ => intro k h; simp [sdeg] at h
  | log a _ => intro k h; simp [sdeg] at h
  | dilog a _ => intro k h; simp [sdeg] at h
  | bad => intro k h; simp [sdeg] at h

theorem eval_epow (dl : ℝ → ℝ) (ρ : ℕ → ℝ) (e : E) (k : ℕ) : eval dl ρ (epow e k) = eval dl ρ e ^ k := by
  induction k with
  | zero => simp [epow, eval]
  | succ k ih => simp only [epow, eval, ih, pow_succ]

theorem eval_pull (dl : ℝ → ℝ) (ρ : ℕ → ℝ) {i j : ℕ} (h : ρ i * ρ j = 1) (e : E) : eval dl ρ (pull i j e) = eval dl ρ e := by
  induction e with
  | add a b iha ihb => simp only [pull, eval, iha, ihb]
  | sub a b iha ihb => simp only [pull, eval, iha, ihb]
  | mul a b iha ihb => simp only [pull, eval, iha, ihb]
  | neg a ih => simp only [pull, eval, ih]
  | div a b iha ihb =>
    simp only [pull]
    split
    · rename_i k hk
      have hj : ρ j = (ρ i)⁻¹ := eq_inv_of_mul_eq_one_right h
      simp only [eval, iha, eval_epow, eval_sdrop dl ρ i b k hk, hj, inv_pow, div_eq_mul_inv, mul_inv]; ring
    · simp only [eval, iha]
  | lit q => rfl
  | var j => rfl
  | cst c => rfl
  | log a _ => rfl
  | dilog a _ => rfl
  | bad => rfl

end Kron

namespace Yt6
variable {F : Type} [Add F] [Sub F] [Mul F] [Div F] [Neg F] [FOps F]

/-- derivative of the squared squark mass parameter `mQ2` in units of `yt^2/(4π)^2` -/
def fS (a : Arg F) : F := a.mQ32 + a.mU32 + a.mA2 * pow2 a.cbeta - 2 * a.Mu2 + a.Xt2 * pow2 a.sbeta + pow2 a.Yt * pow2 a.cbeta
/-- derivative of `Xt` in units of `yt^2/(4π)^2` -/
def fX (a : Arg F) : F := 6 * a.Xt + 3 * pow2 a.cbeta * (a.Yt - a.Xt)
/-- the coefficient of `log(mU2/mQ2)` in the one-loop threshold correction -/
def p4 (a : Arg F) : F := 6 - 12 * a.Xt2 / (a.mQ32 - a.mU32) + 6 * (a.mQ32 + a.mU32) / Misc.pow3 (a.mQ32 - a.mU32) * a.Xt4

/-- derivative of `p4` along `fS`, `2 fS`, `fX` -/
def flowL (a : Arg F) : F :=
  (12 * a.Xt2 / pow2 (a.mQ32 - a.mU32)
      + 6 * a.Xt4 * (1 / Misc.pow3 (a.mQ32 - a.mU32) - 3 * (a.mQ32 + a.mU32) / Misc.pow4 (a.mQ32 - a.mU32))) * fS a
  + 2 * (6 * a.Xt4 * (1 / Misc.pow3 (a.mQ32 - a.mU32) + 3 * (a.mQ32 + a.mU32) / Misc.pow4 (a.mQ32 - a.mU32))
      - 12 * a.Xt2 / pow2 (a.mQ32 - a.mU32)) * fS a
  + (24 * (a.mQ32 + a.mU32) * Misc.pow3 a.Xt / Misc.pow3 (a.mQ32 - a.mU32) - 24 * a.Xt / (a.mQ32 - a.mU32)) * fX a

/-- derivative of the one-loop threshold correction, terms without logarithm -/
def flow1 (a : Arg F) : F :=
  24 * a.Xt4 / Misc.pow3 (a.mQ32 - a.mU32) * fS a + 48 * Misc.pow3 a.Xt / pow2 (a.mQ32 - a.mU32) * fX a
  + 12 * fS a / a.mQ32 + p4 a * (2 * fS a / a.mU32 - fS a / a.mQ32)

/-- coefficient of `log(mU2/mQ2)` -/
def gL (a : Arg F) : F :=
  6 * pow2 a.cbeta * k20 a / pow2 a.sbeta + 6 * k27 a / (pow2 (a.mQ32 - a.Mu2) * pow2 (a.Mu2 - a.mU32) * pow2 a.sbeta) + 6 * k25 a
  - (3 * p4 a + flowL a / pow2 a.sbeta)

/-- terms without logarithm -/
def g1 (a : Arg F) : F :=
  3 * pow2 a.cbeta * (k5 a + k6 a + k7 a + k8 a + k9 a) / pow2 a.sbeta + 6 * k14 a / k15 a + 3 * (k29 a + k31 a - k32 a + k33 a)
  - (36 * a.Xt4 / pow2 (a.mQ32 - a.mU32) - 60 + flow1 a / pow2 a.sbeta)

/-- coefficient of `lmQ3MR` -/
def gq (a : Arg F) : F :=
  (12 * k13 a - 24 * k30 a) / (pow2 (a.mQ32 - a.Mu2) * pow2 (a.Mu2 - a.mU32) * pow2 a.sbeta) - 36 * pow2 a.cbeta / pow2 a.sbeta - 36

open Kron

/-- the local variables of `getDeltaLambdaYt6` as formulas -/
def argE : Arg E :=
  { mQ32 := .mul (.var 0) (.var 0), mU32 := .mul (.var 1) (.var 1), mQ3 := .var 0, mU3 := .var 1, mA := .var 2,
    mA2 := .mul (.var 2) (.var 2), Mu := .var 3, Mu2 := .mul (.var 3) (.var 3), sbeta := .var 4, cbeta := .var 5, Xt := .var 6,
    Yt := .var 7, Xt2 := .mul (.var 6) (.var 6), Xt4 := .mul (.mul (.var 6) (.var 6)) (.mul (.var 6) (.var 6)), Xt6 := .mul (.mul (.mul (.var 6) (.var 6)) (.mul (.var 6) (.var 6))) (.mul (.var 6) (.var 6)) }

def cfg : Cfg where
  bb := 32
  rm := 24
  rc := 16
  facs := [deltaxyz argE.mA2 argE.mU32 argE.mQ32, argE.Mu2 - argE.mU32, argE.mQ32 - argE.mU32, argE.mQ32 - argE.Mu2, .var 1, .var 0]
  wts := [0, 0, 1, 1, 0]

/-- the formula vanishes if `sin² + cos² = 1`: with `σ = sin`, `τ = 1/sin`, the check compares polynomials in `σ`, `τ`, `cos` -/
def trig (G : E) : E :=
  let P := pull 4 8 G
  let n := E.lit
  let x := inst 4 8 5 (n 0) (n 0) (n 0) P
  let y := inst 4 8 5 (n 0) (n 1) (n 0) P - x
  P - (x + epow (.var 8) 2 * y - epow (.var 4) 2 * epow (.var 8) 2 * (y + x) - epow (.var 5) 2 * epow (.var 8) 2 * y)

theorem eval_trig (dl : ℝ → ℝ) (ρ : ℕ → ℝ) (h : ρ 4 * ρ 8 = 1) (hc : ρ 4 ^ 2 + ρ 5 ^ 2 = 1) (G : E) (h0 : eval dl ρ (trig G) = 0) :
    eval dl ρ G = 0 := by
  have e := eval_pull dl ρ h G
  simp only [trig] at h0
  generalize inst 4 8 5 (E.lit 0) (E.lit 0) (E.lit 0) (pull 4 8 G) = x at h0
  generalize inst 4 8 5 (E.lit 0) (E.lit 1) (E.lit 0) (pull 4 8 G) = y at h0
  have h0' : eval dl ρ (pull 4 8 G) - (eval dl ρ x + eval dl ρ (epow (.var 8) 2) * (eval dl ρ y - eval dl ρ x)
      - eval dl ρ (epow (.var 4) 2) * eval dl ρ (epow (.var 8) 2) * ((eval dl ρ y - eval dl ρ x) + eval dl ρ x)
      - eval dl ρ (epow (.var 5) 2) * eval dl ρ (epow (.var 8) 2) * (eval dl ρ y - eval dl ρ x)) = 0 := h0
  rw [eval_epow, eval_epow, eval_epow, e] at h0'
  have e8 : eval dl ρ (E.var 8) = ρ 8 := rfl
  have e4 : eval dl ρ (E.var 4) = ρ 4 := rfl
  have e5 : eval dl ρ (E.var 5) = ρ 5 := rfl
  rw [e8, e4, e5] at h0'
  have h2 : ρ 4 ^ 2 * ρ 8 ^ 2 = 1 := by rw [← mul_pow, h, one_pow]
  have h3 : ρ 5 ^ 2 = 1 - ρ 4 ^ 2 := by linarith
  rw [h3] at h0'
  linear_combination h0' - (eval dl ρ x) * h2

set_option maxRecDepth 100000

theorem check_gq : zeroCheck cfg (subst [] (trig (gq argE))) = true := by decide +kernel
theorem check_k12 : zeroCheck cfg (subst [] (k12 argE - k30 argE)) = true := by decide +kernel
theorem check_gL : zeroCheck cfg (subst [] (trig (gL argE))) = true := by decide +kernel
theorem check_g1 : zeroCheck cfg (subst [] (trig (g1 argE))) = true := by decide +kernel

end Yt6
end Himalaya
