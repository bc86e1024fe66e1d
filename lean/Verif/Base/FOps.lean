import Mathlib.Analysis.SpecialFunctions.Trigonometric.Basic
import Mathlib.Analysis.SpecialFunctions.Trigonometric.Inverse
import Mathlib.Analysis.SpecialFunctions.Trigonometric.Arctan
import Mathlib.Analysis.SpecialFunctions.Log.Basic
import Mathlib.Analysis.Real.Sqrt
import Mathlib.Analysis.SpecialFunctions.Pow.Real

/-!
# Scalars

`FOps F` collects the C++ operations on `double` used by the modelled code that are not already covered by
Lean's `Add`, `Sub`, `Mul`, `Div`, `Neg` classes.  No law is attached to it: a theorem that only assumes
`FOps F` uses no arithmetic law and is therefore also valid for IEEE binary64.

`LawfulCmp F` adds the laws of IEEE comparisons (weak order on the non-NaN values, every comparison with a
NaN is false); binary64 satisfies them.

Two instances are provided: the real numbers `ℝ` (here) and the extended doubles `Dbl` (`Verif.Base.Dbl`).
-/

namespace Himalaya

/-- The mathematical constants of source/himalaya/misc/Constants.hpp:13-25 that enter modelled identities.  In the
models they stand for their exact values; `Verif.Misc.Props` bounds the distance of the decimal literals. -/
inductive Const where
  | pi | z2 | sqrt2 | invSqrt2 | sqrt15 | sqrt35 | oneLoop | twoLoop | threeLoop

/-- Unary functions and comparisons of C++ `double` (<cmath>).  `lt a b` models `a < b`, `le a b` models
`a <= b`; `a > b` and `a >= b` are written `lt b a` and `le b a`. -/
class FOps (F : Type) where
  lt : F → F → Bool
  le : F → F → Bool
  isNaN : F → Bool
  isFinite : F → Bool
  abs : F → F
  sqrt : F → F
  sin : F → F
  cos : F → F
  asin : F → F
  acos : F → F
  atan : F → F
  log : F → F
  /-- `std::pow(x, 0.1)`, the only non-integer power in the modelled code -/
  pow01 : F → F
  /-- literal constants -/
  lit : ℚ → F
  /-- named constants -/
  const : Const → F

/-- Integer literals such as `144` in `144*x`; scoped, so that it does not interfere with `ℝ`. -/
scoped instance (priority := 1) FOps.instOfNat {F : Type} [FOps F] (n : ℕ) : OfNat F n := ⟨FOps.lit (n : ℚ)⟩

/-- conversion `int` to `double` -/
def FOps.ofInt {F : Type} [FOps F] (i : Int) : F := FOps.lit (i : ℚ)

/-- The laws of IEEE comparisons. -/
class LawfulCmp (F : Type) [FOps F] : Prop where
  le_refl : ∀ a : F, FOps.isNaN a = false → FOps.le a a = true
  le_trans : ∀ a b c : F, FOps.le a b = true → FOps.le b c = true → FOps.le a c = true
  le_total : ∀ a b : F, FOps.isNaN a = false → FOps.isNaN b = false →
    FOps.le a b = true ∨ FOps.le b a = true
  lt_iff : ∀ a b : F, FOps.isNaN a = false → FOps.isNaN b = false →
    (FOps.lt a b = true ↔ FOps.le b a = false)
  nan_lt : ∀ a b : F, FOps.isNaN a = true ∨ FOps.isNaN b = true → FOps.lt a b = false
  nan_le : ∀ a b : F, FOps.isNaN a = true ∨ FOps.isNaN b = true → FOps.le a b = false

/-- The exact values of the named constants; Constants.hpp:13-25. -/
noncomputable def Const.value : Const → ℝ
  | .pi => Real.pi
  | .z2 => Real.pi ^ 2 / 6
  | .sqrt2 => Real.sqrt 2
  | .invSqrt2 => 1 / Real.sqrt 2
  | .sqrt15 => Real.sqrt 15
  | .sqrt35 => Real.sqrt (3 / 5)
  | .oneLoop => 1 / (4 * Real.pi) ^ 2
  | .twoLoop => 1 / (4 * Real.pi) ^ 4
  | .threeLoop => 1 / (4 * Real.pi) ^ 6

open Classical in
/-- Exact real arithmetic. -/
noncomputable instance instFOpsReal : FOps ℝ where
  lt a b := decide (a < b)
  le a b := decide (a ≤ b)
  isNaN _ := false
  isFinite _ := true
  abs x := |x|
  sqrt := Real.sqrt
  sin := Real.sin
  cos := Real.cos
  asin := Real.arcsin
  acos := Real.arccos
  atan := Real.arctan
  log := Real.log
  pow01 x := x ^ ((1:ℝ)/10)
  lit q := (q : ℝ)
  const := Const.value

instance : LawfulCmp ℝ where
  le_refl a _ := by simp [FOps.le]
  le_trans a b c h1 h2 := by
    simp only [FOps.le, decide_eq_true_eq] at *; exact le_trans h1 h2
  le_total a b _ _ := by simp only [FOps.le, decide_eq_true_eq]; exact le_total a b
  lt_iff a b _ _ := by simp [FOps.le, FOps.lt]
  nan_lt a b h := by simp [FOps.isNaN] at h
  nan_le a b h := by simp [FOps.isNaN] at h

section real
variable (a b : ℝ) (q : ℚ)
@[simp] theorem real_lt_iff : FOps.lt a b = true ↔ a < b := by simp [FOps.lt]
@[simp] theorem real_le_iff : FOps.le a b = true ↔ a ≤ b := by simp [FOps.le]
@[simp] theorem real_lt_false : FOps.lt a b = false ↔ b ≤ a := by simp [FOps.lt]
@[simp] theorem real_le_false : FOps.le a b = false ↔ b < a := by simp [FOps.le]
@[simp] theorem real_isNaN : FOps.isNaN a = false := rfl
@[simp] theorem real_isFinite : FOps.isFinite a = true := rfl
@[simp] theorem real_abs : FOps.abs a = |a| := rfl
@[simp] theorem real_sqrt : FOps.sqrt a = Real.sqrt a := rfl
@[simp] theorem real_sin : FOps.sin a = Real.sin a := rfl
@[simp] theorem real_cos : FOps.cos a = Real.cos a := rfl
@[simp] theorem real_asin : FOps.asin a = Real.arcsin a := rfl
@[simp] theorem real_acos : FOps.acos a = Real.arccos a := rfl
@[simp] theorem real_atan : FOps.atan a = Real.arctan a := rfl
@[simp] theorem real_log : FOps.log a = Real.log a := rfl
@[simp] theorem real_ofInt (i : Int) : (FOps.ofInt i : ℝ) = (i : ℝ) := by simp [FOps.ofInt, FOps.lit]
@[simp] theorem real_ofNat (n : ℕ) : @OfNat.ofNat ℝ n (FOps.instOfNat n) = (n : ℝ) := by
  show ((n : ℚ) : ℝ) = n
  simp
@[simp] theorem real_const (c : Const) : (FOps.const c : ℝ) = c.value := rfl
@[simp] theorem real_lit : (FOps.lit q : ℝ) = (q : ℝ) := rfl
end real

/-! ### Consequences of the comparison laws -/

section cmp
variable {F : Type} [FOps F] [LawfulCmp F] {a b c : F}
open FOps

theorem lt_notnan (h : lt a b = true) : isNaN a = false ∧ isNaN b = false := by
  by_contra hc
  have : isNaN a = true ∨ isNaN b = true := by
    by_contra hd; push Not at hd; apply hc; simpa using hd
  rw [LawfulCmp.nan_lt a b this] at h; cases h

theorem le_notnan (h : le a b = true) : isNaN a = false ∧ isNaN b = false := by
  by_contra hc
  have : isNaN a = true ∨ isNaN b = true := by
    by_contra hd; push Not at hd; apply hc; simpa using hd
  rw [LawfulCmp.nan_le a b this] at h; cases h

theorem le_of_lt (h : lt a b = true) : le a b = true := by
  obtain ⟨ha, hb⟩ := lt_notnan h
  have h1 := (LawfulCmp.lt_iff a b ha hb).1 h
  rcases LawfulCmp.le_total a b ha hb with h2 | h2
  · exact h2
  · rw [h1] at h2; cases h2

theorem not_le_of_lt (h : lt a b = true) : le b a = false :=
  (LawfulCmp.lt_iff a b (lt_notnan h).1 (lt_notnan h).2).1 h

theorem not_lt_of_le (h : le a b = true) : lt b a = false := by
  obtain ⟨ha, hb⟩ := le_notnan h
  by_contra hc
  rw [Bool.not_eq_false] at hc
  have := not_le_of_lt hc
  rw [h] at this; cases this

theorem not_lt_of_lt (h : lt a b = true) : lt b a = false := not_lt_of_le (le_of_lt h)

theorem le_of_not_lt (ha : isNaN a = false) (hb : isNaN b = false) (h : lt a b = false) :
    le b a = true := by
  by_contra hc
  rw [Bool.not_eq_true] at hc
  rw [(LawfulCmp.lt_iff a b ha hb).2 hc] at h; cases h

theorem lt_of_lt_of_le (h1 : lt a b = true) (h2 : le b c = true) : lt a c = true := by
  have ha := (lt_notnan h1).1
  have hc := (le_notnan h2).2
  rw [LawfulCmp.lt_iff a c ha hc]
  by_contra hcon
  rw [Bool.not_eq_false] at hcon
  have := LawfulCmp.le_trans b c a h2 hcon
  rw [not_le_of_lt h1] at this; cases this

theorem lt_of_le_of_lt (h1 : le a b = true) (h2 : lt b c = true) : lt a c = true := by
  have ha := (le_notnan h1).1
  have hc := (lt_notnan h2).2
  rw [LawfulCmp.lt_iff a c ha hc]
  by_contra hcon
  rw [Bool.not_eq_false] at hcon
  have := LawfulCmp.le_trans c a b hcon h1
  rw [not_le_of_lt h2] at this; cases this

theorem lt_trans' (h1 : lt a b = true) (h2 : lt b c = true) : lt a c = true :=
  lt_of_lt_of_le h1 (le_of_lt h2)

theorem lt_self_false (a : F) : lt a a = false := by
  by_contra h
  rw [Bool.not_eq_false] at h
  have := not_lt_of_lt h
  rw [h] at this; cases this

end cmp

end Himalaya
