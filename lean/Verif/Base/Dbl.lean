import Verif.Base.FOps

/-!
# Extended doubles

`Dbl` models C++ `double` with the IEEE rules for NaN and infinities, but with exact arithmetic on finite
values: rounding, overflow/underflow and signed zeros are not modelled (a zero divisor counts as `+0`).
-/

namespace Himalaya

/-- NaN, infinities and finite values of `double` (exact). -/
inductive Dbl where
  | nan
  | pinf
  | ninf
  | fin (x : ℝ)

namespace Dbl

open Classical

noncomputable section

/-- sign-dependent infinity -/
def infOfSign (s : ℝ) : Dbl := if 0 < s then pinf else if s < 0 then ninf else nan

def add : Dbl → Dbl → Dbl
  | nan, _ => nan
  | _, nan => nan
  | fin x, fin y => fin (x + y)
  | pinf, ninf => nan
  | ninf, pinf => nan
  | pinf, _ => pinf
  | _, pinf => pinf
  | ninf, _ => ninf
  | _, ninf => ninf

def neg : Dbl → Dbl
  | nan => nan
  | pinf => ninf
  | ninf => pinf
  | fin x => fin (-x)

def sub (a b : Dbl) : Dbl := add a (neg b)

def mul : Dbl → Dbl → Dbl
  | nan, _ => nan
  | _, nan => nan
  | fin x, fin y => fin (x * y)
  | pinf, fin y => infOfSign y
  | fin y, pinf => infOfSign y
  | ninf, fin y => infOfSign (-y)
  | fin y, ninf => infOfSign (-y)
  | pinf, pinf => pinf
  | ninf, ninf => pinf
  | pinf, ninf => ninf
  | ninf, pinf => ninf

def div : Dbl → Dbl → Dbl
  | nan, _ => nan
  | _, nan => nan
  | fin x, fin y => if y = 0 then infOfSign x else fin (x / y)
  | fin _, pinf => fin 0
  | fin _, ninf => fin 0
  | pinf, fin y => if y < 0 then ninf else pinf
  | ninf, fin y => if y < 0 then pinf else ninf
  | pinf, pinf => nan
  | pinf, ninf => nan
  | ninf, pinf => nan
  | ninf, ninf => nan

def ltb : Dbl → Dbl → Bool
  | nan, _ => false
  | _, nan => false
  | fin x, fin y => decide (x < y)
  | fin _, pinf => true
  | fin _, ninf => false
  | ninf, fin _ => true
  | ninf, pinf => true
  | ninf, ninf => false
  | pinf, _ => false

def leb : Dbl → Dbl → Bool
  | nan, _ => false
  | _, nan => false
  | fin x, fin y => decide (x ≤ y)
  | fin _, pinf => true
  | fin _, ninf => false
  | ninf, _ => true
  | pinf, pinf => true
  | pinf, fin _ => false
  | pinf, ninf => false

def isNaNb : Dbl → Bool
  | nan => true
  | _ => false

def isFiniteb : Dbl → Bool
  | fin _ => true
  | _ => false

def absd : Dbl → Dbl
  | nan => nan
  | pinf => pinf
  | ninf => pinf
  | fin x => fin |x|

def sqrtd : Dbl → Dbl
  | fin x => if x < 0 then nan else fin (Real.sqrt x)
  | pinf => pinf
  | _ => nan

/-- a function that is NaN outside the finite numbers satisfying `P` -/
def onFin (P : ℝ → Prop) (f : ℝ → ℝ) : Dbl → Dbl
  | fin x => if P x then fin (f x) else nan
  | _ => nan

def atand : Dbl → Dbl
  | nan => nan
  | pinf => fin (Real.pi / 2)
  | ninf => fin (-(Real.pi / 2))
  | fin x => fin (Real.arctan x)

def logd : Dbl → Dbl
  | fin x => if 0 < x then fin (Real.log x) else if x = 0 then ninf else nan
  | pinf => pinf
  | _ => nan

def pow01d : Dbl → Dbl
  | fin x => if 0 ≤ x then fin (x ^ ((1:ℝ)/10)) else nan
  | pinf => pinf
  | ninf => pinf
  | nan => nan

instance : Add Dbl := ⟨add⟩
instance : Sub Dbl := ⟨sub⟩
instance : Mul Dbl := ⟨mul⟩
instance : Div Dbl := ⟨div⟩
instance : Neg Dbl := ⟨neg⟩

instance instFOpsDbl : FOps Dbl where
  lt := ltb
  le := leb
  isNaN := isNaNb
  isFinite := isFiniteb
  abs := absd
  sqrt := sqrtd
  sin := onFin (fun _ => True) Real.sin
  cos := onFin (fun _ => True) Real.cos
  asin := onFin (fun x => -1 ≤ x ∧ x ≤ 1) Real.arcsin
  acos := onFin (fun x => -1 ≤ x ∧ x ≤ 1) Real.arccos
  atan := atand
  log := logd
  pow01 := pow01d
  lit q := fin (q : ℝ)
  const c := fin c.value

end

section simp
variable (x y : ℝ) (q : ℚ) (a b : Dbl)
@[simp] theorem fin_add : (fin x + fin y : Dbl) = fin (x + y) := rfl
@[simp] theorem fin_mul : (fin x * fin y : Dbl) = fin (x * y) := rfl
@[simp] theorem fin_neg : (-fin x : Dbl) = fin (-x) := rfl
@[simp] theorem fin_sub : (fin x - fin y : Dbl) = fin (x - y) := by
  show add (fin x) (neg (fin y)) = _
  simp [add, neg, sub_eq_add_neg]
theorem fin_div (h : y ≠ 0) : (fin x / fin y : Dbl) = fin (x / y) := by
  show div (fin x) (fin y) = _
  simp [div, h]
@[simp] theorem fin_lt : FOps.lt (fin x) (fin y) = decide (x < y) := rfl
@[simp] theorem fin_le : FOps.le (fin x) (fin y) = decide (x ≤ y) := rfl
@[simp] theorem fin_isNaN : FOps.isNaN (fin x) = false := rfl
@[simp] theorem nan_isNaN : FOps.isNaN (nan) = true := rfl
@[simp] theorem pinf_isNaN : FOps.isNaN (pinf) = false := rfl
@[simp] theorem ninf_isNaN : FOps.isNaN (ninf) = false := rfl
@[simp] theorem fin_isFinite : FOps.isFinite (fin x) = true := rfl
@[simp] theorem fin_abs : FOps.abs (fin x) = fin |x| := rfl
@[simp] theorem fin_lit : (FOps.lit q : Dbl) = fin (q : ℝ) := rfl
@[simp] theorem fin_const (c : Const) : (FOps.const c : Dbl) = fin c.value := rfl
@[simp] theorem fin_ofNat (n : ℕ) : @OfNat.ofNat Dbl n (FOps.instOfNat n) = fin (n : ℝ) := by
  show fin (((n : ℚ)) : ℝ) = _
  simp
@[simp] theorem fin_ofInt (n : ℤ) : (FOps.ofInt n : Dbl) = fin (n : ℝ) := by
  show fin (((n : ℚ)) : ℝ) = _
  simp
theorem fin_sqrt (h : 0 ≤ x) : FOps.sqrt (fin x) = fin (Real.sqrt x) := by
  show sqrtd (fin x) = _
  simp [sqrtd, not_lt.2 h]
@[simp] theorem fin_sin : FOps.sin (fin x) = fin (Real.sin x) := by
  show onFin _ _ _ = _; simp [onFin]
@[simp] theorem nan_lt : FOps.lt nan b = false := by cases b <;> rfl
@[simp] theorem lt_nan : FOps.lt b nan = false := by cases b <;> rfl
@[simp] theorem nan_le : FOps.le nan b = false := by cases b <;> rfl
@[simp] theorem le_nan : FOps.le b nan = false := by cases b <;> rfl
end simp

instance : LawfulCmp Dbl where
  le_refl a h := by cases a <;> simp [FOps.le, leb] at *
  le_trans a b c h1 h2 := by
    cases a <;> cases b <;> cases c <;> simp [FOps.le, leb] at *
    linarith
  le_total a b ha hb := by
    cases a <;> cases b <;> simp [FOps.le, leb] at *
    rename_i x y; exact le_total x y
  lt_iff a b ha hb := by
    cases a <;> cases b <;> simp [FOps.le, FOps.lt, leb, ltb] at *
  nan_lt a b h := by
    cases a <;> cases b <;> simp at h <;> simp
  nan_le a b h := by
    cases a <;> cases b <;> simp at h <;> simp

end Dbl
end Himalaya
