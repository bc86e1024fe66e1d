import Verif.Base.Dbl

/-!
# Numeric helpers

Models source/himalaya/misc/Powers.hpp, misc/Numerics.hpp, the summation function of mh2_fo/Sum.hpp and the decimal literals of
misc/Constants.hpp.
-/

namespace Himalaya.Misc

open scoped Himalaya

section pow
variable {F : Type} [Mul F]

/-- misc/Powers.hpp:13 -/
def pow2 (x : F) : F := x * x
/-- misc/Powers.hpp:14 -/
def pow3 (x : F) : F := x * x * x
/-- misc/Powers.hpp:15 -/
def pow4 (x : F) : F := pow2 (pow2 x)
/-- misc/Powers.hpp:16 -/
def pow5 (x : F) : F := pow4 x * x
/-- misc/Powers.hpp:17 -/
def pow6 (x : F) : F := pow2 (pow2 x * x)
/-- misc/Powers.hpp:18 -/
def pow7 (x : F) : F := pow6 x * x
/-- misc/Powers.hpp:19 -/
def pow8 (x : F) : F := pow2 (pow4 x)
/-- misc/Powers.hpp:20 -/
def pow9 (x : F) : F := pow8 x * x
/-- misc/Powers.hpp:21 -/
def power10 (x : F) : F := pow2 (pow5 x)
/-- misc/Powers.hpp:22 -/
def pow11 (x : F) : F := power10 x * x
/-- misc/Powers.hpp:23 -/
def pow12 (x : F) : F := pow2 (pow6 x)
/-- misc/Powers.hpp:24 -/
def pow13 (x : F) : F := pow4 x * pow9 x
/-- misc/Powers.hpp:25 -/
def pow14 (x : F) : F := pow2 (pow7 x)
/-- misc/Powers.hpp:26 -/
def pow15 (x : F) : F := pow6 x * pow9 x
/-- misc/Powers.hpp:27 -/
def pow16 (x : F) : F := pow2 (pow8 x)
/-- misc/Powers.hpp:28 -/
def pow17 (x : F) : F := pow16 x * x
/-- misc/Powers.hpp:29 -/
def pow18 (x : F) : F := pow2 (pow9 x)
/-- misc/Powers.hpp:30 -/
def pow19 (x : F) : F := pow18 x * x
/-- misc/Powers.hpp:31 -/
def pow20 (x : F) : F := pow2 (power10 x)
end pow

section cmp
variable {F : Type} [FOps F] [Add F] [Sub F] [Mul F] [Neg F]
open FOps

/-- `std::numeric_limits<double>::epsilon()`, `2^-52` -/
def eps : F := lit (1 / 2 ^ 52)

/-- `std::min(a, b)`: `(b < a) ? b : a` -/
def stdMin (a b : F) : F := if lt b a then b else a
/-- `std::max(a, b)`: `(a < b) ? b : a` -/
def stdMax (a b : F) : F := if lt a b then b else a

/-- misc/Numerics.hpp:19-23 -/
def dabs (a : F) : F := if le (lit 0) a then a else -a
/-- misc/Numerics.hpp:26-31 -/
def isZero (a prec : F) : Bool := le (dabs a) prec
/-- misc/Numerics.hpp:34-38 -/
def isEqual (a b prec : F) : Bool := isZero (a - b) prec
/-- misc/Numerics.hpp:42-57 -/
def isEqualRel (a b prec : F) : Bool :=
  if isEqual a b eps then true
  else if lt (stdMin (dabs a) (dabs b)) eps then isEqual a b prec
  else isEqual a b (prec * stdMax (dabs a) (dabs b))
/-- misc/Numerics.hpp:60-65 -/
def isClose (a b prec : F) : Bool := isZero (a - b) (prec * (lit 1 + stdMax (dabs a) (dabs b)))
end cmp

/-- the loop `for (Idx i = ini; i <= fin; i++) s += f(i)`; mh2_fo/Sum.hpp:99 (overflow of the index not modelled) -/
def sumLoop {F : Type} [Add F] (f : Int → F) (fin i : Int) (s : F) : F :=
  if i ≤ fin then sumLoop f fin (i + 1) (s + f i) else s
termination_by (fin + 1 - i).toNat
decreasing_by omega

/-- `sum(ini, fin, f)`, the expansion of `SUM(i, ini, fin, expr)`; mh2_fo/Sum.hpp:27-37, 93-101 -/
def sum {F : Type} [Add F] (zero : F) (ini fin : Int) (f : Int → F) : F := sumLoop f fin ini zero

/-- the literals of misc/Constants.hpp:13-25 for the named constants of the model -/
def literal : Const → ℚ
  | .pi => 3.14159265358979324
  | .z2 => 1.64493406684822644
  | .sqrt2 => 1.41421356237309505
  | .invSqrt2 => 0.707106781186547524
  | .sqrt15 => 3.87298334620741689
  | .sqrt35 => 0.774596669241483377
  | .oneLoop => 6.332573977646110963e-03
  | .twoLoop => 4.010149318236068752e-05
  | .threeLoop => 2.539456721913701978e-07

/-- `z4`; misc/Constants.hpp:16 -/
def litZ4 : ℚ := 1.08232323371113819
/-- `z3`; misc/Constants.hpp:15 -/
def litZ3 : ℚ := 1.20205690315959429
/-- `sqrt3`; misc/Constants.hpp:18 -/
def litSqrt3 : ℚ := 1.73205080756887729
/-- `log2`; misc/Constants.hpp:22 -/
def litLog2 : ℚ := 0.693147180559945309

end Himalaya.Misc
