import Verif.Kron.Check
import Verif.EFT.Formulas2

/-!
# The threshold formulas as syntax trees

The formulas of `ThresholdCalculator` in the six mass limits, instantiated with the syntax trees of `Verif.Kron.Core`.  The masses
`mQ3 mU3 msq m3` are the variables `0 1 2 3`, `Xt` is the variable `4`, `lmQ3MR` the variable `5`, the logarithms and dilogarithms of
mass ratios are the variables from `6` on.  Where a limit identifies two masses they are the same variable.
-/

set_option linter.unusedVariables false

namespace Himalaya.Shape

open Kron
open scoped Himalaya

def va : E := .var 0
def vb : E := .var 1
def vc : E := .var 2
def vm : E := .var 3
def vX : E := .var 4
def vL : E := .var 5
def vt (i : ℕ) : E := .var (6 + i)
def nat (n : ℕ) : E := .lit n
def sqE (x : E) : E := .mul x x
def x4 : E := sqE (sqE vX)
def x5 : E := x4 * vX
def x6 : E := sqE (sqE vX * vX)

/-- the masses of a limit: gluino, left stop, right stop, other squarks -/
structure Ms where
  m : E
  q : E
  u : E
  s : E

def msGen : Ms := ⟨vm, va, vb, vc⟩
def msQU : Ms := ⟨vm, va, va, vc⟩
def msQG : Ms := ⟨va, va, vb, vc⟩
def msUG : Ms := ⟨vb, va, vb, vc⟩
def msQUG : Ms := ⟨va, va, va, vc⟩
def msDeg : Ms := ⟨va, va, va, va⟩

section
variable (x : Ms)

def app1 (f : E → E → E → E → E → E → E → E → E) : E :=
  f (sqE x.m) (sqE x.q) (sqE x.u) x.m x.q x.u vX vL
def app2 (f : E → E → E → E → E → E → E → E → E → E → E) : E :=
  f (sqE x.m) (sqE x.q) (sqE x.u) (sqE x.s) x.m x.q x.u x.s vX vL
def app3 (f : E → E → E → E → E → E → E → E → E → E → E → E → E) (a b c : E) : E :=
  f (sqE x.m) (sqE x.q) (sqE x.u) (sqE x.s) x.m x.q x.u x.s vL a b c

/-- `logMR(m2) - logMR(mQ32)` -/
def lr (z : E) : E := if z = x.q then nat 0 else .log (sqE z / sqE x.q)
/-- `getDeltaG3Alphas` -/
def g3 : E := nat 1 / nat 2 - (vL + lr x x.m) - (vL + nat 10 * (vL + lr x x.s) + (vL + lr x x.u)) / nat 12

end

/-- the full conversion -/
def conv (l1 l2 y y2 g : E) : E := nat 2 * (l1 * (nat 3 * sqE y + nat 2 * y2) + (l2 - nat 4 * y * l1) * (g + nat 2 * y))

def ratioLog (x y r : E) : E × E := (.log (sqE x / sqE y), r)
def dilE (x y r : E) : E × E := (.dilog (nat 1 - sqE x / sqE y), r)
def invD (d l : E) : E := .neg (d + .lit (1/2) * (l * l))

/-- logarithms of `m3^2/mQ3^2`, `mU3^2/mQ3^2`, `msq^2/mQ3^2` -/
def la : E := vt 0
def lU : E := vt 1
def ls : E := vt 2

def tab : List (E × E) :=
  [ratioLog vm va la, ratioLog vb va lU, ratioLog vc va ls, ratioLog va vm (-la), ratioLog va vb (-lU), ratioLog va vc (-ls),
   ratioLog vb vc (lU - ls), ratioLog vc vb (ls - lU), ratioLog vm vb (la - lU), ratioLog vb vm (lU - la), ratioLog vm vc (la - ls),
   ratioLog vc vm (ls - la),
   dilE vm va (vt 3), dilE vm vb (vt 4), dilE vc vm (vt 5), dilE vc va (vt 6), dilE vc vb (vt 7), dilE vb va (vt 8),
   dilE va vm (invD (vt 3) la), dilE vb vm (invD (vt 4) (la - lU)), dilE vm vc (invD (vt 5) (ls - la)), dilE va vc (invD (vt 6) ls),
   dilE vb vc (invD (vt 7) (ls - lU)), dilE va vb (invD (vt 8) lU)]

def wts : List ℤ := [1, 0, 0, 0, 0, 0, 0, 0, 0, 0, 0]

def cfgGen : Cfg := ⟨64, 40, 16, [sqE va - sqE vb, sqE vm - sqE vb, sqE vm - sqE va, vb, vm, va], wts⟩
def cfgQU : Cfg := ⟨64, 40, 16, [sqE vm - sqE va, vm, va], wts⟩
def cfgQG : Cfg := ⟨64, 1, 16, [sqE va - sqE vb, sqE vb - sqE vc, sqE va - sqE vc, vb, vc, va], wts⟩
def cfgQUG : Cfg := ⟨64, 1, 16, [sqE va - sqE vc, vc, va], wts⟩
def cfgDeg : Cfg := ⟨64, 1, 1, [va], wts⟩

def fullGen : E := conv (app1 msGen Thr.dLamAtGen) (app1 msGen (Thr.dLamAtAsGen E.dilog)) (app1 msGen Thr.dYtAsGen)
  (app2 msGen (Thr.dYtAs2Gen E.dilog)) (g3 msGen)
def fullQU : E := conv (app1 msQU Thr.dLamAtQU) (app1 msQU (Thr.dLamAtAsQU E.dilog)) (app1 msQU Thr.dYtAsQU)
  (app2 msQU (Thr.dYtAs2QU E.dilog)) (g3 msQU)
def fullQG : E := conv (app1 msQG Thr.dLamAtGen) (app1 msQG (Thr.dLamAtAsQG E.dilog)) (app1 msQG Thr.dYtAsQG)
  (app2 msQG (Thr.dYtAs2QG E.dilog)) (g3 msQG)
def fullUG : E := conv (app1 msUG Thr.dLamAtGen) (app1 msUG (Thr.dLamAtAsUG E.dilog)) (app1 msUG Thr.dYtAsUG)
  (app2 msUG (Thr.dYtAs2UG E.dilog)) (g3 msUG)
def fullQUG : E := conv (app1 msQUG Thr.dLamAtQU) (app1 msQUG (Thr.dLamAtAsQUG E.dilog)) (app1 msQUG Thr.dYtAsQUG)
  (app2 msQUG (Thr.dYtAs2QUG E.dilog)) (g3 msQUG)
def fullDeg : E := conv (app1 msDeg Thr.dLamAtQU) (app1 msDeg (Thr.dLamAtAsQUG E.dilog)) (app1 msDeg Thr.dYtAsQUG)
  (app2 msDeg (Thr.dYtAs2Deg E.dilog)) (g3 msDeg)

def xtGen : E → E → E → E := app3 msGen (Thr.xtTermsGen E.dilog)
def xtQU : E → E → E → E := app3 msQU (Thr.xtTermsQU E.dilog)
def xtQG : E → E → E → E := app3 msQG (Thr.xtTermsQG E.dilog)
def xtUG : E → E → E → E := app3 msUG (Thr.xtTermsUG E.dilog)
def xtQUG : E → E → E → E := app3 msQUG (Thr.xtTermsQUG E.dilog)
def xtDeg : E → E → E → E := app3 msDeg (Thr.xtTermsDeg E.dilog)

/-- the coefficients of `Xt^4`, `Xt^5`, `Xt^6` of `full` are the given terms -/
def Agree (C : Cfg) (full : E) (xt : E → E → E → E) : Bool :=
  degCheck C 4 (subst tab (full + (xt x4 (nat 0) (nat 0) + xt (nat 0) x5 (nat 0) + xt (nat 0) (nat 0) x6)))
/-- the terms are linear in the powers of `Xt` -/
def Linear (C : Cfg) (xt : E → E → E → E) : Bool :=
  zeroCheck C (subst tab (xt x4 (nat 0) (nat 0) - xt (nat 1) (nat 0) (nat 0) * x4)) &&
  zeroCheck C (subst tab (xt (nat 0) x5 (nat 0) - xt (nat 0) (nat 1) (nat 0) * x5)) &&
  zeroCheck C (subst tab (xt (nat 0) (nat 0) x6 - xt (nat 0) (nat 0) (nat 1) * x6))

end Himalaya.Shape
