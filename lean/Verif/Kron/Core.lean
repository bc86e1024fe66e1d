import Verif.Base.FOps

/-!
# Deciding identities between rational functions

The long formulas of `ThresholdCalculator` are rational functions of a few masses, polynomial in `X_t`, logarithms and
dilogarithms.  This file contains a normaliser for such formulas that the kernel can run.

* `E` is the type of formulas; it implements the interface `FOps`, so that a definition of the model which is generic in the number
  type can be instantiated with `E` to obtain its own syntax tree.
* `El` is a sum of terms `v * (monomial in the atoms)`, where the coefficient `v`, a homogeneous polynomial in the base variables
  `a b c m`, is represented by the *integer* it takes at `a = 1`, `m = B`, `c = B^rm`, `b = B^(rm*rc)`.  Together with bounds on
  the size of the coefficients and on the degrees this integer determines the polynomial (`Verif.Kron.Sound`).
* A division is a multiplication by atoms which stand for the inverses of given factors.
-/

namespace Himalaya.Kron

deriving instance DecidableEq for Const

/-- formulas -/
inductive E where
  | lit (q : ℚ) | var (i : ℕ) | cst (c : Const) | add (a b : E) | sub (a b : E) | mul (a b : E) | div (a b : E) | neg (a : E)
  | log (a : E) | dilog (a : E) | bad
deriving DecidableEq

instance : Add E := ⟨E.add⟩
instance : Sub E := ⟨E.sub⟩
instance : Mul E := ⟨E.mul⟩
instance : Div E := ⟨E.div⟩
instance : Neg E := ⟨E.neg⟩
instance : FOps E where
  lt _ _ := false
  le _ _ := false
  isNaN _ := false
  isFinite _ := true
  abs _ := .bad
  sqrt _ := .bad
  sin _ := .bad
  cos _ := .bad
  asin _ := .bad
  acos _ := .bad
  atan _ := .bad
  log := E.log
  pow01 _ := .bad
  lit := E.lit
  const := E.cst

/-- value of a formula; `dl` is the dilogarithm -/
noncomputable def eval (dl : ℝ → ℝ) (ρ : ℕ → ℝ) : E → ℝ
  | .lit q => (q : ℝ)
  | .var i => ρ i
  | .cst c => c.value
  | .add a b => eval dl ρ a + eval dl ρ b
  | .sub a b => eval dl ρ a - eval dl ρ b
  | .mul a b => eval dl ρ a * eval dl ρ b
  | .div a b => eval dl ρ a / eval dl ρ b
  | .neg a => -eval dl ρ a
  | .log a => Real.log (eval dl ρ a)
  | .dilog a => dl (eval dl ρ a)
  | .bad => 0

/-- replaces the logarithms, dilogarithms and constants by the formulas of a table -/
def look (t : List (E × E)) (e : E) : E := match t with
  | [] => .bad
  | (a, b) :: t => if a = e then b else look t e

def subst (t : List (E × E)) : E → E
  | .lit q => .lit q
  | .var i => .var i
  | .cst c => look t (.cst c)
  | .add a b => .add (subst t a) (subst t b)
  | .sub a b => .sub (subst t a) (subst t b)
  | .mul a b => .mul (subst t a) (subst t b)
  | .div a b => .div (subst t a) (subst t b)
  | .neg a => .neg (subst t a)
  | .log a => look t (.log a)
  | .dilog a => look t (.dilog a)
  | .bad => .bad

/-- sums of terms `v * monomial / den`; `N`, `dm`, `dc`, `deg` are bounds and `w` is the weight, see `Rep` -/
structure El where
  den : ℕ
  ts : List (ℕ × ℤ)
  N : ℕ
  dm : ℕ
  dc : ℕ
  w : ℤ
  deg : ℕ

/-- merges two lists of terms sorted by key -/
def mrg : ℕ → List (ℕ × ℤ) → List (ℕ × ℤ) → List (ℕ × ℤ)
  | 0, a, b => a ++ b
  | _ + 1, [], b => b
  | _ + 1, a :: as, [] => a :: as
  | f + 1, a :: as, b :: bs =>
    match Nat.ble b.1 a.1 with
    | false => a :: mrg f as (b :: bs)
    | true => match Nat.ble a.1 b.1 with
      | false => b :: mrg f (a :: as) bs
      | true => (a.1, a.2 + b.2) :: mrg f as bs

def fuel : ℕ := 100000

/-- multiplies all terms by `v` times the monomial `k` -/
def scaleTs (k : ℕ) (v : ℤ) : List (ℕ × ℤ) → List (ℕ × ℤ)
  | [] => []
  | t :: ts => (t.1 + k, t.2 * v) :: scaleTs k v ts

def mulTs : List (ℕ × ℤ) → List (ℕ × ℤ) → List (ℕ × ℤ)
  | [], _ => []
  | t :: ts, b => mrg fuel (scaleTs t.1 t.2 b) (mulTs ts b)

/-- what the checker is told about a family of formulas -/
structure Cfg where
  /-- bits per coefficient -/
  bb : ℕ
  rm : ℕ
  rc : ℕ
  /-- factors that occur in denominators; the last one is the variable `a` -/
  facs : List E
  /-- weights of the variables `4, 5, …` after the inverse factors -/
  wts : List ℤ

def Cfg.B (C : Cfg) : ℕ := 2 ^ C.bb

def elLit (n : ℤ) (d : ℕ) : El := { den := d, ts := [(0, n)], N := n.natAbs, dm := 0, dc := 0, w := 0, deg := 0 }
def elA : El := { den := 1, ts := [(0, 1)], N := 1, dm := 0, dc := 0, w := 1, deg := 0 }
def elB (C : Cfg) : El := { den := 1, ts := [(0, (C.B ^ (C.rm * C.rc) : ℕ))], N := 1, dm := 0, dc := 0, w := 1, deg := 0 }
def elC (C : Cfg) : El := { den := 1, ts := [(0, (C.B ^ C.rm : ℕ))], N := 1, dm := 0, dc := 1, w := 1, deg := 0 }
def elM (C : Cfg) : El := { den := 1, ts := [(0, (C.B : ℕ))], N := 1, dm := 1, dc := 0, w := 1, deg := 0 }
def elAtom (j : ℕ) (w : ℤ) : El := { den := 1, ts := [(64 ^ j, 1)], N := 1, dm := 0, dc := 0, w := w, deg := 1 }

def elNeg (e : El) : El := { e with ts := scaleTs 0 (-1) e.ts }

/-- `c * e`, without changing the value (the denominator is multiplied as well) -/
def elStretch (c : ℕ) (e : El) : El := { e with den := e.den * c, ts := scaleTs 0 c e.ts, N := e.N * c }

def elAddSame (x y : El) : El :=
  { x with
    ts := mrg fuel x.ts y.ts, N := x.N + y.N, dm := max x.dm y.dm, dc := max x.dc y.dc, deg := max x.deg y.deg }

def elAdd (x y : El) : Option El :=
  match x.N, y.N with
  | 0, _ => some y
  | _, 0 => some x
  | _, _ =>
    if x.w = y.w then
      if x.den = y.den then some (elAddSame x y)
      else some (elAddSame (elStretch (y.den / Nat.gcd x.den y.den) x) (elStretch (x.den / Nat.gcd x.den y.den) y))
    else none

def elMul (x y : El) : Option El :=
  if x.deg + y.deg < 64 then
    some { den := x.den * y.den, ts := mulTs x.ts y.ts, N := x.N * y.N, dm := x.dm + y.dm, dc := x.dc + y.dc, w := x.w + y.w,
           deg := x.deg + y.deg }
  else none

def allZero : List (ℕ × ℤ) → Bool
  | [] => true
  | t :: ts => match t.2 with
    | .ofNat 0 => allZero ts
    | _ => false

def isZero (C : Cfg) (e : El) : Bool := allZero e.ts && Nat.blt e.N C.B && Nat.blt e.dm C.rm && Nat.blt e.dc C.rc

/-- number of times `f` divides `v`, and the quotient -/
def peel : ℕ → ℤ → ℤ → ℕ × ℤ
  | 0, _, v => (0, v)
  | n + 1, f, v => if v % f = 0 then let r := peel n f (v / f); (r.1 + 1, r.2) else (0, v)

def elPow (x : El) : ℕ → Option El
  | 0 => some (elLit 1 1)
  | n + 1 => do elMul (← elPow x n) x

/-- trial division: the exponents of the factors, the remaining number and the remaining weight -/
def peelAll : List El → ℤ → ℤ → List ℕ × ℤ × ℤ
  | [], v, w => ([], v, w)
  | f :: fs, v, w =>
    match f.ts with
    | [t] => let r := peel 32 t.2 v
             let s := peelAll fs r.2 (w - r.1 * f.w)
             (r.1 :: s.1, s.2)
    | _ => ([], 0, 0)

/-- `∏ f^k` and `∏ i^k`, `i` the atoms for the inverses, `j` the index of the first one -/
def prods : List El → List ℕ → ℕ → Option (El × El)
  | f :: fs, k :: ks, j => do
    let r ← prods fs ks (j + 1)
    if k = 0 then return r
    else return (← elMul (← elPow f k) r.1, ← elMul (← elPow (elAtom j (-f.w)) k) r.2)
  | _, _, _ => some (elLit 1 1, elLit 1 1)

/-- `1 / e` for a product of factors -/
def elInv (C : Cfg) (fs : List El) (e : El) : Option El :=
  match e.ts with
  | [t] =>
    let r := peelAll fs.dropLast t.2 e.w
    do
      let p ← prods fs (r.1 ++ [r.2.2.toNat]) 0
      let c ← elMul (elLit r.2.1 1) p.1
      let d ← elAdd { e with den := 1 } (elNeg c)
      if r.2.1 = 0 then none else
      if isZero C d then elMul (elLit e.den 1) (← elMul { elLit 1 r.2.1.natAbs with ts := [(0, r.2.1.sign)] } p.2) else none
  | _ => none

/-- the normal form, `fs` are the normal forms of the factors -/
def norm (C : Cfg) (fs : List El) : E → Option El
  | .lit q => some (elLit q.num q.den)
  | .var 0 => some elA
  | .var 1 => some (elB C)
  | .var 2 => some (elC C)
  | .var 3 => some (elM C)
  | .var (i + 4) => (C.wts[i]?).map fun w => elAtom (fs.length + i) w
  | .add a b => do elAdd (← norm C fs a) (← norm C fs b)
  | .sub a b => do elAdd (← norm C fs a) (elNeg (← norm C fs b))
  | .mul a b => do elMul (← norm C fs a) (← norm C fs b)
  | .div a b => do elMul (← norm C fs a) (← elInv C fs (← norm C fs b))
  | .neg a => do return elNeg (← norm C fs a)
  | _ => none

/-! ### Clearing the denominators -/

/-- the largest exponent of the first atom -/
def maxDig : List (ℕ × ℤ) → ℕ
  | [] => 0
  | t :: ts => max (t.1 % 64) (maxDig ts)

/-- multiplies by `f^K`, where the first atom is `1/f`, and removes that atom -/
def clearTs (f : El) (K : ℕ) : List (ℕ × ℤ) → Option (List (ℕ × ℤ))
  | [] => some []
  | t :: ts => do
    let p ← elPow f (K - t.1 % 64)
    let r ← clearTs f K ts
    return mrg fuel (scaleTs (t.1 / 64) t.2 p.ts) r

def clear1 (C : Cfg) (f : El) (e : El) : Option El :=
  let K := maxDig e.ts
  if Nat.blt e.N C.B && Nat.blt e.dm C.rm && Nat.blt e.dc C.rc && Nat.ble 1 f.N && Nat.beq f.den 1 && Nat.beq f.deg 0 then do
    let ts ← clearTs f K e.ts
    return { e with ts := ts, N := e.N * f.N ^ K, dm := e.dm + K * f.dm, dc := e.dc + K * f.dc, w := e.w + K * f.w }
  else none

def clearAll (C : Cfg) : List El → El → Option El
  | [], e => some e
  | f :: fs, e => do clearAll C fs (← clear1 C f e)

/-- the normal forms of the factors -/
def normAll (C : Cfg) : List E → Option (List El)
  | [] => some []
  | e :: es => do return (← norm C [] e) :: (← normAll C es)

def Cfg.pure (C : Cfg) : Cfg := { C with wts := [] }

def full (C : Cfg) (e : E) : Option El := do
  let fs ← normAll C.pure C.facs
  clearAll C fs (← norm C fs e)

/-- `e = 0` -/
def zeroCheck (C : Cfg) (e : E) : Bool := match full C e with
  | none => false
  | some r => isZero C r

/-- `e` is a polynomial of degree less than `D` in the variable `4` -/
def degCheck (C : Cfg) (D : ℕ) (e : E) : Bool := match full C e with
  | none => false
  | some r => isZero C { r with ts := r.ts.filter fun t => Nat.ble D (t.1 % 64) }

end Himalaya.Kron
