import Verif.Kron.Core

/-!
# Deciding identities between Laurent polynomials

The formulas of the hierarchy classes are Laurent polynomials in the members of the class.  This file contains a normaliser for
such formulas that the kernel can run, and its correctness proof.

A monomial `∏ xᵢ^eᵢ` (`eᵢ` an integer, `|eᵢ| < 512`) is represented by the natural number with the digits `eᵢ + 512` in base 1024.
Only the first `m` of the `n` variables may have negative exponents; these are assumed to be different from zero.
-/

namespace Himalaya.Laur

open Kron (E eval)

/-- the number all of whose `n` digits are 512: the monomial 1 -/
def bias : ℕ → ℕ
  | 0 => 0
  | n + 1 => 512 + 1024 * bias n

/-- `(∑ v * monomial k) / den`; the exponents are at most `deg` in absolute value -/
structure LP where
  den : ℕ
  ts : List (ℕ × ℤ)
  deg : ℕ

def isz : ℤ → Bool
  | .ofNat n => Nat.beq n 0
  | .negSucc _ => false

/-- merges two lists of terms sorted by key, dropping terms that cancel -/
def mrg : ℕ → List (ℕ × ℤ) → List (ℕ × ℤ) → List (ℕ × ℤ)
  | 0, a, b => a ++ b
  | _ + 1, [], b => b
  | _ + 1, a :: as, [] => a :: as
  | f + 1, a :: as, b :: bs =>
    match Nat.ble b.1 a.1 with
    | false => a :: mrg f as (b :: bs)
    | true => match Nat.ble a.1 b.1 with
      | false => b :: mrg f (a :: as) bs
      | true => match isz (a.2 + b.2) with
        | true => mrg f as bs
        | false => (a.1, a.2 + b.2) :: mrg f as bs

def fuel : ℕ := 1000000

/-- multiplies all terms by `v` times the monomial `k` -/
def scaleTs (B k : ℕ) (v : ℤ) : List (ℕ × ℤ) → List (ℕ × ℤ)
  | [] => []
  | t :: ts => (t.1 + k - B, t.2 * v) :: scaleTs B k v ts

def mulLoop (B : ℕ) : List (ℕ × ℤ) → List (ℕ × ℤ) → List (ℕ × ℤ)
  | [], _ => []
  | [t], b => scaleTs B t.1 t.2 b
  | t :: ts, b => mrg fuel (scaleTs B t.1 t.2 b) (mulLoop B ts b)

/-- is the first list at most as long as the second one? -/
def shorter : List (ℕ × ℤ) → List (ℕ × ℤ) → Bool
  | [], _ => true
  | _ :: _, [] => false
  | _ :: a, _ :: b => shorter a b

def mulTs (B : ℕ) (a b : List (ℕ × ℤ)) : List (ℕ × ℤ) :=
  match shorter a b with
  | true => mulLoop B a b
  | false => mulLoop B b a

/-- multiplies all coefficients by `v` -/
def coefTs (v : ℤ) : List (ℕ × ℤ) → List (ℕ × ℤ)
  | [] => []
  | t :: ts => (t.1, t.2 * v) :: coefTs v ts

def LP.stretch (c : ℕ) (p : LP) : LP := { p with den := p.den * c, ts := coefTs c p.ts }

def LP.addSame (p q : LP) : LP := { p with ts := mrg fuel p.ts q.ts, deg := max p.deg q.deg }

def LP.add (p q : LP) : LP :=
  match Nat.beq p.den q.den with
  | true => p.addSame q
  | false => (p.stretch (q.den / Nat.gcd p.den q.den)).addSame (q.stretch (p.den / Nat.gcd p.den q.den))

def LP.neg (p : LP) : LP := { p with ts := coefTs (-1) p.ts }

def LP.mul (B : ℕ) (p q : LP) : Option LP :=
  match Nat.blt (p.deg + q.deg) 512 with
  | true => some { den := p.den * q.den, ts := mulTs B p.ts q.ts, deg := p.deg + q.deg }
  | false => none

/-- the inverse of a monomial in the first `m` variables -/
def LP.inv (m B : ℕ) (p : LP) : Option LP :=
  match p.ts with
  | [t] => match Nat.beq (t.1 / 1024 ^ m) (B / 1024 ^ m) with
    | true => match t.2 with
      | .ofNat 0 => none
      | .ofNat v => some { den := v, ts := [(2 * B - t.1, (p.den : ℤ))], deg := p.deg }
      | .negSucc v => some { den := v + 1, ts := [(2 * B - t.1, -(p.den : ℤ))], deg := p.deg }
    | false => none
  | _ => none

/-- the normal form of a formula; `n` variables, the first `m` of them different from zero, `B = bias n` -/
def norm (n m B : ℕ) : E → Option LP
  | .lit q => some { den := q.den, ts := match isz q.num with | true => [] | false => [(B, q.num)], deg := 0 }
  | .var i => match Nat.blt i n with
    | true => some { den := 1, ts := [(B + 1024 ^ i, 1)], deg := 1 }
    | false => none
  | .add a b => match norm n m B a, norm n m B b with
    | some p, some q => some (p.add q)
    | _, _ => none
  | .sub a b => match norm n m B a, norm n m B b with
    | some p, some q => some (p.add q.neg)
    | _, _ => none
  | .mul a b => match norm n m B a, norm n m B b with
    | some p, some q => p.mul B q
    | _, _ => none
  | .div a b => match norm n m B a, norm n m B b with
    | some p, some q => match q.inv m B with
      | some r => p.mul B r
      | none => none
    | _, _ => none
  | .neg a => match norm n m B a with
    | some p => some p.neg
    | none => none
  | _ => none

/-! ## Correctness -/

/-- value of a monomial -/
noncomputable def mon : List ℝ → ℕ → ℝ
  | [], _ => 1
  | x :: xs, k => x ^ (((k % 1024 : ℕ) : ℤ) - 512) * mon xs (k / 1024)

/-- value of a sum of terms -/
noncomputable def val (xs : List ℝ) : List (ℕ × ℤ) → ℝ
  | [] => 0
  | t :: ts => (t.2 : ℝ) * mon xs t.1 + val xs ts

/-- the exponents are at most `D` in absolute value, and only the first `m` can be negative -/
def Good (D : ℕ) : ℕ → ℕ → ℕ → Prop
  | _, 0, k => k = 0
  | 0, n + 1, k => 512 ≤ k % 1024 ∧ k % 1024 ≤ 512 + D ∧ Good D 0 n (k / 1024)
  | m + 1, n + 1, k => 512 ≤ k % 1024 + D ∧ k % 1024 ≤ 512 + D ∧ Good D m n (k / 1024)

/-- the first `m` values are different from zero -/
def NZ : ℕ → List ℝ → Prop
  | 0, _ => True
  | _ + 1, [] => True
  | m + 1, x :: xs => x ≠ 0 ∧ NZ m xs

theorem Good.mono {D D' : ℕ} (h : D ≤ D') : ∀ {m n k : ℕ}, Good D m n k → Good D' m n k
  | 0, 0, _, g => g
  | _ + 1, 0, _, g => g
  | 0, _ + 1, _, g => ⟨g.1, g.2.1.trans (by omega), Good.mono h g.2.2⟩
  | _ + 1, _ + 1, _, g => ⟨g.1.trans (by omega), g.2.1.trans (by omega), Good.mono h g.2.2⟩

theorem bias_mod (n : ℕ) : bias (n + 1) % 1024 = 512 := by simp only [bias]; omega

theorem bias_div (n : ℕ) : bias (n + 1) / 1024 = bias n := by simp only [bias]; omega

theorem good_bias (D : ℕ) : ∀ m n : ℕ, Good D m n (bias n)
  | 0, 0 => rfl
  | _ + 1, 0 => rfl
  | 0, n + 1 => by
    refine ⟨?_, ?_, ?_⟩
    · rw [bias_mod]
    · rw [bias_mod]; omega
    · rw [bias_div]; exact good_bias D 0 n
  | m + 1, n + 1 => by
    refine ⟨?_, ?_, ?_⟩
    · rw [bias_mod]; omega
    · rw [bias_mod]; omega
    · rw [bias_div]; exact good_bias D m n

theorem mon_bias : ∀ xs : List ℝ, mon xs (bias xs.length) = 1
  | [] => rfl
  | x :: xs => by
    show x ^ (((bias (xs.length + 1) % 1024 : ℕ) : ℤ) - 512) * mon xs (bias (xs.length + 1) / 1024) = 1
    rw [bias_mod, bias_div, mon_bias xs]; simp

theorem good_var (i : ℕ) : ∀ m n : ℕ, i < n → Good 1 m n (bias n + 1024 ^ i) := by
  induction i with
  | zero =>
    intro m n hi
    cases n with
    | zero => omega
    | succ n =>
      have e : (bias (n + 1) + 1024 ^ 0) / 1024 = bias n := by simp only [bias]; omega
      have e' : (bias (n + 1) + 1024 ^ 0) % 1024 = 513 := by simp only [bias]; omega
      cases m with
      | zero => exact ⟨by omega, by omega, by rw [e]; exact good_bias 1 0 n⟩
      | succ m => exact ⟨by omega, by omega, by rw [e]; exact good_bias 1 m n⟩
  | succ i ih =>
    intro m n hi
    cases n with
    | zero => omega
    | succ n =>
      have e : (bias (n + 1) + 1024 ^ (i + 1)) / 1024 = bias n + 1024 ^ i := by simp only [bias, pow_succ]; omega
      have e' : (bias (n + 1) + 1024 ^ (i + 1)) % 1024 = 512 := by simp only [bias, pow_succ]; omega
      cases m with
      | zero => exact ⟨by omega, by omega, by rw [e]; exact ih 0 n (by omega)⟩
      | succ m => exact ⟨by omega, by omega, by rw [e]; exact ih m n (by omega)⟩

theorem mon_var (i : ℕ) : ∀ xs : List ℝ, i < xs.length → mon xs (bias xs.length + 1024 ^ i) = xs.getD i 0 := by
  induction i with
  | zero =>
    intro xs hi
    cases xs with
    | nil => simp at hi
    | cons x xs =>
      have e : (bias (xs.length + 1) + 1024 ^ 0) / 1024 = bias xs.length := by simp only [bias]; omega
      have e' : (bias (xs.length + 1) + 1024 ^ 0) % 1024 = 513 := by simp only [bias]; omega
      show x ^ ((((bias (xs.length + 1) + 1024 ^ 0) % 1024 : ℕ) : ℤ) - 512) * mon xs ((bias (xs.length + 1) + 1024 ^ 0) / 1024) = _
      rw [e, e', mon_bias]; simp
  | succ i ih =>
    intro xs hi
    cases xs with
    | nil => simp at hi
    | cons x xs =>
      have e : (bias (xs.length + 1) + 1024 ^ (i + 1)) / 1024 = bias xs.length + 1024 ^ i := by
        simp only [bias, pow_succ]; omega
      have e' : (bias (xs.length + 1) + 1024 ^ (i + 1)) % 1024 = 512 := by simp only [bias, pow_succ]; omega
      show x ^ ((((bias (xs.length + 1) + 1024 ^ (i + 1)) % 1024 : ℕ) : ℤ) - 512)
        * mon xs ((bias (xs.length + 1) + 1024 ^ (i + 1)) / 1024) = _
      rw [e, e', ih xs (by simpa using hi)]; simp

theorem mul_arith {a b D D' B : ℕ} (ha : 512 ≤ a % 1024 + D) (hb : 512 ≤ b % 1024 + D') (ha' : a % 1024 ≤ 512 + D)
    (hb' : b % 1024 ≤ 512 + D') (h : D + D' < 512) (hB : B ≤ a / 1024 + b / 1024) :
    512 + 1024 * B ≤ a + b ∧ (a + b - (512 + 1024 * B)) % 1024 = a % 1024 + b % 1024 - 512 ∧
      (a + b - (512 + 1024 * B)) / 1024 = a / 1024 + b / 1024 - B := by
  refine ⟨?_, ?_, ?_⟩ <;> omega

theorem good_mul {D D' : ℕ} (h : D + D' < 512) : ∀ {m n a b : ℕ}, Good D m n a → Good D' m n b →
    bias n ≤ a + b ∧ Good (D + D') m n (a + b - bias n)
  | 0, 0, a, b, ga, gb => by
    have : a = 0 := ga
    have : b = 0 := gb
    subst a b; exact ⟨Nat.le_refl 0, rfl⟩
  | m + 1, 0, a, b, ga, gb => by
    have : a = 0 := ga
    have : b = 0 := gb
    subst a b; exact ⟨Nat.le_refl 0, rfl⟩
  | 0, n + 1, a, b, ga, gb => by
    have r := good_mul h ga.2.2 gb.2.2
    have q := mul_arith (ga.1.trans (by omega)) (gb.1.trans (by omega)) ga.2.1 gb.2.1 h r.1
    have a1 := ga.1; have a2 := ga.2.1; have b1 := gb.1; have b2 := gb.2.1
    refine ⟨q.1, ?_, ?_, ?_⟩
    · show 512 ≤ (a + b - (512 + 1024 * bias n)) % 1024
      omega
    · show (a + b - (512 + 1024 * bias n)) % 1024 ≤ _
      omega
    · show Good (D + D') 0 n ((a + b - (512 + 1024 * bias n)) / 1024)
      rw [q.2.2]; exact r.2
  | m + 1, n + 1, a, b, ga, gb => by
    have r := good_mul h ga.2.2 gb.2.2
    have q := mul_arith ga.1 gb.1 ga.2.1 gb.2.1 h r.1
    have a1 := ga.1; have a2 := ga.2.1; have b1 := gb.1; have b2 := gb.2.1
    refine ⟨q.1, ?_, ?_, ?_⟩
    · show 512 ≤ (a + b - (512 + 1024 * bias n)) % 1024 + (D + D')
      omega
    · show (a + b - (512 + 1024 * bias n)) % 1024 ≤ _
      omega
    · show Good (D + D') m n ((a + b - (512 + 1024 * bias n)) / 1024)
      rw [q.2.2]; exact r.2

theorem mon_mul {D D' : ℕ} (h : D + D' < 512) : ∀ {m : ℕ} {xs : List ℝ} {a b : ℕ}, NZ m xs → Good D m xs.length a →
    Good D' m xs.length b → mon xs (a + b - bias xs.length) = mon xs a * mon xs b
  | m, [], a, b, _, ga, gb => by simp [mon]
  | 0, x :: xs, a, b, hz, ga, gb => by
    have r := good_mul h ga.2.2 gb.2.2
    have q := mul_arith (ga.1.trans (by omega)) (gb.1.trans (by omega)) ga.2.1 gb.2.1 h r.1
    have a1 := ga.1; have a2 := ga.2.1; have b1 := gb.1; have b2 := gb.2.1
    have ih := mon_mul h (m := 0) (xs := xs) trivial ga.2.2 gb.2.2
    show x ^ ((((a + b - (512 + 1024 * bias xs.length)) % 1024 : ℕ) : ℤ) - 512)
      * mon xs ((a + b - (512 + 1024 * bias xs.length)) / 1024) = (x ^ _ * mon xs _) * (x ^ _ * mon xs _)
    rw [q.2.2, ih]
    have e : (((a + b - (512 + 1024 * bias xs.length)) % 1024 : ℕ) : ℤ) - 512
        = (((a % 1024 : ℕ) : ℤ) - 512) + (((b % 1024 : ℕ) : ℤ) - 512) := by omega
    rw [e, zpow_add' (by omega)]; ring
  | m + 1, x :: xs, a, b, hz, ga, gb => by
    have r := good_mul h ga.2.2 gb.2.2
    have q := mul_arith ga.1 gb.1 ga.2.1 gb.2.1 h r.1
    have a1 := ga.1; have a2 := ga.2.1; have b1 := gb.1; have b2 := gb.2.1
    have ih := mon_mul h (m := m) (xs := xs) hz.2 ga.2.2 gb.2.2
    show x ^ ((((a + b - (512 + 1024 * bias xs.length)) % 1024 : ℕ) : ℤ) - 512)
      * mon xs ((a + b - (512 + 1024 * bias xs.length)) / 1024) = (x ^ _ * mon xs _) * (x ^ _ * mon xs _)
    rw [q.2.2, ih]
    have e : (((a + b - (512 + 1024 * bias xs.length)) % 1024 : ℕ) : ℤ) - 512
        = (((a % 1024 : ℕ) : ℤ) - 512) + (((b % 1024 : ℕ) : ℤ) - 512) := by omega
    rw [e, zpow_add₀ hz.1]; ring

theorem inv_arith {a D B : ℕ} (ha : 512 ≤ a % 1024 + D) (h : D < 512) (hB : a / 1024 ≤ 2 * B) :
    (2 * (512 + 1024 * B) - a) % 1024 = 1024 - a % 1024 ∧ (2 * (512 + 1024 * B) - a) / 1024 = 2 * B - a / 1024 ∧
      a ≤ 2 * (512 + 1024 * B) := by
  refine ⟨?_, ?_, ?_⟩ <;> omega

theorem good_inv {D : ℕ} (h : D < 512) : ∀ {m n a : ℕ}, Good D m n a → a / 1024 ^ m = bias n / 1024 ^ m →
    a ≤ 2 * bias n ∧ Good D m n (2 * bias n - a)
  | 0, n, a, ga, e => by
    simp only [pow_zero, Nat.div_one] at e
    subst e
    refine ⟨by omega, ?_⟩
    rw [show 2 * bias n - bias n = bias n by omega]; exact good_bias D 0 n
  | m + 1, 0, a, ga, e => by
    have : a = 0 := ga
    subst this; exact ⟨by omega, rfl⟩
  | m + 1, n + 1, a, ga, e => by
    have e' : a / 1024 / 1024 ^ m = bias n / 1024 ^ m := by
      rw [← bias_div n, Nat.div_div_eq_div_mul, Nat.div_div_eq_div_mul, ← pow_succ', e]
    have r := good_inv h ga.2.2 e'
    have q := inv_arith ga.1 h r.1
    have a1 := ga.1; have a2 := ga.2.1
    refine ⟨q.2.2, ?_, ?_, ?_⟩
    · show 512 ≤ (2 * (512 + 1024 * bias n) - a) % 1024 + D
      omega
    · show (2 * (512 + 1024 * bias n) - a) % 1024 ≤ _
      omega
    · show Good D m n ((2 * (512 + 1024 * bias n) - a) / 1024)
      rw [q.2.1]; exact r.2

theorem mon_inv {D : ℕ} (h : D < 512) : ∀ {m : ℕ} {xs : List ℝ} {a : ℕ}, NZ m xs → Good D m xs.length a →
    a / 1024 ^ m = bias xs.length / 1024 ^ m → mon xs (2 * bias xs.length - a) * mon xs a = 1
  | m, [], a, _, ga, e => by simp [mon]
  | 0, x :: xs, a, hz, ga, e => by
    simp only [pow_zero, Nat.div_one] at e
    subst e
    rw [show 2 * bias (x :: xs).length - bias (x :: xs).length = bias (x :: xs).length by omega, mon_bias]; simp
  | m + 1, x :: xs, a, hz, ga, e => by
    have e' : a / 1024 / 1024 ^ m = bias xs.length / 1024 ^ m := by
      rw [← bias_div xs.length, Nat.div_div_eq_div_mul, Nat.div_div_eq_div_mul, ← pow_succ']
      exact e
    have r := good_inv h ga.2.2 e'
    have q := inv_arith ga.1 h r.1
    have a1 := ga.1; have a2 := ga.2.1
    have ih := mon_inv h (m := m) (xs := xs) hz.2 ga.2.2 e'
    show (x ^ ((((2 * (512 + 1024 * bias xs.length) - a) % 1024 : ℕ) : ℤ) - 512)
      * mon xs ((2 * (512 + 1024 * bias xs.length) - a) / 1024)) * (x ^ _ * mon xs _) = 1
    rw [q.2.1]
    have e2 : x ^ ((((2 * (512 + 1024 * bias xs.length) - a) % 1024 : ℕ) : ℤ) - 512) * x ^ (((a % 1024 : ℕ) : ℤ) - 512) = 1 := by
      rw [← zpow_add₀ hz.1]
      have : (((2 * (512 + 1024 * bias xs.length) - a) % 1024 : ℕ) : ℤ) - 512 + (((a % 1024 : ℕ) : ℤ) - 512) = 0 := by omega
      rw [this, zpow_zero]
    calc _ = (x ^ ((((2 * (512 + 1024 * bias xs.length) - a) % 1024 : ℕ) : ℤ) - 512) * x ^ (((a % 1024 : ℕ) : ℤ) - 512))
        * (mon xs (2 * bias xs.length - a / 1024) * mon xs (a / 1024)) := by ring
      _ = 1 := by rw [e2, ih, one_mul]

theorem val_append (xs : List ℝ) (a b : List (ℕ × ℤ)) : val xs (a ++ b) = val xs a + val xs b := by
  induction a with
  | nil => simp [val]
  | cons t a ih => simp only [List.cons_append, val, ih]; ring

theorem isz_iff {v : ℤ} : isz v = true ↔ v = 0 := by
  cases v with
  | ofNat n =>
    simp only [isz, Nat.beq_eq]
    exact ⟨fun h => by rw [h]; rfl, fun h => by simpa using h⟩
  | negSucc n => simp [isz]

theorem val_mrg (xs : List ℝ) : ∀ (f : ℕ) (a b : List (ℕ × ℤ)), val xs (mrg f a b) = val xs a + val xs b
  | 0, a, b => val_append xs a b
  | _ + 1, [], b => by simp [mrg, val]
  | _ + 1, a :: as, [] => by simp [mrg, val]
  | f + 1, a :: as, b :: bs => by
    rw [mrg]
    split
    · rw [val, val_mrg xs f as (b :: bs)]; simp only [val]; ring
    · rename_i h1
      split
      · rw [val, val_mrg xs f (a :: as) bs]; simp only [val]; ring
      · rename_i h2
        have e : a.1 = b.1 := Nat.le_antisymm (Nat.le_of_ble_eq_true h2) (Nat.le_of_ble_eq_true h1)
        split
        · rename_i h3
          have z := isz_iff.1 h3
          have z' : (a.2 : ℝ) + (b.2 : ℝ) = 0 := by exact_mod_cast z
          rw [val_mrg xs f as bs]; simp only [val]; rw [e]
          linear_combination (-(mon xs b.1)) * z'
        · rw [val, val_mrg xs f as bs]; simp only [val]; rw [e]; push_cast; ring

theorem mem_mrg (P : ℕ → Prop) : ∀ (f : ℕ) (a b : List (ℕ × ℤ)), (∀ t ∈ a, P t.1) → (∀ t ∈ b, P t.1) →
    ∀ t ∈ mrg f a b, P t.1
  | 0, a, b, ha, hb => by
    intro t ht
    rcases List.mem_append.1 ht with h | h
    · exact ha t h
    · exact hb t h
  | _ + 1, [], b, ha, hb => by simpa [mrg] using hb
  | _ + 1, a :: as, [], ha, hb => by simpa [mrg] using ha
  | f + 1, a :: as, b :: bs, ha, hb => by
    have ha1 := ha a (List.mem_cons_self ..)
    have hb1 := hb b (List.mem_cons_self ..)
    have ha2 : ∀ t ∈ as, P t.1 := fun t h => ha t (List.mem_cons_of_mem _ h)
    have hb2 : ∀ t ∈ bs, P t.1 := fun t h => hb t (List.mem_cons_of_mem _ h)
    rw [mrg]
    split
    · intro t ht
      rcases List.mem_cons.1 ht with h | h
      · rw [h]; exact ha1
      · exact mem_mrg P f as (b :: bs) ha2 hb t h
    · split
      · intro t ht
        rcases List.mem_cons.1 ht with h | h
        · rw [h]; exact hb1
        · exact mem_mrg P f (a :: as) bs ha hb2 t h
      · split
        · exact mem_mrg P f as bs ha2 hb2
        · intro t ht
          rcases List.mem_cons.1 ht with h | h
          · rw [h]; exact ha1
          · exact mem_mrg P f as bs ha2 hb2 t h

theorem val_coefTs (xs : List ℝ) (v : ℤ) (ts : List (ℕ × ℤ)) : val xs (coefTs v ts) = v * val xs ts := by
  induction ts with
  | nil => simp [coefTs, val]
  | cons t ts ih => simp only [coefTs, val, ih]; push_cast; ring

theorem mem_coefTs (P : ℕ → Prop) (v : ℤ) (ts : List (ℕ × ℤ)) (h : ∀ t ∈ ts, P t.1) : ∀ t ∈ coefTs v ts, P t.1 := by
  induction ts with
  | nil => simp [coefTs]
  | cons s ts ih =>
    intro t ht
    rcases List.mem_cons.1 ht with e | e
    · rw [e]; exact h s (List.mem_cons_self ..)
    · exact ih (fun t h' => h t (List.mem_cons_of_mem _ h')) t e

section
variable {m n D D' : ℕ}

theorem mem_scaleTs (h : D + D' < 512) (v : ℤ) {k : ℕ} (hk : Good D' m n k) (ts : List (ℕ × ℤ))
    (ht : ∀ t ∈ ts, Good D m n t.1) : ∀ t ∈ scaleTs (bias n) k v ts, Good (D + D') m n t.1 := by
  induction ts with
  | nil => simp [scaleTs]
  | cons s ts ih =>
    intro t h'
    rcases List.mem_cons.1 h' with e | e
    · rw [e]; exact (good_mul h (ht s (List.mem_cons_self ..)) hk).2
    · exact ih (fun t h' => ht t (List.mem_cons_of_mem _ h')) t e

theorem val_scaleTs (h : D + D' < 512) {xs : List ℝ} (hz : NZ m xs) (v : ℤ) {k : ℕ} (hk : Good D' m xs.length k)
    (ts : List (ℕ × ℤ)) (ht : ∀ t ∈ ts, Good D m xs.length t.1) :
    val xs (scaleTs (bias xs.length) k v ts) = v * mon xs k * val xs ts := by
  induction ts with
  | nil => simp [scaleTs, val]
  | cons s ts ih =>
    simp only [scaleTs, val]
    rw [mon_mul h hz (ht s (List.mem_cons_self ..)) hk, ih (fun t h' => ht t (List.mem_cons_of_mem _ h'))]
    push_cast; ring

theorem mem_mulLoop (h : D + D' < 512) : ∀ (a b : List (ℕ × ℤ)), (∀ t ∈ a, Good D m n t.1) → (∀ t ∈ b, Good D' m n t.1) →
    ∀ t ∈ mulLoop (bias n) a b, Good (D + D') m n t.1
  | [], _, _, _ => by simp [mulLoop]
  | [t], b, ha, hb => by
    rw [mulLoop, Nat.add_comm D D']
    exact mem_scaleTs (by omega) _ (ha t (List.mem_cons_self ..)) b hb
  | t :: s :: ts, b, ha, hb => by
    rw [mulLoop]
    refine mem_mrg _ _ _ _ ?_ (mem_mulLoop h (s :: ts) b (fun t h' => ha t (List.mem_cons_of_mem _ h')) hb)
    rw [Nat.add_comm D D']
    exact mem_scaleTs (by omega) _ (ha t (List.mem_cons_self ..)) b hb
    simp

theorem val_mulLoop (h : D + D' < 512) {xs : List ℝ} (hz : NZ m xs) : ∀ (a b : List (ℕ × ℤ)),
    (∀ t ∈ a, Good D m xs.length t.1) → (∀ t ∈ b, Good D' m xs.length t.1) →
    val xs (mulLoop (bias xs.length) a b) = val xs a * val xs b
  | [], _, _, _ => by simp [mulLoop, val]
  | [t], b, ha, hb => by
    rw [mulLoop, val_scaleTs (D := D') (D' := D) (by omega) hz _ (ha t (List.mem_cons_self ..)) b hb]
    simp only [val]; ring
  | t :: s :: ts, b, ha, hb => by
    rw [mulLoop, val_mrg, val_scaleTs (D := D') (D' := D) (by omega) hz _ (ha t (List.mem_cons_self ..)) b hb,
      val_mulLoop h hz (s :: ts) b (fun t h' => ha t (List.mem_cons_of_mem _ h')) hb]
    simp only [val]; ring
    simp

theorem mem_mulTs (h : D + D' < 512) (a b : List (ℕ × ℤ)) (ha : ∀ t ∈ a, Good D m n t.1) (hb : ∀ t ∈ b, Good D' m n t.1) :
    ∀ t ∈ mulTs (bias n) a b, Good (D + D') m n t.1 := by
  rw [mulTs]
  split
  · exact mem_mulLoop h a b ha hb
  · rw [Nat.add_comm D D']; exact mem_mulLoop (by omega) b a hb ha

theorem val_mulTs (h : D + D' < 512) {xs : List ℝ} (hz : NZ m xs) (a b : List (ℕ × ℤ))
    (ha : ∀ t ∈ a, Good D m xs.length t.1) (hb : ∀ t ∈ b, Good D' m xs.length t.1) :
    val xs (mulTs (bias xs.length) a b) = val xs a * val xs b := by
  rw [mulTs]
  split
  · exact val_mulLoop h hz a b ha hb
  · rw [val_mulLoop (D := D') (D' := D) (by omega) hz b a hb ha, mul_comm]

end

/-- `p` is the normal form of the function `φ` of the values of the variables -/
structure Rep (m n : ℕ) (p : LP) (φ : List ℝ → ℝ) : Prop where
  den : 0 < p.den
  deg : p.deg < 512
  good : ∀ t ∈ p.ts, Good p.deg m n t.1
  value : ∀ xs : List ℝ, xs.length = n → NZ m xs → φ xs = val xs p.ts / p.den

section
variable {m n : ℕ} {p q : LP} {φ ψ : List ℝ → ℝ}

theorem Rep.neg (h : Rep m n p φ) : Rep m n p.neg (fun xs => -φ xs) where
  den := h.den
  deg := h.deg
  good := mem_coefTs _ _ _ h.good
  value := fun xs hl hz => by
    rw [h.value xs hl hz]; simp only [LP.neg, val_coefTs]; push_cast; ring

theorem Rep.stretch (h : Rep m n p φ) {c : ℕ} (hc : 0 < c) : Rep m n (p.stretch c) φ where
  den := Nat.mul_pos h.den hc
  deg := h.deg
  good := mem_coefTs _ _ _ h.good
  value := fun xs hl hz => by
    have h1 : (p.den : ℝ) ≠ 0 := by exact_mod_cast h.den.ne'
    have h2 : (c : ℝ) ≠ 0 := by exact_mod_cast hc.ne'
    rw [h.value xs hl hz]; simp only [LP.stretch, val_coefTs]; push_cast; field_simp

theorem Rep.addSame (hp : Rep m n p φ) (hq : Rep m n q ψ) (e : p.den = q.den) :
    Rep m n (p.addSame q) (fun xs => φ xs + ψ xs) where
  den := hp.den
  deg := max_lt hp.deg hq.deg
  good := mem_mrg _ _ _ _ (fun t ht => (hp.good t ht).mono (le_max_left ..)) (fun t ht => (hq.good t ht).mono (le_max_right ..))
  value := fun xs hl hz => by
    rw [hp.value xs hl hz, hq.value xs hl hz]; simp only [LP.addSame, val_mrg]; rw [e]; ring

theorem Rep.add (hp : Rep m n p φ) (hq : Rep m n q ψ) : Rep m n (p.add q) (fun xs => φ xs + ψ xs) := by
  rw [LP.add]
  split
  · rename_i e; exact hp.addSame hq (Nat.eq_of_beq_eq_true e)
  · have g := Nat.gcd_pos_of_pos_left q.den hp.den
    refine (hp.stretch (Nat.div_pos (Nat.le_of_dvd hq.den (Nat.gcd_dvd_right ..)) g)).addSame
      (hq.stretch (Nat.div_pos (Nat.le_of_dvd hp.den (Nat.gcd_dvd_left ..)) g)) ?_
    show p.den * (q.den / _) = q.den * (p.den / _)
    rw [← Nat.mul_div_assoc _ (Nat.gcd_dvd_right ..), ← Nat.mul_div_assoc _ (Nat.gcd_dvd_left ..), Nat.mul_comm]

theorem Rep.mul (hp : Rep m n p φ) (hq : Rep m n q ψ) {r : LP} (h : p.mul (bias n) q = some r) :
    Rep m n r (fun xs => φ xs * ψ xs) := by
  rw [LP.mul] at h
  split at h
  · rename_i hd
    have hd' : p.deg + q.deg < 512 := by simpa [Nat.blt] using hd
    simp only [Option.some.injEq] at h
    subst h
    exact {
      den := Nat.mul_pos hp.den hq.den
      deg := hd'
      good := mem_mulTs hd' _ _ hp.good hq.good
      value := fun xs hl hz => by
        subst hl
        rw [hp.value xs rfl hz, hq.value xs rfl hz]
        simp only []
        rw [val_mulTs hd' hz _ _ hp.good hq.good]; push_cast; rw [div_mul_div_comm] }
  · simp at h

theorem Rep.inv (hp : Rep m n p φ) {r : LP} (h : p.inv m (bias n) = some r) : Rep m n r (fun xs => (φ xs)⁻¹) := by
  rw [LP.inv] at h
  split at h
  · rename_i t ht
    split at h
    · rename_i hk
      have hk' := Nat.eq_of_beq_eq_true hk
      have gt : Good p.deg m n t.1 := hp.good t (by rw [ht]; simp)
      have g := good_inv hp.deg gt hk'
      have hd : (p.den : ℝ) ≠ 0 := by exact_mod_cast hp.den.ne'
      have key : ∀ (xs : List ℝ), xs.length = n → NZ m xs → (t.2 : ℝ) ≠ 0 →
          (φ xs)⁻¹ = p.den * mon xs (2 * bias n - t.1) / t.2 := by
        intro xs hl hz hv
        subst hl
        have i := mon_inv hp.deg hz gt hk'
        have hm : mon xs t.1 ≠ 0 := right_ne_zero_of_mul (a := mon xs (2 * bias xs.length - t.1)) (by rw [i]; exact one_ne_zero)
        rw [hp.value xs rfl hz, ht]
        simp only [val, add_zero]
        rw [eq_div_of_mul_eq hm i]; field_simp
      split at h
      · simp at h
      · rename_i v hv0 hv
        simp only [Option.some.injEq] at h
        subst h
        have hpos : 0 < v := Nat.pos_of_ne_zero (fun e => hv0 (by rw [e]))
        exact {
          den := hpos
          deg := hp.deg
          good := by simpa using g.2
          value := fun xs hl hz => by
            have hv' : (t.2 : ℝ) = v := by rw [hv]; simp
            rw [key xs hl hz (by rw [hv']; exact_mod_cast hpos.ne'), hv']; simp [val] }
      · rename_i v hv
        simp only [Option.some.injEq] at h
        subst h
        exact {
          den := Nat.succ_pos v
          deg := hp.deg
          good := by simpa using g.2
          value := fun xs hl hz => by
            have hv' : (t.2 : ℝ) = -((v + 1 : ℕ) : ℝ) := by
              rw [hv, Int.negSucc_eq]; push_cast; ring
            have hne : ((v + 1 : ℕ) : ℝ) ≠ 0 := by exact_mod_cast (Nat.succ_ne_zero v)
            rw [key xs hl hz (by rw [hv']; exact neg_ne_zero.2 hne), hv']; simp only [val]; push_cast at hne ⊢; field_simp; ring }
    · simp at h
  · simp at h

end

/-- The normal form has the value of the formula. -/
theorem norm_rep (dl : ℝ → ℝ) (n m : ℕ) : ∀ (e : E) (p : LP), norm n m (bias n) e = some p →
    Rep m n p (fun xs => eval dl (fun i => xs.getD i 0) e)
  | .lit q, p, h => by
    simp only [norm, Option.some.injEq] at h
    subst h
    refine { den := q.den_pos, deg := by norm_num, good := ?_, value := ?_ }
    · show ∀ t ∈ (match isz q.num with | true => [] | false => [(bias n, q.num)] : List (ℕ × ℤ)), Good 0 m n t.1
      split
      · simp
      · simpa using good_bias 0 m n
    · intro xs hl hz
      subst hl
      show (q : ℝ) = val xs (match isz q.num with | true => [] | false => [(bias xs.length, q.num)] : List (ℕ × ℤ)) / q.den
      split
      · rename_i hq
        have : q = 0 := by rw [← Rat.num_eq_zero]; exact isz_iff.1 hq
        rw [this]; simp [val]
      · simp only [val, mon_bias, mul_one, add_zero]
        exact Rat.cast_def q
  | .var i, p, h => by
    simp only [norm] at h
    split at h
    · rename_i hi
      have hi' : i < n := by simpa [Nat.blt] using hi
      simp only [Option.some.injEq] at h
      subst h
      refine { den := Nat.one_pos, deg := by norm_num, good := ?_, value := ?_ }
      · simpa using good_var i m n hi'
      · intro xs hl hz
        subst hl
        show xs.getD i 0 = _
        simp only [val]
        rw [mon_var i xs hi']; simp
    · simp at h
  | .add a b, p, h => by
    simp only [norm] at h
    split at h
    · rename_i x y hx hy
      simp only [Option.some.injEq] at h
      subst h
      exact (norm_rep dl n m a x hx).add (norm_rep dl n m b y hy)
    · simp at h
  | .sub a b, p, h => by
    simp only [norm] at h
    split at h
    · rename_i x y hx hy
      simp only [Option.some.injEq] at h
      subst h
      exact (norm_rep dl n m a x hx).add (norm_rep dl n m b y hy).neg
    · simp at h
  | .mul a b, p, h => by
    simp only [norm] at h
    split at h
    · rename_i x y hx hy
      exact (norm_rep dl n m a x hx).mul (norm_rep dl n m b y hy) h
    · simp at h
  | .div a b, p, h => by
    simp only [norm] at h
    split at h
    · rename_i x y hx hy
      split at h
      · rename_i r hr
        exact (norm_rep dl n m a x hx).mul ((norm_rep dl n m b y hy).inv hr) h
      · simp at h
    · simp at h
  | .neg a, p, h => by
    simp only [norm] at h
    split at h
    · rename_i x hx
      simp only [Option.some.injEq] at h
      subst h
      exact (norm_rep dl n m a x hx).neg
    · simp at h
  | .cst c, p, h => by simp [norm] at h
  | .log a, p, h => by simp [norm] at h
  | .dilog a, p, h => by simp [norm] at h
  | .bad, p, h => by simp [norm] at h

end Himalaya.Laur
