import Mathlib.Data.Real.Basic
import Mathlib.Tactic.Ring
import Mathlib.Tactic.Linarith
import Mathlib.Tactic.Positivity

/-!
# Sign of an integer polynomial on an interval

A small verified checker used to bound the error of rational approximations uniformly.  `cert fuel m K p = true` is evaluated
by the kernel on integers; `cert_sound` shows that it implies `0 ≤ p(y)` for *every* real `y` with `|K y - m| ≤ 1`.
-/

namespace Himalaya.Poly

/-- value at `y` of the polynomial with coefficients `l`, lowest order first -/
noncomputable def eval (l : List ℤ) (y : ℝ) : ℝ := l.foldr (fun a r => (a : ℝ) + y * r) 0

@[simp] theorem eval_nil (y : ℝ) : eval [] y = 0 := rfl
@[simp] theorem eval_cons (a : ℤ) (l : List ℤ) (y : ℝ) : eval (a :: l) y = a + y * eval l y := rfl

def add : List ℤ → List ℤ → List ℤ
  | [], l => l
  | a :: l, [] => a :: l
  | a :: l, b :: m => (a + b) :: add l m

def smul (c : ℤ) : List ℤ → List ℤ
  | [] => []
  | a :: l => (c * a) :: smul c l

def mul : List ℤ → List ℤ → List ℤ
  | [], _ => []
  | a :: l, m => add (smul a m) (0 :: mul l m)

theorem eval_add (l m : List ℤ) (y : ℝ) : eval (add l m) y = eval l y + eval m y := by
  induction l generalizing m with
  | nil => simp [add]
  | cons a l ih =>
    cases m with
    | nil => simp [add]
    | cons b m => simp [add, ih]; ring

theorem eval_smul (c : ℤ) (l : List ℤ) (y : ℝ) : eval (smul c l) y = c * eval l y := by
  induction l with
  | nil => simp [smul]
  | cons a l ih => simp [smul, ih]; ring

theorem eval_mul (l m : List ℤ) (y : ℝ) : eval (mul l m) y = eval l y * eval m y := by
  induction l with
  | nil => simp [mul]
  | cons a l ih => simp [mul, eval_add, eval_smul, ih]; ring

/-- `(m + u) * l(u)` as a polynomial in `u` -/
def mulLin (m : ℤ) (l : List ℤ) : List ℤ := add (smul m l) (0 :: l)

/-- coefficients in `u` of `K^n p((m+u)/K)` together with `K^n`, `n` the length of the list -/
def recentre (m K : ℤ) : List ℤ → List ℤ × ℤ
  | [] => ([], 1)
  | a :: l =>
    let r := recentre m K l
    let k := r.2 * K
    (add [a * k] (mulLin m r.1), k)

theorem recentre_pos {m K : ℤ} (hK : 0 < K) (l : List ℤ) : 0 < (recentre m K l).2 := by
  induction l with
  | nil => simp [recentre]
  | cons a l ih => simp only [recentre]; positivity

theorem recentre_eval {m K : ℤ} (hK : 0 < K) (l : List ℤ) (y u : ℝ) (h : (K : ℝ) * y = m + u) :
    ((recentre m K l).2 : ℝ) * eval l y = eval (recentre m K l).1 u := by
  induction l with
  | nil => simp [recentre]
  | cons a l ih =>
    simp only [recentre, eval_add, eval_cons, eval_nil, mulLin, eval_smul, Int.cast_mul, Int.cast_zero]
    rw [← ih]
    have : (K : ℝ) * y - u = m := by linarith
    rw [← this]
    ring

/-- sum of absolute values of the coefficients -/
def absSum : List ℤ → ℤ
  | [] => 0
  | a :: l => |a| + absSum l

theorem abs_eval_le (l : List ℤ) {u : ℝ} (hu : |u| ≤ 1) : |eval l u| ≤ absSum l := by
  induction l with
  | nil => simp [absSum]
  | cons a l ih =>
    simp only [eval_cons, absSum, Int.cast_add, Int.cast_abs]
    calc |(a : ℝ) + u * eval l u| ≤ |(a : ℝ)| + |u * eval l u| := abs_add_le _ _
      _ ≤ |(a : ℝ)| + absSum l := by
        rw [abs_mul]
        have := mul_le_mul hu ih (abs_nonneg _) zero_le_one
        linarith


def absSum' : List ℤ → ℤ
  | [] => 0
  | a :: l => (a.natAbs : ℤ) + absSum' l

theorem absSum'_eq (l : List ℤ) : absSum' l = absSum l := by
  induction l with
  | nil => rfl
  | cons a l ih => simp [absSum, absSum', ih]

/-- lower bound `c₀ - Σ_{k≥1} |c_k| ≥ 0` of the recentred polynomial -/
def lowOK : List ℤ → Bool
  | [] => true
  | a :: l => decide (absSum' l ≤ a)

theorem lowOK_sound {l : List ℤ} (h : lowOK l = true) {u : ℝ} (hu : |u| ≤ 1) : 0 ≤ eval l u := by
  cases l with
  | nil => simp
  | cons a l =>
    simp only [lowOK, decide_eq_true_eq, absSum'_eq] at h
    have h1 := abs_eval_le l hu
    have h2 : (absSum l : ℝ) ≤ a := by exact_mod_cast h
    have h3 : |u * eval l u| ≤ absSum l := by
      rw [abs_mul]
      calc _ ≤ 1 * (absSum l : ℝ) := mul_le_mul hu h1 (abs_nonneg _) zero_le_one
        _ = _ := one_mul _
    have := (abs_le.1 h3).1
    simp only [eval_cons]
    linarith

/-- bisecting certificate for `p ≥ 0` on `[(m-1)/K, (m+1)/K]` -/
def cert : ℕ → ℤ → ℤ → List ℤ → Bool
  | 0, m, K, p => lowOK (recentre m K p).1
  | f + 1, m, K, p => lowOK (recentre m K p).1 ||
      (cert f (2 * m - 1) (2 * K) p && cert f (2 * m + 1) (2 * K) p)

theorem cert_sound (fuel : ℕ) (m K : ℤ) (p : List ℤ) (hK : 0 < K) (h : cert fuel m K p = true) :
    ∀ y : ℝ, |(K : ℝ) * y - m| ≤ 1 → 0 ≤ eval p y := by
  have base : ∀ m K : ℤ, 0 < K → lowOK (recentre m K p).1 = true →
      ∀ y : ℝ, |(K : ℝ) * y - m| ≤ 1 → 0 ≤ eval p y := by
    intro m K hK h y hy
    have h1 := lowOK_sound h hy
    rw [← recentre_eval hK p y _ (by ring)] at h1
    have : (0 : ℝ) < (recentre m K p).2 := by exact_mod_cast recentre_pos hK p
    exact nonneg_of_mul_nonneg_right h1 this
  induction fuel generalizing m K with
  | zero => exact base m K hK h
  | succ f ih =>
    simp only [cert, Bool.or_eq_true, Bool.and_eq_true] at h
    rcases h with h | ⟨h1, h2⟩
    · exact base m K hK h
    · intro y hy
      have hy' := abs_le.1 hy
      rcases le_total ((K : ℝ) * y) m with hle | hle
      · refine ih (2 * m - 1) (2 * K) (by linarith) h1 y ?_
        push_cast
        rw [abs_le]
        constructor <;> linarith
      · refine ih (2 * m + 1) (2 * K) (by linarith) h2 y ?_
        push_cast
        rw [abs_le]
        constructor <;> linarith

end Himalaya.Poly
