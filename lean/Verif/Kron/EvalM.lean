import Verif.Kron.Core
import Mathlib.Data.ZMod.Basic

/-!
# Showing that a linear combination of values of formulas at rational points is not zero

The value of a formula at a rational point is a quotient of two integers.  `evM` computes numerator and denominator modulo a
fixed number; if both are not zero modulo this number, the value is not zero.
-/

namespace Himalaya.Kron

/-- the modulus (no property of it is used) -/
def modP : ℕ := 2305843009213693951

/-- evaluates the number before the continuation -/
def force {α : Type} (n : ℕ) (k : ℕ → α) : α := Nat.rec (k 0) (fun m _ => k (m + 1)) n

theorem force_eq {α : Type} (n : ℕ) (k : ℕ → α) : force n k = k n := by cases n <;> rfl

/-- numerator and denominator of a rational number modulo `modP` -/
def ratM (q : ℚ) : ℕ × ℕ :=
  match q with
  | ⟨.ofNat n, d, _, _⟩ => (n % modP, d % modP)
  | ⟨.negSucc n, d, _, _⟩ => ((modP - 1) * (n + 1) % modP, d % modP)

def addM (x y : ℕ × ℕ) : ℕ × ℕ := force ((x.1 * y.2 + y.1 * x.2) % modP) fun n => force (x.2 * y.2 % modP) fun d => (n, d)
def subM (x y : ℕ × ℕ) : ℕ × ℕ :=
  force ((x.1 * y.2 + (modP - 1) * (y.1 * x.2)) % modP) fun n => force (x.2 * y.2 % modP) fun d => (n, d)
def mulM (x y : ℕ × ℕ) : ℕ × ℕ := force (x.1 * y.1 % modP) fun n => force (x.2 * y.2 % modP) fun d => (n, d)
def divM (x y : ℕ × ℕ) : ℕ × ℕ :=
  force (x.1 * (y.2 * y.2) % modP) fun n => force (x.2 * (y.1 * y.2) % modP) fun d => (n, d)
def negM (x : ℕ × ℕ) : ℕ × ℕ := force ((modP - 1) * x.1 % modP) fun n => (n, x.2)

/-- numerator and denominator of the value modulo `modP`; the denominator is zero if there is no value -/
def evM (xs : List ℚ) : E → ℕ × ℕ
  | .lit q => ratM q
  | .var i => ratM (xs.getD i 0)
  | .cst _ => (0, 0)
  | .add a b => addM (evM xs a) (evM xs b)
  | .sub a b => subM (evM xs a) (evM xs b)
  | .mul a b => mulM (evM xs a) (evM xs b)
  | .div a b => divM (evM xs a) (evM xs b)
  | .neg a => negM (evM xs a)
  | .log _ => (0, 0)
  | .dilog _ => (0, 0)
  | .bad => (0, 0)

/-- the linear combination of the values, modulo `modP` -/
def sumM : List (ℚ × List ℚ × E) → ℕ × ℕ
  | [] => (0, 1)
  | (c, xs, e) :: l => addM (mulM (ratM c) (evM xs e)) (sumM l)

/-- the linear combination is not zero -/
def nonzero (l : List (ℚ × List ℚ × E)) : Bool := match sumM l with
  | (n, d) => n != 0 && d != 0

/-- `x` is a quotient of integers with the residues `r`, if its denominator is not zero -/
def Is (x : ℝ) (r : ℕ × ℕ) : Prop :=
  ∃ N D : ℤ, (N : ZMod modP) = (r.1 : ZMod modP) ∧ (D : ZMod modP) = (r.2 : ZMod modP) ∧ (D ≠ 0 → x = (N : ℝ) / (D : ℝ))

theorem modP_neg : ((modP - 1 : ℕ) : ZMod modP) = -1 := by
  rw [Nat.cast_sub (by decide)]; simp

theorem is_rat (q : ℚ) : Is (q : ℝ) (ratM q) := by
  refine ⟨q.num, q.den, ?_, ?_, fun _ => by rw [Rat.cast_def]; simp⟩
  · rcases q with ⟨n | n, d, _, _⟩
    · simp [ratM]
    · simp only [ratM]
      rw [ZMod.natCast_mod, Nat.cast_mul, modP_neg]
      simp [Int.negSucc_eq]
  · rcases q with ⟨n | n, d, _, _⟩ <;> simp [ratM]

theorem is_none (x : ℝ) : Is x (0, 0) := ⟨0, 0, by simp, by simp, fun h => absurd rfl h⟩

theorem is_add {x y : ℝ} {r s : ℕ × ℕ} (hx : Is x r) (hy : Is y s) : Is (x + y) (addM r s) := by
  obtain ⟨N, D, h1, h2, h3⟩ := hx
  obtain ⟨N', D', h1', h2', h3'⟩ := hy
  refine ⟨N * D' + N' * D, D * D', ?_, ?_, fun h => ?_⟩
  · simp [addM, force_eq, h1, h2, h1', h2']
  · simp [addM, force_eq, h2, h2']
  · have hD : D ≠ 0 := left_ne_zero_of_mul h
    have hD' : D' ≠ 0 := right_ne_zero_of_mul h
    have e : (D : ℝ) ≠ 0 := Int.cast_ne_zero.2 hD
    have e' : (D' : ℝ) ≠ 0 := Int.cast_ne_zero.2 hD'
    rw [h3 hD, h3' hD']; push_cast; field_simp

theorem is_mul {x y : ℝ} {r s : ℕ × ℕ} (hx : Is x r) (hy : Is y s) : Is (x * y) (mulM r s) := by
  obtain ⟨N, D, h1, h2, h3⟩ := hx
  obtain ⟨N', D', h1', h2', h3'⟩ := hy
  refine ⟨N * N', D * D', ?_, ?_, fun h => ?_⟩
  · simp [mulM, force_eq, h1, h1']
  · simp [mulM, force_eq, h2, h2']
  · rw [h3 (left_ne_zero_of_mul h), h3' (right_ne_zero_of_mul h)]; push_cast; rw [div_mul_div_comm]

theorem is_neg {x : ℝ} {r : ℕ × ℕ} (hx : Is x r) : Is (-x) (negM r) := by
  obtain ⟨N, D, h1, h2, h3⟩ := hx
  refine ⟨-N, D, ?_, ?_, fun h => ?_⟩
  · simp only [negM, force_eq, ZMod.natCast_mod, Nat.cast_mul, modP_neg, Int.cast_neg, h1]; ring
  · simp [negM, force_eq, h2]
  · rw [h3 h]; push_cast; rw [neg_div]

theorem is_sub {x y : ℝ} {r s : ℕ × ℕ} (hx : Is x r) (hy : Is y s) : Is (x - y) (subM r s) := by
  obtain ⟨N, D, h1, h2, h3⟩ := hx
  obtain ⟨N', D', h1', h2', h3'⟩ := hy
  refine ⟨N * D' - N' * D, D * D', ?_, ?_, fun h => ?_⟩
  · simp only [subM, force_eq, ZMod.natCast_mod, Nat.cast_mul, Nat.cast_add, modP_neg, Int.cast_sub, Int.cast_mul, h1, h2, h1', h2']; ring
  · simp [subM, force_eq, h2, h2']
  · have hD : D ≠ 0 := left_ne_zero_of_mul h
    have hD' : D' ≠ 0 := right_ne_zero_of_mul h
    have e : (D : ℝ) ≠ 0 := Int.cast_ne_zero.2 hD
    have e' : (D' : ℝ) ≠ 0 := Int.cast_ne_zero.2 hD'
    rw [h3 hD, h3' hD']; push_cast; field_simp

theorem is_div {x y : ℝ} {r s : ℕ × ℕ} (hx : Is x r) (hy : Is y s) : Is (x / y) (divM r s) := by
  obtain ⟨N, D, h1, h2, h3⟩ := hx
  obtain ⟨N', D', h1', h2', h3'⟩ := hy
  refine ⟨N * (D' * D'), D * (N' * D'), ?_, ?_, fun h => ?_⟩
  · simp [divM, force_eq, h1, h2']
  · simp [divM, force_eq, h2, h1', h2']
  · have hD' : D' ≠ 0 := right_ne_zero_of_mul (right_ne_zero_of_mul h)
    have e' : (D' : ℝ) ≠ 0 := Int.cast_ne_zero.2 hD'
    rw [h3 (left_ne_zero_of_mul h), h3' hD', div_div_div_eq]; push_cast
    rw [← mul_assoc, ← mul_assoc, mul_div_mul_right _ _ e']

theorem is_eval (dl : ℝ → ℝ) (xs : List ℚ) : ∀ e : E,
    Is (eval dl (fun i => ((xs.map ((↑) : ℚ → ℝ)).getD i 0)) e) (evM xs e)
  | .lit q => is_rat q
  | .var i => by
    have h : eval dl (fun i => ((xs.map ((↑) : ℚ → ℝ)).getD i 0)) (.var i) = ((xs.getD i 0 : ℚ) : ℝ) := by
      simp only [eval, List.getD_eq_getElem?_getD, List.getElem?_map]
      cases xs[i]? <;> simp
    rw [h]; exact is_rat _
  | .cst _ => is_none _
  | .add a b => is_add (is_eval dl xs a) (is_eval dl xs b)
  | .sub a b => is_sub (is_eval dl xs a) (is_eval dl xs b)
  | .mul a b => is_mul (is_eval dl xs a) (is_eval dl xs b)
  | .div a b => is_div (is_eval dl xs a) (is_eval dl xs b)
  | .neg a => is_neg (is_eval dl xs a)
  | .log _ => is_none _
  | .dilog _ => is_none _
  | .bad => is_none _

/-- the linear combination of the values -/
noncomputable def sumR (dl : ℝ → ℝ) : List (ℚ × List ℚ × E) → ℝ
  | [] => 0
  | (c, xs, e) :: l => (c : ℝ) * eval dl (fun i => ((xs.map ((↑) : ℚ → ℝ)).getD i 0)) e + sumR dl l

theorem is_sum (dl : ℝ → ℝ) : ∀ l, Is (sumR dl l) (sumM l)
  | [] => ⟨0, 1, by simp [sumM], by simp [sumM], fun _ => by simp [sumR]⟩
  | (c, xs, e) :: l => is_add (is_mul (is_rat c) (is_eval dl xs e)) (is_sum dl l)

theorem nonzero_sound (dl : ℝ → ℝ) {l : List (ℚ × List ℚ × E)} (h : nonzero l = true) : sumR dl l ≠ 0 := by
  obtain ⟨N, D, h1, h2, h3⟩ := is_sum dl l
  have hn : (sumM l).1 < modP ∧ (sumM l).2 < modP := by
    cases l with
    | nil => simp [sumM, modP]
    | cons a l => exact ⟨by simp only [sumM, addM, force_eq]; exact Nat.mod_lt _ (by decide), by simp only [sumM, addM, force_eq]; exact Nat.mod_lt _ (by decide)⟩
  have h' : (sumM l).1 ≠ 0 ∧ (sumM l).2 ≠ 0 := by
    simpa [nonzero] using h
  have key : ∀ {Z : ℤ} {n : ℕ}, (Z : ZMod modP) = (n : ZMod modP) → n < modP → n ≠ 0 → Z ≠ 0 := by
    intro Z n e hl hz e0
    subst e0
    rw [Int.cast_zero, eq_comm, ZMod.natCast_eq_zero_iff] at e
    exact hz (Nat.eq_zero_of_dvd_of_lt e hl)
  have hN := key h1 hn.1 h'.1
  have hD := key h2 hn.2 h'.2
  rw [h3 hD]
  exact div_ne_zero (Int.cast_ne_zero.2 hN) (Int.cast_ne_zero.2 hD)

end Himalaya.Kron
