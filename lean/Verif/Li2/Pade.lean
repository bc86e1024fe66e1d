import Verif.Li2.Spec
import Verif.Li2.Model
import Verif.Base.PolyCheck
import Mathlib.Analysis.Real.Pi.Bounds

/-!
# Uniform error of the rational approximation

The kernel evaluates `Poly.cert` on three explicit integer polynomials; `Poly.cert_sound` turns this into inequalities for every
real `y` in `[0, 1/2]`.
-/

namespace Himalaya.Li2
open Real

/-- `10²³` times the numerator coefficients -/
def Pz : List ℤ := [99999999999999995020000, -268839268185654234300000, 264772226994731096920000, -115385596078874163550000, 20886077795020607837000, -1085977713415246308400]

/-- `10²³` times the denominator coefficients -/
def Qz : List ℤ := [100000000000000000000000, -293839268185656354850000, 327120932930186353890000, -170767021739542894210000, 41596017228400603836000, -3980134375408448295600, 82743668974466659035]

/-- least common multiple of `1, ..., 54`, squared -/
def Lz : ℤ := 164249358725037825439200 ^ 2

/-- `Lz` times the first 54 coefficients `1/(i+1)²` -/
def Sz : List ℤ := (List.range 54).map fun (i : ℕ) => Lz / ((i : ℤ) + 1) ^ 2

theorem eval_Pz (y : ℝ) : Poly.eval Pz y = 10 ^ 23 * dilogP y := by
  simp only [Pz, Poly.eval_cons, Poly.eval_nil, dilogP]
  push_cast
  ring

theorem eval_Qz (y : ℝ) : Poly.eval Qz y = 10 ^ 23 * dilogQ y := by
  simp only [Qz, Poly.eval_cons, Poly.eval_nil, dilogQ]
  push_cast
  ring

theorem eval_map_range (f : ℕ → ℤ) (n : ℕ) (y : ℝ) :
    Poly.eval ((List.range n).map f) y = ∑ i ∈ Finset.range n, (f i : ℝ) * y ^ i := by
  induction n generalizing f with
  | zero => simp
  | succ n ih =>
    rw [List.range_succ_eq_map, List.map_cons, List.map_map, Poly.eval_cons, ih, Finset.sum_range_succ', Finset.mul_sum]
    simp only [Function.comp, pow_zero, mul_one]
    rw [add_comm]
    congr 1
    apply Finset.sum_congr rfl
    intro i _
    rw [pow_succ]; ring

theorem dvd_Lz : ∀ i : ℕ, i < 54 → ((i : ℤ) + 1) ^ 2 ∣ Lz := by decide +kernel

theorem eval_Sz (y : ℝ) : Poly.eval Sz y = Lz * ∑ i ∈ Finset.range 54, y ^ i / ((i : ℝ) + 1) ^ 2 := by
  rw [Sz, eval_map_range, Finset.mul_sum]
  apply Finset.sum_congr rfl
  intro i hi
  obtain ⟨k, hk⟩ := dvd_Lz i (Finset.mem_range.1 hi)
  have hne : (((i : ℤ) + 1) ^ 2) ≠ 0 := by positivity
  rw [hk, Int.mul_ediv_cancel_left _ hne]
  push_cast
  have : ((i : ℝ) + 1) ≠ 0 := by positivity
  field_simp

/-- `10⁴¹ Lz (48·10⁻¹⁸ q + σ y (q s - p))` -/
def Ez (σ : ℤ) : List ℤ :=
  Poly.add (Poly.smul (48 * Lz) Qz) (0 :: Poly.smul (σ * 10 ^ 18) (Poly.add (Poly.mul Qz Sz) (Poly.smul (-Lz) Pz)))

theorem eval_Ez (σ : ℤ) (y : ℝ) : Poly.eval (Ez σ) y =
    10 ^ 41 * Lz * (48 / 10 ^ 18 * dilogQ y +
      σ * (y * (dilogQ y * (∑ i ∈ Finset.range 54, y ^ i / ((i : ℝ) + 1) ^ 2) - dilogP y))) := by
  simp only [Ez, Poly.eval_add, Poly.eval_smul, Poly.eval_cons, Poly.eval_mul, eval_Pz, eval_Qz, eval_Sz]
  push_cast
  ring

theorem cert_plus : Poly.cert 7 1 4 (Ez 1) = true := by decide +kernel
theorem cert_minus : Poly.cert 7 1 4 (Ez (-1)) = true := by decide +kernel
theorem cert_Q : Poly.cert 7 1 4 (Poly.add Qz [-10 ^ 22]) = true := by decide +kernel

theorem centre {y : ℝ} (h0 : 0 ≤ y) (h1 : y ≤ 1 / 2) : |((4 : ℤ) : ℝ) * y - ((1 : ℤ) : ℝ)| ≤ 1 := by
  push_cast; rw [abs_le]; constructor <;> linarith

/-- The denominator does not vanish on the reduced range. -/
theorem dilogQ_ge {y : ℝ} (h0 : 0 ≤ y) (h1 : y ≤ 1 / 2) : 1 / 10 ≤ dilogQ y := by
  have := Poly.cert_sound 7 1 4 _ (by norm_num) cert_Q y (centre h0 h1)
  rw [Poly.eval_add, eval_Qz] at this
  simp only [Poly.eval_cons, Poly.eval_nil] at this
  push_cast at this
  nlinarith

theorem Lz_pos : (0 : ℝ) < Lz := by
  have : (0 : ℤ) < Lz := by decide +kernel
  exact_mod_cast this

/-- **Error of the rational approximation on `[0, 1/2]`**, as documented in the source (5e-17). -/
theorem pade_error {y : ℝ} (h0 : 0 ≤ y) (h1 : y ≤ 1 / 2) :
    |y * dilogP y / dilogQ y - Li2 y| ≤ 5 / 10 ^ 17 := by
  have hq : 0 < dilogQ y := lt_of_lt_of_le (by norm_num) (dilogQ_ge h0 h1)
  set S := ∑ i ∈ Finset.range 54, y ^ i / ((i : ℝ) + 1) ^ 2 with hS
  have hpos : (0 : ℝ) < 10 ^ 41 * Lz := mul_pos (by norm_num) Lz_pos
  have e1 := Poly.cert_sound 7 1 4 _ (by norm_num) cert_plus y (centre h0 h1)
  have e2 := Poly.cert_sound 7 1 4 _ (by norm_num) cert_minus y (centre h0 h1)
  rw [eval_Ez, ← hS] at e1 e2
  replace e1 := nonneg_of_mul_nonneg_right e1 hpos
  replace e2 := nonneg_of_mul_nonneg_right e2 hpos
  push_cast at e1 e2
  have hA : |y * dilogP y / dilogQ y - y * S| ≤ 48 / 10 ^ 18 := by
    have : y * dilogP y / dilogQ y - y * S = (y * dilogP y - y * S * dilogQ y) / dilogQ y := by
      field_simp
    rw [this, abs_div, abs_of_pos hq, div_le_iff₀ hq, abs_le]
    constructor <;> nlinarith
  have hB := Li2_trunc h0 (lt_of_le_of_lt h1 (by norm_num)) 54
  have hS' : ∑ i ∈ Finset.range 54, y ^ (i + 1) / ((i : ℝ) + 1) ^ 2 = y * S := by
    rw [hS, Finset.mul_sum]
    apply Finset.sum_congr rfl
    intro i _
    rw [pow_succ]; ring
  rw [hS'] at hB
  have hC : y ^ (54 + 1) / (((54 : ℕ) + 1) * (1 - y)) ≤ 2 / 10 ^ 18 := by
    have hp : y ^ (54 + 1) ≤ (1 / 2) ^ (54 + 1) := pow_le_pow_left₀ h0 h1 _
    have hd : (55 : ℝ) / 2 ≤ ((54 : ℕ) + 1) * (1 - y) := by push_cast; linarith
    calc y ^ (54 + 1) / (((54 : ℕ) + 1) * (1 - y)) ≤ (1 / 2) ^ (54 + 1) / (55 / 2) :=
          div_le_div₀ (by positivity) hp (by norm_num) hd
      _ ≤ _ := by norm_num
  have := abs_sub_le (y * dilogP y / dilogQ y) (y * S) (Li2 y)
  rw [abs_sub_comm (y * S)] at this
  linarith

end Himalaya.Li2
