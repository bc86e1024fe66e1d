import Verif.TLF.Two2

/-!
# C32: `f5 … f8`, integral representations and the expansion of the denominator
-/

set_option linter.unusedSimpArgs false
set_option linter.unusedVariables false
set_option linter.unusedSectionVars false

namespace Himalaya.TLF
open Real

theorem J_close {f T : ℝ → ℝ} {C : ℝ} (hf : C0 f) (hT : C0 T) (h : ∀ t ∈ Set.Icc (0:ℝ) 1, |f t - T t| ≤ C) : |J f - J T| ≤ C := by
  rw [← J_sub hf hT]; exact J_bound h

/-! ### a little interval arithmetic -/
theorem ab_add {a b A B : ℝ} (h : |a| ≤ A) (k : |b| ≤ B) : |a + b| ≤ A + B := (abs_add_le _ _).trans (add_le_add h k)
theorem ab_sub {a b A B : ℝ} (h : |a| ≤ A) (k : |b| ≤ B) : |a - b| ≤ A + B := (abs_sub _ _).trans (add_le_add h k)
theorem ab_mul {a b A B : ℝ} (h : |a| ≤ A) (k : |b| ≤ B) : |a * b| ≤ A * B := by
  rw [abs_mul]; exact mul_le_mul h k (abs_nonneg _) ((abs_nonneg _).trans h)
theorem ab_neg {a A : ℝ} (h : |a| ≤ A) : |-a| ≤ A := by rwa [abs_neg]
theorem ab_pow {a A : ℝ} (h : |a| ≤ A) (n : ℕ) : |a ^ n| ≤ A ^ n := by rw [abs_pow]; exact pow_le_pow_left₀ (abs_nonneg _) h n
theorem ab_div {a A : ℝ} (h : |a| ≤ A) (n : ℕ) [n.AtLeastTwo] : |a / (OfNat.ofNat n : ℝ)| ≤ A / (OfNat.ofNat n : ℝ) := by
  have : (0:ℝ) < OfNat.ofNat n := Nat.ofNat_pos
  rw [abs_div, abs_of_pos this]; exact div_le_div_of_nonneg_right h this.le
theorem ab_zero : |(0:ℝ)| ≤ 0 := by norm_num
theorem ab_one : |(1:ℝ)| ≤ 1 := by norm_num
theorem ab_num (n : ℕ) [n.AtLeastTwo] : |(OfNat.ofNat n : ℝ)| ≤ OfNat.ofNat n := by
  rw [abs_of_nonneg (Nat.ofNat_nonneg n)]

/-- bound an expression from bounds of its atoms -/
macro "bnd" : tactic => `(tactic| (repeat' (first | exact ab_zero | exact ab_one | assumption | exact ab_num _ | apply ab_pow | apply ab_neg | apply ab_div | apply ab_add | apply ab_sub | apply ab_mul)))

/-! ### expansion of `1/(1+w(2e+e²))` -/

def k3 (w : ℝ) : ℝ := 4 * w ^ 2 - 8 * w ^ 3
def k4 (w : ℝ) : ℝ := w ^ 2 - 12 * w ^ 3 + 16 * w ^ 4
def Pe (w e : ℝ) : ℝ := 1 - 2 * w * e + (4 * w ^ 2 - w) * e ^ 2 + k3 w * e ^ 3 + k4 w * e ^ 4
noncomputable def rho (w e : ℝ) : ℝ := -(2 * k4 w + k3 w + e * k4 w) / (1 + w * (2 * e + e ^ 2))

section
variable {w e : ℝ} (hw : w ∈ Set.Icc (0:ℝ) 1)
include hw

theorem k3_le : |k3 w| ≤ 4 := by
  unfold k3
  have h : 4 * w ^ 2 - 8 * w ^ 3 = w ^ 2 * (4 - 8 * w) := by ring
  rw [h, abs_mul, abs_of_nonneg (sq_nonneg w)]
  have h1 : w ^ 2 ≤ 1 := pow_le_one₀ hw.1 hw.2
  have h2 : |4 - 8 * w| ≤ 4 := by rw [abs_le]; constructor <;> linarith [hw.1, hw.2]
  calc w ^ 2 * |4 - 8 * w| ≤ 1 * 4 := mul_le_mul h1 h2 (abs_nonneg _) (by norm_num)
    _ = 4 := by ring
theorem k4_le : |k4 w| ≤ 5 := by
  unfold k4
  have h : w ^ 2 - 12 * w ^ 3 + 16 * w ^ 4 = w ^ 2 * (1 - 12 * w + 16 * w ^ 2) := by ring
  rw [h, abs_mul, abs_of_nonneg (sq_nonneg w)]
  have h1 : w ^ 2 ≤ 1 := pow_le_one₀ hw.1 hw.2
  have h2 : |1 - 12 * w + 16 * w ^ 2| ≤ 5 := by rw [abs_le]; constructor <;> nlinarith [hw.1, hw.2]
  calc w ^ 2 * |1 - 12 * w + 16 * w ^ 2| ≤ 1 * 5 := mul_le_mul h1 h2 (abs_nonneg _) (by norm_num)
    _ = 5 := by ring
theorem k34_le : |2 * k4 w + k3 w| ≤ 6 := by
  unfold k4 k3
  have h : 2 * (w ^ 2 - 12 * w ^ 3 + 16 * w ^ 4) + (4 * w ^ 2 - 8 * w ^ 3) = w ^ 2 * (6 - 32 * w + 32 * w ^ 2) := by ring
  rw [h, abs_mul, abs_of_nonneg (sq_nonneg w)]
  have h1 : w ^ 2 ≤ 1 := pow_le_one₀ hw.1 hw.2
  have h2 : |6 - 32 * w + 32 * w ^ 2| ≤ 6 := by rw [abs_le]; constructor <;> nlinarith [hw.1, hw.2, mul_nonneg hw.1 (sub_nonneg.2 hw.2), sq_nonneg (2 * w - 1)]
  calc w ^ 2 * |6 - 32 * w + 32 * w ^ 2| ≤ 1 * 6 := mul_le_mul h1 h2 (abs_nonneg _) (by norm_num)
    _ = 6 := by ring

theorem den_ge (he : |e| ≤ 1 / 49) : 23 / 24 ≤ 1 + w * (2 * e + e ^ 2) := by
  have h1 : |w * (2 * e + e ^ 2)| ≤ 1 * (2 * (1 / 49) + (1 / 49) ^ 2) := by
    have : |w| ≤ 1 := by rw [abs_of_nonneg hw.1]; exact hw.2
    bnd
  have := (abs_le.1 h1).1
  norm_num at this
  linarith

theorem Pe_spec (he : |e| ≤ 1 / 49) : 1 / (1 + w * (2 * e + e ^ 2)) = Pe w e + w * e ^ 5 * rho w e := by
  have := (show (0:ℝ) < 23 / 24 by norm_num).trans_le (den_ge hw he)
  unfold Pe rho k3 k4
  generalize hA : 1 + w * (2 * e + e ^ 2) = A at *
  have := this.ne'
  field_simp
  rw [← hA]
  ring

theorem rho_le (he : |e| ≤ 1 / 49) : |rho w e| ≤ 7 := by
  have h := den_ge hw he
  have h1 := k34_le hw
  have h2 := k4_le hw
  unfold rho
  rw [abs_div, abs_of_pos (show 0 < 1 + w * (2 * e + e ^ 2) by linarith), div_le_iff₀ (by linarith)]
  have : |-(2 * k4 w + k3 w + e * k4 w)| ≤ 6 + 1 / 49 * 5 := by
    refine ab_neg (ab_add h1 ?_); bnd
  norm_num at this ⊢
  linarith
end

/-! ### integral representations -/

/-- `∫ (1-t)/(1-t+tq) = (q log q - q + 1)/(q-1)²` turns the loop functions into divided differences -/
theorem f6_int {r s : ℝ} (hr : r ≠ 0) (hs : s ≠ 0) (hr1 : r ^ 2 ≠ 1) (hs1 : s ^ 2 ≠ 1) (hrs : r ≠ s) :
    Spec.f6 r s = 6 / 7 * J (fun t => (1 - t) * ((1 - t) * (r ^ 2 + r * s + s ^ 2) + t * r ^ 2 * s ^ 2) / (D (r ^ 2) t * D (s ^ 2) t)) := by
  have hp : 0 < r ^ 2 := by positivity
  have hq : 0 < s ^ 2 := by positivity
  have h0 : r - s ≠ 0 := sub_ne_zero.2 hrs
  have e : J (fun t => (1 - t) * ((1 - t) * (r ^ 2 + r * s + s ^ 2) + t * r ^ 2 * s ^ 2) / (D (r ^ 2) t * D (s ^ 2) t)) =
      r ^ 3 / (r - s) * M (r ^ 2) 0 - s ^ 3 / (r - s) * M (s ^ 2) 0 := by
    unfold M
    rw [← J_smul, ← J_smul, ← J_sub (by c0) (by c0)]
    apply J_congr
    intro t ht
    have h1 := D_ne hp ht
    have h2 := D_ne hq ht
    simp only [pow_zero, mul_one]
    field_simp
    unfold D; ring
  rw [e, M_zero hp hr1, M_zero hq hs1]
  unfold Spec.f6
  generalize log (r ^ 2) = L
  generalize log (s ^ 2) = L'
  have := sub_ne_zero.2 hr1
  have := sub_ne_zero.2 hs1
  field_simp
  ring

theorem f7_int {r s : ℝ} (hr : r ≠ 0) (hs : s ≠ 0) (hr1 : r ^ 2 ≠ 1) (hs1 : s ^ 2 ≠ 1) (hrs : r ≠ s) :
    Spec.f7 r s = 6 * J (fun t => (1 - t) * ((1 - t) - t * r * s) / (D (r ^ 2) t * D (s ^ 2) t)) := by
  have hp : 0 < r ^ 2 := by positivity
  have hq : 0 < s ^ 2 := by positivity
  have h0 : r - s ≠ 0 := sub_ne_zero.2 hrs
  have e : J (fun t => (1 - t) * ((1 - t) - t * r * s) / (D (r ^ 2) t * D (s ^ 2) t)) =
      r / (r - s) * M (r ^ 2) 0 - s / (r - s) * M (s ^ 2) 0 := by
    unfold M
    rw [← J_smul, ← J_smul, ← J_sub (by c0) (by c0)]
    apply J_congr
    intro t ht
    have h1 := D_ne hp ht
    have h2 := D_ne hq ht
    simp only [pow_zero, mul_one]
    field_simp
    unfold D; ring
  rw [e, M_zero hp hr1, M_zero hq hs1]
  unfold Spec.f7
  generalize log (r ^ 2) = L
  generalize log (s ^ 2) = L'
  have := sub_ne_zero.2 hr1
  have := sub_ne_zero.2 hs1
  field_simp
  ring

theorem f8_int {r s : ℝ} (hr : r ≠ 0) (hs : s ≠ 0) (hr1 : r ^ 2 ≠ 1) (hs1 : s ^ 2 ≠ 1) (hrs : r ≠ s) :
    Spec.f8 r s = 3 / 2 * J (fun t => (1 - t) * ((1 - t) * (r + s)) / (D (r ^ 2) t * D (s ^ 2) t)) := by
  have hp : 0 < r ^ 2 := by positivity
  have hq : 0 < s ^ 2 := by positivity
  have h0 : r - s ≠ 0 := sub_ne_zero.2 hrs
  have e : J (fun t => (1 - t) * ((1 - t) * (r + s)) / (D (r ^ 2) t * D (s ^ 2) t)) =
      r ^ 2 / (r - s) * M (r ^ 2) 0 - s ^ 2 / (r - s) * M (s ^ 2) 0 := by
    unfold M
    rw [← J_smul, ← J_smul, ← J_sub (by c0) (by c0)]
    apply J_congr
    intro t ht
    have h1 := D_ne hp ht
    have h2 := D_ne hq ht
    simp only [pow_zero, mul_one]
    field_simp
    unfold D; ring
  rw [e, M_zero hp hr1, M_zero hq hs1]
  unfold Spec.f8
  generalize log (r ^ 2) = L
  generalize log (s ^ 2) = L'
  have := sub_ne_zero.2 hr1
  have := sub_ne_zero.2 hs1
  field_simp
  ring

theorem f5_eq {r s : ℝ} (hr1 : r ^ 2 ≠ 1) (hs1 : s ^ 2 ≠ 1) (hrs : r ≠ s) : Spec.f5 r s = 7 / 8 * Spec.f6 r s + 1 / 8 * Spec.f7 r s := by
  have h0 : r - s ≠ 0 := sub_ne_zero.2 hrs
  unfold Spec.f5 Spec.f6 Spec.f7
  generalize log (r ^ 2) = L
  generalize log (s ^ 2) = L'
  have := sub_ne_zero.2 hr1
  have := sub_ne_zero.2 hs1
  field_simp
  ring

end Himalaya.TLF
