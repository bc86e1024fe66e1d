import Verif.TLF.Int
import Verif.TLF.One

/-!
# C32: `F8` and `F9`
-/

set_option linter.unusedSimpArgs false
set_option linter.unusedVariables false
set_option linter.unusedSectionVars false

namespace Himalaya.TLF
open Real

theorem J_lin5 {f0 f1 f2 f3 f4 r : ℝ → ℝ} (c0 c1 c2 c3 c4 : ℝ) (h0 : C0 f0) (h1 : C0 f1) (h2 : C0 f2) (h3 : C0 f3) (h4 : C0 f4) (hr : C0 r) :
    J (fun t => c0 * f0 t + c1 * f1 t + c2 * f2 t + c3 * f3 t + c4 * f4 t + r t) =
      c0 * J f0 + c1 * J f1 + c2 * J f2 + c3 * J f3 + c4 * J f4 + J r := by
  have k0 : C0 (fun t => c0 * f0 t) := continuousOn_const.mul h0
  have k1 : C0 (fun t => c1 * f1 t) := continuousOn_const.mul h1
  have k2 : C0 (fun t => c2 * f2 t) := continuousOn_const.mul h2
  have k3 : C0 (fun t => c3 * f3 t) := continuousOn_const.mul h3
  have k4 : C0 (fun t => c4 * f4 t) := continuousOn_const.mul h4
  have s1 : C0 (fun t => c0 * f0 t + c1 * f1 t) := k0.add k1
  have s2 : C0 (fun t => c0 * f0 t + c1 * f1 t + c2 * f2 t) := s1.add k2
  have s3 : C0 (fun t => c0 * f0 t + c1 * f1 t + c2 * f2 t + c3 * f3 t) := s2.add k3
  have s4 : C0 (fun t => c0 * f0 t + c1 * f1 t + c2 * f2 t + c3 * f3 t + c4 * f4 t) := s3.add k4
  rw [J_add s4 hr, J_add s3 k4, J_add s2 k3, J_add s1 k2, J_add k0 k1, J_smul, J_smul, J_smul, J_smul, J_smul]

/-- `F9` as a Feynman integral -/
theorem F9_int {x y : ℝ} (hx : x ≠ 0) (hy : y ≠ 0) (hx1 : x ^ 2 ≠ 1) (hy1 : y ^ 2 ≠ 1) (hxy : x ^ 2 ≠ y ^ 2) :
    Spec.F9 x y = J (fun t => 2 * (1 - t) / (D (x ^ 2) t * D (y ^ 2) t)) := by
  have hp : 0 < x ^ 2 := by positivity
  have hq : 0 < y ^ 2 := by positivity
  unfold Spec.F9
  generalize x ^ 2 = p at *
  generalize y ^ 2 = q at *
  have hpq : p - q ≠ 0 := sub_ne_zero.2 hxy
  have e : J (fun t => 2 * (1 - t) / (D p t * D q t)) = J (fun t => 2 * p / (p - q) * (1 / D p t) - 2 * q / (p - q) * (1 / D q t)) := by
    apply J_congr
    intro t ht
    have h1 := D_ne hp ht
    have h2 := D_ne hq ht
    field_simp
    unfold D; ring
  rw [e, J_sub (by c0) (by c0), J_smul, J_smul, I1_eq hp hx1, I1_eq hq hy1]
  have := sub_ne_zero.2 hx1
  have := sub_ne_zero.2 hy1
  field_simp

/-- `F8` in terms of `F9` -/
theorem F8_eq {x y : ℝ} (hx1 : x ^ 2 ≠ 1) (hy1 : y ^ 2 ≠ 1) (hxy : x ^ 2 ≠ y ^ 2) :
    Spec.F8 x y = -2 + 2 * x ^ 2 * (log (x ^ 2) / (x ^ 2 - 1)) + y ^ 2 * Spec.F9 x y := by
  unfold Spec.F8 Spec.F9
  rw [show x ^ 4 = (x ^ 2) ^ 2 by ring, show y ^ 4 = (y ^ 2) ^ 2 by ring]
  generalize log (x ^ 2) = L
  generalize log (y ^ 2) = L'
  generalize x ^ 2 = p at *
  generalize y ^ 2 = q at *
  have hpq : p - q ≠ 0 := sub_ne_zero.2 hxy
  have := sub_ne_zero.2 hx1
  have := sub_ne_zero.2 hy1
  field_simp
  ring

section near1
variable {d q : ℝ} (hd : |d| ≤ 1 / 49)
include hd

theorem one_add_pos {t : ℝ} (ht : t ∈ Set.Icc (0:ℝ) 1) : 48 / 49 ≤ 1 + t * d := by
  have h1 := abs_le.1 hd
  have : |t * d| ≤ 1 / 49 := by
    rw [abs_mul, abs_of_nonneg ht.1]
    calc t * |d| ≤ 1 * (1 / 49) := mul_le_mul ht.2 hd (abs_nonneg _) zero_le_one
      _ = _ := by ring
  have := (abs_le.1 this).1
  linarith

theorem p_pos : 0 < 1 + d := by have := (abs_le.1 hd).1; linarith

theorem D1_eq (t : ℝ) : D (1 + d) t = 1 + t * d := by unfold D; ring

theorem tpow_le {t : ℝ} (ht : t ∈ Set.Icc (0:ℝ) 1) (k : ℕ) : |(t * d) ^ k| ≤ |d| ^ k := by
  rw [abs_pow, abs_mul, abs_of_nonneg ht.1]
  refine pow_le_pow_left₀ (mul_nonneg ht.1 (abs_nonneg _)) ?_ k
  exact mul_le_of_le_one_left (abs_nonneg _) ht.2
end near1

theorem frac_le {q t : ℝ} (hq : 0 < q) (ht : t ∈ Set.Icc (0:ℝ) 1) : 0 ≤ (1 - t) / D q t ∧ (1 - t) / D q t ≤ 1 := by
  have hD := D_pos hq ht.1 ht.2
  have h1 : 0 ≤ 1 - t := by linarith [ht.2]
  refine ⟨div_nonneg h1 hD.le, (div_le_one hD).2 ?_⟩
  unfold D; have := mul_nonneg ht.1 hq.le; linarith

theorem tq_le {q t : ℝ} (hq : 0 < q) (ht : t ∈ Set.Icc (0:ℝ) 1) : 0 ≤ q * t / D q t ∧ q * t / D q t ≤ 1 := by
  have hD := D_pos hq ht.1 ht.2
  have h1 : 0 ≤ 1 - t := by linarith [ht.2]
  refine ⟨div_nonneg (mul_nonneg hq.le ht.1) hD.le, (div_le_one hD).2 ?_⟩
  unfold D; linarith

/-- remainder of the expansion of `F9` in the first argument around one -/
noncomputable def R1 (d q : ℝ) : ℝ := J (fun t => -2 * (t * d) ^ 5 * (1 - t) / (D (1 + d) t * D q t))

theorem R1_le {d q : ℝ} (hd : |d| ≤ 1 / 49) (hq : 0 < q) : |R1 d q| ≤ 49 / 24 * |d| ^ 5 := by
  apply J_bound
  intro t ht
  have h1 := one_add_pos hd ht
  have h2 := frac_le hq ht
  have h3 := tpow_le hd ht 5
  have : -2 * (t * d) ^ 5 * (1 - t) / (D (1 + d) t * D q t) = -2 * ((t * d) ^ 5 * ((1 - t) / D q t)) / (1 + t * d) := by
    rw [D1_eq hd]; have := D_ne hq ht; field_simp
  rw [this, abs_div, abs_mul, abs_mul, abs_of_nonneg h2.1, abs_of_pos (show 0 < 1 + t * d by linarith), div_le_iff₀ (by linarith),
    show |(-2:ℝ)| = 2 by norm_num]
  have h4 : |(t * d) ^ 5| * ((1 - t) / D q t) ≤ |d| ^ 5 * 1 := mul_le_mul h3 h2.2 h2.1 (by positivity)
  have h5 : 0 ≤ |d| ^ 5 := by positivity
  nlinarith

theorem qR1_le {d q : ℝ} (hd : |d| ≤ 1 / 49) (hq : 0 < q) : |q * R1 d q| ≤ 49 / 24 * |d| ^ 5 := by
  unfold R1
  rw [← J_smul]
  apply J_bound
  intro t ht
  have h1 := one_add_pos hd ht
  have h2 := tq_le hq ht
  have h3 := tpow_le hd ht 4
  have ht1 : 0 ≤ 1 - t := by linarith [ht.2]
  have : q * (-2 * (t * d) ^ 5 * (1 - t) / (D (1 + d) t * D q t)) = -2 * (d * ((1 - t) * ((t * d) ^ 4 * (q * t / D q t)))) / (1 + t * d) := by
    rw [D1_eq hd]; have := D_ne hq ht; field_simp
  rw [this, abs_div, abs_mul, abs_mul, abs_mul, abs_mul, abs_of_nonneg h2.1, abs_of_nonneg ht1, abs_of_pos (show 0 < 1 + t * d by linarith),
    div_le_iff₀ (by linarith), show |(-2:ℝ)| = 2 by norm_num]
  have h4 : |(t * d) ^ 4| * (q * t / D q t) ≤ |d| ^ 4 * 1 := mul_le_mul h3 h2.2 h2.1 (by positivity)
  have h6 : (1 - t) * (|(t * d) ^ 4| * (q * t / D q t)) ≤ 1 * (|d| ^ 4 * 1) :=
    mul_le_mul (by linarith [ht.1]) h4 (mul_nonneg (abs_nonneg _) h2.1) zero_le_one
  have h7 : |d| * ((1 - t) * (|(t * d) ^ 4| * (q * t / D q t))) ≤ |d| ^ 5 := by
    calc _ ≤ |d| * (1 * (|d| ^ 4 * 1)) := mul_le_mul_of_nonneg_left h6 (abs_nonneg _)
      _ = _ := by ring
  have h5 : 0 ≤ |d| ^ 5 := by positivity
  nlinarith

/-- the expansion of `F9` in the first argument around one -/
theorem F9_one {d q : ℝ} (hd : |d| ≤ 1 / 49) (hq : 0 < q) :
    J (fun t => 2 * (1 - t) / (D (1 + d) t * D q t)) =
      2 * M q 0 - 2 * d * M q 1 + 2 * d ^ 2 * M q 2 - 2 * d ^ 3 * M q 3 + 2 * d ^ 4 * M q 4 + R1 d q := by
  have hp := p_pos hd
  have e : J (fun t => 2 * (1 - t) / (D (1 + d) t * D q t)) =
      2 * M q 0 + (-2 * d) * M q 1 + (2 * d ^ 2) * M q 2 + (-2 * d ^ 3) * M q 3 + (2 * d ^ 4) * M q 4 + R1 d q := by
    unfold M R1
    refine Eq.trans ?_ (J_lin5 _ _ _ _ _ (by c0) (by c0) (by c0) (by c0) (by c0) (by c0))
    apply J_congr
    intro t ht
    have h1 := D_ne hp ht
    have h2 := D_ne hq ht
    rw [D1_eq hd] at h1 ⊢
    field_simp
    ring
  rw [e]; ring

theorem F9_1_x2_real {x y : ℝ} (h : ¬ |y| ≤ 1 / 100) : F9_1_x2 x y =
    (let d := x ^ 2 - 1; let q := y ^ 2; let l := log q
    2 * (1 + q * (-1 + l)) / (q - 1) ^ 2 + d * (1 + q * (2 * l - q)) / (q - 1) ^ 3 + d ^ 2 * (2 + q * (3 + 6 * l + q * (-6 + q))) / (3 * (q - 1) ^ 4) +
      d ^ 3 * (3 + q * (10 + 12 * l + q * (-18 + q * (6 - q)))) / (6 * (q - 1) ^ 5) +
      d ^ 4 * (12 + q * (65 + 60 * l + q * (-120 + q * (60 + q * (-20 + 3 * q))))) / (30 * (q - 1) ^ 6)) := by
  simp only [F9_1_x2, isZero_real, real_ofNat, real_lit, decide_eq_true_eq, sqr, real_log]
  push_cast
  simp only [nsq, ← pow_two]
  rw [if_neg h]
  ring_nf

theorem F9_one_code {x y : ℝ} (hy : y ≠ 0) (hy1 : y ^ 2 ≠ 1) (h : ¬ |y| ≤ 1 / 100) :
    let d := x ^ 2 - 1
    let q := y ^ 2
    F9_1_x2 x y = 2 * M q 0 - 2 * d * M q 1 + 2 * d ^ 2 * M q 2 - 2 * d ^ 3 * M q 3 + 2 * d ^ 4 * M q 4 := by
  intro d q
  have hq : 0 < y ^ 2 := by positivity
  rw [F9_1_x2_real h]
  show _ = 2 * M (y ^ 2) 0 - 2 * (x ^ 2 - 1) * M (y ^ 2) 1 + 2 * (x ^ 2 - 1) ^ 2 * M (y ^ 2) 2 - 2 * (x ^ 2 - 1) ^ 3 * M (y ^ 2) 3 +
    2 * (x ^ 2 - 1) ^ 4 * M (y ^ 2) 4
  simp only
  clear d q
  have e1 := M_succ hq hy1 0
  have e2 := M_succ hq hy1 1
  have e3 := M_succ hq hy1 2
  have e4 := M_succ hq hy1 3
  norm_num at e1 e2 e3 e4
  rw [e4, e3, e2, e1, M_zero hq hy1]
  generalize log (y ^ 2) = L
  generalize x ^ 2 - 1 = d
  generalize y ^ 2 = q at *
  have := sub_ne_zero.2 hy1
  field_simp
  ring

/-! ### both arguments close to one -/

theorem J_mom (n : ℕ) : J (fun t => (1 - t) * t ^ n) = 1 / (((n : ℝ) + 1) * (n + 2)) := by
  have : J (fun t => (1 - t) * t ^ n) = J (fun t => t ^ n - t ^ (n + 1)) := J_congr fun t _ => by ring
  rw [this, J_sub (by c0) (by c0), J_pow, J_pow]
  push_cast
  have : ((n:ℝ) + 1) ≠ 0 := by positivity
  have : ((n:ℝ) + 2) ≠ 0 := by positivity
  have : ((n:ℝ) + 1 + 1) ≠ 0 := by positivity
  field_simp
  ring

theorem F9_one_one {a b ρ : ℝ} (ha : |a| ≤ ρ) (hb : |b| ≤ ρ) (hρ : ρ ≤ 1 / 49) :
    |J (fun t => 2 * (1 - t) / (D (1 + a) t * D (1 + b) t)) - (1 - (a + b) / 3 + (a ^ 2 + a * b + b ^ 2) / 6 -
      (a ^ 3 + a ^ 2 * b + a * b ^ 2 + b ^ 3) / 10 + (a ^ 4 + a ^ 3 * b + a ^ 2 * b ^ 2 + a * b ^ 3 + b ^ 4) / 15)| ≤ 13 * ρ ^ 5 := by
  have ha' := ha.trans hρ
  have hb' := hb.trans hρ
  have hp := p_pos ha'
  have hq := p_pos hb'
  have hρ0 : 0 ≤ ρ := (abs_nonneg _).trans ha
  set h5 := a ^ 5 + a ^ 4 * b + a ^ 3 * b ^ 2 + a ^ 2 * b ^ 3 + a * b ^ 4 + b ^ 5 with hh5
  set h4 := a ^ 4 + a ^ 3 * b + a ^ 2 * b ^ 2 + a * b ^ 3 + b ^ 4 with hh4
  have e : J (fun t => 2 * (1 - t) / (D (1 + a) t * D (1 + b) t)) =
      2 * J (fun t => (1 - t) * t ^ 0) + (-2 * (a + b)) * J (fun t => (1 - t) * t ^ 1) + (2 * (a ^ 2 + a * b + b ^ 2)) * J (fun t => (1 - t) * t ^ 2) +
      (-2 * (a ^ 3 + a ^ 2 * b + a * b ^ 2 + b ^ 3)) * J (fun t => (1 - t) * t ^ 3) + (2 * h4) * J (fun t => (1 - t) * t ^ 4) +
      J (fun t => -2 * (1 - t) * t ^ 5 * (h5 + a * b * t * h4) / (D (1 + a) t * D (1 + b) t)) := by
    refine Eq.trans ?_ (J_lin5 _ _ _ _ _ (by c0) (by c0) (by c0) (by c0) (by c0) (by c0))
    apply J_congr
    intro t ht
    have h1 := D_ne hp ht
    have h2 := D_ne hq ht
    rw [D1_eq ha'] at h1 ⊢
    rw [D1_eq hb'] at h2 ⊢
    rw [hh5, hh4]
    field_simp
    ring
  have hmono : ∀ i j : ℕ, |a ^ i * b ^ j| ≤ ρ ^ (i + j) := fun i j => by
    rw [abs_mul, abs_pow, abs_pow, pow_add]
    exact mul_le_mul (pow_le_pow_left₀ (abs_nonneg _) ha i) (pow_le_pow_left₀ (abs_nonneg _) hb j) (by positivity) (by positivity)
  have b5 : |h5| ≤ 6 * ρ ^ 5 := by
    have k1 := hmono 5 0; have k2 := hmono 4 1; have k3 := hmono 3 2; have k4 := hmono 2 3; have k5 := hmono 1 4; have k6 := hmono 0 5
    simp only [pow_zero, pow_one, mul_one, one_mul, Nat.reduceAdd] at k1 k2 k3 k4 k5 k6
    rw [abs_le] at *
    constructor <;> linarith [k1.1, k1.2, k2.1, k2.2, k3.1, k3.2, k4.1, k4.2, k5.1, k5.2, k6.1, k6.2]
  have b4 : |h4| ≤ 5 * ρ ^ 4 := by
    have k1 := hmono 4 0; have k2 := hmono 3 1; have k3 := hmono 2 2; have k4 := hmono 1 3; have k5 := hmono 0 4
    simp only [pow_zero, pow_one, mul_one, one_mul, Nat.reduceAdd] at k1 k2 k3 k4 k5
    rw [abs_le] at *
    constructor <;> linarith [k1.1, k1.2, k2.1, k2.2, k3.1, k3.2, k4.1, k4.2, k5.1, k5.2]
  have hb : |J (fun t => -2 * (1 - t) * t ^ 5 * (h5 + a * b * t * h4) / (D (1 + a) t * D (1 + b) t))| ≤ 13 * ρ ^ 5 := by
    apply J_bound
    intro t ht
    have h1 := one_add_pos ha' ht
    have h2 := one_add_pos hb' ht
    have ht1 : 0 ≤ 1 - t := by linarith [ht.2]
    rw [D1_eq ha', D1_eq hb', abs_div, abs_of_pos (show 0 < (1 + t * a) * (1 + t * b) from mul_pos (by linarith) (by linarith)),
      div_le_iff₀ (mul_pos (by linarith) (by linarith)), abs_mul, abs_mul, abs_mul, show |(-2:ℝ)| = 2 by norm_num, abs_of_nonneg ht1,
      abs_of_nonneg (pow_nonneg ht.1 5)]
    have k1 : |h5 + a * b * t * h4| ≤ 6 * ρ ^ 5 + ρ ^ 2 * (5 * ρ ^ 4) := by
      refine (abs_add_le _ _).trans (add_le_add b5 ?_)
      rw [abs_mul, abs_mul]
      have := hmono 1 1
      simp only [pow_one, Nat.reduceAdd] at this
      refine mul_le_mul ?_ b4 (abs_nonneg _) (by positivity)
      rw [abs_of_nonneg ht.1]
      calc |a * b| * t ≤ ρ ^ 2 * 1 := mul_le_mul this ht.2 ht.1 (by positivity)
        _ = _ := by ring
    have k2 : (1 - t) * t ^ 5 ≤ 1 := mul_le_one₀ (by linarith [ht.1]) (pow_nonneg ht.1 5) (pow_le_one₀ ht.1 ht.2)
    have k3 : 2 * (1 - t) * t ^ 5 * |h5 + a * b * t * h4| ≤ 2 * (6 * ρ ^ 5 + ρ ^ 2 * (5 * ρ ^ 4)) := by
      calc 2 * (1 - t) * t ^ 5 * |h5 + a * b * t * h4| = 2 * (((1 - t) * t ^ 5) * |h5 + a * b * t * h4|) := by ring
        _ ≤ 2 * (1 * (6 * ρ ^ 5 + ρ ^ 2 * (5 * ρ ^ 4))) :=
          mul_le_mul_of_nonneg_left (mul_le_mul k2 k1 (abs_nonneg _) zero_le_one) (by norm_num)
        _ = _ := by ring
    have k4 : (48 / 49 : ℝ) * (48 / 49) ≤ (1 + t * a) * (1 + t * b) := mul_le_mul h1 h2 (by norm_num) (by linarith)
    have k5 : ρ ^ 2 * (5 * ρ ^ 4) ≤ 5 / 49 * ρ ^ 5 := by
      have : 0 ≤ ρ ^ 5 := by positivity
      calc ρ ^ 2 * (5 * ρ ^ 4) = 5 * (ρ * ρ ^ 5) := by ring
        _ ≤ 5 * (1 / 49 * ρ ^ 5) := by have := mul_le_mul_of_nonneg_right hρ this; linarith
        _ = _ := by ring
    have k6 : 0 ≤ ρ ^ 5 := by positivity
    have k7 := mul_le_mul_of_nonneg_left k4 (show 0 ≤ 13 * ρ ^ 5 by positivity)
    linarith
  rw [e, J_mom, J_mom, J_mom, J_mom, J_mom]
  refine le_trans (le_of_eq ?_) hb
  congr 1
  push_cast
  ring

/-! ### arguments close to each other -/

section equal
variable {q d : ℝ} (hq : 0 < q)

noncomputable def A (q : ℝ) (k : ℕ) : ℝ := J (fun t => (1 - t) * t ^ k / D q t ^ (k + 2))
noncomputable def B (q : ℝ) (k : ℕ) : ℝ := J (fun t => t ^ k / D q t ^ (k + 1))
/-- remainders -/
noncomputable def RA (q d : ℝ) : ℝ := J (fun t => 2 * (1 - t) * (t * d) ^ 4 / (D (q + d) t * D q t ^ 5))
noncomputable def RB (q d : ℝ) : ℝ := J (fun t => (t * d) ^ 4 / (D (q + d) t * D q t ^ 4))

theorem D_shift (q d t : ℝ) : D (q + d) t = D q t + t * d := by unfold D; ring

theorem F9_equal (hq : 0 < q) (hp : 0 < q + d) : J (fun t => 2 * (1 - t) / (D (q + d) t * D q t)) =
    2 * A q 0 - 2 * d * A q 1 + 2 * d ^ 2 * A q 2 - 2 * d ^ 3 * A q 3 + RA q d := by
  have e : J (fun t => 2 * (1 - t) / (D (q + d) t * D q t)) =
      2 * A q 0 + (-2 * d) * A q 1 + (2 * d ^ 2) * A q 2 + (-2 * d ^ 3) * A q 3 + 0 * A q 0 + RA q d := by
    unfold A RA
    refine Eq.trans ?_ (J_lin5 _ _ _ _ _ (by c0) (by c0) (by c0) (by c0) (by c0) (by c0))
    apply J_congr
    intro t ht
    have h1 := D_ne hp ht
    have h2 := D_ne hq ht
    rw [D_shift] at h1 ⊢
    generalize D q t = E at *
    field_simp
    ring
  rw [e]; ring

theorem L_equal (hq : 0 < q) (hp : 0 < q + d) : J (fun t => 1 / D (q + d) t) = B q 0 - d * B q 1 + d ^ 2 * B q 2 - d ^ 3 * B q 3 + RB q d := by
  have e : J (fun t => 1 / D (q + d) t) = 1 * B q 0 + (-d) * B q 1 + d ^ 2 * B q 2 + (-d ^ 3) * B q 3 + 0 * B q 0 + RB q d := by
    unfold B RB
    refine Eq.trans ?_ (J_lin5 _ _ _ _ _ (by c0) (by c0) (by c0) (by c0) (by c0) (by c0))
    apply J_congr
    intro t ht
    have h1 := D_ne hp ht
    have h2 := D_ne hq ht
    rw [D_shift] at h1 ⊢
    generalize D q t = E at *
    field_simp
    ring
  rw [e]; ring

/-- partial fractions -/
theorem AB_closed (hq : 0 < q) (h1 : q ≠ 1) :
    A q 0 = (q * (1 - 1 / q) / (q - 1) - log q / (q - 1)) / (q - 1) ∧
    A q 1 = ((q + 1) * ((1 - 1 / q) / (q - 1)) - log q / (q - 1) - q * ((1 - 1 / q ^ 2) / (2 * (q - 1)))) / (q - 1) ^ 2 ∧
    A q 2 = (-(log q / (q - 1)) + (q + 2) * ((1 - 1 / q) / (q - 1)) - (2 * q + 1) * ((1 - 1 / q ^ 2) / (2 * (q - 1))) +
      q * ((1 - 1 / q ^ 3) / (3 * (q - 1)))) / (q - 1) ^ 3 ∧
    A q 3 = (-(log q / (q - 1)) + (q + 3) * ((1 - 1 / q) / (q - 1)) - (3 * q + 3) * ((1 - 1 / q ^ 2) / (2 * (q - 1))) +
      (3 * q + 1) * ((1 - 1 / q ^ 3) / (3 * (q - 1))) - q * ((1 - 1 / q ^ 4) / (4 * (q - 1)))) / (q - 1) ^ 4 ∧
    B q 0 = log q / (q - 1) ∧
    B q 1 = (log q / (q - 1) - (1 - 1 / q) / (q - 1)) / (q - 1) ∧
    B q 2 = (log q / (q - 1) - 2 * ((1 - 1 / q) / (q - 1)) + (1 - 1 / q ^ 2) / (2 * (q - 1))) / (q - 1) ^ 2 ∧
    B q 3 = (log q / (q - 1) - 3 * ((1 - 1 / q) / (q - 1)) + 3 * ((1 - 1 / q ^ 2) / (2 * (q - 1))) - (1 - 1 / q ^ 3) / (3 * (q - 1))) / (q - 1) ^ 3 := by
  have i1 := I1_eq hq h1
  have i2 := In_eq hq h1 0
  have i3 := In_eq hq h1 1
  have i4 := In_eq hq h1 2
  have i5 := In_eq hq h1 3
  norm_num at i2 i3 i4 i5
  have hy : q - 1 ≠ 0 := sub_ne_zero.2 h1
  have gen : ∀ (f : ℝ → ℝ) (c1 c2 c3 c4 c5 : ℝ), (∀ t ∈ Set.Icc (0:ℝ) 1, f t = c1 * (1 / D q t) + c2 * (1 / D q t ^ 2) + c3 * (1 / D q t ^ 3) +
      c4 * (1 / D q t ^ 4) + c5 * (1 / D q t ^ 5)) →
      J f = c1 * (log q / (q - 1)) + c2 * ((1 - 1 / q) / (q - 1)) + c3 * ((1 - 1 / q ^ 2) / (2 * (q - 1))) + c4 * ((1 - 1 / q ^ 3) / (3 * (q - 1))) +
        c5 * ((1 - 1 / q ^ 4) / (4 * (q - 1))) := by
    intro f c1 c2 c3 c4 c5 h
    have e : J f = c1 * J (fun t => 1 / D q t) + c2 * J (fun t => 1 / D q t ^ 2) + c3 * J (fun t => 1 / D q t ^ 3) + c4 * J (fun t => 1 / D q t ^ 4) +
        c5 * J (fun t => 1 / D q t ^ 5) + J (fun _ => 0) := by
      refine Eq.trans ?_ (J_lin5 _ _ _ _ _ (by c0) (by c0) (by c0) (by c0) (by c0) (by c0))
      apply J_congr
      intro t ht
      rw [h t ht]; ring
    rw [e, i1, J_const]
    simp only [one_div]
    rw [i2, i3, i4, i5]
    ring
  have tD : ∀ t, t = (D q t - 1) / (q - 1) := fun t => by field_simp; unfold D; ring
  refine ⟨?_, ?_, ?_, ?_, ?_, ?_, ?_, ?_⟩
  · refine (gen _ (-1 / (q - 1)) (q / (q - 1)) 0 0 0 fun t ht => ?_).trans (by ring)
    have := D_ne hq ht
    have h := tD t
    generalize D q t = E at *
    rw [h]; field_simp; ring
  · refine (gen _ (-1 / (q - 1) ^ 2) ((q + 1) / (q - 1) ^ 2) (-q / (q - 1) ^ 2) 0 0 fun t ht => ?_).trans (by ring)
    have := D_ne hq ht
    have h := tD t
    generalize D q t = E at *
    rw [h]; field_simp; ring
  · refine (gen _ (-1 / (q - 1) ^ 3) ((q + 2) / (q - 1) ^ 3) (-(2 * q + 1) / (q - 1) ^ 3) (q / (q - 1) ^ 3) 0 fun t ht => ?_).trans (by ring)
    have := D_ne hq ht
    have h := tD t
    generalize D q t = E at *
    rw [h]; field_simp; ring
  · refine (gen _ (-1 / (q - 1) ^ 4) ((q + 3) / (q - 1) ^ 4) (-(3 * q + 3) / (q - 1) ^ 4) ((3 * q + 1) / (q - 1) ^ 4) (-q / (q - 1) ^ 4)
      fun t ht => ?_).trans (by ring)
    have := D_ne hq ht
    have h := tD t
    generalize D q t = E at *
    rw [h]; field_simp; ring
  · refine (gen _ 1 0 0 0 0 fun t ht => ?_).trans (by ring)
    simp
  · refine (gen _ (1 / (q - 1)) (-1 / (q - 1)) 0 0 0 fun t ht => ?_).trans (by ring)
    have := D_ne hq ht
    have h := tD t
    generalize D q t = E at *
    rw [h]; field_simp; ring
  · refine (gen _ (1 / (q - 1) ^ 2) (-2 / (q - 1) ^ 2) (1 / (q - 1) ^ 2) 0 0 fun t ht => ?_).trans (by ring)
    have := D_ne hq ht
    have h := tD t
    generalize D q t = E at *
    rw [h]; field_simp; ring
  · refine (gen _ (1 / (q - 1) ^ 3) (-3 / (q - 1) ^ 3) (3 / (q - 1) ^ 3) (-1 / (q - 1) ^ 3) 0 fun t ht => ?_).trans (by ring)
    have := D_ne hq ht
    have h := tD t
    generalize D q t = E at *
    rw [h]; field_simp; ring
end equal

end Himalaya.TLF
