import Verif.TLF.Two

/-!
# C32: `F8` and `F9`, the code
-/

set_option linter.unusedSimpArgs false
set_option linter.unusedVariables false
set_option linter.unusedSectionVars false

namespace Himalaya.TLF
open Real

theorem nsqd (x y : ℝ) : (x - y) * (x + y) = x ^ 2 - y ^ 2 := by ring

/-! ### real forms of the branches -/

theorem F9_1_1_real (x y : ℝ) : F9_1_1 x y =
    (let a := x ^ 2 - 1; let b := y ^ 2 - 1
    1 - (a + b) / 3 + (a ^ 2 + a * b + b ^ 2) / 6 - (a ^ 3 + a ^ 2 * b + a * b ^ 2 + b ^ 3) / 10 +
      (a ^ 4 + a ^ 3 * b + a ^ 2 * b ^ 2 + a * b ^ 3 + b ^ 4) / 15) := by
  simp only [F9_1_1, real_ofNat, sqr]
  push_cast
  simp only [nsq]
  ring

theorem F8_1_1_real (x y : ℝ) : F8_1_1 x y =
    (let a := x ^ 2 - 1; let b := y ^ 2 - 1
    1 + 2 / 3 * (a + b) - (a ^ 2 + a * b + b ^ 2) / 6 + (a ^ 3 + a ^ 2 * b + a * b ^ 2 + b ^ 3) / 15 -
      (a ^ 4 + a ^ 3 * b + a ^ 2 * b ^ 2 + a * b ^ 3 + b ^ 4) / 30) := by
  simp only [F8_1_1, real_ofNat, sqr]
  push_cast
  simp only [nsq]
  ring

theorem F8_1_x2_real {x y : ℝ} (h : ¬ |y| ≤ 1 / 100) : F8_1_x2 x y =
    (let d := x ^ 2 - 1; let q := y ^ 2; let l := log q
    (-2) + 2 * (1 + q * (-1 + l * q)) / (q - 1) ^ 2 + d * (-1 + q * (4 + q * (-3 + 2 * l))) / (q - 1) ^ 3 +
      d ^ 2 * (-1 + q * (6 + q * (-3 + 6 * l + -2 * q))) / (3 * (q - 1) ^ 4) +
      d ^ 3 * (-1 + q * (8 + q * (12 * l + q * (-8 + q)))) / (6 * (q - 1) ^ 5) +
      d ^ 4 * (-3 + q * (30 + q * (20 + 60 * l + q * (-60 + q * (15 - 2 * q))))) / (30 * (q - 1) ^ 6)) := by
  simp only [F8_1_x2, isZero_real, real_ofNat, real_lit, decide_eq_true_eq, sqr, real_log]
  push_cast
  simp only [nsq, ← pow_two]
  rw [if_neg h]
  ring_nf

theorem F9_x1_x2_real (x y : ℝ) : F9_x1_x2 x y =
    (let q := y ^ 2; let d := x ^ 2 - q; let l := log q
    2 * (q - 1 - l) / (q - 1) ^ 2 + d * (1 + q * (2 * l - q)) / (q * (q - 1) ^ 3) +
      d ^ 2 * (1 + q * (-6 + q * (3 - 6 * l + 2 * q))) / (3 * q ^ 2 * (q - 1) ^ 4) +
      d ^ 3 * (1 + q * (-6 + q * (18 + q * (-10 + 12 * l - 3 * q)))) / (6 * q ^ 3 * (q - 1) ^ 5)) := by
  simp only [F9_x1_x2, real_ofNat, sqr, real_log]
  push_cast
  simp only [nsq, nsqd, ← pow_two]
  ring_nf

theorem F8_x1_x2_real (x y : ℝ) : F8_x1_x2 x y =
    (let q := y ^ 2; let d := x ^ 2 - q; let l := log q
    2 * ((-2 + q) * q * l + (q - 1)) / (q - 1) ^ 2 + d * (3 + q * (-4 + q) + 2 * l) / (q - 1) ^ 3 +
      d ^ 2 * (-2 + q * (-3 - 6 * l + q * (6 - q))) / (3 * q * (q - 1) ^ 4) +
      d ^ 3 * (-1 + q * (8 + q * (12 * l + q * (-8 + q)))) / (6 * q ^ 2 * (q - 1) ^ 5)) := by
  simp only [F8_x1_x2, real_ofNat, sqr, real_log]
  push_cast
  simp only [nsq, nsqd, ← pow_two]
  ring_nf

theorem F9_real (x y : ℝ) : F9 x y =
    if |(|x| - 1)| ≤ 1 / 100 ∧ |(|y| - 1)| ≤ 1 / 100 then F9_1_1 x y
    else if |(|x| - 1)| ≤ 1 / 100 then F9_1_x2 x y
    else if |(|y| - 1)| ≤ 1 / 100 then F9_1_x2 y x
    else if |x| ≤ 1 / 10000 then F9_0_x2 x y
    else if |y| ≤ 1 / 10000 then F9_0_x2 y x
    else if |(|x| - |y|)| ≤ 1 / 100000 then F9_x1_x2 x y
    else Spec.F9 x y := by
  simp only [F9, isZero_real, isEqual_real, real_ofNat, real_lit, decide_eq_true_eq, sqr, real_log, real_abs, Bool.and_eq_true, Spec.F9]
  push_cast
  simp only [← pow_two]

theorem F8_real (x y : ℝ) : F8 x y =
    if |x| ≤ 10 / 2 ^ 52 ∧ |y| ≤ 10 / 2 ^ 52 then -2
    else if |(|x| - 1)| ≤ 1 / 100 ∧ |(|y| - 1)| ≤ 1 / 100 then F8_1_1 x y
    else if |(|x| - 1)| ≤ 1 / 100 then F8_1_x2 x y
    else if |(|y| - 1)| ≤ 1 / 100 then F8_1_x2 y x
    else if |x| ≤ 1 / 100000 then F8_0_x2 x y
    else if |y| ≤ 1 / 100000 then F8_0_x2 y x
    else if |(|x| - |y|)| ≤ 1 / 100000 then F8_x1_x2 x y
    else Spec.F8 x y := by
  simp only [F8, isZero_real, isEqual_real, epsD_real, real_ofNat, real_lit, decide_eq_true_eq, sqr, real_log, real_abs, Bool.and_eq_true, Spec.F8]
  push_cast
  simp only [← pow_two]
  rw [show (10:ℝ) * (1 / 2 ^ 52) = 10 / 2 ^ 52 by ring, show (x ^ 2) ^ 2 = x ^ 4 by ring, show (y ^ 2) ^ 2 = y ^ 4 by ring]

theorem Spec.F9_symm (x y : ℝ) : Spec.F9 x y = Spec.F9 y x := by
  unfold Spec.F9
  rw [show x ^ 2 - y ^ 2 = -(y ^ 2 - x ^ 2) by ring, div_neg]; ring
theorem Spec.F8_symm (x y : ℝ) : Spec.F8 x y = Spec.F8 y x := by
  unfold Spec.F8
  rw [show x ^ 2 - y ^ 2 = -(y ^ 2 - x ^ 2) by ring, div_neg]; ring

/-! ### bounds of the remainders -/

section equal
variable {q d : ℝ}

theorem td_le {t : ℝ} (hq : 0 < q) (ht : t ∈ Set.Icc (0:ℝ) 1) (k : ℕ) : |(t * d) ^ k / D q t ^ k| ≤ (|d| / q) ^ k := by
  have h := tq_le hq ht
  have hD := D_pos hq ht.1 ht.2
  rw [← div_pow, abs_pow]
  refine pow_le_pow_left₀ (abs_nonneg _) ?_ k
  have : t * d / D q t = d / q * (q * t / D q t) := by field_simp
  rw [this, abs_mul, abs_of_nonneg h.1, abs_div, abs_of_pos hq]
  exact mul_le_of_le_one_right (by positivity) h.2

theorem invD_le {m t : ℝ} (hm : 0 < m) (hm1 : m ≤ 1) (hq : m ≤ q) (ht : t ∈ Set.Icc (0:ℝ) 1) : 0 ≤ 1 / D q t ∧ 1 / D q t ≤ 1 / m := by
  have hD := D_pos (hm.trans_le hq) ht.1 ht.2
  refine ⟨by positivity, one_div_le_one_div_of_le hm ?_⟩
  unfold D
  have h1 : t * m ≤ t * q := mul_le_mul_of_nonneg_left hq ht.1
  have h2 : (1 - t) * m ≤ (1 - t) * 1 := mul_le_mul_of_nonneg_left hm1 (by linarith [ht.2])
  linarith

theorem RA_le {m : ℝ} (hm : 0 < m) (hm1 : m ≤ 1) (hq : m ≤ q) (hp : m ≤ q + d) : |RA q d| ≤ 2 * (|d| / q) ^ 4 / m := by
  have hq0 := hm.trans_le hq
  have hp0 := hm.trans_le hp
  unfold RA
  apply J_bound
  intro t ht
  have h1 := td_le (d := d) hq0 ht 4
  have h2 := invD_le hm hm1 hp ht
  have h3 := frac_le hq0 ht
  have e : 2 * (1 - t) * (t * d) ^ 4 / (D (q + d) t * D q t ^ 5) = 2 * (((t * d) ^ 4 / D q t ^ 4) * ((1 - t) / D q t * (1 / D (q + d) t))) := by
    have := D_ne hq0 ht; have := D_ne hp0 ht; field_simp
  rw [e, abs_mul, abs_mul, abs_mul, abs_of_nonneg h3.1, abs_of_nonneg h2.1, abs_two]
  have h4 : (1 - t) / D q t * (1 / D (q + d) t) ≤ 1 * (1 / m) := mul_le_mul h3.2 h2.2 h2.1 zero_le_one
  have h5 := mul_le_mul h1 h4 (mul_nonneg h3.1 h2.1) (by positivity)
  calc _ ≤ 2 * ((|d| / q) ^ 4 * (1 * (1 / m))) := mul_le_mul_of_nonneg_left h5 (by norm_num)
    _ = _ := by ring

theorem d4B3_le {m : ℝ} (hm : 0 < m) (hm1 : m ≤ 1) (hq : m ≤ q) : |d ^ 4 * B q 3| ≤ |d| * (|d| / q) ^ 3 / m := by
  have hq0 := hm.trans_le hq
  unfold B
  rw [← J_smul]
  apply J_bound
  intro t ht
  have h1 := td_le (d := d) hq0 ht 3
  have h2 := invD_le hm hm1 hq ht
  have e : d ^ 4 * (t ^ 3 / D q t ^ (3 + 1)) = d * (((t * d) ^ 3 / D q t ^ 3) * (1 / D q t)) := by
    have := D_ne hq0 ht; field_simp
  rw [e, abs_mul, abs_mul, abs_of_nonneg h2.1]
  have h5 := mul_le_mul h1 h2.2 h2.1 (by positivity)
  calc _ ≤ |d| * ((|d| / q) ^ 3 * (1 / m)) := mul_le_mul_of_nonneg_left h5 (abs_nonneg _)
    _ = _ := by ring

theorem pRB_le {m : ℝ} (hm : 0 < m) (hm1 : m ≤ 1) (hq : m ≤ q) (hp : m ≤ q + d) : |(q + d) * RB q d| ≤ |d| * (|d| / q) ^ 3 / m := by
  have hq0 := hm.trans_le hq
  have hp0 := hm.trans_le hp
  unfold RB
  rw [← J_smul]
  apply J_bound
  intro t ht
  have h1 := td_le (d := d) hq0 ht 3
  have h2 := invD_le hm hm1 hq ht
  have h3 := tq_le hp0 ht
  have e : (q + d) * ((t * d) ^ 4 / (D (q + d) t * D q t ^ 4)) = d * ((((t * d) ^ 3 / D q t ^ 3) * ((1 / D q t))) * ((q + d) * t / D (q + d) t)) := by
    have := D_ne hq0 ht; have := D_ne hp0 ht; field_simp
  rw [e, abs_mul, abs_mul, abs_mul, abs_of_nonneg h2.1, abs_of_nonneg h3.1]
  have h5 := mul_le_mul (mul_le_mul h1 h2.2 h2.1 (by positivity)) h3.2 h3.1 (by positivity)
  calc _ ≤ |d| * ((|d| / q) ^ 3 * (1 / m) * 1) := mul_le_mul_of_nonneg_left h5 (abs_nonneg _)
    _ = _ := by ring

theorem qRA_le {m : ℝ} (hm : 0 < m) (hm1 : m ≤ 1) (hq : m ≤ q) (hp : m ≤ q + d) : |q * RA q d| ≤ 2 * (|d| * (|d| / q) ^ 3 / m) := by
  have hq0 := hm.trans_le hq
  have hp0 := hm.trans_le hp
  unfold RA
  rw [← J_smul]
  apply J_bound
  intro t ht
  have h1 := td_le (d := d) hq0 ht 3
  have h2 := invD_le hm hm1 hq ht
  have h3 := tq_le hq0 ht
  have h4 := frac_le hp0 ht
  have e : q * (2 * (1 - t) * (t * d) ^ 4 / (D (q + d) t * D q t ^ 5)) =
      2 * (d * ((((t * d) ^ 3 / D q t ^ 3) * (1 / D q t)) * ((q * t / D q t) * ((1 - t) / D (q + d) t)))) := by
    have := D_ne hq0 ht; have := D_ne hp0 ht; field_simp
  rw [e, abs_mul, abs_mul, abs_mul, abs_mul, abs_mul, abs_of_nonneg h2.1, abs_of_nonneg h3.1, abs_of_nonneg h4.1, abs_two]
  have h6 : q * t / D q t * ((1 - t) / D (q + d) t) ≤ 1 := mul_le_one₀ h3.2 h4.1 h4.2
  have h5 := mul_le_mul (mul_le_mul h1 h2.2 h2.1 (by positivity)) h6 (mul_nonneg h3.1 h4.1) (by positivity)
  calc _ ≤ 2 * (|d| * ((|d| / q) ^ 3 * (1 / m) * 1)) := by
        refine mul_le_mul_of_nonneg_left (mul_le_mul_of_nonneg_left h5 (abs_nonneg _)) (by norm_num)
    _ = _ := by ring

/-- the code of the branch of equal arguments -/
theorem F9_equal_code {x y : ℝ} (hy : y ≠ 0) (hy1 : y ^ 2 ≠ 1) :
    F9_x1_x2 x y = (let q := y ^ 2; let d := x ^ 2 - q; 2 * A q 0 - 2 * d * A q 1 + 2 * d ^ 2 * A q 2 - 2 * d ^ 3 * A q 3) := by
  have hq : 0 < y ^ 2 := by positivity
  obtain ⟨a0, a1, a2, a3, -⟩ := AB_closed hq hy1
  rw [F9_x1_x2_real]
  simp only [a0, a1, a2, a3]
  generalize log (y ^ 2) = L
  generalize x ^ 2 = p
  generalize y ^ 2 = q at *
  have := sub_ne_zero.2 hy1
  have := hq.ne'
  field_simp
  ring

theorem F8_equal_code {x y : ℝ} (hy : y ≠ 0) (hy1 : y ^ 2 ≠ 1) :
    F8_x1_x2 x y = (let q := y ^ 2; let d := x ^ 2 - q;
      (-2) + 2 * (q * (B q 0 - d * B q 1 + d ^ 2 * B q 2 - d ^ 3 * B q 3) + d * (B q 0 - d * B q 1 + d ^ 2 * B q 2)) +
      q * (2 * A q 0 - 2 * d * A q 1 + 2 * d ^ 2 * A q 2 - 2 * d ^ 3 * A q 3)) := by
  have hq : 0 < y ^ 2 := by positivity
  obtain ⟨a0, a1, a2, a3, b0, b1, b2, b3⟩ := AB_closed hq hy1
  rw [F8_x1_x2_real]
  simp only [a0, a1, a2, a3, b0, b1, b2, b3]
  generalize log (y ^ 2) = L
  generalize x ^ 2 = p
  generalize y ^ 2 = q at *
  have := sub_ne_zero.2 hy1
  have := hq.ne'
  field_simp
  ring
end equal

/-! ### accuracy -/

theorem pL_near {d : ℝ} (h0 : d ≠ 0) (hd : |d| ≤ 1 / 49) :
    |(1 + d) * (log (1 + d) / d) - (1 + d / 2 - d ^ 2 / 6 + d ^ 3 / 12 - d ^ 4 / 20)| ≤ 5 / 4 * |d| ^ 5 := by
  obtain ⟨ρ, hρ, e⟩ := log_expand 5 h0 hd
  have : (1 + d) * (log (1 + d) / d) - (1 + d / 2 - d ^ 2 / 6 + d ^ 3 / 12 - d ^ 4 / 20) = d ^ 5 * (1 / 5 + ρ * (1 + d)) := by
    rw [e]; simp only [Finset.sum_range_succ, Finset.sum_range_zero]; push_cast; field_simp; ring
  rw [this, abs_mul, abs_pow, mul_comm]
  refine mul_le_mul_of_nonneg_right ?_ (by positivity)
  have h1 := abs_le.1 hd
  have h2 : |ρ * (1 + d)| ≤ 49 / 48 * (50 / 49) := by
    rw [abs_mul]; refine mul_le_mul hρ ?_ (abs_nonneg _) (by norm_num)
    rw [abs_le]; constructor <;> linarith
  refine (abs_add_le _ _).trans ?_
  norm_num at h2 ⊢; linarith

theorem F9I_eq (x y : ℝ) : Spec.F9I x y = J (fun t => 2 * (1 - t) / (D (x ^ 2) t * D (y ^ 2) t)) := rfl

theorem F9I_J {x y p q : ℝ} (hp : x ^ 2 = p) (hq : y ^ 2 = q) : Spec.F9I x y = J (fun t => 2 * (1 - t) / (D p t * D q t)) := by
  subst hp hq; rfl

theorem F9I_spec {x y : ℝ} (hx : x ≠ 0) (hy : y ≠ 0) (hx1 : x ^ 2 ≠ 1) (hy1 : y ^ 2 ≠ 1) (hxy : x ^ 2 ≠ y ^ 2) : Spec.F9I x y = Spec.F9 x y :=
  (F9_int hx hy hx1 hy1 hxy).symm

/-- `∫ dt/(1-t+tq)` -/
noncomputable def Lq (q : ℝ) : ℝ := J (fun t => 1 / D q t)

theorem F8I_eq {x y : ℝ} (hx : x ≠ 0) (hy : y ≠ 0) : Spec.F8I x y = -2 + 2 * x ^ 2 * Lq (x ^ 2) + y ^ 2 * Spec.F9I x y := by
  have hp : 0 < x ^ 2 := by positivity
  have hq : 0 < y ^ 2 := by positivity
  rw [F9I_eq, Lq, add_assoc, ← J_smul, ← J_smul, ← J_add (by c0) (by c0)]
  show -2 + J _ = _
  congr 1
  apply J_congr
  intro t ht
  have h1 := D_ne hp ht
  have h2 := D_ne hq ht
  show 2 * ((1 - t) * (x ^ 2 + y ^ 2) + t * x ^ 2 * y ^ 2) / (D (x ^ 2) t * D (y ^ 2) t) = _
  field_simp
  unfold D; ring

theorem F8I_spec {x y : ℝ} (hx : x ≠ 0) (hy : y ≠ 0) (hx1 : x ^ 2 ≠ 1) (hy1 : y ^ 2 ≠ 1) (hxy : x ^ 2 ≠ y ^ 2) : Spec.F8I x y = Spec.F8 x y := by
  rw [F8I_eq hx hy, F9I_spec hx hy hx1 hy1 hxy, F8_eq hx1 hy1 hxy, Lq, I1_eq (by positivity) hx1]

theorem Spec.F9I_symm (x y : ℝ) : Spec.F9I x y = Spec.F9I y x := by
  unfold Spec.F9I; congr 1; funext t; rw [mul_comm (Spec.den (x ^ 2) t)]
theorem Spec.F8I_symm (x y : ℝ) : Spec.F8I x y = Spec.F8I y x := by
  unfold Spec.F8I; congr 2; funext t; rw [mul_comm (Spec.den (x ^ 2) t)]; ring

theorem pL_near' {d : ℝ} (hd : |d| ≤ 1 / 49) :
    |(1 + d) * Lq (1 + d) - (1 + d / 2 - d ^ 2 / 6 + d ^ 3 / 12 - d ^ 4 / 20)| ≤ 5 / 4 * |d| ^ 5 := by
  by_cases h0 : d = 0
  · subst h0
    have : Lq (1 + 0) = 1 := by unfold Lq; simp only [D, add_zero, mul_one, sub_add_cancel, div_one]; exact J_const 1
    rw [this]; norm_num
  · have := pL_near h0 hd
    rw [Lq, I1_eq (p_pos hd) (by intro h; apply h0; linarith), show 1 + d - 1 = d by ring]
    exact this

section acc
variable {x y : ℝ} (hx : x ≠ 0) (hy : y ≠ 0)
include hx hy

theorem F9_11_acc (a : |(|x| - 1)| ≤ 1 / 100) (b : |(|y| - 1)| ≤ 1 / 100) : |F9_1_1 x y - Spec.F9I x y| ≤ 1 / 10 ^ 7 := by
  have ha := abs_near a
  have hb := abs_near b
  have h := F9_one_one ha hb (by norm_num)
  rw [F9I_J (x := x) (y := y) (p := 1 + (x ^ 2 - 1)) (q := 1 + (y ^ 2 - 1)) (by ring) (by ring), F9_1_1_real, abs_sub_comm]
  exact h.trans (by norm_num)

theorem F8_11_acc (a : |(|x| - 1)| ≤ 1 / 100) (b : |(|y| - 1)| ≤ 1 / 100) : |F8_1_1 x y - Spec.F8I x y| ≤ 1 / 10 ^ 7 := by
  have ha := abs_near a
  have hb := abs_near b
  have h := F9_one_one ha hb (by norm_num)
  have hl := pL_near' (ha.trans (show (201:ℝ) / 10000 ≤ 1 / 49 by norm_num))
  rw [F8I_eq hx hy, F8_1_1_real]
  rw [← F9I_J (x := x) (y := y) (p := 1 + (x ^ 2 - 1)) (q := 1 + (y ^ 2 - 1)) (by ring) (by ring)] at h
  rw [add_sub_cancel] at hl
  have hy2 : y ^ 2 = 1 + (y ^ 2 - 1) := by ring
  rw [hy2, show (1 + (y ^ 2 - 1) - 1) = y ^ 2 - 1 by ring]
  simp only
  rw [show 2 * x ^ 2 * Lq (x ^ 2) = 2 * (x ^ 2 * Lq (x ^ 2)) by ring]
  generalize x ^ 2 * Lq (x ^ 2) = P at *
  generalize Spec.F9I x y = Q at *
  clear hy2 hx hy
  generalize x ^ 2 - 1 = a at *
  generalize y ^ 2 - 1 = b at *
  have hl' := hl.trans (pow_small ha (b := 1 / 10 ^ 8) (by norm_num) (by norm_num))
  have h4 : |a ^ 4 + a ^ 3 * b + a ^ 2 * b ^ 2 + a * b ^ 3 + b ^ 4| ≤ 5 * (201 / 10000) ^ 4 := by
    have hm : ∀ i j : ℕ, |a ^ i * b ^ j| ≤ (201 / 10000) ^ (i + j) := fun i j => by
      rw [abs_mul, abs_pow, abs_pow, pow_add]
      exact mul_le_mul (pow_le_pow_left₀ (abs_nonneg _) ha i) (pow_le_pow_left₀ (abs_nonneg _) hb j) (by positivity) (by positivity)
    have k1 := hm 4 0; have k2 := hm 3 1; have k3 := hm 2 2; have k4 := hm 1 3; have k5 := hm 0 4
    simp only [pow_zero, pow_one, mul_one, one_mul, Nat.reduceAdd] at k1 k2 k3 k4 k5
    rw [abs_le] at *
    constructor <;> linarith [k1.1, k1.2, k2.1, k2.2, k3.1, k3.2, k4.1, k4.2, k5.1, k5.2]
  set P9 := (1 - (a + b) / 3 + (a ^ 2 + a * b + b ^ 2) / 6 - (a ^ 3 + a ^ 2 * b + a * b ^ 2 + b ^ 3) / 10 +
    (a ^ 4 + a ^ 3 * b + a ^ 2 * b ^ 2 + a * b ^ 3 + b ^ 4) / 15) with hP9
  have e : 1 + 2 / 3 * (a + b) - (a ^ 2 + a * b + b ^ 2) / 6 + (a ^ 3 + a ^ 2 * b + a * b ^ 2 + b ^ 3) / 15 -
      (a ^ 4 + a ^ 3 * b + a ^ 2 * b ^ 2 + a * b ^ 3 + b ^ 4) / 30 - (-2 + 2 * P + (1 + b) * Q) =
      -2 * (P - (1 + a / 2 - a ^ 2 / 6 + a ^ 3 / 12 - a ^ 4 / 20)) - (1 + b) * (Q - P9) -
        b / 15 * (a ^ 4 + a ^ 3 * b + a ^ 2 * b ^ 2 + a * b ^ 3 + b ^ 4) := by rw [hP9]; ring
  rw [e]
  have t1 : |(1 + b) * (Q - P9)| ≤ 103 / 100 * (13 * (201 / 10000) ^ 5) := by
    rw [abs_mul]; refine mul_le_mul ?_ h (abs_nonneg _) (by norm_num)
    have := abs_le.1 hb
    rw [abs_le]; constructor <;> linarith
  have t2 : |b / 15 * (a ^ 4 + a ^ 3 * b + a ^ 2 * b ^ 2 + a * b ^ 3 + b ^ 4)| ≤ (201 / 10000) / 15 * (5 * (201 / 10000) ^ 4) := by
    rw [abs_mul, abs_div, abs_of_pos (show (0:ℝ) < 15 by norm_num)]
    exact mul_le_mul (by linarith) h4 (abs_nonneg _) (by norm_num)
  rw [abs_le] at *
  constructor <;> linarith [hl'.1, hl'.2, t1.1, t1.2, t2.1, t2.2]

theorem F9_1x_acc (hy1 : y ^ 2 ≠ 1) (a : |(|x| - 1)| ≤ 1 / 100) (b : ¬ |y| ≤ 1 / 100) : |F9_1_x2 x y - Spec.F9I x y| ≤ 1 / 10 ^ 7 := by
  have ha := abs_near a
  have hq : 0 < y ^ 2 := by positivity
  have ha' : |x ^ 2 - 1| ≤ 1 / 49 := ha.trans (by norm_num)
  rw [F9I_J (x := x) (y := y) (p := 1 + (x ^ 2 - 1)) (q := y ^ 2) (by ring) rfl, F9_one ha' hq, F9_one_code hy hy1 b]
  have := R1_le ha' hq
  have h2 := this.trans (pow_small ha (b := 1 / 10 ^ 7) (by norm_num) (by norm_num))
  rw [abs_le] at *
  constructor <;> linarith [h2.1, h2.2]

theorem F8_1x_acc (hy1 : y ^ 2 ≠ 1) (a : |(|x| - 1)| ≤ 1 / 100) (b : ¬ |y| ≤ 1 / 100) : |F8_1_x2 x y - Spec.F8I x y| ≤ 1 / 10 ^ 7 := by
  have ha := abs_near a
  have hq : 0 < y ^ 2 := by positivity
  have ha' : |x ^ 2 - 1| ≤ 1 / 49 := ha.trans (by norm_num)
  have hl := pL_near' ha'
  rw [add_sub_cancel] at hl
  have hl' := hl.trans (pow_small ha (b := 1 / 10 ^ 8) (by norm_num) (by norm_num))
  have hR := (qR1_le ha' hq).trans (pow_small ha (b := 1 / 10 ^ 8) (by norm_num) (by norm_num))
  have code : F8_1_x2 x y = -2 + 2 * (1 + (x ^ 2 - 1) / 2 - (x ^ 2 - 1) ^ 2 / 6 + (x ^ 2 - 1) ^ 3 / 12 - (x ^ 2 - 1) ^ 4 / 20) + y ^ 2 *
      (2 * M (y ^ 2) 0 - 2 * (x ^ 2 - 1) * M (y ^ 2) 1 + 2 * (x ^ 2 - 1) ^ 2 * M (y ^ 2) 2 - 2 * (x ^ 2 - 1) ^ 3 * M (y ^ 2) 3 +
        2 * (x ^ 2 - 1) ^ 4 * M (y ^ 2) 4) := by
    rw [F8_1_x2_real b]
    have e1 := M_succ hq hy1 0
    have e2 := M_succ hq hy1 1
    have e3 := M_succ hq hy1 2
    have e4 := M_succ hq hy1 3
    norm_num at e1 e2 e3 e4
    rw [e4, e3, e2, e1, M_zero hq hy1]
    simp only
    generalize log (y ^ 2) = L
    generalize x ^ 2 - 1 = d
    generalize y ^ 2 = q at *
    have := sub_ne_zero.2 hy1
    field_simp
    ring
  rw [F8I_eq hx hy, F9I_J (x := x) (y := y) (p := 1 + (x ^ 2 - 1)) (q := y ^ 2) (by ring) rfl, F9_one ha' hq, code, mul_add (y ^ 2)]
  rw [show 2 * x ^ 2 * Lq (x ^ 2) = 2 * (x ^ 2 * Lq (x ^ 2)) by ring]
  rw [abs_le] at *
  constructor <;> linarith [hl'.1, hl'.2, hR.1, hR.2]

omit hx in
/-- size of the expansion parameter in the branch of equal arguments -/
theorem eq_small (bx : ¬ |x| ≤ 1 / 100) (by' : ¬ |y| ≤ 1 / 100) (c : |(|x| - |y|)| ≤ 1 / 100000) :
    |x ^ 2 - y ^ 2| / y ^ 2 ≤ 21 / 10000 ∧ |y| * (|x ^ 2 - y ^ 2| / y ^ 2) ≤ 21 / 1000000 ∧ ∃ m, 0 < m ∧ m ≤ 1 ∧ m ≤ y ^ 2 ∧ m ≤ x ^ 2 ∧ 1 / 10000 ≤ m ∧
      |x ^ 2 - y ^ 2| / m ≤ |y| * (21 / 10000) + 21 / 10000 := by
  rw [← sq_abs x, ← sq_abs y]
  rw [not_le] at bx by'
  generalize |x| = u at *
  generalize |y| = v at *
  have hc := abs_le.1 c
  have e : |u ^ 2 - v ^ 2| ≤ 1 / 100000 * (2 * v + 1 / 100000) := by
    rw [← nsqd, abs_mul]
    refine mul_le_mul c ?_ (abs_nonneg _) (by norm_num)
    rw [abs_of_pos (by linarith)]; linarith
  refine ⟨?_, ?_, ?_⟩
  · rw [div_le_iff₀ (by positivity)]; nlinarith
  · have hv : 0 < v := by linarith
    rw [← mul_div_assoc, div_le_iff₀ (by positivity)]; nlinarith
  · refine ⟨min 1 (min (u ^ 2) (v ^ 2)), lt_min one_pos (lt_min (by nlinarith) (by nlinarith)), min_le_left _ _,
      (min_le_right _ _).trans (min_le_right _ _), (min_le_right _ _).trans (min_le_left _ _),
      le_min (by norm_num) (le_min (by nlinarith) (by nlinarith)), ?_⟩
    have hmp : 0 < min 1 (min (u ^ 2) (v ^ 2)) := lt_min one_pos (lt_min (by nlinarith) (by nlinarith))
    rw [div_le_iff₀ hmp]
    refine e.trans ?_
    rcases min_choice 1 (min (u ^ 2) (v ^ 2)) with h | h <;> rw [h]
    · nlinarith
    · rcases min_choice (u ^ 2) (v ^ 2) with h | h <;> rw [h]
      · nlinarith [mul_nonneg (show 0 ≤ v by linarith) (sq_nonneg u), mul_pos (show 0 < u by linarith) (show 0 < v by linarith)]
      · nlinarith [mul_nonneg (show 0 ≤ v by linarith) (sq_nonneg v)]

theorem F9_eq_acc (hy1 : y ^ 2 ≠ 1) (bx : ¬ |x| ≤ 1 / 100) (by' : ¬ |y| ≤ 1 / 100) (c : |(|x| - |y|)| ≤ 1 / 100000) : |F9_x1_x2 x y - Spec.F9I x y| ≤ 1 / 10 ^ 6 := by
  have hq : 0 < y ^ 2 := by positivity
  have hp : 0 < x ^ 2 := by positivity
  obtain ⟨h1, h3, m, m0, m1, mq, mp, m4, -⟩ := eq_small hy bx by' c
  have hR := RA_le (d := x ^ 2 - y ^ 2) m0 m1 mq (by rw [add_sub_cancel]; exact mp)
  have hR' : |RA (y ^ 2) (x ^ 2 - y ^ 2)| ≤ 1 / 10 ^ 6 := by
    refine hR.trans ?_
    have h0 : 0 ≤ |x ^ 2 - y ^ 2| / y ^ 2 := by positivity
    have h2 := pow_le_pow_left₀ h0 h1 4
    rw [div_le_iff₀ m0]
    norm_num at h2 ⊢; linarith
  rw [F9I_J (x := x) (y := y) (p := y ^ 2 + (x ^ 2 - y ^ 2)) (q := y ^ 2) (by ring) rfl, F9_equal hq (by rw [add_sub_cancel]; exact hp),
    F9_equal_code hy hy1]
  simp only
  rw [abs_le] at *
  constructor <;> linarith [hR'.1, hR'.2]

theorem F8_eq_acc (hy1 : y ^ 2 ≠ 1) (bx : ¬ |x| ≤ 1 / 100) (by' : ¬ |y| ≤ 1 / 100) (c : |(|x| - |y|)| ≤ 1 / 100000) : |F8_x1_x2 x y - Spec.F8I x y| ≤ 1 / 10 ^ 6 := by
  have hq : 0 < y ^ 2 := by positivity
  have hp : 0 < x ^ 2 := by positivity
  obtain ⟨h1, h3, m, m0, m1, mq, mp, m4, h2⟩ := eq_small hy bx by' c
  have hpq : y ^ 2 + (x ^ 2 - y ^ 2) = x ^ 2 := by ring
  have r1 := d4B3_le (d := x ^ 2 - y ^ 2) m0 m1 mq
  have r2 := pRB_le (d := x ^ 2 - y ^ 2) m0 m1 mq (by rw [hpq]; exact mp)
  have r3 := qRA_le (d := x ^ 2 - y ^ 2) m0 m1 mq (by rw [hpq]; exact mp)
  have hE : |x ^ 2 - y ^ 2| * (|x ^ 2 - y ^ 2| / y ^ 2) ^ 3 / m ≤ 1 / 10 ^ 9 := by
    have h0 : 0 ≤ |x ^ 2 - y ^ 2| / y ^ 2 := by positivity
    have k1 : (|x ^ 2 - y ^ 2| / y ^ 2) ^ 2 ≤ (21 / 10000) ^ 2 := pow_le_pow_left₀ h0 h1 2
    have h4 : 0 ≤ |y| := abs_nonneg _
    calc |x ^ 2 - y ^ 2| * (|x ^ 2 - y ^ 2| / y ^ 2) ^ 3 / m = |x ^ 2 - y ^ 2| / m * (|x ^ 2 - y ^ 2| / y ^ 2) ^ 3 := by ring
      _ ≤ (|y| * (21 / 10000) + 21 / 10000) * (|x ^ 2 - y ^ 2| / y ^ 2) ^ 3 := mul_le_mul_of_nonneg_right h2 (by positivity)
      _ = 21 / 10000 * ((|x ^ 2 - y ^ 2| / y ^ 2) ^ 2 * (|y| * (|x ^ 2 - y ^ 2| / y ^ 2) + |x ^ 2 - y ^ 2| / y ^ 2)) := by ring
      _ ≤ 21 / 10000 * ((21 / 10000) ^ 2 * (21 / 1000000 + 21 / 10000)) := by
        refine mul_le_mul_of_nonneg_left (mul_le_mul k1 (add_le_add h3 h1) (by positivity) (by norm_num)) (by norm_num)
      _ ≤ _ := by norm_num
  have r1' := r1.trans hE
  have r2' := r2.trans hE
  have r3' : |y ^ 2 * RA (y ^ 2) (x ^ 2 - y ^ 2)| ≤ 2 / 10 ^ 9 := by linarith
  have hL := L_equal (d := x ^ 2 - y ^ 2) hq (by rw [hpq]; exact hp)
  rw [hpq, ← Lq] at hL
  rw [hpq] at r2'
  rw [F8I_eq hx hy, F9I_J (x := x) (y := y) (p := y ^ 2 + (x ^ 2 - y ^ 2)) (q := y ^ 2) (by ring) rfl,
    F9_equal hq (by rw [hpq]; exact hp), F8_equal_code hy hy1, hL]
  simp only
  have e : ∀ (p q b0 b1 b2 b3 R T R' : ℝ), (-2) + 2 * (q * (b0 - (p - q) * b1 + (p - q) ^ 2 * b2 - (p - q) ^ 3 * b3) +
      (p - q) * (b0 - (p - q) * b1 + (p - q) ^ 2 * b2)) + q * T - (-2 + 2 * p * (b0 - (p - q) * b1 + (p - q) ^ 2 * b2 - (p - q) ^ 3 * b3 + R) +
        q * (T + R')) = 2 * ((p - q) ^ 4 * b3) - 2 * (p * R) - q * R' := by intros; ring
  rw [e]
  rw [abs_le] at *
  constructor <;> linarith [r1'.1, r1'.2, r2'.1, r2'.2, r3'.1, r3'.2]

omit hx hy in
theorem sq_ne_one (h : ¬ |(|x| - 1)| ≤ 1 / 100) : x ^ 2 ≠ 1 := by
  intro e; apply h
  have : |x| = 1 := by rw [← abs_one]; exact (sq_eq_sq_iff_abs_eq_abs x 1).1 (by rw [e]; norm_num)
  rw [this]; norm_num

omit hx hy in
theorem sq_ne_sq (h : ¬ |(|x| - |y|)| ≤ 1 / 100000) : x ^ 2 ≠ y ^ 2 := by
  intro e; apply h
  rw [sq_eq_sq_iff_abs_eq_abs] at e
  rw [e]; norm_num

/-- `F9` is accurate to `10⁻⁶` unless an argument is close to zero -/
theorem F9_acc (bx : ¬ |x| ≤ 1 / 100) (by' : ¬ |y| ≤ 1 / 100) : |F9 x y - Spec.F9I x y| ≤ 1 / 10 ^ 6 := by
  rw [F9_real]
  split_ifs with a b c d e f
  · exact (F9_11_acc hx hy a.1 a.2).trans (by norm_num)
  · exact (F9_1x_acc hx hy (sq_ne_one fun h => a ⟨b, h⟩) b by').trans (by norm_num)
  · rw [Spec.F9I_symm]; exact (F9_1x_acc hy hx (sq_ne_one b) c bx).trans (by norm_num)
  · exact absurd (d.trans (by norm_num)) bx
  · exact absurd (e.trans (by norm_num)) by'
  · exact F9_eq_acc hx hy (sq_ne_one c) bx by' f
  · rw [F9I_spec hx hy (sq_ne_one b) (sq_ne_one c) (sq_ne_sq f), sub_self, abs_zero]; norm_num

/-- `F8` is accurate to `10⁻⁶` unless an argument is close to zero -/
theorem F8_acc (bx : ¬ |x| ≤ 1 / 100) (by' : ¬ |y| ≤ 1 / 100) : |F8 x y - Spec.F8I x y| ≤ 1 / 10 ^ 6 := by
  rw [F8_real]
  split_ifs with z a b c d e f
  · exact absurd (z.1.trans (by norm_num)) bx
  · exact (F8_11_acc hx hy a.1 a.2).trans (by norm_num)
  · exact (F8_1x_acc hx hy (sq_ne_one fun h => a ⟨b, h⟩) b by').trans (by norm_num)
  · rw [Spec.F8I_symm]; exact (F8_1x_acc hy hx (sq_ne_one b) c bx).trans (by norm_num)
  · exact absurd (d.trans (by norm_num)) bx
  · exact absurd (e.trans (by norm_num)) by'
  · exact F8_eq_acc hx hy (sq_ne_one c) bx by' f
  · rw [F8I_spec hx hy (sq_ne_one b) (sq_ne_one c) (sq_ne_sq f), sub_self, abs_zero]; norm_num
end acc

end Himalaya.TLF
