import Verif.Li2.ClTab
import Verif.Li2.ClModel
import Verif.Base.PolyCheck

/-!
# Uniform error of the two rational approximations of the Clausen function
-/

namespace Himalaya.Clausen
open Real

/-! ### The series as integer polynomials -/

theorem eval_cast (l : List ℤ) (f : ℕ → ℚ) (n : ℕ) (h : l.map (fun (a : ℤ) => (a : ℚ)) = (List.range n).map f) (y : ℝ) :
    Poly.eval l y = ∑ i ∈ Finset.range n, (f i : ℝ) * y ^ i := by
  induction n generalizing l f with
  | zero =>
    cases l with
    | nil => simp
    | cons a l => cases h
  | succ n ih =>
    rw [List.range_succ_eq_map, List.map_cons, List.map_map] at h
    cases l with
    | nil => cases h
    | cons a l =>
      rw [List.map_cons] at h
      injection h with h1 h2
      rw [Poly.eval_cons, ih l (f ∘ Nat.succ) h2, Finset.sum_range_succ', Finset.mul_sum, add_comm]
      congr 1
      · apply Finset.sum_congr rfl
        intro i _
        simp only [Function.comp, Nat.succ_eq_add_one, pow_succ]; ring
      · rw [← h1]; simp

/-- coefficient of `x^(2i+3)` -/
noncomputable def k (i : ℕ) : ℝ := c (i + 1) / (2 * i + 3)

theorem k_eq (i : ℕ) : (((-1) ^ i * Dz * b (2 * (i + 1)) / (2 * (i + 1 : ℕ) * (2 * (i + 1 : ℕ) + 1)) : ℚ) : ℝ) = Dz * k i := by
  unfold k
  rw [c_eq _ (by omega)]
  push_cast
  rw [pow_succ, pow_succ]
  have : (i : ℝ) + 1 ≠ 0 := by positivity
  have : 2 * (i : ℝ) + 3 ≠ 0 := by positivity
  have : 2 * ((i : ℝ) + 1) + 1 ≠ 0 := by positivity
  rw [show 2 * ((i : ℝ) + 1) + 1 = 2 * i + 3 by ring]
  field_simp

theorem eval_Sz (y : ℝ) : Poly.eval Sz y = Dz * ∑ i ∈ Finset.range 30, k i * y ^ i := by
  rw [eval_cast _ _ _ Sz_eq, Finset.mul_sum]
  apply Finset.sum_congr rfl
  intro i _
  rw [k_eq, mul_assoc]

theorem eval_Sz_take (y : ℝ) : Poly.eval (Sz.take 15) y = Dz * ∑ i ∈ Finset.range 15, k i * y ^ i := by
  have h := congrArg (List.take 15) Sz_eq
  rw [← List.map_take, ← List.map_take, List.take_range] at h
  rw [eval_cast _ _ _ h, Finset.mul_sum]
  apply Finset.sum_congr rfl
  intro i _
  rw [k_eq, mul_assoc]

theorem Gser_eq (N : ℕ) (x : ℝ) : Gser N x = x * (x * x * ∑ i ∈ Finset.range N, k i * (x * x) ^ i) := by
  unfold Gser k
  rw [Finset.mul_sum, Finset.mul_sum]
  apply Finset.sum_congr rfl
  intro i _
  rw [show x * x = x ^ 2 by ring, ← pow_mul, show x ^ (2 * i + 3) = x * (x ^ 2 * x ^ (2 * i)) by ring]
  ring

/-! ### Small arguments -/

/-- `10^25` times the coefficients -/
def pSz : List ℤ := [138888888888888890000000, -4328693020374307100000, 32779814789973427000, -36001540369575084]
def qSz : List ℤ := [10000000000000000000000000, -361665897466941210000000, 3601582728120263900000, -8364618284218442800]

theorem eval_pSz (y : ℝ) : Poly.eval pSz y = 10 ^ 25 * pS y := by
  simp only [pSz, Poly.eval_cons, Poly.eval_nil, pS]
  norm_num
  ring
theorem eval_qSz (y : ℝ) : Poly.eval qSz y = 10 ^ 25 * qS y := by
  simp only [qSz, Poly.eval_cons, Poly.eval_nil, qS]
  norm_num
  ring

/-- `10^43 Dz (2·10⁻¹⁸ q + σ y (p - q s))` -/
def ES (σ : ℤ) : List ℤ :=
  Poly.add (Poly.smul (2 * Dz) qSz)
    (0 :: Poly.smul (σ * 10 ^ 18) (Poly.add (Poly.smul Dz pSz) (Poly.smul (-1) (Poly.mul qSz (Sz.take 15)))))

theorem eval_ES (σ : ℤ) (y : ℝ) : Poly.eval (ES σ) y =
    10 ^ 43 * Dz * (2 / 10 ^ 18 * qS y + σ * (y * (pS y - qS y * ∑ i ∈ Finset.range 15, k i * y ^ i))) := by
  simp only [ES, Poly.eval_add, Poly.eval_smul, Poly.eval_cons, Poly.eval_mul, eval_pSz, eval_qSz, eval_Sz_take]
  push_cast
  ring

/-- the certificate for the interval `[0, 2.48]` -/
def cert3 (l : List ℤ) : Bool := Poly.cert 7 1 1 l && Poly.cert 7 11 5 l && Poly.cert 7 61 25 l

theorem cert3_sound {l : List ℤ} (h : cert3 l = true) {y : ℝ} (h0 : 0 ≤ y) (h1 : y ≤ 2.48) : 0 ≤ Poly.eval l y := by
  simp only [cert3, Bool.and_eq_true] at h
  obtain ⟨⟨a, b⟩, c⟩ := h
  by_cases y1 : y ≤ 2
  · exact Poly.cert_sound _ _ _ _ (by norm_num) a y (by push_cast; rw [abs_le]; constructor <;> linarith)
  by_cases y2 : y ≤ 2.4
  · exact Poly.cert_sound _ _ _ _ (by norm_num) b y (by push_cast; rw [abs_le]; constructor <;> linarith)
  · exact Poly.cert_sound _ _ _ _ (by norm_num) c y (by push_cast; rw [abs_le]; constructor <;> linarith)

theorem certS_plus : cert3 (ES 1) = true := by decide +kernel
theorem certS_minus : cert3 (ES (-1)) = true := by decide +kernel
theorem certS_q : cert3 (Poly.add qSz [-9 * 10 ^ 24]) = true := by decide +kernel

theorem Dz_pos : (0 : ℝ) < Dz := by
  have : (0 : ℤ) < Dz := by decide +kernel
  exact_mod_cast this

theorem qS_ge {y : ℝ} (h0 : 0 ≤ y) (h1 : y ≤ 2.48) : 9 / 10 ≤ qS y := by
  have := cert3_sound certS_q h0 h1
  rw [Poly.eval_add, eval_qSz] at this
  simp only [Poly.eval_cons, Poly.eval_nil] at this
  push_cast at this
  linarith

theorem small_error {x : ℝ} (h0 : 0 ≤ x) (h1 : x * x ≤ 2.48) :
    |x * (x * x * pS (x * x) / qS (x * x)) - Gser 15 x| ≤ 2 / 10 ^ 18 * x := by
  have y0 : 0 ≤ x * x := mul_self_nonneg x
  have hq : 0 < qS (x * x) := by have := qS_ge y0 h1; linarith
  have e1 := cert3_sound certS_plus y0 h1
  have e2 := cert3_sound certS_minus y0 h1
  rw [eval_ES] at e1 e2
  have hpos : (0 : ℝ) < 10 ^ 43 * Dz := mul_pos (by norm_num) Dz_pos
  replace e1 := nonneg_of_mul_nonneg_right e1 hpos
  replace e2 := nonneg_of_mul_nonneg_right e2 hpos
  rw [Gser_eq]
  generalize ∑ i ∈ Finset.range 15, k i * (x * x) ^ i = S at e1 e2 ⊢
  push_cast at e1 e2
  generalize qS (x * x) = q at *
  generalize pS (x * x) = p at *
  have hq' := hq.ne'
  have : x * (x * x * p / q) - x * (x * x * S) = x * ((x * x * (p - q * S)) / q) := by
    field_simp
  rw [this, abs_mul, abs_of_nonneg h0, mul_comm]
  apply mul_le_mul_of_nonneg_right _ h0
  rw [abs_div, abs_of_pos hq, div_le_iff₀ hq, abs_le]
  constructor <;> linarith

/-! ### Large arguments -/

/-- the polynomial `l(d t)` in `t` -/
def scaleVar (d : ℤ) : List ℤ → List ℤ
  | [] => []
  | a :: l => a :: Poly.smul d (scaleVar d l)

theorem eval_scaleVar (d : ℤ) (l : List ℤ) (t : ℝ) : Poly.eval (scaleVar d l) t = Poly.eval l (d * t) := by
  induction l with
  | nil => rfl
  | cons a l ih => simp only [scaleVar, Poly.eval_cons, Poly.eval_smul, ih]; ring

/-- `10^24` times the coefficients -/
def pLz : List ℤ := [640057024461955120000000, -206416553513387830000000, 24175305223497718000000, -1235595528785572800000,
  25649833551291124000, -147838291287733200]
def qLz : List ℤ := [1000000000000000000000000, -252991020156663560000000, 22148751048467057000000, -781839204624574960000,
  9543254219631067000, -18184302880448247]

theorem eval_pLz (y : ℝ) : Poly.eval pLz y = 10 ^ 24 * pL y := by
  simp only [pLz, Poly.eval_cons, Poly.eval_nil, pL]
  norm_num
  ring
theorem eval_qLz (y : ℝ) : Poly.eval qLz y = 10 ^ 24 * qL y := by
  simp only [qLz, Poly.eval_cons, Poly.eval_nil, qL]
  norm_num
  ring

/-- `PI * PI / 8 = nZ / dZ` -/
def nZ : ℤ := 884279719003555 ^ 2
def dZ : ℤ := 8 * 281474976710656 ^ 2

/-- `l(t - PI*PI/8)` as a polynomial in `t`, up to a factor -/
def shiftZ (l : List ℤ) : List ℤ := scaleVar dZ (Poly.recentre (-nZ) dZ l).1

theorem eval_shiftZ (l : List ℤ) (t : ℝ) :
    Poly.eval (shiftZ l) t = (Poly.recentre (-nZ) dZ l).2 * Poly.eval l (t - PI * PI / 8) := by
  have hd : 0 < dZ := by decide +kernel
  rw [shiftZ, eval_scaleVar, Poly.recentre_eval hd]
  unfold PI nZ dZ
  push_cast
  ring

/-- `10^20 log 2`, rounded -/
def log2z : ℤ := 69314718055994530942

theorem log_two_bound : |Real.log 2 - log2z / 10 ^ 20| ≤ 1 / 10 ^ 20 := by
  have h := Real.abs_log_sub_add_sum_range_le (x := 1 / 2) (by rw [abs_of_pos] <;> norm_num) 70
  rw [show (1 : ℝ) - 1 / 2 = 2⁻¹ by norm_num, Real.log_inv, abs_of_pos (by norm_num : (0 : ℝ) < 1 / 2)] at h
  have hS : |∑ i ∈ Finset.range 70, (1 / 2 : ℝ) ^ (i + 1) / (i + 1) - log2z / 10 ^ 20| ≤ 8 / 10 ^ 21 := by
    simp only [Finset.sum_range_succ, Finset.sum_range_zero, log2z]
    norm_num [abs_le]
  rw [abs_le] at h hS ⊢
  have : (1 / 2 : ℝ) ^ (70 + 1) / 2⁻¹ ≤ 1 / 10 ^ 21 := by norm_num
  constructor <;> linarith [h.1, h.2, hS.1, hS.2]

/-- `10^20 Dz` times the series of `Cl₂(π - y)/y` in `t = y²` -/
def Tz : List ℤ := log2z * Dz :: Poly.smul (10 ^ 20) (Poly.add Sz (Poly.smul (-4) (scaleVar 4 Sz)))

theorem eval_Tz (y : ℝ) : y * Poly.eval Tz (y * y) = 10 ^ 20 * Dz * (y * (log2z / 10 ^ 20) + Gser 30 y - Gser 30 (2 * y) / 2) := by
  simp only [Tz, Poly.eval_cons, Poly.eval_smul, Poly.eval_add, eval_scaleVar, eval_Sz, Gser_eq]
  push_cast
  rw [show 2 * y * (2 * y) = 4 * (y * y) by ring]
  generalize ∑ i ∈ Finset.range 30, k i * (y * y) ^ i = A
  generalize ∑ i ∈ Finset.range 30, k i * (4 * (y * y)) ^ i = B
  ring

/-- `ε q + σ (p - q T)` up to a factor, with `ε = 12·10⁻¹⁸` -/
def EL (σ : ℤ) : List ℤ :=
  Poly.add (Poly.smul (1200 * Dz) (shiftZ qLz))
    (Poly.smul σ (Poly.add (Poly.smul (10 ^ 20 * Dz) (shiftZ pLz)) (Poly.smul (-1) (Poly.mul (shiftZ qLz) Tz))))

theorem certL_plus : cert3 (EL 1) = true := by decide +kernel
theorem certL_minus : cert3 (EL (-1)) = true := by decide +kernel
theorem certL_q : cert3 (Poly.add (shiftZ qLz) [-(10 ^ 23 * dZ ^ 6)]) = true := by decide +kernel

theorem recentre_snd (l : List ℤ) (m K : ℤ) : (Poly.recentre m K l).2 = K ^ l.length := by
  induction l with
  | nil => simp [Poly.recentre]
  | cons a l ih => simp only [Poly.recentre, ih, List.length_cons, pow_succ]

theorem dZ_pos : (0 : ℝ) < (dZ : ℝ) ^ 6 := by
  have : (0 : ℤ) < dZ := by decide +kernel
  have : (0 : ℝ) < dZ := by exact_mod_cast this
  positivity

theorem eval_shift_p (t : ℝ) : Poly.eval (shiftZ pLz) t = (dZ : ℝ) ^ 6 * 10 ^ 24 * pL (t - PI * PI / 8) := by
  rw [eval_shiftZ, recentre_snd, eval_pLz, show pLz.length = 6 from rfl]; push_cast; ring

theorem eval_shift_q (t : ℝ) : Poly.eval (shiftZ qLz) t = (dZ : ℝ) ^ 6 * 10 ^ 24 * qL (t - PI * PI / 8) := by
  rw [eval_shiftZ, recentre_snd, eval_qLz, show qLz.length = 6 from rfl]; push_cast; ring

theorem qL_ge {t : ℝ} (h0 : 0 ≤ t) (h1 : t ≤ 2.48) : 1 / 10 ≤ qL (t - PI * PI / 8) := by
  have := cert3_sound certL_q h0 h1
  rw [Poly.eval_add, eval_shift_q] at this
  simp only [Poly.eval_cons, Poly.eval_nil] at this
  push_cast at this
  have hd := dZ_pos
  generalize qL (t - PI * PI / 8) = q at this ⊢
  generalize (dZ : ℝ) ^ 6 = d at this hd
  by_contra hc
  have : 0 < d * (10 ^ 23 - 10 ^ 24 * q) := mul_pos hd (by linarith)
  linarith

theorem large_error {y : ℝ} (h0 : 0 ≤ y) (h1 : y * y ≤ 2.48) :
    |y * pL (y * y - PI * PI / 8) / qL (y * y - PI * PI / 8) - (y * Real.log 2 + Gser 30 y - Gser 30 (2 * y) / 2)| ≤
      13 / 10 ^ 18 * y := by
  have t0 : 0 ≤ y * y := mul_self_nonneg y
  have hq : 0 < qL (y * y - PI * PI / 8) := by have := qL_ge t0 h1; linarith
  have e1 := cert3_sound certL_plus t0 h1
  have e2 := cert3_sound certL_minus t0 h1
  simp only [EL, Poly.eval_add, Poly.eval_smul, Poly.eval_mul, eval_shift_p, eval_shift_q] at e1 e2
  push_cast at e1 e2
  have hT := eval_Tz y
  have hlog := log_two_bound
  generalize qL (y * y - PI * PI / 8) = q at *
  generalize pL (y * y - PI * PI / 8) = p at *
  generalize Gser 30 y = g1 at *
  generalize Gser 30 (2 * y) = g2 at *
  generalize Poly.eval Tz (y * y) = T at *
  have hd := dZ_pos
  have hD := Dz_pos
  generalize (dZ : ℝ) ^ 6 = d at *
  generalize (Dz : ℝ) = D at *
  generalize (log2z : ℝ) / 10 ^ 20 = l at *
  obtain ⟨U, rfl⟩ : ∃ U, T = 10 ^ 20 * D * U := ⟨T / (10 ^ 20 * D), by field_simp⟩
  have hU : y * U = y * l + g1 - g2 / 2 := by
    have hD' : (10 ^ 20 * D : ℝ) ≠ 0 := by positivity
    apply mul_left_cancel₀ hD'
    linarith
  have hf : 0 < d * 10 ^ 24 * (10 ^ 20 * D) := by positivity
  have f1 : 0 ≤ 12 / 10 ^ 18 * q + (p - q * U) := by
    refine le_of_mul_le_mul_left (a := d * 10 ^ 24 * (10 ^ 20 * D)) ?_ hf
    rw [mul_zero]
    refine e1.trans (le_of_eq ?_); ring
  have f2 : 0 ≤ 12 / 10 ^ 18 * q - (p - q * U) := by
    refine le_of_mul_le_mul_left (a := d * 10 ^ 24 * (10 ^ 20 * D)) ?_ hf
    rw [mul_zero]
    refine e2.trans (le_of_eq ?_); ring
  have hq' := hq.ne'
  have e : y * p / q - (y * Real.log 2 + g1 - g2 / 2) = y * ((p - q * U) / q) - y * (Real.log 2 - l) := by
    have : (p - q * U) / q = p / q - U := by field_simp
    rw [this, mul_sub, hU]; ring
  have b1 : |(p - q * U) / q| ≤ 12 / 10 ^ 18 := by
    rw [abs_div, abs_of_pos hq, div_le_iff₀ hq, abs_le]
    constructor <;> linarith
  rw [e]
  refine (abs_sub _ _).trans ?_
  rw [abs_mul, abs_mul, abs_of_nonneg h0]
  have m1 := mul_le_mul_of_nonneg_left b1 h0
  have m2 := mul_le_mul_of_nonneg_left hlog h0
  linarith

end Himalaya.Clausen
