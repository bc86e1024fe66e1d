import Verif.TLF.Four1

/-!
# C32: `f5 … f8`, both arguments close to one
-/

set_option linter.unusedSimpArgs false
set_option linter.unusedVariables false
set_option linter.unusedSectionVars false

namespace Himalaya.TLF
open Real

theorem J_hev_pow (l : List ℝ) : J (fun t => hev l t) = hsum l (fun n => 1 / ((n : ℝ) + 1)) 0 := by
  have h := J_hev (b := fun t => t) (g := fun _ => 1) (by c0) continuousOn_const l 0
  simp only [pow_zero, mul_one] at h
  rw [h]
  congr 1
  funext k
  exact J_pow k

/-! polynomials as coefficient lists -/
noncomputable def padd : List ℝ → List ℝ → List ℝ
  | [], m => m
  | l, [] => l
  | a :: l, b :: m => (a + b) :: padd l m
noncomputable def pscale (c : ℝ) : List ℝ → List ℝ
  | [] => []
  | a :: l => (c * a) :: pscale c l
noncomputable def pmul : List ℝ → List ℝ → List ℝ
  | [], _ => []
  | a :: l, m => padd (pscale a m) (0 :: pmul l m)

theorem hev_padd (l m : List ℝ) (x : ℝ) : hev (padd l m) x = hev l x + hev m x := by
  induction l generalizing m with
  | nil => simp [padd, hev]
  | cons a l ih => cases m with
    | nil => simp [padd, hev]
    | cons b m => simp only [padd, hev, ih]; ring
theorem hev_pscale (c : ℝ) (l : List ℝ) (x : ℝ) : hev (pscale c l) x = c * hev l x := by
  induction l with
  | nil => simp [pscale, hev]
  | cons a l ih => simp only [pscale, hev, ih]; ring
theorem hev_pmul (l m : List ℝ) (x : ℝ) : hev (pmul l m) x = hev l x * hev m x := by
  induction l with
  | nil => simp [pmul, hev]
  | cons a l ih => simp only [pmul, hev, hev_padd, hev_pscale, ih]; ring

noncomputable def Pl (e : ℝ) : List ℝ := [1, -2 * e - e ^ 2, 4 * e ^ 2 + 4 * e ^ 3 + e ^ 4, -8 * e ^ 3 - 12 * e ^ 4, 16 * e ^ 4]
theorem hev_Pl (t e : ℝ) : hev (Pl e) t = Pe t e := by simp only [Pl, hev, Pe, k3, k4]; ring

theorem Pe_le {t e : ℝ} (ht : t ∈ Set.Icc (0:ℝ) 1) (he : |e| ≤ 1 / 49) : |Pe t e| ≤ 21 / 20 := by
  have h1 := Pe_spec ht he
  have h2 := den_ge ht he
  have h3 := rho_le ht he
  have h4 : |1 / (1 + t * (2 * e + e ^ 2))| ≤ 24 / 23 := by
    rw [abs_of_nonneg (by positivity), div_le_iff₀ (by linarith)]; linarith
  have ht0 : |t| ≤ 1 := by rw [abs_of_nonneg ht.1]; exact ht.2
  have h5 : |t * e ^ 5 * rho t e| ≤ 1 * (1 / 49) ^ 5 * 7 := by bnd
  have h6 : Pe t e = 1 / (1 + t * (2 * e + e ^ 2)) - t * e ^ 5 * rho t e := by rw [h1]; ring
  rw [h6]
  exact (ab_sub h4 h5).trans (by norm_num)

noncomputable def U6 (a b : ℝ) : List ℝ :=
  pmul (pmul [(1 + a) ^ 2 + (1 + a) * (1 + b) + (1 + b) ^ 2, (1 + a) ^ 2 * (1 + b) ^ 2 - 2 * ((1 + a) ^ 2 + (1 + a) * (1 + b) + (1 + b) ^ 2), ((1 + a) ^ 2 + (1 + a) * (1 + b) + (1 + b) ^ 2) - (1 + a) ^ 2 * (1 + b) ^ 2] (Pl a)) (Pl b)

theorem N6_le {t a b : ℝ} (ht : t ∈ Set.Icc (0:ℝ) 1) (ha : |a| ≤ 1 / 49) (hb : |b| ≤ 1 / 49) : |(1 - t) * ((1 + a) ^ 2 + (1 + a) * (1 + b) + (1 + b) ^ 2) + t * (1 + a) ^ 2 * (1 + b) ^ 2| ≤ 33 / 10 := by
    have ht0 : |t| ≤ 1 := by rw [abs_of_nonneg ht.1]; exact ht.2
    have ht1 : |1 - t| ≤ 1 := by rw [abs_of_nonneg (by linarith [ht.2])]; linarith [ht.1]
    have ha1 : |1 + a| ≤ 50 / 49 := by have := abs_le.1 ha; rw [abs_le]; constructor <;> linarith
    have hb1 : |1 + b| ≤ 50 / 49 := by have := abs_le.1 hb; rw [abs_le]; constructor <;> linarith
    have h1 : |(1 + a) ^ 2 + (1 + a) * (1 + b) + (1 + b) ^ 2| ≤ (50 / 49) ^ 2 + 50 / 49 * (50 / 49) + (50 / 49) ^ 2 := by bnd
    have h2 : |(1 + a) ^ 2 * (1 + b) ^ 2| ≤ (50 / 49) ^ 2 * (50 / 49) ^ 2 := by bnd
    rw [mul_assoc t]
    rw [abs_le] at h1 h2 ⊢
    have := ht.1; have : 0 ≤ 1 - t := by linarith [ht.2]
    norm_num at h1 h2
    constructor <;> nlinarith [h1.1, h1.2, h2.1, h2.2, mul_le_mul_of_nonneg_left h1.1 this, mul_le_mul_of_nonneg_left h1.2 this, mul_le_mul_of_nonneg_left h2.1 ht.1, mul_le_mul_of_nonneg_left h2.2 ht.1]

theorem U6_close {a b ρ : ℝ} (ha' : |a| ≤ ρ) (hb' : |b| ≤ ρ) (hρ : ρ ≤ 1 / 49) :
    |J (fun t => (1 - t) * ((1 - t) * ((1 + a) ^ 2 + (1 + a) * (1 + b) + (1 + b) ^ 2) + t * (1 + a) ^ 2 * (1 + b) ^ 2) / (D ((1 + a) ^ 2) t * D ((1 + b) ^ 2) t)) - hsum (U6 a b) (fun n => 1 / ((n : ℝ) + 1)) 0| ≤
      49 * ρ ^ 5 := by
  have ha := ha'.trans hρ
  have hb := hb'.trans hρ
  have hp : 0 < (1 + a) ^ 2 := by
    have := (abs_le.1 ha).1
    have : 0 < 1 + a := by linarith
    positivity
  have hq : 0 < (1 + b) ^ 2 := by
    have := (abs_le.1 hb).1
    have : 0 < 1 + b := by linarith
    positivity
  rw [← J_hev_pow]
  refine J_close (by c0) (hev_C0 (by c0) _) ?_
  intro t ht
  have hN := N6_le ht ha hb
  have h3 := rho_le ht ha
  have h4 := rho_le ht hb
  have h5 := Pe_le ht hb
  have h6 : |1 / (1 + t * (2 * a + a ^ 2))| ≤ 24 / 23 := by
    have := den_ge ht ha
    rw [abs_of_nonneg (by positivity), div_le_iff₀ (by linarith)]; linarith
  have ht0 : |t| ≤ 1 := by rw [abs_of_nonneg ht.1]; exact ht.2
  have ht1 : |1 - t| ≤ 1 := by rw [abs_of_nonneg (by linarith [ht.2])]; linarith [ht.1]
  have e1 : (1 - t) * ((1 - t) * ((1 + a) ^ 2 + (1 + a) * (1 + b) + (1 + b) ^ 2) + t * (1 + a) ^ 2 * (1 + b) ^ 2) / (D ((1 + a) ^ 2) t * D ((1 + b) ^ 2) t) =
      (1 - t) * ((1 - t) * ((1 + a) ^ 2 + (1 + a) * (1 + b) + (1 + b) ^ 2) + t * (1 + a) ^ 2 * (1 + b) ^ 2) * (1 / (1 + t * (2 * a + a ^ 2))) * (1 / (1 + t * (2 * b + b ^ 2))) := by
    rw [← D1_sq, ← D1_sq]
    have := D_ne hp ht
    have := D_ne hq ht
    field_simp
  have e2 : hev (U6 a b) t = (1 - t) * ((1 - t) * ((1 + a) ^ 2 + (1 + a) * (1 + b) + (1 + b) ^ 2) + t * (1 + a) ^ 2 * (1 + b) ^ 2) * Pe t a * Pe t b := by
    rw [U6, hev_pmul, hev_pmul, hev_Pl, hev_Pl]
    simp only [hev]
    ring
  rw [e1, e2, Pe_spec ht hb]
  have e3 : Pe t a = 1 / (1 + t * (2 * a + a ^ 2)) - t * a ^ 5 * rho t a := by rw [Pe_spec ht ha]; ring
  rw [e3]
  generalize (1 - t) * ((1 + a) ^ 2 + (1 + a) * (1 + b) + (1 + b) ^ 2) + t * (1 + a) ^ 2 * (1 + b) ^ 2 = N at *
  generalize Pe t b = Pb at *
  generalize 1 / (1 + t * (2 * a + a ^ 2)) = Q at *
  generalize rho t a = R at *
  generalize rho t b = S at *
  have e4 : (1 - t) * N * Q * (Pb + t * b ^ 5 * S) - (1 - t) * N * (Q - t * a ^ 5 * R) * Pb =
      (1 - t) * N * t * (Q * S * b ^ 5 + R * Pb * a ^ 5) := by ring
  rw [e4]
  have e5 : |(1 - t) * N * t * (Q * S * b ^ 5 + R * Pb * a ^ 5)| ≤ 1 * (33 / 10) * 1 * (24 / 23 * 7 * ρ ^ 5 + 7 * (21 / 20) * ρ ^ 5) := by bnd
  refine e5.trans ?_
  have : 0 ≤ ρ ^ 5 := pow_nonneg ((abs_nonneg a).trans ha') 5
  nlinarith

noncomputable def U7 (a b : ℝ) : List ℝ :=
  pmul (pmul [1, -2 - (1 + a) * (1 + b), 1 + (1 + a) * (1 + b)] (Pl a)) (Pl b)

theorem N7_le {t a b : ℝ} (ht : t ∈ Set.Icc (0:ℝ) 1) (ha : |a| ≤ 1 / 49) (hb : |b| ≤ 1 / 49) : |(1 - t) - t * (1 + a) * (1 + b)| ≤ 205 / 100 := by
    have ht0 : |t| ≤ 1 := by rw [abs_of_nonneg ht.1]; exact ht.2
    have ht1 : |1 - t| ≤ 1 := by rw [abs_of_nonneg (by linarith [ht.2])]; linarith [ht.1]
    have ha1 : |1 + a| ≤ 50 / 49 := by have := abs_le.1 ha; rw [abs_le]; constructor <;> linarith
    have hb1 : |1 + b| ≤ 50 / 49 := by have := abs_le.1 hb; rw [abs_le]; constructor <;> linarith
    apply le_trans
    · bnd
    norm_num

theorem U7_close {a b ρ : ℝ} (ha' : |a| ≤ ρ) (hb' : |b| ≤ ρ) (hρ : ρ ≤ 1 / 49) :
    |J (fun t => (1 - t) * ((1 - t) - t * (1 + a) * (1 + b)) / (D ((1 + a) ^ 2) t * D ((1 + b) ^ 2) t)) - hsum (U7 a b) (fun n => 1 / ((n : ℝ) + 1)) 0| ≤
      31 * ρ ^ 5 := by
  have ha := ha'.trans hρ
  have hb := hb'.trans hρ
  have hp : 0 < (1 + a) ^ 2 := by
    have := (abs_le.1 ha).1
    have : 0 < 1 + a := by linarith
    positivity
  have hq : 0 < (1 + b) ^ 2 := by
    have := (abs_le.1 hb).1
    have : 0 < 1 + b := by linarith
    positivity
  rw [← J_hev_pow]
  refine J_close (by c0) (hev_C0 (by c0) _) ?_
  intro t ht
  have hN := N7_le ht ha hb
  have h3 := rho_le ht ha
  have h4 := rho_le ht hb
  have h5 := Pe_le ht hb
  have h6 : |1 / (1 + t * (2 * a + a ^ 2))| ≤ 24 / 23 := by
    have := den_ge ht ha
    rw [abs_of_nonneg (by positivity), div_le_iff₀ (by linarith)]; linarith
  have ht0 : |t| ≤ 1 := by rw [abs_of_nonneg ht.1]; exact ht.2
  have ht1 : |1 - t| ≤ 1 := by rw [abs_of_nonneg (by linarith [ht.2])]; linarith [ht.1]
  have e1 : (1 - t) * ((1 - t) - t * (1 + a) * (1 + b)) / (D ((1 + a) ^ 2) t * D ((1 + b) ^ 2) t) =
      (1 - t) * ((1 - t) - t * (1 + a) * (1 + b)) * (1 / (1 + t * (2 * a + a ^ 2))) * (1 / (1 + t * (2 * b + b ^ 2))) := by
    rw [← D1_sq, ← D1_sq]
    have := D_ne hp ht
    have := D_ne hq ht
    field_simp
  have e2 : hev (U7 a b) t = (1 - t) * ((1 - t) - t * (1 + a) * (1 + b)) * Pe t a * Pe t b := by
    rw [U7, hev_pmul, hev_pmul, hev_Pl, hev_Pl]
    simp only [hev]
    ring
  rw [e1, e2, Pe_spec ht hb]
  have e3 : Pe t a = 1 / (1 + t * (2 * a + a ^ 2)) - t * a ^ 5 * rho t a := by rw [Pe_spec ht ha]; ring
  rw [e3]
  generalize (1 - t) - t * (1 + a) * (1 + b) = N at *
  generalize Pe t b = Pb at *
  generalize 1 / (1 + t * (2 * a + a ^ 2)) = Q at *
  generalize rho t a = R at *
  generalize rho t b = S at *
  have e4 : (1 - t) * N * Q * (Pb + t * b ^ 5 * S) - (1 - t) * N * (Q - t * a ^ 5 * R) * Pb =
      (1 - t) * N * t * (Q * S * b ^ 5 + R * Pb * a ^ 5) := by ring
  rw [e4]
  have e5 : |(1 - t) * N * t * (Q * S * b ^ 5 + R * Pb * a ^ 5)| ≤ 1 * (205 / 100) * 1 * (24 / 23 * 7 * ρ ^ 5 + 7 * (21 / 20) * ρ ^ 5) := by bnd
  refine e5.trans ?_
  have : 0 ≤ ρ ^ 5 := pow_nonneg ((abs_nonneg a).trans ha') 5
  nlinarith

noncomputable def U8 (a b : ℝ) : List ℝ :=
  pmul (pmul [(1 + a) + (1 + b), -2 * ((1 + a) + (1 + b)), (1 + a) + (1 + b)] (Pl a)) (Pl b)

theorem N8_le {t a b : ℝ} (ht : t ∈ Set.Icc (0:ℝ) 1) (ha : |a| ≤ 1 / 49) (hb : |b| ≤ 1 / 49) : |(1 - t) * ((1 + a) + (1 + b))| ≤ 205 / 100 := by
    have ht0 : |t| ≤ 1 := by rw [abs_of_nonneg ht.1]; exact ht.2
    have ht1 : |1 - t| ≤ 1 := by rw [abs_of_nonneg (by linarith [ht.2])]; linarith [ht.1]
    have ha1 : |1 + a| ≤ 50 / 49 := by have := abs_le.1 ha; rw [abs_le]; constructor <;> linarith
    have hb1 : |1 + b| ≤ 50 / 49 := by have := abs_le.1 hb; rw [abs_le]; constructor <;> linarith
    apply le_trans
    · bnd
    norm_num

theorem U8_close {a b ρ : ℝ} (ha' : |a| ≤ ρ) (hb' : |b| ≤ ρ) (hρ : ρ ≤ 1 / 49) :
    |J (fun t => (1 - t) * ((1 - t) * ((1 + a) + (1 + b))) / (D ((1 + a) ^ 2) t * D ((1 + b) ^ 2) t)) - hsum (U8 a b) (fun n => 1 / ((n : ℝ) + 1)) 0| ≤
      31 * ρ ^ 5 := by
  have ha := ha'.trans hρ
  have hb := hb'.trans hρ
  have hp : 0 < (1 + a) ^ 2 := by
    have := (abs_le.1 ha).1
    have : 0 < 1 + a := by linarith
    positivity
  have hq : 0 < (1 + b) ^ 2 := by
    have := (abs_le.1 hb).1
    have : 0 < 1 + b := by linarith
    positivity
  rw [← J_hev_pow]
  refine J_close (by c0) (hev_C0 (by c0) _) ?_
  intro t ht
  have hN := N8_le ht ha hb
  have h3 := rho_le ht ha
  have h4 := rho_le ht hb
  have h5 := Pe_le ht hb
  have h6 : |1 / (1 + t * (2 * a + a ^ 2))| ≤ 24 / 23 := by
    have := den_ge ht ha
    rw [abs_of_nonneg (by positivity), div_le_iff₀ (by linarith)]; linarith
  have ht0 : |t| ≤ 1 := by rw [abs_of_nonneg ht.1]; exact ht.2
  have ht1 : |1 - t| ≤ 1 := by rw [abs_of_nonneg (by linarith [ht.2])]; linarith [ht.1]
  have e1 : (1 - t) * ((1 - t) * ((1 + a) + (1 + b))) / (D ((1 + a) ^ 2) t * D ((1 + b) ^ 2) t) =
      (1 - t) * ((1 - t) * ((1 + a) + (1 + b))) * (1 / (1 + t * (2 * a + a ^ 2))) * (1 / (1 + t * (2 * b + b ^ 2))) := by
    rw [← D1_sq, ← D1_sq]
    have := D_ne hp ht
    have := D_ne hq ht
    field_simp
  have e2 : hev (U8 a b) t = (1 - t) * ((1 - t) * ((1 + a) + (1 + b))) * Pe t a * Pe t b := by
    rw [U8, hev_pmul, hev_pmul, hev_Pl, hev_Pl]
    simp only [hev]
    ring
  rw [e1, e2, Pe_spec ht hb]
  have e3 : Pe t a = 1 / (1 + t * (2 * a + a ^ 2)) - t * a ^ 5 * rho t a := by rw [Pe_spec ht ha]; ring
  rw [e3]
  generalize (1 - t) * ((1 + a) + (1 + b)) = N at *
  generalize Pe t b = Pb at *
  generalize 1 / (1 + t * (2 * a + a ^ 2)) = Q at *
  generalize rho t a = R at *
  generalize rho t b = S at *
  have e4 : (1 - t) * N * Q * (Pb + t * b ^ 5 * S) - (1 - t) * N * (Q - t * a ^ 5 * R) * Pb =
      (1 - t) * N * t * (Q * S * b ^ 5 + R * Pb * a ^ 5) := by ring
  rw [e4]
  have e5 : |(1 - t) * N * t * (Q * S * b ^ 5 + R * Pb * a ^ 5)| ≤ 1 * (205 / 100) * 1 * (24 / 23 * 7 * ρ ^ 5 + 7 * (21 / 20) * ρ ^ 5) := by bnd
  refine e5.trans ?_
  have : 0 ≤ ρ ^ 5 := pow_nonneg ((abs_nonneg a).trans ha') 5
  nlinarith

set_option maxRecDepth 4000 in
set_option maxHeartbeats 1000000 in
theorem f5_1_1_code {r s : ℝ} (ha : |r - 1| ≤ 1 / 49) (hb : |s - 1| ≤ 1 / 49) :
    let a := r - 1; let b := s - 1
    |f5_1_1 r s - 3 / 4 * (hsum (U6 a b) (fun n => 1 / ((n : ℝ) + 1)) 0 + hsum (U7 a b) (fun n => 1 / ((n : ℝ) + 1)) 0)| ≤ 1 / 10 ^ 8 := by
  intro a b
  have e : f5_1_1 r s - 3 / 4 * (hsum (U6 a b) (fun n => 1 / ((n : ℝ) + 1)) 0 + hsum (U7 a b) (fun n => 1 / ((n : ℝ) + 1)) 0) =
      9 / 560 * a * b ^ 4 - 11 / 560 * a * b ^ 5 + 9 / 560 * a ^ 2 * b ^ 3 - 11 / 1680 * a ^ 2 * b ^ 4 + 17 / 1680 * a ^ 2 * b ^ 5 + 9 / 560 * a ^ 3 * b ^ 2 - 11 / 1680 * a ^ 3 * b ^ 3 + 1 / 560 * a ^ 3 * b ^ 4 - 1 / 336 * a ^ 3 * b ^ 5 + 9 / 560 * a ^ 4 * b - 11 / 1680 * a ^ 4 * b ^ 2 + 1 / 560 * a ^ 4 * b ^ 3 + 1 / 3696 * a ^ 4 * b ^ 4 - 29 / 9240 * a ^ 4 * b ^ 5 + 33 / 560 * a ^ 5 - 11 / 560 * a ^ 5 * b + 17 / 1680 * a ^ 5 * b ^ 2 - 1 / 336 * a ^ 5 * b ^ 3 - 29 / 9240 * a ^ 5 * b ^ 4 - 169 / 9240 * a ^ 5 * b ^ 5 - 83 / 1155 * a ^ 5 * b ^ 6 - 1 / 80 * a ^ 6 - 83 / 1155 * a ^ 6 * b ^ 5 - 139 / 1848 * a ^ 6 * b ^ 6 + 33 / 560 * b ^ 5 - 1 / 80 * b ^ 6 := by
    simp only [f5_1_1, real_ofNat, sqr, U6, U7, Pl, pmul, padd, pscale, hsum]
    push_cast
    show _ = _
    simp only [show r - 1 = a from rfl, show s - 1 = b from rfl]
    clear_value a b
    ring
  rw [e]
  replace ha : |a| ≤ 1 / 49 := ha
  replace hb : |b| ≤ 1 / 49 := hb
  clear_value a b
  apply le_trans
  · bnd
  norm_num

set_option maxRecDepth 4000 in
set_option maxHeartbeats 1000000 in
theorem f6_1_1_code {r s : ℝ} (ha : |r - 1| ≤ 1 / 49) (hb : |s - 1| ≤ 1 / 49) :
    let a := r - 1; let b := s - 1
    |f6_1_1 r s - 6 / 7 * hsum (U6 a b) (fun n => 1 / ((n : ℝ) + 1)) 0| ≤ 1 / 10 ^ 8 := by
  intro a b
  have e : f6_1_1 r s - 6 / 7 * hsum (U6 a b) (fun n => 1 / ((n : ℝ) + 1)) 0 =
      2 / 245 * a * b ^ 5 - 17 / 1470 * a ^ 2 * b ^ 5 + 3 / 490 * a ^ 3 * b ^ 5 + 2 / 8085 * a ^ 4 * b ^ 5 + 2 / 49 * a ^ 5 + 2 / 245 * a ^ 5 * b - 17 / 1470 * a ^ 5 * b ^ 2 + 3 / 490 * a ^ 5 * b ^ 3 + 2 / 8085 * a ^ 5 * b ^ 4 - 288 / 2695 * a ^ 5 * b ^ 5 - 664 / 8085 * a ^ 5 * b ^ 6 - 1 / 70 * a ^ 6 - 664 / 8085 * a ^ 6 * b ^ 5 - 139 / 1617 * a ^ 6 * b ^ 6 + 2 / 49 * b ^ 5 - 1 / 70 * b ^ 6 := by
    simp only [f6_1_1, real_ofNat, sqr, U6, Pl, pmul, padd, pscale, hsum]
    push_cast
    show _ = _
    simp only [show r - 1 = a from rfl, show s - 1 = b from rfl]
    clear_value a b
    ring
  rw [e]
  replace ha : |a| ≤ 1 / 49 := ha
  replace hb : |b| ≤ 1 / 49 := hb
  clear_value a b
  apply le_trans
  · bnd
  norm_num

set_option maxRecDepth 4000 in
set_option maxHeartbeats 1000000 in
theorem f7_1_1_code {r s : ℝ} (ha : |r - 1| ≤ 1 / 49) (hb : |s - 1| ≤ 1 / 49) :
    let a := r - 1; let b := s - 1
    |f7_1_1 r s - 6 * hsum (U7 a b) (fun n => 1 / ((n : ℝ) + 1)) 0| ≤ 1 / 10 ^ 8 := by
  intro a b
  have e : f7_1_1 r s - 6 * hsum (U7 a b) (fun n => 1 / ((n : ℝ) + 1)) 0 =
      -3 / 14 * a * b ^ 5 + 17 / 105 * a ^ 2 * b ^ 5 - 1 / 15 * a ^ 3 * b ^ 5 - 31 / 1155 * a ^ 4 * b ^ 5 + 13 / 70 * a ^ 5 - 3 / 14 * a ^ 5 * b + 17 / 105 * a ^ 5 * b ^ 2 - 1 / 15 * a ^ 5 * b ^ 3 - 31 / 1155 * a ^ 5 * b ^ 4 + 139 / 231 * a ^ 5 * b ^ 5 + 13 / 70 * b ^ 5 := by
    simp only [f7_1_1, real_ofNat, sqr, U7, Pl, pmul, padd, pscale, hsum]
    push_cast
    show _ = _
    simp only [show r - 1 = a from rfl, show s - 1 = b from rfl]
    clear_value a b
    ring
  rw [e]
  replace ha : |a| ≤ 1 / 49 := ha
  replace hb : |b| ≤ 1 / 49 := hb
  clear_value a b
  apply le_trans
  · bnd
  norm_num

set_option maxRecDepth 4000 in
set_option maxHeartbeats 1000000 in
theorem f8_1_1_code {r s : ℝ} (ha : |r - 1| ≤ 1 / 49) (hb : |s - 1| ≤ 1 / 49) :
    let a := r - 1; let b := s - 1
    |f8_1_1 r s - 3 / 2 * hsum (U8 a b) (fun n => 1 / ((n : ℝ) + 1)) 0| ≤ 1 / 10 ^ 8 := by
  intro a b
  have e : f8_1_1 r s - 3 / 2 * hsum (U8 a b) (fun n => 1 / ((n : ℝ) + 1)) 0 =
      -1 / 140 * a * b ^ 5 - 11 / 840 * a ^ 2 * b ^ 5 + 1 / 42 * a ^ 3 * b ^ 5 - 9 / 385 * a ^ 4 * b ^ 5 + 3 / 140 * a ^ 5 - 1 / 140 * a ^ 5 * b - 11 / 840 * a ^ 5 * b ^ 2 + 1 / 42 * a ^ 5 * b ^ 3 - 9 / 385 * a ^ 5 * b ^ 4 + 3 / 140 * b ^ 5 := by
    simp only [f8_1_1, real_ofNat, sqr, U8, Pl, pmul, padd, pscale, hsum]
    push_cast
    show _ = _
    simp only [show r - 1 = a from rfl, show s - 1 = b from rfl]
    clear_value a b
    ring
  rw [e]
  replace ha : |a| ≤ 1 / 49 := ha
  replace hb : |b| ≤ 1 / 49 := hb
  clear_value a b
  apply le_trans
  · bnd
  norm_num

end Himalaya.TLF
