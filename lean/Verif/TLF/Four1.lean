import Verif.TLF.Four

/-!
# C32: `f5 … f8`, one argument close to one
-/

set_option linter.unusedSimpArgs false
set_option linter.unusedVariables false
set_option linter.unusedSectionVars false

namespace Himalaya.TLF
open Real

/-- `Σ aₖ μ(n+k)` -/
noncomputable def hsum : List ℝ → (ℕ → ℝ) → ℕ → ℝ
  | [], _, _ => 0
  | a :: l, μ, n => a * μ n + hsum l μ (n + 1)

theorem hev_C0 {b : ℝ → ℝ} (hb : C0 b) (l : List ℝ) : C0 (fun t => hev l (b t)) := by
  induction l with
  | nil => exact continuousOn_const
  | cons a l ih => simp only [hev]; exact continuousOn_const.add (hb.mul ih)

theorem J_hev {b g : ℝ → ℝ} (hb : C0 b) (hg : C0 g) (l : List ℝ) (n : ℕ) :
    J (fun t => hev l (b t) * (b t ^ n * g t)) = hsum l (fun k => J (fun t => b t ^ k * g t)) n := by
  induction l generalizing n with
  | nil => simp only [hev, hsum, zero_mul]; exact J_const 0
  | cons a l ih =>
    simp only [hev, hsum]
    have c1 : C0 (fun t => a * (b t ^ n * g t)) := continuousOn_const.mul ((hb.pow n).mul hg)
    have c2 : C0 (fun t => hev l (b t) * (b t ^ (n + 1) * g t)) := (hev_C0 hb l).mul ((hb.pow _).mul hg)
    rw [← ih, ← J_smul, ← J_add c1 c2]
    apply J_congr
    intro t _
    ring

/-- moments -/
theorem J_hev_M {q : ℝ} (hq : 0 < q) (l : List ℝ) : J (fun t => hev l t * ((1 - t) / D q t)) = hsum l (M q) 0 := by
  have h := J_hev (b := fun t => t) (g := fun t => (1 - t) / D q t) (by c0) (by c0) l 0
  simp only [pow_zero, one_mul] at h
  rw [h]
  congr 1
  funext k
  unfold M
  exact J_congr fun t _ => by ring

noncomputable def T6 (s e : ℝ) : List ℝ :=
  [1 + 2 * e + e * s + e ^ 2 + s + s ^ 2, -1 - 4 * e - 3 * e * s - 6 * e ^ 2 - 3 * e ^ 2 * s - 4 * e ^ 3 - e ^ 3 * s - e ^ 4 - s, 2 * e + 2 * e * s + 9 * e ^ 2 + 7 * e ^ 2 * s + 16 * e ^ 3 + 9 * e ^ 3 * s + 14 * e ^ 4 + 5 * e ^ 4 * s, -4 * e ^ 2 - 4 * e ^ 2 * s - 20 * e ^ 3 - 16 * e ^ 3 * s - 41 * e ^ 4 - 25 * e ^ 4 * s, 8 * e ^ 3 + 8 * e ^ 3 * s + 44 * e ^ 4 + 36 * e ^ 4 * s, -16 * e ^ 4 - 16 * e ^ 4 * s]

noncomputable def T7 (s e : ℝ) : List ℝ :=
  [1, -1 - 2 * e - e * s - e ^ 2 - s, 2 * e + 2 * e * s + 5 * e ^ 2 + 3 * e ^ 2 * s + 4 * e ^ 3 + e ^ 3 * s + e ^ 4, -4 * e ^ 2 - 4 * e ^ 2 * s - 12 * e ^ 3 - 8 * e ^ 3 * s - 13 * e ^ 4 - 5 * e ^ 4 * s, 8 * e ^ 3 + 8 * e ^ 3 * s + 28 * e ^ 4 + 20 * e ^ 4 * s, -16 * e ^ 4 - 16 * e ^ 4 * s]

noncomputable def T8 (s e : ℝ) : List ℝ :=
  [1 + e + s, -1 - 3 * e - 2 * e * s - 3 * e ^ 2 - e ^ 2 * s - e ^ 3 - s, 2 * e + 2 * e * s + 7 * e ^ 2 + 5 * e ^ 2 * s + 9 * e ^ 3 + 4 * e ^ 3 * s + 5 * e ^ 4 + e ^ 4 * s, -4 * e ^ 2 - 4 * e ^ 2 * s - 16 * e ^ 3 - 12 * e ^ 3 * s - 25 * e ^ 4 - 13 * e ^ 4 * s, 8 * e ^ 3 + 8 * e ^ 3 * s + 36 * e ^ 4 + 28 * e ^ 4 * s, -16 * e ^ 4 - 16 * e ^ 4 * s]


section
variable {s t : ℝ} (hs : s ≠ 0) (ht : t ∈ Set.Icc (0:ℝ) 1)
include hs ht

theorem z0_le : |(1 - t) / D (s ^ 2) t| ≤ 1 := by
  have h := frac_le (q := s ^ 2) (by positivity) ht
  rw [abs_of_nonneg h.1]; exact h.2
theorem z2_le : |t * s ^ 2 / D (s ^ 2) t| ≤ 1 := by
  have h := tq_le (q := s ^ 2) (by positivity) ht
  rw [mul_comm, abs_of_nonneg h.1]; exact h.2
theorem z1_le : |t * (1 - t) * s / D (s ^ 2) t| ≤ 1 / 2 := by
  have hD := D_pos (q := s ^ 2) (by positivity) ht.1 ht.2
  have h1 : 0 ≤ 1 - t := by linarith [ht.2]
  have h2 : 0 ≤ t := ht.1
  rw [abs_div, abs_of_pos hD, div_le_iff₀ hD, abs_mul, abs_of_nonneg (mul_nonneg h2 h1)]
  unfold D
  have : s ^ 2 = |s| ^ 2 := (sq_abs s).symm
  rw [this]
  have h3 := abs_nonneg s
  generalize |s| = a at *
  have h4 : t * (1 - t) * a ≤ (1 / 2) * (t * a ^ 2 + (1 - t)) := by
    have k1 : t * (1 - t) * (a ^ 2 - 2 * a + 1) ≥ 0 := mul_nonneg (mul_nonneg h2 h1) (by nlinarith [sq_nonneg (a - 1)])
    have k2 : 0 ≤ t * a ^ 2 * t := by positivity
    have k3 : 0 ≤ (1 - t) * (1 - t) := by positivity
    nlinarith
  linarith
end

theorem kk3_le {w : ℝ} (hw : w ∈ Set.Icc (0:ℝ) 1) : |4 * w - 8 * w ^ 2| ≤ 4 := by
  rw [abs_le]; constructor <;> nlinarith [hw.1, hw.2, sq_nonneg (4 * w - 1)]
theorem kk4_le {w : ℝ} (hw : w ∈ Set.Icc (0:ℝ) 1) : |w - 12 * w ^ 2 + 16 * w ^ 3| ≤ 5 := by
  have h : w - 12 * w ^ 2 + 16 * w ^ 3 = w * (1 - 12 * w + 16 * w ^ 2) := by ring
  rw [h, abs_mul, abs_of_nonneg hw.1]
  have h2 : |1 - 12 * w + 16 * w ^ 2| ≤ 5 := by rw [abs_le]; constructor <;> nlinarith [hw.1, hw.2]
  calc w * |1 - 12 * w + 16 * w ^ 2| ≤ 1 * 5 := mul_le_mul hw.2 h2 (abs_nonneg _) (by norm_num)
    _ = 5 := by ring

theorem D1_sq (e t : ℝ) : D ((1 + e) ^ 2) t = 1 + t * (2 * e + e ^ 2) := by unfold D; ring


theorem T6_close {s e : ℝ} (hs : s ≠ 0) (he : |e| ≤ 1 / 49) :
    |J (fun t => (1 - t) * ((1 - t) * ((1 + e) ^ 2 + (1 + e) * s + s ^ 2) + t * (1 + e) ^ 2 * s ^ 2) / (D ((1 + e) ^ 2) t * D (s ^ 2) t)) - hsum (T6 s e) (M (s ^ 2)) 0| ≤
      65 * |e| ^ 5 := by
  have hq : 0 < s ^ 2 := by positivity
  have hp : 0 < (1 + e) ^ 2 := by
    have := (abs_le.1 he).1
    have : 0 < 1 + e := by linarith
    positivity
  rw [← J_hev_M hq]
  refine J_close (by c0) ((hev_C0 (by c0) _).mul (by c0)) ?_
  intro t ht
  have hD := D_ne hq ht
  have h0 := z0_le hs ht
  have h1 := z1_le hs ht
  have h2 := z2_le hs ht
  have h3 := rho_le ht he
  have h4 := kk4_le ht
  have h5 := kk3_le ht
  have ht0 : |t| ≤ 1 := by rw [abs_of_nonneg ht.1]; exact ht.2
  have ht1 : |1 - t| ≤ 1 := by rw [abs_of_nonneg (by linarith [ht.2])]; linarith [ht.1]
  have he1 : |1 + e| ≤ 50 / 49 := by have := abs_le.1 he; rw [abs_le]; constructor <;> linarith
  have e1 : (1 - t) * ((1 - t) * ((1 + e) ^ 2 + (1 + e) * s + s ^ 2) + t * (1 + e) ^ 2 * s ^ 2) / (D ((1 + e) ^ 2) t * D (s ^ 2) t) =
      (1 - t) * ((1 - t) * ((1 + e) ^ 2 + (1 + e) * s + s ^ 2) + t * (1 + e) ^ 2 * s ^ 2) / D (s ^ 2) t * (Pe t e + t * e ^ 5 * rho t e) := by
    rw [← Pe_spec ht he, ← D1_sq]
    have := D_ne hp ht
    field_simp
  rw [e1]
  set z0 := (1 - t) / D (s ^ 2) t with hz0
  set z1 := t * (1 - t) * s / D (s ^ 2) t with hz1
  set z2 := t * s ^ 2 / D (s ^ 2) t with hz2
  generalize rho t e = R at *
  have e2 : (1 - t) * ((1 - t) * ((1 + e) ^ 2 + (1 + e) * s + s ^ 2) + t * (1 + e) ^ 2 * s ^ 2) / D (s ^ 2) t * (Pe t e + t * e ^ 5 * R) - hev (T6 s e) t * z0 =
      e ^ 5 * ((1 - t) * (R * (t * z0 * (1 + e) ^ 2 + z1 * (1 + e) + (1 - t) * z2 + t * z2 * (1 + e) ^ 2) + (t - 12 * t ^ 2 + 16 * t ^ 3) * (2 * t * z0 + z1 + 2 * t * z2) + (4 * t - 8 * t ^ 2) * (t * z0 + t * z2) + e * (t - 12 * t ^ 2 + 16 * t ^ 3) * (t * z0 + t * z2))) := by
    simp only [hz0, hz1, hz2]
    simp only [T6, hev, Pe, k3, k4]
    generalize D (s ^ 2) t = E at *
    field_simp
    ring
  rw [e2, abs_mul, abs_pow, mul_comm]
  refine mul_le_mul_of_nonneg_right ?_ (by positivity)
  generalize t - 12 * t ^ 2 + 16 * t ^ 3 = K4 at *
  generalize 4 * t - 8 * t ^ 2 = K3 at *
  clear e1 e2 hz0 hz1 hz2
  clear_value z0 z1 z2
  apply le_trans
  · bnd
  norm_num

theorem T7_close {s e : ℝ} (hs : s ≠ 0) (he : |e| ≤ 1 / 49) :
    |J (fun t => (1 - t) * ((1 - t) - t * (1 + e) * s) / (D ((1 + e) ^ 2) t * D (s ^ 2) t)) - hsum (T7 s e) (M (s ^ 2)) 0| ≤
      15 * |e| ^ 5 := by
  have hq : 0 < s ^ 2 := by positivity
  have hp : 0 < (1 + e) ^ 2 := by
    have := (abs_le.1 he).1
    have : 0 < 1 + e := by linarith
    positivity
  rw [← J_hev_M hq]
  refine J_close (by c0) ((hev_C0 (by c0) _).mul (by c0)) ?_
  intro t ht
  have hD := D_ne hq ht
  have h0 := z0_le hs ht
  have h1 := z1_le hs ht
  have h2 := z2_le hs ht
  have h3 := rho_le ht he
  have h4 := kk4_le ht
  have h5 := kk3_le ht
  have ht0 : |t| ≤ 1 := by rw [abs_of_nonneg ht.1]; exact ht.2
  have ht1 : |1 - t| ≤ 1 := by rw [abs_of_nonneg (by linarith [ht.2])]; linarith [ht.1]
  have he1 : |1 + e| ≤ 50 / 49 := by have := abs_le.1 he; rw [abs_le]; constructor <;> linarith
  have e1 : (1 - t) * ((1 - t) - t * (1 + e) * s) / (D ((1 + e) ^ 2) t * D (s ^ 2) t) =
      (1 - t) * ((1 - t) - t * (1 + e) * s) / D (s ^ 2) t * (Pe t e + t * e ^ 5 * rho t e) := by
    rw [← Pe_spec ht he, ← D1_sq]
    have := D_ne hp ht
    field_simp
  rw [e1]
  set z0 := (1 - t) / D (s ^ 2) t with hz0
  set z1 := t * (1 - t) * s / D (s ^ 2) t with hz1
  set z2 := t * s ^ 2 / D (s ^ 2) t with hz2
  generalize rho t e = R at *
  have e2 : (1 - t) * ((1 - t) - t * (1 + e) * s) / D (s ^ 2) t * (Pe t e + t * e ^ 5 * R) - hev (T7 s e) t * z0 =
      e ^ 5 * ((R * (t * (1 - t) * z0 - t * z1 * (1 + e)) - (t - 12 * t ^ 2 + 16 * t ^ 3) * (t * z1))) := by
    simp only [hz0, hz1, hz2]
    simp only [T7, hev, Pe, k3, k4]
    generalize D (s ^ 2) t = E at *
    field_simp
    ring
  rw [e2, abs_mul, abs_pow, mul_comm]
  refine mul_le_mul_of_nonneg_right ?_ (by positivity)
  generalize t - 12 * t ^ 2 + 16 * t ^ 3 = K4 at *
  generalize 4 * t - 8 * t ^ 2 = K3 at *
  clear e1 e2 hz0 hz1 hz2
  clear_value z0 z1 z2
  apply le_trans
  · bnd
  norm_num

theorem T8_close {s e : ℝ} (hs : s ≠ 0) (he : |e| ≤ 1 / 49) :
    |J (fun t => (1 - t) * ((1 - t) * ((1 + e) + s)) / (D ((1 + e) ^ 2) t * D (s ^ 2) t)) - hsum (T8 s e) (M (s ^ 2)) 0| ≤
      20 * |e| ^ 5 := by
  have hq : 0 < s ^ 2 := by positivity
  have hp : 0 < (1 + e) ^ 2 := by
    have := (abs_le.1 he).1
    have : 0 < 1 + e := by linarith
    positivity
  rw [← J_hev_M hq]
  refine J_close (by c0) ((hev_C0 (by c0) _).mul (by c0)) ?_
  intro t ht
  have hD := D_ne hq ht
  have h0 := z0_le hs ht
  have h1 := z1_le hs ht
  have h2 := z2_le hs ht
  have h3 := rho_le ht he
  have h4 := kk4_le ht
  have h5 := kk3_le ht
  have ht0 : |t| ≤ 1 := by rw [abs_of_nonneg ht.1]; exact ht.2
  have ht1 : |1 - t| ≤ 1 := by rw [abs_of_nonneg (by linarith [ht.2])]; linarith [ht.1]
  have he1 : |1 + e| ≤ 50 / 49 := by have := abs_le.1 he; rw [abs_le]; constructor <;> linarith
  have e1 : (1 - t) * ((1 - t) * ((1 + e) + s)) / (D ((1 + e) ^ 2) t * D (s ^ 2) t) =
      (1 - t) * ((1 - t) * ((1 + e) + s)) / D (s ^ 2) t * (Pe t e + t * e ^ 5 * rho t e) := by
    rw [← Pe_spec ht he, ← D1_sq]
    have := D_ne hp ht
    field_simp
  rw [e1]
  set z0 := (1 - t) / D (s ^ 2) t with hz0
  set z1 := t * (1 - t) * s / D (s ^ 2) t with hz1
  set z2 := t * s ^ 2 / D (s ^ 2) t with hz2
  generalize rho t e = R at *
  have e2 : (1 - t) * ((1 - t) * ((1 + e) + s)) / D (s ^ 2) t * (Pe t e + t * e ^ 5 * R) - hev (T8 s e) t * z0 =
      e ^ 5 * ((1 - t) * (R * (t * z0 * (1 + e) + z1) + (t - 12 * t ^ 2 + 16 * t ^ 3) * (t * z0))) := by
    simp only [hz0, hz1, hz2]
    simp only [T8, hev, Pe, k3, k4]
    generalize D (s ^ 2) t = E at *
    field_simp
    ring
  rw [e2, abs_mul, abs_pow, mul_comm]
  refine mul_le_mul_of_nonneg_right ?_ (by positivity)
  generalize t - 12 * t ^ 2 + 16 * t ^ 3 = K4 at *
  generalize 4 * t - 8 * t ^ 2 = K3 at *
  clear e1 e2 hz0 hz1 hz2
  clear_value z0 z1 z2
  apply le_trans
  · bnd
  norm_num

theorem f5_1_r2_code {r s : ℝ} (hs : s ≠ 0) (hs1 : s ^ 2 ≠ 1) (h : ¬ |s| ≤ 1 / 100) :
    f5_1_r2 r s = 3 / 4 * (hsum (T6 s (r - 1)) (M (s ^ 2)) 0 + hsum (T7 s (r - 1)) (M (s ^ 2)) 0) := by
  have hq : 0 < s ^ 2 := by positivity
  have e1 := M_succ hq hs1 0
  have e2 := M_succ hq hs1 1
  have e3 := M_succ hq hs1 2
  have e4 := M_succ hq hs1 3
  have e5 := M_succ hq hs1 4
  norm_num at e1 e2 e3 e4 e5
  simp only [f5_1_r2, isZero_real, real_ofNat, real_lit, decide_eq_true_eq, sqr, real_log, T6, T7, hsum]
  push_cast
  rw [if_neg h]
  rw [e5, e4, e3, e2, e1, M_zero hq hs1]
  simp only [← pow_two]
  generalize log (s ^ 2) = L
  generalize r - 1 = e
  have k1 : s - 1 ≠ 0 := by intro h; apply hs1; rw [sub_eq_zero.1 h]; norm_num
  have k2 : 1 + s ≠ 0 := by intro h; apply hs1; rw [show s = -1 by linarith]; norm_num
  rw [show s ^ 2 - 1 = (s - 1) * (1 + s) by ring]
  field_simp
  ring

theorem f6_1_r2_code {r s : ℝ} (hs : s ≠ 0) (hs1 : s ^ 2 ≠ 1) (h : ¬ |s| ≤ 1 / 10000) :
    f6_1_r2 r s = 6 / 7 * hsum (T6 s (r - 1)) (M (s ^ 2)) 0 := by
  have hq : 0 < s ^ 2 := by positivity
  have e1 := M_succ hq hs1 0
  have e2 := M_succ hq hs1 1
  have e3 := M_succ hq hs1 2
  have e4 := M_succ hq hs1 3
  have e5 := M_succ hq hs1 4
  norm_num at e1 e2 e3 e4 e5
  simp only [f6_1_r2, isZero_real, real_ofNat, real_lit, decide_eq_true_eq, sqr, real_log, T6, hsum]
  push_cast
  rw [if_neg h]
  rw [e5, e4, e3, e2, e1, M_zero hq hs1]
  simp only [← pow_two]
  generalize log (s ^ 2) = L
  generalize r - 1 = e
  have k1 : s - 1 ≠ 0 := by intro h; apply hs1; rw [sub_eq_zero.1 h]; norm_num
  have k2 : 1 + s ≠ 0 := by intro h; apply hs1; rw [show s = -1 by linarith]; norm_num
  rw [show s ^ 2 - 1 = (s - 1) * (1 + s) by ring]
  field_simp
  ring

theorem f7_1_r2_code {r s : ℝ} (hs : s ≠ 0) (hs1 : s ^ 2 ≠ 1) (h : ¬ |s| ≤ 1 / 10000) :
    f7_1_r2 r s = 6 * hsum (T7 s (r - 1)) (M (s ^ 2)) 0 := by
  have hq : 0 < s ^ 2 := by positivity
  have e1 := M_succ hq hs1 0
  have e2 := M_succ hq hs1 1
  have e3 := M_succ hq hs1 2
  have e4 := M_succ hq hs1 3
  have e5 := M_succ hq hs1 4
  norm_num at e1 e2 e3 e4 e5
  simp only [f7_1_r2, isZero_real, real_ofNat, real_lit, decide_eq_true_eq, sqr, real_log, T7, hsum]
  push_cast
  rw [if_neg h]
  rw [e5, e4, e3, e2, e1, M_zero hq hs1]
  simp only [← pow_two]
  generalize log (s ^ 2) = L
  generalize r - 1 = e
  have k1 : s - 1 ≠ 0 := by intro h; apply hs1; rw [sub_eq_zero.1 h]; norm_num
  have k2 : 1 + s ≠ 0 := by intro h; apply hs1; rw [show s = -1 by linarith]; norm_num
  rw [show s ^ 2 - 1 = (s - 1) * (1 + s) by ring]
  field_simp
  ring

theorem f8_1_r2_code {r s : ℝ} (hs : s ≠ 0) (hs1 : s ^ 2 ≠ 1) (h : ¬ |s| ≤ 1 / 10000) :
    f8_1_r2 r s = 3 / 2 * hsum (T8 s (r - 1)) (M (s ^ 2)) 0 := by
  have hq : 0 < s ^ 2 := by positivity
  have e1 := M_succ hq hs1 0
  have e2 := M_succ hq hs1 1
  have e3 := M_succ hq hs1 2
  have e4 := M_succ hq hs1 3
  have e5 := M_succ hq hs1 4
  norm_num at e1 e2 e3 e4 e5
  simp only [f8_1_r2, isZero_real, real_ofNat, real_lit, decide_eq_true_eq, sqr, real_log, T8, hsum]
  push_cast
  rw [if_neg h]
  rw [e5, e4, e3, e2, e1, M_zero hq hs1]
  simp only [← pow_two]
  generalize log (s ^ 2) = L
  generalize r - 1 = e
  have k1 : s - 1 ≠ 0 := by intro h; apply hs1; rw [sub_eq_zero.1 h]; norm_num
  have k2 : 1 + s ≠ 0 := by intro h; apply hs1; rw [show s = -1 by linarith]; norm_num
  rw [show s ^ 2 - 1 = (s - 1) * (1 + s) by ring]
  field_simp
  ring

end Himalaya.TLF
