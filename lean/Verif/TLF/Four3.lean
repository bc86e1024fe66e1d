import Verif.TLF.Four2

/-!
# C32: `f5 … f8`, arguments close to each other
-/

set_option linter.unusedSimpArgs false
set_option linter.unusedVariables false
set_option linter.unusedSectionVars false

namespace Himalaya.TLF
open Real

/-- `∫ dt/(1-t+tq)ⁿ` -/
noncomputable def In (q : ℝ) : ℕ → ℝ
  | 0 => 1
  | 1 => log q / (q - 1)
  | n + 2 => (1 - 1 / q ^ (n + 1)) / (((n : ℝ) + 1) * (q - 1))

theorem J_hev_inv {q : ℝ} (hq : 0 < q) (h1 : q ≠ 1) (l : List ℝ) : J (fun t => hev l (1 / D q t)) = hsum l (In q) 0 := by
  have h := J_hev (b := fun t => 1 / D q t) (g := fun _ => 1) (by c0) continuousOn_const l 0
  simp only [pow_zero, mul_one] at h
  rw [h]
  congr 1
  funext k
  match k with
  | 0 => simp only [pow_zero, In]; exact J_const 1
  | 1 => simp only [pow_one, In]; exact I1_eq hq h1
  | n + 2 =>
    simp only [In]; rw [← In_eq hq h1 n]
    exact J_congr fun t _ => by simp [div_pow]

/-! `(1-t)/D`, `t q/D` and the coefficients of `Pe` as polynomials in `1/D` -/
noncomputable def zl (q : ℝ) : List ℝ := [-1 / (q - 1), q / (q - 1)]
noncomputable def wl (q : ℝ) : List ℝ := [q / (q - 1), -q / (q - 1)]
noncomputable def p2l (q : ℝ) : List ℝ := padd (pscale 4 (pmul (wl q) (wl q))) (pscale (-1) (wl q))
noncomputable def p3l (q : ℝ) : List ℝ := pmul (pmul (wl q) (wl q)) (padd [4] (pscale (-8) (wl q)))
noncomputable def p4l (q : ℝ) : List ℝ := pmul (pmul (wl q) (wl q)) (padd (padd [1] (pscale (-12) (wl q))) (pscale 16 (pmul (wl q) (wl q))))

section
variable {q t : ℝ} (hq : 0 < q) (h1 : q ≠ 1) (ht : t ∈ Set.Icc (0:ℝ) 1)
include hq h1 ht
theorem hev_zl : hev (zl q) (1 / D q t) = (1 - t) / D q t := by
  have := D_ne hq ht
  have := sub_ne_zero.2 h1
  simp only [zl, hev]
  field_simp
  unfold D; ring
theorem hev_wl : hev (wl q) (1 / D q t) = t * q / D q t := by
  have := D_ne hq ht
  have := sub_ne_zero.2 h1
  simp only [wl, hev]
  field_simp
  unfold D; ring
end

theorem wz {q t : ℝ} (hq : 0 < q) (ht : t ∈ Set.Icc (0:ℝ) 1) :
    t * q / D q t ∈ Set.Icc (0:ℝ) 1 ∧ (1 - t) / D q t ∈ Set.Icc (0:ℝ) 1 ∧ (1 - t) / D q t + t * q / D q t = 1 := by
  have h2 := frac_le hq ht
  have h3 := tq_le hq ht
  rw [mul_comm q t] at h3
  refine ⟨h3, h2, ?_⟩
  have := D_ne hq ht
  field_simp
  unfold D; ring

theorem D_scaled {s e t : ℝ} (hs : s ≠ 0) (ht : t ∈ Set.Icc (0:ℝ) 1) :
    D ((s * (1 + e)) ^ 2) t = D (s ^ 2) t * (1 + t * s ^ 2 / D (s ^ 2) t * (2 * e + e ^ 2)) := by
  have := D_ne (q := s ^ 2) (by positivity) ht
  field_simp
  unfold D; ring

noncomputable def V6a (q e : ℝ) : List ℝ :=
  pmul (zl q) (padd (padd (padd (padd (pscale 3 (zl q)) (wl q)) (pscale e (padd (padd (pscale 3 (zl q)) (pscale 2 (wl q))) (pmul (padd (pscale 3 (zl q)) (wl q)) (pscale (-2) (wl q))))))
    (pscale (e ^ 2) (padd (padd (padd (zl q) (wl q)) (pmul (padd (pscale 3 (zl q)) (pscale 2 (wl q))) (pscale (-2) (wl q)))) (pmul (padd (pscale 3 (zl q)) (wl q)) (p2l q)))))
    (pscale (e ^ 3) (padd (padd (pmul (padd (zl q) (wl q)) (pscale (-2) (wl q))) (pmul (padd (pscale 3 (zl q)) (pscale 2 (wl q))) (p2l q))) (pmul (padd (pscale 3 (zl q)) (wl q)) (p3l q)))))
noncomputable def V6b (q e : ℝ) : List ℝ :=
  pmul (zl q) (pscale (e ^ 4) (padd (padd (pmul (padd (zl q) (wl q)) (p2l q)) (pmul (padd (pscale 3 (zl q)) (pscale 2 (wl q))) (p3l q))) (pmul (padd (pscale 3 (zl q)) (wl q)) (p4l q))))

noncomputable def V7a (q e : ℝ) : List ℝ :=
  pmul (zl q) (padd (padd (padd (padd (zl q) (pscale (-1) (wl q))) (pscale e (padd (pscale (-1) (wl q)) (pmul (padd (zl q) (pscale (-1) (wl q))) (pscale (-2) (wl q))))))
    (pscale (e ^ 2) (padd (padd ([]) (pmul (pscale (-1) (wl q)) (pscale (-2) (wl q)))) (pmul (padd (zl q) (pscale (-1) (wl q))) (p2l q)))))
    (pscale (e ^ 3) (padd (padd (pmul ([]) (pscale (-2) (wl q))) (pmul (pscale (-1) (wl q)) (p2l q))) (pmul (padd (zl q) (pscale (-1) (wl q))) (p3l q)))))
noncomputable def V7b (q e : ℝ) : List ℝ :=
  pmul (zl q) (pscale (e ^ 4) (padd (padd (pmul ([]) (p2l q)) (pmul (pscale (-1) (wl q)) (p3l q))) (pmul (padd (zl q) (pscale (-1) (wl q))) (p4l q))))

noncomputable def V8a (q e : ℝ) : List ℝ :=
  pmul (zl q) (padd (padd (padd (pscale 2 (zl q)) (pscale e (padd (zl q) (pmul (pscale 2 (zl q)) (pscale (-2) (wl q))))))
    (pscale (e ^ 2) (padd (padd ([]) (pmul (zl q) (pscale (-2) (wl q)))) (pmul (pscale 2 (zl q)) (p2l q)))))
    (pscale (e ^ 3) (padd (padd (pmul ([]) (pscale (-2) (wl q))) (pmul (zl q) (p2l q))) (pmul (pscale 2 (zl q)) (p3l q)))))
noncomputable def V8b (q e : ℝ) : List ℝ :=
  pmul (zl q) (pscale (e ^ 4) (padd (padd (pmul ([]) (p2l q)) (pmul (zl q) (p3l q))) (pmul (pscale 2 (zl q)) (p4l q))))

set_option maxHeartbeats 1000000 in
theorem V6_close3 {s e : ℝ} (hs : s ≠ 0) (h1 : s ^ 2 ≠ 1) (he : |e| ≤ 1 / 49) :
    |J (fun t => (1 - t) * ((1 - t) * ((s * (1 + e)) ^ 2 + (s * (1 + e)) * s + s ^ 2) + t * (s * (1 + e)) ^ 2 * s ^ 2) / (D ((s * (1 + e)) ^ 2) t * D (s ^ 2) t)) - s ^ 2 * hsum (V6a (s ^ 2) e) (In (s ^ 2)) 0| ≤
      |s ^ 2| * (80 * |e| ^ 4) := by
  have hq : 0 < s ^ 2 := by positivity
  have hp : 0 < (s * (1 + e)) ^ 2 := by
    have := (abs_le.1 he).1
    have : 0 < 1 + e := by linarith
    positivity
  rw [← J_hev_inv hq h1]
  have cT : C0 (fun t => s ^ 2 * hev (V6a (s ^ 2) e) (1 / D (s ^ 2) t)) := continuousOn_const.mul (hev_C0 (by c0) _)
  rw [← J_smul]
  refine J_close (by c0) cT ?_
  intro t ht
  obtain ⟨hw, hz, hwz⟩ := wz hq ht
  have ez := hev_zl hq h1 ht
  have ew := hev_wl hq h1 ht
  have h3 := rho_le hw he
  have h4 := k4_le hw
  have h5 := k3_le hw
  have e1 : (1 - t) * ((1 - t) * ((s * (1 + e)) ^ 2 + (s * (1 + e)) * s + s ^ 2) + t * (s * (1 + e)) ^ 2 * s ^ 2) / (D ((s * (1 + e)) ^ 2) t * D (s ^ 2) t) =
      s ^ 2 * ((1 - t) / D (s ^ 2) t * ((3 * ((1 - t) / D (s ^ 2) t) + (t * s ^ 2 / D (s ^ 2) t)) + e * (3 * ((1 - t) / D (s ^ 2) t) + 2 * (t * s ^ 2 / D (s ^ 2) t)) + e ^ 2 * (((1 - t) / D (s ^ 2) t) + (t * s ^ 2 / D (s ^ 2) t))) *
        (Pe (t * s ^ 2 / D (s ^ 2) t) e + (t * s ^ 2 / D (s ^ 2) t) * e ^ 5 * rho (t * s ^ 2 / D (s ^ 2) t) e)) := by
    rw [← Pe_spec hw he]
    have k1 := D_ne hp ht
    have k2 := D_ne hq ht
    have k3 := D_scaled (e := e) hs ht
    have k4 : 1 + t * s ^ 2 / D (s ^ 2) t * (2 * e + e ^ 2) ≠ 0 := by
      intro h; rw [h, mul_zero] at k3; exact k1 k3
    rw [k3]
    generalize hA : 1 + t * s ^ 2 / D (s ^ 2) t * (2 * e + e ^ 2) = A at *
    field_simp
    ring
  rw [e1]
  simp only [V6a, p2l, p3l, p4l, hev_pmul, hev_padd, hev_pscale, ez, ew]
  set w := t * s ^ 2 / D (s ^ 2) t with hw'
  set z := (1 - t) / D (s ^ 2) t with hz'
  have hwa : |w| ≤ 1 := by rw [abs_of_nonneg hw.1]; exact hw.2
  have hza : |z| ≤ 1 := by rw [abs_of_nonneg hz.1]; exact hz.2
  generalize rho w e = R at *
  rw [← mul_sub, abs_mul]
  refine mul_le_mul_of_nonneg_left ?_ (abs_nonneg _)
  have e2 : ∀ A B : ℝ, A = B → |B| ≤ 80 * |e| ^ 4 → |A| ≤ 80 * |e| ^ 4 := fun A B h k => by rw [h]; exact k
  refine e2 _ (e ^ 4 * (z * ((3 * z + w) * k4 w + (3 * z + 2 * w) * k3 w + (z + w) * (4 * w ^ 2 - w) + e * (((3 * z + w) + e * (3 * z + 2 * w) + e ^ 2 * (z + w)) * w * R + (3 * z + 2 * w) * k4 w + (z + w) * k3 w + e * (z + w) * k4 w)))) ?_ ?_
  · simp only [hev, Pe, k3, k4]
    ring
  · rw [abs_mul, abs_pow, mul_comm]
    refine mul_le_mul_of_nonneg_right ?_ (by positivity)
    have hz2 : z = 1 - w := by linarith
    generalize k4 w = K4 at *
    generalize k3 w = K3 at *
    clear e1 e2 hz' hw' ez ew
    clear_value w z
    apply le_trans
    · bnd
    norm_num

set_option maxHeartbeats 1000000 in
theorem V6_close {s e : ℝ} (hs : s ≠ 0) (h1 : s ^ 2 ≠ 1) (he : |e| ≤ 1 / 49) :
    |J (fun t => (1 - t) * ((1 - t) * ((s * (1 + e)) ^ 2 + (s * (1 + e)) * s + s ^ 2) + t * (s * (1 + e)) ^ 2 * s ^ 2) / (D ((s * (1 + e)) ^ 2) t * D (s ^ 2) t)) - s ^ 2 * hsum (padd (V6a (s ^ 2) e) (V6b (s ^ 2) e)) (In (s ^ 2)) 0| ≤
      |s ^ 2| * (80 * |e| ^ 5) := by
  have hq : 0 < s ^ 2 := by positivity
  have hp : 0 < (s * (1 + e)) ^ 2 := by
    have := (abs_le.1 he).1
    have : 0 < 1 + e := by linarith
    positivity
  rw [← J_hev_inv hq h1]
  have cT : C0 (fun t => s ^ 2 * hev (padd (V6a (s ^ 2) e) (V6b (s ^ 2) e)) (1 / D (s ^ 2) t)) := continuousOn_const.mul (hev_C0 (by c0) _)
  rw [← J_smul]
  refine J_close (by c0) cT ?_
  intro t ht
  obtain ⟨hw, hz, hwz⟩ := wz hq ht
  have ez := hev_zl hq h1 ht
  have ew := hev_wl hq h1 ht
  have h3 := rho_le hw he
  have h4 := k4_le hw
  have h5 := k3_le hw
  have e1 : (1 - t) * ((1 - t) * ((s * (1 + e)) ^ 2 + (s * (1 + e)) * s + s ^ 2) + t * (s * (1 + e)) ^ 2 * s ^ 2) / (D ((s * (1 + e)) ^ 2) t * D (s ^ 2) t) =
      s ^ 2 * ((1 - t) / D (s ^ 2) t * ((3 * ((1 - t) / D (s ^ 2) t) + (t * s ^ 2 / D (s ^ 2) t)) + e * (3 * ((1 - t) / D (s ^ 2) t) + 2 * (t * s ^ 2 / D (s ^ 2) t)) + e ^ 2 * (((1 - t) / D (s ^ 2) t) + (t * s ^ 2 / D (s ^ 2) t))) *
        (Pe (t * s ^ 2 / D (s ^ 2) t) e + (t * s ^ 2 / D (s ^ 2) t) * e ^ 5 * rho (t * s ^ 2 / D (s ^ 2) t) e)) := by
    rw [← Pe_spec hw he]
    have k1 := D_ne hp ht
    have k2 := D_ne hq ht
    have k3 := D_scaled (e := e) hs ht
    have k4 : 1 + t * s ^ 2 / D (s ^ 2) t * (2 * e + e ^ 2) ≠ 0 := by
      intro h; rw [h, mul_zero] at k3; exact k1 k3
    rw [k3]
    generalize hA : 1 + t * s ^ 2 / D (s ^ 2) t * (2 * e + e ^ 2) = A at *
    field_simp
    ring
  rw [e1]
  simp only [V6a, V6b, p2l, p3l, p4l, hev_pmul, hev_padd, hev_pscale, ez, ew]
  set w := t * s ^ 2 / D (s ^ 2) t with hw'
  set z := (1 - t) / D (s ^ 2) t with hz'
  have hwa : |w| ≤ 1 := by rw [abs_of_nonneg hw.1]; exact hw.2
  have hza : |z| ≤ 1 := by rw [abs_of_nonneg hz.1]; exact hz.2
  generalize rho w e = R at *
  rw [← mul_sub, abs_mul]
  refine mul_le_mul_of_nonneg_left ?_ (abs_nonneg _)
  have e2 : ∀ A B : ℝ, A = B → |B| ≤ 80 * |e| ^ 5 → |A| ≤ 80 * |e| ^ 5 := fun A B h k => by rw [h]; exact k
  refine e2 _ (e ^ 5 * (z * (((3 * z + w) + e * (3 * z + 2 * w) + e ^ 2 * (z + w)) * w * R + (3 * z + 2 * w) * k4 w + (z + w) * k3 w + e * (z + w) * k4 w))) ?_ ?_
  · simp only [hev, Pe, k3, k4]
    ring
  · rw [abs_mul, abs_pow, mul_comm]
    refine mul_le_mul_of_nonneg_right ?_ (by positivity)
    have hz2 : z = 1 - w := by linarith
    generalize k4 w = K4 at *
    generalize k3 w = K3 at *
    clear e1 e2 hz' hw' ez ew
    clear_value w z
    apply le_trans
    · bnd
    norm_num

set_option maxHeartbeats 1000000 in
theorem V7_close3 {s e : ℝ} (hs : s ≠ 0) (h1 : s ^ 2 ≠ 1) (he : |e| ≤ 1 / 49) :
    |J (fun t => (1 - t) * ((1 - t) - t * (s * (1 + e)) * s) / (D ((s * (1 + e)) ^ 2) t * D (s ^ 2) t)) - 1 * hsum (V7a (s ^ 2) e) (In (s ^ 2)) 0| ≤
      |1| * (25 * |e| ^ 4) := by
  have hq : 0 < s ^ 2 := by positivity
  have hp : 0 < (s * (1 + e)) ^ 2 := by
    have := (abs_le.1 he).1
    have : 0 < 1 + e := by linarith
    positivity
  rw [← J_hev_inv hq h1]
  have cT : C0 (fun t => 1 * hev (V7a (s ^ 2) e) (1 / D (s ^ 2) t)) := continuousOn_const.mul (hev_C0 (by c0) _)
  rw [← J_smul]
  refine J_close (by c0) cT ?_
  intro t ht
  obtain ⟨hw, hz, hwz⟩ := wz hq ht
  have ez := hev_zl hq h1 ht
  have ew := hev_wl hq h1 ht
  have h3 := rho_le hw he
  have h4 := k4_le hw
  have h5 := k3_le hw
  have e1 : (1 - t) * ((1 - t) - t * (s * (1 + e)) * s) / (D ((s * (1 + e)) ^ 2) t * D (s ^ 2) t) =
      1 * ((1 - t) / D (s ^ 2) t * ((((1 - t) / D (s ^ 2) t) - (t * s ^ 2 / D (s ^ 2) t)) + e * (-(t * s ^ 2 / D (s ^ 2) t)) + e ^ 2 * 0) *
        (Pe (t * s ^ 2 / D (s ^ 2) t) e + (t * s ^ 2 / D (s ^ 2) t) * e ^ 5 * rho (t * s ^ 2 / D (s ^ 2) t) e)) := by
    rw [← Pe_spec hw he]
    have k1 := D_ne hp ht
    have k2 := D_ne hq ht
    have k3 := D_scaled (e := e) hs ht
    have k4 : 1 + t * s ^ 2 / D (s ^ 2) t * (2 * e + e ^ 2) ≠ 0 := by
      intro h; rw [h, mul_zero] at k3; exact k1 k3
    rw [k3]
    generalize hA : 1 + t * s ^ 2 / D (s ^ 2) t * (2 * e + e ^ 2) = A at *
    field_simp
    ring
  rw [e1]
  simp only [V7a, p2l, p3l, p4l, hev_pmul, hev_padd, hev_pscale, ez, ew]
  set w := t * s ^ 2 / D (s ^ 2) t with hw'
  set z := (1 - t) / D (s ^ 2) t with hz'
  have hwa : |w| ≤ 1 := by rw [abs_of_nonneg hw.1]; exact hw.2
  have hza : |z| ≤ 1 := by rw [abs_of_nonneg hz.1]; exact hz.2
  generalize rho w e = R at *
  rw [← mul_sub, abs_mul]
  refine mul_le_mul_of_nonneg_left ?_ (abs_nonneg _)
  have e2 : ∀ A B : ℝ, A = B → |B| ≤ 25 * |e| ^ 4 → |A| ≤ 25 * |e| ^ 4 := fun A B h k => by rw [h]; exact k
  refine e2 _ (e ^ 4 * (z * ((z - w) * k4 w + (-w) * k3 w + 0 * (4 * w ^ 2 - w) + e * (((z - w) + e * (-w) + e ^ 2 * 0) * w * R + (-w) * k4 w + 0 * k3 w + e * 0 * k4 w)))) ?_ ?_
  · simp only [hev, Pe, k3, k4]
    ring
  · rw [abs_mul, abs_pow, mul_comm]
    refine mul_le_mul_of_nonneg_right ?_ (by positivity)
    have hz2 : z = 1 - w := by linarith
    generalize k4 w = K4 at *
    generalize k3 w = K3 at *
    clear e1 e2 hz' hw' ez ew
    clear_value w z
    apply le_trans
    · bnd
    norm_num

set_option maxHeartbeats 1000000 in
theorem V7_close {s e : ℝ} (hs : s ≠ 0) (h1 : s ^ 2 ≠ 1) (he : |e| ≤ 1 / 49) :
    |J (fun t => (1 - t) * ((1 - t) - t * (s * (1 + e)) * s) / (D ((s * (1 + e)) ^ 2) t * D (s ^ 2) t)) - 1 * hsum (padd (V7a (s ^ 2) e) (V7b (s ^ 2) e)) (In (s ^ 2)) 0| ≤
      |1| * (25 * |e| ^ 5) := by
  have hq : 0 < s ^ 2 := by positivity
  have hp : 0 < (s * (1 + e)) ^ 2 := by
    have := (abs_le.1 he).1
    have : 0 < 1 + e := by linarith
    positivity
  rw [← J_hev_inv hq h1]
  have cT : C0 (fun t => 1 * hev (padd (V7a (s ^ 2) e) (V7b (s ^ 2) e)) (1 / D (s ^ 2) t)) := continuousOn_const.mul (hev_C0 (by c0) _)
  rw [← J_smul]
  refine J_close (by c0) cT ?_
  intro t ht
  obtain ⟨hw, hz, hwz⟩ := wz hq ht
  have ez := hev_zl hq h1 ht
  have ew := hev_wl hq h1 ht
  have h3 := rho_le hw he
  have h4 := k4_le hw
  have h5 := k3_le hw
  have e1 : (1 - t) * ((1 - t) - t * (s * (1 + e)) * s) / (D ((s * (1 + e)) ^ 2) t * D (s ^ 2) t) =
      1 * ((1 - t) / D (s ^ 2) t * ((((1 - t) / D (s ^ 2) t) - (t * s ^ 2 / D (s ^ 2) t)) + e * (-(t * s ^ 2 / D (s ^ 2) t)) + e ^ 2 * 0) *
        (Pe (t * s ^ 2 / D (s ^ 2) t) e + (t * s ^ 2 / D (s ^ 2) t) * e ^ 5 * rho (t * s ^ 2 / D (s ^ 2) t) e)) := by
    rw [← Pe_spec hw he]
    have k1 := D_ne hp ht
    have k2 := D_ne hq ht
    have k3 := D_scaled (e := e) hs ht
    have k4 : 1 + t * s ^ 2 / D (s ^ 2) t * (2 * e + e ^ 2) ≠ 0 := by
      intro h; rw [h, mul_zero] at k3; exact k1 k3
    rw [k3]
    generalize hA : 1 + t * s ^ 2 / D (s ^ 2) t * (2 * e + e ^ 2) = A at *
    field_simp
    ring
  rw [e1]
  simp only [V7a, V7b, p2l, p3l, p4l, hev_pmul, hev_padd, hev_pscale, ez, ew]
  set w := t * s ^ 2 / D (s ^ 2) t with hw'
  set z := (1 - t) / D (s ^ 2) t with hz'
  have hwa : |w| ≤ 1 := by rw [abs_of_nonneg hw.1]; exact hw.2
  have hza : |z| ≤ 1 := by rw [abs_of_nonneg hz.1]; exact hz.2
  generalize rho w e = R at *
  rw [← mul_sub, abs_mul]
  refine mul_le_mul_of_nonneg_left ?_ (abs_nonneg _)
  have e2 : ∀ A B : ℝ, A = B → |B| ≤ 25 * |e| ^ 5 → |A| ≤ 25 * |e| ^ 5 := fun A B h k => by rw [h]; exact k
  refine e2 _ (e ^ 5 * (z * (((z - w) + e * (-w) + e ^ 2 * 0) * w * R + (-w) * k4 w + 0 * k3 w + e * 0 * k4 w))) ?_ ?_
  · simp only [hev, Pe, k3, k4]
    ring
  · rw [abs_mul, abs_pow, mul_comm]
    refine mul_le_mul_of_nonneg_right ?_ (by positivity)
    have hz2 : z = 1 - w := by linarith
    generalize k4 w = K4 at *
    generalize k3 w = K3 at *
    clear e1 e2 hz' hw' ez ew
    clear_value w z
    apply le_trans
    · bnd
    norm_num

set_option maxHeartbeats 1000000 in
theorem V8_close {s e : ℝ} (hs : s ≠ 0) (h1 : s ^ 2 ≠ 1) (he : |e| ≤ 1 / 49) :
    |J (fun t => (1 - t) * ((1 - t) * ((s * (1 + e)) + s)) / (D ((s * (1 + e)) ^ 2) t * D (s ^ 2) t)) - s * hsum (padd (V8a (s ^ 2) e) (V8b (s ^ 2) e)) (In (s ^ 2)) 0| ≤
      |s| * (25 * |e| ^ 5) := by
  have hq : 0 < s ^ 2 := by positivity
  have hp : 0 < (s * (1 + e)) ^ 2 := by
    have := (abs_le.1 he).1
    have : 0 < 1 + e := by linarith
    positivity
  rw [← J_hev_inv hq h1]
  have cT : C0 (fun t => s * hev (padd (V8a (s ^ 2) e) (V8b (s ^ 2) e)) (1 / D (s ^ 2) t)) := continuousOn_const.mul (hev_C0 (by c0) _)
  rw [← J_smul]
  refine J_close (by c0) cT ?_
  intro t ht
  obtain ⟨hw, hz, hwz⟩ := wz hq ht
  have ez := hev_zl hq h1 ht
  have ew := hev_wl hq h1 ht
  have h3 := rho_le hw he
  have h4 := k4_le hw
  have h5 := k3_le hw
  have e1 : (1 - t) * ((1 - t) * ((s * (1 + e)) + s)) / (D ((s * (1 + e)) ^ 2) t * D (s ^ 2) t) =
      s * ((1 - t) / D (s ^ 2) t * ((2 * ((1 - t) / D (s ^ 2) t)) + e * ((1 - t) / D (s ^ 2) t) + e ^ 2 * 0) *
        (Pe (t * s ^ 2 / D (s ^ 2) t) e + (t * s ^ 2 / D (s ^ 2) t) * e ^ 5 * rho (t * s ^ 2 / D (s ^ 2) t) e)) := by
    rw [← Pe_spec hw he]
    have k1 := D_ne hp ht
    have k2 := D_ne hq ht
    have k3 := D_scaled (e := e) hs ht
    have k4 : 1 + t * s ^ 2 / D (s ^ 2) t * (2 * e + e ^ 2) ≠ 0 := by
      intro h; rw [h, mul_zero] at k3; exact k1 k3
    rw [k3]
    generalize hA : 1 + t * s ^ 2 / D (s ^ 2) t * (2 * e + e ^ 2) = A at *
    field_simp
    ring
  rw [e1]
  simp only [V8a, V8b, p2l, p3l, p4l, hev_pmul, hev_padd, hev_pscale, ez, ew]
  set w := t * s ^ 2 / D (s ^ 2) t with hw'
  set z := (1 - t) / D (s ^ 2) t with hz'
  have hwa : |w| ≤ 1 := by rw [abs_of_nonneg hw.1]; exact hw.2
  have hza : |z| ≤ 1 := by rw [abs_of_nonneg hz.1]; exact hz.2
  generalize rho w e = R at *
  rw [← mul_sub, abs_mul]
  refine mul_le_mul_of_nonneg_left ?_ (abs_nonneg _)
  have e2 : ∀ A B : ℝ, A = B → |B| ≤ 25 * |e| ^ 5 → |A| ≤ 25 * |e| ^ 5 := fun A B h k => by rw [h]; exact k
  refine e2 _ (e ^ 5 * (z * (((2 * z) + e * z + e ^ 2 * 0) * w * R + z * k4 w + 0 * k3 w + e * 0 * k4 w))) ?_ ?_
  · simp only [hev, Pe, k3, k4]
    ring
  · rw [abs_mul, abs_pow, mul_comm]
    refine mul_le_mul_of_nonneg_right ?_ (by positivity)
    have hz2 : z = 1 - w := by linarith
    generalize k4 w = K4 at *
    generalize k3 w = K3 at *
    clear e1 e2 hz' hw' ez ew
    clear_value w z
    apply le_trans
    · bnd
    norm_num

set_option maxRecDepth 8000 in
set_option maxHeartbeats 4000000 in
theorem f5_r1_r2_code {r s : ℝ} (hs : s ≠ 0) (h1 : s ^ 2 ≠ 1) :
    f5_r1_r2 r s = 3 / 4 * (s ^ 2 * hsum (V6a (s ^ 2) ((r - s) / s)) (In (s ^ 2)) 0 + 1 * hsum (V7a (s ^ 2) ((r - s) / s)) (In (s ^ 2)) 0) := by
  have hd : (r - s) / s * s = r - s := div_mul_cancel₀ _ hs
  simp only [f5_r1_r2, real_ofNat, real_lit, sqr, real_log, V6a, V7a, p2l, p3l, p4l, zl, wl, pmul, padd, pscale, hsum, In]
  push_cast
  simp only [← pow_two]
  rw [← hd]
  generalize (r - s) / s = e
  have h1' : s ^ 2 - 1 ≠ 0 := sub_ne_zero.2 h1
  clear hd h1
  generalize log (s ^ 2) = L
  have hy : s ^ 2 = (s ^ 2 - 1) + 1 := by ring
  field_simp
  ring

set_option maxRecDepth 8000 in
set_option maxHeartbeats 4000000 in
theorem f6_r1_r2_code {r s : ℝ} (hs : s ≠ 0) (h1 : s ^ 2 ≠ 1) :
    f6_r1_r2 r s = 6 / 7 * (s ^ 2 * hsum (padd (V6a (s ^ 2) ((r - s) / s)) (V6b (s ^ 2) ((r - s) / s))) (In (s ^ 2)) 0) := by
  have hd : (r - s) / s * s = r - s := div_mul_cancel₀ _ hs
  simp only [f6_r1_r2, real_ofNat, real_lit, sqr, real_log, V6a, V6b, p2l, p3l, p4l, zl, wl, pmul, padd, pscale, hsum, In]
  push_cast
  simp only [← pow_two]
  rw [← hd]
  generalize (r - s) / s = e
  have h1' : s ^ 2 - 1 ≠ 0 := sub_ne_zero.2 h1
  clear hd h1
  generalize log (s ^ 2) = L
  have hy : s ^ 2 = (s ^ 2 - 1) + 1 := by ring
  field_simp
  ring

set_option maxRecDepth 8000 in
set_option maxHeartbeats 4000000 in
theorem f7_r1_r2_code {r s : ℝ} (hs : s ≠ 0) (h1 : s ^ 2 ≠ 1) :
    f7_r1_r2 r s = 6 * (1 * hsum (padd (V7a (s ^ 2) ((r - s) / s)) (V7b (s ^ 2) ((r - s) / s))) (In (s ^ 2)) 0) := by
  have hd : (r - s) / s * s = r - s := div_mul_cancel₀ _ hs
  simp only [f7_r1_r2, real_ofNat, real_lit, sqr, real_log, V7a, V7b, p2l, p3l, p4l, zl, wl, pmul, padd, pscale, hsum, In]
  push_cast
  simp only [← pow_two]
  rw [← hd]
  generalize (r - s) / s = e
  have h1' : s ^ 2 - 1 ≠ 0 := sub_ne_zero.2 h1
  clear hd h1
  generalize log (s ^ 2) = L
  have hy : s ^ 2 = (s ^ 2 - 1) + 1 := by ring
  field_simp
  ring

set_option maxRecDepth 8000 in
set_option maxHeartbeats 4000000 in
theorem f8_r1_r2_code {r s : ℝ} (hs : s ≠ 0) (h1 : s ^ 2 ≠ 1) :
    f8_r1_r2 r s = 3 / 2 * (s * hsum (padd (V8a (s ^ 2) ((r - s) / s)) (V8b (s ^ 2) ((r - s) / s))) (In (s ^ 2)) 0) := by
  have hd : (r - s) / s * s = r - s := div_mul_cancel₀ _ hs
  simp only [f8_r1_r2, real_ofNat, real_lit, sqr, real_log, V8a, V8b, p2l, p3l, p4l, zl, wl, pmul, padd, pscale, hsum, In]
  push_cast
  simp only [← pow_two]
  rw [← hd]
  generalize (r - s) / s = e
  have h1' : s ^ 2 - 1 ≠ 0 := sub_ne_zero.2 h1
  clear hd h1
  generalize log (s ^ 2) = L
  have hy : s ^ 2 = (s ^ 2 - 1) + 1 := by ring
  field_simp
  ring

end Himalaya.TLF
