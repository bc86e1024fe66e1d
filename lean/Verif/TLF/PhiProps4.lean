import Verif.TLF.PhiProps3

/-!
# The two-loop function `phi_xyz`: two small arguments, and where the series branches fail (C39)
-/

namespace Himalaya.TLF.Phi
open Real Set

theorem sqrt_small {u : ℝ} (h : u ≤ 1 / 4000) : √u ≤ 1 / 60 := by
  apply sqrt_le_iff.2 ⟨by norm_num, ?_⟩
  norm_num; linarith

/-- the series for two equal small arguments -/
theorem lequal_err {u x y l : ℝ} (hu : 0 < u) (hu1 : u ≤ 1 / 4000) (hl : 0 < l) (hx : x * (1 - y) = u) (hy : y * (1 - x) = u)
    (hxy : 1 - x - y = l) :
    let t := u * (1 + u * (1 + u * (2 + 5 * u)))
    x = y ∧ u ≤ t ∧ t ≤ x ∧ x - t ≤ 15 * u ^ 4 * t := by
  intro t
  have exy : x = y := by linarith [show x - y = 0 by linear_combination hx - hy]
  subst exy
  have hlsq : l ^ 2 = 1 - 4 * u := by rw [← hxy, ← hx]; ring
  have hl9 : 0.99 ≤ l := by
    refine le_of_sq_le_sq' ?_ hl.le
    rw [hlsq]; norm_num; linarith
  have hp : 0 < u * (1 + u * (2 + 5 * u)) := by positivity
  have ht0 : u ≤ t := by simp only [t]; rw [show u * (1 + u * (1 + u * (2 + 5 * u))) = u + u * (u * (1 + u * (2 + 5 * u))) by ring]; nlinarith
  have ht1 : t ≤ 1 / 1000 := by
    have : u * (1 + u * (2 + 5 * u)) ≤ 1 / 4000 * (1 + 1 / 4000 * (2 + 5 * (1 / 4000))) := by gcongr
    calc t = u * (1 + u * (1 + u * (2 + 5 * u))) := rfl
      _ ≤ 1 / 4000 * (1 + 1 / 4000 * (1 + 1 / 4000 * (2 + 5 * (1 / 4000)))) := by gcongr
      _ ≤ 1 / 1000 := by norm_num
  have hR : (t - x) * (t - (1 - x)) = u ^ 5 * (14 + 14 * u + 20 * u ^ 2 + 25 * u ^ 3) := by
    have h1 : (t - x) * (t - (1 - x)) = t ^ 2 - t + u := by rw [← hx]; ring
    rw [h1]; simp only [t]; ring
  have hx1 : 1 - x = (1 + l) / 2 := by rw [← hxy]; ring
  have hm : (0.98 : ℝ) ≤ 1 - x - t := by rw [hx1]; norm_num at hl9 ⊢; linarith
  obtain ⟨k1, k2⟩ := root_err hR (by positivity) (m := 0.98) (by norm_num) hm
  refine ⟨rfl, ht0, k1, k2.trans ?_⟩
  rw [div_le_iff₀ (by norm_num)]
  have : 14 + 14 * u + 20 * u ^ 2 + 25 * u ^ 3 ≤ 14.7 := by
    calc _ ≤ 14 + 14 * (1 / 4000 : ℝ) + 20 * (1 / 4000) ^ 2 + 25 * (1 / 4000) ^ 3 := by gcongr
      _ ≤ _ := by norm_num
  calc _ ≤ u ^ 5 * 14.7 := by gcongr
    _ = 14.7 * u ^ 4 * u := by ring
    _ ≤ 14.7 * u ^ 4 * t := by gcongr
    _ = _ := by ring

/-- what `phi_pos` evaluates for arguments which it considers to be equal -/
theorem phi_pos_equal {u v : ℝ} (hu : 0 < u) (huv : u ≤ v) (hv : v ≤ 1) (hl : 0 < Spec.lambda2 u v) (h : isEqual u v eps) (hq : u < qdrt_eps) :
    phi_pos u v = (-(log u * log u) + 2 * log (u * (1 + u * (1 + u * (2 + 5 * u)))) * log (u * (1 + u * (1 + u * (2 + 5 * u)))) -
      2 * Li2.dilog (u * (1 + u * (1 + u * (2 + 5 * u)))) - 2 * Li2.dilog (u * (1 + u * (1 + u * (2 + 5 * u)))) + 3.2898681336964529)
        / √(Spec.lambda2 u v) := by
  unfold phi_pos
  rw [if_neg (not_one hu huv hv hl)]
  simp only [lambda_eq, if_pos h, if_pos hq]
  ring

theorem brk_comm (a b : ℝ) : brk a b = brk b a := by unfold brk; ring

/-- **C39**: accuracy of the branches with two small arguments -/
theorem C39_accuracy_tiny {x y z : ℝ} (hx : 0 < x) (hxy : x ≤ y) (hz : 0 < z) (hv : y / z < qdrt_eps)
    (hsep : x = y ∨ eps < y / z - x / z) : |phi_xyz x y z - Spec.phi x y z| ≤ 3e-11 * z := by
  have hu0 : 0 < x / z := by positivity
  have huv : x / z ≤ y / z := by gcongr
  have hv0 : 0 < y / z := hu0.trans_le huv
  have hvs : y / z ≤ 1 / 4000 := hv.le.trans (qdrt_lt.le.trans (by norm_num))
  have hv1 : y / z ≤ 1 := by linarith
  have hyz : y ≤ z := (div_le_one hz).1 hv1
  have hus := huv.trans hvs
  have hl : eps < Spec.lambda2 (x / z) (y / z) := by
    have := eps_lt
    unfold Spec.lambda2
    have : x / z * (y / z) ≤ 1 / 4000 * (1 / 4000) := by gcongr
    norm_num at *; nlinarith
  have hl0 := eps_pos.trans hl
  obtain ⟨h1, h2, h3, h4, h5, h6, h7, h8⟩ := roots_of hu0 huv hv1 hl0
  have hsep : x / z = y / z ∨ eps < y / z - x / z := hsep.imp (fun h => by rw [h]) id
  rcases hsep with he | hsep
  · have hphi : phi_pos (x / z) (y / z) = (-(log (x / z) * log (y / z)) +
        2 * log (x / z * (1 + x / z * (1 + x / z * (2 + 5 * (x / z))))) * log (x / z * (1 + x / z * (1 + x / z * (2 + 5 * (x / z)))))
        - 2 * Li2.dilog (x / z * (1 + x / z * (1 + x / z * (2 + 5 * (x / z))))) - 2 * Li2.dilog (x / z * (1 + x / z * (1 + x / z * (2 + 5 * (x / z)))))
        + 3.2898681336964529) / √(Spec.lambda2 (x / z) (y / z)) := by
      have : isEqual (x / z) (y / z) eps := by unfold isEqual; rw [he]; simp [eps_pos.le]
      rw [phi_pos_equal hu0 huv hv1 hl0 this (huv.trans_lt hv)]
      rw [show log (y / z) = log (x / z) by rw [he]]
    refine (approx_err hx hxy hyz hl rfl rfl hphi (E := 5e-11) ?_).trans (by
      apply mul_le_mul_of_nonneg_right _ hz.le; norm_num)
    clear hphi
    rw [← he] at h1 h5 h6 h7 h8 ⊢
    clear he huv hv hv0 hvs hv1 hl hl0 h2 h3 h4 hsep
    generalize x / z = u at *
    obtain ⟨k1, k2, k3, k4⟩ := lequal_err hu0 hus h1 h7 h8 h6
    rw [← k1] at h5 ⊢
    have b := brk_err (hu0.trans_le k2) (hu0.trans_le k2) k3 k3 h5 k4 k4
    set X := (1 - √(Spec.lambda2 u u) + u - u) / 2
    set t := u * (1 + u * (1 + u * (2 + 5 * u)))
    refine b.trans ?_
    have nu : 0 ≤ -log u := neg_nonneg.2 (log_nonpos hu0.le (by linarith))
    have nuu : 0 ≤ u * -log u := mul_nonneg hu0.le nu
    have q0 := mul_log_le hu0
    have q1 := sqrt_small hus
    have lt : -log t ≤ -log u := neg_le_neg (log_le_log hu0 k2)
    have lX : -log X ≤ -log u := neg_le_neg (log_le_log hu0 (k2.trans k3))
    have u3 : 15 * u ^ 3 ≤ 15 * (1 / 4000) ^ 3 := by gcongr
    have c1 : 15 * u ^ 4 * -log t ≤ 15 * (1 / 4000) ^ 3 * (1 / 30) := by
      calc _ ≤ 15 * u ^ 4 * -log u := by gcongr
        _ = 15 * u ^ 3 * (u * -log u) := by ring
        _ ≤ 15 * (1 / 4000) ^ 3 * (1 / 30) := by gcongr <;> linarith
    have c2 : 15 * u ^ 4 * -log X ≤ 15 * (1 / 4000) ^ 3 * (1 / 30) := by
      calc _ ≤ 15 * u ^ 4 * -log u := by gcongr
        _ = 15 * u ^ 3 * (u * -log u) := by ring
        _ ≤ 15 * (1 / 4000) ^ 3 * (1 / 30) := by gcongr; linarith
    have c3 : (X - t) / (1 - X) ≤ 1e-12 := by
      rw [div_le_iff₀ (by linarith)]
      have : 15 * u ^ 4 * t ≤ 15 * (1 / 4000) ^ 4 * 1 := by gcongr; linarith
      have : (1e-12 : ℝ) * (1 / 2) ≤ 1e-12 * (1 - X) := by gcongr; linarith
      norm_num at *; linarith
    norm_num at c1 c2 c3 ⊢
    linarith
  · have hphi := phi_pos_sep hu0 huv hv1 hl0 hsep
    have hluv : luv √(Spec.lambda2 (x / z) (y / z)) (x / z) (y / z) = (l00 (x / z) (y / z), l00 (y / z) (x / z)) := by
      simp only [luv, hv, if_true]
    rw [hluv] at hphi
    refine (approx_err hx hxy hyz hl rfl rfl hphi (E := 5e-11) ?_).trans (by
      apply mul_le_mul_of_nonneg_right _ hz.le; norm_num)
    rw [brk_comm]
    clear hphi hluv
    generalize x / z = u at *
    generalize y / z = v at *
    obtain ⟨k1, k2, k3⟩ := l00_err hu0 hv0 hus hvs h1 h7 h8 h6
    obtain ⟨m1, m2, m3⟩ := l00_err hv0 hu0 hvs hus h1 h8 h7 (by linarith)
    have b := brk_err (hu0.trans_le m1) (hv0.trans_le k1) m2 k2 h5 m3 k3
    set X := (1 - √(Spec.lambda2 u v) + u - v) / 2
    set Y := (1 - √(Spec.lambda2 u v) - u + v) / 2
    refine b.trans ?_
    have lt : -log (l00 u v) ≤ -log v := neg_le_neg (log_le_log hv0 k1)
    have lX : -log X ≤ -log u := neg_le_neg (log_le_log hu0 (m1.trans m2))
    have nu : 0 ≤ -log u := neg_nonneg.2 (log_nonpos hu0.le (by linarith))
    have nv : 0 ≤ -log v := neg_nonneg.2 (log_nonpos hv0.le (by linarith))
    have nuu : 0 ≤ u * -log u := mul_nonneg hu0.le nu
    have nvv : 0 ≤ v * -log v := mul_nonneg hv0.le nv
    have qu := mul_log_le hu0
    have qu1 := sqrt_small hus
    have qv := mul_log_le hv0
    have qv1 := sqrt_small hvs
    have c1 : 1.1 * v * (v ^ 3 + u ^ 3) * -log (l00 u v) ≤ 1.1 * ((1 / 4000) ^ 3 + (1 / 4000) ^ 3) * (1 / 30) := by
      calc _ ≤ 1.1 * v * (v ^ 3 + u ^ 3) * -log v := by gcongr
        _ = 1.1 * (v ^ 3 + u ^ 3) * (v * -log v) := by ring
        _ ≤ _ := by gcongr <;> linarith
    have c2 : 1.1 * u * (u ^ 3 + v ^ 3) * -log X ≤ 1.1 * ((1 / 4000) ^ 3 + (1 / 4000) ^ 3) * (1 / 30) := by
      calc _ ≤ 1.1 * u * (u ^ 3 + v ^ 3) * -log u := by gcongr
        _ = 1.1 * (u ^ 3 + v ^ 3) * (u * -log u) := by ring
        _ ≤ _ := by gcongr; linarith
    have hx1 : X ≤ 1 / 2 := by
      have : X ≤ Y := by simp only [X, Y]; linarith
      linarith
    have hy1 : Y ≤ 1 / 2 := by
      have e : 1 - X - Y = √(Spec.lambda2 u v) := h6
      have e' : Y - X = v - u := by simp only [X, Y]; ring
      have : 1 / 4 ≤ √(Spec.lambda2 u v) := by
        apply le_sqrt_of_sq_le
        have : u * v ≤ 1 / 4000 * (1 / 4000) := by gcongr
        unfold Spec.lambda2; norm_num at this ⊢; nlinarith
      linarith
    have c3 : (X - l00 v u) / (1 - X) ≤ 1e-12 := by
      rw [div_le_iff₀ (by linarith)]
      have e1 : 1.1 * v * (v ^ 3 + u ^ 3) * l00 v u ≤ 1.1 * (1 / 4000) * ((1 / 4000) ^ 3 + (1 / 4000) ^ 3) * 1 := by
        have g1 : l00 v u ≤ 1 := by linarith
        have g2 : 0 ≤ l00 v u := by linarith
        gcongr
      have e2 : (1e-12 : ℝ) * (1 / 2) ≤ 1e-12 * (1 - X) := by gcongr; linarith
      have e3 := m3.trans e1
      clear m3 k3 b
      norm_num at e2 e3 ⊢; linarith
    have c4 : (Y - l00 u v) / (1 - Y) ≤ 1e-12 := by
      rw [div_le_iff₀ (by linarith)]
      have e1 : 1.1 * u * (u ^ 3 + v ^ 3) * l00 u v ≤ 1.1 * (1 / 4000) * ((1 / 4000) ^ 3 + (1 / 4000) ^ 3) * 1 := by
        have g1 : l00 u v ≤ 1 := by linarith
        have g2 : 0 ≤ l00 u v := by linarith
        gcongr
      have e2 : (1e-12 : ℝ) * (1 / 2) ≤ 1e-12 * (1 - Y) := by gcongr; linarith
      have e3 := k3.trans e1
      clear m3 k3 b
      norm_num at e2 e3 ⊢; linarith
    clear m3 k3 b
    norm_num at c1 c2 c3 c4 ⊢
    linarith

example : |phi_xyz 1 1 10000 - Spec.phi 1 1 10000| ≤ 3e-11 * 10000 := by
  have := qdrt_gt
  exact C39_accuracy_tiny (by norm_num) le_rfl (by norm_num) (by norm_num at *; linarith) (Or.inl rfl)

example : |phi_xyz 1 2 10000 - Spec.phi 1 2 10000| ≤ 3e-11 * 10000 := by
  have := qdrt_gt
  have := eps_lt
  exact C39_accuracy_tiny (by norm_num) (by norm_num) (by norm_num) (by norm_num at *; linarith) (Or.inr (by norm_num at *; linarith))

/-- **C39**: accuracy whenever the second largest mass is at most `1/√2` of the largest one -/
theorem C39_accuracy_half_partial {x y z : ℝ} (hx : 0 < x) (hxy : x ≤ y) (hyz : y ≤ z / 2) (hl : eps < Spec.lambda2 (x / z) (y / z))
    (hsep : x = y ∨ eps < y / z - x / z) : |phi_xyz x y z - Spec.phi x y z| ≤ 1e-8 * z := by
  have hz : 0 < z := by linarith
  have hyz' : y ≤ z := by linarith
  have hv : y / z ≤ 1 / 2 := by rw [div_le_iff₀ hz]; linarith
  by_cases h1 : y / z < qdrt_eps
  · exact (C39_accuracy_tiny hx hxy hz h1 hsep).trans (by gcongr; norm_num)
  · by_cases h2 : x / z < qdrt_eps
    · have hs : eps < y / z - x / z := by
        rcases hsep with h | h
        · rw [h] at h2; exact absurd h2 h1
        · exact h
      have ha : (1 / 4 : ℝ) ≤ (1 - y / z) ^ 2 := by
        have : (1 / 2 : ℝ) ^ 2 ≤ (1 - y / z) ^ 2 := by gcongr; linarith
        norm_num at this ⊢; linarith
      have hq := h2.trans qdrt_lt
      have hu0 : 0 < x / z := by positivity
      refine (C39_accuracy_small hx hxy hyz' hl h2 (not_lt.1 h1) hs (by norm_num at hq; linarith)).trans ?_
      gcongr
      have : x / z / (1 - y / z) ^ 2 ≤ 2.18e-4 / (1 / 4) := by gcongr
      have : (x / z / (1 - y / z) ^ 2) ^ 3 ≤ (2.18e-4 / (1 / 4)) ^ 3 := by gcongr
      norm_num at this ⊢; linarith
    · exact (C39_accuracy_pos hx hxy hyz' hl (not_lt.1 h2) hsep).trans (by gcongr; norm_num)

end Himalaya.TLF.Phi
