import Verif.TLF.PhiProps1

/-!
# The two-loop function `phi_xyz`: accuracy for `λ² < 0` (C39)
-/

namespace Himalaya.TLF.Phi
open Real Set

/-- duplication formula of the Clausen function -/
theorem Cl2_dup {x : ℝ} (h0 : 0 ≤ x) (h1 : x ≤ π) : Clausen.Cl2 (2 * x) = 2 * Clausen.Cl2 x - 2 * Clausen.Cl2 (π - x) := by
  have key := Li2.const_of_deriv_zero (f := fun x => Clausen.Cl2 (2 * x) - 2 * Clausen.Cl2 x + 2 * Clausen.Cl2 (π - x)) (s := ∅)
    countable_empty (a := 0) (b := x) (by
      have := cont_Cl2
      apply Continuous.continuousOn
      fun_prop) (by
      intro t ht
      rw [sdiff_empty, min_eq_left h0, max_eq_right h0] at ht
      have ht1 : t < π := ht.2.trans_le h1
      have d1 : HasDerivAt (fun x => Clausen.Cl2 (2 * x)) (-log (2 * sin (2 * t / 2)) * 2) t :=
        (hasDerivAt_Cl2 (x := 2 * t) (by linarith [ht.1]) (by linarith)).comp t (by simpa using (hasDerivAt_id t).const_mul 2)
      have d2 := (hasDerivAt_Cl2 (x := t) ht.1 (by linarith [pi_pos])).const_mul 2
      have d3 : HasDerivAt (fun x => Clausen.Cl2 (π - x)) (-log (2 * sin ((π - t) / 2)) * (-1)) t :=
        (hasDerivAt_Cl2 (x := π - t) (by linarith [ht.1]) (by linarith [ht.1, pi_pos])).comp t (by simpa using (hasDerivAt_id t).const_sub π)
      refine ((d1.sub d2).add (d3.const_mul 2)).congr_deriv ?_
      have e1 : sin (2 * t / 2) = 2 * sin (t / 2) * cos (t / 2) := by rw [← sin_two_mul]; congr 1; ring
      have e2 : sin ((π - t) / 2) = cos (t / 2) := by rw [sub_div, sin_pi_div_two_sub]
      have s0 : 0 < sin (t / 2) := sin_pos_of_pos_of_lt_pi (by linarith [ht.1]) (by linarith [ht.1])
      have c0 : 0 < cos (t / 2) := cos_pos_of_mem_Ioo ⟨by linarith [ht.1, pi_pos], by linarith⟩
      rw [e1, e2, show 2 * (2 * sin (t / 2) * cos (t / 2)) = (2 * sin (t / 2)) * (2 * cos (t / 2)) by ring,
        log_mul (by positivity) (by positivity)]
      ring)
  simp only [mul_zero, Clausen.Cl2_zero, sub_zero, Clausen.Cl2_pi] at key
  linarith

/-- the triangle with sides `√u`, `√v`, `1` -/
theorem triangle {u v : ℝ} (hu : 0 < u) (hv : 0 < v) (hl : Spec.lambda2 u v < 0) :
    let L := √(-Spec.lambda2 u v)
    let a := arccos ((1 + u - v) / 2 / √u)
    let b := arccos ((1 - u + v) / 2 / √v)
    let g := arccos ((-1 + u + v) / 2 / (√u * √v))
    0 < a ∧ 0 < b ∧ 0 < g ∧ a + b + g = π ∧ sin a = L / (2 * √u) ∧ sin b = L / (2 * √v) ∧ sin g = L / (2 * √u * √v) ∧
      Spec.Phi u v = 2 * (Clausen.Cl2 (2 * a) + Clausen.Cl2 (2 * b) + Clausen.Cl2 (2 * g)) / L := by
  intro L a b g
  have hL : 0 < L := sqrt_pos.2 (by linarith)
  have hL2 : L ^ 2 = 4 * u * v - (1 - u - v) ^ 2 := by rw [show L ^ 2 = _ from sq_sqrt (by linarith)]; unfold Spec.lambda2; ring
  clear_value L
  have hp : 0 < √u := sqrt_pos.2 hu
  have hq : 0 < √v := sqrt_pos.2 hv
  have hp2 : √u ^ 2 = u := sq_sqrt hu.le
  have hq2 : √v ^ 2 = v := sq_sqrt hv.le
  have gen : ∀ {c s : ℝ}, 0 < s → c ^ 2 + s ^ 2 = 1 → -1 ≤ c ∧ c ≤ 1 ∧ c < 1 ∧ sin (arccos c) = s := by
    intro c s hs h
    have h1 : c ^ 2 < 1 := by have : 0 < s ^ 2 := by positivity
                              linarith
    have h2 : c < 1 := by nlinarith
    refine ⟨by nlinarith, h2.le, h2, ?_⟩
    rw [sin_arccos, show 1 - c ^ 2 = s ^ 2 by linarith, sqrt_sq hs.le]
  have ga := gen (c := (1 + u - v) / 2 / √u) (s := L / (2 * √u)) (by positivity) (by
    simp only [div_pow, mul_pow, hL2, hp2]; field_simp; ring)
  have gb := gen (c := (1 - u + v) / 2 / √v) (s := L / (2 * √v)) (by positivity) (by
    simp only [div_pow, mul_pow, hL2, hq2]; field_simp; ring)
  have gg := gen (c := (-1 + u + v) / 2 / (√u * √v)) (s := L / (2 * √u * √v)) (by positivity) (by
    simp only [div_pow, mul_pow, hL2, hp2, hq2]; field_simp; ring)
  have a0 : 0 < a := arccos_pos.2 ga.2.2.1
  have b0 : 0 < b := arccos_pos.2 gb.2.2.1
  have g0 : 0 < g := arccos_pos.2 gg.2.2.1
  have ca : cos a = (1 + u - v) / 2 / √u := cos_arccos ga.1 ga.2.1
  have cg : cos g = (-1 + u + v) / 2 / (√u * √v) := cos_arccos gg.1 gg.2.1
  have sa : sin a = L / (2 * √u) := ga.2.2.2
  have sb : sin b = L / (2 * √v) := gb.2.2.2
  have sg : sin g = L / (2 * √u * √v) := gg.2.2.2
  have ha1 : a ≤ π := arccos_le_pi _
  have hg1 : g ≤ π := arccos_le_pi _
  have hsag : sin (a + g) = L / (2 * √v) := by
    rw [sin_add, ca, cg, sa, sg]
    generalize √u = p at *; generalize √v = q at *
    subst hp2; subst hq2
    field_simp; ring
  have hcag : cos (a + g) = -((1 - u + v) / 2 / √v) := by
    rw [cos_add, ca, cg, sa, sg, div_mul_div_comm, div_mul_div_comm L]
    rw [show L * L = 4 * u * v - (1 - u - v) ^ 2 by rw [← hL2]; ring]
    generalize √u = p at *; generalize √v = q at *
    subst hp2; subst hq2
    field_simp; ring
  have hag : a + g < π := by
    by_contra h
    have h := not_lt.1 h
    have : sin (a + g) ≤ 0 := by
      have := sin_nonneg_of_nonneg_of_le_pi (x := a + g - π) (by linarith) (by linarith)
      rw [sin_sub_pi] at this; linarith
    rw [hsag] at this
    have : 0 < L / (2 * √v) := by positivity
    linarith
  have hb : b = π - (a + g) := by
    have : cos (π - (a + g)) = (1 - u + v) / 2 / √v := by rw [cos_pi_sub, hcag, neg_neg]
    show arccos _ = _
    rw [← this, arccos_cos (by linarith) (by linarith)]
  have h1 : √u ^ 2 + √v ^ 2 - 2 * √u * √v * cos g = 1 := by
    rw [cg, hp2, hq2]; field_simp; ring
  have hP := Phi_neg hp hq g0 a0 hag (by
    rw [ca, cg]
    generalize √u = p at *; generalize √v = q at *
    subst hp2; subst hq2
    field_simp; ring) (by rw [sa, sg]; field_simp) h1
  rw [hp2, hq2] at hP
  refine ⟨a0, b0, g0, by rw [hb]; ring, sa, sb, sg, ?_⟩
  rw [hP, sg]
  have e : Clausen.Cl2 (2 * a + 2 * g) = -Clausen.Cl2 (2 * b) := by
    rw [hb, show 2 * a + 2 * g = 2 * π - 2 * (π - (a + g)) by ring, Clausen.Cl2_two_pi_sub]
  rw [e]
  field_simp
  ring

theorem cl_err {a : ℝ} (h0 : 0 < a) (h1 : a < π) {s : ℝ} (hs : sin a = s) (h : 1e-9 ≤ s) :
    |Clausen.clausen2 (2 * a) - Clausen.Cl2 (2 * a)| ≤ 12 / 10 ^ 17 := by
  apply Clausen.C34_error
  rw [abs_of_pos (by linarith)]
  have h2 : sin (π - a) ≤ π - a := sin_le (by linarith)
  rw [sin_pi_sub, hs] at h2
  have := Clausen.PI_close
  norm_num at *
  linarith

/-- `Cl2(2π/3)` -/
theorem Cl2_two_thirds : |2.343907238689459 * √3 - 6 * Clausen.Cl2 (2 * π / 3)| ≤ 2e-15 := by
  have h1 := Real.pi_gt_d20
  have h2 := Real.pi_lt_d20
  obtain ⟨r, hr⟩ : ∃ r : ℝ, r = 209439510239319549231 / 10 ^ 20 := ⟨_, rfl⟩
  have hd : |2 * π / 3 - r| ≤ 1e-20 := by
    rw [abs_le, hr]; constructor <;> norm_num at * <;> linarith
  have e1 := Clausen.C34_error (x := r) (by rw [abs_of_pos (by norm_num [hr])]; unfold Clausen.PI; norm_num [hr])
  have e2 : |Clausen.Cl2 (2 * π / 3) - Clausen.Cl2 r| ≤ 1 * |2 * π / 3 - r| := by
    apply Clausen.Cl2_lipschitz
    intro t ht
    have r1 : r ≤ 21 / 10 := by norm_num [hr]
    have r2 : 2 ≤ r := by norm_num [hr]
    have q1 : 314 / 100 ≤ π := by norm_num at h1 ⊢; linarith
    have q2 : π ≤ 315 / 100 := by norm_num at h2 ⊢; linarith
    have ht' : π / 2 ≤ t ∧ t ≤ π - 1 := by
      rcases le_total (2 * π / 3) r with h | h
      · rw [uIcc_of_le h] at ht
        constructor <;> linarith [ht.1, ht.2]
      · rw [uIcc_of_ge h] at ht
        constructor <;> linarith [ht.1, ht.2]
    have s1 : 1 / 2 ≤ sin (t / 2) := by
      have : sin (π / 6) ≤ sin (t / 2) := sin_le_sin_of_le_of_le_pi_div_two (by linarith) (by linarith) (by linarith)
      rwa [sin_pi_div_six] at this
    have s2 := sin_le_one (t / 2)
    rw [abs_of_pos (by linarith : 0 < 2 * sin (t / 2)), abs_of_nonneg (log_nonneg (by linarith))]
    have := log_le_sub_one_of_pos (x := 2 * sin (t / 2)) (by linarith)
    linarith
  have ev : |Clausen.clausen2 r - 0.67662773760643575| ≤ 1e-16 := by
    have n1 : ¬ r < 0 := by norm_num [hr]
    have n2 : ¬ 2 * Clausen.PI ≤ r := by unfold Clausen.PI; norm_num [hr]
    have n3 : ¬ Clausen.PI < r := by unfold Clausen.PI; norm_num [hr]
    have n4 : r ≠ 0 := by norm_num [hr]
    have n5 : r ≠ Clausen.PI := by unfold Clausen.PI; norm_num [hr]
    have n6 : ¬ r < Clausen.PI / 2 := by unfold Clausen.PI; norm_num [hr]
    have : Clausen.reduce r = (r, 1) := by
      simp only [Clausen.reduce, n1, n2, n3, if_false]
    simp only [Clausen.clausen2, this, n4, n5, if_false, Clausen.core, n6]
    simp only [Clausen.pL, Clausen.qL, Clausen.PI, hr, abs_le]
    norm_num
  have tot : |Clausen.Cl2 (2 * π / 3) - 0.67662773760643575| ≤ 2.3e-16 := by
    change |Clausen.clausen2 r - Clausen.Cl2 r| ≤ _ at e1
    have e2 := e2.trans ((one_mul _).le.trans hd)
    rw [abs_le] at e1 e2 ev ⊢
    constructor <;> norm_num at e1 e2 ev ⊢ <;> linarith
  have s3 : 0 < √3 := by positivity
  have s3a : 1.73205080756887729 ≤ √3 := le_sqrt_of_sq_le (by norm_num)
  have s3b : √3 ≤ 1.73205080756887730 := sqrt_le_iff.2 ⟨by norm_num, by norm_num⟩
  clear e1 e2 ev hd
  rw [abs_le] at tot ⊢
  constructor <;> norm_num at tot s3a s3b ⊢ <;> linarith

/-- what the code evaluates for sorted positive arguments with `λ² < -eps` -/
theorem phi_neg_unfold {x y z : ℝ} (hxy : x ≤ y) (hyz : y ≤ z) (hl : Spec.lambda2 (x / z) (y / z) < -eps) :
    phi_xyz x y z = phi_neg (x / z) (y / z) * z * Spec.lambda2 (x / z) (y / z) / 2 := by
  have n0 : ¬ isZero (Spec.lambda2 (x / z) (y / z)) eps := by
    unfold isZero; rw [not_le]; exact (by linarith : eps < -Spec.lambda2 (x / z) (y / z)).trans_le (neg_le_abs _)
  have n1 : ¬ 0 < Spec.lambda2 (x / z) (y / z) := by have := eps_pos; linarith
  unfold phi_xyz
  rw [sort_of_sorted hxy hyz]
  simp only [phi_uv, lambda_eq, n0, if_false, n1]

/-- the exact and the approximate sum over the angles -/
theorem phi_neg_close {u v : ℝ} (hu : 0 < u) (huv : u ≤ v) (hv : v ≤ 1) (hl : Spec.lambda2 u v < -eps)
    (hsep : u = v ∨ eps < v - u) (hone : v = 1 ∨ eps < 1 - v) :
    ∃ e, |e| ≤ 2e-15 ∧ phi_neg u v = Spec.Phi u v + e / √(-Spec.lambda2 u v) := by
  have hv0 : 0 < v := hu.trans_le huv
  have hl0 : Spec.lambda2 u v < 0 := by have := eps_pos; linarith
  obtain ⟨a0, b0, g0, hsum, sa, sb, sg, hP⟩ := triangle hu hv0 hl0
  have hL : 0 < √(-Spec.lambda2 u v) := sqrt_pos.2 (by linarith)
  have hL1 : 2e-8 ≤ √(-Spec.lambda2 u v) := by
    apply le_sqrt_of_sq_le
    have : 4e-16 ≤ eps := by unfold eps; norm_num
    norm_num at this ⊢; linarith
  have hp : 0 < √u := sqrt_pos.2 hu
  have hq : 0 < √v := sqrt_pos.2 hv0
  have hp1 : √u ≤ 1 := sqrt_le_one.2 (huv.trans hv)
  have hq1 : √v ≤ 1 := sqrt_le_one.2 hv
  have ga : 1e-9 ≤ √(-Spec.lambda2 u v) / (2 * √u) := by
    rw [le_div_iff₀ (by positivity)]; norm_num at hL1 ⊢; linarith
  have gb : 1e-9 ≤ √(-Spec.lambda2 u v) / (2 * √v) := by
    rw [le_div_iff₀ (by positivity)]; norm_num at hL1 ⊢; linarith
  have gg : 1e-9 ≤ √(-Spec.lambda2 u v) / (2 * √u * √v) := by
    rw [le_div_iff₀ (by positivity)]
    have : √u * √v ≤ 1 := mul_le_one₀ hp1 hq.le hq1
    norm_num at hL1 ⊢; linarith
  have ea := cl_err a0 (by linarith) sa ga
  have eb := cl_err b0 (by linarith) sb gb
  have eg := cl_err g0 (by linarith) sg gg
  unfold phi_neg
  by_cases h1 : isEqual u 1 eps ∧ isEqual v 1 eps
  · rw [if_pos h1]
    have hv1 : v = 1 := by
      rcases hone with h | h
      · exact h
      · have := (abs_le.1 h1.2).1; linarith
    have hu1 : u = 1 := by
      rcases hsep with h | h
      · rw [h, hv1]
      · have := (abs_le.1 h1.1).1; linarith
    subst hv1; subst hu1
    have e3 : -Spec.lambda2 1 1 = 3 := by unfold Spec.lambda2; norm_num
    have c3 : (1 / 2 : ℝ) / √1 = cos (π / 3) := by simp
    have ac : arccos ((1 / 2 : ℝ) / √1) = π / 3 := by rw [c3, arccos_cos (by positivity) (by linarith [pi_pos])]
    have : Spec.Phi 1 1 = 6 * Clausen.Cl2 (2 * π / 3) / √3 := by
      rw [hP, e3]
      rw [show ((1:ℝ) + 1 - 1) / 2 / √1 = 1 / 2 / √1 by norm_num, show ((1:ℝ) - 1 + 1) / 2 / √1 = 1 / 2 / √1 by norm_num,
        show ((-1:ℝ) + 1 + 1) / 2 / (√1 * √1) = 1 / 2 / √1 by norm_num, ac, show 2 * (π / 3) = 2 * π / 3 by ring]
      ring
    refine ⟨2.343907238689459 * √3 - 6 * Clausen.Cl2 (2 * π / 3), Cl2_two_thirds, ?_⟩
    rw [this, e3]
    have : √3 ≠ 0 := by positivity
    field_simp
    ring
  · rw [if_neg h1]
    simp only [lambda_eq]
    by_cases h2 : isEqual u v eps
    · rw [if_pos h2]
      have : u = v := by
        rcases hsep with h | h
        · exact h
        · have := (abs_le.1 h2).1; linarith
      subst this
      set a := arccos ((1 + u - u) / 2 / √u) with ha
      have hb : arccos ((1 - u + u) / 2 / √u) = a := by rw [ha]; congr 1; ring
      set g := arccos ((-1 + u + u) / 2 / (√u * √u)) with hg
      rw [hb] at hsum hP
      have ca : cos a = 1 / (2 * √u) := by
        rw [ha, cos_arccos]
        · field_simp; ring
        · rw [le_div_iff₀ hp]; linarith
        · by_contra hc
          have := arccos_eq_zero.2 (not_le.1 hc).le
          linarith
      have hgs : arcsin √(0.25 / u) = g / 2 := by
        have e1 : √(0.25 / u) = 1 / (2 * √u) := by
          rw [show (0.25 : ℝ) / u = (1 / 2) ^ 2 / u by norm_num, sqrt_div (by positivity), sqrt_sq (by norm_num)]; field_simp
        rw [e1, ← ca, show a = π / 2 - g / 2 by linarith, cos_pi_div_two_sub, arcsin_sin (by linarith [pi_pos]) (by linarith)]
      rw [hgs]
      have hg1 := cl_err (a := g / 2) (by linarith) (by linarith [pi_pos]) rfl (by
        rw [← cos_pi_div_two_sub, show π / 2 - g / 2 = a by linarith, ca, le_div_iff₀ (by positivity)]
        norm_num; linarith)
      rw [show 2 * (g / 2) = g by ring] at hg1 ⊢
      have hd := Cl2_dup g0.le (by linarith)
      rw [show 2 * a = π - g by linarith, hd] at hP
      refine ⟨4 * (Clausen.clausen2 g - Clausen.Cl2 g), ?_, ?_⟩
      · rw [abs_mul, abs_of_pos (by norm_num : (0:ℝ) < 4)]
        norm_num at hg1 ⊢; linarith
      · rw [hP]; ring
    · rw [if_neg h2]
      have n3 : ¬ isEqual u 1 eps := by
        intro h
        have h' := abs_le.1 h
        apply h1 ⟨h, ?_⟩
        unfold isEqual
        rw [abs_le]; constructor <;> linarith
      rw [if_neg n3]
      by_cases h4 : isEqual v 1 eps
      · rw [if_pos h4]
        have : v = 1 := by
          rcases hone with h | h
          · exact h
          · have := (abs_le.1 h4).1; linarith
        subst this
        have f1 : arccos ((1 + u - 1) / 2 / √u) = arccos (0.5 * √u) := by
          congr 1
          have := sq_sqrt hu.le
          generalize √u = p at *; subst this; field_simp; ring
        have f2 : arccos ((1 - u + 1) / 2 / √1) = arccos (1 - 0.5 * u) := by
          congr 1; rw [sqrt_one]; ring
        have f3 : arccos ((-1 + u + 1) / 2 / (√u * √1)) = arccos (0.5 * √u) := by
          rw [← f1, sqrt_one, mul_one]; congr 1; ring
        rw [f1] at ea
        rw [f2] at eb
        rw [f1, f2, f3] at hP
        refine ⟨2 * ((Clausen.clausen2 (2 * arccos (1 - 0.5 * u)) - Clausen.Cl2 (2 * arccos (1 - 0.5 * u))) +
          2 * (Clausen.clausen2 (2 * arccos (0.5 * √u)) - Clausen.Cl2 (2 * arccos (0.5 * √u)))), ?_, ?_⟩
        · rw [abs_le] at ea eb ⊢
          generalize Clausen.clausen2 (2 * arccos (1 - 0.5 * u)) = k1 at *
          generalize Clausen.Cl2 (2 * arccos (1 - 0.5 * u)) = k2 at *
          generalize Clausen.clausen2 (2 * arccos (0.5 * √u)) = k3 at *
          generalize Clausen.Cl2 (2 * arccos (0.5 * √u)) = k4 at *
          constructor <;> norm_num at ea eb ⊢ <;> linarith
        · rw [hP]; unfold phi_neg_1v cl2acos; ring
      · rw [if_neg h4]
        have f1 : 0.5 * (1 + u - v) / √u = (1 + u - v) / 2 / √u := by ring
        have f2 : 0.5 * (1 - u + v) / √v = (1 - u + v) / 2 / √v := by ring
        have f3 : 0.5 * (-1 + u + v) / (√u * √v) = (-1 + u + v) / 2 / (√u * √v) := by ring
        unfold cl2acos
        rw [f1, f2, f3, hP]
        clear hP hsum a0 b0 g0 sa sb sg f1 f2 f3
        generalize arccos ((1 + u - v) / 2 / √u) = a at *
        generalize arccos ((1 - u + v) / 2 / √v) = b at *
        generalize arccos ((-1 + u + v) / 2 / (√u * √v)) = g at *
        refine ⟨2 * ((Clausen.clausen2 (2 * a) - Clausen.Cl2 (2 * a)) + (Clausen.clausen2 (2 * b) - Clausen.Cl2 (2 * b)) +
          (Clausen.clausen2 (2 * g) - Clausen.Cl2 (2 * g))), ?_, ?_⟩
        · rw [abs_le] at ea eb eg ⊢
          constructor <;> norm_num at ea eb eg ⊢ <;> linarith
        · ring

/-- **C39**: accuracy below threshold, where `√x`, `√y`, `√z` are the sides of a triangle (`λ² < 0`).  Two arguments are either equal or
differ by more than `eps` relative to the largest one. -/
theorem C39_accuracy_neg {x y z : ℝ} (hx : 0 < x) (hxy : x ≤ y) (hyz : y ≤ z) (hl : Spec.lambda2 (x / z) (y / z) < -eps)
    (hsep : x = y ∨ eps < y / z - x / z) (hone : y = z ∨ eps < 1 - y / z) : |phi_xyz x y z - Spec.phi x y z| ≤ 2e-15 * z := by
  have hz : 0 < z := hx.trans_le (hxy.trans hyz)
  rw [phi_neg_unfold hxy hyz hl]
  unfold Spec.phi
  have hu0 : 0 < x / z := by positivity
  have huv : x / z ≤ y / z := by gcongr
  have hv1 : y / z ≤ 1 := (div_le_one hz).2 hyz
  have hsep : x / z = y / z ∨ eps < y / z - x / z := hsep.imp (fun h => by rw [h]) id
  have hone : y / z = 1 ∨ eps < 1 - y / z := hone.imp (fun h => by rw [h, div_self hz.ne']) id
  generalize x / z = u at *
  generalize y / z = v at *
  obtain ⟨e, he, h⟩ := phi_neg_close hu0 huv hv1 hl hsep hone
  rw [h]
  have hl0 : 0 < -Spec.lambda2 u v := by have := eps_pos; linarith
  have hL : 0 < √(-Spec.lambda2 u v) := sqrt_pos.2 hl0
  have hL2 := sq_sqrt hl0.le
  have hb : √(-Spec.lambda2 u v) ≤ 2 := by
    apply sqrt_le_iff.2 ⟨by norm_num, ?_⟩
    unfold Spec.lambda2
    nlinarith [mul_nonneg (sub_nonneg.2 hv1) (sub_nonneg.2 (huv.trans hv1)), sq_nonneg (1 - u - v)]
  have : (Spec.Phi u v + e / √(-Spec.lambda2 u v)) * z * Spec.lambda2 u v / 2 - z * Spec.lambda2 u v / 2 * Spec.Phi u v =
      -(e * (√(-Spec.lambda2 u v) / 2 * z)) := by
    rw [show Spec.lambda2 u v = -√(-Spec.lambda2 u v) ^ 2 by rw [hL2]; ring]
    rw [show √(-(-√(-Spec.lambda2 u v) ^ 2)) = √(-Spec.lambda2 u v) by rw [neg_neg, sqrt_sq hL.le]]
    field_simp
    ring
  rw [this, abs_neg, abs_mul, abs_of_pos (by positivity : 0 < √(-Spec.lambda2 u v) / 2 * z)]
  apply mul_le_mul he _ (by positivity) (by norm_num)
  have : √(-Spec.lambda2 u v) / 2 ≤ 1 := by linarith
  calc _ ≤ 1 * z := by gcongr
    _ = z := one_mul z

example : |phi_xyz 2 3 4 - Spec.phi 2 3 4| ≤ 2e-15 * 4 := by
  have := eps_lt
  refine C39_accuracy_neg (by norm_num) (by norm_num) (by norm_num) ?_ (Or.inr ?_) (Or.inr ?_) <;> norm_num [Spec.lambda2] at * <;> linarith

example : |phi_xyz 1 1 1 - Spec.phi 1 1 1| ≤ 2e-15 * 1 := by
  have := eps_lt
  refine C39_accuracy_neg (by norm_num) (by norm_num) (by norm_num) ?_ (Or.inl rfl) (Or.inl rfl)
  norm_num [Spec.lambda2] at *; linarith

end Himalaya.TLF.Phi
