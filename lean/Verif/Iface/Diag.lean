import Verif.Iface.Spec
import Verif.Iface.Lemmas

/-!
# C16, C17: sfermion masses and mixing angles
-/

namespace Himalaya
open Real
open scoped Himalaya Himalaya.FOps

theorem cos_pos_quarter {α : ℝ} (h : |α| ≤ π / 4) : 0 < cos α := by
  rw [abs_le] at h
  apply cos_pos_of_mem_Ioo
  constructor <;> linarith [pi_pos, h.1, h.2]

theorem cos2_nonneg_quarter {α : ℝ} (h : |α| ≤ π / 4) : 0 ≤ cos α ^ 2 - sin α ^ 2 := by
  rw [abs_le] at h
  have : 0 ≤ cos (2 * α) := by
    apply cos_nonneg_of_mem_Icc
    constructor <;> linarith [h.1, h.2]
  rw [cos_two_mul'] at this
  exact this

theorem arccos_cos_quarter {α : ℝ} (h : |α| ≤ π / 4) : arccos (cos α) = |α| := by
  rw [← cos_abs α]
  exact arccos_cos (abs_nonneg _) (by linarith [pi_pos])

theorem sin_nonneg_quarter {α : ℝ} (h : |α| ≤ π / 4) : 0 ≤ sin α ↔ 0 ≤ α := by
  rw [abs_le] at h
  constructor
  · intro hs
    by_contra hc
    push Not at hc
    have := sin_neg_of_neg_of_neg_pi_lt hc (by linarith [pi_pos, h.1])
    linarith
  · intro ha
    exact sin_nonneg_of_nonneg_of_le_pi ha (by linarith [pi_pos, h.2])

theorem abs_sigma_mul {σ x : ℝ} (h : σ = 1 ∨ σ = -1) : |σ * x| = |x| := by
  rcases h with rfl | rfl <;> simp

theorem sameSign_fin (x y : ℝ) : sameSign (Dbl.fin x) (Dbl.fin y) = (decide (0 ≤ x) == decide (0 ≤ y)) := by
  simp [sameSign]

theorem acos_fin {x : ℝ} (h : |x| ≤ 1) : FOps.acos (Dbl.fin x) = Dbl.fin (arccos x) := by
  show Dbl.onFin _ _ _ = _
  rw [abs_le] at h
  simp [Dbl.onFin, h]

/-- the sign factor at line 103, given that it should reproduce the sign of `sin α` -/
theorem signMul_ratio {α l0 l1 a b d : ℝ} (hα : |α| ≤ π / 4)
    (ha : a = cos α ^ 2 * l0 + sin α ^ 2 * l1) (hb : b = cos α * sin α * (l0 - l1))
    (hd : d = sin α ^ 2 * l0 + cos α ^ 2 * l1) (hne : l0 ≠ l1) (heq : a = d → l1 < l0) :
    signMul (Dbl.fin b / (Dbl.fin a - Dbl.fin d)) (FOps.abs (Dbl.fin |α|)) = Dbl.fin α := by
  have hc := cos_pos_quarter hα
  have hcs := cos2_nonneg_quarter hα
  have hdiff : a - d = (cos α ^ 2 - sin α ^ 2) * (l0 - l1) := by rw [ha, hd]; ring
  have hs := sin_nonneg_quarter hα
  have hl : l0 - l1 ≠ 0 := sub_ne_zero.2 hne
  by_cases h0 : a - d = 0
  · -- a = d
    have had : a = d := sub_eq_zero.1 h0
    have hlt := heq had
    have hcs0 : cos α ^ 2 - sin α ^ 2 = 0 := by
      rw [hdiff] at h0
      rcases mul_eq_zero.1 h0 with h | h
      · exact h
      · exact absurd h hl
    have hsne : sin α ≠ 0 := by
      intro h; rw [h] at hcs0; nlinarith
    have e : Dbl.fin b / (Dbl.fin a - Dbl.fin d) = Dbl.infOfSign b := by
      rw [Dbl.fin_sub, h0]
      show Dbl.div _ _ = _
      simp [Dbl.div]
    rw [e]
    rcases lt_or_gt_of_ne hsne with hneg | hpos
    · have hbneg : b < 0 := by
        rw [hb]; have := mul_pos hc (sub_pos.2 hlt); nlinarith
      have hα' : α < 0 := by
        by_contra hcon; push Not at hcon; have := hs.2 hcon; linarith
      simp only [Dbl.infOfSign, if_neg (not_lt.2 hbneg.le), if_pos hbneg, signMul]
      simp only [Dbl.fin_ofNat, FOps.le, Dbl.leb, Bool.false_eq_true, if_false, Dbl.fin_abs, Dbl.fin_neg]
      rw [abs_abs, abs_of_neg hα', neg_neg]
    · have hbpos : 0 < b := by
        rw [hb]; have := mul_pos hc (sub_pos.2 hlt); nlinarith
      have hα' : 0 ≤ α := hs.1 hpos.le
      simp only [Dbl.infOfSign, if_pos hbpos, signMul]
      simp only [Dbl.fin_ofNat, FOps.le, Dbl.leb, if_true, Dbl.fin_abs]
      rw [abs_abs, abs_of_nonneg hα']
  · have hcspos : 0 < cos α ^ 2 - sin α ^ 2 := by
      rcases hcs.lt_or_eq with h | h
      · exact h
      · rw [hdiff, ← h] at h0; simp at h0
    rw [Dbl.fin_sub, Dbl.fin_div _ _ h0]
    have ratio : b / (a - d) = cos α * sin α / (cos α ^ 2 - sin α ^ 2) := by
      rw [hdiff, hb]; field_simp
    rw [ratio]
    simp only [signMul, Dbl.fin_ofNat, Dbl.fin_le, Nat.cast_zero, Dbl.fin_abs, abs_abs, Dbl.fin_neg]
    by_cases hα' : 0 ≤ α
    · have : 0 ≤ cos α * sin α / (cos α ^ 2 - sin α ^ 2) :=
        div_nonneg (mul_nonneg hc.le (hs.2 hα')) hcspos.le
      rw [if_pos (by simpa using this), abs_of_nonneg hα']
    · have hsn : sin α < 0 := by
        by_contra hcon; push Not at hcon; exact hα' (hs.1 hcon)
      have : ¬ (0 ≤ cos α * sin α / (cos α ^ 2 - sin α ^ 2)) := by
        push Not
        exact div_neg_of_neg_of_pos (mul_neg_of_pos_of_neg hc hsn) hcspos
      push Not at hα'
      rw [if_neg (by simpa using this), abs_of_neg hα', neg_neg]

theorem signMul_cases (x y : Dbl) : signMul x y = y ∨ signMul x y = -y := by
  unfold signMul; split_ifs <;> simp

/-- the tachyon test -/
theorem tachyon_test (l m : ℝ) (h : l ≤ m) :
    FOps.lt (if FOps.lt (Dbl.fin m) (Dbl.fin l) then Dbl.fin m else Dbl.fin l) (0 : Dbl) = decide (l < 0) := by
  simp [not_lt.2 h]

theorem neg_eig_of_rot {α l0 l1 a b d : ℝ}
    (ha : a = cos α ^ 2 * l0 + sin α ^ 2 * l1) (hb : b = cos α * sin α * (l0 - l1))
    (hd : d = sin α ^ 2 * l0 + cos α ^ 2 * l1) : HasNegEigenvalue a b d ↔ (l0 < 0 ∨ l1 < 0) := by
  have hcs := cos_sq_add_sin_sq α
  constructor
  · rintro ⟨l, x, y, hl, hxy, e1, e2⟩
    by_contra hcon
    push Not at hcon
    obtain ⟨h0, h1⟩ := hcon
    have q : a * x ^ 2 + 2 * b * x * y + d * y ^ 2 = l * (x ^ 2 + y ^ 2) := by
      linear_combination x * e1 + y * e2
    have q2 : a * x ^ 2 + 2 * b * x * y + d * y ^ 2
        = l0 * (cos α * x + sin α * y) ^ 2 + l1 * (cos α * y - sin α * x) ^ 2 := by
      rw [ha, hb, hd]; ring
    have pos : 0 < x ^ 2 + y ^ 2 := by
      rcases hxy with h | h
      · have := sq_pos_of_ne_zero h; positivity
      · have := sq_pos_of_ne_zero h; positivity
    have : 0 ≤ l * (x ^ 2 + y ^ 2) := by
      rw [← q, q2]
      have := mul_nonneg h0 (sq_nonneg (cos α * x + sin α * y))
      have := mul_nonneg h1 (sq_nonneg (cos α * y - sin α * x))
      linarith
    nlinarith
  · have hne : cos α ≠ 0 ∨ sin α ≠ 0 := by
      by_contra h; push Not at h; rw [h.1, h.2] at hcs; norm_num at hcs
    rintro (h | h)
    · refine ⟨l0, cos α, sin α, h, hne, ?_, ?_⟩
      · rw [ha, hb]; linear_combination l0 * cos α * hcs
      · rw [hd, hb]; linear_combination l0 * sin α * hcs
    · refine ⟨l1, -sin α, cos α, h, by rcases hne with h | h <;> [right; left] <;> simpa using h, ?_, ?_⟩
      · rw [ha, hb]; linear_combination -l1 * sin α * hcs
      · rw [hd, hb]; linear_combination l1 * cos α * hcs

/-- Core computation for C16. -/
theorem calc_core {X : Ext Dbl} {a b d : ℝ} (hX : SolverContract X a b d) :
    (HasNegEigenvalue a b d ∧ ∃ e, calculate_MSf_s2f X ⟨.fin a, .fin b, .fin b, .fin d⟩ = .error e) ∨
    (¬ HasNegEigenvalue a b d ∧ ∃ m1 m2 θ : ℝ,
      calculate_MSf_s2f X ⟨.fin a, .fin b, .fin b, .fin d⟩ =
        .ok { ev := ⟨.fin m1, .fin m2⟩, theta := .fin θ, s2 := .fin (sin (2 * θ)) } ∧
      0 ≤ m1 ∧ m1 ≤ m2 ∧ (-(π / 4) ≤ θ ∧ θ ≤ 3 * π / 4) ∧ Diagonalises m1 m2 θ a b d) := by
  obtain ⟨α, l0, l1, σ, hα, hσ, ha, hb, hd, heq, hcase⟩ := hX
  have hcs := cos_sq_add_sin_sq α
  have hc := cos_pos_quarter hα
  have hacos : FOps.acos (FOps.abs (Dbl.fin (σ * cos α))) = Dbl.fin |α| := by
    rw [Dbl.fin_abs, abs_sigma_mul hσ, abs_of_pos hc, acos_fin (by rw [abs_le]; exact ⟨neg_one_le_cos α, cos_le_one α⟩),
      arccos_cos_quarter hα]
  have hneg := neg_eig_of_rot ha hb hd
  rcases hcase with ⟨hle, hval, hvec⟩ | ⟨hlt, hval, hvec⟩
  · by_cases ht : l0 < 0
    · left
      refine ⟨hneg.2 (Or.inl ht), "DR sfermion masses are tachyonic", ?_⟩
      unfold calculate_MSf_s2f
      simp only [hval]
      rw [if_pos (by rw [tachyon_test _ _ hle]; simpa using ht)]
    · right
      push Not at ht
      refine ⟨by rw [hneg]; push Not; exact ⟨ht, by linarith⟩, ?_⟩
      have hsame : sameSign (Dbl.fin (σ * cos α)) (Dbl.fin (σ * cos α)) = true := by simp [sameSign_fin]
      have hsort : ∀ t s : Dbl, sort_ev { ev := ⟨Dbl.fin (√l0), Dbl.fin (√l1)⟩, theta := t, s2 := s }
          = { ev := ⟨Dbl.fin (√l0), Dbl.fin (√l1)⟩, theta := t, s2 := s } := by
        intro t s
        unfold sort_ev
        rw [if_neg (by simpa using Real.sqrt_le_sqrt hle)]
      have hm0 : √l0 ^ 2 = l0 := Real.sq_sqrt ht
      have hm1 : √l1 ^ 2 = l1 := Real.sq_sqrt (by linarith)
      have hform : ∀ t : Dbl, signMul (Dbl.fin b / (Dbl.fin a - Dbl.fin d)) (FOps.abs (Dbl.fin |α|)) = t →
          calculate_MSf_s2f X ⟨.fin a, .fin b, .fin b, .fin d⟩ =
          .ok { ev := ⟨.fin (√l0), .fin (√l1)⟩, theta := t, s2 := FOps.sin (2 * t) } := by
        intro t ht'
        unfold calculate_MSf_s2f
        simp only [hval, hvec]
        rw [if_neg (by rw [tachyon_test _ _ hle]; simpa using ht)]
        simp only [hsame, if_true, hacos, ht', Dbl.fin_sqrt _ ht, Dbl.fin_sqrt _ (le_trans ht hle), hsort]
      have hsin : ∀ t : ℝ, FOps.sin (2 * Dbl.fin t) = Dbl.fin (sin (2 * t)) := by
        intro t; simp
      by_cases hne : l0 = l1
      · -- degenerate: any angle will do
        subst hne
        have hb0 : b = 0 := by rw [hb]; ring
        have ha0 : a = l0 := by rw [ha]; linear_combination l0 * hcs
        have hd0 : d = l0 := by rw [hd]; linear_combination l0 * hcs
        rcases signMul_cases (Dbl.fin b / (Dbl.fin a - Dbl.fin d)) (FOps.abs (Dbl.fin |α|)) with h | h
        · rw [Dbl.fin_abs] at h
          refine ⟨√l0, √l0, |(|α|)|, by rw [hform (Dbl.fin |(|α|)|) (by rw [Dbl.fin_abs]; exact h), hsin], Real.sqrt_nonneg _, le_rfl, by constructor <;> linarith [pi_pos, abs_le.1 hα, abs_abs α, abs_nonneg α, hα], ?_⟩
          refine ⟨?_, ?_, ?_⟩
          · rw [hm0, ha0]; linear_combination l0 * cos_sq_add_sin_sq _
          · rw [hb0]; ring
          · rw [hm0, hd0]; linear_combination l0 * cos_sq_add_sin_sq _
        · rw [Dbl.fin_abs, Dbl.fin_neg] at h
          refine ⟨√l0, √l0, -|(|α|)|, by rw [hform (Dbl.fin (-|(|α|)|)) (by rw [Dbl.fin_abs]; exact h), hsin], Real.sqrt_nonneg _, le_rfl, by constructor <;> linarith [pi_pos, abs_le.1 hα, abs_abs α, abs_nonneg α, hα], ?_⟩
          refine ⟨?_, ?_, ?_⟩
          · rw [hm0, ha0]; linear_combination l0 * cos_sq_add_sin_sq _
          · rw [hb0]; ring
          · rw [hm0, hd0]; linear_combination l0 * cos_sq_add_sin_sq _
      · have hs := signMul_ratio hα ha hb hd hne (fun h => lt_of_le_of_ne (heq h) (Ne.symm hne))
        refine ⟨√l0, √l1, α, by rw [hform _ hs, hsin], Real.sqrt_nonneg _, Real.sqrt_le_sqrt hle, by constructor <;> linarith [pi_pos, (abs_le.1 hα).1, (abs_le.1 hα).2], ?_⟩
        refine ⟨?_, ?_, ?_⟩
        · rw [hm0, hm1, ha]; ring
        · rw [hm0, hm1, hb]; ring
        · rw [hm0, hm1, hd]; ring
  · by_cases ht : l1 < 0
    · left
      refine ⟨hneg.2 (Or.inr ht), "DR sfermion masses are tachyonic", ?_⟩
      unfold calculate_MSf_s2f
      simp only [hval]
      rw [if_pos (by rw [tachyon_test _ _ hlt.le]; simpa using ht)]
    · right
      push Not at ht
      refine ⟨by rw [hneg]; push Not; exact ⟨by linarith, ht⟩, ?_⟩
      have hm0 : √l0 ^ 2 = l0 := Real.sq_sqrt (by linarith)
      have hm1 : √l1 ^ 2 = l1 := Real.sq_sqrt ht
      have hsqrt : √l1 < √l0 := Real.sqrt_lt_sqrt ht hlt
      by_cases hs0 : sin α = 0
      · -- no mixing, lighter state is right-handed
        have hσs : σ * sin α = 0 := by rw [hs0, mul_zero]
        have hsame : sameSign (Dbl.fin (-(σ * sin α))) (Dbl.fin (σ * sin α)) = true := by
          rw [hσs]; simp [sameSign_fin]
        have hb0 : b = 0 := by rw [hb, hs0]; ring
        have hc1 : cos α ^ 2 = 1 := by rw [← hcs, hs0]; ring
        have ha0 : a = l0 := by rw [ha, hs0, hc1]; ring
        have hd0 : d = l1 := by rw [hd, hs0, hc1]; ring
        have hac : FOps.acos (FOps.abs (Dbl.fin (-(σ * sin α)))) = Dbl.fin (π / 2) := by
          rw [hσs, Dbl.fin_abs, acos_fin (by norm_num)]; simp
        have hsg : signMul (Dbl.fin b / (Dbl.fin a - Dbl.fin d)) (FOps.abs (Dbl.fin (π / 2))) = Dbl.fin (π / 2) := by
          rw [hb0, ha0, hd0, Dbl.fin_sub, Dbl.fin_div _ _ (by linarith [hlt] : l0 - l1 ≠ 0)]
          simp only [signMul, Dbl.fin_ofNat, Dbl.fin_le]
          simp
          positivity
        refine ⟨√l1, √l0, π / 2, ?_, Real.sqrt_nonneg _, hsqrt.le, by constructor <;> linarith [pi_pos, (abs_le.1 hα).1, (abs_le.1 hα).2], ?_⟩
        · unfold calculate_MSf_s2f
          simp only [hval, hvec]
          rw [if_neg (by rw [tachyon_test _ _ hlt.le]; simpa using ht)]
          simp only [hsame, if_true, hac, hsg, Dbl.fin_sqrt _ ht, Dbl.fin_sqrt _ (le_trans ht hlt.le)]
          unfold sort_ev
          rw [if_neg (by simpa using hsqrt.le)]
          simp
        · refine ⟨?_, ?_, ?_⟩
          · rw [hm0, hm1, ha0]; simp
          · rw [hb0]; simp
          · rw [hm0, hm1, hd0]; simp
      · have hσs : σ * sin α ≠ 0 := by
          rcases hσ with rfl | rfl <;> simpa using hs0
        have hsame : sameSign (Dbl.fin (-(σ * sin α))) (Dbl.fin (σ * sin α)) = false := by
          rw [sameSign_fin]
          rcases lt_or_gt_of_ne hσs with h | h
          · have h1 : (0 ≤ -(σ * sin α)) := by linarith
            have h2 : ¬ (0 ≤ σ * sin α) := by linarith
            rw [decide_eq_true h1, decide_eq_false h2]; rfl
          · have h1 : ¬ (0 ≤ -(σ * sin α)) := by linarith
            have h2 : (0 ≤ σ * sin α) := by linarith
            rw [decide_eq_true h2, decide_eq_false h1]; rfl
        have hsg := signMul_ratio hα ha hb hd (ne_of_gt hlt) (fun _ => hlt)
        refine ⟨√l1, √l0, α + 1 / 2 * π, ?_, Real.sqrt_nonneg _, hsqrt.le, by constructor <;> linarith [pi_pos, (abs_le.1 hα).1, (abs_le.1 hα).2], ?_⟩
        · unfold calculate_MSf_s2f
          simp only [hval, hvec]
          rw [if_neg (by rw [tachyon_test _ _ hlt.le]; simpa using ht)]
          simp only [hsame, Bool.false_eq_true, if_false, hacos, hsg, Dbl.fin_sqrt _ ht,
            Dbl.fin_sqrt _ (le_trans ht hlt.le)]
          unfold sort_ev
          rw [if_pos (by simpa using hsqrt)]
          simp [cPi, Const.value]
        · have e : α + 1 / 2 * π = α + π / 2 := by ring
          rw [e]
          refine ⟨?_, ?_, ?_⟩
          · rw [hm0, hm1, cos_add_pi_div_two, sin_add_pi_div_two, ha]; ring
          · rw [hm0, hm1, cos_add_pi_div_two, sin_add_pi_div_two, hb]; ring
          · rw [hm0, hm1, cos_add_pi_div_two, sin_add_pi_div_two, hd]; ring

end Himalaya
