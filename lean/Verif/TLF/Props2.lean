import Verif.TLF.Four4
import Verif.TLF.Props1

/-!
# C32: the two-variable threshold loop functions
-/

set_option linter.unusedSimpArgs false
set_option linter.unusedVariables false

namespace Himalaya.TLF
open Real

/-- **The integrals extend the formulas.**  Wherever the closed formulas of arXiv:1407.4081 are defined they are equal to the Feynman-parameter
integrals of the specification, which stay meaningful at arguments `±1` and at coinciding arguments. -/
theorem C32_integrals_extend_formulas (x y : ℝ) (hx : x ≠ 0) (hy : y ≠ 0) (hx1 : x ^ 2 ≠ 1) (hy1 : y ^ 2 ≠ 1) :
    (x ^ 2 ≠ y ^ 2 → Spec.F8I x y = Spec.F8 x y ∧ Spec.F9I x y = Spec.F9 x y) ∧
    (x ≠ y → Spec.f5I x y = Spec.f5 x y ∧ Spec.f6I x y = Spec.f6 x y ∧ Spec.f7I x y = Spec.f7 x y ∧ Spec.f8I x y = Spec.f8 x y) :=
  ⟨fun h => ⟨F8I_spec hx hy hx1 hy1 h, F9I_spec hx hy hx1 hy1 h⟩,
   fun h => ⟨f5I_spec hx hy hx1 hy1 h, f6I_spec hx hy hx1 hy1 h, f7I_spec hx hy hx1 hy1 h, f8I_spec hx hy hx1 hy1 h⟩⟩

/-- **Accuracy of `F8`, `F9`.**  For all arguments of modulus above `1/100` — including `±1` and equal arguments — the value returned differs
from the loop function by at most `10⁻⁶`, whatever special branch is taken. -/
theorem C32_F8_F9_accuracy (x y : ℝ) (bx : 1 / 100 < |x|) (b : 1 / 100 < |y|) :
    |F8 x y - Spec.F8I x y| ≤ 1 / 10 ^ 6 ∧ |F9 x y - Spec.F9I x y| ≤ 1 / 10 ^ 6 := by
  have hx : x ≠ 0 := by rintro rfl; norm_num at bx
  have hy : y ≠ 0 := by rintro rfl; norm_num at b
  exact ⟨F8_acc hx hy (not_le.2 bx) (not_le.2 b), F9_acc hx hy (not_le.2 bx) (not_le.2 b)⟩

/-- **Accuracy of `f5 … f8`.**  For arguments of modulus above `1/100`, none of them exactly `-1`, the value returned differs from the loop
function by at most `10⁻⁶`; only `f8` in the region where both arguments are within `1/100` of `-1` is less accurate (`4·10⁻⁵`).
`f6`, `f7`, `f8` are as accurate for smaller arguments down to `10⁻⁴` as long as one of them exceeds `1/50`. -/
theorem C32_f5_f8_accuracy (r s : ℝ) (hr1 : r ≠ -1) (hs1 : s ≠ -1) :
    (1 / 100 < |r| → 1 / 100 < |s| → |f5 r s - Spec.f5I r s| ≤ 1 / 10 ^ 6) ∧
    (1 / 10000 < |r| → 1 / 10000 < |s| → (1 / 50 < |r| ∨ 1 / 50 < |s|) →
      |f6 r s - Spec.f6I r s| ≤ 1 / 10 ^ 6 ∧ |f7 r s - Spec.f7I r s| ≤ 1 / 10 ^ 6 ∧
      |f8 r s - Spec.f8I r s| ≤ (if |r - -1| ≤ 1 / 100 ∧ |s - -1| ≤ 1 / 100 then 4 / 10 ^ 5 else 1 / 10 ^ 6)) := by
  constructor
  · intro br bs
    have hr : r ≠ 0 := by rintro rfl; norm_num at br
    have hs : s ≠ 0 := by rintro rfl; norm_num at bs
    exact f5_acc hr hs hr1 hs1 (not_le.2 br) (not_le.2 bs)
  · intro br bs hm
    have hr : r ≠ 0 := by rintro rfl; norm_num at br
    have hs : s ≠ 0 := by rintro rfl; norm_num at bs
    exact ⟨f6_acc hr hs hr1 hs1 (not_le.2 br) (not_le.2 bs) hm, f7_acc hr hs hr1 hs1 (not_le.2 br) (not_le.2 bs) hm,
      f8_acc hr hs hr1 hs1 (not_le.2 br) (not_le.2 bs) hm⟩

/-- the hypotheses are met at the most degenerate point, both arguments one -/
example : |F9 (1:ℝ) 1 - Spec.F9I 1 1| ≤ 1 / 10 ^ 6 ∧ |f6 (1:ℝ) 1 - Spec.f6I 1 1| ≤ 1 / 10 ^ 6 :=
  ⟨(C32_F8_F9_accuracy 1 1 (by norm_num) (by norm_num)).2,
   ((C32_f5_f8_accuracy 1 1 (by norm_num) (by norm_num)).2 (by norm_num) (by norm_num) (by norm_num)).1⟩

/-- **Symmetry.**  The six functions are symmetric in their arguments up to the accuracy of the Taylor branches. -/
theorem C32_symmetry (x y : ℝ) (bx : 1 / 100 < |x|) (b : 1 / 100 < |y|) :
    |F8 x y - F8 y x| ≤ 2 / 10 ^ 6 ∧ |F9 x y - F9 y x| ≤ 2 / 10 ^ 6 ∧
    (x ≠ -1 → y ≠ -1 → (1 / 50 < |x| ∨ 1 / 50 < |y|) → |f5 x y - f5 y x| ≤ 2 / 10 ^ 6 ∧ |f6 x y - f6 y x| ≤ 2 / 10 ^ 6 ∧
      |f7 x y - f7 y x| ≤ 2 / 10 ^ 6 ∧ |f8 x y - f8 y x| ≤ 8 / 10 ^ 5) := by
  have tri : ∀ {a b c : ℝ} {δ ε : ℝ}, |a - c| ≤ δ → |b - c| ≤ δ → 2 * δ ≤ ε → |a - b| ≤ ε := by
    intro a b c δ ε h k l
    rw [abs_le] at *; constructor <;> linarith [h.1, h.2, k.1, k.2]
  obtain ⟨h8, h9⟩ := C32_F8_F9_accuracy x y bx b
  obtain ⟨k8, k9⟩ := C32_F8_F9_accuracy y x b bx
  rw [Spec.F8I_symm] at k8
  rw [Spec.F9I_symm] at k9
  refine ⟨tri h8 k8 (by norm_num), tri h9 k9 (by norm_num), fun hx1 hy1 hm => ?_⟩
  have h := C32_f5_f8_accuracy x y hx1 hy1
  have k := C32_f5_f8_accuracy y x hy1 hx1
  have h5 := h.1 bx b
  have k5 := k.1 b bx
  obtain ⟨h6, h7, h8⟩ := h.2 (by linarith) (by linarith) hm
  obtain ⟨k6, k7, k8⟩ := k.2 (by linarith) (by linarith) hm.symm
  rw [Spec.f5I_symm] at k5
  rw [Spec.f6I_symm] at k6
  rw [Spec.f7I_symm] at k7
  rw [Spec.f8I_symm] at k8
  refine ⟨tri h5 k5 (by norm_num), tri h6 k6 (by norm_num), tri h7 k7 (by norm_num), tri (c := Spec.f8I x y) (δ := 4 / 10 ^ 5) (h8.trans ?_) (k8.trans ?_) (by norm_num)⟩
  all_goals (split_ifs <;> norm_num)

/-- **Exact symmetry** wherever the arguments are not treated as equal: the branches are chosen symmetrically. -/
theorem C32_exact_symmetry (x y : ℝ) (bx : 1 / 100 < |x|) (b : 1 / 100 < |y|) :
    (1 / 100000 < |(|x| - |y|)| → F8 x y = F8 y x ∧ F9 x y = F9 y x) ∧
    (1 / 10000 < |x - y| →
      (¬ (|x - 1| ≤ 1 / 50 ∧ |y - 1| ≤ 1 / 50) → ¬ (|x - -1| ≤ 1 / 50 ∧ |y - -1| ≤ 1 / 50) → f5 x y = f5 y x ∧ f6 x y = f6 y x ∧ f7 x y = f7 y x ∧ f8 x y = f8 y x)) := by
  have sF8 : Spec.F8 x y = Spec.F8 y x := by
    unfold Spec.F8; rw [show x ^ 2 - y ^ 2 = -(y ^ 2 - x ^ 2) by ring, div_neg]; ring
  have sF9 : Spec.F9 x y = Spec.F9 y x := by
    unfold Spec.F9; rw [show x ^ 2 - y ^ 2 = -(y ^ 2 - x ^ 2) by ring, div_neg]; ring
  have s5 : Spec.f5 x y = Spec.f5 y x := by
    unfold Spec.f5; rw [show x - y = -(y - x) by ring]; simp only [mul_neg, neg_mul, div_neg]; ring
  have s6 : Spec.f6 x y = Spec.f6 y x := by
    unfold Spec.f6; rw [show x - y = -(y - x) by ring]; simp only [mul_neg, neg_mul, div_neg]; ring
  have s7 : Spec.f7 x y = Spec.f7 y x := by
    unfold Spec.f7; rw [show x - y = -(y - x) by ring]; simp only [mul_neg, neg_mul, div_neg]; ring
  have s8 : Spec.f8 x y = Spec.f8 y x := by
    unfold Spec.f8; rw [show x - y = -(y - x) by ring]; simp only [mul_neg, neg_mul, div_neg]; ring
  have n : ∀ {z c : ℝ}, 1 / 100 < |z| → c ≤ 1 / 100 → ¬ |z| ≤ c := fun h k l => by linarith
  have nx0 : ∀ c : ℝ, c ≤ 1 / 100 → ¬ |x| ≤ c := fun c h => n bx h
  have ny0 : ∀ c : ℝ, c ≤ 1 / 100 → ¬ |y| ≤ c := fun c h => n b h
  have F811 : F8_1_1 x y = F8_1_1 y x := by rw [F8_1_1_real, F8_1_1_real]; ring
  have F911 : F9_1_1 x y = F9_1_1 y x := by rw [F9_1_1_real, F9_1_1_real]; ring
  constructor
  · intro h
    have h1 : ¬ |(|x| - |y|)| ≤ 1 / 100000 := not_le.2 h
    have h2 : ¬ |(|y| - |x|)| ≤ 1 / 100000 := by rw [abs_sub_comm]; exact h1
    have ex := nx0 (1 / 100000) (by norm_num)
    have ey := ny0 (1 / 100000) (by norm_num)
    have ex' := nx0 (1 / 10000) (by norm_num)
    have ey' := ny0 (1 / 10000) (by norm_num)
    have ex3 := nx0 (10 / 2 ^ 52) (by norm_num)
    rw [F8_real, F8_real, F9_real, F9_real]
    by_cases a : |(|x| - 1)| ≤ 1 / 100 <;> by_cases c : |(|y| - 1)| ≤ 1 / 100 <;>
      simp only [ex3, a, c, h1, h2, ex, ey, ex', ey', false_and, and_false, and_true, true_and, if_true, if_false, F811, F911, sF8, sF9, and_self]
  · intro h h11 hm
    have h1 : ¬ |x - y| ≤ 1 / 10000 := not_le.2 h
    have h2 : ¬ |y - x| ≤ 1 / 10000 := by rw [abs_sub_comm]; exact h1
    have ex := nx0 (1 / 20000) (by norm_num)
    have ey := ny0 (1 / 20000) (by norm_num)
    have ex' := nx0 (1 / 10000) (by norm_num)
    have ey' := ny0 (1 / 10000) (by norm_num)
    have w : ∀ {z : ℝ} , |z - 1| ≤ 1 / 100 → |z - 1| ≤ 1 / 50 := fun h => h.trans (by norm_num)
    have w' : ∀ {z : ℝ} , |z - -1| ≤ 1 / 100 → |z - -1| ≤ 1 / 50 := fun h => h.trans (by norm_num)
    have w3 : ∀ {z : ℝ} , |z - 1| ≤ 1 / 1000 → |z - 1| ≤ 1 / 50 := fun h => h.trans (by norm_num)
    have g1 : ¬ (|x - 1| ≤ 1 / 100 ∧ |y - 1| ≤ 1 / 100) := fun k => h11 ⟨w k.1, w k.2⟩
    have g2 : ¬ (|x - -1| ≤ 1 / 100 ∧ |y - -1| ≤ 1 / 100) := fun k => hm ⟨w' k.1, w' k.2⟩
    have g3 : ¬ (|x - 1| ≤ 1 / 1000 ∧ |y - 1| ≤ 1 / 1000) := fun k => h11 ⟨w3 k.1, w3 k.2⟩
    have sw : ∀ {p q : Prop}, ¬ (p ∧ q) → ¬ (q ∧ p) := fun k l => k ⟨l.2, l.1⟩
    have br : ∀ {p q : Prop} [Decidable p] [Decidable q] {a b c d : ℝ}, ¬ (p ∧ q) → c = d → (if p then a else if q then b else c) = if q then b else if p then a else d := by
      intro p q _ _ a b c d k e; subst e; by_cases hp : p <;> by_cases hq : q <;> simp_all
    rw [f5_real, f5_real, f6_real, f6_real, f7_real, f7_real, f8_real, f8_real]
    refine ⟨?_, ?_, ?_, ?_⟩
    · simp only [ex', ey', g1, g2, sw g1, sw g2, h1, h2, false_and, if_false]; exact br g1 s5
    · simp only [ex', ey', h11, hm, sw h11, sw hm, h1, h2, false_and, if_false]; exact br g3 s6
    · simp only [ex', ey', h11, hm, sw h11, sw hm, h1, h2, false_and, if_false]; exact br h11 s7
    · simp only [ex, ey, g1, g2, sw g1, sw g2, h1, h2, false_and, if_false]; exact br g1 s8

/-- **Finding.**  With one argument of modulus slightly above one and the other below `1/100` the code uses `2 + d`, `d = x² - 1`, where the
loop function is about `2 - d`: the first-order term has the wrong sign, the result is even less accurate than the constant `2`. -/
theorem C32_F9_small_argument_wrong (x y : ℝ) (hx : 1 < |x|) (hx' : |x| ≤ 1.01) (hy : |y| ≤ 1 / 100) :
    F9 x y = 2 + (x ^ 2 - 1) ∧ 19 / 10 * (x ^ 2 - 1) ≤ F9 x y - Spec.F9I x y := by
  have a : |(|x| - 1)| ≤ 1 / 100 := by rw [abs_le]; norm_num at hx' ⊢; constructor <;> linarith
  have b : ¬ |(|y| - 1)| ≤ 1 / 100 := by
    intro h; have := (abs_le.1 h).1; norm_num at this; linarith
  have hd : |x ^ 2 - 1| ≤ 1 / 49 := (abs_near a).trans (by norm_num)
  have d0 : 0 < x ^ 2 - 1 := by rw [← sq_abs]; nlinarith
  have e : F9 x y = 2 + (x ^ 2 - 1) := by
    rw [F9_real]
    simp only [a, b, and_false, if_true, if_false]
    simp only [F9_1_x2, isZero_real, real_ofNat, real_lit, decide_eq_true_eq]
    push_cast
    rw [if_pos hy]; ring
  refine ⟨e, ?_⟩
  rw [e]
  have hx0 : x ≠ 0 := by rintro rfl; norm_num at hx
  have hp : 0 < x ^ 2 := by positivity
  have hp1 : 1 ≤ x ^ 2 := by linarith
  have hI : Spec.F9I x y ≤ 2 * Lq (x ^ 2) := by
    have h1 : C0 (fun t => 1 / D (x ^ 2) t) := by c0
    rw [F9I_eq, Lq, ← J_smul]
    by_cases hy0 : y = 0
    · apply le_of_eq
      unfold J
      apply intervalIntegral.integral_congr_ae
      have : ∀ᵐ t : ℝ, t ≠ 1 := by simp [MeasureTheory.ae_iff]
      filter_upwards [this] with t ht1 ht
      rw [Set.uIoc_of_le zero_le_one] at ht
      have h1 := D_ne hp (t := t) ⟨ht.1.le, ht.2⟩
      have h2 : D (y ^ 2) t = 1 - t := by unfold D; rw [hy0]; ring
      rw [h2]
      have : 1 - t ≠ 0 := fun h => ht1 (by linarith)
      field_simp
    · have hq : 0 < y ^ 2 := by positivity
      have h2 : C0 (fun t => 2 * (1 - t) / (D (x ^ 2) t * D (y ^ 2) t)) := by c0
      have h3 : C0 (fun t => 2 * (1 / D (x ^ 2) t)) := by c0
      refine intervalIntegral.integral_mono_on zero_le_one h2.ii h3.ii fun t ht => ?_
      have k1 := D_pos hp ht.1 ht.2
      have k2 := D_pos hq ht.1 ht.2
      rw [mul_one_div, div_le_div_iff₀ (by positivity) k1]
      have : 1 - t ≤ D (y ^ 2) t := by unfold D; have := mul_nonneg ht.1 hq.le; linarith
      nlinarith
  have hL : Lq (x ^ 2) ≤ 1 - 9 / 20 * (x ^ 2 - 1) := by
    obtain ⟨ρ, hρ, el⟩ := log_expand 2 d0.ne' hd
    rw [Lq, I1_eq hp (by linarith)]
    have e2 : log (1 + (x ^ 2 - 1)) = log (x ^ 2) := by congr 1; ring
    rw [e2] at el
    rw [el]
    simp only [Finset.sum_range_succ, Finset.sum_range_zero]
    rw [div_le_iff₀ d0]
    have h1 := (abs_le.1 hρ).2
    have h2 := (abs_le.1 hd).2
    generalize x ^ 2 - 1 = d at *
    have h3 : d * ρ ≤ 1 / 20 := by
      calc d * ρ ≤ d * (49 / 48) := mul_le_mul_of_nonneg_left h1 d0.le
        _ ≤ 1 / 20 := by linarith
    have h4 : d ^ 2 * (d * ρ) ≤ d ^ 2 * (1 / 20) := mul_le_mul_of_nonneg_left h3 (sq_nonneg d)
    norm_num
    linarith
  nlinarith

example : F9 (1.005:ℝ) 0.001 - Spec.F9I 1.005 0.001 ≥ 0.019 := by
  have h : |(1.005:ℝ)| = 1.005 := abs_of_pos (by norm_num)
  have := (C32_F9_small_argument_wrong 1.005 0.001 (by rw [h]; norm_num) (by rw [h]; norm_num) (by rw [abs_of_pos] <;> norm_num)).2
  norm_num at this ⊢
  linarith

/-! ### findings in binary64 with infinities and NaN -/

section nanrules
variable (a : Dbl) (x y : ℝ)
theorem nan_add : (Dbl.nan + a : Dbl) = Dbl.nan := by cases a <;> rfl
theorem add_nan : (a + Dbl.nan : Dbl) = Dbl.nan := by cases a <;> rfl
theorem nan_mul : (Dbl.nan * a : Dbl) = Dbl.nan := by cases a <;> rfl
theorem mul_nan : (a * Dbl.nan : Dbl) = Dbl.nan := by cases a <;> rfl
theorem nan_sub : (Dbl.nan - a : Dbl) = Dbl.nan := by cases a <;> rfl
theorem sub_nan : (a - Dbl.nan : Dbl) = Dbl.nan := by cases a <;> rfl
theorem zero_div : (Dbl.fin 0 / Dbl.fin 0 : Dbl) = Dbl.nan := by
  show Dbl.div _ _ = _; simp [Dbl.div, Dbl.infOfSign]
theorem log_fin : FOps.log (Dbl.fin x) = if 0 < x then Dbl.fin (Real.log x) else if x = 0 then Dbl.ninf else Dbl.nan := rfl
theorem log_one_fin : FOps.log (Dbl.fin 1) = Dbl.fin 0 := by rw [log_fin]; simp
theorem fin_mul_ninf : (Dbl.fin x * Dbl.ninf : Dbl) = Dbl.infOfSign (-x) := rfl
theorem ninf_mul_fin : (Dbl.ninf * Dbl.fin x : Dbl) = Dbl.infOfSign (-x) := rfl
end nanrules

theorem isZero_fin (a p : ℝ) : Misc.isZero (Dbl.fin a) (Dbl.fin p) = decide (|a| ≤ p) := by
  simp only [Misc.isZero, Misc.dabs, Dbl.fin_lit, Dbl.fin_le, Dbl.fin_neg, decide_eq_true_eq]
  push_cast
  split_ifs with h
  · rw [Dbl.fin_le, abs_of_nonneg h]
  · rw [Dbl.fin_le, abs_of_neg (not_le.1 h)]
theorem isEqual_fin (a b p : ℝ) : Misc.isEqual (Dbl.fin a) (Dbl.fin b) (Dbl.fin p) = decide (|a - b| ≤ p) := by
  rw [Misc.isEqual, Dbl.fin_sub, isZero_fin]

macro "dbl" f:ident : tactic => `(tactic| (simp only [$f:ident, Dbl.fin_ofNat, Dbl.fin_lit, Dbl.fin_neg, epsD, Misc.eps, Dbl.fin_mul, Dbl.fin_sub, Dbl.fin_add, Dbl.fin_abs, isZero_fin, isEqual_fin, Bool.and_eq_true,
  decide_eq_true_eq, sqr, cube, quad, pow5, Dbl.fin_le, Dbl.fin_lt]; push_cast))

/-- **Finding.**  `f5 … f8` have no branch for a single argument equal to `-1`: for every other argument away from `0` and `±1` the result is
NaN, although the loop functions are finite there.  (The arguments are ratios such as `M1/mu`, so that `M1 = -mu` is affected.) -/
theorem C32_f5_f8_nan_at_minus_one (s : ℝ) (h0 : 1 / 10000 < |s|) (h1 : 1 / 50 < |s - 1|) (h2 : 1 / 50 < |s - -1|) :
    f5 (Dbl.fin (-1)) (Dbl.fin s) = Dbl.nan ∧ f6 (Dbl.fin (-1)) (Dbl.fin s) = Dbl.nan ∧
    f7 (Dbl.fin (-1)) (Dbl.fin s) = Dbl.nan ∧ f8 (Dbl.fin (-1)) (Dbl.fin s) = Dbl.nan := by
  have a1 : ¬ |(-1:ℝ)| ≤ 1 / 10000 := by norm_num
  have a1' : ¬ |(-1:ℝ)| ≤ 1 / 20000 := by norm_num
  have a2 : ∀ c : ℝ, c < 1 → ¬ |(-1:ℝ) - 1| ≤ c := fun c hc => by norm_num; linarith
  have a3 : ∀ c : ℝ, c ≤ 1 / 50 → ¬ |s - -1| ≤ c := fun c hc => by linarith
  have a3' : ∀ c : ℝ, c ≤ 1 / 50 → ¬ |-1 - s| ≤ c := fun c hc => by rw [abs_sub_comm]; linarith
  have a4 : ∀ c : ℝ, c ≤ 1 / 50 → ¬ |s - 1| ≤ c := fun c hc => by linarith
  have a5 : ∀ c : ℝ, c ≤ 1 / 10000 → ¬ |s| ≤ c := fun c hc => by linarith
  have z : (-1:ℝ) * -1 - 1 = 0 := by norm_num
  have z' : (-1:ℝ) * -1 = 1 := by norm_num
  refine ⟨?_, ?_, ?_, ?_⟩
  · dbl f5
    rw [if_neg (fun h => a1 h.1), if_neg (fun h => a2 _ (by norm_num) h.1), if_neg (fun h => a3 _ (by norm_num) h.2), if_neg (a2 _ (by norm_num)), if_neg (a4 _ (by norm_num)),
      if_neg a1, if_neg (a5 _ (by norm_num)), if_neg (a3' _ (by norm_num)), z, z', log_one_fin]
    simp only [Dbl.fin_mul, mul_zero, zero_mul, zero_div, nan_add, add_nan, nan_sub, sub_nan, nan_mul, mul_nan]
  · dbl f6
    rw [if_neg (fun h => a1 h.1), if_neg (fun h => a2 _ (by norm_num) h.1), if_neg (fun h => a3 _ (by norm_num) h.2), if_neg (a2 _ (by norm_num)), if_neg (a4 _ (by norm_num)),
      if_neg a1, if_neg (a5 _ (by norm_num)), if_neg (a3' _ (by norm_num)), z, z', log_one_fin]
    simp only [Dbl.fin_mul, mul_zero, zero_mul, zero_div, nan_add, add_nan, nan_sub, sub_nan, nan_mul, mul_nan]
  · dbl f7
    rw [if_neg (fun h => a1 h.1), if_neg (fun h => a2 _ (by norm_num) h.1), if_neg (fun h => a3 _ (by norm_num) h.2), if_neg (a2 _ (by norm_num)), if_neg (a4 _ (by norm_num)),
      if_neg a1, if_neg (a5 _ (by norm_num)), if_neg (a3' _ (by norm_num)), z, z', log_one_fin]
    simp only [Dbl.fin_mul, mul_zero, zero_mul, zero_div, nan_add, add_nan, nan_sub, sub_nan, nan_mul, mul_nan]
  · dbl f8
    rw [if_neg (fun h => a1' h.1), if_neg (fun h => a2 _ (by norm_num) h.1), if_neg (fun h => a3 _ (by norm_num) h.2), if_neg (a2 _ (by norm_num)), if_neg (a4 _ (by norm_num)),
      if_neg a1', if_neg (a5 _ (by norm_num)), if_neg (a3' _ (by norm_num)), z, z', log_one_fin]
    simp only [Dbl.fin_mul, mul_zero, zero_mul, zero_div, nan_add, add_nan, nan_sub, sub_nan, nan_mul, mul_nan]

example : f6 (Dbl.fin (-1)) (Dbl.fin 2) = Dbl.nan :=
  (C32_f5_f8_nan_at_minus_one 2 (by norm_num) (by norm_num) (by norm_num)).2.1

/-- **Finding.**  With both arguments below `10⁻⁴`, `F9` uses only the second one and is not symmetric: with a zero second argument it is
infinite, with the arguments exchanged it is finite. -/
theorem C32_F9_asymmetric_near_zero (x : ℝ) (h0 : x ≠ 0) (h : |x| ≤ 1 / 10000) :
    F9 (Dbl.fin x) (Dbl.fin 0) = Dbl.pinf ∧ F9 (Dbl.fin 0) (Dbl.fin x) = Dbl.fin (2 * Real.log (x * x) / (-1 + x * x)) := by
  have n : ∀ y : ℝ, |y| ≤ 1 / 10000 → ¬ |(|y| - 1)| ≤ 1 / 100 := fun y hy k => by
    have := (abs_le.1 k).1; norm_num at this; linarith
  have nx := n x h
  have n0 := n 0 (by norm_num)
  have i0 : |(0:ℝ)| ≤ 1 / 10000 := by norm_num
  have hx2 : 0 < x * x := mul_self_pos.2 (by assumption)
  have hx3 : x * x ≤ 1 / 10000 := by
    rw [← abs_mul_abs_self x]; nlinarith [abs_nonneg x]
  constructor
  · dbl F9
    rw [if_neg (fun h => nx h.1), if_neg nx, if_neg n0, if_pos h]
    dbl F9_0_x2
    rw [mul_zero, log_fin, if_neg (lt_irrefl _), if_pos rfl]
    show Dbl.div (Dbl.mul (Dbl.fin 2) Dbl.ninf) (Dbl.fin (-1 + 0)) = _
    have e1 : Dbl.mul (Dbl.fin 2) Dbl.ninf = Dbl.ninf := by
      show Dbl.infOfSign (-2) = _
      unfold Dbl.infOfSign
      rw [if_neg (by norm_num), if_pos (by norm_num)]
    rw [e1]
    show (if (-1 + 0 : ℝ) < 0 then Dbl.pinf else Dbl.ninf) = _
    rw [if_pos (by norm_num)]
  · dbl F9
    rw [if_neg (fun h => nx h.2), if_neg n0, if_neg nx, if_pos i0]
    dbl F9_0_x2
    rw [log_fin, if_pos hx2, Dbl.fin_mul]
    exact Dbl.fin_div _ _ (fun k => by linarith)

example : F9 (Dbl.fin 0.00001) (Dbl.fin 0) = Dbl.pinf :=
  (C32_F9_asymmetric_near_zero 0.00001 (by norm_num) (by rw [abs_of_pos] <;> norm_num)).1

/-- **Finding.**  `f6` does not order its arguments near the origin: it is NaN when the second one is zero. -/
theorem C32_f6_nan_near_zero (x : ℝ) (h0 : 1 / 10 ^ 10 < |x|) (h : |x| ≤ 1 / 10000) :
    f6 (Dbl.fin x) (Dbl.fin 0) = Dbl.nan ∧ ∃ v, f6 (Dbl.fin 0) (Dbl.fin x) = Dbl.fin v := by
  have i0 : |(0:ℝ)| ≤ 1 / 10000 := by norm_num
  have hx : x ≠ 0 := by rintro rfl; norm_num at h0
  have hx2 : 0 < x * x := mul_self_pos.2 (by assumption)
  have n : ¬ |x| ≤ 1 / 10000000000 := not_le.2 (lt_of_eq_of_lt (by norm_num) h0)
  constructor
  · dbl f6
    rw [if_pos ⟨h, i0⟩]
    dbl f6_0_0
    rw [if_neg (fun k => n k.1), mul_zero, log_fin, if_neg (lt_irrefl _), if_pos rfl]
    have e1 : (Dbl.fin 1 + Dbl.ninf : Dbl) = Dbl.ninf := rfl
    have e2 : (Dbl.ninf * Dbl.fin 0 : Dbl) = Dbl.nan := by rw [ninf_mul_fin]; simp [Dbl.infOfSign]
    simp only [e1, e2, nan_add, add_nan, nan_mul, mul_nan]
  · dbl f6
    rw [if_pos ⟨i0, h⟩]
    dbl f6_0_0
    rw [if_neg (fun k => n k.2), log_fin, if_pos hx2]
    simp only [Dbl.fin_add, Dbl.fin_mul]
    have e7 : (Dbl.fin 6 / Dbl.fin 7 : Dbl) = Dbl.fin (6 / 7) := Dbl.fin_div _ _ (by norm_num)
    rw [e7, Dbl.fin_mul]
    exact ⟨_, rfl⟩

/-- **Finding.**  Near the origin `f5` takes the logarithm of an argument instead of its square: for negative arguments the result is NaN,
although `f5` is invariant under a common sign change. -/
theorem C32_f5_nan_small_negative (a : ℝ) (h0 : 1 / 1000000 < a) (h : a ≤ 1 / 10000) :
    f5 (Dbl.fin (-a)) (Dbl.fin (-a)) = Dbl.nan ∧ ∃ v, f5 (Dbl.fin a) (Dbl.fin a) = Dbl.fin v := by
  have ha : 0 < a := by linarith [show (0:ℝ) < 1 / 1000000 by norm_num]
  have e : |-a| = a := by rw [abs_neg, abs_of_pos ha]
  have e' : |a| = a := abs_of_pos ha
  have n : ¬ a ≤ 1 / 1000000 := not_le.2 h0
  have n2 : ¬ a ≤ 1 / 100000000000000 := fun k => n (k.trans (by norm_num))
  have n3 : ¬ a ≤ 10 * (1 / 2 ^ 52) := fun k => n (k.trans (by norm_num))
  constructor
  · dbl f5
    rw [e, if_pos ⟨h, h⟩]
    dbl f5_0_0
    rw [e, if_neg (fun k => n k.1), if_neg (lt_irrefl _)]
    dbl xlogx
    rw [e, if_neg n2, log_fin, if_neg (by linarith), if_neg (by linarith)]
    simp only [nan_add, add_nan, nan_mul, mul_nan]
  · dbl f5
    rw [e', if_pos ⟨h, h⟩]
    dbl f5_0_0
    rw [e', if_neg (fun k => n k.1), if_neg (lt_irrefl _)]
    dbl xlogx
    dbl logx
    rw [e', if_neg n2, if_neg n3, log_fin, if_pos ha]
    simp only [Dbl.fin_add, Dbl.fin_mul]
    exact ⟨_, rfl⟩

example : f5 (Dbl.fin (-0.00005)) (Dbl.fin (-0.00005)) = Dbl.nan :=
  (C32_f5_nan_small_negative 0.00005 (by norm_num) (by norm_num)).1

end Himalaya.TLF
