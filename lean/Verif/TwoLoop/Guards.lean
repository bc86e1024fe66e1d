import Verif.TwoLoop.Model
import Verif.Iface.Props1

set_option linter.unusedSimpArgs false
set_option linter.unusedVariables false

/-!
# C50, C53: what `DDSHiggs` does to its arguments

`delta_mh2_2loop_at_at` divides by differences of squared masses and by sines of mixing angles.  The Fortran routine moves arguments which
are too close to a singular point.  C50: afterwards no denominator vanishes and nothing has moved far.  C53: the cosine of the mixing
angle is recomputed from the sine, which loses its sign.
-/

namespace Himalaya.TwoLoop

open Real

/-- result of one guard: `r` is away from `y` by `eps` and close to `x` -/
theorem apart_spec {eps x y : ℝ} (he : 0 < eps) (he1 : eps < 1 / 2) (hx : 0 < x) (hy : 0 < y) :
    0 < apart eps x y ∧ eps * apart eps x y ≤ |apart eps x y - y| ∧ |apart eps x y - x| ≤ 2 * eps * x ∧ x * (1 - eps) ≤ apart eps x y ∧
    |apart eps x y - x| ≤ eps / (1 - eps) * x := by
  have hd : 0 < 1 - eps := by linarith
  have h2 : eps / (1 - eps) ≤ 2 * eps := by rw [div_le_iff₀ hd]; nlinarith
  have main : 0 < apart eps x y ∧ eps * apart eps x y ≤ |apart eps x y - y| ∧ x * (1 - eps) ≤ apart eps x y ∧
      |apart eps x y - x| ≤ eps / (1 - eps) * x := by
    unfold apart
    by_cases h : |(x - y) / x| < eps
    · rw [if_pos h]
      rw [abs_div, abs_of_pos hx, div_lt_iff₀ hx, abs_lt] at h
      by_cases hxy : x > y
      · rw [if_pos hxy]
        have e : y / (1 - eps) - y = eps * (y / (1 - eps)) := by field_simp; ring
        have hlt : x < y / (1 - eps) := by rw [lt_div_iff₀ hd]; nlinarith
        have hup : y / (1 - eps) ≤ x / (1 - eps) := by gcongr
        have e2 : x / (1 - eps) - x = eps / (1 - eps) * x := by field_simp; ring
        refine ⟨by positivity, ?_, ?_, ?_⟩
        · rw [e, abs_of_pos (by positivity)]
        · nlinarith
        · rw [abs_of_pos (by linarith)]; linarith
      · rw [if_neg hxy]
        push Not at hxy
        have hd' : 0 < 1 + eps := by linarith
        have e : y - y / (1 + eps) = eps * (y / (1 + eps)) := by field_simp; ring
        have hlt : y / (1 + eps) < x := by rw [div_lt_iff₀ hd']; nlinarith
        have hlo : x / (1 + eps) ≤ y / (1 + eps) := by gcongr
        have e2 : x - x / (1 + eps) = eps / (1 + eps) * x := by field_simp; ring
        have h3 : eps / (1 + eps) ≤ eps / (1 - eps) := by gcongr; linarith
        have h4 : x * (1 - eps) ≤ x / (1 + eps) := by rw [le_div_iff₀ hd']; nlinarith [sq_nonneg eps]
        refine ⟨by positivity, ?_, by linarith, ?_⟩
        · rw [abs_sub_comm, e, abs_of_pos (by positivity)]
        · rw [abs_sub_comm, abs_of_pos (by linarith)]
          have := mul_le_mul_of_nonneg_right h3 hx.le
          linarith
    · rw [if_neg h]
      push Not at h
      rw [abs_div, abs_of_pos hx, le_div_iff₀ hx] at h
      refine ⟨hx, h, by nlinarith, ?_⟩
      rw [sub_self, abs_zero]; positivity
  refine ⟨main.1, main.2.1, ?_, main.2.2.1, main.2.2.2⟩
  have := mul_le_mul_of_nonneg_right h2 hx.le
  linarith [main.2.2.2]

theorem apart_id {eps x y : ℝ} (h : eps ≤ |(x - y) / x|) : apart eps x y = x := by
  unfold apart; rw [if_neg (not_lt.2 h)]

theorem nonzero_spec {eps s : ℝ} (he : 0 < eps) : eps ≤ |nonzero eps s| ∧ |nonzero eps s - s| ≤ 2 * eps ∧ (|s| ≤ 1 → eps ≤ 1 → |nonzero eps s| ≤ 1) := by
  unfold nonzero
  by_cases h : |s| < eps
  · rw [if_pos h]
    rw [abs_lt] at h
    by_cases h0 : s ≥ 0
    · rw [if_pos h0, abs_of_pos he]; refine ⟨le_rfl, ?_, fun _ h => h⟩; rw [abs_le]; constructor <;> linarith
    · rw [if_neg h0, abs_neg, abs_of_pos he]; refine ⟨le_rfl, ?_, fun _ h => h⟩; rw [abs_le]; constructor <;> linarith
  · rw [if_neg h]; push Not at h; refine ⟨h, ?_, fun h _ => h⟩; rw [sub_self, abs_zero]; linarith

theorem nonzero_id {eps s : ℝ} (h : eps ≤ |s|) : nonzero eps s = s := by
  unfold nonzero; rw [if_neg (not_lt.2 h)]

/-- the squared masses are positive and the sines are sines -/
structure Physical (a : Sq) : Prop where
  T1 : 0 < a.T1
  T2 : 0 < a.T2
  B1 : 0 < a.B1
  B2 : 0 < a.B2
  st : |a.st| ≤ 1
  sb : |a.sb| ≤ 1

/-- relative separation of two squared masses, as used in the guards: `|x - y| ≥ eps x` -/
def Sep (eps x y : ℝ) : Prop := eps * x ≤ |x - y|

theorem sep_ne {eps x y : ℝ} (he : 0 < eps) (hx : 0 < x) (h : Sep eps x y) : x ≠ y := by
  intro e; unfold Sep at h; rw [e, sub_self, abs_zero] at h; rw [e] at hx; nlinarith

theorem sq_add_sqrt {x : ℝ} (h : |x| ≤ 1) : x ^ 2 + √(1 - x * x) ^ 2 = 1 := by
  have : x * x ≤ 1 := by rw [← abs_mul_abs_self]; nlinarith [abs_nonneg x]
  rw [Real.sq_sqrt (by linarith)]; ring

/-- C50: after the guards all squared masses are positive, every denominator of the two-loop expressions is away from zero (relative
separations between 1e-5 and 1e-9), and the cosines belong to the sines -/
theorem C50_no_singularity (a : Sq) (h : Physical a) :
    let r := guards a
    Physical r ∧ 1 / 10 ^ 5 ≤ |r.st| ∧ 1 / 10 ^ 8 ≤ |r.sb| ∧ r.st ^ 2 + r.ct ^ 2 = 1 ∧ r.sb ^ 2 + r.cb ^ 2 = 1 ∧
    Sep (1 / 10 ^ 5) r.T1 r.T2 ∧ Sep (7 / 10 ^ 6) r.B1 r.B2 ∧ Sep (7 / 10 ^ 7) r.B1 r.T1 ∧ Sep (1 / 10 ^ 7) r.B1 r.T2 ∧
    Sep (7 / 10 ^ 9) r.B2 r.T1 ∧ Sep (1 / 10 ^ 9) r.B2 r.T2 := by
  intro r
  obtain ⟨t1, t2, t3, t4, -⟩ := apart_spec (eps := 1 / 10 ^ 5) (x := a.T1) (y := a.T2) (by norm_num) (by norm_num) h.T1 h.T2
  obtain ⟨p1, p2, p3, p4, -⟩ := apart_spec (eps := 1 / 10 ^ 5) (x := a.B1) (y := a.B2) (by norm_num) (by norm_num) h.B1 h.B2
  set T1' := apart (1 / 10 ^ 5) a.T1 a.T2 with hT1'
  set b1 := apart (1 / 10 ^ 5) a.B1 a.B2 with hb1
  obtain ⟨q1, q2, q3, q4, -⟩ := apart_spec (eps := 1 / 10 ^ 6) (x := b1) (y := T1') (by norm_num) (by norm_num) p1 t1
  set b2 := apart (1 / 10 ^ 6) b1 T1' with hb2
  obtain ⟨r1, r2, r3, r4, -⟩ := apart_spec (eps := 1 / 10 ^ 7) (x := b2) (y := a.T2) (by norm_num) (by norm_num) q1 h.T2
  set b3 := apart (1 / 10 ^ 7) b2 a.T2 with hb3
  obtain ⟨c1, c2, c3, c4, -⟩ := apart_spec (eps := 1 / 10 ^ 8) (x := a.B2) (y := T1') (by norm_num) (by norm_num) h.B2 t1
  set d1 := apart (1 / 10 ^ 8) a.B2 T1' with hd1
  obtain ⟨e1, e2, e3, e4, -⟩ := apart_spec (eps := 1 / 10 ^ 9) (x := d1) (y := a.T2) (by norm_num) (by norm_num) c1 h.T2
  set d2 := apart (1 / 10 ^ 9) d1 a.T2 with hd2
  have hr : r = ⟨T1', a.T2, b3, d2, nonzero (1 / 10 ^ 5) a.st, √(1 - nonzero (1 / 10 ^ 5) a.st * nonzero (1 / 10 ^ 5) a.st),
      nonzero (1 / 10 ^ 8) a.sb, √(1 - nonzero (1 / 10 ^ 8) a.sb * nonzero (1 / 10 ^ 8) a.sb)⟩ := rfl
  rw [hr]
  obtain ⟨s1, s2, s3⟩ := nonzero_spec (eps := 1 / 10 ^ 5) (s := a.st) (by norm_num)
  obtain ⟨u1, u2, u3⟩ := nonzero_spec (eps := 1 / 10 ^ 8) (s := a.sb) (by norm_num)
  have s3' := s3 h.st (by norm_num)
  have u3' := u3 h.sb (by norm_num)
  clear_value T1' b1 b2 b3 d1 d2
  refine ⟨⟨t1, h.T2, r1, e1, s3', u3'⟩, s1, u1, ?_, ?_, t2, ?_, ?_, r2, ?_, e2⟩
  · exact sq_add_sqrt s3'
  · exact sq_add_sqrt u3'
  · -- B1, B2
    unfold Sep; simp only
    rw [abs_le] at q3 r3 c3 e3
    rcases le_total 0 (b1 - a.B2) with hs | hs
    · rw [abs_of_nonneg hs] at p2
      refine le_trans ?_ (le_abs_self _); linarith [q3.1, q3.2, r3.1, r3.2, c3.1, c3.2, e3.1, e3.2]
    · rw [abs_of_nonpos hs] at p2
      refine le_trans ?_ (neg_le_abs _)
      have : b1 ≤ a.B2 := by linarith
      linarith [q3.1, q3.2, r3.1, r3.2, c3.1, c3.2, e3.1, e3.2]
  · unfold Sep; simp only
    rw [abs_le] at r3
    rcases le_total 0 (b2 - T1') with hs | hs
    · rw [abs_of_nonneg hs] at q2; refine le_trans ?_ (le_abs_self _); linarith [r3.1, r3.2]
    · rw [abs_of_nonpos hs] at q2; refine le_trans ?_ (neg_le_abs _); linarith [r3.1, r3.2]
  · unfold Sep; simp only
    rw [abs_le] at e3
    rcases le_total 0 (d1 - T1') with hs | hs
    · rw [abs_of_nonneg hs] at c2; refine le_trans ?_ (le_abs_self _); linarith [e3.1, e3.2]
    · rw [abs_of_nonpos hs] at c2; refine le_trans ?_ (neg_le_abs _); linarith [e3.1, e3.2]

example : Physical ⟨1, 1, 1, 1, 0, 1, 0, 1⟩ := by constructor <;> norm_num

/-- C50: the changes are small: squared masses change by a relative amount below 3e-5, sines by at most 2e-5 -/
theorem C50_small_change (a : Sq) (h : Physical a) :
    let r := guards a
    |r.T1 - a.T1| ≤ 3 / 10 ^ 5 * a.T1 ∧ r.T2 = a.T2 ∧ |r.B1 - a.B1| ≤ 3 / 10 ^ 5 * a.B1 ∧ |r.B2 - a.B2| ≤ 3 / 10 ^ 5 * a.B2 ∧
    |r.st - a.st| ≤ 2 / 10 ^ 5 ∧ |r.sb - a.sb| ≤ 2 / 10 ^ 5 := by
  intro r
  obtain ⟨t1, t2, t3, t4, -⟩ := apart_spec (eps := 1 / 10 ^ 5) (x := a.T1) (y := a.T2) (by norm_num) (by norm_num) h.T1 h.T2
  obtain ⟨p1, p2, p3, p4, -⟩ := apart_spec (eps := 1 / 10 ^ 5) (x := a.B1) (y := a.B2) (by norm_num) (by norm_num) h.B1 h.B2
  set T1' := apart (1 / 10 ^ 5) a.T1 a.T2 with hT1'
  set b1 := apart (1 / 10 ^ 5) a.B1 a.B2 with hb1
  obtain ⟨q1, q2, q3, q4, -⟩ := apart_spec (eps := 1 / 10 ^ 6) (x := b1) (y := T1') (by norm_num) (by norm_num) p1 t1
  set b2 := apart (1 / 10 ^ 6) b1 T1' with hb2
  obtain ⟨r1, r2, r3, r4, -⟩ := apart_spec (eps := 1 / 10 ^ 7) (x := b2) (y := a.T2) (by norm_num) (by norm_num) q1 h.T2
  set b3 := apart (1 / 10 ^ 7) b2 a.T2 with hb3
  obtain ⟨c1, c2, c3, c4, -⟩ := apart_spec (eps := 1 / 10 ^ 8) (x := a.B2) (y := T1') (by norm_num) (by norm_num) h.B2 t1
  set d1 := apart (1 / 10 ^ 8) a.B2 T1' with hd1
  obtain ⟨e1, e2, e3, e4, -⟩ := apart_spec (eps := 1 / 10 ^ 9) (x := d1) (y := a.T2) (by norm_num) (by norm_num) c1 h.T2
  set d2 := apart (1 / 10 ^ 9) d1 a.T2 with hd2
  have hr : r = ⟨T1', a.T2, b3, d2, nonzero (1 / 10 ^ 5) a.st, √(1 - nonzero (1 / 10 ^ 5) a.st * nonzero (1 / 10 ^ 5) a.st),
      nonzero (1 / 10 ^ 8) a.sb, √(1 - nonzero (1 / 10 ^ 8) a.sb * nonzero (1 / 10 ^ 8) a.sb)⟩ := rfl
  rw [hr]
  obtain ⟨s1, s2, s3⟩ := nonzero_spec (eps := 1 / 10 ^ 5) (s := a.st) (by norm_num)
  obtain ⟨u1, u2, u3⟩ := nonzero_spec (eps := 1 / 10 ^ 8) (s := a.sb) (by norm_num)
  clear_value T1' b1 b2 b3 d1 d2
  have := h.T1
  have := h.B1
  have := h.B2
  rw [abs_le] at q3 r3 c3 e3 p3
  refine ⟨by linarith, rfl, ?_, ?_, by linarith, by linarith⟩
  · simp only; rw [abs_le]; constructor <;> linarith [q3.1, q3.2, r3.1, r3.2, p3.1, p3.2]
  · simp only; rw [abs_le]; constructor <;> linarith [c3.1, c3.2, e3.1, e3.2]

/-- nothing is close to a singular point -/
structure Regular (a : Sq) : Prop where
  st : 1 / 10 ^ 5 ≤ |a.st|
  sb : 1 / 10 ^ 8 ≤ |a.sb|
  T : 1 / 10 ^ 5 ≤ |(a.T1 - a.T2) / a.T1|
  B : 1 / 10 ^ 5 ≤ |(a.B1 - a.B2) / a.B1|
  B1T1 : 1 / 10 ^ 6 ≤ |(a.B1 - a.T1) / a.B1|
  B1T2 : 1 / 10 ^ 7 ≤ |(a.B1 - a.T2) / a.B1|
  B2T1 : 1 / 10 ^ 8 ≤ |(a.B2 - a.T1) / a.B2|
  B2T2 : 1 / 10 ^ 9 ≤ |(a.B2 - a.T2) / a.B2|

theorem guards_regular (a : Sq) (h : Regular a) : guards a = { a with ct := √(1 - a.st * a.st), cb := √(1 - a.sb * a.sb) } := by
  unfold guards
  simp only [nonzero_id h.st, nonzero_id h.sb, apart_id h.T, apart_id h.B, apart_id h.B1T1, apart_id h.B1T2, apart_id h.B2T1, apart_id h.B2T2]

theorem sqrt_cos {s c : ℝ} (h : s ^ 2 + c ^ 2 = 1) : √(1 - s * s) = |c| := by
  rw [show 1 - s * s = c ^ 2 by linear_combination -h, Real.sqrt_sq_eq_abs]

/-- C50: arguments which are not near a singular point are left alone, if the cosines of the mixing angles are not negative -/
theorem C50_regular_unchanged (a : Sq) (h : Regular a) (ht : a.st ^ 2 + a.ct ^ 2 = 1) (hb : a.sb ^ 2 + a.cb ^ 2 = 1)
    (hct : 0 ≤ a.ct) (hcb : 0 ≤ a.cb) : guards a = a := by
  rw [guards_regular a h, sqrt_cos ht, sqrt_cos hb, abs_of_nonneg hct, abs_of_nonneg hcb]

example : Regular ⟨1, 4, 2, 8, 3 / 5, 4 / 5, 3 / 5, 4 / 5⟩ := by constructor <;> norm_num [abs_div, abs_of_pos, abs_of_neg]

/-- C50: the CP-odd routine gets arguments which the CP-even routine has already moved, and moves them again: with all squared masses of
the lighter states equal, the CP-even and CP-odd corrections are evaluated at different sbottom masses -/
theorem C50_second_call_moves_again : ∃ a : Sq, Physical a ∧ guards (guards a) ≠ guards a := by
  refine ⟨⟨1, 4, 1, 1, 3 / 5, 4 / 5, 3 / 5, 4 / 5⟩, by constructor <;> norm_num [abs_div], ?_⟩
  have h1 : guards ⟨1, 4, 1, 1, 3 / 5, 4 / 5, 3 / 5, 4 / 5⟩ =
      ⟨1, 4, 1 / (1 + 1 / 10 ^ 5), 1 / (1 + 1 / 10 ^ 8), 3 / 5, √(1 - 3 / 5 * (3 / 5)), 3 / 5, √(1 - 3 / 5 * (3 / 5))⟩ := by
    have n1 : nonzero (1 / 10 ^ 5) (3 / 5) = 3 / 5 := nonzero_id (by norm_num [abs_div])
    have n2 : nonzero (1 / 10 ^ 8) (3 / 5) = 3 / 5 := nonzero_id (by norm_num [abs_div])
    have a1 : apart (1 / 10 ^ 5) 1 4 = 1 := apart_id (by norm_num)
    have a2 : apart (1 / 10 ^ 5) 1 1 = 1 / (1 + 1 / 10 ^ 5) := by unfold apart; norm_num
    have a3 : apart (1 / 10 ^ 6) (1 / (1 + 1 / 10 ^ 5)) 1 = 1 / (1 + 1 / 10 ^ 5) := apart_id (by norm_num [abs_div])
    have a4 : apart (1 / 10 ^ 7) (1 / (1 + 1 / 10 ^ 5)) 4 = 1 / (1 + 1 / 10 ^ 5) := apart_id (by norm_num [abs_div])
    have a5 : apart (1 / 10 ^ 8) 1 1 = 1 / (1 + 1 / 10 ^ 8) := by unfold apart; norm_num
    have a6 : apart (1 / 10 ^ 9) (1 / (1 + 1 / 10 ^ 8)) 4 = 1 / (1 + 1 / 10 ^ 8) := apart_id (by norm_num [abs_div])
    unfold guards; simp only [n1, n2, a1, a2, a3, a4, a5, a6]
  rw [h1]
  intro h
  have hB := congrArg Sq.B1 h
  have a1 : apart (1 / 10 ^ 5) 1 4 = 1 := apart_id (by norm_num)
  have b1 : apart (1 / 10 ^ 5) (1 / (1 + 1 / 10 ^ 5)) (1 / (1 + 1 / 10 ^ 8)) = 1 / (1 + 1 / 10 ^ 8) / (1 + 1 / 10 ^ 5) := by
    unfold apart; norm_num [abs_div, abs_of_neg, abs_of_pos]
  have b2 : apart (1 / 10 ^ 6) (1 / (1 + 1 / 10 ^ 8) / (1 + 1 / 10 ^ 5)) 1 = 1 / (1 + 1 / 10 ^ 8) / (1 + 1 / 10 ^ 5) := apart_id (by norm_num [abs_div])
  have b3 : apart (1 / 10 ^ 7) (1 / (1 + 1 / 10 ^ 8) / (1 + 1 / 10 ^ 5)) 4 = 1 / (1 + 1 / 10 ^ 8) / (1 + 1 / 10 ^ 5) := apart_id (by norm_num [abs_div])
  unfold guards at hB
  simp only [a1, b1, b2, b3] at hB
  norm_num at hB

/-! ### C53: the sign of the mixing angle -/

/-- the trilinear mixing `X = (m1² - m2²) sin(2 theta) / (2 m_q)` the routine works with; mh2l/DSZHiggs.f:139-146 -/
noncomputable def mixingUsed (a : Sq) (mt : ℝ) : ℝ := ((guards a).T1 - (guards a).T2) * (2 * (guards a).ct * (guards a).st) / 2 / mt

/-- C53 (partial): for an angle with non-negative cosine the routine works with the mixing of the mass matrix -/
theorem C53_mixing_right_partial (a : Sq) (h : Regular a) (ht : a.st ^ 2 + a.ct ^ 2 = 1) (hct : 0 ≤ a.ct) (mt : ℝ) :
    mixingUsed a mt = (a.T1 - a.T2) * (2 * a.ct * a.st) / 2 / mt := by
  unfold mixingUsed; rw [guards_regular a h]; simp only; rw [sqrt_cos ht, abs_of_nonneg hct]

/-- for an angle with negative cosine it works with the opposite mixing -/
theorem C53_mixing_opposite (a : Sq) (h : Regular a) (ht : a.st ^ 2 + a.ct ^ 2 = 1) (hct : a.ct < 0) (mt : ℝ) :
    mixingUsed a mt = -((a.T1 - a.T2) * (2 * a.ct * a.st) / 2 / mt) := by
  unfold mixingUsed; rw [guards_regular a h]; simp only; rw [sqrt_cos ht, abs_of_neg hct]; ring

/-- the angle computed from a mass matrix ((LL, LR), (LR, RR)) with LL > RR and LR > 0 has a negative cosine -/
theorem angle_cos_neg {m1 m2 θ a b d : ℝ} (hD : Diagonalises m1 m2 θ a b d) (h0 : 0 ≤ m1) (h12 : m1 ≤ m2)
    (hr : -(π / 4) ≤ θ ∧ θ ≤ 3 * π / 4) (had : d < a) (hb : 0 < b) : cos θ < 0 ∧ 1 / 2 ≤ sin θ ^ 2 := by
  obtain ⟨ha, hb', hd⟩ := hD
  have hm : 0 ≤ m2 ^ 2 - m1 ^ 2 := by nlinarith
  have hm' : m2 ^ 2 - m1 ^ 2 ≠ 0 := by intro e; rw [show m1 ^ 2 - m2 ^ 2 = -(m2 ^ 2 - m1 ^ 2) by ring, e] at hb'; simp at hb'; linarith
  have hmp : 0 < m2 ^ 2 - m1 ^ 2 := lt_of_le_of_ne hm (Ne.symm hm')
  have hcs := cos_sq_add_sin_sq θ
  have h2 : 0 < (m2 ^ 2 - m1 ^ 2) * (sin θ ^ 2 - cos θ ^ 2) := by nlinarith
  have h3 : 0 < sin θ ^ 2 - cos θ ^ 2 := by
    by_contra hc; push Not at hc; nlinarith
  have hsc : sin θ * cos θ < 0 := by
    by_contra hc; push Not at hc; nlinarith
  have hs : 0 < sin θ := by
    by_contra hneg
    push Not at hneg
    -- then θ ≤ 0, so cos θ ≥ sqrt 2 / 2
    have hθ : θ ≤ 0 := by
      by_contra hp; push Not at hp
      have := sin_pos_of_pos_of_lt_pi hp (by linarith [pi_pos, hr.2]); linarith
    have hcos : 0 ≤ cos (2 * θ) := by
      apply cos_nonneg_of_mem_Icc; constructor <;> linarith [hr.1, pi_pos]
    rw [cos_two_mul'] at hcos; linarith
  refine ⟨?_, by linarith⟩
  by_contra hc; push Not at hc; nlinarith

/-- C53: the O(at²) correction is computed with the wrong sign of the stop mixing for every stop mass matrix with LL > RR and positive
off-diagonal entry (`X_t > 0`): the angle the library has computed from the mass matrix describes it correctly, but the routine works with
the mixing `-X_t`.  `R` stands for the remaining arguments, which are not near singular points. -/
theorem C53_wrong_sign {X : Himalaya.Ext Dbl} {a b d mt : ℝ} (hX : SolverContract X a b d) (hneg : ¬ HasNegEigenvalue a b d) (had : d < a)
    (hb : 0 < b) (hmt : 0 < mt) :
    ∃ m1 m2 θ : ℝ, calculate_MSf_s2f X ⟨.fin a, .fin b, .fin b, .fin d⟩ =
        .ok { ev := ⟨.fin m1, .fin m2⟩, theta := .fin θ, s2 := .fin (sin (2 * θ)) } ∧
      (m1 ^ 2 - m2 ^ 2) * (2 * cos θ * sin θ) / 2 / mt = b / mt ∧
      ∀ R : Sq, Regular { R with T1 := m1 ^ 2, T2 := m2 ^ 2, st := sin θ, ct := cos θ } →
        mixingUsed { R with T1 := m1 ^ 2, T2 := m2 ^ 2, st := sin θ, ct := cos θ } mt = -(b / mt) := by
  obtain ⟨m1, m2, θ, h1, h2, h3, h4, h5, -⟩ := (C16_masses_and_mixing hX).2 hneg
  have hX : (m1 ^ 2 - m2 ^ 2) * (2 * cos θ * sin θ) / 2 / mt = b / mt := by rw [← h4.2.1]; ring
  refine ⟨m1, m2, θ, h1, hX, fun R hR => ?_⟩
  have hc := angle_cos_neg h4 h2 h3 h5 had hb
  rw [C53_mixing_opposite _ hR (sin_sq_add_cos_sq θ) hc.1, ← hX]

/-- and with the correct sign if LL < RR or the off-diagonal entry is not positive -/
theorem C53_right_sign_partial {X : Himalaya.Ext Dbl} {a b d mt : ℝ} (hX : SolverContract X a b d) (hneg : ¬ HasNegEigenvalue a b d)
    (h : a < d ∨ b < 0) :
    ∃ m1 m2 θ : ℝ, calculate_MSf_s2f X ⟨.fin a, .fin b, .fin b, .fin d⟩ =
        .ok { ev := ⟨.fin m1, .fin m2⟩, theta := .fin θ, s2 := .fin (sin (2 * θ)) } ∧
      ∀ R : Sq, Regular { R with T1 := m1 ^ 2, T2 := m2 ^ 2, st := sin θ, ct := cos θ } →
        mixingUsed { R with T1 := m1 ^ 2, T2 := m2 ^ 2, st := sin θ, ct := cos θ } mt = b / mt := by
  obtain ⟨m1, m2, θ, h1, h2, h3, h4, h5, -⟩ := (C16_masses_and_mixing hX).2 hneg
  refine ⟨m1, m2, θ, h1, fun R hR => ?_⟩
  have hc : 0 ≤ cos θ := by
    by_contra hc; push Not at hc
    -- then θ > π/2
    have hθ : π / 2 < θ := by
      by_contra hp; push Not at hp
      have := cos_nonneg_of_mem_Icc (x := θ) ⟨by linarith [pi_pos, h5.1], hp⟩; linarith
    have hm : 0 ≤ m2 ^ 2 - m1 ^ 2 := by nlinarith
    obtain ⟨ha, hb', hd⟩ := h4
    have hsn : 0 < sin θ := sin_pos_of_pos_of_lt_pi (by linarith [pi_pos]) (by linarith [pi_pos, h5.2])
    rcases h with h | h
    · have h2θ : cos (2 * θ) ≤ 0 := by
        have : cos (2 * θ) = - cos (π - 2 * θ) := by rw [cos_pi_sub]; ring
        rw [this]
        have : 0 ≤ cos (π - 2 * θ) := cos_nonneg_of_mem_Icc ⟨by linarith [h5.2], by linarith [pi_pos]⟩
        linarith
      rw [cos_two_mul'] at h2θ
      have : d - a = (m2 ^ 2 - m1 ^ 2) * (cos θ ^ 2 - sin θ ^ 2) := by rw [← ha, ← hd]; ring
      nlinarith
    · have : sin θ * cos θ < 0 := mul_neg_of_pos_of_neg hsn hc
      nlinarith
  rw [C53_mixing_right_partial _ hR (sin_sq_add_cos_sq θ) hc]
  simp only
  rw [← h4.2.1]; ring

/-- the hypotheses can be met: squared masses 1 and 9, mixing angle 126.9 degrees -/
example : SolverContract idealExt (153 / 25) (96 / 25) (97 / 25) ∧ ¬ HasNegEigenvalue (153 / 25) (96 / 25) (97 / 25) := by
  refine ⟨idealExt_solver _ _ _, ?_⟩
  rintro ⟨l, x, y, hl, hxy, e1, e2⟩
  have h : (l - 1) * (l - 9) * x = 0 := by linear_combination (25 * l - 97) / 25 * (-e1) - 96 / 25 * e2
  have h' : (l - 1) * (l - 9) * y = 0 := by linear_combination (25 * l - 153) / 25 * (-e2) - 96 / 25 * e1
  have hne : (l - 1) * (l - 9) ≠ 0 := by nlinarith
  rcases hxy with hx | hx
  · exact mul_ne_zero hne hx h
  · exact mul_ne_zero hne hx h'

example : Regular ⟨1, 9, 2, 4, 4 / 5, -(3 / 5), 3 / 5, 4 / 5⟩ := by constructor <;> norm_num [abs_div, abs_of_pos, abs_of_neg]

end Himalaya.TwoLoop
