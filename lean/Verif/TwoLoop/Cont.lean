import Verif.TwoLoop.Sym
import Mathlib.Topology.Algebra.Field
import Mathlib.Analysis.SpecialFunctions.Trigonometric.Basic
import Mathlib.Tactic.FunProp

set_option linter.unusedSimpArgs false
set_option linter.unusedVariables false

/-!
# C51: no jumps where the mixing or the trilinear coupling vanishes

`DSZHiggs` and `DSZodd` divide by `sin(2 theta)` and by `A` and switch to other formulas where these are exactly zero.  The results are
continuous functions of the mixing angle and of `mu` there and everywhere else.
-/

namespace Himalaya.TwoLoop

open Real

variable (phi : ℝ → ℝ → ℝ → ℝ)

theorem strF1c_form (t mg T1 q : ℝ) : ∃ a b : ℝ, ∀ s, strF1c phi t mg T1 s q = a + b * s := by
  refine ⟨(strF1c phi t mg T1 1 q + strF1c phi t mg T1 (-1) q) / 2, (strF1c phi t mg T1 1 q - strF1c phi t mg T1 (-1) q) / 2, fun s => ?_⟩
  unfold strF1c; ring

theorem strF1ab_form (t T1 T2 q : ℝ) : ∃ a b d : ℝ, ∀ s c, strF1ab t T1 T2 s c q = a + b * c ^ 2 + d * s ^ 2 := by
  refine ⟨strF1ab t T1 T2 0 0 q, strF1ab t T1 T2 0 1 q - strF1ab t T1 T2 0 0 q, strF1ab t T1 T2 1 0 q - strF1ab t T1 T2 0 0 q, fun s c => ?_⟩
  unfold strF1ab; ring

theorem strF2ab_form (T1 T2 q : ℝ) : ∃ a b d : ℝ, ∀ s c, strF2ab T1 T2 s c q = a + b * c ^ 2 + d * s ^ 2 := by
  refine ⟨strF2ab T1 T2 0 0 q, strF2ab T1 T2 0 1 q - strF2ab T1 T2 0 0 q, strF2ab T1 T2 1 0 q - strF2ab T1 T2 0 0 q, fun s c => ?_⟩
  unfold strF2ab; ring

theorem strF3ab_form (T1 T2 q : ℝ) : ∃ a b d : ℝ, ∀ s c, strF3ab T1 T2 s c q = a + b * c ^ 2 + d * s ^ 2 := by
  refine ⟨strF3ab T1 T2 0 0 q, strF3ab T1 T2 0 1 q - strF3ab T1 T2 0 0 q, strF3ab T1 T2 1 0 q - strF3ab T1 T2 0 0 q, fun s c => ?_⟩
  unfold strF3ab; ring

/-- the residue of `strF2c` at vanishing mixing -/
noncomputable def res2 (t mg T1 T2 q : ℝ) : ℝ :=
  -8 * mg * √t / (T1 - T2) * (log (T1 / q) - log (t / q) * log (T1 / q) + phi t T1 (mg ^ 2))

theorem strF2c_form (t mg T1 T2 q : ℝ) : ∃ a b : ℝ, ∀ s, strF2c phi t mg T1 T2 s q = a + b * s + res2 phi t mg T1 T2 q / s := by
  refine ⟨(strF2c phi t mg T1 T2 1 q + strF2c phi t mg T1 T2 (-1) q) / 2,
    (strF2c phi t mg T1 T2 1 q - strF2c phi t mg T1 T2 (-1) q) / 2 - res2 phi t mg T1 T2 q, fun s => ?_⟩
  unfold strF2c res2
  simp only [inv_neg, div_neg, inv_one, div_one]
  ring

theorem strF3c_form (t mg T1 T2 q : ℝ) : ∃ a b r : ℝ, ∀ s, strF3c phi t mg T1 T2 s q = a + b * s + r / s := by
  -- f s = a + b s + r / s from three values
  refine ⟨(strF3c phi t mg T1 T2 1 q + strF3c phi t mg T1 T2 (-1) q) / 2,
    (4 * strF3c phi t mg T1 T2 2 q - 3 * strF3c phi t mg T1 T2 1 q - strF3c phi t mg T1 T2 (-1) q) / 6,
    (6 * strF3c phi t mg T1 T2 1 q - 4 * strF3c phi t mg T1 T2 2 q - 2 * strF3c phi t mg T1 T2 (-1) q) / 6, fun s => ?_⟩
  unfold strF3c
  ring

/-- `s^2 F3`, `s F2`, `F1` as polynomials in `s = sin(2 theta)` and `c = cos(2 theta)`, and `A sF2`, `A sF3` as constants -/
structure Coeffs where
  a1 : ℝ
  b1 : ℝ
  c1 : ℝ
  d1 : ℝ
  a2 : ℝ
  b2 : ℝ
  c2 : ℝ
  d2 : ℝ
  a3 : ℝ
  b3 : ℝ
  c3 : ℝ
  d3 : ℝ
  r3 : ℝ
  u : ℝ
  v : ℝ
  w : ℝ

def Coeffs.P3 (C : Coeffs) (s c : ℝ) : ℝ := C.r3 * s + (C.a3 + C.c3 * c ^ 2) * s ^ 2 + C.b3 * s ^ 3 + C.d3 * s ^ 4
def Coeffs.P2 (C : Coeffs) (s c : ℝ) : ℝ := C.w + (C.a2 + C.c2 * c ^ 2) * s + C.b2 * s ^ 2 + C.d2 * s ^ 3
def Coeffs.P1 (C : Coeffs) (s c : ℝ) : ℝ := C.a1 + C.c1 * c ^ 2 + C.b1 * s + C.d1 * s ^ 2

noncomputable def Coeffs.elements (C : Coeffs) (t s c mu A ht k : ℝ) : SOut :=
  ⟨k * (1/2 * ht ^ 2 * mu ^ 2 * C.P3 s c),
   k * (1/2 * ht ^ 2 * mu * (A * C.P3 s c + s ^ 2 * C.v) + ht ^ 2 * √t * mu * C.P2 s c),
   k * (1/2 * ht ^ 2 * A * (A * C.P3 s c + 2 * s ^ 2 * C.v) + 2 * ht ^ 2 * √t * (A * C.P2 s c + s * C.u) + 2 * ht ^ 2 * √t ^ 2 * C.P1 s c)⟩

/-- the matrix elements are polynomials in `sin(2 theta)`, `cos(2 theta)`, `A` and `mu`, in all four branches -/
theorem dszElements_poly (t mg T1 T2 q : ℝ) : ∃ C : Coeffs, ∀ s c mu A ht k, (s = 0 → A = 0 → mu = 0) →
    dszElements phi t mg T1 T2 s c q mu A ht k = C.elements t s c mu A ht k := by
  obtain ⟨p1, p2, p3, hp⟩ := strF1ab_form t T1 T2 q
  obtain ⟨x1, x2, hx⟩ := strF1c_form phi t mg T1 q
  obtain ⟨y1, y2, hy⟩ := strF1c_form phi t mg T2 q
  obtain ⟨q1, q2, q3, hq⟩ := strF2ab_form T1 T2 q
  obtain ⟨z1, z2, hz⟩ := strF2c_form phi t mg T1 T2 q
  obtain ⟨w1, w2, hw⟩ := strF2c_form phi t mg T2 T1 q
  obtain ⟨o1, o2, o3, ho⟩ := strF3ab_form T1 T2 q
  obtain ⟨m1, m2, m3, hm⟩ := strF3c_form phi t mg T1 T2 q
  obtain ⟨n1, n2, n3, hn⟩ := strF3c_form phi t mg T2 T1 q
  have hF1 : ∀ s c, strF1 phi t mg T1 T2 s c q = (p1 + x1 + y1) + p2 * c ^ 2 + (x2 - y2) * s + p3 * s ^ 2 := by
    intro s c; unfold strF1; rw [hp, hx, hy]; ring
  have hres : F2_s phi t mg T1 T2 q = res2 phi t mg T1 T2 q + res2 phi t mg T2 T1 q := by
    unfold F2_s res2; simp only [div_eq_mul_inv, inv_swap T1 T2]; ring
  have hF2 : ∀ s c, s ≠ 0 → s * strF2 phi t mg T1 T2 s c q =
      F2_s phi t mg T1 T2 q + ((q1 + z1 - w1) + q2 * c ^ 2) * s + (z2 + w2) * s ^ 2 + q3 * s ^ 3 := by
    intro s c hs; unfold strF2; rw [hq, hz, hw, hres]; field_simp; ring
  have hF3 : ∀ s c, s ^ 2 * strF3 phi t mg T1 T2 s c q = (m3 - n3) * s + ((o1 + m1 + n1) + o2 * c ^ 2) * s ^ 2 + (m2 - n2) * s ^ 3 + o3 * s ^ 4 := by
    intro s c; unfold strF3; rw [ho, hm, hn]
    by_cases hs : s = 0
    · subst hs; ring
    · field_simp; ring
  have hs2 : ∀ A, A ≠ 0 → A * sF2 mg T1 T2 q A = sF2_A mg T1 T2 q := by
    intro A hA; unfold sF2 sF2_A; field_simp
  have hs3 : ∀ A, A ≠ 0 → A * sF3 mg T1 T2 q A = sF3_A mg T1 T2 q := by
    intro A hA; unfold sF3 sF3_A
    generalize (8 - 2 * (T1 + T2) / (T1 - T2) * (log (T2 / q) ^ 2 - log (T1 / q) ^ 2)
      + 8 / (T1 - T2) * (T2 * log (T2 / q) - T1 * log (T1 / q))) = w
    field_simp
  refine ⟨⟨p1 + x1 + y1, x2 - y2, p2, p3, q1 + z1 - w1, z2 + w2, q2, q3, o1 + m1 + n1, m2 - n2, o2, o3, m3 - n3,
    sF2_A mg T1 T2 q, sF3_A mg T1 T2 q, F2_s phi t mg T1 T2 q⟩, fun s c mu A ht k hmu => ?_⟩
  unfold dszElements Coeffs.elements
  have e3 := hF3 s c
  have e1 := hF1 s c
  simp only [Coeffs.P1, Coeffs.P2, Coeffs.P3]
  rw [← e3, ← e1]
  by_cases hs : s = 0
  · subst hs
    by_cases hA : A = 0
    · subst hA
      rw [if_neg (by simp), if_pos (by simp)]
      simp [hmu rfl rfl]
    · rw [if_neg (by simp), if_neg (by simp [hA]), if_pos ⟨rfl, hA⟩]
      simp only [SOut.mk.injEq]
      refine ⟨?_, ?_, ?_⟩ <;> ring
  · have e2 := hF2 s c hs
    rw [← e2]
    by_cases hA : A = 0
    · subst hA
      rw [if_neg (by simp), if_neg (by simp [hs]), if_neg (by simp [hs])]
      simp only [SOut.mk.injEq]
      refine ⟨?_, ?_, ?_⟩ <;> ring
    · rw [if_pos ⟨hs, hA⟩, ← hs2 A hA, ← hs3 A hA]
      simp only [SOut.mk.injEq]
      refine ⟨?_, ?_, ?_⟩ <;> ring

theorem Coeffs.elements_continuous (C : Coeffs) (t ht k : ℝ) {X : Type*} [TopologicalSpace X] {s c mu A : X → ℝ} (hs : Continuous s)
    (hc : Continuous c) (hmu : Continuous mu) (hA : Continuous A) :
    Continuous (fun x => (C.elements t (s x) (c x) (mu x) (A x) ht k).S11) ∧ Continuous (fun x => (C.elements t (s x) (c x) (mu x) (A x) ht k).S12) ∧
    Continuous (fun x => (C.elements t (s x) (c x) (mu x) (A x) ht k).S22) := by
  unfold Coeffs.elements Coeffs.P1 Coeffs.P2 Coeffs.P3
  refine ⟨?_, ?_, ?_⟩ <;> fun_prop

/-- the point with the given `mu` and mixing angle -/
noncomputable def AtAs.at' (a : AtAs) (p : ℝ × ℝ) : AtAs := { a with mu := p.1, st := sin p.2, ct := cos p.2 }

/-- C51: the CP-even O(at as) correction is a continuous function of `mu` and the stop mixing angle, also where the mixing, `mu` or the
trilinear coupling vanish and the code uses other formulas -/
theorem C51_even_continuous (a : AtAs) (htb : a.tanb ≠ 0) :
    Continuous (fun p => (dszhiggsF phi (a.at' p)).S11) ∧ Continuous (fun p => (dszhiggsF phi (a.at' p)).S12) ∧
    Continuous (fun p => (dszhiggsF phi (a.at' p)).S22) := by
  obtain ⟨C, hC⟩ := dszElements_poly phi a.t a.mg a.T1 a.T2 a.q
  have key : ∀ p, dszhiggsF phi (a.at' p) = C.elements a.t (2 * cos p.2 * sin p.2) (cos p.2 ^ 2 - sin p.2 ^ 2) p.1
      ((a.T1 - a.T2) * (2 * cos p.2 * sin p.2) / 2 / √a.t - p.1 / a.tanb) (√(2 / a.v2) * √a.t / sin (arctan a.tanb))
      (4 * a.gs ^ 2 / (16 * π ^ 2) ^ 2) := by
    intro p
    unfold dszhiggsF AtAs.at'
    simp only
    apply hC
    intro h0 h1
    rw [h0] at h1
    have : p.1 / a.tanb = 0 := by simpa using h1
    rcases div_eq_zero_iff.1 this with h | h
    · exact h
    · exact absurd h htb
  simp only [key]
  apply Coeffs.elements_continuous <;> fun_prop

/-- C51: likewise the CP-odd correction -/
theorem C51_odd_continuous (a : AtAs) (hmg : a.mg ≠ 0) : Continuous (fun p => dszoddF phi (a.at' p)) := by
  have hc : ∀ T1 T2, ∃ x y : ℝ, ∀ s A, A ≠ 0 → A * strFAc phi a.t a.mg T1 T2 s A a.q = A * (x + y * s) + strresFAc phi a.t a.mg T1 a.q := by
    intro T1 T2
    refine ⟨(strFAc phi a.t a.mg T1 T2 1 1 a.q + strFAc phi a.t a.mg T1 T2 (-1) 1 a.q) / 2 - strresFAc phi a.t a.mg T1 a.q,
      (strFAc phi a.t a.mg T1 T2 1 1 a.q - strFAc phi a.t a.mg T1 T2 (-1) 1 a.q) / 2, fun s A hA => ?_⟩
    have h1 : ∀ d, 2 * d / a.mg = 2 * d / a.mg ^ 2 * a.mg := by intro d; field_simp
    have h2 : strFAc phi a.t a.mg T1 T2 s A a.q = (strFAc phi a.t a.mg T1 T2 1 1 a.q + strFAc phi a.t a.mg T1 T2 (-1) 1 a.q) / 2
        - strresFAc phi a.t a.mg T1 a.q + (strFAc phi a.t a.mg T1 T2 1 1 a.q - strFAc phi a.t a.mg T1 T2 (-1) 1 a.q) / 2 * s
        + strresFAc phi a.t a.mg T1 a.q / A := by
      unfold strFAc strresFAc
      simp only [h1]
      ring
    rw [h2]
    generalize strFAc phi a.t a.mg T1 T2 1 1 a.q = u1
    generalize strFAc phi a.t a.mg T1 T2 (-1) 1 a.q = u2
    generalize strresFAc phi a.t a.mg T1 a.q = u3
    field_simp
  obtain ⟨x1, y1, h1⟩ := hc a.T1 a.T2
  obtain ⟨x2, y2, h2⟩ := hc a.T2 a.T1
  have key : ∀ p, dszoddF phi (a.at' p) =
      let s := 2 * cos p.2 * sin p.2
      let A := (a.T1 - a.T2) * s / 2 / √a.t - p.1 / a.tanb
      4 * a.gs ^ 2 / (16 * π ^ 2) ^ 2 * ((√(2 / a.v2) * √a.t / sin (arctan a.tanb)) ^ 2 * p.1 / (a.T1 - a.T2) / sin (arctan a.tanb) / cos (arctan a.tanb)
        * (A * strFAab a.T1 a.T2 s a.q + (A * (x1 + y1 * s) + strresFAc phi a.t a.mg a.T1 a.q) - (A * (x2 - y2 * s) + strresFAc phi a.t a.mg a.T2 a.q))) := by
    intro p
    simp only
    set A := (a.T1 - a.T2) * (2 * cos p.2 * sin p.2) / 2 / √a.t - p.1 / a.tanb with hAdef
    by_cases hA : A = 0
    · unfold dszoddF AtAs.at'
      simp only
      rw [← hAdef, if_neg (by simpa using hA), hA]; ring
    · have e1 := h1 (2 * cos p.2 * sin p.2) A hA
      have e2 := h2 (-(2 * cos p.2 * sin p.2)) A hA
      rw [show x2 + y2 * -(2 * cos p.2 * sin p.2) = x2 - y2 * (2 * cos p.2 * sin p.2) by ring] at e2
      rw [← e1, ← e2]
      unfold dszoddF AtAs.at'
      simp only
      rw [← hAdef, if_pos hA]; ring
  simp only [key]
  unfold strFAab
  fun_prop

/-- a point, and the exceptional branches at it: no mixing, `A ≠ 0` for `mu = 1`, `A = 0` for `mu = 0` -/
noncomputable def atAsPoint : AtAs := ⟨3, 10, 100, 120, 0, 1, 50, 1, 20, 6, 1⟩
example : Continuous (fun p => (dszhiggsF phi (atAsPoint.at' p)).S12) := (C51_even_continuous phi atAsPoint (by norm_num [atAsPoint])).2.1
example : Continuous (fun p => dszoddF phi (atAsPoint.at' p)) := C51_odd_continuous phi atAsPoint (by norm_num [atAsPoint])
example : (atAsPoint.at' (0, 0)).st = 0 ∧ (atAsPoint.at' (1, 0)).mu = 1 := by simp [AtAs.at']

end Himalaya.TwoLoop
