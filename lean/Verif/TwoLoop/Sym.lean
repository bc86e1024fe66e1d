import Verif.TwoLoop.Model

set_option linter.unusedSimpArgs false
set_option linter.unusedVariables false

/-!
# C51: the O(at as) correction does not depend on the numbering of the stops

Exchanging the stops means exchanging their masses and rotating the mixing angle by 90 degrees: (sin, cos) becomes (cos, -sin).
-/

namespace Himalaya.TwoLoop

open Real

/-- the same physical point with the stops numbered the other way round -/
def AtAs.renumber (a : AtAs) : AtAs := { a with T1 := a.T2, T2 := a.T1, st := a.ct, ct := -a.st }

variable (phi : ℝ → ℝ → ℝ → ℝ)

theorem log_swap (x y : ℝ) : log (y / x) = -log (x / y) := by rw [← Real.log_inv, inv_div]

theorem strF1ab_swap (t T1 T2 s c q : ℝ) : strF1ab t T2 T1 (-s) c q = strF1ab t T1 T2 s c q := by
  unfold strF1ab; rw [log_swap T1 T2, mul_comm T2 T1]; ring

theorem inv_swap (x y : ℝ) : (y - x)⁻¹ = -(x - y)⁻¹ := by rw [← inv_neg, neg_sub]

theorem strF2ab_swap (T1 T2 s c q : ℝ) : strF2ab T2 T1 (-s) c q = -strF2ab T1 T2 s c q := by
  unfold strF2ab; rw [log_swap T1 T2, add_comm T2 T1]; simp only [div_eq_mul_inv, inv_swap T1 T2]; ring

theorem strF3ab_swap (T1 T2 s c q : ℝ) : strF3ab T2 T1 (-s) c q = strF3ab T1 T2 s c q := by
  unfold strF3ab; rw [log_swap T1 T2, add_comm T2 T1, mul_comm T2 T1]
  simp only [div_eq_mul_inv, inv_swap T1 T2, show (T2 - T1) ^ 2 = (T1 - T2) ^ 2 by ring]; ring

theorem strF1_swap (t mg T1 T2 s c q : ℝ) : strF1 phi t mg T2 T1 (-s) c q = strF1 phi t mg T1 T2 s c q := by
  unfold strF1; rw [strF1ab_swap, neg_neg]; ring
theorem strF2_swap (t mg T1 T2 s c q : ℝ) : strF2 phi t mg T2 T1 (-s) c q = -strF2 phi t mg T1 T2 s c q := by
  unfold strF2; rw [strF2ab_swap, neg_neg]; ring
theorem strF3_swap (t mg T1 T2 s c q : ℝ) : strF3 phi t mg T2 T1 (-s) c q = strF3 phi t mg T1 T2 s c q := by
  unfold strF3; rw [strF3ab_swap, neg_neg]; ring

theorem sF2_swap (mg T1 T2 q A : ℝ) : sF2 mg T2 T1 q A = -sF2 mg T1 T2 q A := by unfold sF2; ring
theorem sF3_swap (mg T1 T2 q A : ℝ) : sF3 mg T2 T1 q A = sF3 mg T1 T2 q A := by
  unfold sF3; simp only [div_eq_mul_inv, inv_swap T1 T2]; ring
theorem sF2_A_swap (mg T1 T2 q : ℝ) : sF2_A mg T2 T1 q = -sF2_A mg T1 T2 q := by unfold sF2_A; ring
theorem sF3_A_swap (mg T1 T2 q : ℝ) : sF3_A mg T2 T1 q = sF3_A mg T1 T2 q := by
  unfold sF3_A; simp only [div_eq_mul_inv, inv_swap T1 T2]; ring
theorem F2_s_swap (t mg T1 T2 q : ℝ) : F2_s phi t mg T2 T1 q = F2_s phi t mg T1 T2 q := by
  unfold F2_s; simp only [div_eq_mul_inv, inv_swap T1 T2]; ring

/-- the elements depend on `cos(2 theta)` only through its square -/
theorem dszElements_c2 (t mg T1 T2 s c q mu A ht k : ℝ) :
    dszElements phi t mg T1 T2 s (-c) q mu A ht k = dszElements phi t mg T1 T2 s c q mu A ht k := by
  unfold dszElements strF1 strF2 strF3 strF1ab strF2ab strF3ab; simp only [neg_sq]

theorem dszElements_swap (t mg T1 T2 s c q mu A ht k : ℝ) :
    dszElements phi t mg T2 T1 (-s) c q mu A ht k = dszElements phi t mg T1 T2 s c q mu A ht k := by
  unfold dszElements
  simp only [strF1_swap phi t mg T1 T2 s c q, strF2_swap phi t mg T1 T2 s c q, strF3_swap phi t mg T1 T2 s c q, sF2_swap mg T1 T2 q A, sF3_swap mg T1 T2 q A, sF2_A_swap mg T1 T2 q,
    sF3_A_swap mg T1 T2 q, F2_s_swap phi t mg T1 T2 q, neg_eq_zero, ne_eq]
  split_ifs <;> (congr 1 <;> ring)

/-- C51: the CP-even O(at as) correction is the same for both numberings of the stops, for every value of the arguments -/
theorem C51_even_renumbering (a : AtAs) : dszhiggsF phi a.renumber = dszhiggsF phi a := by
  unfold dszhiggsF AtAs.renumber
  simp only
  rw [show 2 * -a.st * a.ct = -(2 * a.ct * a.st) by ring, show (-a.st) ^ 2 - a.ct ^ 2 = -(a.ct ^ 2 - a.st ^ 2) by ring,
    show (a.T2 - a.T1) * -(2 * a.ct * a.st) = (a.T1 - a.T2) * (2 * a.ct * a.st) by ring, dszElements_c2, dszElements_swap]

theorem strFAab_swap (T1 T2 s q : ℝ) : strFAab T2 T1 (-s) q = -strFAab T1 T2 s q := by
  unfold strFAab; rw [log_swap T1 T2, add_comm T2 T1]; simp only [div_eq_mul_inv, inv_swap T1 T2]; ring

/-- C51: the CP-odd O(at as) correction is the same for both numberings of the stops -/
theorem C51_odd_renumbering (a : AtAs) : dszoddF phi a.renumber = dszoddF phi a := by
  unfold dszoddF AtAs.renumber
  simp only
  rw [show 2 * -a.st * a.ct = -(2 * a.ct * a.st) by ring,
    show (a.T2 - a.T1) * -(2 * a.ct * a.st) = (a.T1 - a.T2) * (2 * a.ct * a.st) by ring, strFAab_swap, neg_neg]
  simp only [div_eq_mul_inv, inv_swap a.T1 a.T2]
  split_ifs <;> ring

/-- the numbering really changes the arguments -/
example : (⟨1, 1, 4, 9, 3 / 5, 4 / 5, 1, 1, 1, 1, 1⟩ : AtAs).renumber ≠ ⟨1, 1, 4, 9, 3 / 5, 4 / 5, 1, 1, 1, 1, 1⟩ := by
  intro h; have := congrArg AtAs.T1 h; norm_num [AtAs.renumber] at this

/-! ### Change of units -/

/-- the point with all masses multiplied by `l > 0` (squared masses by `l^2`) -/
noncomputable def AtAs.scale (a : AtAs) (l : ℝ) : AtAs :=
  ⟨l ^ 2 * a.t, l * a.mg, l ^ 2 * a.T1, l ^ 2 * a.T2, a.st, a.ct, l ^ 2 * a.q, l * a.mu, a.tanb, l ^ 2 * a.v2, a.gs⟩

/-- `phi` is a function of mass ratios -/
def HomPhi : Prop := ∀ l x y z : ℝ, 0 < l → phi (l * x) (l * y) (l * z) = phi x y z

def SOut.smul (c : ℝ) (S : SOut) : SOut := ⟨c * S.S11, c * S.S12, c * S.S22⟩

section
variable {l : ℝ} (hl : 0 < l)
include hl

theorem log_scale (x y : ℝ) : log (l ^ 2 * x / (l ^ 2 * y)) = log (x / y) := by
  rw [mul_div_mul_left _ _ (by positivity)]
theorem sqrt_scale (x : ℝ) : √(l ^ 2 * x) = l * √x := by
  rw [Real.sqrt_mul (by positivity), Real.sqrt_sq hl.le]
omit hl in
theorem delF_scale (g t T : ℝ) : delF (l ^ 2 * g) (l ^ 2 * t) (l ^ 2 * T) = l ^ 4 * delF g t T := by unfold delF; ring
theorem log_scale2 (x y q : ℝ) : log (l ^ 2 * x * (l ^ 2 * y) / (l ^ 2 * q) ^ 2) = log (x * y / q ^ 2) := by
  congr 1; rw [show l ^ 2 * x * (l ^ 2 * y) = l ^ 4 * (x * y) by ring, mul_pow, ← pow_mul, mul_div_mul_left _ _ (by positivity)]

theorem strF1ab_scale (t T1 T2 s c q : ℝ) :
    strF1ab (l ^ 2 * t) (l ^ 2 * T1) (l ^ 2 * T2) s c (l ^ 2 * q) = strF1ab t T1 T2 s c q := by
  have hl0 := hl.ne'
  unfold strF1ab
  simp only [log_scale2 hl, log_scale hl]; field_simp
theorem strF2ab_scale (T1 T2 s c q : ℝ) : strF2ab (l ^ 2 * T1) (l ^ 2 * T2) s c (l ^ 2 * q) = strF2ab T1 T2 s c q := by
  have hl0 := hl.ne'
  unfold strF2ab
  simp only [log_scale hl, mul_assoc (l ^ 2)]; simp only [← mul_sub, ← mul_add]; field_simp
theorem strF3ab_scale (T1 T2 s c q : ℝ) : strF3ab (l ^ 2 * T1) (l ^ 2 * T2) s c (l ^ 2 * q) = strF3ab T1 T2 s c q := by
  have hl0 := hl.ne'
  unfold strF3ab
  simp only [log_scale2 hl, log_scale hl]
  simp only [mul_assoc (l ^ 2)]; simp only [← mul_sub, ← mul_add]; field_simp
theorem strF1c_scale (hphi : HomPhi phi) (t mg T1 s q : ℝ) :
    strF1c phi (l ^ 2 * t) (l * mg) (l ^ 2 * T1) s (l ^ 2 * q) = strF1c phi t mg T1 s q := by
  unfold strF1c
  have hl0 := hl.ne'
  simp only [sqrt_scale hl, mul_pow l mg 2, delF_scale, log_scale2 hl, log_scale hl, hphi (l ^ 2) t T1 (mg ^ 2) (by positivity)]
  try simp only [← mul_sub, ← mul_add]
  field_simp
theorem strF2c_scale (hphi : HomPhi phi) (t mg T1 T2 s q : ℝ) :
    strF2c phi (l ^ 2 * t) (l * mg) (l ^ 2 * T1) (l ^ 2 * T2) s (l ^ 2 * q) = strF2c phi t mg T1 T2 s q := by
  unfold strF2c
  have hl0 := hl.ne'
  simp only [sqrt_scale hl, mul_pow l mg 2, delF_scale, log_scale2 hl, log_scale hl, hphi (l ^ 2) t T1 (mg ^ 2) (by positivity)]
  try simp only [← mul_sub, ← mul_add]
  field_simp
theorem strF3c_scale (hphi : HomPhi phi) (t mg T1 T2 s q : ℝ) :
    strF3c phi (l ^ 2 * t) (l * mg) (l ^ 2 * T1) (l ^ 2 * T2) s (l ^ 2 * q) = strF3c phi t mg T1 T2 s q := by
  unfold strF3c
  have hl0 := hl.ne'
  simp only [sqrt_scale hl, mul_pow l mg 2, delF_scale, log_scale2 hl, log_scale hl, hphi (l ^ 2) t T1 (mg ^ 2) (by positivity)]
  try simp only [← mul_sub, ← mul_add]
  field_simp
theorem sF2_scale (mg T1 T2 q A : ℝ) : sF2 (l * mg) (l ^ 2 * T1) (l ^ 2 * T2) (l ^ 2 * q) (l * A) = sF2 mg T1 T2 q A := by
  unfold sF2; simp only [log_scale hl]; have := hl.ne'; field_simp
theorem sF3_scale (mg T1 T2 q A : ℝ) : sF3 (l * mg) (l ^ 2 * T1) (l ^ 2 * T2) (l ^ 2 * q) (l * A) = sF3 mg T1 T2 q A := by
  unfold sF3; simp only [log_scale hl]; have := hl.ne'
  simp only [mul_assoc (l ^ 2)]; simp only [← mul_sub, ← mul_add]; field_simp
theorem sF2_A_scale (mg T1 T2 q : ℝ) : sF2_A (l * mg) (l ^ 2 * T1) (l ^ 2 * T2) (l ^ 2 * q) = l * sF2_A mg T1 T2 q := by
  unfold sF2_A; simp only [log_scale hl]; ring
theorem sF3_A_scale (mg T1 T2 q : ℝ) : sF3_A (l * mg) (l ^ 2 * T1) (l ^ 2 * T2) (l ^ 2 * q) = l * sF3_A mg T1 T2 q := by
  unfold sF3_A; simp only [log_scale hl]; have := hl.ne'
  simp only [mul_assoc (l ^ 2)]; simp only [← mul_sub, ← mul_add]; field_simp
theorem F2_s_scale (hphi : HomPhi phi) (t mg T1 T2 q : ℝ) :
    F2_s phi (l ^ 2 * t) (l * mg) (l ^ 2 * T1) (l ^ 2 * T2) (l ^ 2 * q) = F2_s phi t mg T1 T2 q := by
  unfold F2_s
  have hl0 := hl.ne'
  simp only [sqrt_scale hl, mul_pow l mg 2, log_scale hl, hphi (l ^ 2) t T1 (mg ^ 2) (by positivity), hphi (l ^ 2) t T2 (mg ^ 2) (by positivity)]
  simp only [← mul_sub, ← mul_add]
  field_simp
theorem strFAab_scale (T1 T2 s q : ℝ) : strFAab (l ^ 2 * T1) (l ^ 2 * T2) s (l ^ 2 * q) = l ^ 2 * strFAab T1 T2 s q := by
  have hl0 := hl.ne'
  unfold strFAab
  simp only [log_scale hl]
  simp only [mul_assoc (l ^ 2)]; simp only [← mul_sub, ← mul_add, mul_pow]; field_simp
theorem strFAc_scale (hphi : HomPhi phi) (t mg T1 T2 s A q : ℝ) :
    strFAc phi (l ^ 2 * t) (l * mg) (l ^ 2 * T1) (l ^ 2 * T2) s (l * A) (l ^ 2 * q) = l ^ 2 * strFAc phi t mg T1 T2 s A q := by
  unfold strFAc
  have hl0 := hl.ne'
  simp only [sqrt_scale hl, mul_pow l mg 2, delF_scale, log_scale2 hl, log_scale hl, hphi (l ^ 2) t T1 (mg ^ 2) (by positivity)]
  try simp only [← mul_sub, ← mul_add]
  field_simp
theorem strresFAc_scale (hphi : HomPhi phi) (t mg T1 q : ℝ) :
    strresFAc phi (l ^ 2 * t) (l * mg) (l ^ 2 * T1) (l ^ 2 * q) = l ^ 3 * strresFAc phi t mg T1 q := by
  unfold strresFAc
  have hl0 := hl.ne'
  simp only [sqrt_scale hl, mul_pow l mg 2, delF_scale, log_scale2 hl, log_scale hl, hphi (l ^ 2) t T1 (mg ^ 2) (by positivity)]
  try simp only [← mul_sub, ← mul_add]
  field_simp

theorem dszElements_scale (hphi : HomPhi phi) (t mg T1 T2 s c q mu A ht k : ℝ) :
    dszElements phi (l ^ 2 * t) (l * mg) (l ^ 2 * T1) (l ^ 2 * T2) s c (l ^ 2 * q) (l * mu) (l * A) ht k =
      SOut.smul (l ^ 2) (dszElements phi t mg T1 T2 s c q mu A ht k) := by
  have hl0 := hl.ne'
  unfold dszElements strF1 strF2 strF3
  simp only [strF1ab_scale hl, strF2ab_scale hl, strF3ab_scale hl, strF1c_scale phi hl hphi, strF2c_scale phi hl hphi, strF3c_scale phi hl hphi,
    sF2_scale hl, sF3_scale hl, sF2_A_scale hl, sF3_A_scale hl, F2_s_scale phi hl hphi, sqrt_scale hl, mul_eq_zero, ne_eq, hl0, false_or]
  unfold SOut.smul
  split_ifs <;> (simp only [SOut.mk.injEq]; refine ⟨?_, ?_, ?_⟩ <;> ring)

theorem yuk_scale (t v : ℝ) (hv : 0 ≤ v) : √(2 / (l ^ 2 * v)) * (l * √t) = √(2 / v) * √t := by
  have hl0 := hl.ne'
  rw [show 2 / (l ^ 2 * v) = (2 / v) / l ^ 2 by field_simp, Real.sqrt_div (by positivity), Real.sqrt_sq hl.le]
  field_simp
end

/-- C51: the corrections have the dimension of a squared mass: a change of units by a factor `l` multiplies them by `l^2`.  (`phi` is the
two-loop function of the Fortran code; that it depends on ratios only is `C51_phi_homogeneous`.) -/
theorem C51_units (hphi : HomPhi phi) (a : AtAs) (hv : 0 ≤ a.v2) (l : ℝ) (hl : 0 < l) :
    dszhiggsF phi (a.scale l) = SOut.smul (l ^ 2) (dszhiggsF phi a) ∧ dszoddF phi (a.scale l) = l ^ 2 * dszoddF phi a := by
  have hl0 := hl.ne'
  have hA : (l ^ 2 * a.T1 - l ^ 2 * a.T2) * (2 * a.ct * a.st) / 2 / (l * √a.t) - l * a.mu / a.tanb =
      l * ((a.T1 - a.T2) * (2 * a.ct * a.st) / 2 / √a.t - a.mu / a.tanb) := by
    rw [← mul_sub]; field_simp
  constructor
  · unfold dszhiggsF AtAs.scale
    simp only [sqrt_scale hl]
    rw [hA, yuk_scale hl _ _ hv, dszElements_scale phi hl hphi]
  · unfold dszoddF AtAs.scale
    simp only [sqrt_scale hl]
    rw [hA, yuk_scale hl _ _ hv, strFAab_scale hl, strFAc_scale phi hl hphi, strFAc_scale phi hl hphi, strresFAc_scale phi hl hphi,
      strresFAc_scale phi hl hphi]
    simp only [mul_eq_zero, ne_eq, hl0, false_or, ← mul_sub, ← mul_add]
    split_ifs <;> field_simp

end Himalaya.TwoLoop
