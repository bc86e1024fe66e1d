import Verif.TwoLoop.Sym

/-!
# C78: the two-loop corrections in other units of mass
-/

set_option linter.unusedSimpArgs false
set_option linter.unusedVariables false
set_option linter.unusedSectionVars false

namespace Himalaya.TwoLoop

open Real

section
variable {l : ℝ} (hl : 0 < l)
include hl

theorem u_sqrtabs (x : ℝ) : sqrtabs (l ^ 4 * x) = l ^ 2 * sqrtabs x := by
  unfold sqrtabs
  rw [abs_mul, abs_of_pos (by positivity), show l ^ 4 = (l ^ 2) ^ 2 by ring, Real.sqrt_mul (by positivity), Real.sqrt_sq (by positivity)]
theorem u_sqrtabs1 (x : ℝ) : sqrtabs (l ^ 2 * x) = l * sqrtabs x := by
  unfold sqrtabs
  rw [abs_mul, abs_of_pos (by positivity), Real.sqrt_mul (by positivity), Real.sqrt_sq (by positivity)]
theorem u_pow15 (x : ℝ) : pow15 (l ^ 4 * x) = l ^ 6 * pow15 x := by
  unfold pow15
  rw [abs_mul, abs_of_pos (by positivity), Real.mul_rpow (by positivity) (abs_nonneg x)]
  congr 1
  rw [show (l ^ 4 : ℝ) = l ^ ((4 : ℕ) : ℝ) by rw [Real.rpow_natCast], ← Real.rpow_mul hl.le, show ((4 : ℕ) : ℝ) * (3 / 2) = ((6 : ℕ) : ℝ) by norm_num,
    Real.rpow_natCast]
theorem u_rat (n : ℕ) (x y : ℝ) : l ^ n * x / (l ^ n * y) = x / y := mul_div_mul_left _ _ (by positivity)

theorem yuk_scale' (t v : ℝ) : √(2 / (l ^ 2 * v)) * (l * √t) = √(2 / v) * √t := by
  have hl0 := hl.ne'
  rw [show 2 / (l ^ 2 * v) = (2 / v) / l ^ 2 by field_simp, Real.sqrt_div' _ (by positivity), Real.sqrt_sq hl.le]
  field_simp

theorem u_phiC (li2 : ℝ → ℝ) (x y z : ℝ) : phiC li2 (l ^ 2 * x) (l ^ 2 * y) (l ^ 2 * z) = phiC li2 x y z := by
  unfold phiC
  simp only [u_rat hl]

theorem u_calcAt (t T1 T2 s c mu tb : ℝ) : calcAt (l ^ 2 * t) (l ^ 2 * T1) (l ^ 2 * T2) s c (l * mu) tb = l * calcAt t T1 T2 s c mu tb := by
  have hl0 := hl.ne'
  unfold calcAt
  simp only [u_sqrtabs1 hl, ← mul_sub]
  field_simp

theorem u_dphi (li2 : ℝ → ℝ) (t T g : ℝ) : l ^ 2 * dphi010 li2 (l ^ 2 * t) (l ^ 2 * T) (l ^ 2 * g) = dphi010 li2 t T g := by
  have hl0 := hl.ne'
  unfold dphi010
  have e1 : -4 * (l ^ 2 * t) * (l ^ 2 * T) / (l ^ 2 * g) ^ 2 + (1 - l ^ 2 * t / (l ^ 2 * g) - l ^ 2 * T / (l ^ 2 * g)) ^ 2 =
      -4 * t * T / g ^ 2 + (1 - t / g - T / g) ^ 2 := by
    simp only [u_rat hl]
    rw [show -4 * (l ^ 2 * t) * (l ^ 2 * T) = l ^ 4 * (-4 * t * T) by ring, show (l ^ 2 * g) ^ 2 = l ^ 4 * g ^ 2 by ring, u_rat hl]
  simp only [e1]
  generalize -4 * t * T / g ^ 2 + (1 - t / g - T / g) ^ 2 = b
  generalize sqrtabs b = r
  generalize pow15 b = w
  have m1 : ∀ x : ℝ, r * (l ^ 2 * x) = l ^ 2 * (r * x) := fun x => by ring
  have m2 : ∀ x : ℝ, 2 * (l ^ 2 * x) = l ^ 2 * (2 * x) := fun x => by ring
  have m3 : ∀ x : ℝ, (-1 + r) * (l ^ 2 * x) = l ^ 2 * ((-1 + r) * x) := fun x => by ring
  simp only [m1, m2, m3, ← mul_add, ← mul_sub, u_rat hl]
  simp only [mul_assoc (l ^ 2), ← mul_add, ← mul_sub, u_rat hl]
  generalize logabs (t / g) = a1
  generalize logabs (T / g) = a2
  generalize logabs 4 = a5
  generalize logabs ((g - r * g + t - T) / g) = a6
  generalize logabs ((g + r * g + t - T) / g) = a7
  generalize logabs ((g - r * g - t + T) / g) = a8
  generalize logabs ((g + r * g - t + T) / g) = a9
  generalize logabs ((g - r * g + t - T) / (2 * g)) = a3
  generalize logabs ((g - r * g - t + T) / (2 * g)) = a4
  generalize li2 ((g - r * g + t - T) / (2 * g)) = b1
  generalize li2 ((g - r * g - t + T) / (2 * g)) = b2
  have m4 : ∀ x : ℝ, -2 * (l ^ 2 * x) = l ^ 2 * (-2 * x) := fun x => by ring
  simp only [m4, mul_assoc (l ^ 2), ← mul_add, ← mul_sub]
  field_simp

theorem u_maDeg (li2 : ℝ → ℝ) (t mg T1 T2 s c q mu tb v g3 : ℝ) :
    maAtAsDegenerate li2 (l ^ 2 * t) (l * mg) (l ^ 2 * T1) (l ^ 2 * T2) s c (l ^ 2 * q) (l * mu) tb (l ^ 2 * v) g3 =
      l ^ 2 * maAtAsDegenerate li2 t mg T1 T2 s c q mu tb v g3 := by
  have hl0 := hl.ne'
  unfold maAtAsDegenerate
  have ed : dphi010 li2 (l ^ 2 * t) (l ^ 2 * T1) (l ^ 2 * mg ^ 2) = dphi010 li2 t T1 (mg ^ 2) / l ^ 2 := by
    rw [eq_div_iff (by positivity), mul_comm]; exact u_dphi hl li2 t T1 (mg ^ 2)
  simp only [u_calcAt hl, mul_pow l mg 2, u_phiC hl, u_rat hl, ed]
  rw [show l ^ 2 * mg ^ 2 * (l ^ 2 * t) = l ^ 4 * (mg ^ 2 * t) by ring, show (l ^ 2 * q) ^ 2 = l ^ 4 * q ^ 2 by ring, u_rat hl]
  generalize logabs (mg ^ 2 / t) = a1
  generalize logabs (mg ^ 2 / q) = a2
  generalize logabs (t / q) = a3
  generalize logabs (T1 / q) = a4
  generalize logabs (mg ^ 2 * t / q ^ 2) = a5
  generalize phiC li2 t T1 (mg ^ 2) = b1
  generalize dphi010 li2 t T1 (mg ^ 2) = b2
  generalize calcAt t T1 T2 s c mu tb = A
  generalize sin (arctan tb) = sb
  field_simp

theorem u_deg (li2 : ℝ → ℝ) (t mg T q mu tb v g3 : ℝ) :
    atAsDegenerate li2 (l ^ 2 * t) (l * mg) (l ^ 2 * T) (l ^ 2 * q) (l * mu) tb (l ^ 2 * v) g3 =
      Mat2.smul (l ^ 2) (atAsDegenerate li2 t mg T q mu tb v g3) := by
  have hl0 := hl.ne'
  unfold atAsDegenerate
  simp only [mul_pow l mg 2]
  generalize mg ^ 2 = g
  have ed : (l ^ 2 * g) ^ 2 + (l ^ 2 * t) ^ 2 + (l ^ 2 * T) ^ 2 - 2 * (l ^ 2 * g * (l ^ 2 * t) + l ^ 2 * g * (l ^ 2 * T) + l ^ 2 * t * (l ^ 2 * T)) =
      l ^ 4 * (g ^ 2 + t ^ 2 + T ^ 2 - 2 * (g * t + g * T + t * T)) := by ring
  have e2 : ∀ x : ℝ, (l ^ 2 * x) ^ 2 = l ^ 4 * x ^ 2 := fun x => by ring
  simp only [ed]
  generalize g ^ 2 + t ^ 2 + T ^ 2 - 2 * (g * t + g * T + t * T) = d
  simp only [e2, u_sqrtabs hl, u_pow15 hl, u_rat hl]
  generalize sqrtabs (d / g ^ 2) = R
  generalize sqrtabs d = r
  generalize pow15 (d / g ^ 2) = W
  generalize pow15 d = w
  have m1 : ∀ x : ℝ, l ^ 2 * x * R = l ^ 2 * (x * R) := fun x => by ring
  have m2 : ∀ x : ℝ, 2 * (l ^ 2 * x) = l ^ 2 * (2 * x) := fun x => by ring
  have m3 : ∀ x : ℝ, -(l ^ 2 * x) = l ^ 2 * -x := fun x => by ring
  have m4 : ∀ x : ℝ, 3 * (l ^ 6 * x) = l ^ 6 * (3 * x) := fun x => by ring
  simp only [m1, m2, m3, m4, ← mul_add, ← mul_sub, u_rat hl]
  generalize logabs (t / q) = a1
  generalize logabs (t / g) = a2
  generalize logabs (T / g) = a3
  generalize logabs (T / q) = a4
  generalize logabs (g / q) = a5
  generalize logabs (T ^ 2 / t ^ 2) = a6
  generalize logabs 4 = a7
  generalize logabs ((g + t - T - g * R) / (2 * g)) = b1
  generalize logabs ((g - t + T - g * R) / (2 * g)) = b2
  generalize logabs ((g + t - T + g * R) / (2 * g)) = b3
  generalize logabs ((g - t + T + g * R) / (2 * g)) = b4
  generalize logabs ((-r + g + t - T) / (2 * g)) = b5
  generalize logabs ((-r + g - t + T) / (2 * g)) = b6
  generalize logabs ((-r + g + t - T) / g) = b7
  generalize logabs ((-r + g - t + T) / g) = b8
  generalize li2 ((g + t - T - g * R) / (2 * g)) = c1
  generalize li2 ((g - t + T - g * R) / (2 * g)) = c2
  generalize sin (arctan tb) = sb
  simp only [mul_assoc (l ^ 2), ← mul_add]
  simp only [Mat2.smul, Mat2.mk.injEq]
  refine ⟨(mul_zero _).symm, ?_, ?_, ?_⟩
  · field_simp
  · field_simp
  · field_simp

theorem u_rotate (d tb : ℝ) : rotateBy (l ^ 2 * d) tb = Mat2.smul (l ^ 2) (rotateBy d tb) := by
  unfold rotateBy Mat2.smul
  simp only [Mat2.mk.injEq]
  refine ⟨?_, ?_, ?_, ?_⟩ <;> ring

theorem u_madd (A B : Mat2 ℝ) : madd (Mat2.smul (l ^ 2) A) (Mat2.smul (l ^ 2) B) = Mat2.smul (l ^ 2) (madd A B) := by
  unfold madd Mat2.smul
  simp only [mul_add]

end

/-- the arguments of the O(ab atau) correction in other units -/
noncomputable def TauBot.scale (a : TauBot) (l : ℝ) : TauBot :=
  { a with t := l ^ 2 * a.t, b := l ^ 2 * a.b, T1 := l ^ 2 * a.T1, T2 := l ^ 2 * a.T2, B1 := l ^ 2 * a.B1, B2 := l ^ 2 * a.B2, q := l ^ 2 * a.q, mu := l * a.mu, vv := l ^ 2 * a.vv }

/-- the arguments of the loop functions of the O(ab atau) correction in other units -/
noncomputable def TauArgs.scale (a : TauArgs) (l : ℝ) : TauArgs :=
  { a with t := l ^ 2 * a.t, b := l ^ 2 * a.b, T1 := l ^ 2 * a.T1, T2 := l ^ 2 * a.T2, B1 := l ^ 2 * a.B1, B2 := l ^ 2 * a.B2, q := l ^ 2 * a.q, mu := l * a.mu, vv := l ^ 2 * a.vv }

section
variable {l : ℝ} (hl : 0 < l)
include hl

theorem u_tauYuk (m v tb : ℝ) : tauYuk (l ^ 2 * m) (l ^ 2 * v) tb = tauYuk m v tb := by
  unfold tauYuk
  rw [show 2 * (l ^ 2 * m) = l ^ 2 * (2 * m) by ring, u_rat hl]
theorem u_pippo (x y q : ℝ) : pippo (l ^ 2 * x) (l ^ 2 * y) (l ^ 2 * q) = l ^ 2 * pippo x y q := by
  unfold pippo
  simp only [u_rat hl]; ring

theorem u_F1q (a : TauArgs) : (a.scale l).F1q = a.F1q := by
  have hl0 := hl.ne'
  unfold TauArgs.F1q TauArgs.ht TauArgs.hb TauArgs.scale
  try unfold TauArgs.pippob
  try unfold TauArgs.pippot
  simp only [u_tauYuk hl, u_pippo hl, u_rat hl, log_scale2 hl, ← mul_sub]
  try simp only [← mul_add]
  field_simp

theorem u_F2q (a : TauArgs) : (a.scale l).F2q = a.F2q := by
  have hl0 := hl.ne'
  unfold TauArgs.F2q TauArgs.ht TauArgs.hb TauArgs.scale
  try unfold TauArgs.pippob
  try unfold TauArgs.pippot
  simp only [u_tauYuk hl, u_pippo hl, u_rat hl, log_scale2 hl, ← mul_sub]
  try simp only [← mul_add]
  field_simp

theorem u_F3q (a : TauArgs) : (a.scale l).F3q = a.F3q := by
  have hl0 := hl.ne'
  unfold TauArgs.F3q TauArgs.ht TauArgs.hb TauArgs.scale
  try unfold TauArgs.pippob
  try unfold TauArgs.pippot
  simp only [u_tauYuk hl, u_pippo hl, u_rat hl, log_scale2 hl, ← mul_sub]
  try simp only [← mul_add]
  field_simp

theorem u_F4q (a : TauArgs) : (a.scale l).F4q = a.F4q := by
  have hl0 := hl.ne'
  unfold TauArgs.F4q TauArgs.ht TauArgs.hb TauArgs.scale
  try unfold TauArgs.pippob
  try unfold TauArgs.pippot
  simp only [u_tauYuk hl, u_pippo hl, u_rat hl, log_scale2 hl, ← mul_sub]
  try simp only [← mul_add]
  field_simp

theorem u_F5q (a : TauArgs) : (a.scale l).F5q = a.F5q := by
  have hl0 := hl.ne'
  unfold TauArgs.F5q TauArgs.ht TauArgs.hb TauArgs.scale
  try unfold TauArgs.pippob
  try unfold TauArgs.pippot
  simp only [u_tauYuk hl, u_pippo hl, u_rat hl, log_scale2 hl, ← mul_sub]
  try simp only [← mul_add]
  field_simp

theorem u_F6q (a : TauArgs) : (a.scale l).F6q = a.F6q := by
  have hl0 := hl.ne'
  unfold TauArgs.F6q TauArgs.ht TauArgs.hb TauArgs.scale
  try unfold TauArgs.pippob
  try unfold TauArgs.pippot
  simp only [u_tauYuk hl, u_pippo hl, u_rat hl, log_scale2 hl, ← mul_sub]

theorem u_Fq (a : TauArgs) : (a.scale l).Fq = l ^ 2 * a.Fq := by
  have hl0 := hl.ne'
  unfold TauArgs.Fq TauArgs.ht TauArgs.hb TauArgs.scale
  try unfold TauArgs.pippob
  try unfold TauArgs.pippot
  simp only [u_tauYuk hl, u_pippo hl, u_rat hl, log_scale2 hl, ← mul_sub]
  try field_simp

omit hl in
theorem FAq_alg {h b r s t A m T B P Q u v : ℝ} (hl : l ≠ 0) :
    2 * h * b * (l * r) * (l * s) * t * (l * A) ^ 2 * (l * m) ^ 2 / u / v / (l ^ 2 * T) ^ 2 / (l ^ 2 * B) ^ 2 * (l ^ 2 * P) * (l ^ 2 * Q) =
      l ^ 2 * (2 * h * b * r * s * t * A ^ 2 * m ^ 2 / u / v / T ^ 2 / B ^ 2 * P * Q) := by
  have e : ((l ^ 2 * T) ^ 2)⁻¹ = (l⁻¹) ^ 4 * (T⁻¹) ^ 2 := by rw [mul_pow, mul_inv, ← pow_mul, inv_pow, inv_pow]
  have e' : ((l ^ 2 * B) ^ 2)⁻¹ = (l⁻¹) ^ 4 * (B⁻¹) ^ 2 := by rw [mul_pow, mul_inv, ← pow_mul, inv_pow, inv_pow]
  have k : l ^ 10 * (l⁻¹) ^ 8 = l ^ 2 := by rw [inv_pow, show l ^ 10 = l ^ 2 * l ^ 8 by ring, mul_assoc, mul_inv_cancel₀ (pow_ne_zero 8 hl), mul_one]
  simp only [div_eq_mul_inv, e, e']
  rw [← inv_pow T, ← inv_pow B]
  generalize T⁻¹ = T'
  generalize B⁻¹ = B'
  generalize u⁻¹ = u'
  generalize v⁻¹ = v'
  generalize l⁻¹ = l' at *
  linear_combination 2 * h * b * r * s * t * A ^ 2 * m ^ 2 * u' * v' * T' ^ 2 * B' ^ 2 * P * Q * k

theorem u_FAq (a : TauArgs) : (a.scale l).FAq = l ^ 2 * a.FAq := by
  have hl0 := hl.ne'
  obtain ⟨t, b, T1, T2, B1, B2, s2t, c2t, s2b, c2b, q, mu, vv, tb⟩ := a
  have hX : ∀ x y s m r : ℝ, (l ^ 2 * x - l ^ 2 * y) * s / 2 / (l * r) - l * m * tb = l * ((x - y) * s / 2 / r - m * tb) := fun x y s m r => by
    rw [← mul_sub, mul_sub l]; congr 1
    · field_simp
    · ring
  show 2 * tauYuk (l ^ 2 * t) (l ^ 2 * vv) tb * tauYuk (l ^ 2 * b) (l ^ 2 * vv) tb * √(l ^ 2 * t) * √(l ^ 2 * b) * tb *
      (((l ^ 2 * B1 - l ^ 2 * B2) * s2b / 2 / √(l ^ 2 * b) - l * mu * tb) - ((l ^ 2 * T1 - l ^ 2 * T2) * s2t / 2 / √(l ^ 2 * t) - l * mu * tb)) ^ 2 *
      (l * mu) ^ 2 / s2b / s2t / (l ^ 2 * T1 - l ^ 2 * T2) ^ 2 / (l ^ 2 * B1 - l ^ 2 * B2) ^ 2 *
      pippo (l ^ 2 * T1) (l ^ 2 * T2) (l ^ 2 * q) * pippo (l ^ 2 * B1) (l ^ 2 * B2) (l ^ 2 * q) =
    l ^ 2 * (2 * tauYuk t vv tb * tauYuk b vv tb * √t * √b * tb *
      (((B1 - B2) * s2b / 2 / √b - mu * tb) - ((T1 - T2) * s2t / 2 / √t - mu * tb)) ^ 2 * mu ^ 2 / s2b / s2t / (T1 - T2) ^ 2 /
      (B1 - B2) ^ 2 * pippo T1 T2 q * pippo B1 B2 q)
  rw [u_tauYuk hl, u_tauYuk hl, u_pippo hl, u_pippo hl, sqrt_scale hl, sqrt_scale hl, hX, hX, ← mul_sub l, ← mul_sub (l ^ 2) T1,
    ← mul_sub (l ^ 2) B1]
  exact FAq_alg hl0

theorem u_args (a : TauBot) : (a.scale l).args = a.args.scale l := rfl
theorem u_swap (a : TauArgs) : (a.scale l).swap = a.swap.scale l := rfl

theorem u_taubot (a : TauBot) : taubotF (a.scale l) = SOut.smul (l ^ 2) (taubotF a) := by
  have hl0 := hl.ne'
  have hX : ∀ x s m r tb : ℝ, l ^ 2 * x * s / 2 / (l * r) - l * m * tb = l * (x * s / 2 / r - m * tb) := fun x s m r tb => by
    rw [mul_sub]; congr 1
    · field_simp
    · ring
  have hs : ∀ f : TauArgs, (f.scale l).s2t = f.s2t ∧ (f.scale l).s2b = f.s2b := fun f => ⟨rfl, rfl⟩
  unfold taubotF
  simp only [u_args hl, u_swap hl, u_F1q hl, u_F2q hl, u_F3q hl, u_F4q hl, u_F5q hl, u_F6q hl, (hs _).1, (hs _).2]
  simp only [TauBot.scale, sqrt_scale hl, yuk_scale' hl, ← mul_sub, hX]
  unfold SOut.smul
  simp only [SOut.mk.injEq]
  refine ⟨?_, ?_, ?_⟩ <;> ring

theorem u_taubotodd (a : TauBot) : taubotoddF (a.scale l) = l ^ 2 * taubotoddF a := by
  have hl0 := hl.ne'
  have hX : ∀ x s m r tb : ℝ, l ^ 2 * x * s / 2 / (l * r) - l * m * tb = l * (x * s / 2 / r - m * tb) := fun x s m r tb => by
    rw [mul_sub]; congr 1
    · field_simp
    · ring
  have hs : ∀ f : TauArgs, (f.scale l).s2t = f.s2t ∧ (f.scale l).s2b = f.s2b := fun f => ⟨rfl, rfl⟩
  unfold taubotoddF
  simp only [u_args hl, u_swap hl, u_Fq hl, u_FAq hl, (hs _).1, (hs _).2]
  simp only [TauBot.scale, sqrt_scale hl, yuk_scale' hl, ← mul_sub, hX]
  field_simp

theorem u_general (phi : ℝ → ℝ → ℝ → ℝ) (hphi : HomPhi phi) (a : AtAs) :
    dszhiggsF phi (a.scale l) = SOut.smul (l ^ 2) (dszhiggsF phi a) ∧ dszoddF phi (a.scale l) = l ^ 2 * dszoddF phi a := by
  have hl0 := hl.ne'
  have hA : (l ^ 2 * a.T1 - l ^ 2 * a.T2) * (2 * a.ct * a.st) / 2 / (l * √a.t) - l * a.mu / a.tanb =
      l * ((a.T1 - a.T2) * (2 * a.ct * a.st) / 2 / √a.t - a.mu / a.tanb) := by
    rw [← mul_sub]; field_simp
  constructor
  · unfold dszhiggsF AtAs.scale
    simp only [sqrt_scale hl]
    rw [hA, yuk_scale' hl _ _, dszElements_scale phi hl hphi]
  · unfold dszoddF AtAs.scale
    simp only [sqrt_scale hl]
    rw [hA, yuk_scale' hl _ _, strFAab_scale hl, strFAc_scale phi hl hphi, strFAc_scale phi hl hphi, strresFAc_scale phi hl hphi,
      strresFAc_scale phi hl hphi]
    simp only [mul_eq_zero, ne_eq, hl0, false_or, ← mul_sub, ← mul_add]
    split_ifs <;> field_simp

omit hl in
theorem store_smul (c x y z : ℝ) : storeDiagFirst [c * x, c * y, c * z] = Mat2.smul c (storeDiagFirst [x, y, z]) := rfl

end

/-- For equal stop masses the test whether `At` vanishes, which compares it with an absolute number, has the same result in both units. -/
def SameAtTest (a : AtAs) (l : ℝ) : Prop :=
  |(a.T1 - a.T2) / a.T1| < 1 / 10 ^ 8 →
    (|l * calcAt a.t a.T1 a.T2 a.st a.ct a.mu a.tanb| < 1 / 2 ^ 52 ↔ |calcAt a.t a.T1 a.T2 a.st a.ct a.mu a.tanb| < 1 / 2 ^ 52)

/-- **C78.** The corrections of order at as, for equal or different stop masses, with and without the heavy Higgs bosons. -/
theorem C78_at_as (X : Ext) (hphi : HomPhi X.phi) (a : AtAs) (heavy : Bool) {l : ℝ} (hl : 0 < l) (h : SameAtTest a l) :
    deltaAtAs X (a.scale l) heavy = Mat2.smul (l ^ 2) (deltaAtAs X a heavy) := by
  have g := u_general hl X.phi hphi a
  have ec : |((a.scale l).T1 - (a.scale l).T2) / (a.scale l).T1| = |(a.T1 - a.T2) / a.T1| := by
    simp only [AtAs.scale, ← mul_sub, u_rat hl]
  have e1 : (if |(a.T1 - a.T2) / a.T1| < 1 / 10 ^ 8 then
      atAsDegenerate X.li2 (a.scale l).t (a.scale l).mg (a.scale l).T1 (a.scale l).q (a.scale l).mu (a.scale l).tanb (a.scale l).v2 (a.scale l).gs
      else storeDiagFirst (dszhiggsOut X.phi (a.scale l))) = Mat2.smul (l ^ 2) (if |(a.T1 - a.T2) / a.T1| < 1 / 10 ^ 8 then
      atAsDegenerate X.li2 a.t a.mg a.T1 a.q a.mu a.tanb a.v2 a.gs else storeDiagFirst (dszhiggsOut X.phi a)) := by
    split
    · exact u_deg hl _ _ _ _ _ _ _ _ _
    · unfold dszhiggsOut
      rw [g.1, ← store_smul]; rfl
  have e2 : maAtAs X (a.scale l) = l ^ 2 * maAtAs X a := by
    unfold maAtAs
    rw [ec, g.2]
    split_ifs with c c1 c2 c2
    · exact (mul_zero _).symm
    · exact absurd ((h c).1 (by rw [← u_calcAt hl]; exact c1)) c2
    · exact absurd (by have := (h c).2 c2; rw [← u_calcAt hl] at this; exact this) c1
    · exact u_maDeg hl _ _ _ _ _ _ _ _ _ _ _ _
    · rfl
  have e3 : (if heavy then maAtAs X (a.scale l) else 0) = l ^ 2 * (if heavy then maAtAs X a else 0) := by
    rw [e2]; split
    · rfl
    · exact (mul_zero _).symm
  unfold deltaAtAs
  rw [ec, e1, e3, ← u_madd hl, ← u_rotate hl]
  rfl

/-- **C78.** The corrections of order ab as. -/
theorem C78_ab_as (X : Ext) (hphi : HomPhi X.phi) (a : AtAs) (heavy : Bool) {l : ℝ} (hl : 0 < l) (h : SameAtTest a l) :
    deltaAbAs X (a.scale l) heavy = Mat2.smul (l ^ 2) (deltaAbAs X a heavy) := by
  unfold deltaAbAs
  rw [C78_at_as X hphi a heavy hl h]
  rfl

/-- **C78.** The corrections of order ab atau. -/
theorem C78_ab_atau (a : TauBot) (heavy : Bool) {l : ℝ} (hl : 0 < l) :
    deltaAbAtau (a.scale l) heavy = Mat2.smul (l ^ 2) (deltaAbAtau a heavy) := by
  have e3 : (if heavy then taubotoddF (a.scale l) else 0) = l ^ 2 * (if heavy then taubotoddF a else 0) := by
    rw [u_taubotodd hl]; split
    · rfl
    · exact (mul_zero _).symm
  unfold deltaAbAtau taubotOut
  rw [e3, u_taubot hl, ← u_madd hl, ← u_rotate hl, ← store_smul]
  rfl

/-- the masses of stops and sbottoms in other units -/
noncomputable def Sq.scale (a : Sq) (l : ℝ) : Sq := { a with T1 := l ^ 2 * a.T1, T2 := l ^ 2 * a.T2, B1 := l ^ 2 * a.B1, B2 := l ^ 2 * a.B2 }

/-- **C78.** The guards of the corrections of order at at move masses by relative amounts. -/
theorem C78_guards (a : Sq) {l : ℝ} (hl : 0 < l) : guards (a.scale l) = (guards a).scale l := by
  have hk : 0 < l ^ 2 := by positivity
  have e : ∀ eps x y : ℝ, apart eps (l ^ 2 * x) (l ^ 2 * y) = l ^ 2 * apart eps x y := by
    intro eps x y
    unfold apart
    rw [← mul_sub, u_rat hl]
    simp only [gt_iff_lt, mul_lt_mul_iff_right₀ hk, mul_div_assoc]
    split_ifs <;> rfl
  unfold guards
  simp only [Sq.scale, e]

/-- **C78.** The corrections of order at at, if the routines behind the guards do not depend on the units. -/
theorem C78_at_at_partial (D D' : DDS) (a : Sq) (tb : ℝ) (heavy : Bool) {l : ℝ} (hl : 0 < l)
    (he : ∀ s, D'.even (s.scale l) = SOut.smul (l ^ 2) (D.even s)) (ho : ∀ s, D'.odd (s.scale l) = l ^ 2 * D.odd s) :
    deltaAtAt D' (a.scale l) tb heavy = Mat2.smul (l ^ 2) (deltaAtAt D a tb heavy) := by
  have e3 : (if heavy then D'.odd (guards (guards (a.scale l))) else 0) = l ^ 2 * (if heavy then D.odd (guards (guards a)) else 0) := by
    rw [C78_guards a hl, C78_guards _ hl, ho]; split
    · rfl
    · exact (mul_zero _).symm
  unfold deltaAtAt ddshiggsOut
  rw [e3, C78_guards a hl, he, ← u_madd hl, ← u_rotate hl]
  rfl

/-- **C78.** The corrections of order atau atau, if the called routines do not depend on the units. -/
theorem C78_atau_atau_partial (S : SOut) (d tb : ℝ) (heavy : Bool) {l : ℝ} (hl : 0 < l) :
    deltaAtau (SOut.smul (l ^ 2) S) (l ^ 2 * d) tb heavy = Mat2.smul (l ^ 2) (deltaAtau S d tb heavy) := by
  have e3 : (if heavy then l ^ 2 * d else 0) = l ^ 2 * (if heavy then d else 0) := by
    split
    · rfl
    · exact (mul_zero _).symm
  unfold deltaAtau tausqOut
  rw [e3, ← u_madd hl, ← u_rotate hl, ← store_smul]
  rfl

/-- a case for the hypotheses: different stop masses, the two-loop function `x y / z ^ 2` -/
example : ∃ (X : Ext) (a : AtAs), HomPhi X.phi ∧ SameAtTest a 1000 ∧ a.T1 ≠ a.T2 ∧ 0 < a.t := by
  refine ⟨⟨fun x y z => x * y / z ^ 2, fun x => x⟩, ⟨3, 10, 100, 120, 0, 1, 50, 1, 20, 6, 1⟩, ?_, ?_, by norm_num, by norm_num⟩
  · intro l x y z hl
    show l * x * (l * y) / (l * z) ^ 2 = x * y / z ^ 2
    rw [show l * x * (l * y) = l ^ 2 * (x * y) by ring, mul_pow, mul_div_mul_left _ _ (by positivity)]
  · intro h
    norm_num [abs_of_neg] at h

end Himalaya.TwoLoop
