import Verif.FO.OneLoopZero
import Mathlib.Analysis.Calculus.Deriv.Mul
import Mathlib.Analysis.Calculus.Deriv.Add

/-!
# C46, C47: properties of the one-loop Higgs self-energies

C46: the gaugeless self-energies are the full ones at `g1 = g2 = p² = 0`, the derivative function is the derivative.
C47: dependence on the renormalization scale, and the up/down exchange symmetry.
-/

set_option linter.unusedSimpArgs false
set_option linter.unusedVariables false
set_option linter.unusedSectionVars false

namespace Himalaya

open scoped Himalaya.FOps

variable {L : LoopFns ℝ} {s : Spec ℝ} {p : Params ℝ} {p2 : ℝ}

private theorem r2 : Real.sqrt 2 ^ 2 = 2 := Real.sq_sqrt (by norm_num)
private theorem r4 : Real.sqrt 2 ^ 4 = 4 := by
  rw [show (4:ℕ) = 2 * 2 from rfl, pow_mul, r2]; norm_num
private theorem r3 : Real.sqrt 2 ^ 3 = 2 * Real.sqrt 2 := by
  rw [pow_succ, r2]

/-- the fermion masses are the ones derived from the Yukawa couplings -/
structure FermionMasses (s : Spec ℝ) (p : Params ℝ) : Prop where
  t : s.MFt = p.Yu 2 2 * p.vu * Real.sqrt 2 / 2
  b : s.MFb = p.Yd 2 2 * p.vd * Real.sqrt 2 / 2
  tau : s.MFtau = p.Ye 2 2 * p.vd * Real.sqrt 2 / 2

theorem spectrum_fermionMasses (X : FExt ℝ) (p : Params ℝ) : FermionMasses (spectrum X p) p := by
  have h : (1 : ℝ) / Real.sqrt 2 = Real.sqrt 2 / 2 := by
    rw [div_eq_div_iff (by positivity) (by norm_num)]
    have := r2; nlinarith
  constructor
  · show specMFt p = _
    unfold specMFt; rw [real_const]; unfold Const.value; dsimp only; rw [h]; ring
  · show specMFb p = _
    unfold specMFb; rw [real_const]; unfold Const.value; dsimp only; rw [h]; ring
  · show specMFtau p = _
    unfold specMFtau; rw [real_const]; unfold Const.value; dsimp only; rw [h]; ring

private theorem acc (l : List ℝ) : accumulate l = l.sum := by
  unfold accumulate
  rw [real_ofNat, List.sum_eq_foldl]; simp

/-! ### Sfermion contributions in the limit `g1 = g2 = 0` -/

/-- coupling of sfermions `i`, `j` (mixing `Z`) to the Higgs field that gives mass `m` to the fermion -/
def cOwn (y m A : ℝ) (Z : Mat2 ℝ) (i j : Fin 2) : ℝ :=
  y * (2 * m * (Z.at i 0 * Z.at j 0 + Z.at i 1 * Z.at j 1) + A * (Z.at i 0 * Z.at j 1 + Z.at i 1 * Z.at j 0))
/-- coupling of sfermions to the other Higgs field -/
def cOther (y mu : ℝ) (Z : Mat2 ℝ) (i j : Fin 2) : ℝ := y * mu * (Z.at i 0 * Z.at j 1 + Z.at i 1 * Z.at j 0)

/-- sum over sfermion pairs -/
def pairSum (B : ℝ → ℝ → ℝ) (M : Vec2 ℝ) (c d : Fin 2 → Fin 2 → ℝ) : ℝ :=
  B (M.at 0) (M.at 0) * c 0 0 * d 0 0 + B (M.at 0) (M.at 1) * c 0 1 * d 0 1 + B (M.at 1) (M.at 0) * c 1 0 * d 1 0
    + B (M.at 1) (M.at 1) * c 1 1 * d 1 1

/-- tadpole sum -/
def tadSum (A0 : ℝ → ℝ) (M : Vec2 ℝ) (Z : Mat2 ℝ) : ℝ :=
  A0 (M.at 0) * Z.at 0 0 * Z.at 0 1 + A0 (M.at 1) * Z.at 1 0 * Z.at 1 1

/-- `N` colours; both external fields are the one giving mass to the fermion, `v` its VEV -/
noncomputable def ownOwn (N : ℝ) (L : LoopFns ℝ) (p2 y m A v : ℝ) (M : Vec2 ℝ) (Z : Mat2 ℝ) : ℝ :=
  N * Real.sqrt 2 * A * y / v * tadSum L.A0 M Z - N / 2 * pairSum (L.B0 p2) M (cOwn y m A Z) (cOwn y m A Z)
noncomputable def ownOther (N : ℝ) (L : LoopFns ℝ) (p2 y m A mu : ℝ) (M : Vec2 ℝ) (Z : Mat2 ℝ) : ℝ :=
  N / 2 * pairSum (L.B0 p2) M (cOwn y m A Z) (cOther y mu Z)
noncomputable def otherOther (N : ℝ) (L : LoopFns ℝ) (p2 y mu v : ℝ) (M : Vec2 ℝ) (Z : Mat2 ℝ) : ℝ :=
  -N * Real.sqrt 2 * mu * y / v * tadSum L.A0 M Z - N / 2 * pairSum (L.B0 p2) M (cOther y mu Z) (cOther y mu Z)
/-- fermion loop -/
noncomputable def ferm (N : ℝ) (L : LoopFns ℝ) (p2 y m : ℝ) : ℝ := N * y ^ 2 * (L.B0 p2 (m ^ 2) (m ^ 2) * (4 * m ^ 2 - p2))

macro "open_terms" "[" ds:Lean.Parser.Tactic.simpLemma,* "]" : tactic =>
  `(tactic| (simp only [sum2, sum4, pow2, fpow4, real_ofNat, real_const, Const.value, ownOwn, ownOther, otherOther, pairSum,
      tadSum, cOwn, cOther, ferm, $ds,*]; push_cast))

private theorem f11_17 (h1 : p.g1 = 0) (h2 : p.g2 = 0) (hf : FermionMasses s p) :
    full11_17 L s p p2 = ownOwn 3 L p2 (p.Yd 2 2) s.MFb (p.Ad 2 2) p.vd s.M2Sb s.ZB := by
  unfold full11_17
  open_terms [h1, h2, hf.b]
  ring_nf
  simp only [r2, r3, r4]
  ring

private theorem f11_20 (h1 : p.g1 = 0) (h2 : p.g2 = 0) (hd : p.vd ≠ 0) :
    full11_20 L s p p2 = otherOther 3 L p2 (p.Yu 2 2) p.mu p.vd s.M2St s.ZT := by
  unfold full11_20
  open_terms [h1, h2]
  field_simp
  ring_nf
  simp only [r2, r3, r4]
  ring

private theorem f11_21 (h1 : p.g1 = 0) (h2 : p.g2 = 0) (hf : FermionMasses s p) :
    full11_21 L s p p2 = ownOwn 1 L p2 (p.Ye 2 2) s.MFtau (p.Ae 2 2) p.vd s.M2Stau s.ZTau := by
  unfold full11_21
  open_terms [h1, h2, hf.tau]
  ring_nf
  simp only [r2, r3, r4]
  ring

private theorem f12_7 (h1 : p.g1 = 0) (h2 : p.g2 = 0) (hf : FermionMasses s p) :
    full12_7 L s p p2 = ownOther 3 L p2 (p.Yd 2 2) s.MFb (p.Ad 2 2) p.mu s.M2Sb s.ZB := by
  unfold full12_7
  open_terms [h1, h2, hf.b]
  ring_nf
  simp only [r2, r3, r4]
  ring

private theorem f12_13 (h1 : p.g1 = 0) (h2 : p.g2 = 0) (hf : FermionMasses s p) :
    full12_13 L s p p2 = ownOther 3 L p2 (p.Yu 2 2) s.MFt (p.Au 2 2) p.mu s.M2St s.ZT := by
  unfold full12_13
  open_terms [h1, h2, hf.t]
  ring_nf
  simp only [r2, r3, r4]
  ring

private theorem f12_14 (h1 : p.g1 = 0) (h2 : p.g2 = 0) (hf : FermionMasses s p) :
    full12_14 L s p p2 = ownOther 1 L p2 (p.Ye 2 2) s.MFtau (p.Ae 2 2) p.mu s.M2Stau s.ZTau := by
  unfold full12_14
  open_terms [h1, h2, hf.tau]
  ring_nf
  simp only [r2, r3, r4]
  ring

theorem full22_16_yb (h1 : p.g1 = 0) (h2 : p.g2 = 0) (hu : p.vu ≠ 0) :
    full22_16 L s p p2 = otherOther 3 L p2 (p.Yd 2 2) p.mu p.vu s.M2Sb s.ZB := by
  unfold full22_16
  open_terms [h1, h2]
  field_simp
  ring_nf
  simp only [r2, r3, r4]
  ring

private theorem f22_19 (h1 : p.g1 = 0) (h2 : p.g2 = 0) (hf : FermionMasses s p) :
    full22_19 L s p p2 = ownOwn 3 L p2 (p.Yu 2 2) s.MFt (p.Au 2 2) p.vu s.M2St s.ZT := by
  unfold full22_19
  open_terms [h1, h2, hf.t]
  ring_nf
  simp only [r2, r3, r4]
  ring

private theorem f22_20 (h1 : p.g1 = 0) (h2 : p.g2 = 0) (hu : p.vu ≠ 0) :
    full22_20 L s p p2 = otherOther 1 L p2 (p.Ye 2 2) p.mu p.vu s.M2Stau s.ZTau := by
  unfold full22_20
  open_terms [h1, h2]
  field_simp
  ring_nf
  simp only [r2, r3, r4]
  ring

private theorem f11_7 : full11_7 L s p p2 = ferm 3 L p2 (p.Yd 2 2) s.MFb := by
  unfold full11_7
  open_terms [sq]
  ring_nf
private theorem f11_8 : full11_8 L s p p2 = ferm 1 L p2 (p.Ye 2 2) s.MFtau := by
  unfold full11_8
  open_terms [sq]
  ring_nf
private theorem f22_7 : full22_7 L s p p2 = ferm 3 L p2 (p.Yu 2 2) s.MFt := by
  unfold full22_7
  open_terms [sq]
  ring_nf

/-- the three elements for given Yukawa couplings -/
noncomputable def yuk11 (L : LoopFns ℝ) (s : Spec ℝ) (p : Params ℝ) (yb ytau p2 : ℝ) : ℝ :=
  ferm 3 L p2 yb s.MFb + ferm 1 L p2 ytau s.MFtau + ownOwn 3 L p2 yb s.MFb (p.Ad 2 2) p.vd s.M2Sb s.ZB
    + otherOther 3 L p2 (p.Yu 2 2) p.mu p.vd s.M2St s.ZT + ownOwn 1 L p2 ytau s.MFtau (p.Ae 2 2) p.vd s.M2Stau s.ZTau
noncomputable def yuk12 (L : LoopFns ℝ) (s : Spec ℝ) (p : Params ℝ) (yb ytau p2 : ℝ) : ℝ :=
  ownOther 3 L p2 yb s.MFb (p.Ad 2 2) p.mu s.M2Sb s.ZB + ownOther 3 L p2 (p.Yu 2 2) s.MFt (p.Au 2 2) p.mu s.M2St s.ZT
    + ownOther 1 L p2 ytau s.MFtau (p.Ae 2 2) p.mu s.M2Stau s.ZTau
noncomputable def yuk22 (L : LoopFns ℝ) (s : Spec ℝ) (p : Params ℝ) (yb ytau p2 : ℝ) : ℝ :=
  ferm 3 L p2 (p.Yu 2 2) s.MFt + otherOther 3 L p2 yb p.mu p.vu s.M2Sb s.ZB
    + ownOwn 3 L p2 (p.Yu 2 2) s.MFt (p.Au 2 2) p.vu s.M2St s.ZT + otherOther 1 L p2 ytau p.mu p.vu s.M2Stau s.ZTau

noncomputable def oneL : ℝ := 1 / (4 * Real.pi) ^ 2

theorem full_eq_yuk (h1 : p.g1 = 0) (h2 : p.g2 = 0) (hu : p.vu ≠ 0) (hd : p.vd ≠ 0) (hf : FermionMasses s p) :
    deltaMh1L L s p p2 = ⟨yuk11 L s p (p.Yd 2 2) (p.Ye 2 2) p2 * oneL, yuk12 L s p (p.Yd 2 2) (p.Ye 2 2) p2 * oneL,
      yuk12 L s p (p.Yd 2 2) (p.Ye 2 2) p2 * oneL, yuk22 L s p (p.Yd 2 2) (p.Ye 2 2) p2 * oneL⟩ := by
  have e11 : accumulate (full11 L s p p2) = yuk11 L s p (p.Yd 2 2) (p.Ye 2 2) p2 := by
    rw [acc]; unfold full11 yuk11
    simp only [List.sum_cons, List.sum_nil, f11_7, f11_8, f11_17 h1 h2 hf, f11_20 h1 h2 hd, f11_21 h1 h2 hf,
      full11_0_zero h1 h2, full11_1_zero h1 h2, full11_2_zero h1 h2, full11_3_zero h1 h2, full11_4_zero h1 h2,
      full11_5_zero h1 h2, full11_6_zero h1 h2, full11_9_zero h1 h2, full11_10_zero h1 h2, full11_11_zero h1 h2,
      full11_12_zero h1 h2, full11_13_zero h1 h2, full11_14_zero h1 h2, full11_15_zero h1 h2, full11_16_zero h1 h2,
      full11_18_zero h1 h2, full11_19_zero h1 h2, full11_22_zero h1 h2, full11_23_zero h1 h2, full11_24_zero h1 h2]
    ring
  have e12 : accumulate (full12 L s p p2) = yuk12 L s p (p.Yd 2 2) (p.Ye 2 2) p2 := by
    rw [acc]; unfold full12 yuk12
    simp only [List.sum_cons, List.sum_nil, f12_7 h1 h2 hf, f12_13 h1 h2 hf, f12_14 h1 h2 hf,
      full12_0_zero h1 h2, full12_1_zero h1 h2, full12_2_zero h1 h2, full12_3_zero h1 h2, full12_4_zero h1 h2,
      full12_5_zero h1 h2, full12_6_zero h1 h2, full12_8_zero h1 h2, full12_9_zero h1 h2, full12_10_zero h1 h2,
      full12_11_zero h1 h2, full12_12_zero h1 h2, full12_15_zero h1 h2, full12_16_zero h1 h2, full12_17_zero h1 h2,
      full12_18_zero h1 h2, full12_19_zero h1 h2, full12_20_zero h1 h2]
    ring
  have e22 : accumulate (full22 L s p p2) = yuk22 L s p (p.Yd 2 2) (p.Ye 2 2) p2 := by
    rw [acc]; unfold full22 yuk22
    simp only [List.sum_cons, List.sum_nil, f22_7, full22_16_yb h1 h2 hu, f22_19 h1 h2 hf, f22_20 h1 h2 hu,
      full22_0_zero h1 h2, full22_1_zero h1 h2, full22_2_zero h1 h2, full22_3_zero h1 h2, full22_4_zero h1 h2,
      full22_5_zero h1 h2, full22_6_zero h1 h2, full22_8_zero h1 h2, full22_9_zero h1 h2, full22_10_zero h1 h2,
      full22_11_zero h1 h2, full22_12_zero h1 h2, full22_13_zero h1 h2, full22_14_zero h1 h2, full22_15_zero h1 h2,
      full22_17_zero h1 h2, full22_18_zero h1 h2, full22_21_zero h1 h2, full22_22_zero h1 h2, full22_23_zero h1 h2]
    ring
  unfold deltaMh1L
  rw [e11, e12, e22]
  rfl

/-- Mass exchange symmetry of the loop function at zero momentum (C31 for the implemented one). -/
def SymmB (L : LoopFns ℝ) : Prop := ∀ a b, L.B0 0 a b = L.B0 0 b a

private theorem gl_acc (hB : SymmB L) (yb ytau : ℝ) :
    accumulate (gl11 L s p yb ytau) = yuk11 L s p yb ytau 0 ∧ accumulate (gl12 L s p yb ytau) = yuk12 L s p yb ytau 0 ∧
    accumulate (gl22 L s p yb ytau) = yuk22 L s p yb ytau 0 := by
  have b1 := hB (s.M2Sb.at 1) (s.M2Sb.at 0)
  have b2 := hB (s.M2St.at 1) (s.M2St.at 0)
  have b3 := hB (s.M2Stau.at 1) (s.M2Stau.at 0)
  refine ⟨?_, ?_, ?_⟩
  · rw [acc]; unfold gl11 yuk11
    simp only [List.sum_cons, List.sum_nil, gl11_0, gl11_1, gl11_2, gl11_3, gl11_4, gl11_5, gl11_6, gl11_7, gl11_8, gl11_9,
      gl11_10, gl11_11, gl11_12, gl11_13, gl11_14, gl11_15, gl11_16]
    open_terms [b1, b2, b3, Nat.cast_zero, sq]
    ring
  · rw [acc]; unfold gl12 yuk12
    simp only [List.sum_cons, List.sum_nil, gl12_0, gl12_1, gl12_2, gl12_3, gl12_4, gl12_5, gl12_6, gl12_7, gl12_8]
    open_terms [b1, b2, b3, Nat.cast_zero, sq]
    ring
  · rw [acc]; unfold gl22 yuk22
    simp only [List.sum_cons, List.sum_nil, gl22_0, gl22_1, gl22_2, gl22_3, gl22_4, gl22_5, gl22_6, gl22_7, gl22_8, gl22_9,
      gl22_10, gl22_11, gl22_12, gl22_13, gl22_14, gl22_15]
    open_terms [b1, b2, b3, Nat.cast_zero, sq]
    ring

/-- the bottom and tau Yukawa couplings used by the gaugeless functions -/
noncomputable def effY (b : Bool) (y : ℝ) : ℝ := if b then 0 else y

theorem gaugeless_eq_yuk (hB : SymmB L) (b : Bool) :
    deltaMh1LGaugeless L s p b = ⟨yuk11 L s p (effY b (p.Yd 2 2)) (effY b (p.Ye 2 2)) 0 * oneL,
      yuk12 L s p (effY b (p.Yd 2 2)) (effY b (p.Ye 2 2)) 0 * oneL, yuk12 L s p (effY b (p.Yd 2 2)) (effY b (p.Ye 2 2)) 0 * oneL,
      yuk22 L s p (effY b (p.Yd 2 2)) (effY b (p.Ye 2 2)) 0 * oneL⟩ := by
  have z : ∀ y : ℝ, (if b = true then (@OfNat.ofNat ℝ 0 (FOps.instOfNat 0)) else y) = effY b y := by
    intro y; unfold effY; rw [real_ofNat]; simp
  unfold deltaMh1LGaugeless
  simp only [z, (gl_acc hB _ _).1, (gl_acc hB _ _).2.1, (gl_acc hB _ _).2.2]
  rfl

/-- `make_gaugeless`; mh2_fo/MSSM_mass_eigenstates.cpp:39-45 (over the reals) -/
def zeroGauge (p : Params ℝ) : Params ℝ := { p with g1 := 0, g2 := 0 }

/-- **C46** The gaugeless one-loop self-energy (with all Yukawa couplings) is the full one-loop self-energy evaluated for
`g1 = g2 = 0` and at zero momentum. -/
theorem C46_gaugeless_limit (X : FExt ℝ) (hB : SymmB L) (p : Params ℝ) (hu : p.vu ≠ 0) (hd : p.vd ≠ 0) :
    deltaMh1LGaugeless L (spectrum X (zeroGauge p)) p false
      = deltaMh1L L (spectrum X (zeroGauge p)) (zeroGauge p) 0 := by
  have h := full_eq_yuk (L := L) (p2 := 0) (p := zeroGauge p) rfl rfl hu hd (spectrum_fermionMasses X (zeroGauge p))
  rw [gaugeless_eq_yuk hB, h]
  rfl

/-! ### The derivative -/

/-- `D1B0` is the derivative of `B0` with respect to the squared momentum at zero. -/
def DerivB (L : LoopFns ℝ) : Prop := ∀ a b, HasDerivAt (fun p2 => L.B0 p2 a b) (L.D1B0 a b) 0

/-- element-wise derivative of a matrix function -/
structure HasDerivAtMat (f : ℝ → Mat2 ℝ) (f' : Mat2 ℝ) (x : ℝ) : Prop where
  m00 : HasDerivAt (fun t => (f t).m00) f'.m00 x
  m01 : HasDerivAt (fun t => (f t).m01) f'.m01 x
  m10 : HasDerivAt (fun t => (f t).m10) f'.m10 x
  m11 : HasDerivAt (fun t => (f t).m11) f'.m11 x

section deriv
variable (hD : DerivB L)
include hD

private theorem pair_deriv (M : Vec2 ℝ) (c d : Fin 2 → Fin 2 → ℝ) :
    HasDerivAt (fun p2 => pairSum (L.B0 p2) M c d) (pairSum L.D1B0 M c d) 0 := by
  unfold pairSum
  exact (((((hD _ _).mul_const _).mul_const _).add (((hD _ _).mul_const _).mul_const _)).add
    (((hD _ _).mul_const _).mul_const _)).add (((hD _ _).mul_const _).mul_const _)

private theorem ferm_deriv (N y m : ℝ) : HasDerivAt (fun p2 => ferm N L p2 y m)
    (N * y ^ 2 * (L.D1B0 (m ^ 2) (m ^ 2) * (4 * m ^ 2) - L.B0 0 (m ^ 2) (m ^ 2))) 0 := by
  unfold ferm
  have h := (((hD (m ^ 2) (m ^ 2)).mul ((hasDerivAt_id (0:ℝ)).const_sub (4 * m ^ 2))).const_mul (N * y ^ 2))
  refine h.congr_deriv ?_
  simp only [id]; ring

private theorem own_deriv (N y m A v : ℝ) (M : Vec2 ℝ) (Z : Mat2 ℝ) : HasDerivAt (fun p2 => ownOwn N L p2 y m A v M Z)
    (-(N / 2 * pairSum L.D1B0 M (cOwn y m A Z) (cOwn y m A Z))) 0 := by
  unfold ownOwn
  exact ((pair_deriv hD M _ _).const_mul (N / 2)).const_sub _

private theorem oo_deriv (N y m A mu : ℝ) (M : Vec2 ℝ) (Z : Mat2 ℝ) : HasDerivAt (fun p2 => ownOther N L p2 y m A mu M Z)
    (N / 2 * pairSum L.D1B0 M (cOwn y m A Z) (cOther y mu Z)) 0 := by
  unfold ownOther
  exact (pair_deriv hD M _ _).const_mul (N / 2)

private theorem other_deriv (N y mu v : ℝ) (M : Vec2 ℝ) (Z : Mat2 ℝ) : HasDerivAt (fun p2 => otherOther N L p2 y mu v M Z)
    (-(N / 2 * pairSum L.D1B0 M (cOther y mu Z) (cOther y mu Z))) 0 := by
  unfold otherOther
  exact ((pair_deriv hD M _ _).const_mul (N / 2)).const_sub _

private theorem D1B0_symm (hB : ∀ p2 a b, L.B0 p2 a b = L.B0 p2 b a) (a b : ℝ) : L.D1B0 a b = L.D1B0 b a := by
  have h1 := hD a b
  have h2 := hD b a
  have : (fun p2 => L.B0 p2 a b) = fun p2 => L.B0 p2 b a := funext fun p2 => hB p2 a b
  rw [this] at h1
  exact h1.unique h2

private theorem dv_acc (hB : ∀ p2 a b, L.B0 p2 a b = L.B0 p2 b a) (yb ytau : ℝ) :
    HasDerivAt (fun p2 => yuk11 L s p yb ytau p2) (accumulate (dv11 L s p yb ytau)) 0 ∧
    HasDerivAt (fun p2 => yuk12 L s p yb ytau p2) (accumulate (dv12 L s p yb ytau)) 0 ∧
    HasDerivAt (fun p2 => yuk22 L s p yb ytau p2) (accumulate (dv22 L s p yb ytau)) 0 := by
  have b1 := D1B0_symm hD hB (s.M2Sb.at 1) (s.M2Sb.at 0)
  have b2 := D1B0_symm hD hB (s.M2St.at 1) (s.M2St.at 0)
  have b3 := D1B0_symm hD hB (s.M2Stau.at 1) (s.M2Stau.at 0)
  refine ⟨?_, ?_, ?_⟩
  · unfold yuk11
    refine HasDerivAt.congr_deriv (((((ferm_deriv hD 3 yb s.MFb).add (ferm_deriv hD 1 ytau s.MFtau)).add
      (own_deriv hD 3 yb s.MFb (p.Ad 2 2) p.vd s.M2Sb s.ZB)).add (other_deriv hD 3 (p.Yu 2 2) p.mu p.vd s.M2St s.ZT)).add
      (own_deriv hD 1 ytau s.MFtau (p.Ae 2 2) p.vd s.M2Stau s.ZTau)) ?_
    rw [acc]; unfold dv11
    simp only [List.sum_cons, List.sum_nil, dv11_0, dv11_1, dv11_2, dv11_3, dv11_4, dv11_5, dv11_6, dv11_7, dv11_8, dv11_9,
      dv11_10, dv11_11, dv11_12]
    open_terms [b1, b2, b3, Nat.cast_zero, sq]
    ring
  · unfold yuk12
    refine HasDerivAt.congr_deriv (((oo_deriv hD 3 yb s.MFb (p.Ad 2 2) p.mu s.M2Sb s.ZB).add
      (oo_deriv hD 3 (p.Yu 2 2) s.MFt (p.Au 2 2) p.mu s.M2St s.ZT)).add
      (oo_deriv hD 1 ytau s.MFtau (p.Ae 2 2) p.mu s.M2Stau s.ZTau)) ?_
    rw [acc]; unfold dv12
    simp only [List.sum_cons, List.sum_nil, dv12_0, dv12_1, dv12_2, dv12_3, dv12_4, dv12_5, dv12_6, dv12_7, dv12_8]
    open_terms [b1, b2, b3, Nat.cast_zero, sq]
    ring
  · unfold yuk22
    refine HasDerivAt.congr_deriv ((((ferm_deriv hD 3 (p.Yu 2 2) s.MFt).add
      (other_deriv hD 3 yb p.mu p.vu s.M2Sb s.ZB)).add (own_deriv hD 3 (p.Yu 2 2) s.MFt (p.Au 2 2) p.vu s.M2St s.ZT)).add
      (other_deriv hD 1 ytau p.mu p.vu s.M2Stau s.ZTau)) ?_
    rw [acc]; unfold dv22
    simp only [List.sum_cons, List.sum_nil, dv22_0, dv22_1, dv22_2, dv22_3, dv22_4, dv22_5, dv22_6, dv22_7, dv22_8, dv22_9,
      dv22_10]
    open_terms [b1, b2, b3, Nat.cast_zero, sq]
    ring

/-- **C46** The function documented as the derivative of the one-loop self-energy with respect to the squared momentum (in the
limit `p² = g1 = g2 = 0`, all Yukawa couplings kept) is that derivative, if the loop function `D1B0` is the derivative of a
symmetric `B0`. -/
theorem C46_momentum_derivative (hB : ∀ p2 a b, L.B0 p2 a b = L.B0 p2 b a) (X : FExt ℝ) (p : Params ℝ) (hu : p.vu ≠ 0)
    (hd : p.vd ≠ 0) :
    HasDerivAtMat (fun p2 => deltaMh1L L (spectrum X (zeroGauge p)) (zeroGauge p) p2)
      (deltaMh1LDeriv L (spectrum X (zeroGauge p)) p false) 0 := by
  have h := fun p2 => full_eq_yuk (L := L) (p2 := p2) (p := zeroGauge p) rfl rfl hu hd
    (spectrum_fermionMasses X (zeroGauge p))
  simp only [h]
  obtain ⟨d1, d2, d3⟩ := dv_acc (s := spectrum X (zeroGauge p)) (p := p) hD hB (p.Yd 2 2) (p.Ye 2 2)
  exact ⟨d1.mul_const oneL, d2.mul_const oneL, d2.mul_const oneL, d3.mul_const oneL⟩

end deriv

/-- Non-vacuity: loop functions with a symmetric, non-constant, differentiable `B0`. -/
example : ∃ L : LoopFns ℝ, (∀ p2 a b, L.B0 p2 a b = L.B0 p2 b a) ∧ DerivB L ∧ L.D1B0 1 1 ≠ 0 := by
  refine ⟨⟨fun m => m, fun p2 a b => a + b + p2 * (a * b), fun a b => a * b⟩, fun p2 a b => by dsimp only; ring, fun a b => ?_,
    by norm_num⟩
  have := ((hasDerivAt_id (0:ℝ)).mul_const (a * b)).const_add (a + b)
  simpa using this

/-! ### C47: dependence on the renormalization scale -/

/-- The loop functions after a change of the renormalization scale, `δ = log(Q'²/Q²)` (C31 for the implemented ones). -/
def rescaled (L : LoopFns ℝ) (δ : ℝ) : LoopFns ℝ where
  A0 m2 := L.A0 m2 + m2 * δ
  B0 p2 a b := L.B0 p2 a b + δ
  D1B0 := L.D1B0

private theorem pair_shift (B : ℝ → ℝ → ℝ) (δ : ℝ) (M : Vec2 ℝ) (c d : Fin 2 → Fin 2 → ℝ) :
    pairSum (fun a b => B a b + δ) M c d = pairSum B M c d
      + δ * (c 0 0 * d 0 0 + c 0 1 * d 0 1 + c 1 0 * d 1 0 + c 1 1 * d 1 1) := by
  unfold pairSum; ring

private theorem tad_shift (A : ℝ → ℝ) (δ : ℝ) (M : Vec2 ℝ) (Z : Mat2 ℝ) :
    tadSum (fun m => A m + m * δ) M Z = tadSum A M Z + δ * (M.at 0 * Z.at 0 0 * Z.at 0 1 + M.at 1 * Z.at 1 0 * Z.at 1 1) := by
  unfold tadSum; ring

/-- rows and columns of the mixing matrix are normalised and orthogonal -/
private theorem basis_cols {m : Mat2 ℝ} {w : Vec2 ℝ} {Z : Mat2 ℝ} (h : MassBasis m w Z) :
    Z.m00 ^ 2 + Z.m10 ^ 2 = 1 ∧ Z.m01 ^ 2 + Z.m11 ^ 2 = 1 ∧ Z.m00 * Z.m01 + Z.m10 * Z.m11 = 0 := by
  obtain ⟨r0, r1, o, -⟩ := h
  have hd : (Z.m00 * Z.m11 - Z.m01 * Z.m10) ^ 2 = 1 := by
    linear_combination (Z.m10 ^ 2 + Z.m11 ^ 2) * r0 + r1 - (Z.m00 * Z.m10 + Z.m01 * Z.m11) * o
  have k0 : Z.m11 * (Z.m00 * Z.m11 - Z.m01 * Z.m10) = Z.m00 := by linear_combination Z.m00 * r1 - Z.m10 * o
  have k1 : Z.m10 * (Z.m00 * Z.m11 - Z.m01 * Z.m10) = -Z.m01 := by linear_combination (-Z.m01) * r1 + Z.m11 * o
  refine ⟨?_, ?_, ?_⟩
  · have : Z.m10 ^ 2 = Z.m01 ^ 2 := by
      have := congrArg (· ^ 2) k1
      simp only [mul_pow, hd, neg_sq, mul_one] at this; exact this
    linarith
  · have : Z.m11 ^ 2 = Z.m00 ^ 2 := by
      have := congrArg (· ^ 2) k0
      simp only [mul_pow, hd, mul_one] at this; exact this
    linarith
  · linear_combination Z.m00 * k1 + Z.m10 * (Z.m00 * Z.m11 - Z.m01 * Z.m10) * k0 - Z.m10 * Z.m11 * hd

private theorem at00 (m : Mat2 ℝ) : m.at 0 0 = m.m00 ∧ m.at 0 1 = m.m01 ∧ m.at 1 0 = m.m10 ∧ m.at 1 1 = m.m11 := by
  simp [Mat2.at]
private theorem vat (w : Vec2 ℝ) : w.at 0 = w.x0 ∧ w.at 1 = w.x1 := by simp [Vec2.at]

section scale
variable {m : Mat2 ℝ} {M : Vec2 ℝ} {Z : Mat2 ℝ} (h : MassBasis m M Z)
include h

private theorem sum_own_own (y mf A : ℝ) :
    cOwn y mf A Z 0 0 * cOwn y mf A Z 0 0 + cOwn y mf A Z 0 1 * cOwn y mf A Z 0 1 + cOwn y mf A Z 1 0 * cOwn y mf A Z 1 0
      + cOwn y mf A Z 1 1 * cOwn y mf A Z 1 1 = y ^ 2 * (8 * mf ^ 2 + 2 * A ^ 2) := by
  obtain ⟨c0, c1, co⟩ := basis_cols h
  obtain ⟨r0, r1, o, -⟩ := h
  unfold cOwn
  obtain ⟨a1, a2, a3, a4⟩ := at00 Z
  rw [a1, a2, a3, a4]
  have x0 : Z.m00 ^ 2 + Z.m01 ^ 2 = 1 := r0
  -- the coupling matrix is `Z K Z^T` with `K = ((2m, A), (A, 2m))`
  have s1 : (Z.m00 * Z.m00 + Z.m01 * Z.m01) = 1 := by linarith
  have s2 : (Z.m10 * Z.m10 + Z.m11 * Z.m11) = 1 := by linarith
  have s3 : (Z.m00 * Z.m10 + Z.m01 * Z.m11) = 0 := o
  have s4 : (Z.m10 * Z.m00 + Z.m11 * Z.m01) = 0 := by linarith
  rw [s1, s2, s3, s4]
  have t1 : (Z.m00 * Z.m01 + Z.m01 * Z.m00) + (Z.m10 * Z.m11 + Z.m11 * Z.m10) = 0 := by linarith
  have t2 : (Z.m00 * Z.m01 + Z.m01 * Z.m00) ^ 2 + (Z.m00 * Z.m11 + Z.m01 * Z.m10) ^ 2 + (Z.m10 * Z.m01 + Z.m11 * Z.m00) ^ 2
      + (Z.m10 * Z.m11 + Z.m11 * Z.m10) ^ 2 = 2 := by
    linear_combination 2 * (Z.m01 ^ 2 + Z.m11 ^ 2) * c0 + 2 * c1 + 2 * (Z.m00 * Z.m01 + Z.m10 * Z.m11) * co
  linear_combination y ^ 2 * (4 * mf * A * t1 + A ^ 2 * t2)

private theorem sum_own_other (y mf A mu : ℝ) :
    cOwn y mf A Z 0 0 * cOther y mu Z 0 0 + cOwn y mf A Z 0 1 * cOther y mu Z 0 1 + cOwn y mf A Z 1 0 * cOther y mu Z 1 0
      + cOwn y mf A Z 1 1 * cOther y mu Z 1 1 = 2 * y ^ 2 * A * mu := by
  obtain ⟨c0, c1, co⟩ := basis_cols h
  obtain ⟨r0, r1, o, -⟩ := h
  unfold cOwn cOther
  obtain ⟨a1, a2, a3, a4⟩ := at00 Z
  rw [a1, a2, a3, a4]
  have s1 : (Z.m00 * Z.m00 + Z.m01 * Z.m01) = 1 := by linarith
  have s2 : (Z.m10 * Z.m10 + Z.m11 * Z.m11) = 1 := by linarith
  have s3 : (Z.m00 * Z.m10 + Z.m01 * Z.m11) = 0 := o
  have s4 : (Z.m10 * Z.m00 + Z.m11 * Z.m01) = 0 := by linarith
  rw [s1, s2, s3, s4]
  have t1 : (Z.m00 * Z.m01 + Z.m01 * Z.m00) + (Z.m10 * Z.m11 + Z.m11 * Z.m10) = 0 := by linarith
  have t2 : (Z.m00 * Z.m01 + Z.m01 * Z.m00) ^ 2 + (Z.m00 * Z.m11 + Z.m01 * Z.m10) ^ 2 + (Z.m10 * Z.m01 + Z.m11 * Z.m00) ^ 2
      + (Z.m10 * Z.m11 + Z.m11 * Z.m10) ^ 2 = 2 := by
    linear_combination 2 * (Z.m01 ^ 2 + Z.m11 ^ 2) * c0 + 2 * c1 + 2 * (Z.m00 * Z.m01 + Z.m10 * Z.m11) * co
  linear_combination y ^ 2 * mu * (2 * mf * t1 + A * t2)

private theorem sum_other_other (y mu : ℝ) :
    cOther y mu Z 0 0 * cOther y mu Z 0 0 + cOther y mu Z 0 1 * cOther y mu Z 0 1 + cOther y mu Z 1 0 * cOther y mu Z 1 0
      + cOther y mu Z 1 1 * cOther y mu Z 1 1 = 2 * y ^ 2 * mu ^ 2 := by
  have := sum_own_own h y 0 mu
  have e : ∀ i j, cOwn y 0 mu Z i j = cOther y mu Z i j := by intro i j; unfold cOwn cOther; ring
  simp only [e] at this
  rw [this]; ring

private theorem tad_basis : M.at 0 * Z.at 0 0 * Z.at 0 1 + M.at 1 * Z.at 1 0 * Z.at 1 1 = m.m01 := by
  obtain ⟨a1, a2, a3, a4⟩ := at00 Z
  obtain ⟨b1, b2⟩ := vat M
  rw [a1, a2, a3, a4, b1, b2, h.e01]

private theorem own_shift (N δ y mf A v : ℝ) : ownOwn N (rescaled L δ) 0 y mf A v M Z = ownOwn N L 0 y mf A v M Z
    + δ * (N * Real.sqrt 2 * A * y / v * m.m01 - N * y ^ 2 * (4 * mf ^ 2 + A ^ 2)) := by
  unfold ownOwn rescaled
  dsimp only
  rw [pair_shift, tad_shift, sum_own_own h, tad_basis h]
  ring

private theorem oo_shift (N δ y mf A mu : ℝ) : ownOther N (rescaled L δ) 0 y mf A mu M Z = ownOther N L 0 y mf A mu M Z
    + δ * (N * y ^ 2 * A * mu) := by
  unfold ownOther rescaled
  dsimp only
  rw [pair_shift, sum_own_other h]
  ring

private theorem other_shift (N δ y mu v : ℝ) : otherOther N (rescaled L δ) 0 y mu v M Z = otherOther N L 0 y mu v M Z
    + δ * (-N * Real.sqrt 2 * mu * y / v * m.m01 - N * y ^ 2 * mu ^ 2) := by
  unfold otherOther rescaled
  dsimp only
  rw [pair_shift, tad_shift, sum_other_other h, tad_basis h]
  ring

end scale

private theorem ferm_shift (N δ y m : ℝ) : ferm N (rescaled L δ) 0 y m = ferm N L 0 y m + δ * (4 * N * y ^ 2 * m ^ 2) := by
  unfold ferm rescaled; dsimp only; ring

/-- the direction in which the CP-odd mass parameter enters the tree-level matrix -/
noncomputable def bDirection (p : Params ℝ) : Mat2 ℝ := ⟨-(p.vu / p.vd), 1, 1, -(p.vd / p.vu)⟩

/-- one-loop running of the soft Higgs mixing parameter from the third generation -/
noncomputable def betaB (p : Params ℝ) : ℝ :=
  p.mu * (3 * p.Yu 2 2 ^ 2 * p.Au 2 2 + 3 * p.Yd 2 2 ^ 2 * p.Ad 2 2 + p.Ye 2 2 ^ 2 * p.Ae 2 2)

/-- **C47** A change of the renormalization scale (`δ = log(Q'²/Q²)`) changes the gaugeless one-loop mass matrix only by the
running of the mixing parameter, i.e. by a multiple of the matrix multiplying `-MA²` at tree level.  All dependence on the soft
masses and on the field-independent part cancels. -/
theorem C47_scale_dependence {X : FExt ℝ} (hB : SymmB L) (p : Params ℝ) (hu : p.vu ≠ 0) (hd : p.vd ≠ 0)
    (ht : SolverOK X.toExt (matUp (zeroGauge p) 2 (p.Yu 2 2))) (hb : SolverOK X.toExt (matDown (zeroGauge p) 2 (p.Yd 2 2)))
    (htau : SolverOK X.toExt (matLep (zeroGauge p) 2 (p.Ye 2 2))) (δ : ℝ) :
    let s := spectrum X (zeroGauge p)
    let c := δ * betaB p / (4 * Real.pi) ^ 2
    let a := deltaMh1LGaugeless L s p false
    let b := bDirection p
    deltaMh1LGaugeless (rescaled L δ) s p false = ⟨a.m00 + c * b.m00, a.m01 + c * b.m01, a.m10 + c * b.m10, a.m11 + c * b.m11⟩ := by
  intro s c a b
  have hB' : SymmB (rescaled L δ) := by intro x y; show L.B0 0 x y + δ = L.B0 0 y x + δ; rw [hB]
  have Ht : MassBasis (matUp (zeroGauge p) 2 (p.Yu 2 2)) s.M2St s.ZT := basis_of rfl ht
  have Hb : MassBasis (matDown (zeroGauge p) 2 (p.Yd 2 2)) s.M2Sb s.ZB := basis_of rfl hb
  have Htau : MassBasis (matLep (zeroGauge p) 2 (p.Ye 2 2)) s.M2Stau s.ZTau := basis_of rfl htau
  have hf := spectrum_fermionMasses X (zeroGauge p)
  have hs : (1 : ℝ) / Real.sqrt 2 = Real.sqrt 2 / 2 := by
    rw [div_eq_div_iff (by positivity) (by norm_num)]
    have := r2; nlinarith
  have mt : (matUp (zeroGauge p) 2 (p.Yu 2 2)).m01 = Real.sqrt 2 / 2 * p.Yu 2 2 * (p.vu * p.Au 2 2 - p.vd * p.mu) := by
    unfold matUp zeroGauge; simp only [real_const, Const.value, hs]; ring
  have mb : (matDown (zeroGauge p) 2 (p.Yd 2 2)).m01 = Real.sqrt 2 / 2 * p.Yd 2 2 * (p.vd * p.Ad 2 2 - p.vu * p.mu) := by
    unfold matDown zeroGauge; simp only [real_const, Const.value, hs]; ring
  have mtau : (matLep (zeroGauge p) 2 (p.Ye 2 2)).m01 = Real.sqrt 2 / 2 * p.Ye 2 2 * (p.vd * p.Ae 2 2 - p.vu * p.mu) := by
    unfold matLep zeroGauge; simp only [real_const, Const.value, hs]; ring
  have e11 : yuk11 (rescaled L δ) s p (p.Yd 2 2) (p.Ye 2 2) 0
      = yuk11 L s p (p.Yd 2 2) (p.Ye 2 2) 0 + δ * betaB p * -(p.vu / p.vd) := by
    unfold yuk11 betaB
    rw [own_shift Hb, own_shift Htau, other_shift Ht, ferm_shift, ferm_shift, mt, mb, mtau]
    field_simp
    ring_nf
    simp only [r2, r3, r4]
    ring
  have e12 : yuk12 (rescaled L δ) s p (p.Yd 2 2) (p.Ye 2 2) 0 = yuk12 L s p (p.Yd 2 2) (p.Ye 2 2) 0 + δ * betaB p := by
    unfold yuk12 betaB
    rw [oo_shift Hb, oo_shift Htau, oo_shift Ht]
    ring
  have e22 : yuk22 (rescaled L δ) s p (p.Yd 2 2) (p.Ye 2 2) 0
      = yuk22 L s p (p.Yd 2 2) (p.Ye 2 2) 0 + δ * betaB p * -(p.vd / p.vu) := by
    unfold yuk22 betaB
    rw [other_shift Hb, other_shift Htau, own_shift Ht, ferm_shift, mt, mb, mtau]
    field_simp
    ring_nf
    simp only [r2, r3, r4]
    ring
  have g : ∀ L, SymmB L → deltaMh1LGaugeless L s p false = ⟨yuk11 L s p (p.Yd 2 2) (p.Ye 2 2) 0 * oneL,
      yuk12 L s p (p.Yd 2 2) (p.Ye 2 2) 0 * oneL, yuk12 L s p (p.Yd 2 2) (p.Ye 2 2) 0 * oneL,
      yuk22 L s p (p.Yd 2 2) (p.Ye 2 2) 0 * oneL⟩ := fun L hB => gaugeless_eq_yuk hB false
  show deltaMh1LGaugeless (rescaled L δ) s p false = _
  simp only [a]
  rw [g _ hB', g _ hB, e11, e12, e22]
  simp only [b, c, bDirection, oneL]
  congr 1 <;> ring

/-- **C47** The direction of the scale dependence annihilates the VEV direction: the one-loop shift of the mass of the Higgs
boson that is massless at tree level (`g1 = g2 = 0`) does not depend on the renormalization scale. -/
theorem C47_light_higgs_scale_independent {X : FExt ℝ} (hB : SymmB L) (p : Params ℝ) (hu : p.vu ≠ 0) (hd : p.vd ≠ 0)
    (ht : SolverOK X.toExt (matUp (zeroGauge p) 2 (p.Yu 2 2))) (hb : SolverOK X.toExt (matDown (zeroGauge p) 2 (p.Yd 2 2)))
    (htau : SolverOK X.toExt (matLep (zeroGauge p) 2 (p.Ye 2 2))) (δ : ℝ) :
    let along := fun m : Mat2 ℝ => p.vd * (m.m00 * p.vd + m.m01 * p.vu) + p.vu * (m.m10 * p.vd + m.m11 * p.vu)
    along (deltaMh1LGaugeless (rescaled L δ) (spectrum X (zeroGauge p)) p false)
      = along (deltaMh1LGaugeless L (spectrum X (zeroGauge p)) p false) := by
  intro along
  rw [C47_scale_dependence hB p hu hd ht hb htau δ]
  simp only [along, bDirection]
  field_simp
  ring

/-- the hypotheses can be met, with a non-trivial result -/
example : ∃ (X : FExt ℝ) (p : Params ℝ), p.vu ≠ 0 ∧ p.vd ≠ 0 ∧ SolverOK X.toExt (matUp (zeroGauge p) 2 (p.Yu 2 2)) ∧
    SolverOK X.toExt (matDown (zeroGauge p) 2 (p.Yd 2 2)) ∧ SolverOK X.toExt (matLep (zeroGauge p) 2 (p.Ye 2 2)) ∧
    betaB p ≠ 0 := by
  obtain ⟨X, h⟩ := exists_solver
  refine ⟨⟨X, fun _ => (fun _ => 0, fun _ _ => 0), fun m => (⟨0, 0⟩, m, m)⟩,
    { examplePoint with Yu := fun _ _ => 1, Au := fun _ _ => 1 }, by norm_num [examplePoint], by norm_num [examplePoint],
    h _, h _, h _, ?_⟩
  norm_num [betaB, examplePoint]

/-! ### C47: exchange of up- and down-type fields -/

/-- Exchange of the two Higgs doublets together with top and bottom (no leptons). -/
def exchangedParams (p : Params ℝ) : Params ℝ :=
  { p with vu := p.vd, vd := p.vu, Yu := p.Yd, Yd := p.Yu, Au := p.Ad, Ad := p.Au, mu2 := p.md2, md2 := p.mu2 }
/-- the spectrum with (s)tops and (s)bottoms exchanged -/
def exchangedSpec (s : Spec ℝ) : Spec ℝ :=
  { s with MFt := s.MFb, MFb := s.MFt, M2St := s.M2Sb, M2Sb := s.M2St, ZT := s.ZB, ZB := s.ZT }

/-- **C47** Without lepton Yukawa coupling, exchanging up- and down-type fields exchanges the diagonal elements of the gaugeless
one-loop matrix. -/
theorem C47_up_down_exchange (hB : SymmB L) (hl : p.Ye 2 2 = 0) :
    let a := deltaMh1LGaugeless L s p false
    deltaMh1LGaugeless L (exchangedSpec s) (exchangedParams p) false = ⟨a.m11, a.m01, a.m10, a.m00⟩ := by
  intro a
  simp only [a]
  rw [gaugeless_eq_yuk hB, gaugeless_eq_yuk hB]
  have e : ∀ y, effY false y = y := fun y => rfl
  have e0 : (exchangedParams p).Ye 2 2 = 0 := hl
  simp only [e, hl, e0]
  have z1 : ∀ m A v M Z, ownOwn 1 L 0 0 m A v M Z = 0 := by
    intros; unfold ownOwn pairSum cOwn; ring
  have z2 : ∀ m A v M Z, ownOther 1 L 0 0 m A v M Z = 0 := by
    intros; unfold ownOther pairSum cOwn; ring
  have z3 : ∀ m v M Z, otherOther 1 L 0 0 m v M Z = 0 := by
    intros; unfold otherOther pairSum cOther; ring
  have z4 : ∀ m, ferm 1 L 0 0 m = 0 := by intros; unfold ferm; ring
  simp only [yuk11, yuk12, yuk22, z1, z2, z3, z4, exchangedParams, exchangedSpec]
  congr 1 <;> ring

/-- **C47** The spectrum of the exchanged parameter point (gaugeless, same colour factors) is the exchanged spectrum, so the
previous theorem applies to it. -/
theorem C47_exchanged_spectrum (X : FExt ℝ) (p : Params ℝ) :
    let q := zeroGauge (exchangedParams p)
    let s := spectrum X (zeroGauge p)
    (spectrum X q).MFt = (exchangedSpec s).MFt ∧ (spectrum X q).MFb = (exchangedSpec s).MFb ∧
    (spectrum X q).M2St = (exchangedSpec s).M2St ∧ (spectrum X q).M2Sb = (exchangedSpec s).M2Sb ∧
    (spectrum X q).ZT = (exchangedSpec s).ZT ∧ (spectrum X q).ZB = (exchangedSpec s).ZB := by
  intro q s
  have u : matUp q 2 (q.Yu 2 2) = matDown (zeroGauge p) 2 (p.Yd 2 2) := by
    unfold matUp matDown
    simp only [q, zeroGauge, exchangedParams, pow2, real_lit]
    congr 1 <;> ring
  have d : matDown q 2 (q.Yd 2 2) = matUp (zeroGauge p) 2 (p.Yu 2 2) := by
    unfold matUp matDown
    simp only [q, zeroGauge, exchangedParams, pow2, real_lit]
    congr 1 <;> ring
  refine ⟨rfl, rfl, ?_, ?_, ?_, ?_⟩
  · show (massesOf X.toExt (matUp q 2 (q.Yu 2 2))).1 = _; rw [u]; rfl
  · show (massesOf X.toExt (matDown q 2 (q.Yd 2 2))).1 = _; rw [d]; rfl
  · show (massesOf X.toExt (matUp q 2 (q.Yu 2 2))).2 = _; rw [u]; rfl
  · show (massesOf X.toExt (matDown q 2 (q.Yd 2 2))).2 = _; rw [d]; rfl

end Himalaya
