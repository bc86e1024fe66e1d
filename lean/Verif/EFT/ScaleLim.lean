import Verif.EFT.ScaleGen

/-!
# Scale dependence: the special mass cases
-/

set_option linter.unusedSimpArgs false
set_option linter.unusedVariables false

namespace Himalaya.Scale
open Filter Topology
open Himalaya.Cont

noncomputable def yQU (m : ℝ) (x : Pt) : ℝ := Thr.dYtAsQU (m ^ 2) x.1 x.2.1 m (Real.sqrt x.1) (Real.sqrt x.2.1) x.2.2.1 x.2.2.2
noncomputable def yQG (m : ℝ) (x : Pt) : ℝ := Thr.dYtAsQG (m ^ 2) x.1 x.2.1 m (Real.sqrt x.1) (Real.sqrt x.2.1) x.2.2.1 x.2.2.2
noncomputable def yUG (m : ℝ) (x : Pt) : ℝ := Thr.dYtAsUG (m ^ 2) x.1 x.2.1 m (Real.sqrt x.1) (Real.sqrt x.2.1) x.2.2.1 x.2.2.2
noncomputable def yQUG (m : ℝ) (x : Pt) : ℝ := Thr.dYtAsQUG (m ^ 2) x.1 x.2.1 m (Real.sqrt x.1) (Real.sqrt x.2.1) x.2.2.1 x.2.2.2
noncomputable def l1QU (m : ℝ) (x : Pt) : ℝ := Thr.dLamAtQU (m ^ 2) x.1 x.2.1 m (Real.sqrt x.1) (Real.sqrt x.2.1) x.2.2.1 x.2.2.2
noncomputable def l2QU (dl : ℝ → ℝ) (m : ℝ) (x : Pt) : ℝ := Thr.dLamAtAsQU dl (m ^ 2) x.1 x.2.1 m (Real.sqrt x.1) (Real.sqrt x.2.1) x.2.2.1 x.2.2.2
noncomputable def l2QG (dl : ℝ → ℝ) (m : ℝ) (x : Pt) : ℝ := Thr.dLamAtAsQG dl (m ^ 2) x.1 x.2.1 m (Real.sqrt x.1) (Real.sqrt x.2.1) x.2.2.1 x.2.2.2
noncomputable def l2UG (dl : ℝ → ℝ) (m : ℝ) (x : Pt) : ℝ := Thr.dLamAtAsUG dl (m ^ 2) x.1 x.2.1 m (Real.sqrt x.1) (Real.sqrt x.2.1) x.2.2.1 x.2.2.2
noncomputable def l2QUG (dl : ℝ → ℝ) (m : ℝ) (x : Pt) : ℝ := Thr.dLamAtAsQUG dl (m ^ 2) x.1 x.2.1 m (Real.sqrt x.1) (Real.sqrt x.2.1) x.2.2.1 x.2.2.2

theorem Li2_diff {dl : ℝ → ℝ} (hT : ∀ y < 1, dl y = Li2.Li2 y) {r : ℝ} (hr : r < 1) : DifferentiableAt ℝ dl r := by
  have he : dl =ᶠ[𝓝 r] Li2.Li2 := by
    filter_upwards [gt_mem_nhds hr] with y hy using hT y hy
  exact ((hasDerivAt_Li2' hr.ne).differentiableAt).congr_of_eventuallyEq he

theorem arg_lt {a b : ℝ} (ha : 0 < a) (hb : 0 < b) : 1 - a / (Real.sqrt b * Real.sqrt b) < 1 := by
  have := Real.sqrt_pos.2 hb
  have : 0 < a / (Real.sqrt b * Real.sqrt b) := by positivity
  linarith

theorem l1QU_real (m : ℝ) (x : Pt) : l1QU m x = 12 * x.2.2.2 + 12 * x.2.2.1 ^ 2 / x.1 - x.2.2.1 ^ 4 / x.1 ^ 2 := by
  unfold l1QU Thr.dLamAtQU
  simp only [real_ofNat, real_ofInt, Himalaya.pow2, Misc.pow2, Misc.pow3, Misc.pow4, real_log]
  push_cast; ring

theorem l1QU_diff {m : ℝ} {x : Pt} (hq : x.1 ≠ 0) : DifferentiableAt ℝ (l1QU m) x := by
  have : l1QU m = fun x => _ := funext (l1QU_real m)
  rw [this]
  fun_prop (disch := ddisch)

theorem l1QU_flow {m : ℝ} {x : Pt} (hq : 0 < x.1) :
    fderiv ℝ (l1QU m) x (flow m x) = 16 / 3 * m * (24 * x.2.2.1 / x.1 - 4 * x.2.2.1 ^ 3 / x.1 ^ 2)
      - 16 / 3 * m ^ 2 * (12 / x.1 - 12 * x.2.2.1 ^ 2 / x.1 ^ 2 + 2 * x.2.2.1 ^ 4 / x.1 ^ 3) := by
  obtain ⟨q, u, X, L⟩ := x
  simp only at hq
  refine dir_of (l1QU_diff hq.ne') ?_
  simp only [flow, l1QU_real]
  have h0 : ∀ p w : ℝ, HasDerivAt (fun s : ℝ => p + s * w) w 0 := fun p w => by
    simpa using ((hasDerivAt_id (0:ℝ)).mul_const w).const_add p
  set A := -(16 / 3) * m ^ 2
  set B := 16 / 3 * m
  have hX := h0 X B
  have hQ := h0 q A
  have k := (((h0 L (A / q)).const_mul 12).add (((hX.pow 2).const_mul 12).div hQ (by simpa using hq.ne'))).sub
    ((hX.pow 4).div (hQ.pow 2) (by simpa using hq.ne'))
  refine HasDerivAt.congr_deriv k ?_
  simp only [Pi.pow_apply, Pi.add_apply, Pi.sub_apply, Pi.mul_apply, zero_mul, add_zero, Nat.cast_ofNat, show (4 - 1 : ℕ) = 3 from rfl, show (2 - 1 : ℕ) = 1 from rfl]
  field_simp
  simp only [A, B]
  ring

section
variable {m : ℝ} {x : Pt}

theorem yQU_diff (hm : m ≠ 0) (hq : 0 < x.1) (hmq : m ^ 2 - x.1 ≠ 0) : DifferentiableAt ℝ (yQU m) x := by
  have s1 : Real.sqrt x.1 ≠ 0 := (Real.sqrt_pos.2 hq).ne'
  have hq' := hq.ne'
  clear hq
  unfold yQU Thr.dYtAsQU
  simp only [real_ofNat, real_ofInt, Himalaya.pow2, Misc.pow2, Misc.pow3, Misc.pow4, Misc.pow5, real_log]
  push_cast
  fun_prop (disch := ddisch)

theorem yQG_diff (hq : 0 < x.1) (hu : 0 < x.2.1) (hne : x.1 - x.2.1 ≠ 0) : DifferentiableAt ℝ (yQG m) x := by
  have s1 : Real.sqrt x.1 ≠ 0 := (Real.sqrt_pos.2 hq).ne'
  have hq' := hq.ne'
  have hu' := hu.ne'
  clear hq hu
  unfold yQG Thr.dYtAsQG
  simp only [real_ofNat, real_ofInt, Himalaya.pow2, Misc.pow2, Misc.pow3, Misc.pow4, Misc.pow5, real_log]
  push_cast
  fun_prop (disch := ddisch)

theorem yUG_diff (hq : 0 < x.1) (hu : 0 < x.2.1) (hne : x.1 - x.2.1 ≠ 0) : DifferentiableAt ℝ (yUG m) x := by
  have s1 : Real.sqrt x.1 ≠ 0 := (Real.sqrt_pos.2 hq).ne'
  have s2 : Real.sqrt x.2.1 ≠ 0 := (Real.sqrt_pos.2 hu).ne'
  have hq' := hq.ne'
  have hu' := hu.ne'
  clear hq hu
  unfold yUG Thr.dYtAsUG
  simp only [real_ofNat, real_ofInt, Himalaya.pow2, Misc.pow2, Misc.pow3, Misc.pow4, Misc.pow5, real_log]
  push_cast
  fun_prop (disch := ddisch)

theorem yQUG_diff (hq : 0 < x.1) : DifferentiableAt ℝ (yQUG m) x := by
  have s1 : Real.sqrt x.1 ≠ 0 := (Real.sqrt_pos.2 hq).ne'
  have hq' := hq.ne'
  clear hq
  unfold yQUG Thr.dYtAsQUG
  simp only [real_ofNat, real_ofInt, Himalaya.pow2, Misc.pow2, Misc.pow3, Misc.pow4, Misc.pow5, real_log]
  push_cast
  fun_prop (disch := ddisch)

theorem l2QU_diff {dl : ℝ → ℝ} (hT : ∀ y < 1, dl y = Li2.Li2 y) (hm : m ≠ 0) (hq : 0 < x.1) (hmq : m ^ 2 - x.1 ≠ 0) :
    DifferentiableAt ℝ (l2QU dl m) x := by
  have hd := Li2_diff hT (arg_lt (show 0 < m ^ 2 by positivity) hq)
  have s1 : Real.sqrt x.1 ≠ 0 := (Real.sqrt_pos.2 hq).ne'
  have hq' := hq.ne'
  clear hq hT
  unfold l2QU Thr.dLamAtAsQU
  simp only [real_ofNat, real_ofInt, Himalaya.pow2, Misc.pow2, Misc.pow3, Misc.pow4, Misc.pow5, Misc.pow6, real_log]
  push_cast
  fun_prop (disch := ddisch)

theorem l2QUG_diff {dl : ℝ → ℝ} (hq : 0 < x.1) : DifferentiableAt ℝ (l2QUG dl m) x := by
  have s1 : Real.sqrt x.1 ≠ 0 := (Real.sqrt_pos.2 hq).ne'
  have hq' := hq.ne'
  clear hq
  unfold l2QUG Thr.dLamAtAsQUG
  simp only [real_ofNat, real_ofInt, Himalaya.pow2, Misc.pow2, Misc.pow3, Misc.pow4, Misc.pow5, Misc.pow6, real_log]
  push_cast
  fun_prop (disch := ddisch)

theorem l2QG_diff {dl : ℝ → ℝ} (hT : ∀ y < 1, dl y = Li2.Li2 y) (hq : 0 < x.1) (hu : 0 < x.2.1) (hne : x.1 - x.2.1 ≠ 0) :
    DifferentiableAt ℝ (l2QG dl m) x := by
  have hd := Li2_diff hT (arg_lt hq hu)
  have s1 : Real.sqrt x.1 ≠ 0 := (Real.sqrt_pos.2 hq).ne'
  have s2 : Real.sqrt x.2.1 ≠ 0 := (Real.sqrt_pos.2 hu).ne'
  have e : Real.sqrt x.2.1 * Real.sqrt x.2.1 = x.2.1 := Real.mul_self_sqrt hu.le
  have h3 : -(x.1 * Real.sqrt x.2.1) + Real.sqrt x.2.1 * Real.sqrt x.2.1 * Real.sqrt x.2.1 ≠ 0 := by
    rw [e, show -(x.1 * Real.sqrt x.2.1) + x.2.1 * Real.sqrt x.2.1 = -((x.1 - x.2.1) * Real.sqrt x.2.1) by ring]
    exact neg_ne_zero.2 (mul_ne_zero hne s2)
  have h4 : x.1 * x.2.1 - Real.sqrt x.2.1 * Real.sqrt x.2.1 * (Real.sqrt x.2.1 * Real.sqrt x.2.1) ≠ 0 := by
    rw [e, show x.1 * x.2.1 - x.2.1 * x.2.1 = (x.1 - x.2.1) * x.2.1 by ring]
    exact mul_ne_zero hne hu.ne'
  have hq' := hq.ne'
  have hu' := hu.ne'
  clear hq hu hT e
  unfold l2QG Thr.dLamAtAsQG
  simp only [real_ofNat, real_ofInt, Himalaya.pow2, Misc.pow2, Misc.pow3, Misc.pow4, Misc.pow5, Misc.pow6, real_log]
  push_cast
  fun_prop (disch := ddisch)

theorem l2UG_diff {dl : ℝ → ℝ} (hT : ∀ y < 1, dl y = Li2.Li2 y) (hq : 0 < x.1) (hu : 0 < x.2.1) (hne : x.1 - x.2.1 ≠ 0) :
    DifferentiableAt ℝ (l2UG dl m) x := by
  have hd := Li2_diff hT (arg_lt hu hq)
  have s1 : Real.sqrt x.1 ≠ 0 := (Real.sqrt_pos.2 hq).ne'
  have s2 : Real.sqrt x.2.1 ≠ 0 := (Real.sqrt_pos.2 hu).ne'
  have hq' := hq.ne'
  have hu' := hu.ne'
  clear hq hu hT
  unfold l2UG Thr.dLamAtAsUG
  simp only [real_ofNat, real_ofInt, Himalaya.pow2, Misc.pow2, Misc.pow3, Misc.pow4, Misc.pow5, Misc.pow6, Misc.pow8, Misc.power10, real_log]
  push_cast
  fun_prop (disch := ddisch)

theorem cs_qu {dl : ℝ → ℝ} (hT : ∀ y < 1, dl y = Li2.Li2 y) (hm : m ≠ 0) (hq : 0 < x.1) (hmq : m ^ 2 - x.1 ≠ 0) :
    Cs m (yQU m) (l1QU m) (l2QU dl m) x := by
  refine ⟨yQU_diff hm hq hmq, l1QU_diff hq.ne', l2QU_diff hT hm hq hmq, ?_, ?_, ?_⟩
  · refine dirL_of (e := 0) (yQU_diff hm hq hmq) fun s => ?_
    unfold yQU Thr.dYtAsQU
    simp only [real_ofNat, real_ofInt, Himalaya.pow2]
    push_cast
    field_simp
    ring
  · refine dirL_of (e := 0) (l1QU_diff hq.ne') fun s => ?_
    rw [l1QU_real, l1QU_real]; ring
  · rw [l1QU_flow hq, l1QU_real]
    have h := dirL_of (l2QU_diff hT hm hq hmq) (d := (-8) * (
        ((-8) * x.1 * x.2.2.1 * (6 * x.1 - x.2.2.1 ^ 2) * m ^ 3 + 4 * m ^ 4 * ((-6) * x.1 * x.2.2.1 ^ 2 + 6 * x.1 ^ 2 + x.2.2.1 ^ 4)
          - x.1 ^ 2 * (72 * x.1 * x.2.2.1 ^ 2 + 6 * (-4 + 12 * x.2.2.2) * x.1 ^ 2 - 6 * x.2.2.1 ^ 4)
          + m * ((-8) * x.2.2.1 ^ 3 * x.1 ^ 2 + 48 * x.2.2.1 * x.1 ^ 3)
          + m ^ 2 * (96 * x.2.2.1 ^ 2 * x.1 ^ 2 - 10 * x.1 * x.2.2.1 ^ 4 + 6 * (-8 + 12 * x.2.2.2) * x.1 ^ 3))) / (3 * (m ^ 2 - x.1) * x.1 ^ 3))
      (e := -96) fun s => by
        unfold l2QU
        obtain ⟨q, u, X, L⟩ := x
        simp only at hq hmq ⊢
        have e : q = Real.sqrt q ^ 2 := (Real.sq_sqrt hq.le).symm
        have hs := (Real.sqrt_pos.2 hq).ne'
        generalize Real.sqrt q = Q at *
        subst e
        rw [lamQU_split, lamQU_split]
        unfold lamQUX b0 b1 b2 b3 b4 b5
        generalize dl _ = D
        generalize Real.log _ = la
        generalize hE : m ^ 2 - Q ^ 2 = E at *
        field_simp
        subst hE
        ring
    rw [h]
    obtain ⟨q, u, X, L⟩ := x
    simp only at hq hmq ⊢
    have := hq.ne'
    generalize hE : m ^ 2 - q = E at *
    field_simp
    subst hE
    ring

theorem cs_qug {dl : ℝ → ℝ} (hm : 0 < m) (hq : x.1 = m ^ 2) : Cs m (yQUG m) (l1QU m) (l2QUG dl m) x := by
  have hq0 : 0 < x.1 := by rw [hq]; positivity
  refine ⟨yQUG_diff hq0, l1QU_diff hq0.ne', l2QUG_diff hq0, ?_, ?_, ?_⟩
  · refine dirL_of (e := 0) (yQUG_diff hq0) fun s => ?_
    unfold yQUG Thr.dYtAsQUG
    have := (Real.sqrt_pos.2 hq0).ne'
    simp only [real_ofNat, real_ofInt, Himalaya.pow2]
    push_cast
    field_simp
    ring
  · refine dirL_of (e := 0) (l1QU_diff hq0.ne') fun s => ?_
    rw [l1QU_real, l1QU_real]; ring
  · rw [l1QU_flow hq0, l1QU_real]
    have h := dirL_of (l2QUG_diff (dl := dl) (m := m) hq0) (d := (-8) * ((-2) * m * x.2.2.1 * ((-24) * m ^ 2 * x.2.2.1 - 4 * m * x.2.2.1 ^ 2 + 24 * m ^ 3 + x.2.2.1 ^ 3)
        + 72 * x.2.2.2 * m ^ 5) / (3 * m ^ 5))
      (e := -96) fun s => by
        unfold l2QUG Thr.dLamAtAsQUG
        simp only [hq, Real.sqrt_sq hm.le]
        simp only [real_ofNat, real_ofInt, Himalaya.pow2, Misc.pow2, Misc.pow3, Misc.pow4, Misc.pow5, Misc.pow6, real_log]
        push_cast
        field_simp
        ring
    rw [h, hq]
    field_simp
    ring

theorem cs_qg {dl : ℝ → ℝ} (hT : ∀ y < 1, dl y = Li2.Li2 y) (hm : 0 < m) (hq : x.1 = m ^ 2) (hu : 0 < x.2.1) (hne : x.1 - x.2.1 ≠ 0) :
    Cs m (yQG m) (l1Gen m) (l2QG dl m) x := by
  have hq0 : 0 < x.1 := by rw [hq]; positivity
  refine ⟨yQG_diff hq0 hu hne, l1Gen_diff hq0.ne' hu.ne' hne, l2QG_diff hT hq0 hu hne, ?_, ?_, ?_⟩
  · refine dirL_of (e := 0) (yQG_diff hq0 hu hne) fun s => ?_
    unfold yQG Thr.dYtAsQG
    simp only [real_ofNat, real_ofInt]
    push_cast; ring
  · refine dirL_of (e := 0) (l1Gen_diff hq0.ne' hu.ne' hne) fun s => ?_
    rw [l1Gen_real, l1Gen_real]; ring
  · rw [l1Gen_flow hq0 hu hne, l1Gen_real]
    obtain ⟨q, u, X, L⟩ := x
    simp only at hq hu hne hq0 ⊢
    have h := dirL_of (l2QG_diff (m := m) (x := (q, u, X, L)) hT hq0 hu hne)
      (d := 4 * (-48 * L + 8 * (1 - m ^ 2 / u + 2 * X ^ 2 / u + 8 * m * X ^ 3 / (m ^ 2 - u) ^ 2 - (m ^ 2 + 7 * u) * X ^ 4 / (u * (m ^ 2 - u) ^ 2)
        - Real.log (u / m ^ 2) * (4 * m * X * (m ^ 2 - u) ^ 2 - 6 * (m ^ 2 - u) ^ 2 * X ^ 2 + 3 * (m ^ 2 - u) ^ 3 - 4 * m * u * X ^ 3
          - 4 * m ^ 3 * X ^ 3 + 5 * m ^ 2 * X ^ 4 + 3 * u * X ^ 4) / (m ^ 2 - u) ^ 3)))
      (e := -96) fun s => by
        unfold l2QG Thr.dLamAtAsQG
        simp only [hq, Real.sqrt_sq hm.le]
        have e : u = Real.sqrt u ^ 2 := (Real.sq_sqrt hu.le).symm
        have hs := (Real.sqrt_pos.2 hu).ne'
        generalize Real.sqrt u = U at *
        subst e
        simp only [real_ofNat, real_ofInt, Himalaya.pow2, Misc.pow2, Misc.pow3, Misc.pow4, Misc.pow5, Misc.pow6, real_log]
        push_cast
        have d2 : -(m ^ 2 * U) + U * U * U = - (U * (m ^ 2 - U ^ 2)) := by ring
        have d3 : m * m = m ^ 2 := by ring
        simp only [d2, d3]
        generalize dl _ = D
        generalize Real.log _ = la
        ring
    rw [h]
    subst hq
    have := hu.ne'
    generalize Real.log _ = la
    generalize hE : m ^ 2 - u = E at *
    field_simp
    subst hE
    ring

theorem cs_ug {dl : ℝ → ℝ} (hT : ∀ y < 1, dl y = Li2.Li2 y) (hm : 0 < m) (hu : x.2.1 = m ^ 2) (hq : 0 < x.1) (hne : x.1 - x.2.1 ≠ 0) :
    Cs m (yUG m) (l1Gen m) (l2UG dl m) x := by
  have hu0 : 0 < x.2.1 := by rw [hu]; positivity
  refine ⟨yUG_diff hq hu0 hne, l1Gen_diff hq.ne' hu0.ne' hne, l2UG_diff hT hq hu0 hne, ?_, ?_, ?_⟩
  · refine dirL_of (e := 0) (yUG_diff hq hu0 hne) fun s => ?_
    unfold yUG Thr.dYtAsUG
    simp only [real_ofNat, real_ofInt]
    push_cast; ring
  · refine dirL_of (e := 0) (l1Gen_diff hq.ne' hu0.ne' hne) fun s => ?_
    rw [l1Gen_real, l1Gen_real]; ring
  · rw [l1Gen_flow hq hu0 hne, l1Gen_real]
    obtain ⟨q, u, X, L⟩ := x
    simp only at hq hu hne hu0 ⊢
    subst hu
    have h := dirL_of (l2UG_diff (m := m) (x := (q, m ^ 2, X, L)) hT hq hu0 hne)
      (d := (-8) * ((q - m ^ 2) ^ 2 * (-4 * (m ^ 2 - X ^ 2) ^ 2 * m ^ 4 + q ^ 2 * (24 * m ^ 2 * X ^ 2 - 32 * m * X ^ 3 + (-24 + 72 * L) * m ^ 4 + 28 * X ^ 4)
          + q * m * (-24 * X ^ 2 * m ^ 3 + 32 * m ^ 2 * X ^ 3 - 24 * m * X ^ 4 + (16 - 24 * L) * m ^ 5) - (m ^ 2 * (-16 + 72 * L) + 8 * X ^ 2) * q ^ 3
          + (-4 + 24 * L) * q ^ 4) + (q - m ^ 2) * Real.log (m ^ 2 / q) * (q * m ^ 3 * (24 * X ^ 2 * m ^ 3 + 16 * m ^ 2 * X ^ 3 - 16 * X * m ^ 4
          - 20 * m * X ^ 4 + 12 * m ^ 5) + 2 * m * q ^ 2 * (-36 * X ^ 2 * m ^ 3 + 24 * X * m ^ 4 + 4 * m * X ^ 4 - 24 * m ^ 5)
          + (72 * m ^ 2 * X ^ 2 - 48 * X * m ^ 3 - 16 * m * X ^ 3 + 72 * m ^ 4 + 12 * X ^ 4) * q ^ 3 + 2 * (-24 * m ^ 2 + 8 * m * X - 12 * X ^ 2) * q ^ 4
          + 12 * q ^ 5)) / (q * (q - m ^ 2) ^ 5))
      (e := -96) fun s => by
        unfold l2UG Thr.dLamAtAsUG
        simp only [Real.sqrt_sq hm.le]
        have e : q = Real.sqrt q ^ 2 := (Real.sq_sqrt hq.le).symm
        have hs := (Real.sqrt_pos.2 hq).ne'
        generalize Real.sqrt q = Q at *
        subst e
        simp only [real_ofNat, real_ofInt, Himalaya.pow2, Misc.pow2, Misc.pow3, Misc.pow4, Misc.pow5, Misc.pow6, Misc.pow8, Misc.power10, real_log]
        push_cast
        have d3 : Q * Q = Q ^ 2 := by ring
        simp only [d3]
        generalize dl _ = D
        generalize Real.log _ = la
        generalize hE : Q ^ 2 - m ^ 2 = E at *
        field_simp
        subst hE
        ring
    rw [h]
    have := hq.ne'
    generalize Real.log _ = la
    generalize hE : q - m ^ 2 = E at *
    field_simp
    subst hE
    ring
end

end Himalaya.Scale
