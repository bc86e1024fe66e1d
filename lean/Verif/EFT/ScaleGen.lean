import Verif.EFT.Scale

/-!
# Scale dependence: the general case
-/

set_option linter.unusedSimpArgs false
set_option linter.unusedVariables false
namespace Himalaya.Scale
open Filter Topology
open Himalaya.Cont

noncomputable def yGen (m : ℝ) (x : Pt) : ℝ := Thr.dYtAsGen (m ^ 2) x.1 x.2.1 m (Real.sqrt x.1) (Real.sqrt x.2.1) x.2.2.1 x.2.2.2
noncomputable def l1Gen (m : ℝ) (x : Pt) : ℝ := Thr.dLamAtGen (m ^ 2) x.1 x.2.1 m (Real.sqrt x.1) (Real.sqrt x.2.1) x.2.2.1 x.2.2.2
noncomputable def l2Gen (dl : ℝ → ℝ) (m : ℝ) (x : Pt) : ℝ := Thr.dLamAtAsGen dl (m ^ 2) x.1 x.2.1 m (Real.sqrt x.1) (Real.sqrt x.2.1) x.2.2.1 x.2.2.2

theorem l1Gen_real (m : ℝ) (x : Pt) : l1Gen m x = 12 * x.2.2.1 ^ 4 / (x.1 - x.2.1) ^ 2 + 12 * x.2.2.2 + (6 - 12 * x.2.2.1 ^ 2 / (x.1 - x.2.1) + 6 * (x.1 + x.2.1) / (x.1 - x.2.1) ^ 3 * x.2.2.1 ^ 4) * Real.log (x.2.1 / x.1) := by
  unfold l1Gen Thr.dLamAtGen
  simp only [real_ofNat, real_ofInt, Himalaya.pow2, Misc.pow2, Misc.pow3, Misc.pow4, real_log]
  push_cast; ring

theorem l1Gen_diff {m : ℝ} {x : Pt} (hq : x.1 ≠ 0) (hu : x.2.1 ≠ 0) (hne : x.1 - x.2.1 ≠ 0) : DifferentiableAt ℝ (l1Gen m) x := by
  have : l1Gen m = fun x => _ := funext (l1Gen_real m)
  rw [this]
  fun_prop (disch := first | assumption | positivity | simp [*])


macro "ddisch" : tactic => `(tactic| first | assumption | (simp only [mul_ne_zero_iff, div_ne_zero_iff, ne_eq, pow_eq_zero_iff, OfNat.ofNat_ne_zero, not_false_eq_true, and_self, *]; done) | (norm_num; done) | (norm_num at *; tauto))

theorem yGen_diff {m : ℝ} {x : Pt} (hm : m ≠ 0) (hq : 0 < x.1) (hu : 0 < x.2.1) (hne : x.1 - x.2.1 ≠ 0) (hmq : m ^ 2 - x.1 ≠ 0) (hmu : m ^ 2 - x.2.1 ≠ 0) : DifferentiableAt ℝ (yGen m) x := by
  have h1 : -m ^ 2 + x.1 ≠ 0 := by intro h; apply hmq; linarith
  have h2 : -x.1 + x.2.1 ≠ 0 := by intro h; apply hne; linarith
  have s1 : Real.sqrt x.1 ≠ 0 := (Real.sqrt_pos.2 hq).ne'
  have s2 : Real.sqrt x.2.1 ≠ 0 := (Real.sqrt_pos.2 hu).ne'
  have hq' := hq.ne'
  have hu' := hu.ne'
  clear hq hu
  unfold yGen Thr.dYtAsGen
  simp only [real_ofNat, real_ofInt, Himalaya.pow2, Misc.pow2, Misc.pow3, Misc.pow4, Misc.pow5, real_log]
  push_cast
  fun_prop (disch := ddisch)

section
variable {m : ℝ} {q u L lU la D1 D2 : Pt → ℝ} {x : Pt}

theorem c0_diff (hm : m ≠ 0) (hq : q x ≠ 0) (hu : u x ≠ 0) (hne : q x - u x ≠ 0) (hmq : m ^ 2 - q x ≠ 0) (hmq' : -m ^ 2 + q x ≠ 0) (hmu : m ^ 2 - u x ≠ 0)
    (dq : DifferentiableAt ℝ q x) (du : DifferentiableAt ℝ u x) (dL : DifferentiableAt ℝ L x) (dlU : DifferentiableAt ℝ lU x) (dla : DifferentiableAt ℝ la x)
    (dD1 : DifferentiableAt ℝ D1 x) (dD2 : DifferentiableAt ℝ D2 x) :
    DifferentiableAt ℝ (fun x => c0 m (q x) (u x) (L x) (lU x) (la x) (D1 x) (D2 x)) x := by
  unfold c0
  fun_prop (disch := ddisch)

theorem c1_diff (hm : m ≠ 0) (hq : q x ≠ 0) (hu : u x ≠ 0) (hne : q x - u x ≠ 0) (hmq : m ^ 2 - q x ≠ 0) (hmq' : -m ^ 2 + q x ≠ 0) (hmu : m ^ 2 - u x ≠ 0)
    (dq : DifferentiableAt ℝ q x) (du : DifferentiableAt ℝ u x) (dL : DifferentiableAt ℝ L x) (dlU : DifferentiableAt ℝ lU x) (dla : DifferentiableAt ℝ la x)
    (dD1 : DifferentiableAt ℝ D1 x) (dD2 : DifferentiableAt ℝ D2 x) :
    DifferentiableAt ℝ (fun x => c1 m (q x) (u x) (L x) (lU x) (la x) (D1 x) (D2 x)) x := by
  unfold c1
  fun_prop (disch := ddisch)

theorem c2_diff (hm : m ≠ 0) (hq : q x ≠ 0) (hu : u x ≠ 0) (hne : q x - u x ≠ 0) (hmq : m ^ 2 - q x ≠ 0) (hmq' : -m ^ 2 + q x ≠ 0) (hmu : m ^ 2 - u x ≠ 0)
    (dq : DifferentiableAt ℝ q x) (du : DifferentiableAt ℝ u x) (dL : DifferentiableAt ℝ L x) (dlU : DifferentiableAt ℝ lU x) (dla : DifferentiableAt ℝ la x)
    (dD1 : DifferentiableAt ℝ D1 x) (dD2 : DifferentiableAt ℝ D2 x) :
    DifferentiableAt ℝ (fun x => c2 m (q x) (u x) (L x) (lU x) (la x) (D1 x) (D2 x)) x := by
  unfold c2
  fun_prop (disch := ddisch)

theorem c3_diff (hm : m ≠ 0) (hq : q x ≠ 0) (hu : u x ≠ 0) (hne : q x - u x ≠ 0) (hmq : m ^ 2 - q x ≠ 0) (hmq' : -m ^ 2 + q x ≠ 0) (hmu : m ^ 2 - u x ≠ 0)
    (dq : DifferentiableAt ℝ q x) (du : DifferentiableAt ℝ u x) (dL : DifferentiableAt ℝ L x) (dlU : DifferentiableAt ℝ lU x) (dla : DifferentiableAt ℝ la x)
    (dD1 : DifferentiableAt ℝ D1 x) (dD2 : DifferentiableAt ℝ D2 x) :
    DifferentiableAt ℝ (fun x => c3 m (q x) (u x) (L x) (lU x) (la x) (D1 x) (D2 x)) x := by
  unfold c3
  fun_prop (disch := ddisch)

theorem c4_diff (hm : m ≠ 0) (hq : q x ≠ 0) (hu : u x ≠ 0) (hne : q x - u x ≠ 0) (hmq : m ^ 2 - q x ≠ 0) (hmq' : -m ^ 2 + q x ≠ 0) (hmu : m ^ 2 - u x ≠ 0)
    (dq : DifferentiableAt ℝ q x) (du : DifferentiableAt ℝ u x) (dL : DifferentiableAt ℝ L x) (dlU : DifferentiableAt ℝ lU x) (dla : DifferentiableAt ℝ la x)
    (dD1 : DifferentiableAt ℝ D1 x) (dD2 : DifferentiableAt ℝ D2 x) :
    DifferentiableAt ℝ (fun x => c4 m (q x) (u x) (L x) (lU x) (la x) (D1 x) (D2 x)) x := by
  unfold c4
  fun_prop (disch := ddisch)

theorem c5_diff (hm : m ≠ 0) (hq : q x ≠ 0) (hu : u x ≠ 0) (hne : q x - u x ≠ 0) (hmq : m ^ 2 - q x ≠ 0) (hmq' : -m ^ 2 + q x ≠ 0) (hmu : m ^ 2 - u x ≠ 0)
    (dq : DifferentiableAt ℝ q x) (du : DifferentiableAt ℝ u x) (dL : DifferentiableAt ℝ L x) (dlU : DifferentiableAt ℝ lU x) (dla : DifferentiableAt ℝ la x)
    (dD1 : DifferentiableAt ℝ D1 x) (dD2 : DifferentiableAt ℝ D2 x) :
    DifferentiableAt ℝ (fun x => c5 m (q x) (u x) (L x) (lU x) (la x) (D1 x) (D2 x)) x := by
  unfold c5
  fun_prop (disch := ddisch)
end

theorem pos_near {x : Pt} (hq : 0 < x.1) (hu : 0 < x.2.1) : ∀ᶠ z : Pt in 𝓝 x, 0 < z.1 ∧ 0 < z.2.1 := by
  have h1 : ∀ᶠ z : Pt in 𝓝 x, 0 < z.1 := (continuous_fst.continuousAt (x := x)).eventually (lt_mem_nhds hq)
  have h2 : ∀ᶠ z : Pt in 𝓝 x, 0 < z.2.1 :=
    ((continuous_fst.comp continuous_snd).continuousAt (x := x)).eventually (lt_mem_nhds hu)
  exact h1.and h2

theorem l2Gen_split (dl : ℝ → ℝ) (m : ℝ) {z : Pt} (h1 : 0 ≤ z.1) (h2 : 0 ≤ z.2.1) :
    l2Gen dl m z = lamX z.2.2.1 m z.1 z.2.1 z.2.2.2 (Real.log (z.2.1 / z.1)) (Real.log (m ^ 2 / z.1)) (dl (1 - m ^ 2 / z.1))
      (dl (1 - m ^ 2 / z.2.1)) := by
  have e := lam_split dl m (Real.sqrt z.1) (Real.sqrt z.2.1) z.2.2.1 z.2.2.2
  rw [Real.sq_sqrt h1, Real.sq_sqrt h2] at e
  exact e

theorem dl_diff {dl : ℝ → ℝ} (hT : ∀ y < 1, dl y = Li2.Li2 y) {m : ℝ} (hm : m ≠ 0) {q : Pt → ℝ} {x : Pt} (hq : 0 < q x)
    (dq : DifferentiableAt ℝ q x) : DifferentiableAt ℝ (fun z => dl (1 - m ^ 2 / q z)) x := by
  have hlt : (1 : ℝ) - m ^ 2 / q x < 1 := by have : 0 < m ^ 2 / q x := by positivity
                                             linarith
  have he : dl =ᶠ[𝓝 (1 - m ^ 2 / q x)] Li2.Li2 := by
    filter_upwards [gt_mem_nhds hlt] with y hy using hT y hy
  have hd : DifferentiableAt ℝ dl (1 - m ^ 2 / q x) :=
    ((hasDerivAt_Li2' hlt.ne).differentiableAt).congr_of_eventuallyEq he
  have hq' := hq.ne'
  exact hd.comp x (f := fun z => 1 - m ^ 2 / q z) (by fun_prop (disch := ddisch))

theorem l2Gen_diff {dl : ℝ → ℝ} (hT : ∀ y < 1, dl y = Li2.Li2 y) {m : ℝ} {x : Pt} (hm : m ≠ 0) (hq : 0 < x.1) (hu : 0 < x.2.1)
    (hne : x.1 - x.2.1 ≠ 0) (hmq : m ^ 2 - x.1 ≠ 0) (hmu : m ^ 2 - x.2.1 ≠ 0) : DifferentiableAt ℝ (l2Gen dl m) x := by
  have he : l2Gen dl m =ᶠ[𝓝 x] fun z => lamX z.2.2.1 m z.1 z.2.1 z.2.2.2 (Real.log (z.2.1 / z.1)) (Real.log (m ^ 2 / z.1)) (dl (1 - m ^ 2 / z.1))
      (dl (1 - m ^ 2 / z.2.1)) := by
    filter_upwards [pos_near hq hu] with z hz using l2Gen_split dl m hz.1.le hz.2.le
  refine DifferentiableAt.congr_of_eventuallyEq ?_ he
  have hq' := hq.ne'
  have hu' := hu.ne'
  have hmq' : -m ^ 2 + x.1 ≠ 0 := by intro h; apply hmq; linarith
  have dD1 : DifferentiableAt ℝ (fun z : Pt => dl (1 - m ^ 2 / z.1)) x := dl_diff hT hm hq (by fun_prop)
  have dD2 : DifferentiableAt ℝ (fun z : Pt => dl (1 - m ^ 2 / z.2.1)) x := dl_diff hT hm hu (by fun_prop)
  have dU : DifferentiableAt ℝ (fun z : Pt => Real.log (z.2.1 / z.1)) x := by fun_prop (disch := ddisch)
  have da : DifferentiableAt ℝ (fun z : Pt => Real.log (m ^ 2 / z.1)) x := by fun_prop (disch := ddisch)
  have dq : DifferentiableAt ℝ (fun z : Pt => z.1) x := by fun_prop
  have du : DifferentiableAt ℝ (fun z : Pt => z.2.1) x := by fun_prop
  have dX : DifferentiableAt ℝ (fun z : Pt => z.2.2.1) x := by fun_prop
  have dL : DifferentiableAt ℝ (fun z : Pt => z.2.2.2) x := by fun_prop
  unfold lamX
  have k0 := c0_diff hm hq' hu' hne hmq hmq' hmu dq du dL dU da dD1 dD2
  have k1 := c1_diff hm hq' hu' hne hmq hmq' hmu dq du dL dU da dD1 dD2
  have k2 := c2_diff hm hq' hu' hne hmq hmq' hmu dq du dL dU da dD1 dD2
  have k3 := c3_diff hm hq' hu' hne hmq hmq' hmu dq du dL dU da dD1 dD2
  have k4 := c4_diff hm hq' hu' hne hmq hmq' hmu dq du dL dU da dD1 dD2
  have k5 := c5_diff hm hq' hu' hne hmq hmq' hmu dq du dL dU da dD1 dD2
  exact ((((k0.add (dX.mul k1)).add ((dX.pow 2).mul k2)).add ((dX.pow 3).mul k3)).add ((dX.pow 4).mul k4)).add ((dX.pow 5).mul k5)

/-- the derivative of `lamX` with respect to `L` -/
noncomputable def lamK (X a q u L lU : ℝ) : ℝ :=
  (16 * (-12 * L + 2 * ((q - u) * (2 * q * u * ((-2) * q * u + q ^ 2 + u ^ 2) - a ^ 2 * (u * (u * u) - u * q ^ 2 + q * (-(u ^ 2)) + q ^ 3)) /
    (q * u) - lU * ((-9) * u * q ^ 2 + q * (9 * u ^ 2) + 3 * q ^ 3 - 3 * u ^ 3)) / (q - u) ^ 3)
    + X * (16 * (2 * (-(lU * (4 * a * q ^ 2 + 2 * (2 * a) * u ^ 2 + q * (4 * u * ((-2) * a))))) / (q - u) ^ 3))
    + X ^ 2 * (16 * (2 * ((q - u) * (-(a ^ 2 * (u * (u * (-1) + (-1) * u) - 2 * q ^ 2 + q * (4 *
    u)))) / (q * u) - lU * ((-6) * q ^ 2 + 2 * (-3) * u ^ 2 + q * (4 * u * 3))) / (q - u) ^ 3))
    + X ^ 3 * (16 * (2 * ((q - u) * (8 * a * q * u) / (q * u) - lU * (u * ((-4) * a) + q * ((-4) * a))) / (q - u) ^ 3))
    + X ^ 4 * (16 * (2 * ((q - u) * (2 * q * u * (-3) - a ^ 2 * (u * ((-1) * (-1)) + q)) / (q * u) - lU * (u * 3 + q * 3
    + 2 * a ^ 2)) / (q - u) ^ 3)))

theorem lamX_L (X a q u L lU la D1 D2 s : ℝ) :
    lamX X a q u (L + s) lU la D1 D2 = lamX X a q u L lU la D1 D2 + lamK X a q u L lU * s + (-96) * s ^ 2 := by
  unfold lamX lamK c0 c1 c2 c3 c4 c5
  ring

theorem l1Gen_flow {m : ℝ} {x : Pt} (hq : 0 < x.1) (hu : 0 < x.2.1) (hne : x.1 - x.2.1 ≠ 0) :
    fderiv ℝ (l1Gen m) x (flow m x) = 16 / 3 * m * (48 * x.2.2.1 ^ 3 / (x.1 - x.2.1) ^ 2
      + (-(24 * x.2.2.1) / (x.1 - x.2.1) + 24 * (x.1 + x.2.1) / (x.1 - x.2.1) ^ 3 * x.2.2.1 ^ 3) * Real.log (x.2.1 / x.1))
      - 16 / 3 * m ^ 2 * (12 / x.1 + 12 / (x.1 - x.2.1) ^ 3 * x.2.2.1 ^ 4 * Real.log (x.2.1 / x.1)
        + (6 - 12 * x.2.2.1 ^ 2 / (x.1 - x.2.1) + 6 * (x.1 + x.2.1) / (x.1 - x.2.1) ^ 3 * x.2.2.1 ^ 4) * (1 / x.2.1 - 1 / x.1)) := by
  obtain ⟨q, u, X, L⟩ := x
  simp only at hq hu hne
  refine dir_of (l1Gen_diff hq.ne' hu.ne' hne) ?_
  simp only [flow, l1Gen_real]
  have h0 : ∀ p w : ℝ, HasDerivAt (fun s : ℝ => p + s * w) w 0 := fun p w => by
    simpa using ((hasDerivAt_id (0:ℝ)).mul_const w).const_add p
  set A := -(16 / 3) * m ^ 2
  set B := 16 / 3 * m
  have e : ∀ s : ℝ, q + s * A - (u + s * A) = q - u := fun s => by ring
  simp only [e]
  have hX := h0 X B
  have hl : HasDerivAt (fun s : ℝ => Real.log ((u + s * A) / (q + s * A))) (A / u - A / q) 0 := by
    have := ((h0 u A).div (h0 q A) (by simpa using hq.ne')).log (by simp; exact ⟨hu.ne', hq.ne'⟩)
    refine HasDerivAt.congr_deriv this ?_
    simp
    field_simp
  have k := ((((hX.pow 4).const_mul 12).div_const ((q - u) ^ 2)).add ((h0 L (A / q)).const_mul 12)).add
    (((((((hX.pow 2).const_mul 12).div_const (q - u)).const_sub 6).add
      (((((h0 q A).add (h0 u A)).const_mul 6).div_const ((q - u) ^ 3)).mul (hX.pow 4)))).mul hl)
  refine HasDerivAt.congr_deriv k ?_
  simp only [Pi.pow_apply, Pi.add_apply, Pi.sub_apply, Pi.mul_apply, zero_mul, add_zero, Nat.cast_ofNat, show (4 - 1 : ℕ) = 3 from rfl, show (2 - 1 : ℕ) = 1 from rfl]
  field_simp
  simp only [A, B]
  ring

theorem cs_gen {dl : ℝ → ℝ} (hT : ∀ y < 1, dl y = Li2.Li2 y) {m : ℝ} {x : Pt} (hm : m ≠ 0) (hq : 0 < x.1) (hu : 0 < x.2.1)
    (hne : x.1 - x.2.1 ≠ 0) (hmq : m ^ 2 - x.1 ≠ 0) (hmu : m ^ 2 - x.2.1 ≠ 0) :
    Cs m (yGen m) (l1Gen m) (l2Gen dl m) x := by
  refine ⟨yGen_diff hm hq hu hne hmq hmu, l1Gen_diff hq.ne' hu.ne' hne, l2Gen_diff hT hm hq hu hne hmq hmu, ?_, ?_, ?_⟩
  · refine dirL_of (e := 0) (yGen_diff hm hq hu hne hmq hmu) fun s => ?_
    unfold yGen Thr.dYtAsGen
    simp only [real_ofNat, real_ofInt]
    push_cast; ring
  · refine dirL_of (e := 0) (l1Gen_diff hq.ne' hu.ne' hne) fun s => ?_
    rw [l1Gen_real, l1Gen_real]; ring
  · rw [l1Gen_flow hq hu hne, l1Gen_real]
    have h := dirL_of (l2Gen_diff hT hm hq hu hne hmq hmu) (d := lamK x.2.2.1 m x.1 x.2.1 x.2.2.2 (Real.log (x.2.1 / x.1))) (e := -96)
      fun s => by
        rw [l2Gen_split dl m (z := x) hq.le hu.le]
        exact (l2Gen_split dl m (z := (x.1, x.2.1, x.2.2.1, x.2.2.2 + s)) hq.le hu.le).trans (lamX_L _ _ _ _ _ _ _ _ _ s)
    rw [h]; unfold lamK
    obtain ⟨q, u, X, L⟩ := x
    simp only at hq hu hne ⊢
    have := hq.ne'
    have := hu.ne'
    generalize Real.log (u / q) = lU
    generalize hE : q - u = E at *
    field_simp
    subst hE
    ring

end Himalaya.Scale
