import Verif.EFT.Units
import Verif.EFT.OmitLogs
import Verif.Calc.Props2
import Verif.PV.Model
import Verif.TLF.PhiProps1
import Verif.TLF.PhiProps2

/-!
# C73: the EFT calculation does not depend on the units of mass

If all dimensionful parameters are given in other units of mass (`Params.rescale l`: masses, trilinear couplings, vacuum expectation values and the
renormalization scale are multiplied by `l`, squared masses by `l^2`), the corrections to the squared Higgs mass are multiplied by `l^2` and the
threshold corrections, which are dimensionless, do not change.
-/

set_option linter.unusedSimpArgs false
set_option linter.unusedVariables false
set_option linter.unusedSectionVars false
set_option maxRecDepth 20000

namespace Himalaya.Units

open scoped Himalaya
open Kron Scale

/-! ### one-loop and two-loop functions -/

theorem b0xx_units {k : ℝ} (hk : 0 < k) (p m q : ℝ) : PV.b0xx (k * p) (k * m) (k * q) = PV.b0xx p m q := by
  unfold PV.b0xx
  simp only [abs_mul, abs_of_pos hk]
  generalize |p| = p; generalize |m| = m; generalize |q| = q
  unfold PV.b0xxAbs
  have d : ∀ x y : ℝ, k * x / (k * y) = x / y := fun x y => mul_div_mul_left _ _ hk.ne'
  have c1 : ∀ x y z : ℝ, k * x < z * (k * y) ↔ x < z * y := fun x y z => by rw [mul_left_comm]; exact mul_lt_mul_iff_right₀ hk
  have c2 : ∀ x y z : ℝ, k * x ≤ z * (k * y) ↔ x ≤ z * y := fun x y z => by rw [mul_left_comm]; exact mul_le_mul_iff_right₀ hk
  have c3 : ∀ x y z : ℝ, k * x * z < k * y ↔ x * z < y := fun x y z => by rw [mul_assoc]; exact mul_lt_mul_iff_right₀ hk
  have d2 : ∀ x y z : ℝ, z * (k * x) / (k * y) = z * x / y := fun x y z => by rw [mul_left_comm, d]
  have d3 : ∀ x y z : ℝ, k * x / (z * (k * y)) = x / (z * y) := fun x y z => by rw [mul_left_comm z, d]
  have d4 : ∀ x y z w : ℝ, k * x * w / (z * (k * y)) = x * w / (z * y) := fun x y z w => by rw [mul_left_comm z, mul_assoc k, d]
  simp only [d, c1, c2, c3, d2, d3, d4]

theorem sort_units {k : ℝ} (hk : 0 < k) (x y z : ℝ) : TLF.Phi.sort (k * x) (k * y) (k * z) =
    (k * (TLF.Phi.sort x y z).1, k * (TLF.Phi.sort x y z).2.1, k * (TLF.Phi.sort x y z).2.2) := by
  have c : ∀ a b : ℝ, k * a < k * b ↔ a < b := fun a b => mul_lt_mul_iff_right₀ hk
  unfold TLF.Phi.sort
  simp only [c]
  by_cases h1 : y < x <;> simp only [h1, if_true, if_false, c]
  · by_cases h2 : z < x <;> simp only [h2, if_true, if_false, c]
    · by_cases h3 : z < y <;> simp only [h3, if_true, if_false]
    · by_cases h3 : x < y <;> simp only [h3, if_true, if_false]
  · by_cases h2 : z < y <;> simp only [h2, if_true, if_false, c]
    · by_cases h3 : z < x <;> simp only [h3, if_true, if_false]
    · by_cases h3 : y < x <;> simp only [h3, if_true, if_false]

/-- `phi_xyz` has the dimension of a squared mass. -/
theorem phi_xyz_units {k : ℝ} (hk : 0 < k) (x y z : ℝ) : TLF.Phi.phi_xyz (k * x) (k * y) (k * z) = k * TLF.Phi.phi_xyz x y z := by
  unfold TLF.Phi.phi_xyz
  simp only [sort_units hk, mul_div_mul_left _ _ hk.ne']
  ring

/-! ### the threshold corrections -/

/-- the two-loop functions with absolute logarithms, `getDeltaLambdaYb4G32` and `getDeltaLambdaYtau6` -/
def absoluteLogs : List ThrOrder := [.LAMBDA_YB4_G32, .LAMBDA_YTAU6]
/-- the corrections with the function `phi_xyz` -/
def withPhi : List ThrOrder := [.LAMBDA_YT6, .LAMBDA_YB6, .LAMBDA_YT2_YB4, .LAMBDA_YT4_YB2, .LAMBDA_YTAU6]

section
variable {l : ℝ} (hl : 0 < l)
include hl

theorem u_thr (dl : ℝ → ℝ) (phi : ℝ → ℝ → ℝ → ℝ) (c : TcObj ℝ) (o : ThrOrder) (s : Scheme) (n : Int)
    (ho : (thrFns4 dl phi).other (rescaleT l c) o n = (thrFns4 dl phi).other c o n) :
    (rescaleT l c).thr (thrFns4 dl phi) o s n = c.thr (thrFns4 dl phi) o s n := by
  have y2 : ∀ c L n, (thrFns4 dl phi).ytAs2 c L n = c.dYtAs2 dl L n := fun _ _ _ => rfl
  have a2 : ∀ c L n, (thrFns4 dl phi).lamAtAs2 c L n = c.dLamAtAs2 dl L n := fun _ _ _ => rfl
  cases o <;> (try exact ho) <;>
    simp only [TcObj.thr, r_limit, u_dG3 hl, u_dYtAs hl, u_dLamAt hl, u_dLamAtAs hl, y2, a2, u_dYtAs2 hl, u_dLamAtAs2 hl]

end

/-- **C73.** No threshold correction which uses neither `phi_xyz` nor absolute logarithms depends on the units of mass, in any scheme and
with or without logarithms. -/
theorem C73_threshold (dl : ℝ → ℝ) (phi : ℝ → ℝ → ℝ → ℝ) {l : ℝ} (hl : 0 < l) (c : TcObj ℝ) (o : ThrOrder) (s : Scheme) (n : Int)
    (h1 : o ∉ absoluteLogs) (h2 : o ∉ withPhi) : (rescaleT l c).thr (thrFns4 dl phi) o s n = c.thr (thrFns4 dl phi) o s n := by
  apply u_thr hl
  cases o <;> first
    | exact absurd (.head _) h1
    | exact absurd (.tail _ (.head _)) h1
    | exact absurd (.head _) h2
    | exact absurd (.tail _ (.head _)) h2
    | exact absurd (.tail _ (.tail _ (.head _))) h2
    | exact absurd (.tail _ (.tail _ (.tail _ (.head _)))) h2
    | rfl
    | exact congrArg Except.ok (u_dLamYb2G12 hl c n)
    | exact congrArg Except.ok (u_dLamG14 hl c n)
    | exact congrArg Except.ok (u_dLamRegG14 hl c n)
    | exact congrArg Except.ok (u_dLamChiG14 hl c n)
    | exact congrArg Except.ok (u_dLamChiG24 hl c n)
    | exact congrArg Except.ok (u_dLamG24 hl c n)
    | exact congrArg Except.ok (u_dLamRegG24 hl c n)
    | exact congrArg Except.ok (u_dLamG12G22 hl c n)
    | exact congrArg Except.ok (u_dLamRegG12G22 hl c n)
    | exact congrArg Except.ok (u_dLamChiG12G22 hl c n)
    | exact congrArg Except.ok (u_dLamYb2G22 hl c n)
    | exact congrArg Except.ok (u_dLamYb4 hl c n)
    | exact congrArg Except.ok (u_dLamYt2G12 hl c n)
    | exact congrArg Except.ok (u_dLamYt2G22 hl c n)
    | exact congrArg Except.ok (u_dLamYtau2G12 hl c n)
    | exact congrArg Except.ok (u_dLamYtau2G22 hl c n)
    | exact congrArg Except.ok (u_dLamYtau4 hl c n)
    | exact congrArg Except.ok (u_dG1G1 hl c n)
    | exact congrArg Except.ok (u_dG2G2 hl c n)
    | exact congrArg Except.ok (u_dVevYt2 hl c c.limit)
    | exact congrArg Except.ok (u_dYtYb hl c n)
    | exact congrArg Except.ok (u_dYtYt hl c n)
    | exact congrArg Except.ok (u_dYtauYtau hl c n)
    | exact congrArg Except.ok (u_dYbYb hl c n)
    | exact congrArg Except.ok (u_dYbYt hl c n)
    | exact congrArg Except.ok (u_dYbAs hl c n)
    | exact congrArg Except.ok (u_dVevYb2 hl c)
    | exact congrArg Except.ok (u_dVevYtau2 hl c)
    | exact congrArg Except.ok (u_dYtauYb hl c n)
    | exact congrArg Except.ok (u_dLamYtau4Yb2 hl c n)
    | exact congrArg Except.ok (u_dLamYtau2Yb4 hl c n)

/-- **C73 (partial: the code calls `phi_xyz`, which has the dimension of a squared mass, see `C73_phi_violated`).** With a dimensionless function in the place of
`phi_xyz`, the corrections with this function do not depend on the units of mass either. -/
theorem C73_phi_partial (dl : ℝ → ℝ) (phi : ℝ → ℝ → ℝ → ℝ) {l : ℝ} (hl : 0 < l) (hphi : ∀ x y z, phi (l ^ 2 * x) (l ^ 2 * y) (l ^ 2 * z) = phi x y z)
    (c : TcObj ℝ) (o : ThrOrder) (s : Scheme) (n : Int) (h1 : o ∉ absoluteLogs) (h2 : o ∈ withPhi) (h : Sizable c.p) (h' : Sizable (c.p.rescale l)) :
    (rescaleT l c).thr (thrFns4 dl phi) o s n = c.thr (thrFns4 dl phi) o s n := by
  apply u_thr hl
  simp only [withPhi, absoluteLogs, List.mem_cons, List.not_mem_nil, or_false, not_or] at h1 h2
  rcases h2 with rfl | rfl | rfl | rfl | rfl
  · exact congrArg Except.ok (u_dLamYt6 hl dl hphi c n h h')
  · exact congrArg Except.ok (u_dLamYb6 hl dl hphi c n)
  · exact congrArg Except.ok (u_dLamYt2Yb4 hl dl hphi c n)
  · exact congrArg Except.ok (u_dLamYt4Yb2 hl dl hphi c n)
  · exact absurd rfl h1.2

/-! ### the corrections to the squared Higgs mass -/

/-- the EFT calculator at the parameter point given in other units of mass -/
noncomputable def rescaleE (l : ℝ) (c : EftCalc ℝ) : EftCalc ℝ := { c with p := c.p.rescale l }

theorem zeroIf_mul (b : Bool) (x y : ℝ) : zeroIf b (x * y) = x * zeroIf b y := by
  unfold zeroIf; cases b <;> simp [real_ofNat]
theorem discard_real (x : ℝ) : discardNaN x = x := by
  unfold discardNaN; simp [real_isNaN]
/-- indicator of a flag -/
noncomputable def ind (b : Bool) : ℝ := if b then 1 else 0
theorem zeroIf_ind (b : Bool) (x : ℝ) : zeroIf b x = ind b * x := by
  unfold zeroIf ind; cases b <;> simp [real_ofNat]
theorem map_bind {α β γ : Type} (e : Except String α) (f : α → Except String β) (g : β → γ) :
    Except.map g (e >>= f) = e >>= fun x => Except.map g (f x) := by cases e <;> rfl

section
variable {l : ℝ} (hl : 0 < l)
include hl
theorem r_divc (a x y : ℝ) : a * (l * x) / (l * y) = a * x / y := by rw [mul_left_comm, r_div hl]
theorem rE_p (c : EftCalc ℝ) : (rescaleE l c).p = c.p.rescale l := rfl
theorem rE_on (c : EftCalc ℝ) (o : Order) : (rescaleE l c).on o = c.on o := rfl
theorem r_Mt (p : Params ℝ) : (p.rescale l).Mt = l * p.Mt := rfl
theorem r_Mb (p : Params ℝ) : (p.rescale l).Mb = l * p.Mb := rfl
theorem r_Mtau (p : Params ℝ) : (p.rescale l).Mtau = l * p.Mtau := rfl
theorem r_MW (p : Params ℝ) : (p.rescale l).MW = l * p.MW := rfl
theorem r_MZ (p : Params ℝ) : (p.rescale l).MZ = l * p.MZ := rfl
theorem r_g1 (p : Params ℝ) : (p.rescale l).g1 = p.g1 := rfl
theorem r_g2 (p : Params ℝ) : (p.rescale l).g2 = p.g2 := rfl
theorem r_g3 (p : Params ℝ) : (p.rescale l).g3 = p.g3 := rfl
theorem r_sqc (x y : ℝ) : pow2 (x * (l * y)) = l ^ 2 * pow2 (x * y) := by simp only [pow2]; ring
theorem r_sq3 (x y z : ℝ) : pow2 (l * x * y * z) = l ^ 2 * pow2 (x * y * z) := by simp only [pow2]; ring
theorem r_sq2 (x y : ℝ) : pow2 (l * x * y) = l ^ 2 * pow2 (x * y) := by simp only [pow2]; ring

/-- **C73.** The tree-level term. -/
theorem C73_tree_level (c : EftCalc ℝ) : (rescaleE l c).loop0 = l ^ 2 * c.loop0 := by
  unfold EftCalc.loop0
  rw [rE_p hl, r_MZ hl, r_beta hl, mul_assoc, r_pow2 hl]

theorem u_loop1 (thr thr' : ThrOrder → Int → Except String ℝ) (c : EftCalc ℝ) (k n : Int) (h : ∀ o ∈ oneLoopThr, thr' o n = thr o n) :
    (rescaleE l c).loop1 thr' PV.b0xx k n = Except.map (l ^ 2 * ·) (c.loop1 thr PV.b0xx k n) := by
  simp only [oneLoopThr, List.mem_cons, List.not_mem_nil, or_false, forall_eq_or_imp, forall_eq] at h
  obtain ⟨h1, h2, h3, h4, h5, h6, h7, h8, h9, h10, h11, h12, h13, h14, h15, h16, h17, h18, h19, h20, h21, h22, h23⟩ := h
  have hb : ∀ x y z, PV.b0xx (l ^ 2 * x) (l ^ 2 * y) (l ^ 2 * z) = PV.b0xx x y z := b0xx_units (by positivity)
  have hb0 : ∀ x z, PV.b0xx (l ^ 2 * x) (@OfNat.ofNat ℝ 0 (FOps.instOfNat 0)) (l ^ 2 * z) = PV.b0xx x (@OfNat.ofNat ℝ 0 (FOps.instOfNat 0)) z := fun x z => by
    have := hb x 0 z
    simpa [real_ofNat] using this
  unfold EftCalc.loop1
  simp only [rE_p hl, rE_on hl, h1, h2, h3, h4, h5, h6, h7, h8, h9, h10, h11, h12, h13, h14, h15, h16, h17, h18, h19, h20, h21, h22, h23, map_bind]
  repeat' refine congrArg (Bind.bind _) (funext fun _ => ?_)
  refine congrArg Except.ok ?_
  simp only [r_Mt hl, r_Mb hl, r_Mtau hl, r_MW hl, r_MZ hl, r_g1 hl, r_g2 hl, r_scale, r_vu, r_vd, r_v2 hl, r_v hl, r_beta hl, r_sin hl, r_cos hl, r_div hl, r_divc hl,
    r_pow2 hl, r_sqc hl, r_sq2 hl, hb, hb0, discard_real, zeroIf_ind]
  ring

theorem u_loop3 (thr thr' : ThrOrder → Int → Except String ℝ) (c : EftCalc ℝ) (k n d : Int)
    (h : ∀ o ∈ [ThrOrder.YT_AS, .YT_AS2, .G3_AS, .LAMBDA_AT_AS2], thr' o n = thr o n) :
    (rescaleE l c).loop3 thr' k n d = Except.map (l ^ 2 * ·) (c.loop3 thr k n d) := by
  simp only [List.mem_cons, List.not_mem_nil, or_false, forall_eq_or_imp, forall_eq] at h
  obtain ⟨h1, h2, h3, h4⟩ := h
  unfold EftCalc.loop3
  simp only [rE_p hl, rE_on hl, h1, h2, h3, h4, map_bind]
  repeat' refine congrArg (Bind.bind _) (funext fun _ => ?_)
  refine congrArg Except.ok ?_
  simp only [r_Mt hl, r_g3 hl, r_scale, r_v2 hl, r_sqrt hl, r_div hl, r_divc hl, r_sq3 hl]
  ring

theorem u_loop2 (thr thr' : ThrOrder → Int → Except String ℝ) (c : EftCalc ℝ) (k n : Int)
    (h : ∀ o, o ∉ absoluteLogs → o ∉ withPhi → thr' o n = thr o n) (ha : c.on .G32YB4 = true → thr' .LAMBDA_YB4_G32 n = thr .LAMBDA_YB4_G32 n)
    (hb : c.on .YTAU6 = true → thr' .LAMBDA_YTAU6 n = thr .LAMBDA_YTAU6 n)
    (h6 : c.on .YT6 = true → thr' .LAMBDA_YT6 n = thr .LAMBDA_YT6 n) (h6b : c.on .YB6 = true → thr' .LAMBDA_YB6 n = thr .LAMBDA_YB6 n)
    (h24 : c.on .YT2YB4 = true → thr' .LAMBDA_YT2_YB4 n = thr .LAMBDA_YT2_YB4 n)
    (h42 : c.on .YB2YT4 = true → thr' .LAMBDA_YT4_YB2 n = thr .LAMBDA_YT4_YB2 n) :
    (rescaleE l c).loop2 thr' k n = Except.map (l ^ 2 * ·) (c.loop2 thr k n) := by
  have cc : ∀ b (e e' : Except String ℝ), (b = true → e' = e) → calcIf b e' = calcIf b e := fun b e e' h => by
    unfold calcIf; cases b
    · rfl
    · simp [h rfl]
  have g : ∀ o, o ∉ absoluteLogs → o ∉ withPhi → thr' o n = thr o n := h
  unfold EftCalc.loop2
  simp only [rE_p hl, rE_on hl, cc _ _ _ ha, cc _ _ _ hb, cc _ _ _ h6, cc _ _ _ h6b, cc _ _ _ h24, cc _ _ _ h42,
    h .YT_AS (by decide) (by decide), h .LAMBDA_YB4 (by decide) (by decide), h .LAMBDA_AT (by decide) (by decide),
    h .YT_YT (by decide) (by decide), h .VEV_YT2 (by decide) (by decide), h .YTAU_YTAU (by decide) (by decide), h .LAMBDA_YTAU4 (by decide) (by decide),
    h .YT_YB (by decide) (by decide), h .VEV_YTAU2 (by decide) (by decide), h .VEV_YB2 (by decide) (by decide), h .YTAU_YB (by decide) (by decide),
    h .LAMBDA_YTAU2_YB4 (by decide) (by decide), h .LAMBDA_YTAU4_YB2 (by decide) (by decide), h .YB_YT (by decide) (by decide),
    h .YB_AS (by decide) (by decide), h .YB_YB (by decide) (by decide), h .LAMBDA_AT_AS (by decide) (by decide), map_bind]
  repeat' refine congrArg (Bind.bind _) (funext fun _ => ?_)
  refine congrArg Except.ok ?_
  simp only [r_Mt hl, r_Mb hl, r_Mtau hl, r_g3 hl, r_scale, r_vu, r_vd, r_v2 hl, r_v hl, r_sin hl, r_cos hl, r_div hl, r_divc hl, r_sq3 hl, discard_real, zeroIf_ind]
  ring
end

/-- **C73.** The one-loop correction for all choices of the coupling orders, with or without logarithms. -/
theorem C73_one_loop (dl : ℝ → ℝ) (phi : ℝ → ℝ → ℝ → ℝ) {l : ℝ} (hl : 0 < l) (t : TcObj ℝ) (c : EftCalc ℝ) (k n : Int) :
    (rescaleE l c).loop1 (thrOf (thrFns4 dl phi) (rescaleT l t)) PV.b0xx k n = Except.map (l ^ 2 * ·) (c.loop1 (thrOf (thrFns4 dl phi) t) PV.b0xx k n) :=
  u_loop1 hl _ _ c k n fun o ho => C73_threshold dl phi hl t o _ n (by revert ho; revert o; decide) (by revert ho; revert o; decide)

/-- **C73.** The three-loop correction. -/
theorem C73_three_loop (dl : ℝ → ℝ) (phi : ℝ → ℝ → ℝ → ℝ) {l : ℝ} (hl : 0 < l) (t : TcObj ℝ) (c : EftCalc ℝ) (k n d : Int) :
    (rescaleE l c).loop3 (thrOf (thrFns4 dl phi) (rescaleT l t)) k n d = Except.map (l ^ 2 * ·) (c.loop3 (thrOf (thrFns4 dl phi) t) k n d) :=
  u_loop3 hl _ _ c k n d fun o ho => C73_threshold dl phi hl t o _ n (by revert ho; revert o; decide) (by revert ho; revert o; decide)

/-- **C73.** The two-loop correction, if the orders `yt^6`, `yb^6`, `yt^2 yb^4`, `yt^4 yb^2`, `yb^4 g3^2` and `ytau^6` are switched off. -/
theorem C73_two_loop (dl : ℝ → ℝ) (phi : ℝ → ℝ → ℝ → ℝ) {l : ℝ} (hl : 0 < l) (t : TcObj ℝ) (c : EftCalc ℝ) (k n : Int)
    (hc : ∀ o ∈ [Order.YT6, .YB6, .YT2YB4, .YB2YT4, .G32YB4, .YTAU6], c.on o = false) :
    (rescaleE l c).loop2 (thrOf (thrFns4 dl phi) (rescaleT l t)) k n = Except.map (l ^ 2 * ·) (c.loop2 (thrOf (thrFns4 dl phi) t) k n) := by
  simp only [List.mem_cons, List.not_mem_nil, or_false, forall_eq_or_imp, forall_eq] at hc
  obtain ⟨c1, c2, c3, c4, c5, c6⟩ := hc
  exact u_loop2 hl _ _ c k n (fun o h1 h2 => C73_threshold dl phi hl t o _ n h1 h2) (by simp [c5]) (by simp [c6]) (by simp [c1]) (by simp [c2]) (by simp [c3])
    (by simp [c4])

/-- **C73 (partial: for a dimensionless function in the place of `phi_xyz`, and without the orders `yb^4 g3^2` and `ytau^6`).** The two-loop correction with the other orders. -/
theorem C73_two_loop_partial (dl : ℝ → ℝ) (phi : ℝ → ℝ → ℝ → ℝ) {l : ℝ} (hl : 0 < l) (hphi : ∀ x y z, phi (l ^ 2 * x) (l ^ 2 * y) (l ^ 2 * z) = phi x y z)
    (t : TcObj ℝ) (h : Sizable t.p) (h' : Sizable (t.p.rescale l)) (c : EftCalc ℝ) (k n : Int) (c5 : c.on .G32YB4 = false) (c6 : c.on .YTAU6 = false) :
    (rescaleE l c).loop2 (thrOf (thrFns4 dl phi) (rescaleT l t)) k n = Except.map (l ^ 2 * ·) (c.loop2 (thrOf (thrFns4 dl phi) t) k n) := by
  have g : ∀ o, o ∈ withPhi → o ∉ absoluteLogs → thrOf (thrFns4 dl phi) (rescaleT l t) o n = thrOf (thrFns4 dl phi) t o n := fun o h2 h1 =>
    C73_phi_partial dl phi hl hphi t o _ n h1 h2 h h'
  exact u_loop2 hl _ _ c k n (fun o h1 h2 => C73_threshold dl phi hl t o _ n h1 h2) (by simp [c5]) (by simp [c6]) (fun _ => g _ (by decide) (by decide))
    (fun _ => g _ (by decide) (by decide)) (fun _ => g _ (by decide) (by decide)) (fun _ => g _ (by decide) (by decide))

/-! ### the choice of the limit -/

theorem rescaleT_shifted (l : ℝ) (c : TcObj ℝ) (x y z : ℝ) : rescaleT l (c.shifted x y z) = (rescaleT l c).shifted (l ^ 2 * x) (l * y) (l ^ 2 * z) := by
  unfold rescaleT TcObj.shifted Params.rescale
  simp only [TcObj.mk.injEq, Params.mk.injEq, true_and, and_true]
  funext i j
  unfold Mat3.set22
  dsimp only
  split_ifs <;> rfl

section
variable {l : ℝ} (hl : 0 < l)
include hl
theorem r_half (x y z : ℝ) : l * x + FOps.abs (l * y - l * x) / z = l * (x + FOps.abs (y - x) / z) := by
  rw [← mul_sub, r_abs hl]; ring
theorem u_tryLimit (dl : ℝ → ℝ) (phi : ℝ → ℝ → ℝ → ℝ) (c : TcObj ℝ) (q : ℝ) (L : Limit) (x y z : ℝ) :
    (rescaleT l c).tryLimit (thrFns4 dl phi) q L ((rescaleT l c).shifted (l ^ 2 * x) (l * y) (l ^ 2 * z)) =
      Except.map (rescaleT l) (c.tryLimit (thrFns4 dl phi) q L (c.shifted x y z)) := by
  have y2 : ∀ c L n, (thrFns4 dl phi).ytAs2 c L n = c.dYtAs2 dl L n := fun _ _ _ => rfl
  unfold TcObj.tryLimit
  rw [← rescaleT_shifted]
  simp only [y2, u_dYtAs2 hl, map_bind]
  repeat' refine congrArg (Bind.bind _) (funext fun _ => ?_)
  split_ifs <;> rfl

/-- **C73.** The threshold calculator chooses the same limit of equal masses. -/
theorem C73_select_limit (dl : ℝ → ℝ) (phi : ℝ → ℝ → ℝ → ℝ) (c : TcObj ℝ) :
    (rescaleT l c).selectLimit (thrFns4 dl phi) = Except.map (rescaleT l) (c.selectLimit (thrFns4 dl phi)) := by
  have hc : ∀ x y z : ℝ, FOps.lt (FOps.abs (l * x - l * y)) (l * z * FOps.lit (1 / 100)) = FOps.lt (FOps.abs (x - y)) (z * FOps.lit (1 / 100)) :=
    fun x y z => r_close hl x y z _
  unfold TcObj.selectLimit
  simp only [r_p, r_mq2, r_mu2, r_MG, r_msq2, r_sqrt hl, hc, r_v hl, r_Mt hl, r_g3 hl, r_half hl, r_pow2 hl]
  have e : ∀ x y z w : ℝ, x * y * (l * z) * w = l * (x * y * z * w) := fun x y z w => by ring
  simp only [e, r_div hl, u_tryLimit hl]
  split_ifs <;> rfl
end

/-! ### `phi_xyz` -/

open Yt6 in
/-- the terms with `phi` -/
noncomputable def phiTerms (phi : ℝ → ℝ → ℝ → ℝ) (a : Yt6.Arg ℝ) : ℝ := k3 phi a + k11 phi a + k16 phi a + k18 phi a

open Yt6 in
theorem formula_split (dl : ℝ → ℝ) (phi : ℝ → ℝ → ℝ → ℝ) (a : Yt6.Arg ℝ) (lA lQ lm L : ℝ) :
    Yt6.formula dl phi a lA lQ lm L = Yt6.formula dl (fun _ _ _ => 0) a lA lQ lm L + phiTerms phi a := by
  have z3 : k3 (fun _ _ _ => (0 : ℝ)) a = 0 := by unfold k3; simp
  have z11 : k11 (fun _ _ _ => (0 : ℝ)) a = 0 := by unfold k11; simp
  have z16 : k16 (fun _ _ _ => (0 : ℝ)) a = 0 := by unfold k16; simp
  have z18 : k18 (fun _ _ _ => (0 : ℝ)) a = 0 := by unfold k18; simp
  unfold Yt6.formula phiTerms
  rw [z3, z11, z16, z18]
  ring

/-- **C73.** How the correction of order `yt^6` depends on the units of mass: the terms with `phi_xyz` are multiplied by `l^2`. -/
theorem C73_yt6 (dl : ℝ → ℝ) {l : ℝ} (hl : 0 < l) (c : TcObj ℝ) (n : Int) (h : Sizable c.p) (h' : Sizable (c.p.rescale l)) :
    (rescaleT l c).dLamYt6 dl TLF.Phi.phi_xyz n =
      c.dLamYt6 dl (fun _ _ _ => 0) n + l ^ 2 * (c.dLamYt6 dl TLF.Phi.phi_xyz n - c.dLamYt6 dl (fun _ _ _ => 0) n) := by
  -- `psi`: the function divided by its first argument
  set psi : ℝ → ℝ → ℝ → ℝ := fun x y z => TLF.Phi.phi_xyz x y z / x with hpsi
  have l2 : 0 < l ^ 2 := by positivity
  have hd : ∀ x y z, psi (l ^ 2 * x) (l ^ 2 * y) (l ^ 2 * z) = psi x y z := fun x y z => by
    simp only [hpsi, phi_xyz_units l2, mul_div_mul_left _ _ l2.ne']
  have e0 := u_dLamYt6 hl dl (phi := fun _ _ _ => 0) (fun _ _ _ => rfl) c n h h'
  have e1 := u_dLamYt6 hl dl hd c n h h'
  have key : ∀ c : TcObj ℝ, Sizable c.p → c.dLamYt6 dl TLF.Phi.phi_xyz n - c.dLamYt6 dl (fun _ _ _ => 0) n =
      c.p.MA ^ 2 * (c.dLamYt6 dl psi n - c.dLamYt6 dl (fun _ _ _ => 0) n) := by
    intro c hs
    have hA : pow2 c.p.MA ≠ 0 := by
      have := hs.2.2
      have h2 : (0 : ℝ) < c.p.MA ^ 2 := _root_.lt_of_lt_of_le (by norm_num) this
      have e : pow2 c.p.MA = c.p.MA ^ 2 := by simp only [pow2]; ring
      rw [e]; exact h2.ne'
    unfold TcObj.dLamYt6
    dsimp only
    split_ifs
    · ring
    · rw [formula_split dl TLF.Phi.phi_xyz, formula_split dl psi]
      have : ∀ a : Yt6.Arg ℝ, a.mA2 ≠ 0 → phiTerms TLF.Phi.phi_xyz a = a.mA2 * phiTerms psi a := by
        intro a ha
        unfold phiTerms Yt6.k3 Yt6.k11 Yt6.k16 Yt6.k18
        have hp : ∀ y z, TLF.Phi.phi_xyz a.mA2 y z = a.mA2 * psi a.mA2 y z := fun y z => by
          simp only [hpsi]; field_simp
        simp only [hp]
        ring
      rw [this _ hA]
      have e : pow2 c.p.MA = c.p.MA ^ 2 := by simp only [pow2]; ring
      simp only [e]
      ring
  have k1 := key c h
  have k2 := key (rescaleT l c) h'
  rw [e0, e1] at k2
  have hm : (rescaleT l c).p.MA = l * c.p.MA := rfl
  rw [hm] at k2
  linear_combination k2 - l ^ 2 * k1

/-- parameter points with fixed masses of the stops and of the CP-odd Higgs boson -/
noncomputable def phiPoint (At mu : ℝ) : Params ℝ :=
  { examplePoint with
    mq2 := fun _ _ => 50 / 51, mu2 := fun _ _ => (2 + 1 / 10 ^ 15) ^ 2 * (50 / 49), MA := 1, vu := 1, vd := 1, Au := fun _ _ => At, mu := mu }
noncomputable def phiTc (At mu : ℝ) : TcObj ℝ := ⟨phiPoint At mu, 1, 6⟩

theorem phiPoint_sizable (At mu : ℝ) : Sizable (phiPoint At mu) := by
  refine ⟨?_, ?_, ?_⟩ <;> norm_num [phiPoint]

/-- the value of the squared mass of the right-handed stop for which `phi_xyz 1 1 x` is set to zero -/
noncomputable def bigU : ℝ := (2 + 1 / 10 ^ 15) ^ 2

theorem phi_values : TLF.Phi.phi_xyz 1 1 1 = -(3.51586085803418850) ∧ TLF.Phi.phi_xyz 1 bigU 1 = 0 ∧ TLF.Phi.phi_xyz 1 1 bigU = 0 := by
  have e : 10 * (1 / 2 ^ 52) = TLF.Phi.eps := rfl
  have h3 : TLF.Phi.phi_xyz 1 1 bigU = 0 := by
    refine TLF.Phi.C39_threshold le_rfl (by norm_num [bigU]) ?_
    rw [← e]; unfold TLF.Spec.lambda2 bigU; norm_num [abs_of_pos]
  refine ⟨?_, ?_, h3⟩
  · rw [TLF.Phi.phi_neg_unfold le_rfl le_rfl (by rw [← e]; norm_num [TLF.Spec.lambda2])]
    have : TLF.Phi.phi_neg (1 / 1) (1 / 1) = 2.343907238689459 := by
      unfold TLF.Phi.phi_neg
      rw [if_pos]
      unfold TLF.Phi.isEqual; rw [← e]; norm_num
    rw [this]; norm_num [TLF.Spec.lambda2]
  · have : TLF.Phi.phi_xyz 1 bigU 1 = TLF.Phi.phi_xyz 1 1 bigU := by
      have h : (1 : ℝ) < bigU := by norm_num [bigU]
      unfold TLF.Phi.phi_xyz TLF.Phi.sort
      simp [h, h.le, not_lt.2 h.le]
    rw [this, h3]

/-- the arguments of the formula at these points -/
noncomputable def phiArg (At mu cb : ℝ) : Yt6.Arg ℝ :=
  { mQ32 := 1, mU32 := bigU, mQ3 := 1, mU3 := 2 + 1 / 10 ^ 15, mA := 1, mA2 := 1, Mu := 0, Mu2 := 0, sbeta := cb, cbeta := cb, Xt := At - mu, Yt := At + mu
    Xt2 := pow2 (At - mu), Xt4 := pow2 (pow2 (At - mu)), Xt6 := 0 }

theorem phi_diff (dl : ℝ → ℝ) (At mu : ℝ) (n : Int) : ∃ cb : ℝ, cb * cb = 1 / 2 ∧
    (phiTc At mu).dLamYt6 dl TLF.Phi.phi_xyz n - (phiTc At mu).dLamYt6 dl (fun _ _ _ => 0) n =
    -3.51586085803418850 * Yt6.k11 (fun _ _ _ => 1) (phiArg At mu cb) + TLF.Phi.phi_xyz 1 bigU bigU * Yt6.k16 (fun _ _ _ => 1) (phiArg At mu cb) := by
  have hb : Misc.isEqualRel ((phiPoint At mu).mq2 2 2) ((phiPoint At mu).mu2 2 2) (FOps.lit (1 / 10)) = false := by
    rw [isEqualRel_big (phiPoint_sizable At mu).1 (phiPoint_sizable At mu).2.1]
    apply decide_eq_false
    norm_num [phiTc, phiPoint, abs_of_neg, abs_of_pos]
  replace hb : Misc.isEqualRel ((phiTc At mu).p.mq2 2 2) ((phiTc At mu).p.mu2 2 2) (FOps.lit (1 / 10)) = false := hb
  unfold TcObj.dLamYt6
  dsimp only
  rw [hb, Bool.false_and, if_neg (by simp), if_neg (by simp), formula_split dl TLF.Phi.phi_xyz, add_sub_cancel_left]
  have s1 : FOps.sqrt ((phiTc At mu).p.mq2 2 2 * FOps.lit (102 / 100)) = 1 := by
    show Real.sqrt _ = 1
    simp only [real_lit]; norm_num [phiTc, phiPoint]
  have m2 : (phiTc At mu).p.mu2 2 2 * FOps.lit (98 / 100) = bigU := by simp only [real_lit]; norm_num [phiTc, phiPoint, bigU]
  have s2 : FOps.sqrt ((phiTc At mu).p.mu2 2 2 * FOps.lit (98 / 100)) = 2 + 1 / 10 ^ 15 := by
    rw [m2]
    exact Real.sqrt_sq (by norm_num)
  rw [s1, s2]
  have hx : calcXt (phiTc At mu).p = At - mu := by
    unfold calcXt eftTanBeta; simp [phiTc, phiPoint]
  have hy : calcYt (phiTc At mu).p = At + mu := by
    unfold calcYt eftTanBeta; simp [phiTc, phiPoint]
  have hs : eftSinBeta (phiTc At mu).p = eftCosBeta (phiTc At mu).p := rfl
  have m1 : (phiTc At mu).p.mq2 2 2 * FOps.lit (102 / 100) = 1 := by simp only [real_lit]; norm_num [phiTc, phiPoint]
  have m3 : pow2 (phiTc At mu).p.MA = 1 := by simp [pow2, phiTc, phiPoint]
  have m4 : (phiTc At mu).p.MA = 1 := rfl
  have hc : eftCosBeta (phiTc At mu).p ^ 2 = 1 / 2 := by
    unfold eftCosBeta eftV eftV2
    rw [div_pow, show FOps.sqrt (pow2 (phiTc At mu).p.vu + pow2 (phiTc At mu).p.vd) = Real.sqrt 2 from by
      show Real.sqrt _ = _
      congr 1; simp [pow2, phiTc, phiPoint]; norm_num, Real.sq_sqrt (by norm_num)]
    simp [phiTc, phiPoint]
  refine ⟨eftCosBeta (phiTc At mu).p, by rw [← pow_two, hc], ?_⟩
  rw [hx, hy, hs, m1, m2, m3, m4]
  generalize eftCosBeta (phiTc At mu).p = cb at *
  unfold phiTerms Yt6.k3 Yt6.k11 Yt6.k16 Yt6.k18 phiArg
  dsimp only
  rw [phi_values.1, phi_values.2.1, phi_values.2.2]
  simp only [Misc.pow2, Misc.pow4, pow2]
  ring

theorem k11_value {cb : ℝ} (h : cb * cb = 1 / 2) : Yt6.k11 (fun _ _ _ => 1) (phiArg (1 / 2) (1 / 2) cb) = -18 := by
  unfold Yt6.k11 phiArg bigU Yt6.deltaxyz
  simp only [pow2, Misc.pow2, Misc.pow3, Misc.pow4, Misc.pow6, Misc.pow8, real_ofNat, h]
  norm_num

theorem k16_value {cb : ℝ} (h : cb * cb = 1 / 2) : Yt6.k16 (fun _ _ _ => 1) (phiArg (1 / 2) (1 / 2) cb) = -12 / bigU := by
  unfold Yt6.k16 phiArg bigU Yt6.deltaxyz
  simp only [pow2, Misc.pow2, Misc.pow3, Misc.pow4, Misc.pow6, Misc.pow8, real_ofNat, h]
  norm_num

theorem k_value2 {cb : ℝ} (h : cb * cb = 1 / 2) :
    -3 < Yt6.k11 (fun _ _ _ => 1) (phiArg (3 / 2) (1 / 2) cb) * 1 + 1 ∧ Yt6.k11 (fun _ _ _ => 1) (phiArg (3 / 2) (1 / 2) cb) < -3 := by
  unfold Yt6.k11 phiArg bigU Yt6.deltaxyz
  simp only [pow2, Misc.pow2, Misc.pow3, Misc.pow4, Misc.pow6, Misc.pow8, real_ofNat, h]
  constructor <;> norm_num

theorem k_value3 {cb : ℝ} (h : cb * cb = 1 / 2) : |Yt6.k16 (fun _ _ _ => 1) (phiArg (3 / 2) (1 / 2) cb)| < 1 / 1000 := by
  unfold Yt6.k16 phiArg bigU Yt6.deltaxyz
  simp only [pow2, Misc.pow2, Misc.pow3, Misc.pow4, Misc.pow6, Misc.pow8, real_ofNat, h]
  rw [abs_lt]
  constructor <;> norm_num

/-- **C73 (violated).** The correction of order `yt^6` depends on the units of mass: there is a parameter point for which it changes if the
unit of mass is divided by two. -/
theorem C73_phi_violated (dl : ℝ → ℝ) (s : Scheme) (n : Int) : ∃ At : ℝ,
    (rescaleT 2 (phiTc At (1 / 2))).thr (thrFns4 dl TLF.Phi.phi_xyz) .LAMBDA_YT6 s n ≠
      (phiTc At (1 / 2)).thr (thrFns4 dl TLF.Phi.phi_xyz) .LAMBDA_YT6 s n := by
  by_contra hcon
  push Not at hcon
  have sz : ∀ At, Sizable ((phiTc At (1 / 2)).p.rescale 2) := fun At => by
    refine ⟨?_, ?_, ?_⟩ <;> norm_num [phiTc, phiPoint, Params.rescale]
  have key : ∀ At, (phiTc At (1 / 2)).dLamYt6 dl TLF.Phi.phi_xyz n - (phiTc At (1 / 2)).dLamYt6 dl (fun _ _ _ => 0) n = 0 := fun At => by
    have h1 : (rescaleT 2 (phiTc At (1 / 2))).dLamYt6 dl TLF.Phi.phi_xyz n = (phiTc At (1 / 2)).dLamYt6 dl TLF.Phi.phi_xyz n := by
      exact Except.ok.inj (hcon At)
    have h2 := C73_yt6 dl (by norm_num : (0 : ℝ) < 2) (phiTc At (1 / 2)) n (phiPoint_sizable _ _) (sz At)
    rw [h1] at h2
    linarith
  obtain ⟨b1, hb1, e1⟩ := phi_diff dl (1 / 2) (1 / 2) n
  obtain ⟨b2, hb2, e2⟩ := phi_diff dl (3 / 2) (1 / 2) n
  rw [key, k11_value hb1, k16_value hb1] at e1
  rw [key] at e2
  have h3 := k_value2 hb2
  have h4 := k_value3 hb2
  generalize TLF.Phi.phi_xyz 1 bigU bigU = f at *
  generalize Yt6.k11 (fun _ _ _ => 1) (phiArg (3 / 2) (1 / 2) b2) = x at *
  generalize Yt6.k16 (fun _ _ _ => 1) (phiArg (3 / 2) (1 / 2) b2) = y at *
  have hU : bigU ≠ 0 := by norm_num [bigU]
  have hf : f = 3.51586085803418850 * 18 / 12 * bigU := by
    field_simp at e1; norm_num at e1 ⊢; linarith
  have hU' : 0 < bigU ∧ bigU < 5 := by norm_num [bigU]
  have hf' : |f| < 30 := by
    rw [hf, abs_of_pos (by norm_num; linarith)]; norm_num; linarith
  have h5 : |f * y| ≤ 30 * (1 / 1000) := by rw [abs_mul]; gcongr
  have h6 := neg_abs_le (f * y)
  norm_num at *
  linarith

/-! ### absolute logarithms -/

/-- a parameter point with equal masses of the left-handed and right-handed sbottoms and of the gluino, and without mixing -/
noncomputable def equalPoint : Params ℝ := { examplePoint with mq2 := fun _ _ => 1, md2 := fun _ _ => 1, MG := 1, Ad := fun _ _ => 0, mu := 0 }

theorem yb4g32_equal (dl : ℝ → ℝ) {l : ℝ} (hl : 0 < l) :
    (rescaleT l ⟨equalPoint, 1, 6⟩).dLamYb4G32 dl 0 = 128 * (Real.log l - Real.log l ^ 2) := by
  have h1 : FOps.sqrt (l ^ 2 * 1) = l := by
    show Real.sqrt _ = l
    rw [mul_one]; exact Real.sqrt_sq hl.le
  have h2 : FOps.sqrt (pow2 (l * 1)) = l := by
    show Real.sqrt _ = l
    rw [mul_one, show pow2 l = l ^ 2 by simp only [pow2]; ring]; exact Real.sqrt_sq hl.le
  have hx : calcXb (rescaleT l ⟨equalPoint, 1, 6⟩).p = 0 := by
    unfold calcXb; simp [rescaleT, Params.rescale, equalPoint]
  unfold TcObj.dLamYb4G32
  rw [hx]
  simp only [r_p, r_mq2, r_md2, r_MG]
  have q : equalPoint.mq2 2 2 = 1 := rfl
  have d : equalPoint.md2 2 2 = 1 := rfl
  have g : equalPoint.MG = 1 := rfl
  simp only [q, d, g, h1, h2]
  have c : FOps.lt (FOps.abs (l - l)) (FOps.lit (1 / 100) * l) = true := by
    simp [FOps.lt, FOps.abs, real_lit, hl]
  rw [c]
  simp only [Bool.and_true, if_true, pow2, Misc.pow2, Misc.pow3, Misc.pow4, real_ofNat, real_ofInt, real_log]
  push_cast
  field_simp
  ring

/-- **C73 (violated).** Without logarithms the correction of order `yb^4 g3^2` depends on the units of mass. -/
theorem C73_no_logs_violated (dl : ℝ → ℝ) (phi : ℝ → ℝ → ℝ → ℝ) (s : Scheme) :
    (rescaleT 2 ⟨equalPoint, 1, 6⟩).thr (thrFns4 dl phi) .LAMBDA_YB4_G32 s 0 ≠ (rescaleT 1 ⟨equalPoint, 1, 6⟩).thr (thrFns4 dl phi) .LAMBDA_YB4_G32 s 0 := by
  intro h
  have h' : (rescaleT 2 ⟨equalPoint, 1, 6⟩).dLamYb4G32 dl 0 = (rescaleT 1 ⟨equalPoint, 1, 6⟩).dLamYb4G32 dl 0 := Except.ok.inj h
  rw [yb4g32_equal dl (by norm_num), yb4g32_equal dl (by norm_num)] at h'
  have h1 := Real.log_two_lt_d9
  have h2 := Real.log_two_gt_d9
  rw [Real.log_one] at h'
  have : Real.log 2 * (1 - Real.log 2) = 0 := by linarith
  rcases mul_eq_zero.1 this with h | h <;> norm_num at h1 h2 <;> linarith

/-! ### the hypotheses can be met -/

example : (rescaleT 1000 (phiTc 1 2)).thr (thrFns4 (fun x => x) TLF.Phi.phi_xyz) .LAMBDA_AT_AS2 .DRBARPRIME 1 =
    (phiTc 1 2).thr (thrFns4 (fun x => x) TLF.Phi.phi_xyz) .LAMBDA_AT_AS2 .DRBARPRIME 1 :=
  C73_threshold _ _ (by norm_num) _ _ _ _ (by decide) (by decide)

/-- a dimensionless function -/
noncomputable def psiXyz (x y z : ℝ) : ℝ := TLF.Phi.phi_xyz x y z / z
theorem psi_units {l : ℝ} (hl : 0 < l) (x y z : ℝ) : psiXyz (l ^ 2 * x) (l ^ 2 * y) (l ^ 2 * z) = psiXyz x y z := by
  have l2 : 0 < l ^ 2 := by positivity
  simp only [psiXyz, phi_xyz_units l2, mul_div_mul_left _ _ l2.ne']

example : (rescaleT 1000 (phiTc 1 2)).thr (thrFns4 (fun x => x) psiXyz) .LAMBDA_YT6 .DRBARPRIME 1 =
    (phiTc 1 2).thr (thrFns4 (fun x => x) psiXyz) .LAMBDA_YT6 .DRBARPRIME 1 :=
  C73_phi_partial _ _ (by norm_num) (psi_units (by norm_num)) _ _ _ _ (by decide) (by decide) (phiPoint_sizable _ _)
    (by refine ⟨?_, ?_, ?_⟩ <;> norm_num [phiTc, phiPoint, Params.rescale])

end Himalaya.Units
