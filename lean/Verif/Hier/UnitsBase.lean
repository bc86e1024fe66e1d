import Verif.Hier.Spec
import Verif.Hier.Ctor
import Verif.Hier.Props

/-!
# The hierarchy classes at a parameter point

`selfEnergies` is what one pass through the loop of `calculateHierarchy` obtains from the class of the chosen hierarchy.
-/

set_option linter.unusedVariables false
set_option linter.unusedSimpArgs false

namespace Himalaya

open scoped Himalaya

/-- The results of the class of the hierarchy `ho.getSuitableHierarchy()` for the (s)fermion masses `M1`, `M2`:
HierarchyCalculator.cpp:536-800.  `xs` are the truncation flags the class has read. -/
noncomputable def selfEnergies (kc : HConst ℝ) (p : Params ℝ) (ho : HObj ℝ) (M1 M2 : ℝ) (xs : List Int) (mdr : Int)
    (fl : LoopFlags) : Except String (HierOut ℝ) :=
  match hierArgs p ho M1 M2 with
  | some args => classImpl kc Real.tan ho.getSuitableHierarchy xs args mdr fl
  | none => .error "no such hierarchy"

/-- All dimensionful parameters of the point in other units of mass. -/
noncomputable def Params.rescale (l : ℝ) (p : Params ℝ) : Params ℝ :=
  { p with
    scale := l * p.scale, mu := l * p.mu, vd := l * p.vd, vu := l * p.vu,
    mq2 := fun i j => l ^ 2 * p.mq2 i j, md2 := fun i j => l ^ 2 * p.md2 i j, mu2 := fun i j => l ^ 2 * p.mu2 i j,
    ml2 := fun i j => l ^ 2 * p.ml2 i j, me2 := fun i j => l ^ 2 * p.me2 i j,
    Au := fun i j => l * p.Au i j, Ad := fun i j => l * p.Ad i j, Ae := fun i j => l * p.Ae i j,
    M1 := l * p.M1, M2 := l * p.M2, MG := l * p.MG, MW := l * p.MW, MZ := l * p.MZ, Mt := l * p.Mt, Mb := l * p.Mb,
    Mtau := l * p.Mtau, MA := l * p.MA,
    MSt := ⟨l * p.MSt.x0, l * p.MSt.x1⟩, MSb := ⟨l * p.MSb.x0, l * p.MSb.x1⟩, MStau := ⟨l * p.MStau.x0, l * p.MStau.x1⟩ }

/-- The class of the hierarchy divides by none of these masses and angles if they do not vanish. -/
structure RegularPoint (p : Params ℝ) (M1 M2 : ℝ) : Prop where
  hM1 : M1 ≠ 0
  hM2 : M2 ≠ 0
  hMG : p.MG ≠ 0
  hMsq : calcMeanMsq p ≠ 0
  hsum : M1 + M2 + p.MG ≠ 0
  hvu : 0 < p.vu
  hvd : 0 < p.vd

/-! ### lemmas -/

theorem calcMeanMsq_rescale {l : ℝ} (hl : 0 < l) (p : Params ℝ) : calcMeanMsq (p.rescale l) = l * calcMeanMsq p := by
  have hb : calc_cos2beta (l * p.vu) (l * p.vd) = calc_cos2beta p.vu p.vd := by
    unfold calc_cos2beta calc_v2
    simp only [Misc.pow2, pow2]
    have e1 : l * p.vd * (l * p.vd) - l * p.vu * (l * p.vu) = l ^ 2 * (p.vd * p.vd - p.vu * p.vu) := by ring
    have e2 : l * p.vu * (l * p.vu) + l * p.vd * (l * p.vd) = l ^ 2 * (p.vu * p.vu + p.vd * p.vd) := by ring
    rw [e1, e2, mul_div_mul_left _ _ (by positivity)]
  have hw : calc_sw2 (l * p.MW) (l * p.MZ) = calc_sw2 p.MW p.MZ := by
    unfold calc_sw2 calc_cw2
    rw [mul_div_mul_left _ _ hl.ne']
  have h2 : calculateMsq2 (p.rescale l) = l ^ 2 * calculateMsq2 p := by
    unfold calculateMsq2
    dsimp only [Params.rescale]
    rw [hb, hw]
    generalize calc_sw2 p.MW p.MZ = w
    generalize calc_cos2beta p.vu p.vd = b
    have pw : ∀ x : ℝ, (l ^ 20 * x) ^ ((1 : ℝ) / 10) = l ^ 2 * x ^ ((1 : ℝ) / 10) := by
      intro x
      have hL : (l ^ 20) ^ ((1 : ℝ) / 10) = l ^ 2 := by
        rw [← Real.rpow_natCast, ← Real.rpow_mul hl.le, ← Real.rpow_natCast]; norm_num
      rcases lt_trichotomy x 0 with h | h | h
      · rw [Real.rpow_def_of_neg (mul_neg_of_pos_of_neg (by positivity) h), Real.rpow_def_of_neg h,
          Real.log_mul (by positivity) h.ne, add_mul, Real.exp_add, ← Real.rpow_def_of_pos (by positivity), hL]
        ring
      · subst h; simp
      · rw [Real.mul_rpow (by positivity) h.le, hL]
    show FOps.pow01 _ = l ^ 2 * FOps.pow01 _
    have pe : ∀ x : ℝ, FOps.pow01 x = x ^ ((1 : ℝ) / 10) := fun _ => rfl
    rw [pe, pe, ← pw]
    congr 1
    simp only [pow2, Misc.pow2, real_lit, real_ofNat]
    ring
  unfold calcMeanMsq
  rw [h2]
  simp only [real_sqrt, real_abs, abs_mul, abs_of_pos (pow_pos hl 2)]
  rw [Real.sqrt_mul (by positivity), Real.sqrt_sq hl.le]

/-- the powers of the unit of mass in the constructor parameters -/
def HParam.dim : HParam → ℕ
  | .At | .Dmglst1 | .Dmglst2 | .Dmsqst2 | .Mgl | .Mt | .Mst1 | .Mst2 | .Msq | .Msusy | .MuSUSY => 1
  | .Dmst12 | .Dmsqst1 => 2
  | .Al4p | .beta | .lmMt | .lmMst1 | .lmMst2 | .lmMsq | .lmMgl | .lmMsusy | .s2t => 0

theorem meaning_rescale {l : ℝ} (hl : 0 < l) (p : Params ℝ) (Mf M1 M2 Af s2f : ℝ) (P : HParam) :
    HParam.meaning (p.rescale l) (l * Mf) (l * M1) (l * M2) (l * Af) s2f P = l ^ P.dim * HParam.meaning p Mf M1 M2 Af s2f P := by
  have hq := calcMeanMsq_rescale hl p
  have r : ∀ a b : ℝ, l * a / (l * b) = a / b := fun a b => mul_div_mul_left _ _ hl.ne'
  have s3 : (l * M1 + l * M2 + l * p.MG) / 3 = l * ((M1 + M2 + p.MG) / 3) := by ring
  cases P <;> simp only [HParam.meaning, HParam.dim, hq, pow_one, pow_zero, one_mul] <;>
    (try simp only [Params.rescale, r]) <;> (try ring)
  · have e : l * M1 * 3⁻¹ + l * M2 * 3⁻¹ + l * p.MG * 3⁻¹ = l * (M1 * 3⁻¹ + M2 * 3⁻¹ + p.MG * 3⁻¹) := by ring
    have h3 : ((@OfNat.ofNat ℝ 3 (FOps.instOfNat 3))) = 3 := by simp
    simp only [h3] at *
    rw [e, mul_inv]
    congr 1
    have : l * l⁻¹ = 1 := mul_inv_cancel₀ hl.ne'
    linear_combination (p.scale ^ 2 * (M1 * 3⁻¹ + M2 * 3⁻¹ + p.MG * 3⁻¹)⁻¹ ^ 2 * (l * l⁻¹ + 1)) * this

theorem argOf_map (f : HParam → ℝ) (q : HParam) : ∀ ps : List HParam, argOf ps (ps.map f) q = if q ∈ ps then f q else 0
  | [] => by simp [argOf]
  | a :: ps => by
    have ih := argOf_map f q ps
    unfold argOf at ih ⊢
    simp only [List.map_cons, List.zip_cons_cons, List.find?_cons, List.mem_cons]
    by_cases h : a = q
    · subst h; simp
    · have h' : (a == q) = false := by simpa using h
      have h'' : ¬ q = a := fun e => h e.symm
      simp only [h', h'', false_or]
      exact ih

/-- The members of a class without the parameter `Dmsqst2` follow the unit of mass. -/
theorem classMem_rescale {l : ℝ} (k : Int) (ps : List HParam) (xs : List Int) (mdr : Int) (fl : LoopFlags)
    (f f' : HParam → ℝ) (hf : ∀ P, f' P = l ^ P.dim * f P) (hps : HParam.Dmsqst2 ∉ ps) :
    classMem Real.tan k ps xs (ps.map f') mdr fl = (classMem Real.tan k ps xs (ps.map f) mdr fl).rescale l := by
  have g : ∀ P n, P.dim = n → (if P ∈ ps then f' P else 0) = l ^ n * (if P ∈ ps then f P else 0) := by
    intro P n hn
    split
    · rw [hf, hn]
    · simp
  have g0 : ∀ P, P.dim = 0 → (if P ∈ ps then f' P else 0) = (if P ∈ ps then f P else 0) := by
    intro P hP; rw [g P 0 hP]; simp
  have g1 : ∀ P, P.dim = 1 → (if P ∈ ps then f' P else 0) = l * (if P ∈ ps then f P else 0) := by
    intro P hP; rw [g P 1 hP]; simp
  simp only [classMem, HMem.rescale, argOf_map]
  rw [g0 .Al4p rfl, g0 .beta rfl, g0 .lmMt rfl, g0 .lmMst1 rfl, g0 .lmMst2 rfl, g0 .lmMsq rfl, g0 .lmMgl rfl, g0 .lmMsusy rfl,
    g0 .s2t rfl, g1 .At rfl, g1 .Dmglst1 rfl, g1 .Dmglst2 rfl, g1 .Mgl rfl, g1 .Mt rfl, g1 .Mst1 rfl, g1 .Mst2 rfl, g1 .Msq rfl,
    g1 .Msusy rfl, g1 .MuSUSY rfl, g .Dmst12 2 rfl, g .Dmsqst1 2 rfl, if_neg hps, if_neg hps, mul_zero]

end Himalaya
