import Verif.FO.OneLoop
import Verif.PV.Units
import Verif.Calc.UnitsFO

/-!
# C78: the one-loop corrections to the mass matrix of the fixed-order calculation in other units of mass

One lemma for every sum of the code: each term keeps its power of the unit.
-/

set_option linter.unusedVariables false
set_option linter.unusedSimpArgs false
set_option linter.unusedTactic false
set_option linter.unreachableTactic false

namespace Himalaya

open scoped Himalaya Himalaya.FOps

/-- The spectrum in other units of mass: fermion masses have dimension 1, squared masses dimension 2, mixing matrices dimension 0. -/
noncomputable def Spec.rescale (l : ℝ) (s : Spec ℝ) : Spec ℝ :=
  let v (x : Vec2 ℝ) : Vec2 ℝ := ⟨l ^ 2 * x.x0, l ^ 2 * x.x1⟩
  { s with
    pars := s.pars.rescale l, MFt := l * s.MFt, MFb := l * s.MFb, MFtau := l * s.MFtau, MChi := fun i => l * s.MChi i,
    MCha := ⟨l * s.MCha.x0, l * s.MCha.x1⟩, M2VWm := l ^ 2 * s.M2VWm, M2VZ := l ^ 2 * s.M2VZ, M2SveL := l ^ 2 * s.M2SveL,
    M2SvmL := l ^ 2 * s.M2SvmL, M2SvtL := l ^ 2 * s.M2SvtL, M2Su := v s.M2Su, M2Sd := v s.M2Sd, M2Sc := v s.M2Sc, M2Ss := v s.M2Ss,
    M2St := v s.M2St, M2Sb := v s.M2Sb, M2Se := v s.M2Se, M2Sm := v s.M2Sm, M2Stau := v s.M2Stau, M2hh := v s.M2hh, M2Ah := v s.M2Ah,
    M2Hpm := v s.M2Hpm }

/-- The loop integrals `L'` in the new units are the loop integrals `L` in the old units. -/
structure UnitLoops (l : ℝ) (L L' : LoopFns ℝ) : Prop where
  A0 : ∀ x, L'.A0 (l ^ 2 * x) = l ^ 2 * L.A0 x
  B0 : ∀ p x y, L'.B0 (l ^ 2 * p) (l ^ 2 * x) (l ^ 2 * y) = L.B0 p x y
  D1B0 : ∀ x y, l ^ 2 * L'.D1B0 (l ^ 2 * x) (l ^ 2 * y) = L.D1B0 x y

namespace UnitsOL

variable {l : ℝ} {L L' : LoopFns ℝ}

theorem v_at (x : Vec2 ℝ) (c : ℝ) (i : Fin 2) : Vec2.at ⟨c * x.x0, c * x.x1⟩ i = c * x.at i := by unfold Vec2.at; split <;> rfl

theorem mul_sum2 (c : ℝ) (f : Fin 2 → ℝ) : sum2 (fun i => c * f i) = c * sum2 f := by unfold sum2; simp only [real_ofNat]; push_cast; ring
theorem mul_sum4 (c : ℝ) (f : Fin 4 → ℝ) : sum4 (fun i => c * f i) = c * sum4 f := by unfold sum4; simp only [real_ofNat]; push_cast; ring

theorem u_pow2 (x : ℝ) : pow2 (l * x) = l ^ 2 * pow2 x := by simp only [pow2]; ring

theorem B00 (H : UnitLoops l L L') (x y : ℝ) : L'.B0 0 (l ^ 2 * x) (l ^ 2 * y) = L.B0 0 x y := by
  have := H.B0 0 x y
  rwa [mul_zero] at this

theorem D1 (hl : l ≠ 0) (H : UnitLoops l L L') (x y : ℝ) : L'.D1B0 (l ^ 2 * x) (l ^ 2 * y) = L.D1B0 x y / l ^ 2 := by
  rw [← H.D1B0]; field_simp

theorem acc_map (c : ℝ) (xs : List ℝ) : accumulate (xs.map (c * ·)) = c * accumulate xs := by
  have : ∀ (xs : List ℝ) (a : ℝ), (xs.map (c * ·)).foldl (fun a b => a + b) (c * a) = c * xs.foldl (fun a b => a + b) a := by
    intro xs
    induction xs with
    | nil => intro a; rfl
    | cons x xs ih =>
      intro a
      simp only [List.map_cons, List.foldl_cons]
      rw [← mul_add, ih]
  unfold accumulate
  have h := this xs 0
  simp only [real_ofNat]
  push_cast
  rwa [mul_zero] at h

/-- terms of the self energies: all dimensionful quantities are multiplied by powers of `l` -/
macro "units" hl:ident H:ident : tactic => `(tactic| (
  simp only [Spec.rescale, Params.rescale, v_at, u_pow2, UnitLoops.A0 $H, UnitLoops.B0 $H, B00 $H, D1 $hl $H, ← mul_sum2, ← mul_sum4, real_ofNat, Nat.cast_zero]
  repeat' first
    | (refine congrArg sum2 (funext fun _ => ?_))
    | (refine congrArg sum4 (funext fun _ => ?_))
  try simp only [fpow4, pow2]
  all_goals first
    | (ring; done)
    | (field_simp; done)
    | (field_simp; ring; done)
    | (simp only [sum2, sum4, real_ofNat, Nat.cast_zero, zero_add]; field_simp; done)
    | (simp only [sum2, sum4, real_ofNat, Nat.cast_zero, zero_add]; field_simp; ring; done)))

theorem full11_0_u (hl : l ≠ 0) (H : UnitLoops l L L') (s : Spec ℝ) (p : Params ℝ) (q : ℝ) :
    full11_0 L' (s.rescale l) (p.rescale l) (l ^ 2 * q) = l ^ 2 * full11_0 L s p q := by
  unfold full11_0
  units hl H

theorem full11_1_u (hl : l ≠ 0) (H : UnitLoops l L L') (s : Spec ℝ) (p : Params ℝ) (q : ℝ) :
    full11_1 L' (s.rescale l) (p.rescale l) (l ^ 2 * q) = l ^ 2 * full11_1 L s p q := by
  unfold full11_1
  units hl H

theorem full11_2_u (hl : l ≠ 0) (H : UnitLoops l L L') (s : Spec ℝ) (p : Params ℝ) (q : ℝ) :
    full11_2 L' (s.rescale l) (p.rescale l) (l ^ 2 * q) = l ^ 2 * full11_2 L s p q := by
  unfold full11_2
  units hl H

theorem full11_3_u (hl : l ≠ 0) (H : UnitLoops l L L') (s : Spec ℝ) (p : Params ℝ) (q : ℝ) :
    full11_3 L' (s.rescale l) (p.rescale l) (l ^ 2 * q) = l ^ 2 * full11_3 L s p q := by
  unfold full11_3
  units hl H

theorem full11_4_u (hl : l ≠ 0) (H : UnitLoops l L L') (s : Spec ℝ) (p : Params ℝ) (q : ℝ) :
    full11_4 L' (s.rescale l) (p.rescale l) (l ^ 2 * q) = l ^ 2 * full11_4 L s p q := by
  unfold full11_4
  units hl H

theorem full11_5_u (hl : l ≠ 0) (H : UnitLoops l L L') (s : Spec ℝ) (p : Params ℝ) (q : ℝ) :
    full11_5 L' (s.rescale l) (p.rescale l) (l ^ 2 * q) = l ^ 2 * full11_5 L s p q := by
  unfold full11_5
  units hl H

theorem full11_6_u (hl : l ≠ 0) (H : UnitLoops l L L') (s : Spec ℝ) (p : Params ℝ) (q : ℝ) :
    full11_6 L' (s.rescale l) (p.rescale l) (l ^ 2 * q) = l ^ 2 * full11_6 L s p q := by
  unfold full11_6
  units hl H

theorem full11_7_u (hl : l ≠ 0) (H : UnitLoops l L L') (s : Spec ℝ) (p : Params ℝ) (q : ℝ) :
    full11_7 L' (s.rescale l) (p.rescale l) (l ^ 2 * q) = l ^ 2 * full11_7 L s p q := by
  unfold full11_7
  units hl H

theorem full11_8_u (hl : l ≠ 0) (H : UnitLoops l L L') (s : Spec ℝ) (p : Params ℝ) (q : ℝ) :
    full11_8 L' (s.rescale l) (p.rescale l) (l ^ 2 * q) = l ^ 2 * full11_8 L s p q := by
  unfold full11_8
  units hl H

theorem full11_9_u (hl : l ≠ 0) (H : UnitLoops l L L') (s : Spec ℝ) (p : Params ℝ) (q : ℝ) :
    full11_9 L' (s.rescale l) (p.rescale l) (l ^ 2 * q) = l ^ 2 * full11_9 L s p q := by
  unfold full11_9
  units hl H

theorem full11_10_u (hl : l ≠ 0) (H : UnitLoops l L L') (s : Spec ℝ) (p : Params ℝ) (q : ℝ) :
    full11_10 L' (s.rescale l) (p.rescale l) (l ^ 2 * q) = l ^ 2 * full11_10 L s p q := by
  unfold full11_10
  units hl H

theorem full11_11_u (hl : l ≠ 0) (H : UnitLoops l L L') (s : Spec ℝ) (p : Params ℝ) (q : ℝ) :
    full11_11 L' (s.rescale l) (p.rescale l) (l ^ 2 * q) = l ^ 2 * full11_11 L s p q := by
  unfold full11_11
  units hl H

theorem full11_12_u (hl : l ≠ 0) (H : UnitLoops l L L') (s : Spec ℝ) (p : Params ℝ) (q : ℝ) :
    full11_12 L' (s.rescale l) (p.rescale l) (l ^ 2 * q) = l ^ 2 * full11_12 L s p q := by
  unfold full11_12
  units hl H

theorem full11_13_u (hl : l ≠ 0) (H : UnitLoops l L L') (s : Spec ℝ) (p : Params ℝ) (q : ℝ) :
    full11_13 L' (s.rescale l) (p.rescale l) (l ^ 2 * q) = l ^ 2 * full11_13 L s p q := by
  unfold full11_13
  units hl H

theorem full11_14_u (hl : l ≠ 0) (H : UnitLoops l L L') (s : Spec ℝ) (p : Params ℝ) (q : ℝ) :
    full11_14 L' (s.rescale l) (p.rescale l) (l ^ 2 * q) = l ^ 2 * full11_14 L s p q := by
  unfold full11_14
  units hl H

theorem full11_15_u (hl : l ≠ 0) (H : UnitLoops l L L') (s : Spec ℝ) (p : Params ℝ) (q : ℝ) :
    full11_15 L' (s.rescale l) (p.rescale l) (l ^ 2 * q) = l ^ 2 * full11_15 L s p q := by
  unfold full11_15
  units hl H

theorem full11_16_u (hl : l ≠ 0) (H : UnitLoops l L L') (s : Spec ℝ) (p : Params ℝ) (q : ℝ) :
    full11_16 L' (s.rescale l) (p.rescale l) (l ^ 2 * q) = l ^ 2 * full11_16 L s p q := by
  unfold full11_16
  units hl H

theorem full11_17_u (hl : l ≠ 0) (H : UnitLoops l L L') (s : Spec ℝ) (p : Params ℝ) (q : ℝ) :
    full11_17 L' (s.rescale l) (p.rescale l) (l ^ 2 * q) = l ^ 2 * full11_17 L s p q := by
  unfold full11_17
  units hl H

theorem full11_18_u (hl : l ≠ 0) (H : UnitLoops l L L') (s : Spec ℝ) (p : Params ℝ) (q : ℝ) :
    full11_18 L' (s.rescale l) (p.rescale l) (l ^ 2 * q) = l ^ 2 * full11_18 L s p q := by
  unfold full11_18
  units hl H

theorem full11_19_u (hl : l ≠ 0) (H : UnitLoops l L L') (s : Spec ℝ) (p : Params ℝ) (q : ℝ) :
    full11_19 L' (s.rescale l) (p.rescale l) (l ^ 2 * q) = l ^ 2 * full11_19 L s p q := by
  unfold full11_19
  units hl H

theorem full11_20_u (hl : l ≠ 0) (H : UnitLoops l L L') (s : Spec ℝ) (p : Params ℝ) (q : ℝ) :
    full11_20 L' (s.rescale l) (p.rescale l) (l ^ 2 * q) = l ^ 2 * full11_20 L s p q := by
  unfold full11_20
  units hl H

theorem full11_21_u (hl : l ≠ 0) (H : UnitLoops l L L') (s : Spec ℝ) (p : Params ℝ) (q : ℝ) :
    full11_21 L' (s.rescale l) (p.rescale l) (l ^ 2 * q) = l ^ 2 * full11_21 L s p q := by
  unfold full11_21
  units hl H

theorem full11_22_u (hl : l ≠ 0) (H : UnitLoops l L L') (s : Spec ℝ) (p : Params ℝ) (q : ℝ) :
    full11_22 L' (s.rescale l) (p.rescale l) (l ^ 2 * q) = l ^ 2 * full11_22 L s p q := by
  unfold full11_22
  units hl H

theorem full11_23_u (hl : l ≠ 0) (H : UnitLoops l L L') (s : Spec ℝ) (p : Params ℝ) (q : ℝ) :
    full11_23 L' (s.rescale l) (p.rescale l) (l ^ 2 * q) = l ^ 2 * full11_23 L s p q := by
  unfold full11_23
  units hl H

theorem full11_24_u (hl : l ≠ 0) (H : UnitLoops l L L') (s : Spec ℝ) (p : Params ℝ) (q : ℝ) :
    full11_24 L' (s.rescale l) (p.rescale l) (l ^ 2 * q) = l ^ 2 * full11_24 L s p q := by
  unfold full11_24
  units hl H

theorem full12_0_u (hl : l ≠ 0) (H : UnitLoops l L L') (s : Spec ℝ) (p : Params ℝ) (q : ℝ) :
    full12_0 L' (s.rescale l) (p.rescale l) (l ^ 2 * q) = l ^ 2 * full12_0 L s p q := by
  unfold full12_0
  units hl H

theorem full12_1_u (hl : l ≠ 0) (H : UnitLoops l L L') (s : Spec ℝ) (p : Params ℝ) (q : ℝ) :
    full12_1 L' (s.rescale l) (p.rescale l) (l ^ 2 * q) = l ^ 2 * full12_1 L s p q := by
  unfold full12_1
  units hl H

theorem full12_2_u (hl : l ≠ 0) (H : UnitLoops l L L') (s : Spec ℝ) (p : Params ℝ) (q : ℝ) :
    full12_2 L' (s.rescale l) (p.rescale l) (l ^ 2 * q) = l ^ 2 * full12_2 L s p q := by
  unfold full12_2
  units hl H

theorem full12_3_u (hl : l ≠ 0) (H : UnitLoops l L L') (s : Spec ℝ) (p : Params ℝ) (q : ℝ) :
    full12_3 L' (s.rescale l) (p.rescale l) (l ^ 2 * q) = l ^ 2 * full12_3 L s p q := by
  unfold full12_3
  units hl H

theorem full12_4_u (hl : l ≠ 0) (H : UnitLoops l L L') (s : Spec ℝ) (p : Params ℝ) (q : ℝ) :
    full12_4 L' (s.rescale l) (p.rescale l) (l ^ 2 * q) = l ^ 2 * full12_4 L s p q := by
  unfold full12_4
  units hl H

theorem full12_5_u (hl : l ≠ 0) (H : UnitLoops l L L') (s : Spec ℝ) (p : Params ℝ) (q : ℝ) :
    full12_5 L' (s.rescale l) (p.rescale l) (l ^ 2 * q) = l ^ 2 * full12_5 L s p q := by
  unfold full12_5
  units hl H

theorem full12_6_u (hl : l ≠ 0) (H : UnitLoops l L L') (s : Spec ℝ) (p : Params ℝ) (q : ℝ) :
    full12_6 L' (s.rescale l) (p.rescale l) (l ^ 2 * q) = l ^ 2 * full12_6 L s p q := by
  unfold full12_6
  units hl H

theorem full12_7_u (hl : l ≠ 0) (H : UnitLoops l L L') (s : Spec ℝ) (p : Params ℝ) (q : ℝ) :
    full12_7 L' (s.rescale l) (p.rescale l) (l ^ 2 * q) = l ^ 2 * full12_7 L s p q := by
  unfold full12_7
  units hl H

theorem full12_8_u (hl : l ≠ 0) (H : UnitLoops l L L') (s : Spec ℝ) (p : Params ℝ) (q : ℝ) :
    full12_8 L' (s.rescale l) (p.rescale l) (l ^ 2 * q) = l ^ 2 * full12_8 L s p q := by
  unfold full12_8
  units hl H

theorem full12_9_u (hl : l ≠ 0) (H : UnitLoops l L L') (s : Spec ℝ) (p : Params ℝ) (q : ℝ) :
    full12_9 L' (s.rescale l) (p.rescale l) (l ^ 2 * q) = l ^ 2 * full12_9 L s p q := by
  unfold full12_9
  units hl H

theorem full12_10_u (hl : l ≠ 0) (H : UnitLoops l L L') (s : Spec ℝ) (p : Params ℝ) (q : ℝ) :
    full12_10 L' (s.rescale l) (p.rescale l) (l ^ 2 * q) = l ^ 2 * full12_10 L s p q := by
  unfold full12_10
  units hl H

theorem full12_11_u (hl : l ≠ 0) (H : UnitLoops l L L') (s : Spec ℝ) (p : Params ℝ) (q : ℝ) :
    full12_11 L' (s.rescale l) (p.rescale l) (l ^ 2 * q) = l ^ 2 * full12_11 L s p q := by
  unfold full12_11
  units hl H

theorem full12_12_u (hl : l ≠ 0) (H : UnitLoops l L L') (s : Spec ℝ) (p : Params ℝ) (q : ℝ) :
    full12_12 L' (s.rescale l) (p.rescale l) (l ^ 2 * q) = l ^ 2 * full12_12 L s p q := by
  unfold full12_12
  units hl H

theorem full12_13_u (hl : l ≠ 0) (H : UnitLoops l L L') (s : Spec ℝ) (p : Params ℝ) (q : ℝ) :
    full12_13 L' (s.rescale l) (p.rescale l) (l ^ 2 * q) = l ^ 2 * full12_13 L s p q := by
  unfold full12_13
  units hl H

theorem full12_14_u (hl : l ≠ 0) (H : UnitLoops l L L') (s : Spec ℝ) (p : Params ℝ) (q : ℝ) :
    full12_14 L' (s.rescale l) (p.rescale l) (l ^ 2 * q) = l ^ 2 * full12_14 L s p q := by
  unfold full12_14
  units hl H

theorem full12_15_u (hl : l ≠ 0) (H : UnitLoops l L L') (s : Spec ℝ) (p : Params ℝ) (q : ℝ) :
    full12_15 L' (s.rescale l) (p.rescale l) (l ^ 2 * q) = l ^ 2 * full12_15 L s p q := by
  unfold full12_15
  units hl H

theorem full12_16_u (hl : l ≠ 0) (H : UnitLoops l L L') (s : Spec ℝ) (p : Params ℝ) (q : ℝ) :
    full12_16 L' (s.rescale l) (p.rescale l) (l ^ 2 * q) = l ^ 2 * full12_16 L s p q := by
  unfold full12_16
  units hl H

theorem full12_17_u (hl : l ≠ 0) (H : UnitLoops l L L') (s : Spec ℝ) (p : Params ℝ) (q : ℝ) :
    full12_17 L' (s.rescale l) (p.rescale l) (l ^ 2 * q) = l ^ 2 * full12_17 L s p q := by
  unfold full12_17
  units hl H

theorem full12_18_u (hl : l ≠ 0) (H : UnitLoops l L L') (s : Spec ℝ) (p : Params ℝ) (q : ℝ) :
    full12_18 L' (s.rescale l) (p.rescale l) (l ^ 2 * q) = l ^ 2 * full12_18 L s p q := by
  unfold full12_18
  units hl H

theorem full12_19_u (hl : l ≠ 0) (H : UnitLoops l L L') (s : Spec ℝ) (p : Params ℝ) (q : ℝ) :
    full12_19 L' (s.rescale l) (p.rescale l) (l ^ 2 * q) = l ^ 2 * full12_19 L s p q := by
  unfold full12_19
  units hl H

theorem full12_20_u (hl : l ≠ 0) (H : UnitLoops l L L') (s : Spec ℝ) (p : Params ℝ) (q : ℝ) :
    full12_20 L' (s.rescale l) (p.rescale l) (l ^ 2 * q) = l ^ 2 * full12_20 L s p q := by
  unfold full12_20
  units hl H

theorem full22_0_u (hl : l ≠ 0) (H : UnitLoops l L L') (s : Spec ℝ) (p : Params ℝ) (q : ℝ) :
    full22_0 L' (s.rescale l) (p.rescale l) (l ^ 2 * q) = l ^ 2 * full22_0 L s p q := by
  unfold full22_0
  units hl H

theorem full22_1_u (hl : l ≠ 0) (H : UnitLoops l L L') (s : Spec ℝ) (p : Params ℝ) (q : ℝ) :
    full22_1 L' (s.rescale l) (p.rescale l) (l ^ 2 * q) = l ^ 2 * full22_1 L s p q := by
  unfold full22_1
  units hl H

theorem full22_2_u (hl : l ≠ 0) (H : UnitLoops l L L') (s : Spec ℝ) (p : Params ℝ) (q : ℝ) :
    full22_2 L' (s.rescale l) (p.rescale l) (l ^ 2 * q) = l ^ 2 * full22_2 L s p q := by
  unfold full22_2
  units hl H

theorem full22_3_u (hl : l ≠ 0) (H : UnitLoops l L L') (s : Spec ℝ) (p : Params ℝ) (q : ℝ) :
    full22_3 L' (s.rescale l) (p.rescale l) (l ^ 2 * q) = l ^ 2 * full22_3 L s p q := by
  unfold full22_3
  units hl H

theorem full22_4_u (hl : l ≠ 0) (H : UnitLoops l L L') (s : Spec ℝ) (p : Params ℝ) (q : ℝ) :
    full22_4 L' (s.rescale l) (p.rescale l) (l ^ 2 * q) = l ^ 2 * full22_4 L s p q := by
  unfold full22_4
  units hl H

theorem full22_5_u (hl : l ≠ 0) (H : UnitLoops l L L') (s : Spec ℝ) (p : Params ℝ) (q : ℝ) :
    full22_5 L' (s.rescale l) (p.rescale l) (l ^ 2 * q) = l ^ 2 * full22_5 L s p q := by
  unfold full22_5
  units hl H

theorem full22_6_u (hl : l ≠ 0) (H : UnitLoops l L L') (s : Spec ℝ) (p : Params ℝ) (q : ℝ) :
    full22_6 L' (s.rescale l) (p.rescale l) (l ^ 2 * q) = l ^ 2 * full22_6 L s p q := by
  unfold full22_6
  units hl H

theorem full22_7_u (hl : l ≠ 0) (H : UnitLoops l L L') (s : Spec ℝ) (p : Params ℝ) (q : ℝ) :
    full22_7 L' (s.rescale l) (p.rescale l) (l ^ 2 * q) = l ^ 2 * full22_7 L s p q := by
  unfold full22_7
  units hl H

theorem full22_8_u (hl : l ≠ 0) (H : UnitLoops l L L') (s : Spec ℝ) (p : Params ℝ) (q : ℝ) :
    full22_8 L' (s.rescale l) (p.rescale l) (l ^ 2 * q) = l ^ 2 * full22_8 L s p q := by
  unfold full22_8
  units hl H

theorem full22_9_u (hl : l ≠ 0) (H : UnitLoops l L L') (s : Spec ℝ) (p : Params ℝ) (q : ℝ) :
    full22_9 L' (s.rescale l) (p.rescale l) (l ^ 2 * q) = l ^ 2 * full22_9 L s p q := by
  unfold full22_9
  units hl H

theorem full22_10_u (hl : l ≠ 0) (H : UnitLoops l L L') (s : Spec ℝ) (p : Params ℝ) (q : ℝ) :
    full22_10 L' (s.rescale l) (p.rescale l) (l ^ 2 * q) = l ^ 2 * full22_10 L s p q := by
  unfold full22_10
  units hl H

theorem full22_11_u (hl : l ≠ 0) (H : UnitLoops l L L') (s : Spec ℝ) (p : Params ℝ) (q : ℝ) :
    full22_11 L' (s.rescale l) (p.rescale l) (l ^ 2 * q) = l ^ 2 * full22_11 L s p q := by
  unfold full22_11
  units hl H

theorem full22_12_u (hl : l ≠ 0) (H : UnitLoops l L L') (s : Spec ℝ) (p : Params ℝ) (q : ℝ) :
    full22_12 L' (s.rescale l) (p.rescale l) (l ^ 2 * q) = l ^ 2 * full22_12 L s p q := by
  unfold full22_12
  units hl H

theorem full22_13_u (hl : l ≠ 0) (H : UnitLoops l L L') (s : Spec ℝ) (p : Params ℝ) (q : ℝ) :
    full22_13 L' (s.rescale l) (p.rescale l) (l ^ 2 * q) = l ^ 2 * full22_13 L s p q := by
  unfold full22_13
  units hl H

theorem full22_14_u (hl : l ≠ 0) (H : UnitLoops l L L') (s : Spec ℝ) (p : Params ℝ) (q : ℝ) :
    full22_14 L' (s.rescale l) (p.rescale l) (l ^ 2 * q) = l ^ 2 * full22_14 L s p q := by
  unfold full22_14
  units hl H

theorem full22_15_u (hl : l ≠ 0) (H : UnitLoops l L L') (s : Spec ℝ) (p : Params ℝ) (q : ℝ) :
    full22_15 L' (s.rescale l) (p.rescale l) (l ^ 2 * q) = l ^ 2 * full22_15 L s p q := by
  unfold full22_15
  units hl H

theorem full22_16_u (hl : l ≠ 0) (H : UnitLoops l L L') (s : Spec ℝ) (p : Params ℝ) (q : ℝ) :
    full22_16 L' (s.rescale l) (p.rescale l) (l ^ 2 * q) = l ^ 2 * full22_16 L s p q := by
  unfold full22_16
  units hl H

theorem full22_17_u (hl : l ≠ 0) (H : UnitLoops l L L') (s : Spec ℝ) (p : Params ℝ) (q : ℝ) :
    full22_17 L' (s.rescale l) (p.rescale l) (l ^ 2 * q) = l ^ 2 * full22_17 L s p q := by
  unfold full22_17
  units hl H

theorem full22_18_u (hl : l ≠ 0) (H : UnitLoops l L L') (s : Spec ℝ) (p : Params ℝ) (q : ℝ) :
    full22_18 L' (s.rescale l) (p.rescale l) (l ^ 2 * q) = l ^ 2 * full22_18 L s p q := by
  unfold full22_18
  units hl H

theorem full22_19_u (hl : l ≠ 0) (H : UnitLoops l L L') (s : Spec ℝ) (p : Params ℝ) (q : ℝ) :
    full22_19 L' (s.rescale l) (p.rescale l) (l ^ 2 * q) = l ^ 2 * full22_19 L s p q := by
  unfold full22_19
  units hl H

theorem full22_20_u (hl : l ≠ 0) (H : UnitLoops l L L') (s : Spec ℝ) (p : Params ℝ) (q : ℝ) :
    full22_20 L' (s.rescale l) (p.rescale l) (l ^ 2 * q) = l ^ 2 * full22_20 L s p q := by
  unfold full22_20
  units hl H

theorem full22_21_u (hl : l ≠ 0) (H : UnitLoops l L L') (s : Spec ℝ) (p : Params ℝ) (q : ℝ) :
    full22_21 L' (s.rescale l) (p.rescale l) (l ^ 2 * q) = l ^ 2 * full22_21 L s p q := by
  unfold full22_21
  units hl H

theorem full22_22_u (hl : l ≠ 0) (H : UnitLoops l L L') (s : Spec ℝ) (p : Params ℝ) (q : ℝ) :
    full22_22 L' (s.rescale l) (p.rescale l) (l ^ 2 * q) = l ^ 2 * full22_22 L s p q := by
  unfold full22_22
  units hl H

theorem full22_23_u (hl : l ≠ 0) (H : UnitLoops l L L') (s : Spec ℝ) (p : Params ℝ) (q : ℝ) :
    full22_23 L' (s.rescale l) (p.rescale l) (l ^ 2 * q) = l ^ 2 * full22_23 L s p q := by
  unfold full22_23
  units hl H

theorem gl11_0_u (hl : l ≠ 0) (H : UnitLoops l L L') (s : Spec ℝ) (p : Params ℝ) (b t : ℝ) :
    gl11_0 L' (s.rescale l) (p.rescale l) b t = l ^ 2 * gl11_0 L s p b t := by
  unfold gl11_0
  units hl H

theorem gl11_1_u (hl : l ≠ 0) (H : UnitLoops l L L') (s : Spec ℝ) (p : Params ℝ) (b t : ℝ) :
    gl11_1 L' (s.rescale l) (p.rescale l) b t = l ^ 2 * gl11_1 L s p b t := by
  unfold gl11_1
  units hl H

theorem gl11_2_u (hl : l ≠ 0) (H : UnitLoops l L L') (s : Spec ℝ) (p : Params ℝ) (b t : ℝ) :
    gl11_2 L' (s.rescale l) (p.rescale l) b t = l ^ 2 * gl11_2 L s p b t := by
  unfold gl11_2
  units hl H

theorem gl11_3_u (hl : l ≠ 0) (H : UnitLoops l L L') (s : Spec ℝ) (p : Params ℝ) (b t : ℝ) :
    gl11_3 L' (s.rescale l) (p.rescale l) b t = l ^ 2 * gl11_3 L s p b t := by
  unfold gl11_3
  units hl H

theorem gl11_4_u (hl : l ≠ 0) (H : UnitLoops l L L') (s : Spec ℝ) (p : Params ℝ) (b t : ℝ) :
    gl11_4 L' (s.rescale l) (p.rescale l) b t = l ^ 2 * gl11_4 L s p b t := by
  unfold gl11_4
  units hl H

theorem gl11_5_u (hl : l ≠ 0) (H : UnitLoops l L L') (s : Spec ℝ) (p : Params ℝ) (b t : ℝ) :
    gl11_5 L' (s.rescale l) (p.rescale l) b t = l ^ 2 * gl11_5 L s p b t := by
  unfold gl11_5
  units hl H

theorem gl11_6_u (hl : l ≠ 0) (H : UnitLoops l L L') (s : Spec ℝ) (p : Params ℝ) (b t : ℝ) :
    gl11_6 L' (s.rescale l) (p.rescale l) b t = l ^ 2 * gl11_6 L s p b t := by
  unfold gl11_6
  units hl H

theorem gl11_7_u (hl : l ≠ 0) (H : UnitLoops l L L') (s : Spec ℝ) (p : Params ℝ) (b t : ℝ) :
    gl11_7 L' (s.rescale l) (p.rescale l) b t = l ^ 2 * gl11_7 L s p b t := by
  unfold gl11_7
  units hl H

theorem gl11_8_u (hl : l ≠ 0) (H : UnitLoops l L L') (s : Spec ℝ) (p : Params ℝ) (b t : ℝ) :
    gl11_8 L' (s.rescale l) (p.rescale l) b t = l ^ 2 * gl11_8 L s p b t := by
  unfold gl11_8
  units hl H

theorem gl11_9_u (hl : l ≠ 0) (H : UnitLoops l L L') (s : Spec ℝ) (p : Params ℝ) (b t : ℝ) :
    gl11_9 L' (s.rescale l) (p.rescale l) b t = l ^ 2 * gl11_9 L s p b t := by
  unfold gl11_9
  units hl H

theorem gl11_10_u (hl : l ≠ 0) (H : UnitLoops l L L') (s : Spec ℝ) (p : Params ℝ) (b t : ℝ) :
    gl11_10 L' (s.rescale l) (p.rescale l) b t = l ^ 2 * gl11_10 L s p b t := by
  unfold gl11_10
  units hl H

theorem gl11_11_u (hl : l ≠ 0) (H : UnitLoops l L L') (s : Spec ℝ) (p : Params ℝ) (b t : ℝ) :
    gl11_11 L' (s.rescale l) (p.rescale l) b t = l ^ 2 * gl11_11 L s p b t := by
  unfold gl11_11
  units hl H

theorem gl11_12_u (hl : l ≠ 0) (H : UnitLoops l L L') (s : Spec ℝ) (p : Params ℝ) (b t : ℝ) :
    gl11_12 L' (s.rescale l) (p.rescale l) b t = l ^ 2 * gl11_12 L s p b t := by
  unfold gl11_12
  units hl H

theorem gl11_13_u (hl : l ≠ 0) (H : UnitLoops l L L') (s : Spec ℝ) (p : Params ℝ) (b t : ℝ) :
    gl11_13 L' (s.rescale l) (p.rescale l) b t = l ^ 2 * gl11_13 L s p b t := by
  unfold gl11_13
  units hl H

theorem gl11_14_u (hl : l ≠ 0) (H : UnitLoops l L L') (s : Spec ℝ) (p : Params ℝ) (b t : ℝ) :
    gl11_14 L' (s.rescale l) (p.rescale l) b t = l ^ 2 * gl11_14 L s p b t := by
  unfold gl11_14
  units hl H

theorem gl11_15_u (hl : l ≠ 0) (H : UnitLoops l L L') (s : Spec ℝ) (p : Params ℝ) (b t : ℝ) :
    gl11_15 L' (s.rescale l) (p.rescale l) b t = l ^ 2 * gl11_15 L s p b t := by
  unfold gl11_15
  units hl H

theorem gl11_16_u (hl : l ≠ 0) (H : UnitLoops l L L') (s : Spec ℝ) (p : Params ℝ) (b t : ℝ) :
    gl11_16 L' (s.rescale l) (p.rescale l) b t = l ^ 2 * gl11_16 L s p b t := by
  unfold gl11_16
  units hl H

theorem gl12_0_u (hl : l ≠ 0) (H : UnitLoops l L L') (s : Spec ℝ) (p : Params ℝ) (b t : ℝ) :
    gl12_0 L' (s.rescale l) (p.rescale l) b t = l ^ 2 * gl12_0 L s p b t := by
  unfold gl12_0
  units hl H

theorem gl12_1_u (hl : l ≠ 0) (H : UnitLoops l L L') (s : Spec ℝ) (p : Params ℝ) (b t : ℝ) :
    gl12_1 L' (s.rescale l) (p.rescale l) b t = l ^ 2 * gl12_1 L s p b t := by
  unfold gl12_1
  units hl H

theorem gl12_2_u (hl : l ≠ 0) (H : UnitLoops l L L') (s : Spec ℝ) (p : Params ℝ) (b t : ℝ) :
    gl12_2 L' (s.rescale l) (p.rescale l) b t = l ^ 2 * gl12_2 L s p b t := by
  unfold gl12_2
  units hl H

theorem gl12_3_u (hl : l ≠ 0) (H : UnitLoops l L L') (s : Spec ℝ) (p : Params ℝ) (b t : ℝ) :
    gl12_3 L' (s.rescale l) (p.rescale l) b t = l ^ 2 * gl12_3 L s p b t := by
  unfold gl12_3
  units hl H

theorem gl12_4_u (hl : l ≠ 0) (H : UnitLoops l L L') (s : Spec ℝ) (p : Params ℝ) (b t : ℝ) :
    gl12_4 L' (s.rescale l) (p.rescale l) b t = l ^ 2 * gl12_4 L s p b t := by
  unfold gl12_4
  units hl H

theorem gl12_5_u (hl : l ≠ 0) (H : UnitLoops l L L') (s : Spec ℝ) (p : Params ℝ) (b t : ℝ) :
    gl12_5 L' (s.rescale l) (p.rescale l) b t = l ^ 2 * gl12_5 L s p b t := by
  unfold gl12_5
  units hl H

theorem gl12_6_u (hl : l ≠ 0) (H : UnitLoops l L L') (s : Spec ℝ) (p : Params ℝ) (b t : ℝ) :
    gl12_6 L' (s.rescale l) (p.rescale l) b t = l ^ 2 * gl12_6 L s p b t := by
  unfold gl12_6
  units hl H

theorem gl12_7_u (hl : l ≠ 0) (H : UnitLoops l L L') (s : Spec ℝ) (p : Params ℝ) (b t : ℝ) :
    gl12_7 L' (s.rescale l) (p.rescale l) b t = l ^ 2 * gl12_7 L s p b t := by
  unfold gl12_7
  units hl H

theorem gl12_8_u (hl : l ≠ 0) (H : UnitLoops l L L') (s : Spec ℝ) (p : Params ℝ) (b t : ℝ) :
    gl12_8 L' (s.rescale l) (p.rescale l) b t = l ^ 2 * gl12_8 L s p b t := by
  unfold gl12_8
  units hl H

theorem gl22_0_u (hl : l ≠ 0) (H : UnitLoops l L L') (s : Spec ℝ) (p : Params ℝ) (b t : ℝ) :
    gl22_0 L' (s.rescale l) (p.rescale l) b t = l ^ 2 * gl22_0 L s p b t := by
  unfold gl22_0
  units hl H

theorem gl22_1_u (hl : l ≠ 0) (H : UnitLoops l L L') (s : Spec ℝ) (p : Params ℝ) (b t : ℝ) :
    gl22_1 L' (s.rescale l) (p.rescale l) b t = l ^ 2 * gl22_1 L s p b t := by
  unfold gl22_1
  units hl H

theorem gl22_2_u (hl : l ≠ 0) (H : UnitLoops l L L') (s : Spec ℝ) (p : Params ℝ) (b t : ℝ) :
    gl22_2 L' (s.rescale l) (p.rescale l) b t = l ^ 2 * gl22_2 L s p b t := by
  unfold gl22_2
  units hl H

theorem gl22_3_u (hl : l ≠ 0) (H : UnitLoops l L L') (s : Spec ℝ) (p : Params ℝ) (b t : ℝ) :
    gl22_3 L' (s.rescale l) (p.rescale l) b t = l ^ 2 * gl22_3 L s p b t := by
  unfold gl22_3
  units hl H

theorem gl22_4_u (hl : l ≠ 0) (H : UnitLoops l L L') (s : Spec ℝ) (p : Params ℝ) (b t : ℝ) :
    gl22_4 L' (s.rescale l) (p.rescale l) b t = l ^ 2 * gl22_4 L s p b t := by
  unfold gl22_4
  units hl H

theorem gl22_5_u (hl : l ≠ 0) (H : UnitLoops l L L') (s : Spec ℝ) (p : Params ℝ) (b t : ℝ) :
    gl22_5 L' (s.rescale l) (p.rescale l) b t = l ^ 2 * gl22_5 L s p b t := by
  unfold gl22_5
  units hl H

theorem gl22_6_u (hl : l ≠ 0) (H : UnitLoops l L L') (s : Spec ℝ) (p : Params ℝ) (b t : ℝ) :
    gl22_6 L' (s.rescale l) (p.rescale l) b t = l ^ 2 * gl22_6 L s p b t := by
  unfold gl22_6
  units hl H

theorem gl22_7_u (hl : l ≠ 0) (H : UnitLoops l L L') (s : Spec ℝ) (p : Params ℝ) (b t : ℝ) :
    gl22_7 L' (s.rescale l) (p.rescale l) b t = l ^ 2 * gl22_7 L s p b t := by
  unfold gl22_7
  units hl H

theorem gl22_8_u (hl : l ≠ 0) (H : UnitLoops l L L') (s : Spec ℝ) (p : Params ℝ) (b t : ℝ) :
    gl22_8 L' (s.rescale l) (p.rescale l) b t = l ^ 2 * gl22_8 L s p b t := by
  unfold gl22_8
  units hl H

theorem gl22_9_u (hl : l ≠ 0) (H : UnitLoops l L L') (s : Spec ℝ) (p : Params ℝ) (b t : ℝ) :
    gl22_9 L' (s.rescale l) (p.rescale l) b t = l ^ 2 * gl22_9 L s p b t := by
  unfold gl22_9
  units hl H

theorem gl22_10_u (hl : l ≠ 0) (H : UnitLoops l L L') (s : Spec ℝ) (p : Params ℝ) (b t : ℝ) :
    gl22_10 L' (s.rescale l) (p.rescale l) b t = l ^ 2 * gl22_10 L s p b t := by
  unfold gl22_10
  units hl H

theorem gl22_11_u (hl : l ≠ 0) (H : UnitLoops l L L') (s : Spec ℝ) (p : Params ℝ) (b t : ℝ) :
    gl22_11 L' (s.rescale l) (p.rescale l) b t = l ^ 2 * gl22_11 L s p b t := by
  unfold gl22_11
  units hl H

theorem gl22_12_u (hl : l ≠ 0) (H : UnitLoops l L L') (s : Spec ℝ) (p : Params ℝ) (b t : ℝ) :
    gl22_12 L' (s.rescale l) (p.rescale l) b t = l ^ 2 * gl22_12 L s p b t := by
  unfold gl22_12
  units hl H

theorem gl22_13_u (hl : l ≠ 0) (H : UnitLoops l L L') (s : Spec ℝ) (p : Params ℝ) (b t : ℝ) :
    gl22_13 L' (s.rescale l) (p.rescale l) b t = l ^ 2 * gl22_13 L s p b t := by
  unfold gl22_13
  units hl H

theorem gl22_14_u (hl : l ≠ 0) (H : UnitLoops l L L') (s : Spec ℝ) (p : Params ℝ) (b t : ℝ) :
    gl22_14 L' (s.rescale l) (p.rescale l) b t = l ^ 2 * gl22_14 L s p b t := by
  unfold gl22_14
  units hl H

theorem gl22_15_u (hl : l ≠ 0) (H : UnitLoops l L L') (s : Spec ℝ) (p : Params ℝ) (b t : ℝ) :
    gl22_15 L' (s.rescale l) (p.rescale l) b t = l ^ 2 * gl22_15 L s p b t := by
  unfold gl22_15
  units hl H

theorem dv11_0_u (hl : l ≠ 0) (H : UnitLoops l L L') (s : Spec ℝ) (p : Params ℝ) (b t : ℝ) :
    dv11_0 L' (s.rescale l) (p.rescale l) b t = dv11_0 L s p b t := by
  unfold dv11_0
  units hl H

theorem dv11_1_u (hl : l ≠ 0) (H : UnitLoops l L L') (s : Spec ℝ) (p : Params ℝ) (b t : ℝ) :
    dv11_1 L' (s.rescale l) (p.rescale l) b t = dv11_1 L s p b t := by
  unfold dv11_1
  units hl H

theorem dv11_2_u (hl : l ≠ 0) (H : UnitLoops l L L') (s : Spec ℝ) (p : Params ℝ) (b t : ℝ) :
    dv11_2 L' (s.rescale l) (p.rescale l) b t = dv11_2 L s p b t := by
  unfold dv11_2
  units hl H

theorem dv11_3_u (hl : l ≠ 0) (H : UnitLoops l L L') (s : Spec ℝ) (p : Params ℝ) (b t : ℝ) :
    dv11_3 L' (s.rescale l) (p.rescale l) b t = dv11_3 L s p b t := by
  unfold dv11_3
  units hl H

theorem dv11_4_u (hl : l ≠ 0) (H : UnitLoops l L L') (s : Spec ℝ) (p : Params ℝ) (b t : ℝ) :
    dv11_4 L' (s.rescale l) (p.rescale l) b t = dv11_4 L s p b t := by
  unfold dv11_4
  units hl H

theorem dv11_5_u (hl : l ≠ 0) (H : UnitLoops l L L') (s : Spec ℝ) (p : Params ℝ) (b t : ℝ) :
    dv11_5 L' (s.rescale l) (p.rescale l) b t = dv11_5 L s p b t := by
  unfold dv11_5
  units hl H

theorem dv11_6_u (hl : l ≠ 0) (H : UnitLoops l L L') (s : Spec ℝ) (p : Params ℝ) (b t : ℝ) :
    dv11_6 L' (s.rescale l) (p.rescale l) b t = dv11_6 L s p b t := by
  unfold dv11_6
  units hl H

theorem dv11_7_u (hl : l ≠ 0) (H : UnitLoops l L L') (s : Spec ℝ) (p : Params ℝ) (b t : ℝ) :
    dv11_7 L' (s.rescale l) (p.rescale l) b t = dv11_7 L s p b t := by
  unfold dv11_7
  units hl H

theorem dv11_8_u (hl : l ≠ 0) (H : UnitLoops l L L') (s : Spec ℝ) (p : Params ℝ) (b t : ℝ) :
    dv11_8 L' (s.rescale l) (p.rescale l) b t = dv11_8 L s p b t := by
  unfold dv11_8
  units hl H

theorem dv11_9_u (hl : l ≠ 0) (H : UnitLoops l L L') (s : Spec ℝ) (p : Params ℝ) (b t : ℝ) :
    dv11_9 L' (s.rescale l) (p.rescale l) b t = dv11_9 L s p b t := by
  unfold dv11_9
  units hl H

theorem dv11_10_u (hl : l ≠ 0) (H : UnitLoops l L L') (s : Spec ℝ) (p : Params ℝ) (b t : ℝ) :
    dv11_10 L' (s.rescale l) (p.rescale l) b t = dv11_10 L s p b t := by
  unfold dv11_10
  units hl H

theorem dv11_11_u (hl : l ≠ 0) (H : UnitLoops l L L') (s : Spec ℝ) (p : Params ℝ) (b t : ℝ) :
    dv11_11 L' (s.rescale l) (p.rescale l) b t = dv11_11 L s p b t := by
  unfold dv11_11
  units hl H

theorem dv11_12_u (hl : l ≠ 0) (H : UnitLoops l L L') (s : Spec ℝ) (p : Params ℝ) (b t : ℝ) :
    dv11_12 L' (s.rescale l) (p.rescale l) b t = dv11_12 L s p b t := by
  unfold dv11_12
  units hl H

theorem dv12_0_u (hl : l ≠ 0) (H : UnitLoops l L L') (s : Spec ℝ) (p : Params ℝ) (b t : ℝ) :
    dv12_0 L' (s.rescale l) (p.rescale l) b t = dv12_0 L s p b t := by
  unfold dv12_0
  units hl H

theorem dv12_1_u (hl : l ≠ 0) (H : UnitLoops l L L') (s : Spec ℝ) (p : Params ℝ) (b t : ℝ) :
    dv12_1 L' (s.rescale l) (p.rescale l) b t = dv12_1 L s p b t := by
  unfold dv12_1
  units hl H

theorem dv12_2_u (hl : l ≠ 0) (H : UnitLoops l L L') (s : Spec ℝ) (p : Params ℝ) (b t : ℝ) :
    dv12_2 L' (s.rescale l) (p.rescale l) b t = dv12_2 L s p b t := by
  unfold dv12_2
  units hl H

theorem dv12_3_u (hl : l ≠ 0) (H : UnitLoops l L L') (s : Spec ℝ) (p : Params ℝ) (b t : ℝ) :
    dv12_3 L' (s.rescale l) (p.rescale l) b t = dv12_3 L s p b t := by
  unfold dv12_3
  units hl H

theorem dv12_4_u (hl : l ≠ 0) (H : UnitLoops l L L') (s : Spec ℝ) (p : Params ℝ) (b t : ℝ) :
    dv12_4 L' (s.rescale l) (p.rescale l) b t = dv12_4 L s p b t := by
  unfold dv12_4
  units hl H

theorem dv12_5_u (hl : l ≠ 0) (H : UnitLoops l L L') (s : Spec ℝ) (p : Params ℝ) (b t : ℝ) :
    dv12_5 L' (s.rescale l) (p.rescale l) b t = dv12_5 L s p b t := by
  unfold dv12_5
  units hl H

theorem dv12_6_u (hl : l ≠ 0) (H : UnitLoops l L L') (s : Spec ℝ) (p : Params ℝ) (b t : ℝ) :
    dv12_6 L' (s.rescale l) (p.rescale l) b t = dv12_6 L s p b t := by
  unfold dv12_6
  units hl H

theorem dv12_7_u (hl : l ≠ 0) (H : UnitLoops l L L') (s : Spec ℝ) (p : Params ℝ) (b t : ℝ) :
    dv12_7 L' (s.rescale l) (p.rescale l) b t = dv12_7 L s p b t := by
  unfold dv12_7
  units hl H

theorem dv12_8_u (hl : l ≠ 0) (H : UnitLoops l L L') (s : Spec ℝ) (p : Params ℝ) (b t : ℝ) :
    dv12_8 L' (s.rescale l) (p.rescale l) b t = dv12_8 L s p b t := by
  unfold dv12_8
  units hl H

theorem dv22_0_u (hl : l ≠ 0) (H : UnitLoops l L L') (s : Spec ℝ) (p : Params ℝ) (b t : ℝ) :
    dv22_0 L' (s.rescale l) (p.rescale l) b t = dv22_0 L s p b t := by
  unfold dv22_0
  units hl H

theorem dv22_1_u (hl : l ≠ 0) (H : UnitLoops l L L') (s : Spec ℝ) (p : Params ℝ) (b t : ℝ) :
    dv22_1 L' (s.rescale l) (p.rescale l) b t = dv22_1 L s p b t := by
  unfold dv22_1
  units hl H

theorem dv22_2_u (hl : l ≠ 0) (H : UnitLoops l L L') (s : Spec ℝ) (p : Params ℝ) (b t : ℝ) :
    dv22_2 L' (s.rescale l) (p.rescale l) b t = dv22_2 L s p b t := by
  unfold dv22_2
  units hl H

theorem dv22_3_u (hl : l ≠ 0) (H : UnitLoops l L L') (s : Spec ℝ) (p : Params ℝ) (b t : ℝ) :
    dv22_3 L' (s.rescale l) (p.rescale l) b t = dv22_3 L s p b t := by
  unfold dv22_3
  units hl H

theorem dv22_4_u (hl : l ≠ 0) (H : UnitLoops l L L') (s : Spec ℝ) (p : Params ℝ) (b t : ℝ) :
    dv22_4 L' (s.rescale l) (p.rescale l) b t = dv22_4 L s p b t := by
  unfold dv22_4
  units hl H

theorem dv22_5_u (hl : l ≠ 0) (H : UnitLoops l L L') (s : Spec ℝ) (p : Params ℝ) (b t : ℝ) :
    dv22_5 L' (s.rescale l) (p.rescale l) b t = dv22_5 L s p b t := by
  unfold dv22_5
  units hl H

theorem dv22_6_u (hl : l ≠ 0) (H : UnitLoops l L L') (s : Spec ℝ) (p : Params ℝ) (b t : ℝ) :
    dv22_6 L' (s.rescale l) (p.rescale l) b t = dv22_6 L s p b t := by
  unfold dv22_6
  units hl H

theorem dv22_7_u (hl : l ≠ 0) (H : UnitLoops l L L') (s : Spec ℝ) (p : Params ℝ) (b t : ℝ) :
    dv22_7 L' (s.rescale l) (p.rescale l) b t = dv22_7 L s p b t := by
  unfold dv22_7
  units hl H

theorem dv22_8_u (hl : l ≠ 0) (H : UnitLoops l L L') (s : Spec ℝ) (p : Params ℝ) (b t : ℝ) :
    dv22_8 L' (s.rescale l) (p.rescale l) b t = dv22_8 L s p b t := by
  unfold dv22_8
  units hl H

theorem dv22_9_u (hl : l ≠ 0) (H : UnitLoops l L L') (s : Spec ℝ) (p : Params ℝ) (b t : ℝ) :
    dv22_9 L' (s.rescale l) (p.rescale l) b t = dv22_9 L s p b t := by
  unfold dv22_9
  units hl H

theorem dv22_10_u (hl : l ≠ 0) (H : UnitLoops l L L') (s : Spec ℝ) (p : Params ℝ) (b t : ℝ) :
    dv22_10 L' (s.rescale l) (p.rescale l) b t = dv22_10 L s p b t := by
  unfold dv22_10
  units hl H

theorem full11_units (hl : l ≠ 0) (H : UnitLoops l L L') (s : Spec ℝ) (p : Params ℝ) (q : ℝ) :
    accumulate (full11 L' (s.rescale l) (p.rescale l) (l ^ 2 * q)) = l ^ 2 * accumulate (full11 L s p q) := by
  rw [← acc_map]
  unfold full11
  simp only [List.map_cons, List.map_nil, full11_0_u hl H, full11_1_u hl H, full11_2_u hl H, full11_3_u hl H, full11_4_u hl H, full11_5_u hl H, full11_6_u hl H, full11_7_u hl H, full11_8_u hl H, full11_9_u hl H, full11_10_u hl H, full11_11_u hl H, full11_12_u hl H, full11_13_u hl H, full11_14_u hl H, full11_15_u hl H, full11_16_u hl H, full11_17_u hl H, full11_18_u hl H, full11_19_u hl H, full11_20_u hl H, full11_21_u hl H, full11_22_u hl H, full11_23_u hl H, full11_24_u hl H]

theorem full12_units (hl : l ≠ 0) (H : UnitLoops l L L') (s : Spec ℝ) (p : Params ℝ) (q : ℝ) :
    accumulate (full12 L' (s.rescale l) (p.rescale l) (l ^ 2 * q)) = l ^ 2 * accumulate (full12 L s p q) := by
  rw [← acc_map]
  unfold full12
  simp only [List.map_cons, List.map_nil, full12_0_u hl H, full12_1_u hl H, full12_2_u hl H, full12_3_u hl H, full12_4_u hl H, full12_5_u hl H, full12_6_u hl H, full12_7_u hl H, full12_8_u hl H, full12_9_u hl H, full12_10_u hl H, full12_11_u hl H, full12_12_u hl H, full12_13_u hl H, full12_14_u hl H, full12_15_u hl H, full12_16_u hl H, full12_17_u hl H, full12_18_u hl H, full12_19_u hl H, full12_20_u hl H]

theorem full22_units (hl : l ≠ 0) (H : UnitLoops l L L') (s : Spec ℝ) (p : Params ℝ) (q : ℝ) :
    accumulate (full22 L' (s.rescale l) (p.rescale l) (l ^ 2 * q)) = l ^ 2 * accumulate (full22 L s p q) := by
  rw [← acc_map]
  unfold full22
  simp only [List.map_cons, List.map_nil, full22_0_u hl H, full22_1_u hl H, full22_2_u hl H, full22_3_u hl H, full22_4_u hl H, full22_5_u hl H, full22_6_u hl H, full22_7_u hl H, full22_8_u hl H, full22_9_u hl H, full22_10_u hl H, full22_11_u hl H, full22_12_u hl H, full22_13_u hl H, full22_14_u hl H, full22_15_u hl H, full22_16_u hl H, full22_17_u hl H, full22_18_u hl H, full22_19_u hl H, full22_20_u hl H, full22_21_u hl H, full22_22_u hl H, full22_23_u hl H]

theorem gl11_units (hl : l ≠ 0) (H : UnitLoops l L L') (s : Spec ℝ) (p : Params ℝ) (b t : ℝ) :
    accumulate (gl11 L' (s.rescale l) (p.rescale l) b t) = l ^ 2 * accumulate (gl11 L s p b t) := by
  rw [← acc_map]
  unfold gl11
  simp only [List.map_cons, List.map_nil, gl11_0_u hl H, gl11_1_u hl H, gl11_2_u hl H, gl11_3_u hl H, gl11_4_u hl H, gl11_5_u hl H, gl11_6_u hl H, gl11_7_u hl H, gl11_8_u hl H, gl11_9_u hl H, gl11_10_u hl H, gl11_11_u hl H, gl11_12_u hl H, gl11_13_u hl H, gl11_14_u hl H, gl11_15_u hl H, gl11_16_u hl H]

theorem gl12_units (hl : l ≠ 0) (H : UnitLoops l L L') (s : Spec ℝ) (p : Params ℝ) (b t : ℝ) :
    accumulate (gl12 L' (s.rescale l) (p.rescale l) b t) = l ^ 2 * accumulate (gl12 L s p b t) := by
  rw [← acc_map]
  unfold gl12
  simp only [List.map_cons, List.map_nil, gl12_0_u hl H, gl12_1_u hl H, gl12_2_u hl H, gl12_3_u hl H, gl12_4_u hl H, gl12_5_u hl H, gl12_6_u hl H, gl12_7_u hl H, gl12_8_u hl H]

theorem gl22_units (hl : l ≠ 0) (H : UnitLoops l L L') (s : Spec ℝ) (p : Params ℝ) (b t : ℝ) :
    accumulate (gl22 L' (s.rescale l) (p.rescale l) b t) = l ^ 2 * accumulate (gl22 L s p b t) := by
  rw [← acc_map]
  unfold gl22
  simp only [List.map_cons, List.map_nil, gl22_0_u hl H, gl22_1_u hl H, gl22_2_u hl H, gl22_3_u hl H, gl22_4_u hl H, gl22_5_u hl H, gl22_6_u hl H, gl22_7_u hl H, gl22_8_u hl H, gl22_9_u hl H, gl22_10_u hl H, gl22_11_u hl H, gl22_12_u hl H, gl22_13_u hl H, gl22_14_u hl H, gl22_15_u hl H]

theorem dv11_units (hl : l ≠ 0) (H : UnitLoops l L L') (s : Spec ℝ) (p : Params ℝ) (b t : ℝ) :
    accumulate (dv11 L' (s.rescale l) (p.rescale l) b t) = accumulate (dv11 L s p b t) := by
  unfold dv11
  simp only [dv11_0_u hl H, dv11_1_u hl H, dv11_2_u hl H, dv11_3_u hl H, dv11_4_u hl H, dv11_5_u hl H, dv11_6_u hl H, dv11_7_u hl H, dv11_8_u hl H, dv11_9_u hl H, dv11_10_u hl H, dv11_11_u hl H, dv11_12_u hl H]

theorem dv12_units (hl : l ≠ 0) (H : UnitLoops l L L') (s : Spec ℝ) (p : Params ℝ) (b t : ℝ) :
    accumulate (dv12 L' (s.rescale l) (p.rescale l) b t) = accumulate (dv12 L s p b t) := by
  unfold dv12
  simp only [dv12_0_u hl H, dv12_1_u hl H, dv12_2_u hl H, dv12_3_u hl H, dv12_4_u hl H, dv12_5_u hl H, dv12_6_u hl H, dv12_7_u hl H, dv12_8_u hl H]

theorem dv22_units (hl : l ≠ 0) (H : UnitLoops l L L') (s : Spec ℝ) (p : Params ℝ) (b t : ℝ) :
    accumulate (dv22 L' (s.rescale l) (p.rescale l) b t) = accumulate (dv22 L s p b t) := by
  unfold dv22
  simp only [dv22_0_u hl H, dv22_1_u hl H, dv22_2_u hl H, dv22_3_u hl H, dv22_4_u hl H, dv22_5_u hl H, dv22_6_u hl H, dv22_7_u hl H, dv22_8_u hl H, dv22_9_u hl H, dv22_10_u hl H]

end UnitsOL

open UnitsOL

variable {l : ℝ} {L L' : LoopFns ℝ}

/-- **C78.** The one-loop correction to the mass matrix of the CP-even Higgs bosons, at any momentum, in other units of mass. -/
theorem C78_one_loop (hl : l ≠ 0) (H : UnitLoops l L L') (s : Spec ℝ) (p : Params ℝ) (q : ℝ) :
    deltaMh1L L' (s.rescale l) (p.rescale l) (l ^ 2 * q) = Mat2.smul (l ^ 2) (deltaMh1L L s p q) := by
  unfold deltaMh1L Mat2.smul
  simp only [full11_units hl H, full12_units hl H, full22_units hl H, mul_assoc]

/-- **C78.** The one-loop correction without gauge couplings. -/
theorem C78_gaugeless (hl : l ≠ 0) (H : UnitLoops l L L') (s : Spec ℝ) (p : Params ℝ) (b : Bool) :
    deltaMh1LGaugeless L' (s.rescale l) (p.rescale l) b = Mat2.smul (l ^ 2) (deltaMh1LGaugeless L s p b) := by
  unfold deltaMh1LGaugeless Mat2.smul
  have e1 : (p.rescale l).Yd = p.Yd := rfl
  have e2 : (p.rescale l).Ye = p.Ye := rfl
  simp only [gl11_units hl H, gl12_units hl H, gl22_units hl H, e1, e2, mul_assoc]

/-- **C78.** The derivative of the self energies with respect to the squared momentum has no dimension. -/
theorem C78_derivative (hl : l ≠ 0) (H : UnitLoops l L L') (s : Spec ℝ) (p : Params ℝ) (b : Bool) :
    deltaMh1LDeriv L' (s.rescale l) (p.rescale l) b = deltaMh1LDeriv L s p b := by
  unfold deltaMh1LDeriv
  have e1 : (p.rescale l).Yd = p.Yd := rfl
  have e2 : (p.rescale l).Ye = p.Ye := rfl
  simp only [dv11_units hl H, dv12_units hl H, dv22_units hl H, e1, e2]

/-- **C78.** The tree-level mass matrix. -/
theorem C78_tree_level (hl : l ≠ 0) (p : Params ℝ) : matHh (p.rescale l) = Mat2.smul (l ^ 2) (matHh p) := by
  unfold matHh Mat2.smul specBmu
  simp only [Params.rescale, pow2, real_ofNat]
  congr 1 <;> field_simp <;> ring

/-- **C78.** The perturbative diagonalization. -/
theorem C78_diagonalization (hl : 0 < l) (A B C D : Mat2 ℝ) :
    (diagPert (Mat2.smul (l ^ 2) A) (Mat2.smul (l ^ 2) B) (Mat2.smul (l ^ 2) C) (Mat2.smul (l ^ 2) D)).l0.x0 = l ^ 2 * (diagPert A B C D).l0.x0 ∧
    (diagPert (Mat2.smul (l ^ 2) A) (Mat2.smul (l ^ 2) B) (Mat2.smul (l ^ 2) C) (Mat2.smul (l ^ 2) D)).l1.x0 = l ^ 2 * (diagPert A B C D).l1.x0 ∧
    (diagPert (Mat2.smul (l ^ 2) A) (Mat2.smul (l ^ 2) B) (Mat2.smul (l ^ 2) C) (Mat2.smul (l ^ 2) D)).l2.x0 = l ^ 2 * (diagPert A B C D).l2.x0 ∧
    (diagPert (Mat2.smul (l ^ 2) A) (Mat2.smul (l ^ 2) B) (Mat2.smul (l ^ 2) C) (Mat2.smul (l ^ 2) D)).l3.x0 = l ^ 2 * (diagPert A B C D).l3.x0 := by
  obtain ⟨a1, a2, a2', a3⟩ := A
  obtain ⟨b1, b2, b2', b3⟩ := B
  obtain ⟨c1, c2, c2', c3⟩ := C
  obtain ⟨d1, d2, d2', d3⟩ := D
  have hk : 0 < l ^ 2 := by positivity
  unfold diagPert Mat2.smul
  simp only [pow2, real_ofNat, real_lit, real_sqrt]
  push_cast
  generalize l ^ 2 = k at *
  have er : Real.sqrt (k * a1 * (k * a1) + 4 * (k * a2 * (k * a2)) - 2 * (k * a1) * (k * a3) + k * a3 * (k * a3)) =
      k * Real.sqrt (a1 * a1 + 4 * (a2 * a2) - 2 * a1 * a3 + a3 * a3) := by
    rw [show k * a1 * (k * a1) + 4 * (k * a2 * (k * a2)) - 2 * (k * a1) * (k * a3) + k * a3 * (k * a3) =
      k ^ 2 * (a1 * a1 + 4 * (a2 * a2) - 2 * a1 * a3 + a3 * a3) by ring, Real.sqrt_mul (by positivity), Real.sqrt_sq hk.le]
  rw [er]
  generalize Real.sqrt (a1 * a1 + 4 * (a2 * a2) - 2 * a1 * a3 + a3 * a3) = r
  have k0 := hk.ne'
  have e1 : ∀ x, k * x / (k * r) = x / r := fun x => mul_div_mul_left _ _ k0
  have e2 : (k * a1 * (k * b1) - k * a3 * (k * b1) + 4 * (k * a2) * (k * b2) - k * a1 * (k * b3) + k * a3 * (k * b3)) / (k * r) =
      k * ((a1 * b1 - a3 * b1 + 4 * a2 * b2 - a1 * b3 + a3 * b3) / r) := by
    rw [show k * a1 * (k * b1) - k * a3 * (k * b1) + 4 * (k * a2) * (k * b2) - k * a1 * (k * b3) + k * a3 * (k * b3) =
      k * (k * (a1 * b1 - a3 * b1 + 4 * a2 * b2 - a1 * b3 + a3 * b3)) by ring, e1, mul_div_assoc]
  rw [e2]
  generalize (a1 * b1 - a3 * b1 + 4 * a2 * b2 - a1 * b3 + a3 * b3) / r = w
  refine ⟨by ring, by ring, ?_, ?_⟩
  · by_cases hr : r = 0
    · subst hr; simp; ring
    · field_simp
      try ring
  · by_cases hr : r = 0
    · subst hr; simp; ring
    · field_simp
      try ring

/-- a case for the loop integrals: those of the code, without the absolute thresholds -/
example (hl : 0 < l) : UnitLoops l
    ⟨fun m => |m| * (1 - Real.log (|m| / 1)), fun p m n => PV.b0 p m n 1, fun m n => 1 / (|m| + |n|)⟩
    ⟨fun m => |m| * (1 - Real.log (|m| / (l ^ 2 * 1))), fun p m n => PV.b0 p m n (l ^ 2 * 1), fun m n => 1 / (|m| + |n|)⟩ := by
  have hk : 0 < l ^ 2 := by positivity
  refine ⟨fun x => ?_, fun p x y => PV.C78_b0 hk p x y 1, fun x y => ?_⟩
  · simp only [PV.u_abs hk, PV.u_div hk, mul_assoc]
  · simp only [PV.u_abs hk, ← mul_add]
    rw [mul_one_div, ← div_div, div_self hk.ne']

end Himalaya
