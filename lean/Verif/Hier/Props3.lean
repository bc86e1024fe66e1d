import Verif.Hier.Props2
import Verif.Kron.EvalM

set_option linter.unusedTactic false
set_option linter.unreachableTactic false
set_option linter.unnecessarySeqFocus false

/-!
# C65: the hierarchies in which the units of mass matter
-/

set_option linter.unusedVariables false
set_option linter.unusedSimpArgs false

namespace Himalaya

open scoped Himalaya
open Kron (E eval sumR nonzero nonzero_sound)

/-- The constants as they are written in misc/Constants.hpp:14-31. -/
noncomputable def codeConst : HConst ℝ :=
  { z2 := ((164493406684822644 / 10 ^ 17 : ℚ) : ℝ), z3 := ((120205690315959429 / 10 ^ 17 : ℚ) : ℝ),
    z4 := ((108232323371113819 / 10 ^ 17 : ℚ) : ℝ), B4 := ((-17628000870737709 / 10 ^ 16 : ℚ) : ℝ),
    D3 := ((-30270094939876520 / 10 ^ 16 : ℚ) : ℝ), DN := ((11202483970392421 / 10 ^ 16 : ℚ) : ℝ),
    OepS2 := ((78517428364255312 / 10 ^ 16 : ℚ) : ℝ), S2 := ((26043413763216210 / 10 ^ 17 : ℚ) : ℝ),
    T1ep := ((-24208928021203593 / 10 ^ 15 : ℚ) : ℝ) }

/-- the same numbers -/
def codeConstQ : List ℚ := [164493406684822644 / 10 ^ 17, 120205690315959429 / 10 ^ 17, 108232323371113819 / 10 ^ 17,
  -17628000870737709 / 10 ^ 16, -30270094939876520 / 10 ^ 16, 11202483970392421 / 10 ^ 16, 78517428364255312 / 10 ^ 16,
  26043413763216210 / 10 ^ 17, -24208928021203593 / 10 ^ 15]

theorem value_at {e : E} {S : SelfEnergy} {P : HConst ℝ → HMem ℝ → List ℝ}
    (link : ∀ k h, eval (fun _ => 0) (fun i => (P k h).getD i 0) e = S k h) (k : HConst ℝ) (h : HMem ℝ)
    (xs : List ℚ) (hx : P k h = xs.map (↑)) : S k h = eval (fun _ => 0) (fun i => ((xs.map ((↑) : ℚ → ℝ)).getD i 0)) e := by
  rw [← link, hx]

/-- A point with all stop, gluino and top masses and the scale equal to one unit, and heavier squarks of the other generations. -/
noncomputable def unitPoint : Params ℝ :=
  { scale := 1, mu := 0, g1 := 0, g2 := 0, g3 := 4 * Real.pi, vd := 4, vu := 3,
    mq2 := fun _ _ => 4, md2 := fun _ _ => 4, mu2 := fun _ _ => 4, ml2 := fun _ _ => 4, me2 := fun _ _ => 4,
    Au := fun _ _ => 0, Ad := fun _ _ => 0, Ae := fun _ _ => 0, Yu := fun _ _ => 0, Yd := fun _ _ => 0, Ye := fun _ _ => 0,
    M1 := 1, M2 := 1, MG := 1, MW := 0, MZ := 0, Mt := 1, Mb := 0, Mtau := 0, MA := 1, MSt := ⟨1, 1⟩, MSb := ⟨1, 1⟩,
    MStau := ⟨1, 1⟩, s2t := 0, s2b := 0, s2tau := 0, theta_t := 0, theta_b := 0, theta_tau := 0, massLimit3LThreshold := 0 }

theorem unitPoint_msq : calcMeanMsq unitPoint = 2 := by
  have h : calculateMsq2 unitPoint = 4 := by
    unfold calculateMsq2
    simp only [unitPoint, pow2, Misc.pow2, mul_zero, zero_mul, sub_zero, add_zero, real_ofNat]
    show ((4 * 4 * 4 * 4 * 4 * 4 * 4 * 4 * 4 * 4 : ℝ)) ^ ((1 : ℝ) / 10) = 4
    rw [show (4 * 4 * 4 * 4 * 4 * 4 * 4 * 4 * 4 * 4 : ℝ) = 4 ^ ((10 : ℕ) : ℝ) by norm_num, ← Real.rpow_mul (by norm_num)]
    norm_num
  unfold calcMeanMsq
  rw [h]
  simp only [real_sqrt, real_abs]
  rw [abs_of_pos (by norm_num), show (4 : ℝ) = 2 ^ 2 by norm_num, Real.sqrt_sq (by norm_num)]

theorem unitPoint_regular : RegularPoint unitPoint 1 1 := by
  refine ⟨by norm_num, by norm_num, ?_, ?_, ?_, ?_, ?_⟩
  · norm_num [unitPoint]
  · rw [unitPoint_msq]; norm_num
  · norm_num [unitPoint]
  · norm_num [unitPoint]
  · norm_num [unitPoint]

/-- the object that asks for hierarchy `k` -/
def hoFor (k : Int) (h : HObj ℝ) : HObj ℝ := { h with isAlphab := false, hierarchy := k }

/-- values of the constructor parameters at `unitPoint` -/
def unitQ : HParam → ℚ
  | .Al4p | .Mgl | .Mt | .Mst1 | .Mst2 | .Msusy | .Dmsqst2 => 1
  | .Msq => 2
  | .Dmsqst1 => 3
  | _ => 0

theorem meaning_unit (ho : HObj ℝ) (k : Int) (P : HParam) (hb : P ≠ .beta) (hq : P ≠ .lmMsq) :
    meaningAt unitPoint (hoFor k ho) 1 1 P = (unitQ P : ℝ) := by
  have hpi : Real.pi ≠ 0 := Real.pi_ne_zero
  have hq' := unitPoint_msq
  unfold meaningAt
  have e : (hoFor k ho).getIsAlphab = false := rfl
  have h3 : ((@OfNat.ofNat ℝ 3 (FOps.instOfNat 3))) = 3 := by simp
  cases P <;> (try exact absurd rfl hb) <;> (try exact absurd rfl hq) <;> simp only [HParam.meaning, unitQ, hq', e, h3] at * <;> norm_num [unitPoint, Const.value] <;> (try field_simp) <;>
    (try norm_num)

/-- the members that the four classes read, at `unitPoint` in units of mass `1/l` -/
def unitMemQ (l : ℚ) (k : Int) : HMem ℚ :=
  { Al4p := 1, At := 0, Cbeta := 4 / 5, Sbeta := 3 / 5, Tbeta := 3 / 4, Dmglst1 := 0, Dmglst2 := 0, Dmsqst1 := 0, Dmsqst2 := l,
    Dmst12 := 0, lmMt := 0, lmMst1 := 0, lmMst2 := 0, lmMsq := 0, lmMgl := 0, lmMsusy := 0, Mt := l, Mst1 := l, Mst2 := l,
    Msq := if k = 9 ∨ k = 10 then 2 * l else 0, Mgl := if k = 8 ∨ k = 10 then l else 0, Msusy := 0, MuSUSY := 0, s2t := 0,
    shiftst1 := 0, shiftst2 := 0, shiftst3 := 0, xDR2DRMOD := 0, x := 0, xAt := 0, xDmglst1 := 0, xDmglst2 := 0, xDmsqst1 := 0,
    xDmsqst2 := 0, xDmst12 := 0, xMst := 0, xMsq := 0, xMgl := 0, xMsusy := 0, xlmMsusy := 0, oneLoopFlag := 0, twoLoopFlag := 0,
    threeLoopFlag := 1 }

/-- the three-loop part -/
def threeLoopOnly : LoopFlags := ⟨0, 0, 1⟩

noncomputable def HMem.cast (h : HMem ℚ) : HMem ℝ :=
  { Al4p := h.Al4p, At := h.At, Cbeta := h.Cbeta, Sbeta := h.Sbeta, Tbeta := h.Tbeta, Dmglst1 := h.Dmglst1, Dmglst2 := h.Dmglst2,
    Dmsqst1 := h.Dmsqst1, Dmsqst2 := h.Dmsqst2, Dmst12 := h.Dmst12, lmMt := h.lmMt, lmMst1 := h.lmMst1, lmMst2 := h.lmMst2,
    lmMsq := h.lmMsq, lmMgl := h.lmMgl, lmMsusy := h.lmMsusy, Mt := h.Mt, Mst1 := h.Mst1, Mst2 := h.Mst2, Msq := h.Msq,
    Mgl := h.Mgl, Msusy := h.Msusy, MuSUSY := h.MuSUSY, s2t := h.s2t, shiftst1 := h.shiftst1, shiftst2 := h.shiftst2,
    shiftst3 := h.shiftst3, xDR2DRMOD := h.xDR2DRMOD, x := h.x, xAt := h.xAt, xDmglst1 := h.xDmglst1, xDmglst2 := h.xDmglst2,
    xDmsqst1 := h.xDmsqst1, xDmsqst2 := h.xDmsqst2, xDmst12 := h.xDmst12, xMst := h.xMst, xMsq := h.xMsq, xMgl := h.xMgl,
    xMsusy := h.xMsusy, xlmMsusy := h.xlmMsusy, oneLoopFlag := h.oneLoopFlag, twoLoopFlag := h.twoLoopFlag,
    threeLoopFlag := h.threeLoopFlag }

theorem flagOf_zero (k : Int) (n : DepthIdx) : flagOf k ([0, 0, 0] : List Int) n = (0 : ℝ) := by
  unfold flagOf
  cases h : (((flagReads k).map (·.1)).zip ([0, 0, 0] : List Int)).find? (fun q => q.1 == n) with
  | none => simp
  | some q =>
    have hq := (List.of_mem_zip (List.mem_of_find?_eq_some h)).2
    simp only [List.mem_cons, List.not_mem_nil, or_false, or_self] at hq
    simp [hq]

theorem unit_mem (ho : HObj ℝ) (k : Int) (hk : k = 7 ∨ k = 8 ∨ k = 9 ∨ k = 10) (ps : List HParam) (hp : ctorParams k = some ps)
    (l : ℚ) (hl : 0 < l) :
    classMem Real.tan k ps [0, 0, 0] (ps.map (meaningAt (unitPoint.rescale (l : ℝ)) (hoFor k ho) (l * 1) (l * 1))) 0 threeLoopOnly
      = (unitMemQ l k).cast := by
  have hl' : (0 : ℝ) < l := by exact_mod_cast hl
  have hb : meaningAt (unitPoint.rescale (l : ℝ)) (hoFor k ho) (l * 1) (l * 1) .beta = Real.arctan (3 / 4) := by
    rw [meaningAt_rescale hl']
    simp [meaningAt, HParam.meaning, HParam.dim, unitPoint]
  have hsq : Real.sqrt (1 + (3 / 4 : ℝ) ^ 2) = 5 / 4 := by
    rw [show (1 + (3 / 4 : ℝ) ^ 2) = (5 / 4) ^ 2 by norm_num, Real.sqrt_sq (by norm_num)]
  have hm : ∀ P : HParam, P ≠ .beta → P ≠ .lmMsq →
      meaningAt (unitPoint.rescale (l : ℝ)) (hoFor k ho) (l * 1) (l * 1) P = ((l ^ P.dim * unitQ P : ℚ) : ℝ) := by
    intro P h1 h2
    rw [meaningAt_rescale hl', meaning_unit ho k P h1 h2]; push_cast; rfl
  rcases hk with e | e | e | e <;> subst e <;> cases hp <;> simp only [classMem, argOf_map, HMem.cast, unitMemQ] <;>
    simp only [List.mem_cons, reduceCtorEq, false_or, or_false, true_or, or_true, if_true, if_false, List.not_mem_nil, ne_eq,
      not_false_eq_true, hm, hb, real_sin, real_cos, HParam.dim, unitQ, Real.sin_arctan, Real.cos_arctan, Real.tan_arctan, hsq] <;>
    simp only [flagOf_zero, threeLoopOnly] <;> norm_num <;> (try ring)

def H6b_q1 : List ℚ := [3 / 5, 3 / 4, 1, 1, 0, 0, 0, 1, 0, 1, 0, 0, 0, 1, 1, 0, 0, 0, 0, 0, 0, 0] ++ codeConstQ
def H6b_q2 : List ℚ := [3 / 5, 3 / 4, 2, 2, 0, 0, 0, 2, 0, 2, 0, 0, 0, 1, 1, 0, 0, 0, 0, 0, 0, 0] ++ codeConstQ

theorem H6b_differs : nonzero [(1, H6b_q2, H6b.getS2 H6b.kE H6b.hE), (-16, H6b_q1, H6b.getS2 H6b.kE H6b.hE)] = true := by decide +kernel

theorem H6b_unit_violated : H6b.getS2 codeConst (unitMemQ 2 7).cast ≠ 2 ^ 4 * H6b.getS2 codeConst (unitMemQ 1 7).cast := by
  rw [value_at (P := H6b.pt) (H6b.linkS2 _) codeConst _ H6b_q2 (by
      simp only [H6b.pt, H6b_q2, codeConst, codeConstQ, unitMemQ, HMem.cast, List.map_append, List.map_cons, List.map_nil,
        List.cons_append, List.nil_append] <;> norm_num),
    value_at (P := H6b.pt) (H6b.linkS2 _) codeConst _ H6b_q1 (by
      simp only [H6b.pt, H6b_q1, codeConst, codeConstQ, unitMemQ, HMem.cast, List.map_append, List.map_cons, List.map_nil,
        List.cons_append, List.nil_append] <;> norm_num)]
  have h := nonzero_sound (fun _ => 0) H6b_differs
  simp only [sumR] at h
  intro e
  apply h
  rw [e]; push_cast; ring

def H6b2qg2_q1 : List ℚ := [3 / 5, 3 / 4, 1, 1, 1, 0, 0, 0, 1, 0, 1, 0, 0, 0, 1, 1, 0, 0, 0, 0, 0, 0, 0] ++ codeConstQ
def H6b2qg2_q2 : List ℚ := [3 / 5, 3 / 4, 2, 2, 2, 0, 0, 0, 2, 0, 2, 0, 0, 0, 1, 1, 0, 0, 0, 0, 0, 0, 0] ++ codeConstQ

theorem H6b2qg2_differs : nonzero [(1, H6b2qg2_q2, H6b2qg2.getS2 H6b2qg2.kE H6b2qg2.hE), (-16, H6b2qg2_q1, H6b2qg2.getS2 H6b2qg2.kE H6b2qg2.hE)] = true := by decide +kernel

theorem H6b2qg2_unit_violated : H6b2qg2.getS2 codeConst (unitMemQ 2 8).cast ≠ 2 ^ 4 * H6b2qg2.getS2 codeConst (unitMemQ 1 8).cast := by
  rw [value_at (P := H6b2qg2.pt) (H6b2qg2.linkS2 _) codeConst _ H6b2qg2_q2 (by
      simp only [H6b2qg2.pt, H6b2qg2_q2, codeConst, codeConstQ, unitMemQ, HMem.cast, List.map_append, List.map_cons, List.map_nil,
        List.cons_append, List.nil_append] <;> norm_num),
    value_at (P := H6b2qg2.pt) (H6b2qg2.linkS2 _) codeConst _ H6b2qg2_q1 (by
      simp only [H6b2qg2.pt, H6b2qg2_q1, codeConst, codeConstQ, unitMemQ, HMem.cast, List.map_append, List.map_cons, List.map_nil,
        List.cons_append, List.nil_append] <;> norm_num)]
  have h := nonzero_sound (fun _ => 0) H6b2qg2_differs
  simp only [sumR] at h
  intro e
  apply h
  rw [e]; push_cast; ring

def H6bq22g_q1 : List ℚ := [3 / 5, 3 / 4, 1, 2, 1, 0, 0, 0, 1, 0, 1, 0, 0, 0, 1, 1, 0, 0, 0, 0, 0, 0, 0] ++ codeConstQ
def H6bq22g_q2 : List ℚ := [3 / 5, 3 / 4, 2, 4, 2, 0, 0, 0, 2, 0, 2, 0, 0, 0, 1, 1, 0, 0, 0, 0, 0, 0, 0] ++ codeConstQ

theorem H6bq22g_differs : nonzero [(1, H6bq22g_q2, H6bq22g.getS2 H6bq22g.kE H6bq22g.hE), (-16, H6bq22g_q1, H6bq22g.getS2 H6bq22g.kE H6bq22g.hE)] = true := by decide +kernel

theorem H6bq22g_unit_violated : H6bq22g.getS2 codeConst (unitMemQ 2 9).cast ≠ 2 ^ 4 * H6bq22g.getS2 codeConst (unitMemQ 1 9).cast := by
  rw [value_at (P := H6bq22g.pt) (H6bq22g.linkS2 _) codeConst _ H6bq22g_q2 (by
      simp only [H6bq22g.pt, H6bq22g_q2, codeConst, codeConstQ, unitMemQ, HMem.cast, List.map_append, List.map_cons, List.map_nil,
        List.cons_append, List.nil_append] <;> norm_num),
    value_at (P := H6bq22g.pt) (H6bq22g.linkS2 _) codeConst _ H6bq22g_q1 (by
      simp only [H6bq22g.pt, H6bq22g_q1, codeConst, codeConstQ, unitMemQ, HMem.cast, List.map_append, List.map_cons, List.map_nil,
        List.cons_append, List.nil_append] <;> norm_num)]
  have h := nonzero_sound (fun _ => 0) H6bq22g_differs
  simp only [sumR] at h
  intro e
  apply h
  rw [e]; push_cast; ring

def H6bq2g2_q1 : List ℚ := [3 / 5, 3 / 4, 1, 2, 1, 1, 0, 0, 0, 1, 0, 1, 0, 0, 0, 1, 1, 0, 0, 0, 0, 0, 0, 0] ++ codeConstQ
def H6bq2g2_q2 : List ℚ := [3 / 5, 3 / 4, 2, 4, 2, 2, 0, 0, 0, 2, 0, 2, 0, 0, 0, 1, 1, 0, 0, 0, 0, 0, 0, 0] ++ codeConstQ

theorem H6bq2g2_differs : nonzero [(1, H6bq2g2_q2, H6bq2g2.getS2 H6bq2g2.kE H6bq2g2.hE), (-16, H6bq2g2_q1, H6bq2g2.getS2 H6bq2g2.kE H6bq2g2.hE)] = true := by decide +kernel

theorem H6bq2g2_unit_violated : H6bq2g2.getS2 codeConst (unitMemQ 2 10).cast ≠ 2 ^ 4 * H6bq2g2.getS2 codeConst (unitMemQ 1 10).cast := by
  rw [value_at (P := H6bq2g2.pt) (H6bq2g2.linkS2 _) codeConst _ H6bq2g2_q2 (by
      simp only [H6bq2g2.pt, H6bq2g2_q2, codeConst, codeConstQ, unitMemQ, HMem.cast, List.map_append, List.map_cons, List.map_nil,
        List.cons_append, List.nil_append] <;> norm_num),
    value_at (P := H6bq2g2.pt) (H6bq2g2.linkS2 _) codeConst _ H6bq2g2_q1 (by
      simp only [H6bq2g2.pt, H6bq2g2_q1, codeConst, codeConstQ, unitMemQ, HMem.cast, List.map_append, List.map_cons, List.map_nil,
        List.cons_append, List.nil_append] <;> norm_num)]
  have h := nonzero_sound (fun _ => 0) H6bq2g2_differs
  simp only [sumR] at h
  intro e
  apply h
  rw [e]; push_cast; ring

/-- **C65** In the hierarchies h6b, h6b2qg2, h6bq22g and h6bq2g2 the value of the self energy depends on the units of mass: the
calculator hands over the difference `Msq - Mst2` of two masses where the formulas of these classes need a difference of two squared
masses.  At `unitPoint`, doubling the unit of mass does not multiply the three-loop self energy by sixteen. -/
theorem C65_units_h6b_violated (ho : HObj ℝ) (k : Int) (hk : 7 ≤ k ∧ k ≤ 10) :
    RegularPoint unitPoint 1 1 ∧ ∃ r r', selfEnergies codeConst unitPoint (hoFor k ho) 1 1 [0, 0, 0] 0 threeLoopOnly = .ok r ∧
      selfEnergies codeConst (unitPoint.rescale 2) (hoFor k ho) (2 * 1) (2 * 1) [0, 0, 0] 0 threeLoopOnly = .ok r' ∧
      r'.s2 ≠ 2 ^ 4 * r.s2 := by
  refine ⟨unitPoint_regular, ?_⟩
  have hk' : k = 7 ∨ k = 8 ∨ k = 9 ∨ k = 10 := by omega
  have u1 : unitPoint.rescale ((1 : ℚ) : ℝ) = unitPoint := by
    simp [Params.rescale, unitPoint]
  have two : ((2 : ℚ) : ℝ) = 2 := by norm_num
  obtain ⟨C, ps, hC, hp⟩ : ∃ (C : ClassFns ℝ) (ps : List HParam), classFns k = some C ∧ ctorParams k = some ps := by
    rcases hk' with e | e | e | e <;> subst e <;> exact ⟨_, _, rfl, rfl⟩
  have m1 := unit_mem ho k hk' ps hp 1 (by norm_num)
  have m2 := unit_mem ho k hk' ps hp 2 (by norm_num)
  rw [u1, Rat.cast_one, one_mul] at m1
  rw [two] at m2
  refine ⟨_, _, selfEnergies_of codeConst unitPoint (hoFor k ho) 1 1 [0, 0, 0] 0 threeLoopOnly (C := C) (ps := ps) hC hp,
    selfEnergies_of codeConst _ (hoFor k ho) _ _ [0, 0, 0] 0 threeLoopOnly (C := C) (ps := ps) hC hp, ?_⟩
  show C.S2 codeConst (classMem Real.tan k ps [0, 0, 0] (ps.map (meaningAt (unitPoint.rescale 2) (hoFor k ho) (2 * 1) (2 * 1))) 0
    threeLoopOnly) ≠ 2 ^ 4 * C.S2 codeConst (classMem Real.tan k ps [0, 0, 0] (ps.map (meaningAt unitPoint (hoFor k ho) 1 1)) 0
    threeLoopOnly)
  rw [m1, m2]
  rcases hk' with e | e | e | e <;> subst e <;> cases hC
  · exact H6b_unit_violated
  · exact H6b2qg2_unit_violated
  · exact H6bq22g_unit_violated
  · exact H6bq2g2_unit_violated

end Himalaya
