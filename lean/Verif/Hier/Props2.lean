import Verif.Hier.UnitsBase
import Verif.Hier.H3P
import Verif.Hier.H32q2gP
import Verif.Hier.H3q22gP
import Verif.Hier.H4P
import Verif.Hier.H5P
import Verif.Hier.H5g1P
import Verif.Hier.H6P
import Verif.Hier.H6bP
import Verif.Hier.H6b2qg2P
import Verif.Hier.H6bq22gP
import Verif.Hier.H6bq2g2P
import Verif.Hier.H6g2P
import Verif.Hier.H9P
import Verif.Hier.H9q2P

/-!
# C65 (units of mass) and C66 (loop orders) of the three-loop hierarchy classes
-/

set_option linter.unusedVariables false
set_option linter.unusedSimpArgs false

namespace Himalaya

open scoped Himalaya

/-- The masses, the sine, cosine and tangent of `β` do not vanish. -/
structure HMem.Ok (h : HMem ℝ) : Prop where
  sb : h.Sbeta ≠ 0
  cb : h.Cbeta ≠ 0
  tb : h.Tbeta ≠ 0
  m1 : h.Mst1 ≠ 0
  m2 : h.Mst2 ≠ 0
  mq : h.Msq ≠ 0
  mg : h.Mgl ≠ 0
  ms : h.Msusy ≠ 0

/-- what each class divides by -/
def classReg : Int → HMem ℝ → Prop
  | 0 => H3.reg | 1 => H32q2g.reg | 2 => H3q22g.reg | 3 => H4.reg | 4 => H5.reg | 5 => H5g1.reg | 6 => H6.reg | 7 => H6b.reg
  | 8 => H6b2qg2.reg | 9 => H6bq22g.reg | 10 => H6bq2g2.reg | 11 => H6g2.reg | 12 => H9.reg | 13 => H9q2.reg
  | _ => fun _ => False

theorem HMem.Ok.reg {h : HMem ℝ} (o : h.Ok) (k : Int) (C : ClassFns ℝ) (hC : classFns k = some C) : classReg k h := by
  have hk : k = 0 ∨ k = 1 ∨ k = 2 ∨ k = 3 ∨ k = 4 ∨ k = 5 ∨ k = 6 ∨ k = 7 ∨ k = 8 ∨ k = 9 ∨ k = 10 ∨ k = 11 ∨ k = 12 ∨ k = 13 := by
    by_contra hn
    simp only [not_or] at hn
    unfold classFns at hC
    split at hC <;> first | omega | cases hC
  obtain ⟨h1, h2, h3, h4, h5, h6, h7, h8⟩ := o
  rcases hk with e | e | e | e | e | e | e | e | e | e | e | e | e | e <;> subst e <;>
    simp only [classReg, H3.reg, H32q2g.reg, H3q22g.reg, H4.reg, H5.reg, H5g1.reg, H6.reg, H6b.reg, H6b2qg2.reg, H6bq22g.reg,
      H6bq2g2.reg, H6g2.reg, H9.reg, H9q2.reg] <;> refine_lift ?_ <;> simp_all

/-- case distinction over the fourteen classes -/
theorem classFns_cases {Q : Int → ClassFns ℝ → Prop} (h0 : ∀ C, classFns 0 = some C → Q 0 C) (h1 : ∀ C, classFns 1 = some C → Q 1 C)
    (h2 : ∀ C, classFns 2 = some C → Q 2 C) (h3 : ∀ C, classFns 3 = some C → Q 3 C) (h4 : ∀ C, classFns 4 = some C → Q 4 C)
    (h5 : ∀ C, classFns 5 = some C → Q 5 C) (h6 : ∀ C, classFns 6 = some C → Q 6 C) (h7 : ∀ C, classFns 7 = some C → Q 7 C)
    (h8 : ∀ C, classFns 8 = some C → Q 8 C) (h9 : ∀ C, classFns 9 = some C → Q 9 C) (h10 : ∀ C, classFns 10 = some C → Q 10 C)
    (h11 : ∀ C, classFns 11 = some C → Q 11 C) (h12 : ∀ C, classFns 12 = some C → Q 12 C) (h13 : ∀ C, classFns 13 = some C → Q 13 C)
    (k : Int) (C : ClassFns ℝ) (hC : classFns k = some C) : Q k C := by
  have hk : k = 0 ∨ k = 1 ∨ k = 2 ∨ k = 3 ∨ k = 4 ∨ k = 5 ∨ k = 6 ∨ k = 7 ∨ k = 8 ∨ k = 9 ∨ k = 10 ∨ k = 11 ∨ k = 12 ∨ k = 13 := by
    by_contra hn
    simp only [not_or] at hn
    unfold classFns at hC
    split at hC <;> first | omega | cases hC
  rcases hk with e | e | e | e | e | e | e | e | e | e | e | e | e | e <;> subst e <;> solve_by_elim

/-- a property of the three self energies of a class -/
def ClassFns.All (C : ClassFns ℝ) (Q : SelfEnergy → Prop) : Prop := Q C.S1 ∧ Q C.S2 ∧ Q C.S12

theorem class_units : ∀ (k : Int) (C : ClassFns ℝ), classFns k = some C → C.All (Units (classReg k)) := by
  refine classFns_cases ?_ ?_ ?_ ?_ ?_ ?_ ?_ ?_ ?_ ?_ ?_ ?_ ?_ ?_ <;> intro C hC <;> cases hC
  · exact ⟨H3.unitsS1, H3.unitsS2, H3.unitsS12⟩
  · exact ⟨H32q2g.unitsS1, H32q2g.unitsS2, H32q2g.unitsS12⟩
  · exact ⟨H3q22g.unitsS1, H3q22g.unitsS2, H3q22g.unitsS12⟩
  · exact ⟨H4.unitsS1, H4.unitsS2, H4.unitsS12⟩
  · exact ⟨H5.unitsS1, H5.unitsS2, H5.unitsS12⟩
  · exact ⟨H5g1.unitsS1, H5g1.unitsS2, H5g1.unitsS12⟩
  · exact ⟨H6.unitsS1, H6.unitsS2, H6.unitsS12⟩
  · exact ⟨H6b.unitsS1, H6b.unitsS2, H6b.unitsS12⟩
  · exact ⟨H6b2qg2.unitsS1, H6b2qg2.unitsS2, H6b2qg2.unitsS12⟩
  · exact ⟨H6bq22g.unitsS1, H6bq22g.unitsS2, H6bq22g.unitsS12⟩
  · exact ⟨H6bq2g2.unitsS1, H6bq2g2.unitsS2, H6bq2g2.unitsS12⟩
  · exact ⟨H6g2.unitsS1, H6g2.unitsS2, H6g2.unitsS12⟩
  · exact ⟨H9.unitsS1, H9.unitsS2, H9.unitsS12⟩
  · exact ⟨H9q2.unitsS1, H9q2.unitsS2, H9q2.unitsS12⟩

/-- the quantities handed over for the constructor parameters (C45) -/
noncomputable abbrev meaningAt (p : Params ℝ) (ho : HObj ℝ) (M1 M2 : ℝ) : HParam → ℝ :=
  HParam.meaning p (if ho.getIsAlphab then p.Mb else p.Mt) M1 M2
    (if ho.getIsAlphab then p.Ad 2 2 else p.Au 2 2) (if ho.getIsAlphab then p.s2b else p.s2t)

theorem meaningAt_rescale {l : ℝ} (hl : 0 < l) (p : Params ℝ) (ho : HObj ℝ) (M1 M2 : ℝ) (P : HParam) :
    meaningAt (p.rescale l) ho (l * M1) (l * M2) P = l ^ P.dim * meaningAt p ho M1 M2 P := by
  unfold meaningAt
  rw [← meaning_rescale hl]
  have e1 : (if ho.getIsAlphab then (p.rescale l).Mb else (p.rescale l).Mt) = l * (if ho.getIsAlphab then p.Mb else p.Mt) := by
    split <;> rfl
  have e2 : (if ho.getIsAlphab then (p.rescale l).Ad 2 2 else (p.rescale l).Au 2 2)
      = l * (if ho.getIsAlphab then p.Ad 2 2 else p.Au 2 2) := by split <;> rfl
  rw [e1, e2]
  rfl

theorem selfEnergies_eq (kc : HConst ℝ) (p : Params ℝ) (ho : HObj ℝ) (M1 M2 : ℝ) (xs : List Int) (mdr : Int) (fl : LoopFlags)
    (r : HierOut ℝ) (h : selfEnergies kc p ho M1 M2 xs mdr fl = .ok r) : ∃ (C : ClassFns ℝ) (ps : List HParam),
      classFns ho.getSuitableHierarchy = some C ∧ ctorParams ho.getSuitableHierarchy = some ps := by
  unfold selfEnergies at h
  split at h
  · unfold classImpl at h
    split at h
    · exact ⟨_, _, by assumption, by assumption⟩
    · cases h
  · cases h

theorem selfEnergies_of (kc : HConst ℝ) (p : Params ℝ) (ho : HObj ℝ) (M1 M2 : ℝ) (xs : List Int) (mdr : Int) (fl : LoopFlags)
    {C : ClassFns ℝ} {ps : List HParam} (hC : classFns ho.getSuitableHierarchy = some C)
    (hp : ctorParams ho.getSuitableHierarchy = some ps) :
    selfEnergies kc p ho M1 M2 xs mdr fl =
      let h := classMem Real.tan ho.getSuitableHierarchy ps xs (ps.map (meaningAt p ho M1 M2)) mdr fl
      .ok { s1 := C.S1 kc h, s2 := C.S2 kc h, s12 := C.S12 kc h, c0 := C.c0 kc h, c1 := C.c1 kc h, c2 := C.c2 kc h, c3 := C.c3 kc h } := by
  unfold selfEnergies
  rw [C45_arguments_match_parameters, hp]
  simp only [Option.map_some, classImpl, hC, hp]

theorem classReg_of_regular {p : Params ℝ} {ho : HObj ℝ} {M1 M2 : ℝ} (hr : RegularPoint p M1 M2) (xs : List Int) (mdr : Int)
    (fl : LoopFlags) {C : ClassFns ℝ} {ps : List HParam} (hC : classFns ho.getSuitableHierarchy = some C)
    (hp : ctorParams ho.getSuitableHierarchy = some ps) :
    classReg ho.getSuitableHierarchy (classMem Real.tan ho.getSuitableHierarchy ps xs (ps.map (meaningAt p ho M1 M2)) mdr fl) := by
  obtain ⟨m1, m2, mg, mq, hs, vu, vd⟩ := hr
  have hx : 0 < p.vu / p.vd := div_pos vu vd
  have hsin : Real.sin (Real.arctan (p.vu / p.vd)) ≠ 0 := by
    rw [Real.sin_arctan]; positivity
  have hcos : Real.cos (Real.arctan (p.vu / p.vd)) ≠ 0 := (Real.cos_arctan_pos _).ne'
  have htan : Real.tan (Real.arctan (p.vu / p.vd)) ≠ 0 := by rw [Real.tan_arctan]; exact hx.ne'
  have hs' : (M1 + M2 + p.MG) / 3 ≠ 0 := div_ne_zero hs (by norm_num)
  generalize ho.getSuitableHierarchy = k at *
  revert hp
  have := classFns_cases (Q := fun k C => ctorParams k = some ps →
    classReg k (classMem Real.tan k ps xs (ps.map (meaningAt p ho M1 M2)) mdr fl)) ?_ ?_ ?_ ?_ ?_ ?_ ?_ ?_ ?_ ?_ ?_ ?_ ?_ ?_ k C hC
  · exact this
  all_goals
    intro C hC hp
    cases hp
    simp only [classReg, H3.reg, H32q2g.reg, H3q22g.reg, H4.reg, H5.reg, H5g1.reg, H6.reg, H6b.reg, H6b2qg2.reg, H6bq22g.reg,
      H6bq2g2.reg, H6g2.reg, H9.reg, H9q2.reg, classMem, argOf_map]
    simp only [List.mem_cons, reduceCtorEq, false_or, or_false, true_or, or_true, if_true, List.not_mem_nil, meaningAt, HParam.meaning,
      real_sin, real_cos, real_atan]
    refine_lift ?_
    (try simp only [real_ofNat])
    (try push_cast)
    simp_all

/-- **C65** If all masses (and the renormalization scale) are given in other units, the self energies obtained from the class of the
chosen hierarchy are the same quantities in the new units; except in the hierarchies h6b, h6b2qg2, h6bq22g, h6bq2g2 (see
`C65_units_h6b_violated`). -/
theorem C65_units (kc : HConst ℝ) (p : Params ℝ) (ho : HObj ℝ) (M1 M2 : ℝ) (xs : List Int) (mdr : Int) (fl : LoopFlags) (l : ℝ)
    (hl : 0 < l) (hr : RegularPoint p M1 M2) (hk : ho.getSuitableHierarchy < 7 ∨ 10 < ho.getSuitableHierarchy) (r : HierOut ℝ)
    (h : selfEnergies kc p ho M1 M2 xs mdr fl = .ok r) :
    ∃ r', selfEnergies kc (p.rescale l) ho (l * M1) (l * M2) xs mdr fl = .ok r' ∧
      r'.s1 = l ^ 4 * r.s1 ∧ r'.s2 = l ^ 4 * r.s2 ∧ r'.s12 = l ^ 4 * r.s12 := by
  obtain ⟨C, ps, hC, hp⟩ := selfEnergies_eq kc p ho M1 M2 xs mdr fl r h
  rw [selfEnergies_of kc p ho M1 M2 xs mdr fl hC hp] at h
  have reg := classReg_of_regular hr xs mdr fl hC hp
  have hD : HParam.Dmsqst2 ∉ ps := by
    revert hk hp
    generalize ho.getSuitableHierarchy = k at hC
    refine classFns_cases (Q := fun k C => (k < 7 ∨ 10 < k) → ctorParams k = some ps → HParam.Dmsqst2 ∉ ps)
      ?_ ?_ ?_ ?_ ?_ ?_ ?_ ?_ ?_ ?_ ?_ ?_ ?_ ?_ k C hC <;> intro C hC hk hp <;> cases hp <;> first | omega | decide
  have e := classMem_rescale ho.getSuitableHierarchy ps xs mdr fl (meaningAt p ho M1 M2) _ (meaningAt_rescale hl p ho M1 M2) hD
  obtain ⟨u1, u2, u3⟩ := class_units _ _ hC
  refine ⟨_, selfEnergies_of kc _ ho _ _ xs mdr fl hC hp, ?_⟩
  cases h
  simp only [e]
  exact ⟨u1 kc _ l hl.ne' reg, u2 kc _ l hl.ne' reg, u3 kc _ l hl.ne' reg⟩

theorem class_loops : ∀ (k : Int) (C : ClassFns ℝ), classFns k = some C → C.All (Loops (classReg k)) := by
  refine classFns_cases ?_ ?_ ?_ ?_ ?_ ?_ ?_ ?_ ?_ ?_ ?_ ?_ ?_ ?_ <;> intro C hC <;> cases hC
  · exact ⟨H3.loopsS1, H3.loopsS2, H3.loopsS12⟩
  · exact ⟨H32q2g.loopsS1, H32q2g.loopsS2, H32q2g.loopsS12⟩
  · exact ⟨H3q22g.loopsS1, H3q22g.loopsS2, H3q22g.loopsS12⟩
  · exact ⟨H4.loopsS1, H4.loopsS2, H4.loopsS12⟩
  · exact ⟨H5.loopsS1, H5.loopsS2, H5.loopsS12⟩
  · exact ⟨H5g1.loopsS1, H5g1.loopsS2, H5g1.loopsS12⟩
  · exact ⟨H6.loopsS1, H6.loopsS2, H6.loopsS12⟩
  · exact ⟨H6b.loopsS1, H6b.loopsS2, H6b.loopsS12⟩
  · exact ⟨H6b2qg2.loopsS1, H6b2qg2.loopsS2, H6b2qg2.loopsS12⟩
  · exact ⟨H6bq22g.loopsS1, H6bq22g.loopsS2, H6bq22g.loopsS12⟩
  · exact ⟨H6bq2g2.loopsS1, H6bq2g2.loopsS2, H6bq2g2.loopsS12⟩
  · exact ⟨H6g2.loopsS1, H6g2.loopsS2, H6g2.loopsS12⟩
  · exact ⟨H9.loopsS1, H9.loopsS2, H9.loopsS12⟩
  · exact ⟨H9q2.loopsS1, H9q2.loopsS2, H9q2.loopsS12⟩

theorem class_mtSign : ∀ (k : Int) (C : ClassFns ℝ), classFns k = some C → C.All (MtSign (classReg k)) := by
  refine classFns_cases ?_ ?_ ?_ ?_ ?_ ?_ ?_ ?_ ?_ ?_ ?_ ?_ ?_ ?_ <;> intro C hC <;> cases hC
  · exact ⟨H3.mtSignS1, H3.mtSignS2, H3.mtSignS12⟩
  · exact ⟨H32q2g.mtSignS1, H32q2g.mtSignS2, H32q2g.mtSignS12⟩
  · exact ⟨H3q22g.mtSignS1, H3q22g.mtSignS2, H3q22g.mtSignS12⟩
  · exact ⟨H4.mtSignS1, H4.mtSignS2, H4.mtSignS12⟩
  · exact ⟨H5.mtSignS1, H5.mtSignS2, H5.mtSignS12⟩
  · exact ⟨H5g1.mtSignS1, H5g1.mtSignS2, H5g1.mtSignS12⟩
  · exact ⟨H6.mtSignS1, H6.mtSignS2, H6.mtSignS12⟩
  · exact ⟨H6b.mtSignS1, H6b.mtSignS2, H6b.mtSignS12⟩
  · exact ⟨H6b2qg2.mtSignS1, H6b2qg2.mtSignS2, H6b2qg2.mtSignS12⟩
  · exact ⟨H6bq22g.mtSignS1, H6bq22g.mtSignS2, H6bq22g.mtSignS12⟩
  · exact ⟨H6bq2g2.mtSignS1, H6bq2g2.mtSignS2, H6bq2g2.mtSignS12⟩
  · exact ⟨H6g2.mtSignS1, H6g2.mtSignS2, H6g2.mtSignS12⟩
  · exact ⟨H9.mtSignS1, H9.mtSignS2, H9.mtSignS12⟩
  · exact ⟨H9q2.mtSignS1, H9q2.mtSignS2, H9q2.mtSignS12⟩

/-- **C66** For every class: with `a = αs/(4π)` the value for any loop flags is the sum of the one-loop part, `a` times the two-loop
part and `a²` times the three-loop part, and each flag switches exactly one of the three. -/
theorem C66_loop_orders (kc : HConst ℝ) (k : Int) (C : ClassFns ℝ) (hC : classFns k = some C) (h : HMem ℝ) (ok : h.Ok) (f1 f2 f3 a : ℝ)
    (S : SelfEnergy) (hS : S = C.S1 ∨ S = C.S2 ∨ S = C.S12) :
    S kc (h.loops f1 f2 f3 a) =
      f1 * S kc (h.loops 1 0 0 1) + f2 * a * S kc (h.loops 0 1 0 1) + f3 * a ^ 2 * S kc (h.loops 0 0 1 1) := by
  obtain ⟨u1, u2, u3⟩ := class_loops k C hC
  have reg := ok.reg k C hC
  rcases hS with e | e | e <;> subst e
  · exact u1 kc h f1 f2 f3 a reg
  · exact u2 kc h f1 f2 f3 a reg
  · exact u3 kc h f1 f2 f3 a reg

/-- **C66** At a parameter point: the one-loop contribution does not depend on `g3`, the two-loop contribution is proportional to
`g3²` and the three-loop contribution to `g3⁴`, whatever the hierarchy. -/
theorem C66_powers_of_g3 (kc : HConst ℝ) (p : Params ℝ) (ho : HObj ℝ) (M1 M2 : ℝ) (xs : List Int) (mdr : Int) (g : ℝ)
    (hr : RegularPoint p M1 M2) (n : ℕ) (fl : LoopFlags)
    (hn : (n = 1 ∧ fl = ⟨1, 0, 0⟩) ∨ (n = 2 ∧ fl = ⟨0, 1, 0⟩) ∨ (n = 3 ∧ fl = ⟨0, 0, 1⟩)) (r : HierOut ℝ)
    (h : selfEnergies kc { p with g3 := 1 } ho M1 M2 xs mdr fl = .ok r) :
    ∃ r', selfEnergies kc { p with g3 := g } ho M1 M2 xs mdr fl = .ok r' ∧
      r'.s1 = (g ^ 2) ^ (n - 1) * r.s1 ∧ r'.s2 = (g ^ 2) ^ (n - 1) * r.s2 ∧ r'.s12 = (g ^ 2) ^ (n - 1) * r.s12 := by
  obtain ⟨C, ps, hC, hp⟩ := selfEnergies_eq kc _ ho M1 M2 xs mdr fl r h
  rw [selfEnergies_of kc _ ho M1 M2 xs mdr fl hC hp] at h
  have hr' : ∀ g : ℝ, RegularPoint { p with g3 := g } M1 M2 := fun g => ⟨hr.1, hr.2, hr.3, hr.4, hr.5, hr.6, hr.7⟩
  have reg := fun g => classReg_of_regular (hr' g) xs mdr ⟨0, 0, 0⟩ hC hp
  refine ⟨_, selfEnergies_of kc _ ho _ _ xs mdr fl hC hp, ?_⟩
  have key : ∀ g : ℝ, classMem Real.tan ho.getSuitableHierarchy ps xs (ps.map (meaningAt { p with g3 := g } ho M1 M2)) mdr fl =
      (classMem Real.tan ho.getSuitableHierarchy ps xs (ps.map (meaningAt p ho M1 M2)) mdr ⟨0, 0, 0⟩).loops
        fl.oneLoop fl.twoLoop fl.threeLoop (Const.oneLoop.value * (g * g)) := by
    intro g
    have hA : HParam.Al4p ∈ ps := by
      clear h reg
      generalize ho.getSuitableHierarchy = k at *
      revert hp
      refine classFns_cases (Q := fun k C => ctorParams k = some ps → HParam.Al4p ∈ ps)
        ?_ ?_ ?_ ?_ ?_ ?_ ?_ ?_ ?_ ?_ ?_ ?_ ?_ ?_ k C hC <;> intro C hC hp <;> cases hp <;> decide
    simp only [classMem, HMem.loops, argOf_map, if_pos hA, real_ofInt]
    rfl
  have reg0 := classReg_of_regular hr xs mdr ⟨0, 0, 0⟩ hC hp
  obtain ⟨u1, u2, u3⟩ := class_loops _ C hC
  cases h
  simp only [key]
  generalize classMem Real.tan ho.getSuitableHierarchy ps xs (ps.map (meaningAt p ho M1 M2)) mdr ⟨0, 0, 0⟩ = m at *
  rcases hn with ⟨e, e'⟩ | ⟨e, e'⟩ | ⟨e, e'⟩ <;> subst e <;> subst e' <;> simp only [Int.cast_one, Int.cast_zero] <;>
    refine ⟨?_, ?_, ?_⟩ <;>
    (first
      | rw [u1 kc m _ _ _ _ reg0, u1 kc m _ _ _ (Const.oneLoop.value * (1 * 1)) reg0]
      | rw [u2 kc m _ _ _ _ reg0, u2 kc m _ _ _ (Const.oneLoop.value * (1 * 1)) reg0]
      | rw [u3 kc m _ _ _ _ reg0, u3 kc m _ _ _ (Const.oneLoop.value * (1 * 1)) reg0]) <;> ring

/-- **C66** The sign of the fermion mass is a convention: changing it together with the sign of the mixing angle changes nothing. -/
theorem C66_sign_of_mass (kc : HConst ℝ) (k : Int) (C : ClassFns ℝ) (hC : classFns k = some C) (h : HMem ℝ) (ok : h.Ok)
    (S : SelfEnergy) (hS : S = C.S1 ∨ S = C.S2 ∨ S = C.S12) : S kc { h with Mt := -h.Mt, s2t := -h.s2t } = S kc h := by
  obtain ⟨u1, u2, u3⟩ := class_mtSign k C hC
  have reg := ok.reg k C hC
  rcases hS with e | e | e <;> subst e
  · exact u1 kc h reg
  · exact u2 kc h reg
  · exact u3 kc h reg

end Himalaya
