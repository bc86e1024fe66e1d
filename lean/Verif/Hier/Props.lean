import Verif.Hier.Classes
import Mathlib.Tactic.IntervalCases
import Mathlib.Tactic.FinCases

/-!
# C27 (truncation flags of the hierarchy classes) and C45 (arguments of the hierarchy classes)
-/

set_option linter.unusedSimpArgs false
set_option linter.unusedVariables false
set_option linter.unusedSectionVars false

namespace Himalaya

open CalcM

/-! ### C45: the arguments at the call sites are the quantities the parameters are named after -/

section args
open FOps
open scoped Himalaya
variable {F : Type} [Add F] [Sub F] [Mul F] [Div F] [Neg F] [FOps F]

/-- Meaning of a constructor parameter, from the documentation of the constructors (e.g. hierarchies/H3.hpp:18-38,
hierarchies/H4.hpp:18-32, hierarchies/H6b.hpp:18-36), for the quark/squark family in question: quark mass `Mf`, squark masses
`M1`, `M2`, trilinear coupling `At`, sine of twice the mixing angle `s2f`. -/
def HParam.meaning (p : Params F) (Mf M1 M2 Af s2f : F) : HParam → F
  | .Al4p => const .oneLoop * (p.g3 * p.g3)
  | .beta => atan (p.vu / p.vd)
  | .At => Af
  | .Dmglst1 => p.MG - M1
  | .Dmglst2 => p.MG - M2
  | .Dmst12 => M1 * M1 - M2 * M2
  | .Dmsqst1 => calcMeanMsq p * calcMeanMsq p - M1 * M1
  | .Dmsqst2 => calcMeanMsq p - M2
  | .lmMt => log (p.scale / Mf * (p.scale / Mf))
  | .lmMst1 => log (p.scale / M1 * (p.scale / M1))
  | .lmMst2 => log (p.scale / M2 * (p.scale / M2))
  | .lmMsq => log (p.scale / calcMeanMsq p * (p.scale / calcMeanMsq p))
  | .lmMgl => log (p.scale / p.MG * (p.scale / p.MG))
  | .lmMsusy => log (p.scale / ((M1 + M2 + p.MG) / 3) * (p.scale / ((M1 + M2 + p.MG) / 3)))
  | .Mgl => p.MG
  | .Mt => Mf
  | .Mst1 => M1
  | .Mst2 => M2
  | .Msq => calcMeanMsq p
  | .Msusy => (M1 + M2 + p.MG) / 3
  | .MuSUSY => p.mu
  | .s2t => s2f

/-- **C45** For every hierarchy key the arguments handed over are, position by position, the quantities documented for the
constructor's parameters; top/stop quantities for the alpha_t corrections and bottom/sbottom quantities for the alpha_b
corrections.  Unknown keys have no class. -/
theorem C45_arguments_match_parameters (p : Params F) (ho : HObj F) (M1 M2 : F) :
    hierArgs p ho M1 M2 = (ctorParams ho.getSuitableHierarchy).map (fun l =>
      l.map (HParam.meaning p (if ho.getIsAlphab then p.Mb else p.Mt) M1 M2
        (if ho.getIsAlphab then p.Ad 2 2 else p.Au 2 2) (if ho.getIsAlphab then p.s2b else p.s2t))) := by
  have hk : ho.getSuitableHierarchy < 0 ∨ 13 < ho.getSuitableHierarchy ∨
      (0 ≤ ho.getSuitableHierarchy ∧ ho.getSuitableHierarchy ≤ 13) := by omega
  unfold hierArgs
  generalize ho.getSuitableHierarchy = k at *
  rcases or_assoc.2 hk with h | ⟨h1, h2⟩
  · have hc : ctorParams k = none := by
      unfold ctorParams
      split <;> first | omega | rfl
    rw [hc]
    generalize ho.getIsAlphab = b
    dsimp only
    split <;> first | omega | rfl
  · interval_cases k <;> rfl

/-- the documented number of arguments of each class -/
theorem C45_known_keys (p : Params F) (ho : HObj F) (M1 M2 : F) :
    (hierArgs p ho M1 M2).isSome = true ↔ 0 ≤ ho.getSuitableHierarchy ∧ ho.getSuitableHierarchy ≤ 13 := by
  rw [C45_arguments_match_parameters, Option.isSome_map]
  generalize ho.getSuitableHierarchy = k
  constructor
  · intro h
    unfold ctorParams at h
    split at h <;> first | (refine ⟨by omega, by omega⟩) | (exact absurd h (by simp))
  · rintro ⟨h1, h2⟩
    interval_cases k <;> rfl

end args

/-! ### C27 -/

/-- a class follows the naming: each truncation member is initialised from the flag of the same name -/
def HonoursFlags (k : Int) : Prop := ∀ m ∈ flagReads k, m.2 = m.1

instance (k : Int) : Decidable (HonoursFlags k) := by unfold HonoursFlags; infer_instance

/-- **C27** Exactly the nine classes h4, h5, h5g1, h6, h6b, h6b2qg2, h6bq22g, h6bq2g2 and h6g2 read, for every truncation
member, the flag the member is named after.  h3, h32q2g, h3q22g, h9 and h9q2 do not. -/
theorem C27_classes_honouring_their_flags (k : Int) (h0 : 0 ≤ k) (h1 : k ≤ 13) :
    HonoursFlags k ↔ (k ≠ Hier.h3 ∧ k ≠ Hier.h32q2g ∧ k ≠ Hier.h3q22g ∧ k ≠ Hier.h9 ∧ k ≠ Hier.h9q2) := by
  interval_cases k <;> simp [HonoursFlags, flagReads] <;> decide

/-- the property as one would expect it fails -/
theorem C27_not_all_classes_honour_flags : ¬ ∀ k : Int, 0 ≤ k → k ≤ 13 → HonoursFlags k := by
  intro h; exact absurd (h 0 (by decide) (by decide)) (by decide)

/-- the wrong read concerns only the member `xDmst12`, and it is the flag `Dmglst1` that is read in its place -/
theorem C27_only_Dmst12_is_wrong (k : Int) (m : DepthIdx × DepthIdx) (hm : m ∈ flagReads k) (h : m.2 ≠ m.1) :
    m = (XD.Dmst12, XD.Dmglst1) := by
  unfold flagReads at hm
  split at hm <;> simp only [List.mem_cons, List.not_mem_nil, or_false] at hm
  all_goals (rcases hm with rfl | rfl | rfl | rfl) <;> first | rfl | exact absurd rfl h

section flags
variable {F : Type} [Add F] [Sub F] [Mul F] [Div F] [Neg F] [FOps F]

/-- For every hierarchy the expanded self energies react to the flags read by the class only. -/
theorem C27_depends_on_read_flags (E : Env F) (I : Impl F) (k : Int) (d d' : Depth) (args : List F) (mdr : Int) (fl : LoopFlags)
    (h : ∀ m ∈ flagReads k, d m.2 = d' m.2) :
    (E.withClasses I).hier k d args mdr fl = (E.withClasses I).hier k d' args mdr fl := by
  show I k _ args mdr fl = I k _ args mdr fl
  rw [List.map_congr_left h]

/-- **C27** The truncation flag Dmst12 has no effect at all: no class reads it. -/
theorem C27_Dmst12_has_no_effect (E : Env F) (I : Impl F) (k : Int) (d : Depth) (v : Int) (args : List F) (mdr : Int) (fl : LoopFlags) :
    (E.withClasses I).hier k (setIdx d XD.Dmst12 v) args mdr fl = (E.withClasses I).hier k d args mdr fl := by
  apply C27_depends_on_read_flags
  intro m hm
  have : m.2 ≠ XD.Dmst12 := by
    unfold flagReads at hm
    split at hm <;> simp only [List.mem_cons, List.not_mem_nil, or_false] at hm
    all_goals (rcases hm with rfl | rfl | rfl | rfl) <;> simp [XD.Dmst12, XD.Dmglst1, XD.Dmsqst1, XD.At, XD.Msq, XD.lmMsusy, XD.Msusy,
      XD.Dmglst2, XD.Dmsqst2, XD.Mst, XD.threeLoop, XD.Mgl]
  simp [setIdx, this]

end flags

/-- **C27** As a consequence the expansion uncertainty of h3, h32q2g, h3q22g, h9 and h9q2 has no contribution from the expansion
in the stop mass difference: it is the sum over the other variables only. -/
theorem C27_uncertainty_misses_Dmst12 (E : Env ℝ) (I : Impl ℝ) (p : Params ℝ) (s : St ℝ) (M : Mat2 ℝ) (f1 f2 f3 : Int) (u : ℝ)
    (h : (getExpansionUncertainty (E.withClasses I) p M f1 f2 f3 s).1 = .ok u) :
    ∃ (Mh : ℝ) (mh : DepthIdx → ℝ), higgsMass (E.withClasses I) p s.ho M f1 f2 f3 (fullDepth s.depth) = .ok Mh ∧
      (∀ i ∈ truncatedVariables s.ho.getSuitableHierarchy,
        higgsMass (E.withClasses I) p s.ho M f1 f2 f3 (without (fullDepth s.depth) i) = .ok (mh i)) ∧
      u = Real.sqrt (∑ i ∈ (truncatedVariables s.ho.getSuitableHierarchy).erase XD.Dmst12, (Mh - mh i)^2) := by
  obtain ⟨Mh, mh, h1, h2, h3⟩ := C26_formula _ p s M f1 f2 f3 u h
  refine ⟨Mh, mh, h1, h2, ?_⟩
  rw [h3]
  congr 1
  by_cases hm : XD.Dmst12 ∈ truncatedVariables s.ho.getSuitableHierarchy
  · have e : higgsMass (E.withClasses I) p s.ho M f1 f2 f3 (without (fullDepth s.depth) XD.Dmst12) =
        higgsMass (E.withClasses I) p s.ho M f1 f2 f3 (fullDepth s.depth) := by
      unfold higgsMass
      rw [calculateHierarchy_fst, calculateHierarchy_fst]
      unfold pureHier pureStep loopOut
      have hw : without (fullDepth s.depth) XD.Dmst12 = setIdx (fullDepth s.depth) XD.Dmst12 0 := rfl
      simp only [hw, C27_Dmst12_has_no_effect]
    have hm0 : mh XD.Dmst12 = Mh := by
      have := h2 _ hm
      rw [e, h1] at this
      exact (Except.ok.inj this).symm
    rw [← Finset.sum_erase_add _ _ hm, hm0]
    simp
  · rw [Finset.erase_eq_of_notMem hm]

/-- the hierarchies for which the missing variable is one the uncertainty claims to cover -/
theorem C27_affected_hierarchies (k : Int) (h0 : 0 ≤ k) (h1 : k ≤ 13) :
    XD.Dmst12 ∈ truncatedVariables k ↔ ¬ HonoursFlags k := by
  interval_cases k <;> simp [HonoursFlags, flagReads, truncatedVariables, XD.Dmst12, XD.Dmglst1, XD.Dmsqst1, XD.At, XD.Msq, XD.lmMsusy, XD.Msusy,
      XD.Dmglst2, XD.Dmsqst2, XD.Mst, XD.threeLoop, XD.Mgl]

/-- every other variable covered by the uncertainty of a hierarchy is really truncated by the class -/
theorem C27_other_truncations_are_read_partial (k : Int) (h0 : 0 ≤ k) (h1 : k ≤ 13) (i : DepthIdx) (hi : i ∈ truncatedVariables k)
    (hne : i ≠ XD.Dmst12) : (i, i) ∈ flagReads k := by
  interval_cases k <;> simp [truncatedVariables] at hi <;> (rcases hi with rfl | rfl | rfl | rfl) <;>
    first | (exact absurd rfl hne) | (simp [flagReads])

/-- A run to which the theorems apply: hierarchy h3, formulas that react to the truncation members, with result `ok`. -/
noncomputable def exampleImpl : Impl ℝ := fun _ fl _ _ _ => .ok ⟨(fl.sum : ℤ), 0, 0, 0, 0, 0, 0⟩

example : ∃ u, (getExpansionUncertainty (exampleEnv.withClasses exampleImpl) examplePoint zeroMat 0 0 1
    ⟨fun _ => 1, HObj.new false⟩).1 = .ok u :=
  C26_total _ _ _ _ _ _ _ ⟨by simp [HObj.new, HObj.getSuitableHierarchy], by simp [HObj.new, HObj.getSuitableHierarchy]⟩ (fun _ _ _ _ _ => ⟨_, rfl⟩)

/-! ### Tightened statements about the calculator -/

/-- **C22** The Xt truncation of the scheme conversion and the Xt order reported for the threshold correction agree for every
hierarchy: Xt^4 is dropped exactly for the hierarchies derived from h3 and h9, for which the Xt uncertainty is non-trivial. -/
theorem C22_xt_truncation_consistent (h : Int) (h0 : 0 ≤ h) (h1 : h ≤ 13) :
    (truncateXt h = 0 ↔ getMotherHierarchy h = .ok Hier.h3 ∨ getMotherHierarchy h = .ok Hier.h9) ∧
    (xtOrderOf h = 3 ↔ getMotherHierarchy h = .ok Hier.h3 ∨ getMotherHierarchy h = .ok Hier.h9) ∧
    (truncateXt h = 0 ∨ truncateXt h = 1) ∧ (xtOrderOf h = 3 ∨ xtOrderOf h = 4) := by
  have key : ∀ a b : Int, (Except.ok a : Except String Int) = .ok b ↔ a = b := fun a b => ⟨Except.ok.inj, fun e => by rw [e]⟩
  interval_cases h <;> simp [truncateXt, xtOrderOf, getMotherHierarchy, key, Hier.FIRST, Hier.NUMBER_OF_HIERARCHIES]

/-- **C25** The MDR shift is the difference of the one-loop (two-loop) matrices computed with and without shifted masses. -/
theorem C25_shift_is_difference (E : Env ℝ) (p : Params ℝ) (ho : HObj ℝ) (a1 b1 a2 b2 : Mat2 ℝ)
    (h1 : getMt41L p ho 1 1 = .ok a1) (h1' : getMt41L p ho 0 0 = .ok b1)
    (h2 : getMt42L E p ho 1 1 = .ok a2) (h2' : getMt42L E p ho 0 0 = .ok b2) :
    calcDRbarToMDRbarShift E p ho true false = .ok (a1 - b1) ∧
    calcDRbarToMDRbarShift E p ho false true = .ok (a2 - b2) ∧
    calcDRbarToMDRbarShift E p ho true true = .ok (a1 - b1 + (a2 - b2)) := by
  have e : ∀ m : Mat2 ℝ, (Mat2.const (@OfNat.ofNat ℝ 0 (FOps.instOfNat 0)) : Mat2 ℝ) + m = m := by
    intro m
    show Mat2.add _ m = m
    cases m
    simp [Mat2.add, Mat2.const]
  have e' : ∀ m : Mat2 ℝ, (Mat2.const (0 : ℝ) : Mat2 ℝ) + m = m := by
    intro m
    show Mat2.add _ m = m
    cases m
    simp [Mat2.add, Mat2.const]
  refine ⟨?_, ?_, ?_⟩ <;> simp [calcDRbarToMDRbarShift, h1, h1', h2, h2', e, e', Bind.bind, Except.bind, Pure.pure, Except.pure]

example : ∃ a1 b1 a2 b2, getMt41L examplePoint (HObj.new false) 1 1 = .ok a1 ∧ getMt41L examplePoint (HObj.new false) 0 0 = .ok b1 ∧
    getMt42L exampleEnv examplePoint (HObj.new false) 1 1 = .ok a2 ∧ getMt42L exampleEnv examplePoint (HObj.new false) 0 0 = .ok b2 :=
  ⟨_, _, _, _, rfl, rfl, rfl, rfl⟩

/-- The matching point of a parameter point: stop soft-breaking masses replaced by the stop pole-like masses, mU3^2 by the
lighter and mQ3^2 by the heavier one; everything else unchanged. -/
structure IsMatchingPoint {F : Type} [Mul F] (p q : Params F) : Prop where
  mu22 : q.mu2 2 2 = p.MSt.x0 * p.MSt.x0
  mq22 : q.mq2 2 2 = p.MSt.x1 * p.MSt.x1
  muOther : ∀ i j, ¬ (i = 2 ∧ j = 2) → q.mu2 i j = p.mu2 i j
  mqOther : ∀ i j, ¬ (i = 2 ∧ j = 2) → q.mq2 i j = p.mq2 i j
  rest : { q with mu2 := p.mu2, mq2 := p.mq2 } = p

section
variable {F : Type} [Add F] [Sub F] [Mul F] [Div F] [Neg F] [FOps F]

theorem pMassES_matching (p : Params F) : IsMatchingPoint p (pMassES p) where
  mu22 := rfl
  mq22 := rfl
  muOther := fun i j h => if_neg h
  mqOther := fun i j h => if_neg h
  rest := rfl

theorem matching_unique {p q : Params F} (h : IsMatchingPoint p q) : q = pMassES p := by
  have h1 : q.mu2 = p.mu2.set22 (pow2 p.MSt.x0) := by
    funext i j
    unfold Mat3.set22
    split
    · rename_i hc; rw [hc.1, hc.2]; exact h.mu22
    · rename_i hc; exact h.muOther i j hc
  have h2 : q.mq2 = p.mq2.set22 (pow2 p.MSt.x1) := by
    funext i j
    unfold Mat3.set22
    split
    · rename_i hc; rw [hc.1, hc.2]; exact h.mq22
    · rename_i hc; exact h.mqOther i j hc
  have h3 := h.rest
  cases q
  dsimp only at h1 h2 h3 ⊢
  unfold pMassES
  rw [← h3]
  dsimp only
  rw [← h3] at h1 h2
  dsimp only at h1 h2
  rw [h1, h2]

/-- **C21** The threshold corrections and the subtracted EFT terms are evaluated at the matching point only: calculators that
agree there give the same result object, whatever they return elsewhere. -/
theorem C21_matching_point (E : Env F) (p : Params F) (b : Bool) (s : St F)
    (eft : Params F → Except String (Eft F)) (tc : Params F → Except String (Tc F))
    (h1 : ∀ q, IsMatchingPoint p q → eft q = E.eftAs q) (h2 : ∀ q, IsMatchingPoint p q → tc q = E.tc q) :
    calculateDMh3L { E with eftAs := eft, tc := tc } p b s = calculateDMh3L E p b s := by
  have e1 := h1 _ (pMassES_matching p)
  have e2 := h2 _ (pMassES_matching p)
  have l3 : ∀ o, calcDeltaLambda3L { E with eftAs := eft, tc := tc } p o = calcDeltaLambda3L E p o := by
    intro o; unfold calcDeltaLambda3L; simp only [e1, e2]
  have ll : dmh3lLambda { E with eftAs := eft, tc := tc } p b = dmh3lLambda E p b := by
    unfold dmh3lLambda; simp only [e1, e2, l3]
  have hh : ∀ f1 f2 f3, calculateHierarchy { E with eftAs := eft, tc := tc } p f1 f2 f3 = calculateHierarchy E p f1 f2 f3 := fun _ _ _ => rfl
  have h4 : ∀ x y z, getMt42L { E with eftAs := eft, tc := tc } p x y z = getMt42L E p x y z := fun _ _ _ => rfl
  have hr : ∀ M f1 f2 f3, recomputeMh { E with eftAs := eft, tc := tc } p M f1 f2 f3 = recomputeMh E p M f1 f2 f3 := fun _ _ _ _ => rfl
  have hs : ∀ M f1 f2 f3 Mh l acc, sumTruncations { E with eftAs := eft, tc := tc } p M f1 f2 f3 Mh l acc =
      sumTruncations E p M f1 f2 f3 Mh l acc := by
    intro M f1 f2 f3 Mh l
    induction l with
    | nil => intro acc; rfl
    | cons i l ih => intro acc; unfold sumTruncations; simp only [ih, hr]
  have hu : ∀ M f1 f2 f3, getExpansionUncertainty { E with eftAs := eft, tc := tc } p M f1 f2 f3 = getExpansionUncertainty E p M f1 f2 f3 := by
    intros; unfold getExpansionUncertainty; simp only [hs, hr]
  have hc : evalCandidate { E with eftAs := eft, tc := tc } p = evalCandidate E p := by
    unfold evalCandidate; simp only [hu, hh, h4, l3]
  have hb : ∀ k acc, selectBody { E with eftAs := eft, tc := tc } p k acc = selectBody E p k acc := by
    intros; unfold selectBody; simp only [hc]
  have hl : ∀ l acc, selectLoop { E with eftAs := eft, tc := tc } p l acc = selectLoop E p l acc := by
    intro l
    induction l with
    | nil => intro acc; rfl
    | cons i l ih => intro acc; unfold selectLoop; simp only [ih, hb]
  have hsel : dmh3lSelect { E with eftAs := eft, tc := tc } p = dmh3lSelect E p := by
    unfold dmh3lSelect compareHierarchies; simp only [hl]
  have hm : dmh3lMass { E with eftAs := eft, tc := tc } p = dmh3lMass E p := by
    unfold dmh3lMass; simp only [hh, h4, hu]
  have h2p : dmh3lPart2 { E with eftAs := eft, tc := tc } p = dmh3lPart2 E p := rfl
  have h3p : dmh3lPart3 { E with eftAs := eft, tc := tc } p = dmh3lPart3 E p := rfl
  unfold calculateDMh3L dmh3lBody dmh3lPart1
  rw [hsel, hm, ll, h2p, h3p]

/-- there is exactly one matching point -/
theorem C21_matching_point_exists_unique (p : Params F) : ∃! q, IsMatchingPoint p q :=
  ⟨pMassES p, pMassES_matching p, fun _ h => matching_unique h⟩

end
end Himalaya
