import Verif.Calc.Lemmas
import Verif.Select.Props

/-!
# C18 (expansion flags are restored), C19 (no dependence on the call history), C20 (missing hierarchy fails loudly)
-/

set_option linter.unusedSimpArgs false
set_option linter.unusedSectionVars false
set_option linter.unusedVariables false

namespace Himalaya

open CalcM
open scoped Himalaya Himalaya.FOps

section
variable {F : Type} [Add F] [Sub F] [Mul F] [Div F] [Neg F] [FOps F] (E : Env F)

private theorem runOn_calc {α : Type} (c : Calculator F) (ho : HObj F) (m : CalcM F α) (f : α → CalcRes F) (h : Pres m) :
    (runOn c ho m f).1 = c := by
  unfold runOn
  have h1 := h.out ⟨c.depth, ho⟩
  rcases hm : m ⟨c.depth, ho⟩ with ⟨r, s⟩
  rw [hm] at h1
  dsimp only at h1 ⊢
  rw [h1]

/-! ### C18 -/

/-- Every public call leaves the calculator (in particular all twelve expansion flags) as it was, for every behaviour of the external
code, including exceptions thrown at any point of it. -/
theorem C18_flags_restored (c : Calculator F) (op : CalcOp F) : (op.run E c).1 = c := by
  cases op <;> unfold CalcOp.run
  · exact runOn_calc _ _ _ _ (pres_calculateDMh3L E c.p _)
  · exact runOn_calc _ _ _ _ (pres_compareHierarchies E c.p)
  · exact runOn_calc _ _ _ _ (pres_calculateHierarchy E c.p _ _ _)
  all_goals first
    | exact runOn_calc _ _ _ _ (Pres.lift _)
    | exact runOn_calc _ _ _ _ (pres_getExpansionUncertainty E c.p _ _ _ _)

/-- Calls that take the result object by const reference do not change it; neither does `calculateDMh3L` touch any object of the
caller. -/
theorem C18_const_arguments_unchanged (c : Calculator F) (ho : HObj F) (a b : Int) (x y : Bool) (m : Mat2 F) (f1 f2 f3 : Int) :
    ((CalcOp.calcDRbarToMDRbarShift ho x y).run E c).2.ho = ho ∧ ((CalcOp.getMt41L ho a b).run E c).2.ho = ho ∧
    ((CalcOp.getMt42L ho a b).run E c).2.ho = ho ∧ ((CalcOp.shiftMst1ToMDR ho a b).run E c).2.ho = ho ∧
    ((CalcOp.shiftMst2ToMDR ho a b).run E c).2.ho = ho ∧
    ((CalcOp.getExpansionUncertainty ho m f1 f2 f3).run E c).2.ho = ho := by
  refine ⟨rfl, rfl, rfl, rfl, rfl, ?_⟩
  unfold CalcOp.run runOn getExpansionUncertainty
  dsimp only
  rw [bind_run]
  unfold getHo
  dsimp only
  exact localHo_ho _ _ _

/-! ### C19 -/

/-- After any history of public calls (also failing ones), every public call gives exactly the outcome it would have given on the
new calculator: same returned object or exception, same effect on the result object passed in. -/
theorem C19_history_independent (c : Calculator F) (h : List (CalcOp F)) (op : CalcOp F) :
    (op.run E (runOps E c h)).2 = (op.run E c).2 := by
  have : runOps E c h = c := by
    unfold runOps
    induction h with
    | nil => rfl
    | cons o h ih => rw [List.foldl_cons, C18_flags_restored]; exact ih
  rw [this]

/-- In particular repeating a calculation gives the same result. -/
theorem C19_repeatable (c : Calculator F) (b : Bool) (n : ℕ) :
    ((CalcOp.calculateDMh3L b).run E (runOps E c (List.replicate n (.calculateDMh3L b)))).2.result =
      ((CalcOp.calculateDMh3L b).run E c).2.result := by
  rw [C19_history_independent]

/-! ### C20 -/

/-- A result object whose hierarchy key is not one of the fourteen hierarchies. -/
def NoHierarchy (ho : HObj F) : Prop := ho.getSuitableHierarchy < 0 ∨ 13 < ho.getSuitableHierarchy

/-- The documented error. -/
def noHierarchyError (k : Int) : String :=
  if k = -1 then "No suitable hierarchy found!" else "Hierarchy " ++ toString k ++ " not included!"

private theorem mother_error (k : Int) (h : k < 0 ∨ 13 < k) : getMotherHierarchy k = .error (noHierarchyError k) := by
  unfold getMotherHierarchy noHierarchyError
  simp only [Hier.FIRST, Hier.NUMBER_OF_HIERARCHIES]
  rw [if_pos (by omega)]
  split <;> rfl

variable (p : Params F) (ho : HObj F)

theorem shift1_error (h : NoHierarchy ho) (a b : Int) :
    shiftMst1ToMDR p ho a b = .error (noHierarchyError ho.getSuitableHierarchy) := by
  unfold shiftMst1ToMDR
  rw [mother_error _ h]; rfl

theorem shift2_error (h : NoHierarchy ho) (a b : Int) :
    shiftMst2ToMDR p ho a b = .error (noHierarchyError ho.getSuitableHierarchy) := by
  unfold shiftMst2ToMDR
  rw [mother_error _ h]; rfl

theorem calcMsf_error (h : NoHierarchy ho) (l : Int) (hl : l = 1 ∨ l = 2 ∨ l = 3) :
    calcMsfMDRFlag p ho l = .error (noHierarchyError ho.getSuitableHierarchy) := by
  unfold calcMsfMDRFlag
  rcases hl with rfl | rfl | rfl <;> simp [shift1_error p ho h] <;> rfl

/-- Mass shifts, one- and two-loop matrices throw the documented error for an object without hierarchy. -/
theorem C20_shift_and_matrices_throw (h : NoHierarchy ho) (a b : Int) :
    shiftMst1ToMDR p ho a b = .error (noHierarchyError ho.getSuitableHierarchy) ∧
    shiftMst2ToMDR p ho a b = .error (noHierarchyError ho.getSuitableHierarchy) ∧
    getMt41L p ho a b = .error (noHierarchyError ho.getSuitableHierarchy) ∧
    getMt42L E p ho a b = .error (noHierarchyError ho.getSuitableHierarchy) ∧
    shiftH3mToDRbarPrime p ho = .error (noHierarchyError ho.getSuitableHierarchy) := by
  refine ⟨shift1_error p ho h a b, shift2_error p ho h a b, ?_, ?_, ?_⟩
  · unfold getMt41L; rw [shift1_error p ho h]; rfl
  · unfold getMt42L; rw [shift1_error p ho h]; rfl
  · unfold shiftH3mToDRbarPrime; rw [shift1_error p ho h]; rfl

/-- The DR' to MDR' shift throws if anything has to be computed. -/
theorem C20_mdr_shift_throws (h : NoHierarchy ho) (x y : Bool) (hxy : x = true ∨ y = true) :
    calcDRbarToMDRbarShift E p ho x y = .error (noHierarchyError ho.getSuitableHierarchy) := by
  obtain ⟨-, -, h3, h4, -⟩ := C20_shift_and_matrices_throw E p ho h 1 1
  unfold calcDRbarToMDRbarShift
  cases x <;> cases y <;> simp [h3, h4] at * <;> rfl


private theorem loopBody_err (o : Bool) (l : Int) (hl : l = 1 ∨ l = 2 ∨ l = 3) (acc : SE F) (s : St F)
    (h : NoHierarchy s.ho) :
    loopBody E p o true l acc s = (.error (noHierarchyError s.ho.getSuitableHierarchy), s) := by
  unfold loopBody
  simp only [if_true]
  rw [bind_run]
  unfold getHo
  dsimp only
  rw [bind_run]
  unfold getDepth
  dsimp only
  rw [bind_run, calcMsf_error p s.ho h l hl]
  rfl

/-- The expansion throws if any loop order is requested, and neither the result object nor the calculator is changed. -/
theorem C20_expansion_throws (s : St F) (h : NoHierarchy s.ho) (f1 f2 f3 : Int) (hf : f1 ≠ 0 ∨ f2 ≠ 0 ∨ f3 ≠ 0) :
    calculateHierarchy E p f1 f2 f3 s = (.error (noHierarchyError s.ho.getSuitableHierarchy), s) := by
  unfold calculateHierarchy
  dsimp only
  by_cases h1 : f1 = 0
  · subst h1
    simp only [ne_eq, not_true, decide_false, bind_run, loopBody_off]
    by_cases h2 : f2 = 0
    · subst h2
      simp only [ne_eq, not_true, decide_false, bind_run, loopBody_off]
      have h3 : f3 ≠ 0 := by simpa using hf
      simp only [ne_eq, h3, not_false_iff, decide_true]
      rw [loopBody_err E p _ 3 (by simp) _ s h]
    · simp only [ne_eq, h2, not_false_iff, decide_true]
      rw [loopBody_err E p _ 2 (by simp) _ s h]
  · simp only [ne_eq, h1, not_false_iff, decide_true, bind_run]
    rw [loopBody_err E p _ 1 (by simp) _ s h]

/-- The expansion uncertainty throws for an object without hierarchy, whatever flags are given. -/
theorem C20_uncertainty_throws (s : St F) (h : NoHierarchy s.ho) (m : Mat2 F) (f1 f2 f3 : Int) :
    (getExpansionUncertainty E p m f1 f2 f3 s).1 = .error (noHierarchyError s.ho.getSuitableHierarchy) := by
  have key : ∀ t : St F, t.ho = s.ho →
      (∃ t' : St F, (recomputeMh E p m f1 f2 f3 >>= fun Mh =>
        (lift (getMotherHierarchy s.ho.getSuitableHierarchy) >>= fun k =>
          sumTruncations E p m f1 f2 f3 Mh (truncationFlags k) 0 >>= fun u => Pure.pure (FOps.sqrt u))) t
        = (.error (noHierarchyError s.ho.getSuitableHierarchy), t')) := by
    intro t ht
    rw [bind_run]
    by_cases hf : f1 ≠ 0 ∨ f2 ≠ 0 ∨ f3 ≠ 0
    · unfold recomputeMh
      rw [bind_run, C20_expansion_throws E p t (by rw [ht]; exact h) f1 f2 f3 hf, ht]
      exact ⟨_, rfl⟩
    · rcases hr : recomputeMh E p m f1 f2 f3 t with ⟨r, t'⟩
      cases r with
      | ok a =>
        dsimp only
        rw [bind_run, mother_error _ h]
        exact ⟨_, rfl⟩
      | error e =>
        exfalso
        push Not at hf
        obtain ⟨rfl, rfl, rfl⟩ := hf
        unfold recomputeMh calculateHierarchy at hr
        simp [bind_run, loopBody_off, whenM, pure_run] at hr
  unfold getExpansionUncertainty
  rw [bind_run]
  unfold getHo
  dsimp only
  unfold localHo tempSet
  dsimp only
  obtain ⟨t', ht'⟩ := key { depth := setIdx (setIdx s.depth XD.Mst 1) XD.threeLoop 1, ho := s.ho } rfl
  rw [ht']

/-- Everything is available for the fourteen known hierarchies: the mass shifts never throw. -/
theorem C20_known_hierarchies_do_not_throw (h : ¬ NoHierarchy ho) (a b : Int) :
    (∃ x, shiftMst1ToMDR p ho a b = .ok x) ∧ (∃ x, shiftMst2ToMDR p ho a b = .ok x) ∧
    (∃ m, getMt41L p ho a b = .ok m) ∧ (∃ m, shiftH3mToDRbarPrime p ho = .ok m) := by
  have : ∃ m, getMotherHierarchy ho.getSuitableHierarchy = .ok m := by
    rw [C07_mother_domain]; unfold NoHierarchy at h; omega
  obtain ⟨m, hm⟩ := this
  have h1 : ∀ a b, ∃ x, shiftMst1ToMDR p ho a b = .ok x := by
    intro a b; unfold shiftMst1ToMDR; rw [hm]; exact ⟨_, rfl⟩
  have h2 : ∀ a b, ∃ x, shiftMst2ToMDR p ho a b = .ok x := by
    intro a b; unfold shiftMst2ToMDR; rw [hm]; exact ⟨_, rfl⟩
  refine ⟨h1 a b, h2 a b, ?_, ?_⟩
  · obtain ⟨x, hx⟩ := h1 a b
    obtain ⟨y, hy⟩ := h2 a b
    unfold getMt41L; rw [hx, hy]; exact ⟨_, rfl⟩
  · obtain ⟨x, hx⟩ := h1 ho.getMDRFlag ho.getMDRFlag
    obtain ⟨y, hy⟩ := h2 ho.getMDRFlag ho.getMDRFlag
    unfold shiftH3mToDRbarPrime; rw [hx, hy]; exact ⟨_, rfl⟩

/-- If no hierarchy is suitable, `calculateDMh3L` throws the "no suitable hierarchy" error instead of returning numbers. -/
theorem C20_no_suitable_hierarchy_throws (d : Depth) (b : Bool) (h0 : HObj F)
    (hs : ∀ k, suitableMasses k (if b then p.MSb.x0 else p.MSt.x0) (if b then p.MSb.x1 else p.MSt.x1) p.MG
      (calcMeanMsq p) = false) :
    (calculateDMh3L E p b ⟨d, h0⟩).1 = .error "No suitable hierarchy found!" := by
  have hbody : ∀ (k : Int) (acc : Sel F) (s : St F), s.ho.isAlphab = b →
      selectBody E p k acc s = (.ok acc, { s with ho := s.ho.setSuitableHierarchy k }) := by
    intro k acc s hb
    unfold selectBody
    rw [bind_run]
    unfold modHo
    dsimp only
    rw [bind_run]
    unfold getHo
    dsimp only
    rw [if_neg]
    · rfl
    · have := hs k
      unfold isHierarchySuitable
      simp only [HObj.getIsAlphab, HObj.setSuitableHierarchy, HObj.getSuitableHierarchy, hb]
      rw [this]; simp
  have hloop : ∀ (l : List Int) (acc : Sel F) (s : St F), s.ho.isAlphab = b →
      ∃ s', selectLoop E p l acc s = (.ok acc, s') := by
    intro l
    induction l with
    | nil => intro acc s _; exact ⟨s, rfl⟩
    | cons k l ih =>
      intro acc s hb
      unfold selectLoop
      rw [bind_run, hbody k acc s hb]
      exact ih acc _ hb
  have e2 : ∃ s' : St F, compareHierarchies E p ⟨d, HObj.new b⟩ = (.ok (-1), s') ∧ s'.ho.hierarchy = -1 := by
    unfold compareHierarchies
    have e3 : ∀ d', ∃ h : HObj F, h.isAlphab = b ∧ (modHoE (fun h => h.setDMh 0 (treeLevel p)) : CalcM F Unit) ⟨d', HObj.new b⟩
        = (.ok (), ⟨d', h⟩) := fun d' => ⟨_, by rfl, rfl⟩
    obtain ⟨h, hb, hh⟩ := e3 (setIdx (setIdx d XD.threeLoop 0) XD.Mst 0)
    obtain ⟨s1, hs1⟩ := hloop allHierarchies (-1, -1) ⟨_, h⟩ hb
    refine ⟨_, tempSet_ok.2 ⟨_, tempSet_ok.2 ⟨_, bind_ok.2 ⟨_, _, hh, bind_ok.2 ⟨_, _, hs1, rfl⟩⟩, rfl⟩, rfl⟩, rfl⟩
  obtain ⟨s', hs', hk⟩ := e2
  have e4 : dmh3lSelect E p ⟨d, HObj.new b⟩ = (.ok (-1), s') := bind_ok.2 ⟨(), ⟨d, HObj.new b⟩, rfl, hs'⟩
  have e5 : dmh3lMass E p s' = (.error "No suitable hierarchy found!", s') := by
    refine bind_run_err ?_ _
    rw [C20_expansion_throws E p s' (by left; show s'.ho.hierarchy < 0; rw [hk]; decide) 0 0 1 (by simp)]
    simp [HObj.getSuitableHierarchy, hk, noHierarchyError]
  have e6 : dmh3lPart1 E p b ⟨d, HObj.new b⟩ = (.error "No suitable hierarchy found!", s') :=
    (bind_run_ok e4 _).trans (bind_run_err e5 _)
  have e7 : dmh3lBody E p b ⟨d, HObj.new b⟩ = (.error "No suitable hierarchy found!", s') := bind_run_err e6 _
  unfold calculateDMh3L localHo
  dsimp only
  rw [e7]

example : NoHierarchy ((HObj.new false : HObj ℝ).setSuitableHierarchy (-1)) ∧
    noHierarchyError (-1) = "No suitable hierarchy found!" ∧ ¬ NoHierarchy (HObj.new false : HObj ℝ) := by
  refine ⟨Or.inl (by decide), rfl, ?_⟩
  rintro (h | h) <;> revert h <;> decide

end
end Himalaya
