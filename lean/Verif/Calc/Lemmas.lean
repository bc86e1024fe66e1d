import Verif.Calc.Api
import Verif.Base.Dbl

/-!
# Reasoning principles for `CalcM`
-/

set_option linter.unusedSimpArgs false
set_option linter.unusedSectionVars false
set_option linter.unusedVariables false

namespace Himalaya

open CalcM
open scoped Himalaya

section monad
variable {F α β : Type}

theorem bind_run (m : CalcM F α) (f : α → CalcM F β) (s : St F) :
    (m >>= f) s = match m s with
      | (.ok a, s') => f a s'
      | (.error e, s') => (.error e, s') := rfl

theorem bind_run_ok {m : CalcM F α} {s s' : St F} {a : α} (h : m s = (.ok a, s')) (f : α → CalcM F β) :
    (m >>= f) s = f a s' := by
  rw [bind_run, h]

theorem bind_run_err {m : CalcM F α} {s s' : St F} {e : String} (h : m s = (.error e, s')) (f : α → CalcM F β) :
    (m >>= f) s = (.error e, s') := by
  rw [bind_run, h]

theorem pure_run (a : α) (s : St F) : (Pure.pure a : CalcM F α) s = (.ok a, s) := rfl

theorem bind_ok {m : CalcM F α} {f : α → CalcM F β} {s : St F} {b : β} {s'' : St F} :
    (m >>= f) s = (.ok b, s'') ↔ ∃ a s', m s = (.ok a, s') ∧ f a s' = (.ok b, s'') := by
  rw [bind_run]
  rcases h : m s with ⟨r, s'⟩
  cases r with
  | ok a => simp
  | error e => simp

theorem pure_ok {a b : α} {s s' : St F} : (Pure.pure a : CalcM F α) s = (.ok b, s') ↔ a = b ∧ s = s' := by
  rw [pure_run]; simp

theorem lift_ok {e : Except String α} {s s' : St F} {a : α} :
    (lift e : CalcM F α) s = (.ok a, s') ↔ e = .ok a ∧ s = s' := by
  unfold lift; simp

theorem getHo_ok {s s' : St F} {h : HObj F} : getHo s = (.ok h, s') ↔ s.ho = h ∧ s = s' := by
  unfold getHo; simp

theorem getDepth_ok {s s' : St F} {d : Depth} : getDepth s = (.ok d, s') ↔ s.depth = d ∧ s = s' := by
  unfold getDepth; simp

theorem modHo_ok {f : HObj F → HObj F} {s s' : St F} {u : Unit} :
    modHo f s = (.ok u, s') ↔ { s with ho := f s.ho } = s' := by
  unfold modHo; simp

theorem modHoE_ok {f : HObj F → Except String (HObj F)} {s s' : St F} {u : Unit} :
    modHoE f s = (.ok u, s') ↔ ∃ h, f s.ho = .ok h ∧ { s with ho := h } = s' := by
  unfold modHoE
  cases h : f s.ho <;> simp

/-! ### Flags are restored -/

/-- `m` leaves the expansion flags as they were, whether it returns or throws. -/
structure Pres (m : CalcM F α) : Prop where
  out : ∀ s, (m s).2.depth = s.depth

theorem Pres.pure (a : α) : Pres (Pure.pure a : CalcM F α) := ⟨fun _ => rfl⟩
theorem Pres.bind {m : CalcM F α} {f : α → CalcM F β} (hm : Pres m) (hf : ∀ a, Pres (f a)) : Pres (m >>= f) := by
  constructor; intro s
  rw [bind_run]
  have h1 := hm.out s
  rcases h : m s with ⟨r, s'⟩
  rw [h] at h1
  cases r with
  | ok a => exact ((hf a).out s').trans h1
  | error e => exact h1
theorem Pres.lift (e : Except String α) : Pres (lift e : CalcM F α) := ⟨fun _ => rfl⟩
theorem Pres.getHo : Pres (getHo : CalcM F _) := ⟨fun _ => rfl⟩
theorem Pres.getDepth : Pres (getDepth : CalcM F _) := ⟨fun _ => rfl⟩
theorem Pres.modHo (f : HObj F → HObj F) : Pres (modHo f) := ⟨fun _ => rfl⟩
theorem Pres.modHoE (f : HObj F → Except String (HObj F)) : Pres (modHoE f) := by
  constructor; intro s; unfold CalcM.modHoE; cases h : f s.ho <;> rfl
theorem Pres.tempSet {m : CalcM F α} (hm : Pres m) (i : DepthIdx) (v : Int) : Pres (tempSet i v m) := by
  constructor; intro s
  unfold CalcM.tempSet
  have h1 := hm.out { s with depth := setIdx s.depth i v }
  rcases h : m { s with depth := setIdx s.depth i v } with ⟨r, s'⟩
  rw [h] at h1
  dsimp only at h1 ⊢
  rw [h1]
  funext j
  unfold setIdx
  by_cases hj : j = i
  · subst hj; simp
  · simp [hj]
theorem Pres.localHo {m : CalcM F α} (hm : Pres m) (h0 : HObj F) : Pres (localHo h0 m) := by
  constructor; intro s
  unfold CalcM.localHo
  have h1 := hm.out { s with ho := h0 }
  rcases h : m { s with ho := h0 } with ⟨r, s'⟩
  rw [h] at h1
  exact h1
theorem Pres.ite {c : Prop} [Decidable c] {a b : CalcM F α} (ha : Pres a) (hb : Pres b) : Pres (if c then a else b) := by
  split <;> assumption

theorem Pres.whenM {c : Bool} {a : CalcM F Unit} (ha : Pres a) : Pres (whenM c a) := by
  unfold CalcM.whenM
  exact Pres.ite ha (Pres.pure _)

/-- a scope with a local copy never changes the caller's object -/
theorem localHo_ho (m : CalcM F α) (h0 : HObj F) (s : St F) : (localHo h0 m s).2.ho = s.ho := by
  unfold CalcM.localHo
  rcases h : m { s with ho := h0 } with ⟨r, s'⟩
  rfl

theorem tempSet_ok {i : DepthIdx} {v : Int} {m : CalcM F α} {s s' : St F} {a : α} :
    tempSet i v m s = (.ok a, s') ↔ ∃ s1, m { s with depth := setIdx s.depth i v } = (.ok a, s1) ∧
      { s1 with depth := setIdx s1.depth i (s.depth i) } = s' := by
  unfold CalcM.tempSet
  rcases h : m { s with depth := setIdx s.depth i v } with ⟨r, s1⟩
  simp

theorem localHo_ok {h0 : HObj F} {m : CalcM F α} {s s' : St F} {a : α} :
    localHo h0 m s = (.ok a, s') ↔ ∃ s1, m { s with ho := h0 } = (.ok a, s1) ∧ { s1 with ho := s.ho } = s' := by
  unfold CalcM.localHo
  rcases h : m { s with ho := h0 } with ⟨r, s1⟩
  simp

end monad

section pres
variable {F : Type} [Add F] [Sub F] [Mul F] [Div F] [Neg F] [FOps F] (E : Env F) (p : Params F)

theorem pres_loopBody (o r : Bool) (l : Int) (acc : SE F) : Pres (loopBody E p o r l acc) := by
  unfold loopBody
  refine Pres.ite ?_ (Pres.pure _)
  refine Pres.bind Pres.getHo fun ho => Pres.bind Pres.getDepth fun d => Pres.bind (Pres.lift _) fun m => ?_
  refine Pres.bind ?_ fun args => Pres.bind (Pres.lift _) fun out => Pres.bind ?_ fun _ => Pres.pure _
  · cases hierArgs p ho m.1 m.2
    · exact Pres.lift _
    · exact Pres.pure _
  · exact Pres.whenM (Pres.modHo _)

theorem pres_calculateHierarchy (f1 f2 f3 : Int) : Pres (calculateHierarchy E p f1 f2 f3) := by
  unfold calculateHierarchy
  refine Pres.bind (pres_loopBody ..) fun a => Pres.bind (pres_loopBody ..) fun b =>
    Pres.bind (pres_loopBody ..) fun c => ?_
  refine Pres.bind ?_ fun _ => Pres.pure _
  exact Pres.whenM (Pres.bind Pres.getHo fun ho => Pres.bind (Pres.lift _) fun m => Pres.modHo _)

theorem pres_recomputeMh (M : Mat2 F) (f1 f2 f3 : Int) : Pres (recomputeMh E p M f1 f2 f3) := by
  unfold recomputeMh
  exact Pres.bind (pres_calculateHierarchy ..) fun a => Pres.pure _

theorem pres_sumTruncations (M : Mat2 F) (f1 f2 f3 : Int) (Mh : F) (l : List DepthIdx) :
    ∀ acc, Pres (sumTruncations E p M f1 f2 f3 Mh l acc) := by
  induction l with
  | nil => intro acc; exact Pres.pure _
  | cons i l ih =>
    intro acc
    unfold sumTruncations
    exact Pres.bind (Pres.tempSet (pres_recomputeMh ..) _ _) fun m => ih _

theorem pres_getExpansionUncertainty (M : Mat2 F) (f1 f2 f3 : Int) :
    Pres (getExpansionUncertainty E p M f1 f2 f3) := by
  unfold getExpansionUncertainty
  refine Pres.bind Pres.getHo fun ho => Pres.localHo (Pres.tempSet (Pres.tempSet ?_ _ _) _ _) _
  exact Pres.bind (pres_recomputeMh ..) fun Mh => Pres.bind (Pres.lift _) fun m =>
    Pres.bind (pres_sumTruncations ..) fun u => Pres.pure _

theorem pres_calcDeltaLambda3L (o : Bool) : Pres (calcDeltaLambda3L E p o) := by
  unfold calcDeltaLambda3L
  refine Pres.bind Pres.getHo fun ho => Pres.bind (Pres.lift _) fun e => Pres.bind (Pres.lift _) fun t => ?_
  refine Pres.bind (Pres.modHo _) fun _ => Pres.bind (Pres.modHo _) fun _ => Pres.bind (Pres.modHo _) fun _ =>
    Pres.bind (Pres.modHoE _) fun _ => ?_
  refine Pres.bind (Pres.whenM (Pres.modHo _)) fun _ => Pres.modHo _

theorem pres_evalCandidate : Pres (evalCandidate E p) := by
  unfold evalCandidate
  refine Pres.bind Pres.getHo fun ho => Pres.bind (Pres.lift _) fun a => Pres.bind (Pres.lift _) fun b => ?_
  refine Pres.bind (pres_calculateHierarchy ..) fun c => Pres.bind (pres_getExpansionUncertainty ..) fun d =>
    Pres.bind (pres_getExpansionUncertainty ..) fun e => Pres.bind (pres_calcDeltaLambda3L ..) fun _ => Pres.pure _

theorem pres_selectBody (k : Int) (acc : Sel F) : Pres (selectBody E p k acc) := by
  unfold selectBody
  refine Pres.bind (Pres.modHo _) fun _ => Pres.bind Pres.getHo fun ho => Pres.ite ?_ (Pres.pure _)
  refine Pres.bind (pres_evalCandidate ..) fun c => Pres.ite ?_ (Pres.pure _)
  exact Pres.bind (Pres.modHo _) fun _ => Pres.bind (Pres.modHo _) fun _ => Pres.bind (Pres.modHoE _) fun _ =>
    Pres.bind (Pres.modHoE _) fun _ => Pres.pure _

theorem pres_selectLoop (l : List Int) : ∀ acc, Pres (selectLoop E p l acc) := by
  induction l with
  | nil => intro acc; exact Pres.pure _
  | cons k l ih => intro acc; unfold selectLoop; exact Pres.bind (pres_selectBody ..) fun a => ih a

theorem pres_compareHierarchies : Pres (compareHierarchies E p) := by
  unfold compareHierarchies
  refine Pres.tempSet (Pres.tempSet ?_ _ _) _ _
  exact Pres.bind (Pres.modHoE _) fun _ => Pres.bind (pres_selectLoop ..) fun a =>
    Pres.bind (Pres.modHo _) fun _ => Pres.pure _

/-- repeatedly peel sequencing -/
macro "pres_step" : tactic => `(tactic| with_reducible first
  | (refine Pres.bind ?_ fun _ => ?_)
  | exact Pres.pure _ | exact Pres.lift _ | exact Pres.getHo | exact Pres.modHo _ | exact Pres.modHoE _
  | exact pres_calculateHierarchy .. | exact pres_getExpansionUncertainty .. | exact pres_calcDeltaLambda3L ..
  | exact pres_compareHierarchies ..
  | (refine Pres.ite ?_ ?_)
  | intro _)

theorem pres_dmh3lPart1 (b : Bool) : Pres (dmh3lPart1 E p b) := by
  unfold dmh3lPart1 dmh3lSelect dmh3lMass dmh3lLambda
  repeat' pres_step

theorem pres_dmh3lPart2 : Pres (dmh3lPart2 E p) := by
  unfold dmh3lPart2
  repeat' pres_step

theorem pres_mdrBlock : Pres (mdrBlock E p) := by
  unfold mdrBlock
  repeat' pres_step

theorem pres_dmh3lPart3 : Pres (dmh3lPart3 E p) := by
  unfold dmh3lPart3
  refine Pres.bind Pres.getHo fun ho => Pres.bind (Pres.localHo (pres_mdrBlock ..) _) fun r => ?_
  repeat' pres_step

theorem pres_calculateDMh3L (b : Bool) : Pres (calculateDMh3L E p b) := by
  unfold calculateDMh3L dmh3lBody
  exact Pres.localHo (Pres.bind (pres_dmh3lPart1 ..) fun _ => Pres.bind (pres_dmh3lPart2 ..) fun _ =>
    Pres.bind (pres_dmh3lPart3 ..) fun _ => Pres.getHo) _

end pres
end Himalaya

namespace Himalaya

open CalcM
open scoped Himalaya Himalaya.FOps

/-! ### Running the primitives -/

section run
variable {F α : Type}
theorem lift_run (e : Except String α) (s : St F) : (lift e : CalcM F α) s = (e, s) := rfl
theorem getHo_run (s : St F) : (getHo : CalcM F (HObj F)) s = (.ok s.ho, s) := rfl
theorem getDepth_run (s : St F) : (getDepth : CalcM F Depth) s = (.ok s.depth, s) := rfl
theorem modHo_run (f : HObj F → HObj F) (s : St F) : modHo f s = (.ok (), { s with ho := f s.ho }) := rfl
theorem whenM_true (m : CalcM F Unit) : whenM true m = m := rfl
theorem whenM_false (m : CalcM F Unit) : whenM false m = (Pure.pure () : CalcM F Unit) := rfl
end run

/-! ### What one loop order contributes -/

section loop
variable {F : Type} [Add F] [Sub F] [Mul F] [Div F] [Neg F] [FOps F] (E : Env F) (p : Params F)

/-- The hierarchy class results at loop order `l`, with the lighter mass used. -/
def loopOut (d : Depth) (ho : HObj F) (l : Int) : Except String (HierOut F × F) :=
  match calcMsfMDRFlag p ho l with
  | .error e => .error e
  | .ok m =>
    match hierArgs p ho m.1 m.2 with
    | none => .error "calculateHierarchy: non-handled hierarchy"
    | some a =>
      match E.hier ho.getSuitableHierarchy d a ho.getMDRFlag (loopFlagsOf l) with
      | .error e => .error e
      | .ok out => .ok (out, m.1)

theorem loopBody_off (o : Bool) (l : Int) (acc : SE F) (s : St F) : loopBody E p o false l acc s = (.ok acc, s) := rfl

theorem loopBody_on (o : Bool) (l : Int) (acc : SE F) (s : St F) :
    loopBody E p o true l acc s = match loopOut E p s.depth s.ho l with
      | .error e => (.error e, s)
      | .ok (out, m1) => (.ok (acc.1 + out.s1, acc.2.1 + out.s2, acc.2.2 + out.s12),
          if o then { s with ho := calcDlambda s.ho out (FOps.log (pow2 (p.scale / m1))) } else s) := by
  unfold loopBody loopOut
  simp only [if_true]
  rw [bind_run, getHo_run]
  dsimp only
  rw [bind_run, getDepth_run]
  dsimp only
  rw [bind_run, lift_run]
  cases h1 : calcMsfMDRFlag p s.ho l with
  | error e => rfl
  | ok m =>
    dsimp only
    rw [bind_run]
    cases h2 : hierArgs p s.ho m.1 m.2 with
    | none => rfl
    | some a =>
      dsimp only
      rw [pure_run]
      dsimp only
      rw [bind_run, lift_run]
      cases h3 : E.hier s.ho.getSuitableHierarchy s.depth a s.ho.getMDRFlag (loopFlagsOf l) with
      | error e => rfl
      | ok out =>
        dsimp only
        rw [bind_run]
        cases o <;> rfl

/-- The part of the result object that the expansion depends on. -/
structure SameKey (a b : HObj F) : Prop where
  alphab : a.isAlphab = b.isAlphab
  hierarchy : a.hierarchy = b.hierarchy
  mdr : a.mdrFlag = b.mdrFlag

theorem SameKey.refl (a : HObj F) : SameKey a a := ⟨rfl, rfl, rfl⟩

variable {p}

theorem mst1_congr {a b : HObj F} (h : SameKey a b) : mst1 p a = mst1 p b := by
  unfold mst1 HObj.getIsAlphab; rw [h.alphab]
theorem mst2_congr {a b : HObj F} (h : SameKey a b) : mst2 p a = mst2 p b := by
  unfold mst2 HObj.getIsAlphab; rw [h.alphab]
theorem shift1_congr {a b : HObj F} (h : SameKey a b) (x y : Int) : shiftMst1ToMDR p a x y = shiftMst1ToMDR p b x y := by
  unfold shiftMst1ToMDR HObj.getSuitableHierarchy; rw [h.hierarchy, mst1_congr h, mst2_congr h]
theorem shift2_congr {a b : HObj F} (h : SameKey a b) (x y : Int) : shiftMst2ToMDR p a x y = shiftMst2ToMDR p b x y := by
  unfold shiftMst2ToMDR HObj.getSuitableHierarchy; rw [h.hierarchy, mst2_congr h]
theorem calcMsf_congr {a b : HObj F} (h : SameKey a b) (l : Int) : calcMsfMDRFlag p a l = calcMsfMDRFlag p b l := by
  unfold calcMsfMDRFlag HObj.getMDRFlag
  simp only [shift1_congr h, shift2_congr h, h.mdr]
theorem hierArgs_congr {a b : HObj F} (h : SameKey a b) (x y : F) : hierArgs p a x y = hierArgs p b x y := by
  unfold hierArgs HObj.getIsAlphab HObj.getSuitableHierarchy
  rw [h.alphab, h.hierarchy]
theorem loopOut_congr {a b : HObj F} (h : SameKey a b) (d : Depth) (l : Int) : loopOut E p d a l = loopOut E p d b l := by
  unfold loopOut HObj.getSuitableHierarchy HObj.getMDRFlag
  simp only [calcMsf_congr h, hierArgs_congr h, h.hierarchy, h.mdr]
theorem mt41_congr {a b : HObj F} (h : SameKey a b) (x y : Int) : getMt41L p a x y = getMt41L p b x y := by
  unfold getMt41L HObj.getIsAlphab; rw [shift1_congr h, shift2_congr h, h.alphab]
theorem mt42_congr {a b : HObj F} (h : SameKey a b) (x y : Int) : getMt42L E p a x y = getMt42L E p b x y := by
  unfold getMt42L HObj.getIsAlphab; rw [shift1_congr h, shift2_congr h, h.alphab]
theorem h3m_congr {a b : HObj F} (h : SameKey a b) : shiftH3mToDRbarPrime p a = shiftH3mToDRbarPrime p b := by
  unfold shiftH3mToDRbarPrime HObj.getSuitableHierarchy HObj.getMDRFlag
  rw [h.hierarchy, h.mdr, shift1_congr h, shift2_congr h]
theorem suitable_congr {a b : HObj F} (h : SameKey a b) : isHierarchySuitable p a = isHierarchySuitable p b := by
  unfold isHierarchySuitable HObj.getIsAlphab HObj.getSuitableHierarchy; rw [h.alphab, h.hierarchy]

variable (p)

/-- contribution of a loop order to the accumulated self energies, if requested -/
def pureStep (d : Depth) (ho : HObj F) (run : Bool) (l : Int) (acc : SE F) : Except String (SE F) :=
  if run then
    match loopOut E p d ho l with
    | .error e => .error e
    | .ok (out, _) => .ok (acc.1 + out.s1, acc.2.1 + out.s2, acc.2.2 + out.s12)
  else .ok acc

/-- result of `calculateHierarchy` as a pure function -/
def pureHier (d : Depth) (ho : HObj F) (f1 f2 f3 : Int) : Except String (Mat2 F) :=
  match pureStep E p d ho (decide (f1 ≠ 0)) 1 (0, 0, 0) with
  | .error e => .error e
  | .ok a =>
    match pureStep E p d ho (decide (f2 ≠ 0)) 2 a with
    | .error e => .error e
    | .ok b =>
      match pureStep E p d ho (decide (f3 ≠ 0)) 3 b with
      | .error e => .error e
      | .ok c => .ok (Mat2.smul (calcPrefactor p) ⟨c.1, c.2.2, c.2.2, c.2.1⟩)

theorem loopBody_no3 (run : Bool) (l : Int) (acc : SE F) (s : St F) :
    loopBody E p false run l acc s = (pureStep E p s.depth s.ho run l acc, s) := by
  cases run
  · rfl
  · rw [loopBody_on]
    unfold pureStep
    cases loopOut E p s.depth s.ho l with
    | error e => rfl
    | ok o => rfl

/-- Unless exactly the 3-loop terms are requested, `calculateHierarchy` has no effect on the result object. -/
theorem calculateHierarchy_no3 (f1 f2 f3 : Int) (h : ¬ (f1 = 0 ∧ f2 = 0 ∧ f3 = 1)) (s : St F) :
    calculateHierarchy E p f1 f2 f3 s = (pureHier E p s.depth s.ho f1 f2 f3, s) := by
  unfold calculateHierarchy pureHier
  dsimp only
  rw [decide_eq_false h]
  rw [bind_run, loopBody_no3]
  cases h1 : pureStep E p s.depth s.ho (decide (f1 ≠ 0)) 1 (0, 0, 0) with
  | error e => rfl
  | ok a =>
    dsimp only
    rw [bind_run, loopBody_no3]
    cases h2 : pureStep E p s.depth s.ho (decide (f2 ≠ 0)) 2 a with
    | error e => rfl
    | ok b =>
      dsimp only
      rw [bind_run, loopBody_no3]
      cases h3 : pureStep E p s.depth s.ho (decide (f3 ≠ 0)) 3 b with
      | error e => rfl
      | ok c => rfl

/-- The 3-loop call: result, and effect on the result object. -/
theorem calculateHierarchy_3 (s : St F) :
    calculateHierarchy E p 0 0 1 s = match loopOut E p s.depth s.ho 3 with
      | .error e => (.error e, s)
      | .ok (out, m1) =>
        (pureHier E p s.depth s.ho 0 0 1,
          match calcMsfMDRFlag p s.ho 3 with
          | .error _ => s
          | .ok m => { s with ho := (calcDlambda s.ho out (FOps.log (pow2 (p.scale / m1)))).setMDRMasses ⟨m.1, m.2⟩ }) := by
  unfold calculateHierarchy pureHier
  dsimp only
  have e1 : decide ((0:Int) = 0 ∧ (0:Int) = 0 ∧ (1:Int) = 1) = true := by decide
  have e2 : decide ((0:Int) ≠ 0) = false := by decide
  have e3 : decide ((1:Int) ≠ 0) = true := by decide
  rw [e1, e2, e3]
  rw [bind_run, loopBody_off]
  dsimp only
  rw [bind_run, loopBody_off]
  dsimp only
  rw [bind_run, loopBody_on]
  unfold pureStep
  simp only [if_true, Bool.false_eq_true, if_false]
  cases h : loopOut E p s.depth s.ho 3 with
  | error e => rfl
  | ok o =>
    dsimp only
    have hk := calcMsf_congr (p := p)
      (show SameKey (calcDlambda s.ho o.1 (FOps.log (pow2 (p.scale / o.2)))) s.ho from ⟨rfl, rfl, rfl⟩) 3
    rw [bind_run, whenM_true, bind_run_ok (getHo_run _)]
    cases hm : calcMsfMDRFlag p s.ho 3 with
    | error e =>
      exfalso
      unfold loopOut at h
      rw [hm] at h
      cases h
    | ok m =>
      rw [hm] at hk
      rw [bind_run_ok (a := m) (s' := _) (by rw [lift_run]; exact congrArg (fun x => (x, _)) hk)]
      rfl

/-- the returned value in all cases -/
theorem calculateHierarchy_fst (f1 f2 f3 : Int) (s : St F) :
    (calculateHierarchy E p f1 f2 f3 s).1 = pureHier E p s.depth s.ho f1 f2 f3 := by
  by_cases h : f1 = 0 ∧ f2 = 0 ∧ f3 = 1
  · obtain ⟨rfl, rfl, rfl⟩ := h
    rw [calculateHierarchy_3]
    cases h : loopOut E p s.depth s.ho 3 with
    | error e => unfold pureHier pureStep; simp [h]
    | ok o => rfl
  · rw [calculateHierarchy_no3 E p f1 f2 f3 h]

/-- key data are never changed -/
theorem calculateHierarchy_key (f1 f2 f3 : Int) (s : St F) : SameKey (calculateHierarchy E p f1 f2 f3 s).2.ho s.ho := by
  by_cases h : f1 = 0 ∧ f2 = 0 ∧ f3 = 1
  · obtain ⟨rfl, rfl, rfl⟩ := h
    rw [calculateHierarchy_3]
    cases h : loopOut E p s.depth s.ho 3 with
    | error e => exact SameKey.refl _
    | ok o =>
      dsimp only
      cases hm : calcMsfMDRFlag p s.ho 3 with
      | error e => exact SameKey.refl _
      | ok m => exact ⟨rfl, rfl, rfl⟩
  · rw [calculateHierarchy_no3 E p f1 f2 f3 h]
    exact SameKey.refl _

variable {p}
theorem pureHier_congr {a b : HObj F} (h : SameKey a b) (d : Depth) (f1 f2 f3 : Int) :
    pureHier E p d a f1 f2 f3 = pureHier E p d b f1 f2 f3 := by
  unfold pureHier pureStep
  simp only [loopOut_congr E h]

end loop

/-! ### The expansion uncertainty as a pure function -/

section unc
variable {F : Type} [Add F] [Sub F] [Mul F] [Div F] [Neg F] [FOps F] (E : Env F) (p : Params F)

/-- Higgs mass with the given expansion flags -/
def pureMh (d : Depth) (ho : HObj F) (M : Mat2 F) (f1 f2 f3 : Int) : Except String F :=
  match pureHier E p d ho f1 f2 f3 with
  | .error e => .error e
  | .ok m => .ok (E.smallestEig (M + m))

theorem recomputeMh_fst (M : Mat2 F) (f1 f2 f3 : Int) (s : St F) :
    (recomputeMh E p M f1 f2 f3 s).1 = pureMh E p s.depth s.ho M f1 f2 f3 ∧
    SameKey (recomputeMh E p M f1 f2 f3 s).2.ho s.ho ∧ (recomputeMh E p M f1 f2 f3 s).2.depth = s.depth := by
  refine ⟨?_, ?_, (pres_recomputeMh E p M f1 f2 f3).out s⟩
  · unfold recomputeMh pureMh
    rw [bind_run]
    have h := calculateHierarchy_fst E p f1 f2 f3 s
    rcases hc : calculateHierarchy E p f1 f2 f3 s with ⟨r, s'⟩
    rw [hc] at h
    dsimp only at h
    rw [← h]
    cases r <;> rfl
  · unfold recomputeMh
    rw [bind_run]
    have h := calculateHierarchy_key E p f1 f2 f3 s
    rcases hc : calculateHierarchy E p f1 f2 f3 s with ⟨r, s'⟩
    rw [hc] at h
    cases r <;> exact h

variable {p}
theorem pureMh_congr {a b : HObj F} (h : SameKey a b) (d : Depth) (M : Mat2 F) (f1 f2 f3 : Int) :
    pureMh E p d a M f1 f2 f3 = pureMh E p d b M f1 f2 f3 := by
  unfold pureMh; rw [pureHier_congr E h]
variable (p)

/-- sum of the squared deviations -/
def pureSum (d : Depth) (ho : HObj F) (M : Mat2 F) (f1 f2 f3 : Int) (Mh : F) : List DepthIdx → F → Except String F
  | [], acc => .ok acc
  | i :: l, acc =>
    match pureMh E p (setIdx d i 0) ho M f1 f2 f3 with
    | .error e => .error e
    | .ok m => pureSum d ho M f1 f2 f3 Mh l (acc + pow2 (Mh - m))

theorem tempSet_run {α : Type} (i : DepthIdx) (v : Int) (m : CalcM F α) (hm : Pres m) (s : St F) :
    tempSet i v m s = ((m { s with depth := setIdx s.depth i v }).1,
      { depth := s.depth, ho := (m { s with depth := setIdx s.depth i v }).2.ho }) := by
  have h := (Pres.tempSet hm i v).out s
  unfold tempSet at h ⊢
  rcases hc : m { s with depth := setIdx s.depth i v } with ⟨r, s'⟩
  rw [hc] at h
  dsimp only at h ⊢
  rw [h]

theorem sumTruncations_run (M : Mat2 F) (f1 f2 f3 : Int) (Mh : F) (ho : HObj F) (l : List DepthIdx) :
    ∀ (acc : F) (s : St F), SameKey s.ho ho →
      (sumTruncations E p M f1 f2 f3 Mh l acc s).1 = pureSum E p s.depth ho M f1 f2 f3 Mh l acc := by
  induction l with
  | nil => intro acc s h; rfl
  | cons i l ih =>
    intro acc s h
    unfold sumTruncations pureSum
    rw [bind_run, tempSet_run _ _ _ (pres_recomputeMh E p M f1 f2 f3)]
    obtain ⟨h1, h2, -⟩ := recomputeMh_fst E p M f1 f2 f3 { s with depth := setIdx s.depth i 0 }
    rw [pureMh_congr E h] at h1
    rw [h1]
    cases hm : pureMh E p (setIdx s.depth i 0) ho M f1 f2 f3 with
    | error e => rfl
    | ok m =>
      dsimp only
      rw [ih _ _ ?_]
      · exact ⟨h2.alphab.trans h.alphab, h2.hierarchy.trans h.hierarchy, h2.mdr.trans h.mdr⟩

/-- expansion flags while the uncertainty is estimated -/
def uncDepth (d : Depth) : Depth := setIdx (setIdx d XD.Mst 1) XD.threeLoop 1

/-- the expansion uncertainty as a pure function -/
def pureUnc (d : Depth) (ho : HObj F) (M : Mat2 F) (f1 f2 f3 : Int) : Except String F :=
  match pureMh E p (uncDepth d) ho M f1 f2 f3 with
  | .error e => .error e
  | .ok Mh =>
    match getMotherHierarchy ho.hierarchy with
    | .error e => .error e
    | .ok m =>
      match pureSum E p (uncDepth d) ho M f1 f2 f3 Mh (truncationFlags m) 0 with
      | .error e => .error e
      | .ok u => .ok (FOps.sqrt u)

theorem getExpansionUncertainty_run (M : Mat2 F) (f1 f2 f3 : Int) (s : St F) :
    getExpansionUncertainty E p M f1 f2 f3 s = (pureUnc E p s.depth s.ho M f1 f2 f3, s) := by
  have hst : (getExpansionUncertainty E p M f1 f2 f3 s).2 = s := by
    have h1 := (pres_getExpansionUncertainty E p M f1 f2 f3).out s
    have h2 : (getExpansionUncertainty E p M f1 f2 f3 s).2.ho = s.ho := by
      unfold getExpansionUncertainty
      rw [bind_run]
      unfold getHo
      exact localHo_ho _ _ _
    cases s
    revert h1 h2
    generalize (getExpansionUncertainty E p M f1 f2 f3 _).2 = t
    intro h1 h2
    cases t
    simp_all
  refine Prod.ext ?_ hst
  unfold getExpansionUncertainty pureUnc
  rw [bind_run]
  unfold getHo
  dsimp only
  unfold localHo
  rw [tempSet_run, tempSet_run]
  · dsimp only
    rw [bind_run]
    obtain ⟨h1, h2, h3⟩ := recomputeMh_fst E p M f1 f2 f3 { s with depth := uncDepth s.depth }
    rcases hr : recomputeMh E p M f1 f2 f3 { s with depth := uncDepth s.depth } with ⟨r, s'⟩
    rw [hr] at h1 h2 h3
    dsimp only at h1 h2 h3
    have e : (⟨setIdx (setIdx s.depth XD.Mst 1) XD.threeLoop 1, s.ho⟩ : St F) = { s with depth := uncDepth s.depth } := rfl
    rw [e, hr, ← h1]
    cases r with
    | error e => rfl
    | ok Mh =>
      dsimp only
      unfold HObj.getSuitableHierarchy
      cases hm : getMotherHierarchy s.ho.hierarchy with
      | error e => rfl
      | ok m =>
        rw [bind_run_ok (lift_run _ _)]
        have h4 := sumTruncations_run E p M f1 f2 f3 Mh s.ho (truncationFlags m) 0 s' h2
        rcases hs : sumTruncations E p M f1 f2 f3 Mh (truncationFlags m) 0 s' with ⟨u, s''⟩
        rw [hs, h3] at h4
        dsimp only at h4
        show _ = (match pureSum E p (uncDepth s.depth) s.ho M f1 f2 f3 Mh (truncationFlags m) 0 with
          | .error e => .error e
          | .ok u => .ok (FOps.sqrt u) : Except String F)
        rw [← h4]
        cases u with
        | error e => rw [bind_run_err hs]
        | ok u => rw [bind_run_ok hs]; rfl
  all_goals repeat' first
    | exact Pres.tempSet ‹_› _ _
    | with_reducible exact pres_recomputeMh ..
    | with_reducible exact pres_sumTruncations ..
    | with_reducible exact Pres.lift _
    | with_reducible exact Pres.pure _
    | with_reducible refine Pres.bind ?_ fun _ => ?_
    | refine Pres.tempSet ?_ _ _

end unc
end Himalaya
