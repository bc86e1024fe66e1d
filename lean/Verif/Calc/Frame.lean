import Verif.Calc.Lemmas

/-!
# Which data of the result object a member function leaves alone
-/

set_option linter.unusedSimpArgs false
set_option linter.unusedSectionVars false
set_option linter.unusedVariables false

namespace Himalaya

open CalcM
open scoped Himalaya Himalaya.FOps

/-- A result object with one of the fourteen hierarchies selected. -/
def HasHierarchy {F : Type} (ho : HObj F) : Prop := 0 ≤ ho.getSuitableHierarchy ∧ ho.getSuitableHierarchy ≤ 13

section keeps
variable {F α β γ : Type}

/-- When `m` returns normally, the data `f` of the result object are as before. -/
structure Keeps (f : HObj F → γ) (m : CalcM F α) : Prop where
  out : ∀ s a s', m s = (.ok a, s') → f s'.ho = f s.ho

variable {f : HObj F → γ}

theorem Keeps.pure (a : α) : Keeps f (Pure.pure a : CalcM F α) :=
  ⟨fun s b s' h => by obtain ⟨-, rfl⟩ := pure_ok.1 h; rfl⟩
theorem Keeps.lift (e : Except String α) : Keeps f (lift e) :=
  ⟨fun s b s' h => by obtain ⟨-, rfl⟩ := lift_ok.1 h; rfl⟩
theorem Keeps.getHo : Keeps f (getHo : CalcM F (HObj F)) :=
  ⟨fun s b s' h => by obtain ⟨-, rfl⟩ := getHo_ok.1 h; rfl⟩
theorem Keeps.getDepth : Keeps f (getDepth : CalcM F Depth) :=
  ⟨fun s b s' h => by obtain ⟨-, rfl⟩ := getDepth_ok.1 h; rfl⟩
theorem Keeps.bind {m : CalcM F α} {g : α → CalcM F β} (h1 : Keeps f m) (h2 : ∀ a, Keeps f (g a)) : Keeps f (m >>= g) := by
  refine ⟨fun s b s' h => ?_⟩
  obtain ⟨a, s1, e1, e2⟩ := bind_ok.1 h
  rw [(h2 a).out _ _ _ e2, h1.out _ _ _ e1]
theorem Keeps.modHo {g : HObj F → HObj F} (hg : ∀ h, f (g h) = f h) : Keeps f (modHo g) :=
  ⟨fun s b s' h => by rw [← modHo_ok.1 h]; exact hg _⟩
theorem Keeps.modHoE {g : HObj F → Except String (HObj F)} (hg : ∀ h h', g h = .ok h' → f h' = f h) : Keeps f (modHoE g) := by
  refine ⟨fun s b s' h => ?_⟩
  obtain ⟨h', e1, rfl⟩ := modHoE_ok.1 h
  exact hg _ _ e1
theorem Keeps.whenM {c : Bool} {m : CalcM F Unit} (h : Keeps f m) : Keeps f (whenM c m) := by
  cases c
  · exact Keeps.pure ()
  · exact h
theorem Keeps.ite {c : Prop} [Decidable c] {m n : CalcM F α} (h1 : Keeps f m) (h2 : Keeps f n) : Keeps f (if c then m else n) := by
  split <;> assumption
theorem Keeps.tempSet {m : CalcM F α} (h : Keeps f m) (i : DepthIdx) (v : Int) : Keeps f (tempSet i v m) := by
  refine ⟨fun s b s' hs => ?_⟩
  obtain ⟨s1, e1, rfl⟩ := tempSet_ok.1 hs
  have := h.out _ _ _ e1
  exact this
theorem Keeps.localHo {m : CalcM F α} (h : HObj F) : Keeps f (localHo h m) := by
  refine ⟨fun s b s' hs => ?_⟩
  obtain ⟨s1, e1, rfl⟩ := localHo_ok.1 hs
  rfl
end keeps

/-! ### What the setters change -/

section setters
variable {F : Type} {o o' : HObj F}

theorem frame_arrSet_ok {α : Type} {a a' : Fin 4 → α} {l : Int} {v : α} (h : HObj.arrSet a l v = .ok a') :
    ∃ i : Fin 4, (i : ℕ) = l.toNat ∧ 0 ≤ l ∧ a' = fun j => if j = i then v else a j := by
  unfold HObj.arrSet at h
  split at h
  · rename_i hl
    cases h
    exact ⟨⟨l.toNat, by omega⟩, rfl, hl.1, rfl⟩
  · cases h

theorem frame_map_ok {α β : Type} {e : Except String α} {g : α → β} {b : β} (h : e.map g = .ok b) : ∃ a, e = .ok a ∧ g a = b := by
  cases e with
  | error x => cases h
  | ok a => exact ⟨a, rfl, Except.ok.inj h⟩

theorem frame_setDMh_ok {l : Int} {m : Mat2 F} (h : o.setDMh l m = .ok o') : ∃ a, o' = { o with dMhMap := a } := by
  unfold HObj.setDMh at h
  split at h
  · obtain ⟨a, -, rfl⟩ := frame_map_ok h; exact ⟨a, rfl⟩
  · cases h
theorem frame_setDMh2_ok {l : Int} {m : F} (h : o.setDMh2 l m = .ok o') : ∃ a, o' = { o with dMh2Map := a } := by
  unfold HObj.setDMh2 at h
  split at h
  · obtain ⟨a, -, rfl⟩ := frame_map_ok h; exact ⟨a, rfl⟩
  · cases h
theorem frame_setDMh2EFT_ok {l : Int} {m : F} (h : o.setDMh2EFT l m = .ok o') : ∃ a, o' = { o with dMh2EFTMap := a } := by
  unfold HObj.setDMh2EFT at h
  split at h
  · obtain ⟨a, -, rfl⟩ := frame_map_ok h; exact ⟨a, rfl⟩
  · cases h
theorem frame_setDMh2FO_ok {l : Int} {m : F} (h : o.setDMh2FO l m = .ok o') : ∃ a, o' = { o with dMh2FOMap := a } := by
  unfold HObj.setDMh2FO at h
  split at h
  · obtain ⟨a, -, rfl⟩ := frame_map_ok h; exact ⟨a, rfl⟩
  · cases h
theorem frame_setDMh2FOAt_ok {l : Int} {m : F} (h : o.setDMh2FOAt l m = .ok o') : ∃ a, o' = { o with dMh2FOAtMap := a } := by
  unfold HObj.setDMh2FOAt at h
  split at h
  · obtain ⟨a, -, rfl⟩ := frame_map_ok h; exact ⟨a, rfl⟩
  · cases h
theorem frame_setDMhExpUncertainty_ok {l : Int} {m : F} (h : o.setDMhExpUncertainty l m = .ok o') :
    ∃ a, o' = { o with expUncertainties := a } := by
  unfold HObj.setDMhExpUncertainty at h
  split at h
  · obtain ⟨a, -, rfl⟩ := frame_map_ok h; exact ⟨a, rfl⟩
  · cases h
theorem frame_setDLambda_ok {l : Int} {m : F} (h : o.setDLambda l m = .ok o') : ∃ a, o' = { o with dLambdaMap := a } := by
  unfold HObj.setDLambda at h
  split at h
  · obtain ⟨a, -, rfl⟩ := frame_map_ok h; exact ⟨a, rfl⟩
  · cases h
theorem frame_setDLambdaShift_ok {l : Int} {m : F} (h : o.setDLambdaShift l m = .ok o') :
    ∃ a, o' = { o with dLambdaDRbarPrimeToMSbarShiftMap := a } := by
  unfold HObj.setDLambdaShift at h
  split at h
  · obtain ⟨a, -, rfl⟩ := frame_map_ok h; exact ⟨a, rfl⟩
  · cases h
theorem frame_setMDRFlag_ok {l : Int} (h : o.setMDRFlag l = .ok o') : o' = { o with mdrFlag := l } := by
  unfold HObj.setMDRFlag at h
  split at h
  · cases h
  · exact (Except.ok.inj h).symm
end setters

/-- closes `∀ h h', setter h = .ok h' → f h' = f h` -/
macro "frame_setter" : tactic => `(tactic| (intro h h' e; first
  | (obtain ⟨a, ha⟩ := frame_setDMh_ok e; subst ha; rfl)
  | (obtain ⟨a, ha⟩ := frame_setDMh2_ok e; subst ha; rfl)
  | (obtain ⟨a, ha⟩ := frame_setDMh2EFT_ok e; subst ha; rfl)
  | (obtain ⟨a, ha⟩ := frame_setDMh2FO_ok e; subst ha; rfl)
  | (obtain ⟨a, ha⟩ := frame_setDMh2FOAt_ok e; subst ha; rfl)
  | (obtain ⟨a, ha⟩ := frame_setDMhExpUncertainty_ok e; subst ha; rfl)
  | (obtain ⟨a, ha⟩ := frame_setDLambda_ok e; subst ha; rfl)
  | (obtain ⟨a, ha⟩ := frame_setDLambdaShift_ok e; subst ha; rfl)))

/-- one step of the frame proofs -/
macro "keeps_step" : tactic => `(tactic| with_reducible first
  | (refine Keeps.bind ?_ fun _ => ?_)
  | exact Keeps.pure _ | exact Keeps.lift _ | exact Keeps.getHo | exact Keeps.getDepth
  | exact Keeps.localHo _
  | (refine Keeps.modHo ?_) | (refine Keeps.modHoE ?_) | (refine Keeps.whenM ?_) | (refine Keeps.ite ?_ ?_)
  | (refine Keeps.tempSet ?_ _ _))

/-! ### Frames of the member functions -/

/-- Data not touched by the expansion. -/
def frameHier {F : Type} (h : HObj F) :=
  (h.isAlphab, h.hierarchy, h.mdrFlag, h.renormalizationScheme, h.absDiff2L, h.relDiff2L, h.expUncertainties, h.dMhMap, h.dMh2Map,
    h.mdrShift, h.h3mShift, h.dLambdaMap, h.dLambdaDRbarPrimeToMSbarShiftMap, h.dMh2EFTMap, h.dMh2FOMap, h.dMh2FOAtMap,
    h.dLambdaEFT, h.dLambdaXtUncertainty)

/-- Data not touched by the computation of the 3-loop threshold. -/
def frameLambda {F : Type} (h : HObj F) :=
  (h.isAlphab, h.hierarchy, h.mdrFlag, h.renormalizationScheme, h.absDiff2L, h.relDiff2L, h.expUncertainties, h.dMhMap, h.dMh2Map,
    h.mdrShift, h.h3mShift, h.dLambdaMap, h.dMh2EFTMap, h.dMh2FOMap, h.dMh2FOAtMap, h.mdrMasses)

/-- Data not touched by the hierarchy selection. -/
def frameSel {F : Type} (h : HObj F) :=
  (h.isAlphab, h.mdrFlag, h.renormalizationScheme, h.dMh2Map,
    h.mdrShift, h.h3mShift, h.dLambdaMap, h.dMh2EFTMap, h.dMh2FOMap, h.dMh2FOAtMap, h.mdrMasses)

section frames
variable {F : Type} [Add F] [Sub F] [Mul F] [Div F] [Neg F] [FOps F] (E : Env F) (p : Params F)

theorem keeps_loopBody (o r : Bool) (l : Int) (acc : SE F) : Keeps frameHier (loopBody E p o r l acc) := by
  unfold loopBody
  refine Keeps.ite ?_ (Keeps.pure _)
  refine Keeps.bind Keeps.getHo fun ho => Keeps.bind Keeps.getDepth fun d => Keeps.bind (Keeps.lift _) fun m => ?_
  refine Keeps.bind ?_ fun args => Keeps.bind (Keeps.lift _) fun out => Keeps.bind (Keeps.whenM (Keeps.modHo fun h => rfl)) fun _ => Keeps.pure _
  split
  · exact Keeps.pure _
  · exact Keeps.lift _

theorem keeps_calculateHierarchy (f1 f2 f3 : Int) : Keeps frameHier (calculateHierarchy E p f1 f2 f3) := by
  unfold calculateHierarchy
  refine Keeps.bind (keeps_loopBody ..) fun a => Keeps.bind (keeps_loopBody ..) fun a => Keeps.bind (keeps_loopBody ..) fun a => ?_
  refine Keeps.bind (Keeps.whenM ?_) fun _ => Keeps.pure _
  exact Keeps.bind Keeps.getHo fun ho => Keeps.bind (Keeps.lift _) fun m => Keeps.modHo fun h => rfl

theorem keeps_calcDeltaLambda3L (b : Bool) : Keeps frameLambda (calcDeltaLambda3L E p b) := by
  unfold calcDeltaLambda3L
  repeat' keeps_step
  all_goals first | (intro h; rfl) | frame_setter

theorem keeps_getExpansionUncertainty {γ : Type} (f : HObj F → γ) (M : Mat2 F) (f1 f2 f3 : Int) :
    Keeps f (getExpansionUncertainty E p M f1 f2 f3) := by
  refine ⟨fun s a s' h => ?_⟩
  rw [getExpansionUncertainty_run] at h
  obtain ⟨-, rfl⟩ := Prod.mk.injEq .. ▸ h
  rfl

end frames
end Himalaya
