import Verif.Calc.Props3
import Mathlib.Tactic.IntervalCases

/-!
# The calculation returns whenever a hierarchy is suitable and the external code returns

Used to show that the hypotheses of the partial-correctness theorems can be met.
-/

set_option linter.unusedSimpArgs false
set_option linter.unusedSectionVars false
set_option linter.unusedVariables false

namespace Himalaya

open CalcM
open scoped Himalaya Himalaya.FOps

/-- External code that never throws. -/
structure TotalEnv {F : Type} (E : Env F) : Prop where
  hier : ∀ k d args mdr fl, ∃ o, E.hier k d args mdr fl = .ok o
  atas : ∀ args, ∃ o, E.atas args = .ok o
  eftFull : ∀ p, ∃ o, E.eftFull p = .ok o
  eftAs : ∀ p, ∃ o, E.eftAs p = .ok o
  tc : ∀ p, ∃ o, E.tc p = .ok o
  fo : ∀ p b, ∃ o, E.fo p b = .ok o

section
variable {F : Type} [Add F] [Sub F] [Mul F] [Div F] [Neg F] [FOps F] {E : Env F} {p : Params F} {ho : HObj F}

theorem mother_ok (h : HasHierarchy ho) : ∃ m, getMotherHierarchy ho.getSuitableHierarchy = .ok m := by
  rw [C07_mother_domain]; exact h
theorem shift1_ok (h : HasHierarchy ho) (a b : Int) : ∃ x, shiftMst1ToMDR p ho a b = .ok x := by
  obtain ⟨m, hm⟩ := mother_ok h
  unfold shiftMst1ToMDR; rw [hm]; exact ⟨_, rfl⟩
theorem shift2_ok (h : HasHierarchy ho) (a b : Int) : ∃ x, shiftMst2ToMDR p ho a b = .ok x := by
  obtain ⟨m, hm⟩ := mother_ok h
  unfold shiftMst2ToMDR; rw [hm]; exact ⟨_, rfl⟩
theorem msf_ok (h : HasHierarchy ho) (l : Int) (hl : l = 1 ∨ l = 2 ∨ l = 3) : ∃ x, calcMsfMDRFlag p ho l = .ok x := by
  unfold calcMsfMDRFlag
  obtain ⟨a, ha⟩ := shift1_ok (p := p) h 0 0
  obtain ⟨b, hb⟩ := shift1_ok (p := p) h ho.getMDRFlag 0
  obtain ⟨c, hc⟩ := shift1_ok (p := p) h ho.getMDRFlag ho.getMDRFlag
  obtain ⟨a', ha'⟩ := shift2_ok (p := p) h 0 0
  obtain ⟨b', hb'⟩ := shift2_ok (p := p) h ho.getMDRFlag 0
  obtain ⟨c', hc'⟩ := shift2_ok (p := p) h ho.getMDRFlag ho.getMDRFlag
  rcases hl with rfl | rfl | rfl
  · rw [ha, ha']; exact ⟨_, rfl⟩
  · rw [hb, hb']; exact ⟨_, rfl⟩
  · rw [hc, hc']; exact ⟨_, rfl⟩
theorem mt41_ok (h : HasHierarchy ho) (a b : Int) : ∃ m, getMt41L p ho a b = .ok m := by
  obtain ⟨x, hx⟩ := shift1_ok (p := p) h a b
  obtain ⟨y, hy⟩ := shift2_ok (p := p) h a b
  unfold getMt41L; rw [hx, hy]; exact ⟨_, rfl⟩
theorem mt42_ok (hE : TotalEnv E) (h : HasHierarchy ho) (a b : Int) : ∃ m, getMt42L E p ho a b = .ok m := by
  obtain ⟨x, hx⟩ := shift1_ok (p := p) h a b
  obtain ⟨y, hy⟩ := shift2_ok (p := p) h a b
  unfold getMt42L deltaMh2AtAs; rw [hx, hy]
  obtain ⟨o, ho⟩ := hE.atas [if ho.getIsAlphab then pow2 p.Mb else pow2 p.Mt, p.MG, pow2 x, pow2 y,
    FOps.sin (if ho.getIsAlphab then p.theta_b else p.theta_t), FOps.cos (if ho.getIsAlphab then p.theta_b else p.theta_t),
    pow2 p.scale, -p.mu, calcTanBeta p, calcV2 p, p.g3]
  exact ⟨_, by
    show (E.atas _ >>= _) = _
    rw [ho]; rfl⟩
theorem h3m_ok (h : HasHierarchy ho) : ∃ m, shiftH3mToDRbarPrime p ho = .ok m := by
  obtain ⟨x, hx⟩ := shift1_ok (p := p) h ho.getMDRFlag ho.getMDRFlag
  obtain ⟨y, hy⟩ := shift2_ok (p := p) h ho.getMDRFlag ho.getMDRFlag
  unfold shiftH3mToDRbarPrime; rw [hx, hy]; exact ⟨_, rfl⟩
theorem hierArgs_ok (h : HasHierarchy ho) (x y : F) : ∃ a, hierArgs p ho x y = some a := by
  unfold hierArgs
  obtain ⟨h1, h2⟩ := h
  generalize ho.getSuitableHierarchy = k at h1 h2
  interval_cases k <;> exact ⟨_, rfl⟩
theorem loopOut_ok (hE : TotalEnv E) (h : HasHierarchy ho) (d : Depth) (l : Int) (hl : l = 1 ∨ l = 2 ∨ l = 3) :
    ∃ o, loopOut E p d ho l = .ok o := by
  unfold loopOut
  obtain ⟨x, hx⟩ := msf_ok (p := p) h l hl
  obtain ⟨a, ha⟩ := hierArgs_ok (p := p) h x.1 x.2
  obtain ⟨o, ho'⟩ := hE.hier ho.getSuitableHierarchy d a ho.getMDRFlag (loopFlagsOf l)
  rw [hx]; dsimp only; rw [ha]; dsimp only; rw [ho']; exact ⟨_, rfl⟩
theorem pureStep_ok (hE : TotalEnv E) (h : HasHierarchy ho) (d : Depth) (b : Bool) (l : Int) (hl : l = 1 ∨ l = 2 ∨ l = 3)
    (acc : SE F) : ∃ o, pureStep E p d ho b l acc = .ok o := by
  unfold pureStep
  obtain ⟨o, ho⟩ := loopOut_ok (p := p) hE h d l hl
  cases b
  · exact ⟨_, rfl⟩
  · simp only [if_true]; rw [ho]; exact ⟨_, rfl⟩
theorem pureHier_ok (hE : TotalEnv E) (h : HasHierarchy ho) (d : Depth) (f1 f2 f3 : Int) :
    ∃ m, pureHier E p d ho f1 f2 f3 = .ok m := by
  unfold pureHier
  obtain ⟨a, ha⟩ := pureStep_ok (p := p) hE h d (decide (f1 ≠ 0)) 1 (by simp) (0, 0, 0)
  obtain ⟨b, hb⟩ := pureStep_ok (p := p) hE h d (decide (f2 ≠ 0)) 2 (by simp) a
  obtain ⟨c, hc⟩ := pureStep_ok (p := p) hE h d (decide (f3 ≠ 0)) 3 (by simp) b
  rw [ha]; dsimp only; rw [hb]; dsimp only; rw [hc]
  exact ⟨_, rfl⟩
theorem pureMh_ok (hE : TotalEnv E) (h : HasHierarchy ho) (d : Depth) (M : Mat2 F) (f1 f2 f3 : Int) :
    ∃ m, pureMh E p d ho M f1 f2 f3 = .ok m := by
  obtain ⟨m, hm⟩ := pureHier_ok (p := p) hE h d f1 f2 f3
  unfold pureMh; rw [hm]; exact ⟨_, rfl⟩
theorem pureSum_ok' (hE : TotalEnv E) (h : HasHierarchy ho) (d : Depth) (M : Mat2 F) (f1 f2 f3 : Int) (Mh : F) (l : List DepthIdx) :
    ∀ acc, ∃ u, pureSum E p d ho M f1 f2 f3 Mh l acc = .ok u := by
  induction l with
  | nil => exact fun acc => ⟨_, rfl⟩
  | cons i l ih =>
    intro acc
    obtain ⟨m, hm⟩ := pureMh_ok (p := p) hE h (setIdx d i 0) M f1 f2 f3
    unfold pureSum
    rw [hm]
    exact ih _
theorem pureUnc_ok (hE : TotalEnv E) (h : HasHierarchy ho) (d : Depth) (M : Mat2 F) (f1 f2 f3 : Int) :
    ∃ u, pureUnc E p d ho M f1 f2 f3 = .ok u := by
  unfold pureUnc
  obtain ⟨Mh, hMh⟩ := pureMh_ok (p := p) hE h (uncDepth d) M f1 f2 f3
  obtain ⟨m, hm⟩ := mother_ok h
  have hm2 : getMotherHierarchy ho.hierarchy = .ok m := hm
  obtain ⟨u, hu⟩ := pureSum_ok' (p := p) hE h (uncDepth d) M f1 f2 f3 Mh (truncationFlags m) 0
  rw [hMh]; dsimp only; rw [hm2]; dsimp only; rw [hu]
  exact ⟨_, rfl⟩

/-! ### Calls that return -/

/-- `m` returns and keeps a hierarchy selected -/
def Tot {α : Type} (m : CalcM F α) : Prop := ∀ s : St F, HasHierarchy s.ho → ∃ a s', m s = (.ok a, s') ∧ HasHierarchy s'.ho

theorem Tot.pure {α : Type} (a : α) : Tot (Pure.pure a : CalcM F α) := fun s hs => ⟨a, s, rfl, hs⟩
theorem Tot.lift {α : Type} {e : Except String α} (h : ∃ a, e = .ok a) : Tot (lift e : CalcM F α) := by
  obtain ⟨a, rfl⟩ := h
  exact fun s hs => ⟨a, s, rfl, hs⟩
theorem Tot.bind {α β : Type} {m : CalcM F α} {f : α → CalcM F β} (hm : Tot m) (hf : ∀ a, Tot (f a)) : Tot (m >>= f) := by
  intro s hs
  obtain ⟨a, s1, e1, h1⟩ := hm s hs
  obtain ⟨b, s2, e2, h2⟩ := hf a s1 h1
  exact ⟨b, s2, bind_ok.2 ⟨a, s1, e1, e2⟩, h2⟩
theorem Tot.getHoBind {β : Type} {f : HObj F → CalcM F β} (hf : ∀ ho, HasHierarchy ho → Tot (f ho)) : Tot (getHo >>= f) := by
  intro s hs
  obtain ⟨b, s2, e2, h2⟩ := hf s.ho hs s hs
  exact ⟨b, s2, bind_ok.2 ⟨s.ho, s, rfl, e2⟩, h2⟩
theorem Tot.modHo {g : HObj F → HObj F} (hg : ∀ h, (g h).hierarchy = h.hierarchy) : Tot (modHo g : CalcM F Unit) :=
  fun s hs => ⟨(), _, rfl, by
    show 0 ≤ (g s.ho).hierarchy ∧ (g s.ho).hierarchy ≤ 13
    rw [hg]; exact hs⟩
theorem Tot.modHoE {g : HObj F → Except String (HObj F)} (hg : ∀ h, ∃ h', g h = .ok h' ∧ h'.hierarchy = h.hierarchy) :
    Tot (modHoE g : CalcM F Unit) := by
  intro s hs
  obtain ⟨h', e, eh⟩ := hg s.ho
  refine ⟨(), ⟨s.depth, h'⟩, modHoE_ok.2 ⟨h', e, rfl⟩, ?_⟩
  show 0 ≤ h'.hierarchy ∧ h'.hierarchy ≤ 13
  rw [eh]; exact hs
theorem Tot.whenM {c : Bool} {m : CalcM F Unit} (h : Tot m) : Tot (whenM c m) := by
  cases c
  · exact Tot.pure ()
  · exact h
theorem Tot.ite {α : Type} {c : Prop} [Decidable c] {m n : CalcM F α} (h1 : Tot m) (h2 : Tot n) : Tot (if c then m else n) := by
  split <;> assumption

theorem tot_calculateHierarchy (hE : TotalEnv E) (f1 f2 f3 : Int) : Tot (calculateHierarchy E p f1 f2 f3) := by
  intro s hs
  obtain ⟨m, hm⟩ := pureHier_ok (p := p) hE hs s.depth f1 f2 f3
  have h1 := calculateHierarchy_fst E p f1 f2 f3 s
  have h2 := calculateHierarchy_key E p f1 f2 f3 s
  refine ⟨m, (calculateHierarchy E p f1 f2 f3 s).2, Prod.ext (h1.trans hm) rfl, ?_⟩
  show 0 ≤ (calculateHierarchy E p f1 f2 f3 s).2.ho.hierarchy ∧ (calculateHierarchy E p f1 f2 f3 s).2.ho.hierarchy ≤ 13
  rw [h2.hierarchy]; exact hs

theorem tot_getExpansionUncertainty (hE : TotalEnv E) (M : Mat2 F) (f1 f2 f3 : Int) : Tot (getExpansionUncertainty E p M f1 f2 f3) := by
  intro s hs
  obtain ⟨u, hu⟩ := pureUnc_ok (p := p) hE hs s.depth M f1 f2 f3
  exact ⟨u, s, by rw [getExpansionUncertainty_run, hu], hs⟩

theorem tot_calcDeltaLambda3L (hE : TotalEnv E) (b : Bool) : Tot (calcDeltaLambda3L E p b) := by
  unfold calcDeltaLambda3L
  refine Tot.getHoBind fun ho hho => ?_
  refine Tot.bind (Tot.lift (hE.eftAs _)) fun eft => Tot.bind (Tot.lift (hE.tc _)) fun tc => ?_
  refine Tot.bind (Tot.modHo fun h => rfl) fun _ => Tot.bind (Tot.modHo fun h => rfl) fun _ => Tot.bind (Tot.modHo fun h => rfl) fun _ => ?_
  refine Tot.bind (Tot.modHoE fun h => ⟨_, rfl, rfl⟩) fun _ => ?_
  exact Tot.bind (Tot.whenM (Tot.modHo fun h => rfl)) fun _ => Tot.modHo fun h => rfl

theorem tot_evalCandidate (hE : TotalEnv E) : Tot (evalCandidate E p) := by
  unfold evalCandidate
  refine Tot.getHoBind fun ho hho => ?_
  refine Tot.bind (Tot.lift (mt41_ok hho _ _)) fun m1 => Tot.bind (Tot.lift (mt42_ok hE hho _ _)) fun m2 => ?_
  refine Tot.bind (tot_calculateHierarchy hE _ _ _) fun x => Tot.bind (tot_getExpansionUncertainty hE _ _ _ _) fun u2 => ?_
  exact Tot.bind (tot_getExpansionUncertainty hE _ _ _ _) fun u3 => Tot.bind (tot_calcDeltaLambda3L hE _) fun _ => Tot.pure _

theorem tot_selectBody (hE : TotalEnv E) (k : Int) (hk : 0 ≤ k ∧ k ≤ 13) (acc : Sel F) (s : St F) :
    ∃ a s', selectBody E p k acc s = (.ok a, s') := by
  unfold selectBody
  have h1 : HasHierarchy (s.ho.setSuitableHierarchy k) := hk
  have : Tot (getHo >>= fun ho => if isHierarchySuitable p ho = true then do
      let c ← evalCandidate E p
      if FOps.lt acc.1 0 || FOps.lt c.currError acc.1 then
        modHo (fun h => h.setAbsDiff2L c.twoLoopError)
        modHo (fun h => h.setRelDiff2L c.relError)
        modHoE (fun h => h.setDMhExpUncertainty 2 c.unc2)
        modHoE (fun h => h.setDMhExpUncertainty 3 c.unc3)
        return (c.currError, k)
      else return acc
    else (Pure.pure acc : CalcM F (Sel F))) := by
    refine Tot.getHoBind fun ho hho => Tot.ite (Tot.bind (tot_evalCandidate hE) fun c => Tot.ite ?_ (Tot.pure _)) (Tot.pure _)
    refine Tot.bind (Tot.modHo fun h => rfl) fun _ => Tot.bind (Tot.modHo fun h => rfl) fun _ => ?_
    exact Tot.bind (Tot.modHoE fun h => ⟨_, rfl, rfl⟩) fun _ => Tot.bind (Tot.modHoE fun h => ⟨_, rfl, rfl⟩) fun _ => Tot.pure _
  obtain ⟨a, s', e, -⟩ := this { s with ho := s.ho.setSuitableHierarchy k } h1
  exact ⟨a, s', bind_ok.2 ⟨(), _, rfl, e⟩⟩

theorem tot_selectLoop (hE : TotalEnv E) (l : List Int) (hl : ∀ k ∈ l, 0 ≤ k ∧ k ≤ 13) : ∀ (acc : Sel F) (s : St F),
    ∃ a s', selectLoop E p l acc s = (.ok a, s') := by
  induction l with
  | nil => exact fun acc s => ⟨_, _, rfl⟩
  | cons k l ih =>
    intro acc s
    obtain ⟨a, s1, e1⟩ := tot_selectBody (p := p) hE k (hl k (by simp)) acc s
    obtain ⟨b, s2, e2⟩ := ih (fun j hj => hl j (by simp [hj])) a s1
    exact ⟨b, s2, bind_ok.2 ⟨a, s1, e1, e2⟩⟩

/-- If the external code does not throw, the selection returns. -/
theorem compareHierarchies_returns (hE : TotalEnv E) (s : St F) : ∃ k s', compareHierarchies E p s = (.ok k, s') := by
  unfold compareHierarchies
  obtain ⟨h0, e0⟩ : ∃ h0, s.ho.setDMh 0 (treeLevel p) = .ok h0 := ⟨_, rfl⟩
  obtain ⟨a, s1, e1⟩ := tot_selectLoop (p := p) hE allHierarchies (fun k hk => (mem_all k).1 hk) (-1, -1)
    ⟨setIdx (setIdx s.depth XD.threeLoop 0) XD.Mst 0, h0⟩
  have inner : (do
      modHoE (fun h => h.setDMh 0 (treeLevel p))
      let (_, k) ← selectLoop E p allHierarchies (-1, -1)
      modHo (fun h => h.setSuitableHierarchy k)
      return k : CalcM F Int) ⟨setIdx (setIdx s.depth XD.threeLoop 0) XD.Mst 0, s.ho⟩
      = (.ok a.2, { s1 with ho := s1.ho.setSuitableHierarchy a.2 }) :=
    bind_ok.2 ⟨(), _, modHoE_ok.2 ⟨h0, e0, rfl⟩, bind_ok.2 ⟨a, s1, e1, rfl⟩⟩
  exact ⟨_, _, tempSet_ok.2 ⟨_, tempSet_ok.2 ⟨_, inner, rfl⟩, rfl⟩⟩

theorem tot_mdrBlock (hE : TotalEnv E) : Tot (mdrBlock E p) := by
  unfold mdrBlock
  refine Tot.bind (Tot.modHoE fun h => ⟨_, rfl, rfl⟩) fun _ => Tot.getHoBind fun ho hho => ?_
  refine Tot.bind (Tot.lift ?_) fun sh => ?_
  · obtain ⟨a, ha⟩ := mt41_ok (p := p) hho 1 1
    obtain ⟨b, hb⟩ := mt41_ok (p := p) hho 0 0
    obtain ⟨c, hc⟩ := mt42_ok (p := p) hE hho 1 1
    obtain ⟨d, hd⟩ := mt42_ok (p := p) hE hho 0 0
    unfold calcDRbarToMDRbarShift
    rw [ha, hb, hc, hd]
    exact ⟨_, rfl⟩
  refine Tot.bind (Tot.modHo fun h => rfl) fun _ => Tot.bind (tot_calculateHierarchy hE _ _ _) fun m => Tot.getHoBind fun ho hho => ?_
  refine Tot.bind (Tot.lift (h3m_ok hho)) fun s => Tot.bind (Tot.modHoE fun h => ⟨_, rfl, rfl⟩) fun _ => Tot.getHoBind fun ho hho => ?_
  exact Tot.bind (Tot.lift ⟨_, rfl⟩) fun d => Tot.pure _

theorem Tot.localHo' {α : Type} {m : CalcM F α} (hm : Tot m) (h : HObj F) (hh : HasHierarchy h) : Tot (localHo h m) := by
  intro s hs
  obtain ⟨a, s1, e1, h1⟩ := hm { s with ho := h } hh
  exact ⟨a, _, localHo_ok.2 ⟨s1, e1, rfl⟩, hs⟩

theorem tot_part3 (hE : TotalEnv E) : Tot (dmh3lPart3 E p) := by
  unfold dmh3lPart3
  refine Tot.getHoBind fun ho hho => Tot.bind (Tot.localHo' (tot_mdrBlock hE) ho hho) fun r => ?_
  refine Tot.bind (Tot.modHo fun h => rfl) fun _ => Tot.getHoBind fun ho hho => Tot.bind (Tot.lift ⟨_, rfl⟩) fun d3 => ?_
  refine Tot.bind (Tot.modHo fun h => rfl) fun _ => Tot.getHoBind fun ho hho => ?_
  refine Tot.bind (Tot.lift ⟨_, rfl⟩) fun _ => Tot.bind (Tot.lift ⟨_, rfl⟩) fun _ => Tot.bind (Tot.lift ⟨_, rfl⟩) fun _ => Tot.bind (Tot.lift ⟨_, rfl⟩) fun _ => ?_
  refine Tot.bind (Tot.modHoE fun h => ⟨_, rfl, rfl⟩) fun _ => Tot.bind (Tot.modHoE fun h => ⟨_, rfl, rfl⟩) fun _ => ?_
  refine Tot.bind (Tot.modHoE fun h => ⟨_, rfl, rfl⟩) fun _ => Tot.bind (Tot.modHoE fun h => ⟨_, rfl, rfl⟩) fun _ => ?_
  exact Tot.bind (Tot.modHoE fun h => ⟨_, rfl, rfl⟩) fun _ => Tot.modHoE fun h => ⟨_, rfl, rfl⟩

theorem tot_part2 (hE : TotalEnv E) : Tot (dmh3lPart2 E p) := by
  unfold dmh3lPart2
  refine Tot.bind (Tot.lift (hE.fo _ _)) fun _ => ?_
  refine Tot.bind (Tot.modHoE fun h => ⟨_, rfl, rfl⟩) fun _ => Tot.bind (Tot.modHoE fun h => ⟨_, rfl, rfl⟩) fun _ => ?_
  refine Tot.bind (Tot.modHoE fun h => ⟨_, rfl, rfl⟩) fun _ => Tot.bind (Tot.modHoE fun h => ⟨_, rfl, rfl⟩) fun _ => ?_
  refine Tot.bind (Tot.lift (hE.fo _ _)) fun _ => ?_
  refine Tot.bind (Tot.modHoE fun h => ⟨_, rfl, rfl⟩) fun _ => Tot.bind (Tot.modHoE fun h => ⟨_, rfl, rfl⟩) fun _ => ?_
  refine Tot.bind (Tot.modHoE fun h => ⟨_, rfl, rfl⟩) fun _ => Tot.bind (Tot.modHoE fun h => ⟨_, rfl, rfl⟩) fun _ => ?_
  refine Tot.bind (Tot.lift (hE.eftFull _)) fun _ => ?_
  refine Tot.bind (Tot.modHoE fun h => ⟨_, rfl, rfl⟩) fun _ => Tot.bind (Tot.modHoE fun h => ⟨_, rfl, rfl⟩) fun _ => ?_
  exact Tot.bind (Tot.modHoE fun h => ⟨_, rfl, rfl⟩) fun _ => Tot.modHoE fun h => ⟨_, rfl, rfl⟩

theorem tot_mass (hE : TotalEnv E) : Tot (dmh3lMass E p) := by
  unfold dmh3lMass
  refine Tot.bind (tot_calculateHierarchy hE _ _ _) fun m => Tot.getHoBind fun ho hho => Tot.bind (Tot.lift (h3m_ok hho)) fun sh => ?_
  refine Tot.bind (Tot.modHoE fun h => ⟨_, rfl, rfl⟩) fun _ => Tot.getHoBind fun ho hho => Tot.bind (Tot.lift (mt41_ok hho _ _)) fun m1 => ?_
  refine Tot.bind (Tot.modHoE fun h => ⟨_, rfl, rfl⟩) fun _ => Tot.getHoBind fun ho hho => Tot.bind (Tot.lift (mt42_ok hE hho _ _)) fun m2 => ?_
  refine Tot.bind (Tot.modHoE fun h => ⟨_, rfl, rfl⟩) fun _ => Tot.getHoBind fun ho hho => ?_
  refine Tot.bind (Tot.lift ⟨_, rfl⟩) fun _ => Tot.bind (Tot.lift ⟨_, rfl⟩) fun _ => Tot.bind (Tot.lift ⟨_, rfl⟩) fun _ => ?_
  refine Tot.bind (tot_getExpansionUncertainty hE _ _ _ _) fun _ => Tot.bind (Tot.modHoE fun h => ⟨_, rfl, rfl⟩) fun _ => ?_
  refine Tot.bind (Tot.modHoE fun h => ⟨_, rfl, rfl⟩) fun _ => Tot.getHoBind fun ho hho => Tot.bind (Tot.lift (h3m_ok hho)) fun _ => ?_
  exact Tot.modHo fun h => rfl

theorem tot_lambda (hE : TotalEnv E) (b : Bool) : Tot (dmh3lLambda E p b) := by
  unfold dmh3lLambda
  refine Tot.bind (tot_calcDeltaLambda3L hE _) fun _ => ?_
  refine Tot.bind (Tot.lift (hE.eftAs _)) fun eft => Tot.bind (Tot.lift (hE.tc _)) fun tc => ?_
  refine Tot.bind (Tot.modHoE fun h => ⟨_, rfl, rfl⟩) fun _ => Tot.bind (Tot.modHoE fun h => ⟨_, rfl, rfl⟩) fun _ => ?_
  refine Tot.bind (Tot.modHoE fun h => ⟨_, rfl, rfl⟩) fun _ => Tot.bind (Tot.modHoE fun h => ⟨_, rfl, rfl⟩) fun _ => ?_
  refine Tot.bind (Tot.modHoE fun h => ⟨_, rfl, rfl⟩) fun _ => Tot.ite ?_ ?_
  · refine Tot.bind (Tot.modHoE fun h => ⟨_, rfl, rfl⟩) fun _ => Tot.getHoBind fun ho hho => Tot.bind (Tot.lift ⟨_, rfl⟩) fun _ => ?_
    exact Tot.modHoE fun h => ⟨_, rfl, rfl⟩
  · refine Tot.bind (Tot.modHo fun h => rfl) fun _ => Tot.bind (Tot.modHo fun h => rfl) fun _ => Tot.bind (Tot.modHo fun h => rfl) fun _ => ?_
    refine Tot.bind (Tot.modHo fun h => rfl) fun _ => Tot.bind (Tot.modHoE fun h => ⟨_, rfl, rfl⟩) fun _ => ?_
    exact Tot.modHoE fun h => ⟨_, rfl, rfl⟩

/-- If the external code does not throw and some hierarchy is suitable, the calculation returns a result. -/
theorem C20_returns_if_suitable [LawfulCmp F] [LawfulSqrt F] (hE : TotalEnv E) (d : Depth) (b : Bool) (h0 : HObj F)
    (j : Int) (hj : Suitable p (HObj.new b) j) : ∃ r, (calculateDMh3L E p b ⟨d, h0⟩).1 = .ok r := by
  obtain ⟨k, s', e⟩ := compareHierarchies_returns (p := p) hE ⟨d, HObj.new b⟩
  obtain ⟨h1, h2, h3⟩ := C08_selected_is_suitable E p d (HObj.new b) k s' e
  have hk : k ≠ -1 := fun hc => h2.1 hc j hj
  have hs : HasHierarchy s'.ho := by
    unfold HasHierarchy
    rw [h1]; exact suitable_range (h3 hk)
  have e' : dmh3lSelect E p ⟨d, HObj.new b⟩ = (.ok k, s') := bind_ok.2 ⟨(), ⟨d, HObj.new b⟩, rfl, e⟩
  obtain ⟨_, s0, e0, hs0⟩ := tot_mass (p := p) hE s' hs
  obtain ⟨_, s1, e1', hs1⟩ := tot_lambda (p := p) hE b s0 hs0
  have e1 : dmh3lPart1 E p b ⟨d, HObj.new b⟩ = (.ok (), s1) := bind_ok.2 ⟨k, s', e', bind_ok.2 ⟨_, s0, e0, e1'⟩⟩
  obtain ⟨_, s2, e2, hs2⟩ := tot_part2 (p := p) hE s1 hs1
  obtain ⟨_, s3, e3, hs3⟩ := tot_part3 (p := p) hE s2 hs2
  unfold calculateDMh3L
  have : localHo (HObj.new b) (dmh3lBody E p b) ⟨d, h0⟩ = (.ok s3.ho, { s3 with ho := h0 }) :=
    localHo_ok.2 ⟨s3, bind_ok.2 ⟨_, s1, e1, bind_ok.2 ⟨_, s2, e2, bind_ok.2 ⟨_, s3, e3, rfl⟩⟩⟩, rfl⟩
  rw [this]
  exact ⟨_, rfl⟩

end
end Himalaya
