import Verif.Calc.Props4

/-! # What `calculateDMh3L` reports: threshold part, fixed-order part, MDR part -/

set_option linter.unusedSimpArgs false
set_option linter.unusedSectionVars false
set_option linter.unusedVariables false

namespace Himalaya

open CalcM
open scoped Himalaya Himalaya.FOps

section
variable {F : Type} [Add F] [Sub F] [Mul F] [Div F] [Neg F] [FOps F] {E : Env F} {p : Params F}

/-- effect of the threshold part -/
structure LambdaPost (E : Env F) (p : Params F) (b : Bool) (s s' : St F) (eft : Eft F) (tc : Tc F) : Prop where
  heft : E.eftAs (pMassES p) = .ok eft
  htc : E.tc (pMassES p) = .ok tc
  key : SameKey s'.ho s.ho
  depth : s'.depth = s.depth
  scheme : s'.ho.renormalizationScheme = s.ho.renormalizationScheme
  dMh : s'.ho.dMhMap = s.ho.dMhMap
  unc : s'.ho.expUncertainties = s.ho.expUncertainties
  h3m : s'.ho.h3mShift = s.ho.h3mShift
  abs2 : s'.ho.absDiff2L = s.ho.absDiff2L
  rel2 : s'.ho.relDiff2L = s.ho.relDiff2L
  l0 : s'.ho.dLambdaMap 0 = eft.loop0 / calcV2 p
  l1 : s'.ho.dLambdaMap 1 = FOps.const .oneLoop * pow2 (p.Mt * (FOps.const .sqrt2 * p.Mt / FOps.sqrt (calcV2 p))) *
    tc.thr 6 .LAMBDA_AT schemeDRbarPrime 1 / calcV2 p
  l2 : s'.ho.dLambdaMap 2 = FOps.const .twoLoop * pow2 (p.Mt * (FOps.const .sqrt2 * p.Mt / FOps.sqrt (calcV2 p)) * p.g3) *
    tc.thr 6 .LAMBDA_AT_AS schemeDRbarPrime 1 / calcV2 p
  s0 : s'.ho.dLambdaDRbarPrimeToMSbarShiftMap 0 = 0
  s1 : s'.ho.dLambdaDRbarPrimeToMSbarShiftMap 1 = 0
  at_mode : b = false → s'.ho.dLambdaMap 3 = s'.ho.dLambdaEFT
  at_eft : b = false → s'.ho.dLambdaEFT =
    (FOps.const .threeLoop * (2 * pow2 p.Mt / calcV2 p) * pow2 (p.Mt * pow2 p.g3) *
        (s.ho.dLambdaNonLog + shiftH3mToDRbarPrimeMh2 p s.ho 0) - eft.loop3 0 0 0 +
      FOps.const .threeLoop * (2 * pow2 p.Mt / calcV2 p) * pow2 (p.Mt * pow2 p.g3) *
        (tc.thr 6 .LAMBDA_AT_AS2 schemeDRbarPrime 1 - tc.thr 6 .LAMBDA_AT_AS2 schemeDRbarPrime 0)) / calcV2 p
  at_nonLog : b = false → s'.ho.dLambdaNonLog =
    (FOps.const .threeLoop * (2 * pow2 p.Mt / calcV2 p) * pow2 (p.Mt * pow2 p.g3) *
        (s.ho.dLambdaNonLog + shiftH3mToDRbarPrimeMh2 p s.ho 0) - eft.loop3 0 0 0) / calcV2 p
  at_h3m : b = false → s'.ho.dLambdaH3m =
    (FOps.const .threeLoop * (2 * pow2 p.Mt / calcV2 p) * pow2 (p.Mt * pow2 p.g3) *
        (s.ho.dLambdaH3m + shiftH3mToDRbarPrimeMh2 p s.ho 1) - eft.loop3 0 1 0) / calcV2 p
  at_s2 : b = false → s'.ho.dLambdaDRbarPrimeToMSbarShiftMap 2 =
    FOps.const .twoLoop * pow2 (p.Mt * (FOps.const .sqrt2 * p.Mt / FOps.sqrt (calcV2 p)) * p.g3) *
      (-4 * s'.ho.dLambdaMap 1 * tc.thr 6 .YT_AS schemeDRbarPrime 1) / calcV2 p
  at_s3 : b = false → s'.ho.dLambdaDRbarPrimeToMSbarShiftMap 3 =
    FOps.const .threeLoop * (2 * pow2 p.Mt / calcV2 p) * pow2 (p.Mt * pow2 p.g3) *
      tc.shift (xtOrderOf s.ho.hierarchy) 1 0 / calcV2 p
  at_xt : b = false → s'.ho.dLambdaXtUncertainty =
    FOps.abs ((if xtOrderOf s.ho.hierarchy = 3 then (1 : F) else 0) *
      (FOps.const .threeLoop * (2 * pow2 p.Mt / calcV2 p) * pow2 (p.Mt * pow2 p.g3)) / calcV2 p * tc.xtTerms tc.limit 4 1)
  ab_mode : b = true → s'.ho.dLambdaMap 3 = 0 ∧ s'.ho.dLambdaH3m = 0 ∧ s'.ho.dLambdaEFT = 0 ∧ s'.ho.dLambdaNonLog = 0 ∧
    s'.ho.dLambdaXtUncertainty = 0 ∧ s'.ho.dLambdaDRbarPrimeToMSbarShiftMap 3 = 0 ∧
    s'.ho.dLambdaDRbarPrimeToMSbarShiftMap 2 = s.ho.dLambdaDRbarPrimeToMSbarShiftMap 2

theorem whenM_false_run {m : CalcM F Unit} {β : Type} (f : Unit → CalcM F β) (s : St F) : (whenM false m >>= f) s = f () s := rfl

theorem lambda_ok {s s' : St F} {u : Unit} {b : Bool} (h : dmh3lLambda E p b s = (.ok u, s')) :
    ∃ eft tc, LambdaPost E p b s s' eft tc := by
  obtain ⟨d, o⟩ := s
  unfold dmh3lLambda at h
  obtain ⟨v, s1, e1, h⟩ := bind_ok.1 h
  unfold calcDeltaLambda3L at e1
  run_at e1
  obtain ⟨eft1, he1, tc1, ht1, e1⟩ := e1
  rw [whenM_false_run] at e1
  run_at e1
  obtain ⟨-, rfl⟩ := Prod.mk.inj e1
  cases b
  · simp only [Bool.not_false, if_true] at h
    run_at h
    obtain ⟨eft, he, tc, ht, h⟩ := h
    obtain ⟨-, rfl⟩ := Prod.mk.inj h
    obtain rfl := Except.ok.inj (he1.symm.trans he)
    obtain rfl := Except.ok.inj (ht1.symm.trans ht)
    refine ⟨eft1, tc1, ?_⟩
    constructor <;> (try dsimp only [HObj.putL, HObj.putLS, HObj.setDLambdaH3m, HObj.setDLambdaEFT, HObj.setDLambdaNonLog,
      HObj.setDLambdaXtUncertainty, HObj.getDLambdaEFT, HObj.getDLambdaNonLog, HObj.getDLambdaH3m, HObj.getSuitableHierarchy])
    all_goals first
      | assumption | exact ⟨rfl, rfl, rfl⟩ | rfl | (intro; rfl) | (intro h; cases h)
  · simp only [Bool.not_true, if_false] at h
    run_at h
    obtain ⟨eft, he, tc, ht, h⟩ := h
    obtain rfl := Except.ok.inj (he1.symm.trans he)
    obtain rfl := Except.ok.inj (ht1.symm.trans ht)
    rw [if_neg Bool.false_ne_true] at h
    run_at h
    obtain ⟨-, rfl⟩ := Prod.mk.inj h
    refine ⟨eft1, tc1, ?_⟩
    constructor <;> (try dsimp only [HObj.putL, HObj.putLS, HObj.setDLambdaH3m, HObj.setDLambdaEFT, HObj.setDLambdaNonLog,
      HObj.setDLambdaXtUncertainty, HObj.getDLambdaEFT, HObj.getDLambdaNonLog, HObj.getDLambdaH3m, HObj.getSuitableHierarchy])
    all_goals first
      | assumption | exact ⟨rfl, rfl, rfl⟩ | rfl | (intro; exact ⟨rfl, rfl, rfl, rfl, rfl, rfl, rfl⟩) | (intro h; cases h)

/-! ### Selection -/

/-- effect of the selection -/
structure SelPost (E : Env F) (p : Params F) (s s' : St F) : Prop where
  depth : s'.depth = s.depth
  alphab : s'.ho.isAlphab = s.ho.isAlphab
  mdr : s'.ho.mdrFlag = 0
  scheme : s'.ho.renormalizationScheme = s.ho.renormalizationScheme
  d0 : s'.ho.dMhMap 0 = treeLevel p
  shift2 : s'.ho.dLambdaDRbarPrimeToMSbarShiftMap 2 = s.ho.dLambdaDRbarPrimeToMSbarShiftMap 2

/-- data kept by the selection loop -/
def frameLoop (h : HObj F) := (h.isAlphab, h.mdrFlag, h.renormalizationScheme, h.dMhMap, h.dLambdaDRbarPrimeToMSbarShiftMap 2)

theorem Keeps.comp {γ δ : Type} {f : HObj F → γ} {α : Type} {m : CalcM F α} (g : γ → δ) (h : Keeps f m) : Keeps (fun o => g (f o)) m :=
  ⟨fun s a s' e => congrArg g (h.out s a s' e)⟩

theorem keepsLoop_calculateHierarchy (f1 f2 f3 : Int) : Keeps frameLoop (calculateHierarchy E p f1 f2 f3) := by
  refine ⟨fun s a s' e => ?_⟩
  have hf := (keeps_calculateHierarchy E p f1 f2 f3).out _ _ _ e
  simp only [frameHier, Prod.mk.injEq] at hf
  obtain ⟨f1, f2, f3, f4, f5, f6, f7, f8, f9, f10, f11, f12, f13, -⟩ := hf
  simp only [frameLoop, f1, f3, f4, f8, f13]

theorem keepsLoop_calcDeltaLambda3L (b : Bool) : Keeps frameLoop (calcDeltaLambda3L E p b) := by
  unfold calcDeltaLambda3L
  repeat' keeps_step
  all_goals first | (intro h; rfl) | skip
  intro h h' e
  cases e; rfl

theorem keepsLoop_selectBody (k : Int) (acc : Sel F) : Keeps frameLoop (selectBody E p k acc) := by
  unfold selectBody evalCandidate
  repeat' (with_reducible first
    | exact keepsLoop_calculateHierarchy _ _ _
    | exact keepsLoop_calcDeltaLambda3L _
    | exact keeps_getExpansionUncertainty E p _ _ _ _ _
    | keeps_step)
  all_goals first | (intro h; rfl) | skip
  all_goals (intro h h' e; cases e; rfl)

theorem keepsLoop_selectLoop (l : List Int) : ∀ acc : Sel F, Keeps frameLoop (selectLoop E p l acc) := by
  induction l with
  | nil => intro acc; exact Keeps.pure _
  | cons k l ih => intro acc; exact Keeps.bind (keepsLoop_selectBody k acc) fun a => ih a

theorem select_ok {s s' : St F} {k : Int} (h : dmh3lSelect E p s = (.ok k, s')) : SelPost E p s s' := by
  have hd : s'.depth = s.depth := by
    have : (dmh3lSelect E p s).2.depth = s.depth :=
      (Pres.bind (Pres.modHoE _) fun _ => pres_compareHierarchies E p : Pres (dmh3lSelect E p)).out s
    rw [h] at this; exact this
  unfold dmh3lSelect at h
  obtain ⟨d, o⟩ := s
  run_at h
  unfold compareHierarchies at h
  obtain ⟨s1, h', rfl⟩ := tempSet_ok.1 h
  clear h
  obtain ⟨s2, h, rfl⟩ := tempSet_ok.1 h'
  dsimp only at h hd
  run_at h
  obtain ⟨⟨e, k'⟩, s3, h1, h⟩ := bind_ok.1 h
  have hf := (keepsLoop_selectLoop (E := E) (p := p) allHierarchies _).out _ _ _ h1
  obtain ⟨d3, o3⟩ := s3
  run_at h
  obtain ⟨-, rfl⟩ := Prod.mk.inj h
  simp only [frameLoop, Prod.mk.injEq] at hf
  dsimp only [HObj.putFlag, HObj.putDMh] at hf
  obtain ⟨f1, f2, f3, f4, f5⟩ := hf
  constructor
  · exact hd
  all_goals dsimp only [HObj.setSuitableHierarchy]
  all_goals first | assumption | exact congrFun f4 0

/-! ### Fixed-order part -/

/-- effect of the fixed-order part -/
structure FoPost (E : Env F) (p : Params F) (s s' : St F) (fo fa : F × F × F) (e : Eft F) : Prop where
  hfo : E.fo p false = .ok fo
  hfa : E.fo p true = .ok fa
  heft : E.eftFull p = .ok e
  depth : s'.depth = s.depth
  frame : ∃ a b c, s'.ho = { s.ho with dMh2FOMap := a, dMh2FOAtMap := b, dMh2EFTMap := c }
  fo0 : s'.ho.dMh2FOMap 0 = fo.1
  fo1 : s'.ho.dMh2FOMap 1 = fo.2.1
  fo2 : s'.ho.dMh2FOMap 2 = fo.2.2
  fa0 : s'.ho.dMh2FOAtMap 0 = 0
  fa1 : s'.ho.dMh2FOAtMap 1 = fa.2.1
  fa2 : s'.ho.dMh2FOAtMap 2 = fa.2.2
  e0 : s'.ho.dMh2EFTMap 0 = e.loop0
  e1 : s'.ho.dMh2EFTMap 1 = e.loop1 1 1
  e2 : s'.ho.dMh2EFTMap 2 = e.loop2 1 1
  e3 : s'.ho.dMh2EFTMap 3 = e.loop3 1 1 0 + s.ho.dLambdaEFT * calcV2 p

theorem part2_ok {s s' : St F} {u : Unit} (h : dmh3lPart2 E p s = (.ok u, s')) : ∃ fo fa e, FoPost E p s s' fo fa e := by
  obtain ⟨d, o⟩ := s
  unfold dmh3lPart2 at h
  run_at h
  obtain ⟨fo, h1, fa, h2, e, h3, h⟩ := h
  obtain ⟨-, rfl⟩ := Prod.mk.inj h
  refine ⟨fo, fa, e, ?_⟩
  constructor
  case hfo => exact h1
  case hfa => exact h2
  case heft => exact h3
  case depth => rfl
  case frame => dsimp only [HObj.putFO, HObj.putFOAt, HObj.putEFT]; exact ⟨_, _, _, rfl⟩
  all_goals dsimp only [HObj.putFO, HObj.putFOAt, HObj.putEFT, HObj.getDLambdaEFT]
  all_goals rfl

/-! ### Last part -/

/-- effect of the last part -/
structure LastPost (E : Env F) (p : Params F) (s s' : St F) (sh H S : Mat2 F) (m : F × F) : Prop where
  hsh : calcDRbarToMDRbarShift E p { s.ho with mdrFlag := 1 } true true = .ok sh
  hH : pureHier E p s.depth { s.ho with mdrFlag := 1 } 0 0 1 = .ok H
  hS : shiftH3mToDRbarPrime p { s.ho with mdrFlag := 1 } = .ok S
  hm : calcMsfMDRFlag p { s.ho with mdrFlag := 1 } 3 = .ok m
  depth : s'.depth = s.depth
  frame : ∃ a b c d e, s'.ho = { s.ho with dMh2FOMap := a, dMh2FOAtMap := b, dMh2Map := c, mdrMasses := d, mdrShift := e }
  shift : s'.ho.mdrShift = sh + (H + S) - s.ho.dMhMap 3
  masses : s'.ho.mdrMasses = HObj.sortVector (HObj.sortVector ⟨m.1, m.2⟩)
  fo3 : s'.ho.dMh2FOMap = put s.ho.dMh2FOMap 3 (E.diag (s.ho.dMhMap 0) (s.ho.dMhMap 1) (s.ho.dMhMap 2) (s.ho.dMhMap 3)).2.2.2
  fa3 : s'.ho.dMh2FOAtMap = put s.ho.dMh2FOAtMap 3 (E.diag (s.ho.dMhMap 0) (s.ho.dMhMap 1) (s.ho.dMhMap 2) (s.ho.dMhMap 3)).2.2.2
  m0 : s'.ho.dMh2Map 0 = (E.diag (s.ho.dMhMap 0) (s.ho.dMhMap 1) (s.ho.dMhMap 2) (s.ho.dMhMap 3)).1
  m1 : s'.ho.dMh2Map 1 = (E.diag (s.ho.dMhMap 0) (s.ho.dMhMap 1) (s.ho.dMhMap 2) (s.ho.dMhMap 3)).2.1
  m2 : s'.ho.dMh2Map 2 = (E.diag (s.ho.dMhMap 0) (s.ho.dMhMap 1) (s.ho.dMhMap 2) (s.ho.dMhMap 3)).2.2.1
  m3 : s'.ho.dMh2Map 3 = (E.diag (s.ho.dMhMap 0) (s.ho.dMhMap 1) (s.ho.dMhMap 2) (s.ho.dMhMap 3)).2.2.2

theorem mdr_ok {s s' : St F} {r : Vec2 F × Mat2 F × Mat2 F} (h : mdrBlock E p s = (.ok r, s')) :
    ∃ sh H S m, calcDRbarToMDRbarShift E p { s.ho with mdrFlag := 1 } true true = .ok sh ∧
      pureHier E p s.depth { s.ho with mdrFlag := 1 } 0 0 1 = .ok H ∧
      shiftH3mToDRbarPrime p { s.ho with mdrFlag := 1 } = .ok S ∧
      calcMsfMDRFlag p { s.ho with mdrFlag := 1 } 3 = .ok m ∧ s'.depth = s.depth ∧
      r = (HObj.sortVector ⟨m.1, m.2⟩, sh, H + S) := by
  have hd : s'.depth = s.depth := by
    have := (pres_mdrBlock E p).out s
    rw [h] at this; exact this
  obtain ⟨d, o⟩ := s
  unfold mdrBlock at h
  run_at h
  obtain ⟨sh, hsh, h⟩ := h
  obtain ⟨H, ⟨d1, o1⟩, e1, h⟩ := bind_ok.1 h
  have hH : pureHier E p d ((o.putFlag 1).setMDRShift sh) 0 0 1 = .ok H := by
    have := calculateHierarchy_fst E p 0 0 1 ⟨d, (o.putFlag 1).setMDRShift sh⟩
    rw [e1] at this; exact this.symm
  have hk : SameKey ((o.putFlag 1).setMDRShift sh) { o with mdrFlag := 1 } := ⟨rfl, rfl, rfl⟩
  have hk1 : SameKey o1 ((o.putFlag 1).setMDRShift sh) := by
    have := calculateHierarchy_key E p 0 0 1 ⟨d, (o.putFlag 1).setMDRShift sh⟩
    rw [e1] at this; exact this
  have hf := (keeps_calculateHierarchy E p 0 0 1).out _ _ _ e1
  have hmm : ∃ m, calcMsfMDRFlag p ((o.putFlag 1).setMDRShift sh) 3 = .ok m ∧ o1.mdrMasses = HObj.sortVector ⟨m.1, m.2⟩ := by
    rw [calculateHierarchy_3] at e1
    dsimp only at e1
    cases hl : loopOut E p d ((o.putFlag 1).setMDRShift sh) 3 with
    | error e => rw [hl] at e1; cases (Prod.mk.inj e1).1
    | ok x =>
      obtain ⟨out, M1⟩ := x
      rw [hl] at e1
      dsimp only at e1
      have hs := (Prod.mk.inj e1).2
      cases hm : calcMsfMDRFlag p ((o.putFlag 1).setMDRShift sh) 3 with
      | error e =>
        unfold loopOut at hl
        rw [hm] at hl; cases hl
      | ok m =>
        rw [hm] at hs
        dsimp only at hs
        injection hs with hs1 hs2
        rw [← hs2]
        exact ⟨m, rfl, rfl⟩
  clear e1
  obtain ⟨m, hm, hmm⟩ := hmm
  dsimp only at hd
  run_at h
  obtain ⟨S, hS, h⟩ := h
  obtain ⟨hr, -⟩ := Prod.mk.inj h
  obtain rfl := Except.ok.inj hr
  rw [h3m_congr hk1, h3m_congr hk] at hS
  rw [pureHier_congr E hk] at hH
  simp only [frameHier, Prod.mk.injEq] at hf
  obtain ⟨f1, f2, f3, f4, f5, f6, f7, f8, f9, f10, f11, f12, f13, -⟩ := hf
  refine ⟨sh, H, S, m, hsh, hH, hS, hm, hd, ?_⟩
  dsimp only [HObj.putDMh, HObj.getMDRMasses, HObj.getMDRShift]
  rw [hmm, f10]
  rfl

theorem part3_ok {s s' : St F} {u : Unit} (h : dmh3lPart3 E p s = (.ok u, s')) : ∃ sh H S m, LastPost E p s s' sh H S m := by
  obtain ⟨d, o⟩ := s
  unfold dmh3lPart3 at h
  run_at h
  obtain ⟨⟨ms, sh', d3⟩, s1, e1, h⟩ := bind_ok.1 h
  obtain ⟨s2, e2, rfl⟩ := localHo_ok.1 e1
  clear e1
  obtain ⟨sh, H, S, m, h1, h2, h3, h4, hd, hr⟩ := mdr_ok e2
  obtain ⟨d2, o2⟩ := s2
  dsimp only at h h1 h2 h3 h4 hd
  run_at h
  obtain ⟨-, rfl⟩ := Prod.mk.inj h
  obtain ⟨rfl, rfl, rfl⟩ : ms = HObj.sortVector ⟨m.1, m.2⟩ ∧ sh' = sh ∧ d3 = H + S := by
    simp only [Prod.mk.injEq] at hr; exact hr
  refine ⟨sh', H, S, m, ?_⟩
  constructor
  case hsh => exact h1
  case hH => exact h2
  case hS => exact h3
  case hm => exact h4
  case depth => exact hd
  case frame =>
    dsimp only [HObj.putFO, HObj.putFOAt, HObj.putDMh2, HObj.setMDRMasses, HObj.setMDRShift]
    exact ⟨_, _, _, _, _, rfl⟩
  all_goals dsimp only [HObj.putFO, HObj.putFOAt, HObj.putDMh2, HObj.setMDRMasses, HObj.setMDRShift]
  all_goals rfl

end
end Himalaya
