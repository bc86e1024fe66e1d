import Verif.Calc.Total

/-!
# What `calculateDMh3L` reports: C21 (alpha_b zeros), C22 (consistency), C23 (symmetric matrices)
-/

set_option linter.unusedSimpArgs false
set_option linter.unusedSectionVars false
set_option linter.unusedVariables false

namespace Himalaya

open CalcM
open scoped Himalaya Himalaya.FOps

section
variable {F : Type} [Add F] [Sub F] [Mul F] [Div F] [Neg F] [FOps F] {E : Env F} {p : Params F}

/-! ### Effects of the parts -/

theorem pureUnc_congr {a b : HObj F} (h : SameKey a b) (d : Depth) (M : Mat2 F) (f1 f2 f3 : Int) :
    pureUnc E p d a M f1 f2 f3 = pureUnc E p d b M f1 f2 f3 := by
  unfold pureUnc
  rw [← pureMh_congr E h, h.hierarchy]
  have : ∀ l Mh acc, pureSum E p (uncDepth d) a M f1 f2 f3 Mh l acc = pureSum E p (uncDepth d) b M f1 f2 f3 Mh l acc := by
    intro l
    induction l with
    | nil => intros; rfl
    | cons i l ih =>
      intro Mh acc
      unfold pureSum
      rw [pureMh_congr E h]
      cases pureMh E p (setIdx (uncDepth d) i 0) b M f1 f2 f3 with
      | error e => rfl
      | ok m => exact ih _ _
  simp only [this]

/-- effect of the mass-matrix part -/
structure MassPost (E : Env F) (p : Params F) (s s' : St F) (H S m1 m2 : Mat2 F) (U : F) (out : HierOut F) (M1 : F) : Prop where
  hout : loopOut E p s.depth s.ho 3 = .ok (out, M1)
  nonLog : s'.ho.dLambdaNonLog = out.c0
  lH3m : s'.ho.dLambdaH3m = out.c0 + FOps.log (pow2 (p.scale / M1)) * out.c1 + pow2 (FOps.log (pow2 (p.scale / M1))) * out.c2 +
    pow3 (FOps.log (pow2 (p.scale / M1))) * out.c3
  shift : s'.ho.dLambdaDRbarPrimeToMSbarShiftMap = s.ho.dLambdaDRbarPrimeToMSbarShiftMap
  hH : pureHier E p s.depth s.ho 0 0 1 = .ok H
  hS : shiftH3mToDRbarPrime p s.ho = .ok S
  h1 : getMt41L p s.ho 0 0 = .ok m1
  h2 : getMt42L E p s.ho 0 0 = .ok m2
  hU : pureUnc E p s.depth s.ho (s.ho.dMhMap 0 + m1 + m2) 0 0 1 = .ok U
  key : SameKey s'.ho s.ho
  depth : s'.depth = s.depth
  scheme : s'.ho.renormalizationScheme = s.ho.renormalizationScheme
  d0 : s'.ho.dMhMap 0 = s.ho.dMhMap 0
  d1 : s'.ho.dMhMap 1 = m1
  d2 : s'.ho.dMhMap 2 = m2
  d3 : s'.ho.dMhMap 3 = H + S
  u1 : s'.ho.expUncertainties 1 = 0
  u2 : s'.ho.expUncertainties 2 = s.ho.expUncertainties 2
  u3 : s'.ho.expUncertainties 3 = U
  h3m : s'.ho.h3mShift = -S
  abs2 : s'.ho.absDiff2L = s.ho.absDiff2L
  rel2 : s'.ho.relDiff2L = s.ho.relDiff2L

/-! Runs as equations -/

theorem bindGetHo_run {β : Type} (f : HObj F → CalcM F β) (d : Depth) (o : HObj F) : (getHo >>= f) ⟨d, o⟩ = f o ⟨d, o⟩ := rfl
theorem bindModHo_run {β : Type} (g : HObj F → HObj F) (f : Unit → CalcM F β) (d : Depth) (o : HObj F) :
    (modHo g >>= f) ⟨d, o⟩ = f () ⟨d, g o⟩ := rfl
theorem modHo_run' (g : HObj F → HObj F) (d : Depth) (o : HObj F) : modHo g ⟨d, o⟩ = (.ok (), ⟨d, g o⟩) := rfl
theorem bindLift_ok {α β : Type} (e : Except String α) (f : α → CalcM F β) (s : St F) (b : β) (s' : St F) :
    ((lift e >>= f) s = (.ok b, s')) ↔ ∃ a, e = .ok a ∧ f a s = (.ok b, s') := by
  rw [bind_ok]
  constructor
  · rintro ⟨a, s1, h, h2⟩
    obtain ⟨h1, rfl⟩ := lift_ok.1 h
    exact ⟨a, h1, h2⟩
  · rintro ⟨a, h, h2⟩
    exact ⟨a, s, lift_ok.2 ⟨h, rfl⟩, h2⟩
theorem bindUnc_ok {β : Type} (M : Mat2 F) (f1 f2 f3 : Int) (f : F → CalcM F β) (d : Depth) (o : HObj F) (b : β) (s' : St F) :
    ((getExpansionUncertainty E p M f1 f2 f3 >>= f) ⟨d, o⟩ = (.ok b, s')) ↔
      ∃ u, pureUnc E p d o M f1 f2 f3 = .ok u ∧ f u ⟨d, o⟩ = (.ok b, s') := by
  rw [bind_run, getExpansionUncertainty_run]
  cases h : pureUnc E p d o M f1 f2 f3 with
  | error e => simp
  | ok u => simp
theorem bindLiftOk_run {α β : Type} (a : α) (f : α → CalcM F β) (s : St F) : (lift (.ok a) >>= f) s = f a s := rfl

/-- array update -/
def put {α : Type} (a : Fin 4 → α) (i : Fin 4) (v : α) : Fin 4 → α := fun j => if j = i then v else a j
/-! the setters without range check -/
def HObj.putDMh (o : HObj F) (i : Fin 4) (m : Mat2 F) : HObj F := { o with dMhMap := put o.dMhMap i m }
def HObj.putDMh2 (o : HObj F) (i : Fin 4) (m : F) : HObj F := { o with dMh2Map := put o.dMh2Map i m }
def HObj.putFO (o : HObj F) (i : Fin 4) (m : F) : HObj F := { o with dMh2FOMap := put o.dMh2FOMap i m }
def HObj.putFOAt (o : HObj F) (i : Fin 4) (m : F) : HObj F := { o with dMh2FOAtMap := put o.dMh2FOAtMap i m }
def HObj.putEFT (o : HObj F) (i : Fin 4) (m : F) : HObj F := { o with dMh2EFTMap := put o.dMh2EFTMap i m }
def HObj.putUnc (o : HObj F) (i : Fin 4) (m : F) : HObj F := { o with expUncertainties := put o.expUncertainties i m }
def HObj.putL (o : HObj F) (i : Fin 4) (m : F) : HObj F := { o with dLambdaMap := put o.dLambdaMap i m }
def HObj.putLS (o : HObj F) (i : Fin 4) (m : F) : HObj F :=
  { o with dLambdaDRbarPrimeToMSbarShiftMap := put o.dLambdaDRbarPrimeToMSbarShiftMap i m }
def HObj.putFlag (o : HObj F) (i : Int) : HObj F := { o with mdrFlag := i }

theorem run_setDMh0 (x : HObj F → Mat2 F) : (modHoE (fun h => h.setDMh 0 (x h)) : CalcM F Unit) = modHo (fun h => h.putDMh 0 (x h)) := rfl
theorem run_setDMh1 (x : HObj F → Mat2 F) : (modHoE (fun h => h.setDMh 1 (x h)) : CalcM F Unit) = modHo (fun h => h.putDMh 1 (x h)) := rfl
theorem run_setDMh2 (x : HObj F → Mat2 F) : (modHoE (fun h => h.setDMh 2 (x h)) : CalcM F Unit) = modHo (fun h => h.putDMh 2 (x h)) := rfl
theorem run_setDMh3 (x : HObj F → Mat2 F) : (modHoE (fun h => h.setDMh 3 (x h)) : CalcM F Unit) = modHo (fun h => h.putDMh 3 (x h)) := rfl
theorem run_setDMh20 (x : HObj F → F) : (modHoE (fun h => h.setDMh2 0 (x h)) : CalcM F Unit) = modHo (fun h => h.putDMh2 0 (x h)) := rfl
theorem run_setDMh21 (x : HObj F → F) : (modHoE (fun h => h.setDMh2 1 (x h)) : CalcM F Unit) = modHo (fun h => h.putDMh2 1 (x h)) := rfl
theorem run_setDMh22 (x : HObj F → F) : (modHoE (fun h => h.setDMh2 2 (x h)) : CalcM F Unit) = modHo (fun h => h.putDMh2 2 (x h)) := rfl
theorem run_setDMh23 (x : HObj F → F) : (modHoE (fun h => h.setDMh2 3 (x h)) : CalcM F Unit) = modHo (fun h => h.putDMh2 3 (x h)) := rfl
theorem run_setDMh2FO0 (x : HObj F → F) : (modHoE (fun h => h.setDMh2FO 0 (x h)) : CalcM F Unit) = modHo (fun h => h.putFO 0 (x h)) := rfl
theorem run_setDMh2FO1 (x : HObj F → F) : (modHoE (fun h => h.setDMh2FO 1 (x h)) : CalcM F Unit) = modHo (fun h => h.putFO 1 (x h)) := rfl
theorem run_setDMh2FO2 (x : HObj F → F) : (modHoE (fun h => h.setDMh2FO 2 (x h)) : CalcM F Unit) = modHo (fun h => h.putFO 2 (x h)) := rfl
theorem run_setDMh2FO3 (x : HObj F → F) : (modHoE (fun h => h.setDMh2FO 3 (x h)) : CalcM F Unit) = modHo (fun h => h.putFO 3 (x h)) := rfl
theorem run_setDMh2FOAt0 (x : HObj F → F) : (modHoE (fun h => h.setDMh2FOAt 0 (x h)) : CalcM F Unit) = modHo (fun h => h.putFOAt 0 (x h)) := rfl
theorem run_setDMh2FOAt1 (x : HObj F → F) : (modHoE (fun h => h.setDMh2FOAt 1 (x h)) : CalcM F Unit) = modHo (fun h => h.putFOAt 1 (x h)) := rfl
theorem run_setDMh2FOAt2 (x : HObj F → F) : (modHoE (fun h => h.setDMh2FOAt 2 (x h)) : CalcM F Unit) = modHo (fun h => h.putFOAt 2 (x h)) := rfl
theorem run_setDMh2FOAt3 (x : HObj F → F) : (modHoE (fun h => h.setDMh2FOAt 3 (x h)) : CalcM F Unit) = modHo (fun h => h.putFOAt 3 (x h)) := rfl
theorem run_setDMh2EFT0 (x : HObj F → F) : (modHoE (fun h => h.setDMh2EFT 0 (x h)) : CalcM F Unit) = modHo (fun h => h.putEFT 0 (x h)) := rfl
theorem run_setDMh2EFT1 (x : HObj F → F) : (modHoE (fun h => h.setDMh2EFT 1 (x h)) : CalcM F Unit) = modHo (fun h => h.putEFT 1 (x h)) := rfl
theorem run_setDMh2EFT2 (x : HObj F → F) : (modHoE (fun h => h.setDMh2EFT 2 (x h)) : CalcM F Unit) = modHo (fun h => h.putEFT 2 (x h)) := rfl
theorem run_setDMh2EFT3 (x : HObj F → F) : (modHoE (fun h => h.setDMh2EFT 3 (x h)) : CalcM F Unit) = modHo (fun h => h.putEFT 3 (x h)) := rfl
theorem run_setDMhExpUncertainty1 (x : HObj F → F) : (modHoE (fun h => h.setDMhExpUncertainty 1 (x h)) : CalcM F Unit) = modHo (fun h => h.putUnc 1 (x h)) := rfl
theorem run_setDMhExpUncertainty2 (x : HObj F → F) : (modHoE (fun h => h.setDMhExpUncertainty 2 (x h)) : CalcM F Unit) = modHo (fun h => h.putUnc 2 (x h)) := rfl
theorem run_setDMhExpUncertainty3 (x : HObj F → F) : (modHoE (fun h => h.setDMhExpUncertainty 3 (x h)) : CalcM F Unit) = modHo (fun h => h.putUnc 3 (x h)) := rfl
theorem run_setDLambda0 (x : HObj F → F) : (modHoE (fun h => h.setDLambda 0 (x h)) : CalcM F Unit) = modHo (fun h => h.putL 0 (x h)) := rfl
theorem run_setDLambda1 (x : HObj F → F) : (modHoE (fun h => h.setDLambda 1 (x h)) : CalcM F Unit) = modHo (fun h => h.putL 1 (x h)) := rfl
theorem run_setDLambda2 (x : HObj F → F) : (modHoE (fun h => h.setDLambda 2 (x h)) : CalcM F Unit) = modHo (fun h => h.putL 2 (x h)) := rfl
theorem run_setDLambda3 (x : HObj F → F) : (modHoE (fun h => h.setDLambda 3 (x h)) : CalcM F Unit) = modHo (fun h => h.putL 3 (x h)) := rfl
theorem run_setDLambdaShift0 (x : HObj F → F) : (modHoE (fun h => h.setDLambdaShift 0 (x h)) : CalcM F Unit) = modHo (fun h => h.putLS 0 (x h)) := rfl
theorem run_setDLambdaShift1 (x : HObj F → F) : (modHoE (fun h => h.setDLambdaShift 1 (x h)) : CalcM F Unit) = modHo (fun h => h.putLS 1 (x h)) := rfl
theorem run_setDLambdaShift2 (x : HObj F → F) : (modHoE (fun h => h.setDLambdaShift 2 (x h)) : CalcM F Unit) = modHo (fun h => h.putLS 2 (x h)) := rfl
theorem run_setDLambdaShift3 (x : HObj F → F) : (modHoE (fun h => h.setDLambdaShift 3 (x h)) : CalcM F Unit) = modHo (fun h => h.putLS 3 (x h)) := rfl
theorem run_setMDRFlag0 : (modHoE (fun h => h.setMDRFlag 0) : CalcM F Unit) = modHo (fun h => h.putFlag 0) := rfl
theorem run_setMDRFlag1 : (modHoE (fun h => h.setMDRFlag 1) : CalcM F Unit) = modHo (fun h => h.putFlag 1) := rfl
theorem run_getDMh0 (o : HObj F) : o.getDMh 0 = .ok (o.dMhMap 0) := rfl
theorem run_getDMh1 (o : HObj F) : o.getDMh 1 = .ok (o.dMhMap 1) := rfl
theorem run_getDMh2 (o : HObj F) : o.getDMh 2 = .ok (o.dMhMap 2) := rfl
theorem run_getDMh3 (o : HObj F) : o.getDMh 3 = .ok (o.dMhMap 3) := rfl
theorem run_getDLambda1 (o : HObj F) : o.getDLambda 1 = .ok (o.dLambdaMap 1) := rfl

/-- turns a run into equations -/
macro "run_at" h:ident : tactic => `(tactic| simp only [bindGetHo_run, bindModHo_run, modHo_run', bindLiftOk_run, bindLift_ok, bindUnc_ok,
  run_setDMh0, run_setDMh1, run_setDMh2, run_setDMh3, run_setDMh20, run_setDMh21, run_setDMh22, run_setDMh23, run_setDMh2FO0, run_setDMh2FO1, run_setDMh2FO2, run_setDMh2FO3, run_setDMh2FOAt0, run_setDMh2FOAt1, run_setDMh2FOAt2, run_setDMh2FOAt3, run_setDMh2EFT0, run_setDMh2EFT1, run_setDMh2EFT2, run_setDMh2EFT3, run_setDMhExpUncertainty1, run_setDMhExpUncertainty2, run_setDMhExpUncertainty3, run_setDLambda0, run_setDLambda1, run_setDLambda2, run_setDLambda3, run_setDLambdaShift0, run_setDLambdaShift1, run_setDLambdaShift2, run_setDLambdaShift3, run_setMDRFlag0, run_setMDRFlag1, run_getDMh0, run_getDMh1, run_getDMh2, run_getDMh3, run_getDLambda1] at $h:ident)

theorem mass_ok {s s' : St F} {u : Unit} (h : dmh3lMass E p s = (.ok u, s')) :
    ∃ H S m1 m2 U out M1, MassPost E p s s' H S m1 m2 U out M1 := by
  unfold dmh3lMass at h
  obtain ⟨H, s1, e1, h⟩ := bind_ok.1 h
  have hH : pureHier E p s.depth s.ho 0 0 1 = .ok H := by
    rw [← calculateHierarchy_fst, e1]
  have hf := (keeps_calculateHierarchy E p 0 0 1).out _ _ _ e1
  have hd : s1.depth = s.depth := by
    have := (pres_calculateHierarchy E p 0 0 1).out s
    rw [e1] at this; exact this
  have hk1 : SameKey s1.ho s.ho := by
    have := calculateHierarchy_key E p 0 0 1 s
    rw [e1] at this; exact this
  have hout : ∃ out M1, loopOut E p s.depth s.ho 3 = .ok (out, M1) ∧ s1.ho.dLambdaNonLog = out.c0 ∧
      s1.ho.dLambdaH3m = out.c0 + FOps.log (pow2 (p.scale / M1)) * out.c1 + pow2 (FOps.log (pow2 (p.scale / M1))) * out.c2 +
        pow3 (FOps.log (pow2 (p.scale / M1))) * out.c3 := by
    rw [calculateHierarchy_3] at e1
    cases hl : loopOut E p s.depth s.ho 3 with
    | error e => rw [hl] at e1; cases (Prod.mk.inj e1).1
    | ok x =>
      obtain ⟨out, M1⟩ := x
      rw [hl] at e1
      dsimp only at e1
      have hs := (Prod.mk.inj e1).2
      cases hm : calcMsfMDRFlag p s.ho 3 with
      | error e =>
        unfold loopOut at hl
        rw [hm] at hl; cases hl
      | ok m =>
        rw [hm] at hs
        dsimp only at hs
        rw [← hs]
        exact ⟨out, M1, rfl, rfl, rfl⟩
  clear e1
  obtain ⟨out, M1, ho1, ho2, ho3⟩ := hout
  obtain ⟨d1, o1⟩ := s1
  dsimp only at hf hd hk1 ho2 ho3
  run_at h
  obtain ⟨S, hS, m1, h1, m2, h2, U, hU, S2, hS2, h⟩ := h
  obtain ⟨-, rfl⟩ := Prod.mk.inj h
  have kk : ∀ a : HObj F, SameKey a o1 → SameKey a s.ho :=
    fun a x => ⟨x.1.trans hk1.1, x.2.trans hk1.2, x.3.trans hk1.3⟩
  simp only [frameHier, Prod.mk.injEq] at hf
  obtain ⟨f1, f2, f3, f4, f5, f6, f7, f8, -, -, -, -, f9, -⟩ := hf
  rw [h3m_congr hk1] at hS
  have k1 : SameKey (o1.putDMh 3 (H + S)) s.ho := by
    constructor <;> dsimp only [HObj.putDMh, HObj.putUnc]
    exacts [hk1.1, hk1.2, hk1.3]
  have k2 : SameKey ((o1.putDMh 3 (H + S)).putDMh 1 m1) s.ho := by
    constructor <;> dsimp only [HObj.putDMh, HObj.putUnc]
    exacts [hk1.1, hk1.2, hk1.3]
  have k3 : SameKey (((o1.putDMh 3 (H + S)).putDMh 1 m1).putDMh 2 m2) s.ho := by
    constructor <;> dsimp only [HObj.putDMh, HObj.putUnc]
    exacts [hk1.1, hk1.2, hk1.3]
  have k4 : SameKey (((((o1.putDMh 3 (H + S)).putDMh 1 m1).putDMh 2 m2).putUnc 3 U).putUnc 1 0) s.ho := by
    constructor <;> dsimp only [HObj.putDMh, HObj.putUnc]
    exacts [hk1.1, hk1.2, hk1.3]
  rw [h3m_congr k4, hS] at hS2
  obtain rfl := Except.ok.inj hS2
  rw [mt41_congr k1] at h1
  rw [mt42_congr E k2] at h2
  rw [pureUnc_congr k3] at hU
  have e0 : (((o1.putDMh 3 (H + S)).putDMh 1 m1).putDMh 2 m2).dMhMap 0 = s.ho.dMhMap 0 := by
    dsimp only [HObj.putDMh]; exact congrFun f8 0
  have e1 : (((o1.putDMh 3 (H + S)).putDMh 1 m1).putDMh 2 m2).dMhMap 1 = m1 := by
    dsimp only [HObj.putDMh]; rfl
  have e2 : (((o1.putDMh 3 (H + S)).putDMh 1 m1).putDMh 2 m2).dMhMap 2 = m2 := by
    dsimp only [HObj.putDMh]; rfl
  rw [e0, e1, e2, hd] at hU
  refine ⟨H, S, m1, m2, U, out, M1, ?_⟩
  constructor <;> (try dsimp only [HObj.putDMh, HObj.putUnc, HObj.setH3mShift])
  all_goals first
    | assumption | exact ⟨hk1.1, hk1.2, hk1.3⟩ | exact congrFun f8 0 | exact congrFun f7 2 | rfl

end
end Himalaya
