import Verif.Calc.Formulas

/-!
# Model of `HierarchyCalculator` (control flow)

Models source/himalaya/HierarchyCalculator.cpp:153-457, 477-815, 1218-1270, 1337-1501.

The calculator's own mutable state is the array `expansionDepth`; the result object is passed by reference.  Both are
threaded through the monad `CalcM`, in which an exception does not undo state changes (as in C++).

Opaque (`Env`): the self energies and coefficients computed by the fourteen hierarchy classes, the Fortran two-loop
routine, Eigen's eigenvalue solver, the EFT, threshold and fixed-order calculators.  All of them may throw.
The opaque pieces are functions: they keep no state between calls.
-/

namespace Himalaya

open FOps
open scoped Himalaya

/-- `enum ExpansionDepth`; hierarchies/HierarchyFlags.hpp:37-53, as indices. -/
abbrev DepthIdx := Fin 12
/-! indices of `enum ExpansionDepth`, same order as in the source -/
namespace XD
abbrev threeLoop : DepthIdx := 0
abbrev Mst : DepthIdx := 1
abbrev Dmglst1 : DepthIdx := 2
abbrev Dmsqst1 : DepthIdx := 3
abbrev Dmst12 : DepthIdx := 4
abbrev At : DepthIdx := 5
abbrev lmMsusy : DepthIdx := 6
abbrev Msq : DepthIdx := 7
abbrev Msusy : DepthIdx := 8
abbrev Dmglst2 : DepthIdx := 9
abbrev Dmsqst2 : DepthIdx := 10
abbrev Mgl : DepthIdx := 11
end XD

/-- `std::array<int, 12> expansionDepth` -/
abbrev Depth := DepthIdx → Int

/-- State visible to a member function: the calculator's expansion flags and the result object it works on. -/
structure St (F : Type) where
  depth : Depth
  ho : HObj F

/-- State and exceptions; a throw keeps the state reached so far. -/
def CalcM (F α : Type) := St F → Except String α × St F

namespace CalcM
variable {F α β : Type}
/-- return -/
def pure (a : α) : CalcM F α := fun s => (.ok a, s)
/-- sequencing -/
def bind (m : CalcM F α) (f : α → CalcM F β) : CalcM F β := fun s =>
  match m s with
  | (.ok a, s') => f a s'
  | (.error e, s') => (.error e, s')
instance : Monad (CalcM F) where
  pure := pure
  bind := bind

/-- an expression that may throw but changes nothing -/
def lift (e : Except String α) : CalcM F α := fun s => (e, s)
/-- read the result object -/
def getHo : CalcM F (HObj F) := fun s => (.ok s.ho, s)
/-- read the expansion flags -/
def getDepth : CalcM F Depth := fun s => (.ok s.depth, s)
/-- call a non-throwing setter of the result object -/
def modHo (f : HObj F → HObj F) : CalcM F Unit := fun s => (.ok (), { s with ho := f s.ho })
/-- call a setter of the result object that may throw -/
def modHoE (f : HObj F → Except String (HObj F)) : CalcM F Unit := fun s =>
  match f s.ho with
  | .ok h => (.ok (), { s with ho := h })
  | .error e => (.error e, s)

/-- `if (c) m;` -/
def whenM (c : Bool) (m : CalcM F Unit) : CalcM F Unit := if c then m else Pure.pure ()

/-- `a[i] = v` -/
def setIdx (d : Depth) (i : DepthIdx) (v : Int) : Depth := fun j => if j = i then v else d j

/-- `Temporarily_set<int> tmp(expansionDepth.at(i), v);` followed by the rest `m` of the scope; misc/RAII.hpp:14-31: the
constructor saves the old value and writes the new one, the destructor runs on every exit from the scope. -/
def tempSet (i : DepthIdx) (v : Int) (m : CalcM F α) : CalcM F α := fun s =>
  let old := s.depth i
  match m { s with depth := setIdx s.depth i v } with
  | (r, s') => (r, { s' with depth := setIdx s'.depth i old })

/-- a scope working on a local copy `h` of a result object; the caller's object is untouched. -/
def localHo (h : HObj F) (m : CalcM F α) : CalcM F α := fun s =>
  match m { s with ho := h } with
  | (r, s') => (r, { s' with ho := s.ho })
end CalcM

open CalcM

/-- Results of one hierarchy class: `getS1`, `getS2`, `getS12`, `calc_coef_at_as2_no_sm_logs_log{0,1,2,3}`. -/
structure HierOut (F : Type) where
  s1 : F
  s2 : F
  s12 : F
  c0 : F
  c1 : F
  c2 : F
  c3 : F

/-- Loop flags handed to a hierarchy class; HierarchyCalculator.cpp:506-509. -/
structure LoopFlags where
  oneLoop : Int
  twoLoop : Int
  threeLoop : Int
deriving DecidableEq

/-- `Mh2EFTCalculator` after construction and flag selection: `getDeltaMh2EFT{0,1,2,3}Loop`. -/
structure Eft (F : Type) where
  loop0 : F
  loop1 : Int → Int → F
  loop2 : Int → Int → F
  loop3 : Int → Int → Int → F

/-- `enum ThresholdCouplingOrders`, the members used by `HierarchyCalculator` -/
inductive TCO where
  | LAMBDA_AT | LAMBDA_AT_AS | LAMBDA_AT_AS2 | YT_AS
deriving DecidableEq

/-- A constructed `ThresholdCalculator`.  `thr xtOrder order scheme omitLogs` is `getThresholdCorrection` with the private
member `xtOrderLambdaAtAs2 = xtOrder`. -/
structure Tc (F : Type) where
  thr : Int → TCO → Int → Int → F
  shift : Int → Int → Int → F
  xtTerms : Int → Int → Int → F
  limit : Int

/-- External code used by the calculator. -/
structure Env (F : Type) where
  /-- hierarchy class with key `k`: flags, arguments in the order of the constructor, MDR flag, loop flags -/
  hier : Int → Depth → List F → Int → LoopFlags → Except String (HierOut F)
  /-- `calcSmallestEigenvalue`; HierarchyCalculator.cpp:51-57 -/
  smallestEig : Mat2 F → F
  /-- (0,0), (1,1) and (0,1) of `delta_mh2_2loop_at_as_*`; mh2l/DSZHiggs.cpp:277-283 -/
  atas : List F → Except String (F × F × F)
  /-- `Mh2EFTCalculator(p)`, all corrections -/
  eftFull : Params F → Except String (Eft F)
  /-- `Mh2EFTCalculator(p)` followed by `disable_non_as_terms`; HierarchyCalculator.cpp:60-82 -/
  eftAs : Params F → Except String (Eft F)
  /-- `ThresholdCalculator(p)` -/
  tc : Params F → Except String (Tc F)
  /-- `MSSM_mass_eigenstates(p, only_at).calculate_Mh2()` -/
  fo : Params F → Bool → Except String (F × F × F)
  /-- first components of `fs_diagonalize_hermitian_perturbatively` -/
  diag : Mat2 F → Mat2 F → Mat2 F → Mat2 F → F × F × F × F

section
variable {F : Type} [Add F] [Sub F] [Mul F] [Div F] [Neg F] [FOps F]

/-- `rotate_by`; mh2l/DSZHiggs.cpp:126-140 -/
def rotateBy (dm2 tanb : F) : Mat2 F :=
  let tanb2 := pow2 tanb
  let sinb := tanb / sqrt (abs (1 + tanb2))
  let cosb := 1 / sqrt (abs (1 + tanb2))
  let m01 := -dm2 * sinb * cosb
  ⟨dm2 * pow2 sinb, m01, m01, dm2 * pow2 cosb⟩

/-- `delta_mh2_2loop_at_as` with `include_heavy_higgs = 0`; mh2l/DSZHiggs.cpp:269-291 (both branches set
`result(1,0) = result(0,1)`, lines 76 and 121). -/
def deltaMh2AtAs (E : Env F) (args : List F) (tanb : F) : Except String (Mat2 F) := do
  let (s11, s22, s12) ← E.atas args
  return (⟨s11, s12, s12, s22⟩ : Mat2 F) + rotateBy 0 tanb

/-- `getMt42L`; HierarchyCalculator.cpp:1218-1243 -/
def getMt42L (E : Env F) (p : Params F) (ho : HObj F) (shiftOneLoop shiftTwoLoop : Int) : Except String (Mat2 F) := do
  let Mt2 := if ho.getIsAlphab then pow2 p.Mb else pow2 p.Mt
  let theta := if ho.getIsAlphab then p.theta_b else p.theta_t
  let Mst12 := pow2 (← shiftMst1ToMDR p ho shiftOneLoop shiftTwoLoop)
  let Mst22 := pow2 (← shiftMst2ToMDR p ho shiftOneLoop shiftTwoLoop)
  deltaMh2AtAs E [Mt2, p.MG, Mst12, Mst22, sin theta, cos theta, pow2 p.scale, -p.mu, calcTanBeta p, calcV2 p, p.g3]
    (calcTanBeta p)

/-- `calcDRbarToMDRbarShift`; HierarchyCalculator.cpp:1252-1269 -/
def calcDRbarToMDRbarShift (E : Env F) (p : Params F) (ho : HObj F) (shiftOneLoop shiftTwoLoop : Bool) :
    Except String (Mat2 F) := do
  let mut shift : Mat2 F := Mat2.const 0
  if shiftOneLoop then
    let a ← getMt41L p ho 1 1
    let b ← getMt41L p ho 0 0
    shift := shift + (a - b)
  if shiftTwoLoop then
    let a ← getMt42L E p ho 1 1
    let b ← getMt42L E p ho 0 0
    shift := shift + (a - b)
  return shift

/-- Arguments of the hierarchy classes; the `case` labels of HierarchyCalculator.cpp:542-798.  `none` is the `default` label.
`lmMsf1` is computed identically in every case. -/
def hierArgs (p : Params F) (ho : HObj F) (Msf1 Msf2 : F) : Option (List F) :=
  let Mf := if ho.getIsAlphab then p.Mb else p.Mt
  let s2f := if ho.getIsAlphab then p.s2b else p.s2t
  let Msq := calcMeanMsq p
  let lmMf := log (pow2 (p.scale / Mf))
  let Dmglst1 := p.MG - Msf1
  let Dmglst2 := p.MG - Msf2
  let Dmsqst1 := pow2 Msq - pow2 Msf1
  let Dmsqst2 := Msq - Msf2
  let Dmsf12 := pow2 Msf1 - pow2 Msf2
  let lmMsf1 := log (pow2 (p.scale / Msf1))
  let lmMsf2 := log (pow2 (p.scale / Msf2))
  let lmMsq := log (pow2 (p.scale / calcMeanMsq p))
  let lmMgl := log (pow2 (p.scale / p.MG))
  let Msusy := (Msf1 + Msf2 + p.MG) / 3
  let lmMsusy := log (pow2 (p.scale / Msusy))
  let At := if ho.getIsAlphab then p.Ad 2 2 else p.Au 2 2
  let as := calcAsOver4Pi p
  let beta := calcBeta p
  match ho.getSuitableHierarchy with
  | 0 => some [as, beta, Dmglst1, Dmsf12, Dmsqst1, lmMf, lmMsf1, p.MG, Mf, Msf1, Msf2, Msq, p.mu, s2f]
  | 1 => some [as, beta, Dmglst1, Dmsf12, Dmsqst1, lmMf, lmMsf1, Mf, Msf1, Msf2, p.mu, s2f]
  | 2 => some [as, beta, Dmglst1, Dmsf12, Dmsqst1, lmMf, lmMsf1, Mf, Msf1, Msf2, Msq, p.mu, s2f]
  | 3 => some [as, At, beta, lmMf, lmMsq, lmMsusy, Mf, Msusy, Msq]
  | 4 => some [as, beta, Dmglst1, lmMf, lmMsf1, lmMsf2, lmMsq, Mf, Msf1, Msf2, Msq, p.mu, s2f]
  | 5 => some [as, beta, Dmglst1, lmMf, lmMsf1, lmMsf2, lmMsq, p.MG, Mf, Msf1, Msf2, Msq, p.mu, s2f]
  | 6 => some [as, beta, Dmglst2, lmMf, lmMsf1, lmMsf2, lmMsq, Mf, Msf1, Msf2, Msq, p.mu, s2f]
  | 11 => some [as, beta, Dmglst2, lmMf, lmMsf1, lmMsf2, lmMsq, p.MG, Mf, Msf1, Msf2, Msq, p.mu, s2f]
  | 7 => some [as, beta, Dmglst2, Dmsqst2, lmMf, lmMsf1, lmMsf2, Mf, Msf1, Msf2, p.mu, s2f]
  | 8 => some [as, beta, Dmglst2, Dmsqst2, lmMf, lmMsf1, lmMsf2, p.MG, Mf, Msf1, Msf2, p.mu, s2f]
  | 9 => some [as, beta, Dmglst2, Dmsqst2, lmMf, lmMsf1, lmMsf2, Mf, Msf1, Msf2, Msq, p.mu, s2f]
  | 10 => some [as, beta, Dmglst2, Dmsqst2, lmMf, lmMsf1, lmMsf2, p.MG, Mf, Msf1, Msf2, Msq, p.mu, s2f]
  | 12 => some [as, beta, Dmsf12, Dmsqst1, lmMf, lmMgl, lmMsf1, p.MG, Mf, Msf1, Msf2, p.mu, s2f]
  | 13 => some [as, beta, Dmsf12, Dmsqst1, lmMf, lmMgl, lmMsf1, p.MG, Mf, Msf1, Msf2, Msq, p.mu, s2f]
  | _ => none

/-- `setLoopFlags` for loop order `l`; HierarchyCalculator.cpp:512-528 -/
def loopFlagsOf (l : Int) : LoopFlags :=
  if l = 1 then ⟨1, 0, 0⟩ else if l = 2 then ⟨0, 1, 0⟩ else ⟨0, 0, 1⟩

/-- `calcDlambda`; HierarchyCalculator.cpp:496-504 -/
def calcDlambda (ho : HObj F) (h : HierOut F) (lmMsf1 : F) : HObj F :=
  (ho.setDLambdaH3m (h.c0 + lmMsf1 * h.c1 + pow2 lmMsf1 * h.c2 + pow3 lmMsf1 * h.c3)).setDLambdaNonLog h.c0

/-- self energies (11, 22, 12) accumulated so far -/
abbrev SE (F : Type) := F × F × F

/-- One pass of the loop body for loop order `l`; HierarchyCalculator.cpp:531-799. -/
def loopBody (E : Env F) (p : Params F) (onlyThreeLoop : Bool) (run : Bool) (l : Int) (acc : SE F) : CalcM F (SE F) :=
  if run then do
    let ho ← getHo
    let depth ← getDepth
    let (Msf1, Msf2) ← lift (calcMsfMDRFlag p ho l)
    let args ← (match hierArgs p ho Msf1 Msf2 with
      | some a => (Pure.pure a : CalcM F _)
      | none => lift (.error "calculateHierarchy: non-handled hierarchy"))
    let out ← lift (E.hier ho.getSuitableHierarchy depth args ho.getMDRFlag (loopFlagsOf l))
    whenM onlyThreeLoop (modHo (fun ho => calcDlambda ho out (log (pow2 (p.scale / Msf1)))))
    return (acc.1 + out.s1, acc.2.1 + out.s2, acc.2.2 + out.s12)
  else return acc

/-- `calculateHierarchy`; HierarchyCalculator.cpp:477-815 -/
def calculateHierarchy (E : Env F) (p : Params F) (f1 f2 f3 : Int) : CalcM F (Mat2 F) := do
  let only3 : Bool := decide (f1 = 0 ∧ f2 = 0 ∧ f3 = 1)
  let acc ← loopBody E p only3 (decide (f1 ≠ 0)) 1 (0, 0, 0)
  let acc ← loopBody E p only3 (decide (f2 ≠ 0)) 2 acc
  let acc ← loopBody E p only3 (decide (f3 ≠ 0)) 3 acc
  whenM only3 (do
    let ho ← getHo
    let (m1, m2) ← lift (calcMsfMDRFlag p ho 3)
    modHo (fun ho => ho.setMDRMasses ⟨m1, m2⟩))
  return Mat2.smul (calcPrefactor p) ⟨acc.1, acc.2.2, acc.2.2, acc.2.1⟩

/-- `xtOrder`; HierarchyCalculator.cpp:1341-1346 -/
def xtOrderOf (h : Int) : Int :=
  if h = Hier.h3 ∨ h = Hier.h32q2g ∨ h = Hier.h3q22g ∨ h = Hier.h9 ∨ h = Hier.h9q2 then 3 else 4

/-- `p_mass_ES`; HierarchyCalculator.cpp:222-224, 1355-1357 -/
def pMassES (p : Params F) : Params F :=
  { p with mu2 := p.mu2.set22 (pow2 p.MSt.x0), mq2 := p.mq2.set22 (pow2 p.MSt.x1) }

/-- `mh2_eft::RenSchemes::DRBARPRIME` -/
def schemeDRbarPrime : Int := 1

/-- Default of the member set by `setXtOrderOfDeltaLambdaAtAs2`; mh2_eft/ThresholdCalculator.hpp (`xtOrderLambdaAtAs2 = 6`),
mh2_eft/ThresholdCalculator.cpp:5953-5956. -/
def xtOrderDefault : Int := 6

/-- `calcDeltaLambda3L`; HierarchyCalculator.cpp:1337-1421 -/
def calcDeltaLambda3L (E : Env F) (p : Params F) (omitXtOrders : Bool) : CalcM F Unit := do
  let ho ← getHo
  let xtOrder := xtOrderOf ho.getSuitableHierarchy
  let v2 := calcV2 p
  let gt2 := 2 * pow2 p.Mt / v2
  let pref := const .threeLoop * gt2 * pow2 (p.Mt * pow2 p.g3)
  let eft ← lift (E.eftAs (pMassES p))
  let tc ← lift (E.tc (pMassES p))
  let subH3m := eft.loop3 0 1 0
  let subEFT := eft.loop3 0 0 0
  let xo := if omitXtOrders then xtOrder else xtOrderDefault
  let eftLogs := pref * (tc.thr xo .LAMBDA_AT_AS2 schemeDRbarPrime 1 - tc.thr xo .LAMBDA_AT_AS2 schemeDRbarPrime 0)
  let nonLog := pref * (ho.getDLambdaNonLog + shiftH3mToDRbarPrimeMh2 p ho 0) - subEFT
  modHo (fun h => h.setDLambdaH3m ((pref * (ho.getDLambdaH3m + shiftH3mToDRbarPrimeMh2 p ho 1) - subH3m) / v2))
  modHo (fun h => h.setDLambdaEFT ((nonLog + eftLogs) / v2))
  modHo (fun h => h.setDLambdaNonLog (nonLog / v2))
  modHoE (fun h => h.setDLambdaShift 3 (pref * tc.shift xtOrder 1 0 / v2))
  whenM omitXtOrders
    (modHo (fun h => h.setDLambdaEFT (h.getDLambdaEFT + pref * (tc.shift xtOrder 1 0 - tc.shift xtOrder 1 1) / v2)))
  let xt4Flag : F := if xtOrder = 3 then 1 else 0
  modHo (fun h => h.setDLambdaXtUncertainty (abs (xt4Flag * pref / v2 * tc.xtTerms tc.limit 4 1)))

/-- Truncation flags used for the uncertainty of a mother hierarchy; HierarchyCalculator.cpp:1471-1498. -/
def truncationFlags (mother : Int) : List DepthIdx :=
  match mother with
  | 0 => [XD.Dmglst1, XD.Dmsqst1, XD.Dmst12]
  | 3 => [XD.At, XD.lmMsusy, XD.Msq, XD.Msusy]
  | 4 => [XD.Dmglst1, XD.Msq]
  | 6 => [XD.Dmglst2, XD.Msq]
  | 7 => [XD.Dmglst2, XD.Dmsqst2]
  | 12 => [XD.Dmsqst1, XD.Dmst12, XD.Mgl]
  | _ => []

/-- `recomputeMh`; HierarchyCalculator.cpp:1444-1448 -/
def recomputeMh (E : Env F) (p : Params F) (massMatrix : Mat2 F) (f1 f2 f3 : Int) : CalcM F F := do
  return E.smallestEig (massMatrix + (← calculateHierarchy E p f1 f2 f3))

/-- the sum of the squared differences, in the order of the source -/
def sumTruncations (E : Env F) (p : Params F) (massMatrix : Mat2 F) (f1 f2 f3 : Int) (Mh : F) :
    List DepthIdx → F → CalcM F F
  | [], acc => return acc
  | i :: l, acc => do
    let m ← tempSet i 0 (recomputeMh E p massMatrix f1 f2 f3)
    sumTruncations E p massMatrix f1 f2 f3 Mh l (acc + pow2 (Mh - m))

/-- `getExpansionUncertainty`; HierarchyCalculator.cpp:1433-1501; works on a copy of the result object. -/
def getExpansionUncertainty (E : Env F) (p : Params F) (massMatrix : Mat2 F) (f1 f2 f3 : Int) : CalcM F F := do
  let ho ← getHo
  localHo ho (tempSet XD.Mst 1 (tempSet XD.threeLoop 1 (do
    let Mh ← recomputeMh E p massMatrix f1 f2 f3
    let m ← lift (getMotherHierarchy ho.getSuitableHierarchy)
    let u ← sumTruncations E p massMatrix f1 f2 f3 Mh (truncationFlags m) 0
    return sqrt u)))

/-- `(error, suitableHierarchy)` of the selection loop -/
abbrev Sel (F : Type) := F × Int

/-- One candidate that passed the suitability test: the numbers computed in HierarchyCalculator.cpp:336-370. -/
structure Cand (F : Type) where
  twoLoopError : F
  relError : F
  unc2 : F
  unc3 : F
  currError : F

/-- HierarchyCalculator.cpp:336-370 for the hierarchy stored in the result object -/
def evalCandidate (E : Env F) (p : Params F) : CalcM F (Cand F) := do
  let treelvl := treeLevel p
  let ho ← getHo
  let Mt41L ← lift (getMt41L p ho ho.getMDRFlag 0)
  let Mt42L ← lift (getMt42L E p ho ho.getMDRFlag 0)
  let Mh2l := E.smallestEig (treelvl + Mt41L + Mt42L)
  let Mh2LExpanded := E.smallestEig (treelvl + Mt41L + (← calculateHierarchy E p 0 1 0))
  let twoLoopError := abs (Mh2l - Mh2LExpanded)
  let unc2 ← getExpansionUncertainty E p (treelvl + Mt41L) 0 1 0
  let unc3 ← getExpansionUncertainty E p (treelvl + Mt41L + Mt42L) 0 0 1
  calcDeltaLambda3L E p true
  let currError := sqrt (pow2 (twoLoopError / Mh2l) + pow2 (unc2 / Mh2LExpanded))
  return ⟨twoLoopError, twoLoopError / Mh2l, unc2, unc3, currError⟩

/-- Body of the selection loop; HierarchyCalculator.cpp:330-384. -/
def selectBody (E : Env F) (p : Params F) (hierarchy : Int) (acc : Sel F) : CalcM F (Sel F) := do
  modHo (fun h => h.setSuitableHierarchy hierarchy)
  let ho ← getHo
  if isHierarchySuitable p ho then
    let c ← evalCandidate E p
    if lt acc.1 0 || lt c.currError acc.1 then
      modHo (fun h => h.setAbsDiff2L c.twoLoopError)
      modHo (fun h => h.setRelDiff2L c.relError)
      modHoE (fun h => h.setDMhExpUncertainty 2 c.unc2)
      modHoE (fun h => h.setDMhExpUncertainty 3 c.unc3)
      return (c.currError, hierarchy)
    else return acc
  else return acc

/-- the `for` loop over a list of keys -/
def selectLoop (E : Env F) (p : Params F) : List Int → Sel F → CalcM F (Sel F)
  | [], acc => return acc
  | k :: l, acc => do selectLoop E p l (← selectBody E p k acc)

/-- the keys from `Hierarchies::FIRST` to `NUMBER_OF_HIERARCHIES - 1` -/
def allHierarchies : List Int := [0, 1, 2, 3, 4, 5, 6, 7, 8, 9, 10, 11, 12, 13]

/-- `compareHierarchies`; HierarchyCalculator.cpp:307-386 -/
def compareHierarchies (E : Env F) (p : Params F) : CalcM F Int :=
  tempSet XD.threeLoop 0 (tempSet XD.Mst 0 (do
    modHoE (fun h => h.setDMh 0 (treeLevel p))
    let (_, k) ← selectLoop E p allHierarchies (-1, -1)
    modHo (fun h => h.setSuitableHierarchy k)
    return k))

/-- `calculateDMh3L`, selection of the hierarchy; HierarchyCalculator.cpp:175-181 -/
def dmh3lSelect (E : Env F) (p : Params F) : CalcM F Int := do
  modHoE (fun h => h.setMDRFlag 0)
  compareHierarchies E p

/-- `calculateDMh3L`, mass matrices and their uncertainty; HierarchyCalculator.cpp:183-204 -/
def dmh3lMass (E : Env F) (p : Params F) : CalcM F Unit := do
  let m ← calculateHierarchy E p 0 0 1
  let ho ← getHo
  let sh ← lift (shiftH3mToDRbarPrime p ho)
  modHoE (fun h => h.setDMh 3 (m + sh))
  let ho ← getHo
  let m1 ← lift (getMt41L p ho 0 0)
  modHoE (fun h => h.setDMh 1 m1)
  let ho ← getHo
  let m2 ← lift (getMt42L E p ho 0 0)
  modHoE (fun h => h.setDMh 2 m2)
  let ho ← getHo
  let d0 ← lift (ho.getDMh 0)
  let d1 ← lift (ho.getDMh 1)
  let d2 ← lift (ho.getDMh 2)
  let u ← getExpansionUncertainty E p (d0 + d1 + d2) 0 0 1
  modHoE (fun h => h.setDMhExpUncertainty 3 u)
  modHoE (fun h => h.setDMhExpUncertainty 1 0)
  let ho ← getHo
  let sh ← lift (shiftH3mToDRbarPrime p ho)
  modHo (fun h => h.setH3mShift (-sh))

/-- `calculateDMh3L`, threshold corrections; HierarchyCalculator.cpp:206-251 -/
def dmh3lLambda (E : Env F) (p : Params F) (isAlphab : Bool) : CalcM F Unit := do
  calcDeltaLambda3L E p false
  let v2 := calcV2 p
  let gt := const .sqrt2 * p.Mt / sqrt v2
  let eft ← lift (E.eftAs (pMassES p))
  let tc ← lift (E.tc (pMassES p))
  let pref_1L := const .oneLoop * pow2 (p.Mt * gt)
  let pref_2L := const .twoLoop * pow2 (p.Mt * gt * p.g3)
  modHoE (fun h => h.setDLambda 0 (eft.loop0 / v2))
  modHoE (fun h => h.setDLambda 1 (pref_1L * tc.thr xtOrderDefault .LAMBDA_AT schemeDRbarPrime 1 / v2))
  modHoE (fun h => h.setDLambda 2 (pref_2L * tc.thr xtOrderDefault .LAMBDA_AT_AS schemeDRbarPrime 1 / v2))
  modHoE (fun h => h.setDLambdaShift 0 0)
  modHoE (fun h => h.setDLambdaShift 1 0)
  if !isAlphab then
    modHoE (fun h => h.setDLambda 3 h.getDLambdaEFT)
    let ho ← getHo
    let l1 ← lift (ho.getDLambda 1)
    modHoE (fun h => h.setDLambdaShift 2 (pref_2L * (-4 * l1 * tc.thr xtOrderDefault .YT_AS schemeDRbarPrime 1) / v2))
  else
    modHo (fun h => h.setDLambdaH3m 0)
    modHo (fun h => h.setDLambdaEFT 0)
    modHo (fun h => h.setDLambdaNonLog 0)
    modHo (fun h => h.setDLambdaXtUncertainty 0)
    modHoE (fun h => h.setDLambda 3 0)
    modHoE (fun h => h.setDLambdaShift 3 0)

/-- `calculateDMh3L`, from the selection to the end of the `DLambda` block; HierarchyCalculator.cpp:175-251 -/
def dmh3lPart1 (E : Env F) (p : Params F) (isAlphab : Bool) : CalcM F Unit := do
  let _ ← dmh3lSelect E p
  dmh3lMass E p
  dmh3lLambda E p isAlphab

/-- `calculateDMh3L`, fixed-order and EFT results; HierarchyCalculator.cpp:253-274 -/
def dmh3lPart2 (E : Env F) (p : Params F) : CalcM F Unit := do
  let fo ← lift (E.fo p false)
  modHoE (fun h => h.setDMh2FO 0 fo.1)
  modHoE (fun h => h.setDMh2FO 1 fo.2.1)
  modHoE (fun h => h.setDMh2FO 2 fo.2.2)
  modHoE (fun h => h.setDMh2FO 3 0)
  let fa ← lift (E.fo p true)
  modHoE (fun h => h.setDMh2FOAt 0 0)
  modHoE (fun h => h.setDMh2FOAt 1 fa.2.1)
  modHoE (fun h => h.setDMh2FOAt 2 fa.2.2)
  modHoE (fun h => h.setDMh2FOAt 3 0)
  let e ← lift (E.eftFull p)
  modHoE (fun h => h.setDMh2EFT 0 e.loop0)
  modHoE (fun h => h.setDMh2EFT 1 (e.loop1 1 1))
  modHoE (fun h => h.setDMh2EFT 2 (e.loop2 1 1))
  modHoE (fun h => h.setDMh2EFT 3 (e.loop3 1 1 0 + h.getDLambdaEFT * calcV2 p))

/-- `calculateDMh3L`, MDR block; HierarchyCalculator.cpp:276-288.  Returns the MDR masses, the MDR shift and `DMh(3)` of the
local copy. -/
def mdrBlock (E : Env F) (p : Params F) : CalcM F (Vec2 F × Mat2 F × Mat2 F) := do
  modHoE (fun h => h.setMDRFlag 1)
  let ho ← getHo
  let sh ← lift (calcDRbarToMDRbarShift E p ho true true)
  modHo (fun h => h.setMDRShift sh)
  let m ← calculateHierarchy E p 0 0 1
  let ho ← getHo
  let s ← lift (shiftH3mToDRbarPrime p ho)
  modHoE (fun h => h.setDMh 3 (m + s))
  let ho ← getHo
  let d3 ← lift (ho.getDMh 3)
  return (⟨ho.getMDRMasses.x0, ho.getMDRMasses.x1⟩, ho.getMDRShift, d3)

/-- `calculateDMh3L`, last part; HierarchyCalculator.cpp:276-303 -/
def dmh3lPart3 (E : Env F) (p : Params F) : CalcM F Unit := do
  let ho ← getHo
  let (masses, sh, d3mdr) ← localHo ho (mdrBlock E p)
  modHo (fun h => h.setMDRMasses masses)
  let ho ← getHo
  let d3 ← lift (ho.getDMh 3)
  modHo (fun h => h.setMDRShift (sh + d3mdr - d3))
  let ho ← getHo
  let d0 ← lift (ho.getDMh 0)
  let d1 ← lift (ho.getDMh 1)
  let d2 ← lift (ho.getDMh 2)
  let d3 ← lift (ho.getDMh 3)
  let ev := E.diag d0 d1 d2 d3
  modHoE (fun h => h.setDMh2 0 ev.1)
  modHoE (fun h => h.setDMh2 1 ev.2.1)
  modHoE (fun h => h.setDMh2 2 ev.2.2.1)
  modHoE (fun h => h.setDMh2 3 ev.2.2.2)
  modHoE (fun h => h.setDMh2FO 3 ev.2.2.2)
  modHoE (fun h => h.setDMh2FOAt 3 ev.2.2.2)

/-- body of `calculateDMh3L` working on the new result object -/
def dmh3lBody (E : Env F) (p : Params F) (isAlphab : Bool) : CalcM F (HObj F) := do
  dmh3lPart1 E p isAlphab
  dmh3lPart2 E p
  dmh3lPart3 E p
  getHo

/-- `calculateDMh3L`; HierarchyCalculator.cpp:171-304 -/
def calculateDMh3L (E : Env F) (p : Params F) (isAlphab : Bool) : CalcM F (HObj F) :=
  localHo (HObj.new isAlphab) (dmh3lBody E p isAlphab)

end
end Himalaya
