import Verif.Base.FOps
import Verif.Base.Mat

/-!
# Model of `himalaya::HierarchyObject`

Models include/himalaya/HierarchyObject.hpp:244-269 and source/himalaya/HierarchyObject.cpp.
The C++ type `int` is modelled by `Int` (a superset of the 32-bit values); `double` by an arbitrary scalar `F`.
The four-element `std::array`s are functions on `Fin 4`.  Exceptions are `Except String`; a throwing setter
leaves the object as it is, because the check precedes the assignment.
-/

namespace Himalaya

variable {F : Type}

/-- Private members of `HierarchyObject`; include/himalaya/HierarchyObject.hpp:245-268. -/
structure HObj (F : Type) where
  isAlphab : Bool
  hierarchy : Int
  mdrFlag : Int
  renormalizationScheme : Int
  absDiff2L : F
  relDiff2L : F
  expUncertainties : Fin 4 → F
  dMhMap : Fin 4 → Mat2 F
  dMh2Map : Fin 4 → F
  mdrShift : Mat2 F
  mdrMasses : Vec2 F
  dLambdaH3m : F
  dLambdaEFT : F
  dLambdaNonLog : F
  dLambdaXtUncertainty : F
  h3mShift : Mat2 F
  dLambdaMap : Fin 4 → F
  dLambdaDRbarPrimeToMSbarShiftMap : Fin 4 → F
  dMh2EFTMap : Fin 4 → F
  dMh2FOMap : Fin 4 → F
  dMh2FOAtMap : Fin 4 → F

namespace HObj

/-- `RenSchemes::DRBARPRIME`, `FIRST`, `NUMBER_OF_REN_SCHEMES`; mh2_eft/EFTFlags.hpp:21-30. -/
def DRBARPRIME : Int := 1
/-- see `DRBARPRIME` -/
def renFIRST : Int := 0
/-- see `DRBARPRIME` -/
def renNUMBER : Int := 4

/-- Constructor `HierarchyObject(bool)`; HierarchyObject.cpp:59-63 with the default member initialisers of
HierarchyObject.hpp:245-268 (all numbers zero). -/
def new [FOps F] (isAlphab : Bool) : HObj F :=
  let z : F := FOps.lit 0
  { isAlphab := isAlphab, hierarchy := 0, mdrFlag := 0, renormalizationScheme := DRBARPRIME,
    absDiff2L := z, relDiff2L := z, expUncertainties := fun _ => z, dMhMap := fun _ => Mat2.const z,
    dMh2Map := fun _ => z, mdrShift := Mat2.const z, mdrMasses := ⟨z, z⟩, dLambdaH3m := z,
    dLambdaEFT := z, dLambdaNonLog := z, dLambdaXtUncertainty := z, h3mShift := Mat2.const z,
    dLambdaMap := fun _ => z, dLambdaDRbarPrimeToMSbarShiftMap := fun _ => z, dMh2EFTMap := fun _ => z,
    dMh2FOMap := fun _ => z, dMh2FOAtMap := fun _ => z }

/-- `std::array<T,4>::at(loops) = v`, total version: the callers check the range first, an index outside the
array would throw `std::out_of_range`. -/
def arrSet {α : Type} (a : Fin 4 → α) (loops : Int) (v : α) : Except String (Fin 4 → α) :=
  if h : 0 ≤ loops ∧ loops < 4 then
    let i : Fin 4 := ⟨loops.toNat, by omega⟩
    .ok (fun j => if j = i then v else a j)
  else .error "array::at"

/-- `std::array<T,4>::at(loops)` -/
def arrGet {α : Type} (a : Fin 4 → α) (loops : Int) : Except String α :=
  if h : 0 ≤ loops ∧ loops < 4 then .ok (a ⟨loops.toNat, by omega⟩) else .error "array::at"

/-- `getIsAlphab`; HierarchyObject.cpp:68-71 -/
def getIsAlphab (o : HObj F) : Bool := o.isAlphab

/-- `setSuitableHierarchy`; HierarchyObject.cpp:77-80 -/
def setSuitableHierarchy (o : HObj F) (h : Int) : HObj F := { o with hierarchy := h }

/-- `getSuitableHierarchy`; HierarchyObject.cpp:85-88 -/
def getSuitableHierarchy (o : HObj F) : Int := o.hierarchy

/-- `setAbsDiff2L`; HierarchyObject.cpp:94-97 -/
def setAbsDiff2L (o : HObj F) (x : F) : HObj F := { o with absDiff2L := x }
/-- `getAbsDiff2L`; HierarchyObject.cpp:102-105 -/
def getAbsDiff2L (o : HObj F) : F := o.absDiff2L
/-- `setRelDiff2L`; HierarchyObject.cpp:111-114 -/
def setRelDiff2L (o : HObj F) (x : F) : HObj F := { o with relDiff2L := x }
/-- `getRelDiff2L`; HierarchyObject.cpp:119-122 -/
def getRelDiff2L (o : HObj F) : F := o.relDiff2L

/-- `setDMhExpUncertainty`; HierarchyObject.cpp:130-138 -/
def setDMhExpUncertainty (o : HObj F) (loops : Int) (u : F) : Except String (HObj F) :=
  if loops > 0 ∧ loops ≤ 3 then
    (arrSet o.expUncertainties loops u).map (fun a => { o with expUncertainties := a })
  else .error s!"Expansion uncertainty for {loops} loop(s) is not available."

/-- `getDMhExpUncertainty`; HierarchyObject.cpp:144-154 -/
def getDMhExpUncertainty (o : HObj F) (loops : Int) : Except String F :=
  if loops > 0 ∧ loops ≤ 3 then arrGet o.expUncertainties loops
  else .error s!"Expansion uncertainty for {loops} loop(s) is not available."

/-- `setDMh`; HierarchyObject.cpp:161-170 -/
def setDMh (o : HObj F) (loops : Int) (m : Mat2 F) : Except String (HObj F) :=
  if loops ≥ 0 ∧ loops ≤ 3 then
    (arrSet o.dMhMap loops m).map (fun a => { o with dMhMap := a })
  else .error s!"Higgs mass matrix for {loops} loop(s) is not available."

/-- `setDMh2`; HierarchyObject.cpp:177-186 -/
def setDMh2 (o : HObj F) (loops : Int) (x : F) : Except String (HObj F) :=
  if loops ≥ 0 ∧ loops ≤ 3 then
    (arrSet o.dMh2Map loops x).map (fun a => { o with dMh2Map := a })
  else .error s!"squared Higgs mass correction for {loops} loop(s) is not available."

/-- `getDMh`; HierarchyObject.cpp:192-200 -/
def getDMh (o : HObj F) (loops : Int) : Except String (Mat2 F) :=
  if loops ≥ 0 ∧ loops ≤ 3 then arrGet o.dMhMap loops
  else .error s!"Higgs mass matrix for {loops} loop(s) is not available."

/-- `getDMh2`; HierarchyObject.cpp:206-214 -/
def getDMh2 (o : HObj F) (loops : Int) : Except String F :=
  if loops ≥ 0 ∧ loops ≤ 3 then arrGet o.dMh2Map loops
  else .error s!"Higgs mass correction for {loops} loop(s) is not available."

/-- `setDMhDRbarPrimeToMDRbarPrimeShift`; HierarchyObject.cpp:220-223 -/
def setMDRShift (o : HObj F) (m : Mat2 F) : HObj F := { o with mdrShift := m }
/-- `getDMhDRbarPrimeToMDRbarPrimeShift`; HierarchyObject.cpp:228-231 -/
def getMDRShift (o : HObj F) : Mat2 F := o.mdrShift
/-- `setDMhDRbarPrimeToH3mShift`; HierarchyObject.cpp:233-236 -/
def setH3mShift (o : HObj F) (m : Mat2 F) : HObj F := { o with h3mShift := m }
/-- `getDMhDRbarPrimeToH3mShift`; HierarchyObject.cpp:238-241 -/
def getH3mShift (o : HObj F) : Mat2 F := o.h3mShift

/-- `sortVector`; HierarchyObject.cpp:44-51 -/
def sortVector [FOps F] (v : Vec2 F) : Vec2 F :=
  if FOps.lt v.x1 v.x0 then ⟨v.x1, v.x0⟩ else v

/-- `setMDRMasses`; HierarchyObject.cpp:248-251 -/
def setMDRMasses [FOps F] (o : HObj F) (v : Vec2 F) : HObj F := { o with mdrMasses := sortVector v }
/-- `getMDRMasses`; HierarchyObject.cpp:256-259 -/
def getMDRMasses (o : HObj F) : Vec2 F := o.mdrMasses

/-- `setMDRFlag`; HierarchyObject.cpp:266-274 -/
def setMDRFlag (o : HObj F) (f : Int) : Except String (HObj F) :=
  if f ≠ 0 ∧ f ≠ 1 then
    .error s!"The MDR-flag has to be 0 (DR-scheme) or 1 (MDR-scheme). Input: {f}."
  else .ok { o with mdrFlag := f }
/-- `getMDRFlag`; HierarchyObject.cpp:279-282 -/
def getMDRFlag (o : HObj F) : Int := o.mdrFlag

/-- `setRenormalizationScheme`; HierarchyObject.cpp:289-299 (message shortened) -/
def setRenormalizationScheme (o : HObj F) (r : Int) : Except String (HObj F) :=
  if r < renFIRST ∨ r ≥ renNUMBER then
    .error s!"The renormalization scheme has to be 0, 1, 2, 3. Input: {r}."
  else .ok { o with renormalizationScheme := r }
/-- `getRenormalizationScheme`; HierarchyObject.cpp:304-307 -/
def getRenormalizationScheme (o : HObj F) : Int := o.renormalizationScheme

/-- `setDLambdaH3m`; HierarchyObject.cpp:314-317 -/
def setDLambdaH3m (o : HObj F) (x : F) : HObj F := { o with dLambdaH3m := x }
/-- `getDLambdaH3m`; HierarchyObject.cpp:322-325 -/
def getDLambdaH3m (o : HObj F) : F := o.dLambdaH3m
/-- `setDLambdaEFT`; HierarchyObject.cpp:331-334 -/
def setDLambdaEFT (o : HObj F) (x : F) : HObj F := { o with dLambdaEFT := x }
/-- `getDLambdaEFT`; HierarchyObject.cpp:339-342 -/
def getDLambdaEFT (o : HObj F) : F := o.dLambdaEFT
/-- `setDLambdaNonLog`; HierarchyObject.cpp:348-351 -/
def setDLambdaNonLog (o : HObj F) (x : F) : HObj F := { o with dLambdaNonLog := x }
/-- `getDLambdaNonLog`; HierarchyObject.cpp:356-359 -/
def getDLambdaNonLog (o : HObj F) : F := o.dLambdaNonLog
/-- `setDLambdaXtUncertainty`; HierarchyObject.cpp:365-368 -/
def setDLambdaXtUncertainty (o : HObj F) (x : F) : HObj F := { o with dLambdaXtUncertainty := x }

/-- `getDLambdaUncertainty`; HierarchyObject.cpp:370-382 -/
def getDLambdaUncertainty [Add F] [Sub F] [FOps F] (o : HObj F) (loops : Int) : Except String F :=
  if loops ≥ 0 ∧ loops ≤ 2 then .ok (FOps.lit 0)
  else if loops = 3 then
    .ok (FOps.abs o.dLambdaXtUncertainty + FOps.abs (o.getDLambdaEFT - o.getDLambdaH3m))
  else .error s!"Delta lambda uncertainty {loops} loop(s) is not available."

/-- `getDLambda`; HierarchyObject.cpp:388-396 -/
def getDLambda (o : HObj F) (loops : Int) : Except String F :=
  if loops ≥ 0 ∧ loops ≤ 3 then arrGet o.dLambdaMap loops
  else .error s!"Delta lambda for {loops} loop(s) is not available."
/-- `setDLambda`; HierarchyObject.cpp:403-411 -/
def setDLambda (o : HObj F) (loops : Int) (x : F) : Except String (HObj F) :=
  if loops ≥ 0 ∧ loops ≤ 3 then
    (arrSet o.dLambdaMap loops x).map (fun a => { o with dLambdaMap := a })
  else .error s!"Delta lambda for {loops} loop(s) is not available."

/-- `getDMh2EFTAt`; HierarchyObject.cpp:417-424 -/
def getDMh2EFTAt (o : HObj F) (loops : Int) : Except String F :=
  if loops ≥ 0 ∧ loops ≤ 3 then arrGet o.dMh2EFTMap loops
  else .error s!"Higgs mass for {loops} loop(s) is not available."
/-- `getDMh2FO`; HierarchyObject.cpp:430-437 -/
def getDMh2FO (o : HObj F) (loops : Int) : Except String F :=
  if loops ≥ 0 ∧ loops ≤ 3 then arrGet o.dMh2FOMap loops
  else .error s!"Higgs mass for {loops} loop(s) is not available."
/-- `getDMh2FOAt`; HierarchyObject.cpp:443-450 -/
def getDMh2FOAt (o : HObj F) (loops : Int) : Except String F :=
  if loops ≥ 0 ∧ loops ≤ 3 then arrGet o.dMh2FOAtMap loops
  else .error s!"Higgs mass for {loops} loop(s) is not available."
/-- `setDMh2EFT`; HierarchyObject.cpp:457-465 -/
def setDMh2EFT (o : HObj F) (loops : Int) (x : F) : Except String (HObj F) :=
  if loops ≥ 0 ∧ loops ≤ 3 then
    (arrSet o.dMh2EFTMap loops x).map (fun a => { o with dMh2EFTMap := a })
  else .error s!"Higgs mass for {loops} loop(s) is not available."
/-- `setDMh2FO`; HierarchyObject.cpp:472-480 -/
def setDMh2FO (o : HObj F) (loops : Int) (x : F) : Except String (HObj F) :=
  if loops ≥ 0 ∧ loops ≤ 3 then
    (arrSet o.dMh2FOMap loops x).map (fun a => { o with dMh2FOMap := a })
  else .error s!"Higgs mass for {loops} loop(s) is not available."
/-- `setDMh2FOAt`; HierarchyObject.cpp:487-495 -/
def setDMh2FOAt (o : HObj F) (loops : Int) (x : F) : Except String (HObj F) :=
  if loops ≥ 0 ∧ loops ≤ 3 then
    (arrSet o.dMh2FOAtMap loops x).map (fun a => { o with dMh2FOAtMap := a })
  else .error s!"Higgs mass for {loops} loop(s) is not available."

/-- `getDLambdaDRbarPrimeToMSbarShift`; HierarchyObject.cpp:501-509 -/
def getDLambdaShift (o : HObj F) (loops : Int) : Except String F :=
  if loops ≥ 0 ∧ loops ≤ 3 then arrGet o.dLambdaDRbarPrimeToMSbarShiftMap loops
  else .error s!"DR' -> MS shift for {loops} loop(s) is not available."
/-- `setDLambdaDRbarPrimeToMSbarShift`; HierarchyObject.cpp:516-525 -/
def setDLambdaShift (o : HObj F) (loops : Int) (x : F) : Except String (HObj F) :=
  if loops ≥ 0 ∧ loops ≤ 3 then
    (arrSet o.dLambdaDRbarPrimeToMSbarShiftMap loops x).map
      (fun a => { o with dLambdaDRbarPrimeToMSbarShiftMap := a })
  else .error s!"DR' -> MS shift for {loops} loop(s) is not available."

end HObj

/-- `getH3mHierarchyNotation`; HierarchyObject.cpp:532-568, keys from hierarchies/HierarchyFlags.hpp:16-33.
(The member function does not use the object.) -/
def h3mHierarchyNotation (hierarchy : Int) : String :=
  match hierarchy with
  | 0 => "h3"
  | 1 => "h32q2g"
  | 2 => "h3q22g"
  | 3 => "h4"
  | 4 => "h5"
  | 5 => "h5g1"
  | 6 => "h6"
  | 7 => "h6b"
  | 8 => "h6b2qg2"
  | 9 => "h6bq22g"
  | 10 => "h6bq2g2"
  | 11 => "h6g2"
  | 12 => "h9"
  | 13 => "h9q2"
  | n => "Hierarchy " ++ toString n ++ " not included"

/-! ### The public interface as an operation language -/

/-- One public mutating call. -/
inductive SetOp (F : Type) where
  | suitableHierarchy (h : Int)
  | absDiff2L (x : F)
  | relDiff2L (x : F)
  | expUncertainty (loops : Int) (x : F)
  | dMh (loops : Int) (m : Mat2 F)
  | dMh2 (loops : Int) (x : F)
  | mdrShift (m : Mat2 F)
  | h3mShift (m : Mat2 F)
  | mdrMasses (v : Vec2 F)
  | mdrFlag (f : Int)
  | renormalizationScheme (r : Int)
  | dLambdaH3m (x : F)
  | dLambdaEFT (x : F)
  | dLambdaNonLog (x : F)
  | dLambdaXtUncertainty (x : F)
  | dLambda (loops : Int) (x : F)
  | dLambdaShift (loops : Int) (x : F)
  | dMh2EFT (loops : Int) (x : F)
  | dMh2FO (loops : Int) (x : F)
  | dMh2FOAt (loops : Int) (x : F)

/-- Calls the member function named by the operation. -/
def SetOp.call [FOps F] (o : HObj F) : SetOp F → Except String (HObj F)
  | .suitableHierarchy h => .ok (o.setSuitableHierarchy h)
  | .absDiff2L x => .ok (o.setAbsDiff2L x)
  | .relDiff2L x => .ok (o.setRelDiff2L x)
  | .expUncertainty l x => o.setDMhExpUncertainty l x
  | .dMh l m => o.setDMh l m
  | .dMh2 l x => o.setDMh2 l x
  | .mdrShift m => .ok (o.setMDRShift m)
  | .h3mShift m => .ok (o.setH3mShift m)
  | .mdrMasses v => .ok (o.setMDRMasses v)
  | .mdrFlag f => o.setMDRFlag f
  | .renormalizationScheme r => o.setRenormalizationScheme r
  | .dLambdaH3m x => .ok (o.setDLambdaH3m x)
  | .dLambdaEFT x => .ok (o.setDLambdaEFT x)
  | .dLambdaNonLog x => .ok (o.setDLambdaNonLog x)
  | .dLambdaXtUncertainty x => .ok (o.setDLambdaXtUncertainty x)
  | .dLambda l x => o.setDLambda l x
  | .dLambdaShift l x => o.setDLambdaShift l x
  | .dMh2EFT l x => o.setDMh2EFT l x
  | .dMh2FO l x => o.setDMh2FO l x
  | .dMh2FOAt l x => o.setDMh2FOAt l x

/-- The object after a call; a throwing call leaves the object unchanged (the caller catches the exception). -/
def SetOp.after [FOps F] (o : HObj F) (op : SetOp F) : HObj F :=
  match op.call o with
  | .ok o' => o'
  | .error _ => o

/-- The object after a history of calls on a new object. -/
def runHistory [FOps F] (isAlphab : Bool) (h : List (SetOp F)) : HObj F :=
  h.foldl SetOp.after (HObj.new isAlphab)

/-- The public non-mutating calls that return stored data. -/
inductive Query where
  | isAlphab
  | suitableHierarchy
  | absDiff2L
  | relDiff2L
  | expUncertainty (loops : Int)
  | dMh (loops : Int)
  | dMh2 (loops : Int)
  | mdrShift
  | h3mShift
  | mdrMasses
  | mdrFlag
  | renormalizationScheme
  | dLambdaH3m
  | dLambdaEFT
  | dLambdaNonLog
  | dLambda (loops : Int)
  | dLambdaShift (loops : Int)
  | dMh2EFT (loops : Int)
  | dMh2FO (loops : Int)
  | dMh2FOAt (loops : Int)
deriving DecidableEq

/-- Values returned by getters. -/
inductive Val (F : Type) where
  | bool (b : Bool)
  | int (i : Int)
  | num (x : F)
  | mat (m : Mat2 F)
  | vec (v : Vec2 F)

/-- Calls the getter named by the query. -/
def Query.call (o : HObj F) : Query → Except String (Val F)
  | .isAlphab => .ok (.bool o.getIsAlphab)
  | .suitableHierarchy => .ok (.int o.getSuitableHierarchy)
  | .absDiff2L => .ok (.num o.getAbsDiff2L)
  | .relDiff2L => .ok (.num o.getRelDiff2L)
  | .expUncertainty l => (o.getDMhExpUncertainty l).map .num
  | .dMh l => (o.getDMh l).map .mat
  | .dMh2 l => (o.getDMh2 l).map .num
  | .mdrShift => .ok (.mat o.getMDRShift)
  | .h3mShift => .ok (.mat o.getH3mShift)
  | .mdrMasses => .ok (.vec o.getMDRMasses)
  | .mdrFlag => .ok (.int o.getMDRFlag)
  | .renormalizationScheme => .ok (.int o.getRenormalizationScheme)
  | .dLambdaH3m => .ok (.num o.getDLambdaH3m)
  | .dLambdaEFT => .ok (.num o.getDLambdaEFT)
  | .dLambdaNonLog => .ok (.num o.getDLambdaNonLog)
  | .dLambda l => (o.getDLambda l).map .num
  | .dLambdaShift l => (o.getDLambdaShift l).map .num
  | .dMh2EFT l => (o.getDMh2EFTAt l).map .num
  | .dMh2FO l => (o.getDMh2FO l).map .num
  | .dMh2FOAt l => (o.getDMh2FOAt l).map .num

end Himalaya
