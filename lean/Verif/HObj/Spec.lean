import Verif.HObj.Model

/-!
# Specification vocabulary for the result object (C01-C05)

Independent of how the object is stored: a history of calls is read from the end; the last legal write to the
queried quantity (and loop order) determines the answer.
-/

namespace Himalaya

variable {F : Type}

/-- Loop orders documented for the loop-indexed quantities. -/
def LoopOK (l : Int) : Prop := l = 0 ∨ l = 1 ∨ l = 2 ∨ l = 3
/-- Loop orders documented for the expansion uncertainty. -/
def ExpLoopOK (l : Int) : Prop := l = 1 ∨ l = 2 ∨ l = 3

instance (l : Int) : Decidable (LoopOK l) := by unfold LoopOK; infer_instance
instance (l : Int) : Decidable (ExpLoopOK l) := by unfold ExpLoopOK; infer_instance

/-- The documented domain of a getter. -/
def Query.Legal : Query → Prop
  | .expUncertainty l => ExpLoopOK l
  | .dMh l | .dMh2 l | .dLambda l | .dLambdaShift l | .dMh2EFT l | .dMh2FO l | .dMh2FOAt l => LoopOK l
  | _ => True

/-- The documented domain of a setter. -/
def SetOp.Legal : SetOp F → Prop
  | .expUncertainty l _ => ExpLoopOK l
  | .dMh l _ => LoopOK l
  | .dMh2 l _ | .dLambda l _ | .dLambdaShift l _ | .dMh2EFT l _ | .dMh2FO l _ | .dMh2FOAt l _ => LoopOK l
  | .mdrFlag f => f = 0 ∨ f = 1
  | .renormalizationScheme r => r = 0 ∨ r = 1 ∨ r = 2 ∨ r = 3
  | _ => True

/-- lighter mass first (for comparable masses) -/
def orderPair [FOps F] (v : Vec2 F) : Vec2 F := if FOps.lt v.x1 v.x0 then ⟨v.x1, v.x0⟩ else v

/-- `writes op q = some v`: `op` is the setter belonging to the getter `q` (same quantity, same loop order) and
stores the value `v`. -/
def writes [FOps F] : SetOp F → Query → Option (Val F)
  | .suitableHierarchy h, .suitableHierarchy => some (.int h)
  | .absDiff2L x, .absDiff2L => some (.num x)
  | .relDiff2L x, .relDiff2L => some (.num x)
  | .expUncertainty l x, .expUncertainty k => if l = k then some (.num x) else none
  | .dMh l m, .dMh k => if l = k then some (.mat m) else none
  | .dMh2 l x, .dMh2 k => if l = k then some (.num x) else none
  | .mdrShift m, .mdrShift => some (.mat m)
  | .h3mShift m, .h3mShift => some (.mat m)
  | .mdrMasses v, .mdrMasses => some (.vec (orderPair v))
  | .mdrFlag f, .mdrFlag => some (.int f)
  | .renormalizationScheme r, .renormalizationScheme => some (.int r)
  | .dLambdaH3m x, .dLambdaH3m => some (.num x)
  | .dLambdaEFT x, .dLambdaEFT => some (.num x)
  | .dLambdaNonLog x, .dLambdaNonLog => some (.num x)
  | .dLambda l x, .dLambda k => if l = k then some (.num x) else none
  | .dLambdaShift l x, .dLambdaShift k => if l = k then some (.num x) else none
  | .dMh2EFT l x, .dMh2EFT k => if l = k then some (.num x) else none
  | .dMh2FO l x, .dMh2FO k => if l = k then some (.num x) else none
  | .dMh2FOAt l x, .dMh2FOAt k => if l = k then some (.num x) else none
  | _, _ => none

/-- What a new object answers. -/
def initial [FOps F] (isAlphab : Bool) : Query → Val F
  | .isAlphab => .bool isAlphab
  | .suitableHierarchy => .int 0
  | .mdrFlag => .int 0
  | .renormalizationScheme => .int 1
  | .dMh _ | .mdrShift | .h3mShift => .mat (Mat2.const (FOps.lit 0))
  | .mdrMasses => .vec ⟨FOps.lit 0, FOps.lit 0⟩
  | _ => .num (FOps.lit 0)

open Classical in
/-- The answer demanded by the specification after history `h` (oldest call first): look for the most recent
legal write to `q`. -/
noncomputable def expected [FOps F] (isAlphab : Bool) (q : Query) : List (SetOp F) → Val F
  | [] => initial isAlphab q
  | h => go h.reverse
where
  /-- newest call first -/
  go : List (SetOp F) → Val F
    | [] => initial isAlphab q
    | op :: older => if op.Legal then (writes op q).getD (go older) else go older

end Himalaya
