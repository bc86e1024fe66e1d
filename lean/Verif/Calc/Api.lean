import Verif.Calc.Model

/-!
# The public interface of `HierarchyCalculator` as an operation language

include/himalaya/HierarchyCalculator.hpp, public member functions; and the constructor
(source/himalaya/HierarchyCalculator.cpp:153-164).
-/

namespace Himalaya

open scoped Himalaya

/-- A `HierarchyCalculator` object: parameters and expansion flags (the member `verbose` only controls messages). -/
structure Calculator (F : Type) where
  p : Params F
  depth : Depth

/-- One call of a public member function with its arguments. -/
inductive CalcOp (F : Type) where
  | calculateDMh3L (isAlphab : Bool)
  | compareHierarchies (ho : HObj F)
  | calculateHierarchy (ho : HObj F) (f1 f2 f3 : Int)
  | calcDRbarToMDRbarShift (ho : HObj F) (one two : Bool)
  | getMt41L (ho : HObj F) (s1 s2 : Int)
  | getMt42L (ho : HObj F) (s1 s2 : Int)
  | shiftMst1ToMDR (ho : HObj F) (s1 s2 : Int)
  | shiftMst2ToMDR (ho : HObj F) (s1 s2 : Int)
  | getExpansionUncertainty (ho : HObj F) (m : Mat2 F) (f1 f2 f3 : Int)

/-- Returned values. -/
inductive CalcRes (F : Type) where
  | obj (h : HObj F)
  | int (i : Int)
  | mat (m : Mat2 F)
  | num (x : F)

/-- Everything the caller can observe of a call: the returned value or exception, and the result object passed in. -/
structure CallOutcome (F : Type) where
  result : Except String (CalcRes F)
  ho : HObj F

section
variable {F : Type} [Add F] [Sub F] [Mul F] [Div F] [Neg F] [FOps F]

/-- the constructor: validates the parameters and sets all expansion flags to 1; HierarchyCalculator.cpp:153-164 -/
def Calculator.mk' (X : Ext F) (p : Params F) : Except String (Calculator F) :=
  match validate X p with
  | (.ok _, p') => .ok { p := p', depth := fun _ => 1 }
  | (.error e, _) => .error e

/-- run a member function on a result object -/
def runOn {α : Type} (c : Calculator F) (ho : HObj F) (m : CalcM F α) (f : α → CalcRes F) :
    Calculator F × CallOutcome F :=
  match m ⟨c.depth, ho⟩ with
  | (r, s) => ({ c with depth := s.depth }, ⟨r.map f, s.ho⟩)

/-- Execute a public call; the calculator afterwards and what the caller sees. -/
def CalcOp.run (E : Env F) (c : Calculator F) : CalcOp F → Calculator F × CallOutcome F
  | .calculateDMh3L b => runOn c (HObj.new b) (Himalaya.calculateDMh3L E c.p b) .obj
  | .compareHierarchies ho => runOn c ho (Himalaya.compareHierarchies E c.p) .int
  | .calculateHierarchy ho f1 f2 f3 => runOn c ho (Himalaya.calculateHierarchy E c.p f1 f2 f3) .mat
  | .calcDRbarToMDRbarShift ho a b => runOn c ho (CalcM.lift (Himalaya.calcDRbarToMDRbarShift E c.p ho a b)) .mat
  | .getMt41L ho a b => runOn c ho (CalcM.lift (Himalaya.getMt41L c.p ho a b)) .mat
  | .getMt42L ho a b => runOn c ho (CalcM.lift (Himalaya.getMt42L E c.p ho a b)) .mat
  | .shiftMst1ToMDR ho a b => runOn c ho (CalcM.lift (Himalaya.shiftMst1ToMDR c.p ho a b)) .num
  | .shiftMst2ToMDR ho a b => runOn c ho (CalcM.lift (Himalaya.shiftMst2ToMDR c.p ho a b)) .num
  | .getExpansionUncertainty ho m f1 f2 f3 =>
      runOn c ho (Himalaya.getExpansionUncertainty E c.p m f1 f2 f3) .num

/-- A history of calls on one calculator (exceptions are caught by the caller). -/
def runOps (E : Env F) (c : Calculator F) (h : List (CalcOp F)) : Calculator F :=
  h.foldl (fun c op => (op.run E c).1) c

end
end Himalaya
