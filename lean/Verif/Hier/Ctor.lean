import Verif.Hier.Classes
import Verif.Hier.Mem
import Verif.Hier.H3
import Verif.Hier.H32q2g
import Verif.Hier.H3q22g
import Verif.Hier.H4
import Verif.Hier.H5
import Verif.Hier.H5g1
import Verif.Hier.H6
import Verif.Hier.H6b
import Verif.Hier.H6b2qg2
import Verif.Hier.H6bq22g
import Verif.Hier.H6bq2g2
import Verif.Hier.H6g2
import Verif.Hier.H9
import Verif.Hier.H9q2

/-!
# The constructors of the hierarchy classes

From the arguments of `calculateHierarchy`'s call (`Verif.Hier.Classes`) to the members of the class and the four results that
`calculateHierarchy` asks the class for.
-/

set_option linter.unusedVariables false

namespace Himalaya

open FOps
open scoped Himalaya

section
variable {F : Type} [Add F] [Sub F] [Mul F] [Div F] [Neg F] [FOps F]

/-- The argument passed for the parameter `p`; `0` if the class has no such parameter. -/
def argOf (ps : List HParam) (args : List F) (p : HParam) : F :=
  match (ps.zip args).find? (fun q => q.1 == p) with
  | some q => q.2
  | none => 0

/-- The value of the member `x<Name>`; `0` if the class has no such member. -/
def flagOf (k : Int) (xs : List Int) (n : DepthIdx) : F :=
  match (((flagReads k).map (·.1)).zip xs).find? (fun q => q.1 == n) with
  | some q => ofInt q.2
  | none => 0

/-- The members after the constructor has run: hierarchies/H3.cpp:39-70, H32q2g.cpp:37-67, H3q22g.cpp:38-69, H4.cpp:33-60,
H5.cpp:39-69, H5g1.cpp:40-71, H6.cpp:39-70, H6b.cpp:38-68, H6b2qg2.cpp:39-70, H6bq22g.cpp:39-70, H6bq2g2.cpp:40-72,
H6g2.cpp:40-72, H9.cpp:38-70, H9q2.cpp:39-72.  Simplifications: members the class does not have are set to `0`; `tan` is a
parameter because it is not among the operations of `FOps`. -/
def classMem (tan : F → F) (k : Int) (ps : List HParam) (xs : List Int) (args : List F) (mdr : Int) (fl : LoopFlags) : HMem F :=
  { Al4p := argOf ps args .Al4p, At := argOf ps args .At,
    Cbeta := cos (argOf ps args .beta), Sbeta := sin (argOf ps args .beta), Tbeta := tan (argOf ps args .beta),
    Dmglst1 := argOf ps args .Dmglst1, Dmglst2 := argOf ps args .Dmglst2, Dmsqst1 := argOf ps args .Dmsqst1,
    Dmsqst2 := argOf ps args .Dmsqst2, Dmst12 := argOf ps args .Dmst12,
    lmMt := argOf ps args .lmMt, lmMst1 := argOf ps args .lmMst1, lmMst2 := argOf ps args .lmMst2, lmMsq := argOf ps args .lmMsq,
    lmMgl := argOf ps args .lmMgl, lmMsusy := argOf ps args .lmMsusy,
    Mt := argOf ps args .Mt, Mst1 := argOf ps args .Mst1, Mst2 := argOf ps args .Mst2, Msq := argOf ps args .Msq,
    Mgl := argOf ps args .Mgl, Msusy := argOf ps args .Msusy, MuSUSY := argOf ps args .MuSUSY, s2t := argOf ps args .s2t,
    shiftst1 := ofInt mdr, shiftst2 := ofInt mdr, shiftst3 := ofInt mdr, xDR2DRMOD := ofInt mdr,
    x := flagOf k xs XD.threeLoop, xAt := flagOf k xs XD.At, xDmglst1 := flagOf k xs XD.Dmglst1,
    xDmglst2 := flagOf k xs XD.Dmglst2, xDmsqst1 := flagOf k xs XD.Dmsqst1, xDmsqst2 := flagOf k xs XD.Dmsqst2,
    xDmst12 := flagOf k xs XD.Dmst12, xMst := flagOf k xs XD.Mst, xMsq := flagOf k xs XD.Msq, xMgl := flagOf k xs XD.Mgl,
    xMsusy := flagOf k xs XD.Msusy, xlmMsusy := flagOf k xs XD.lmMsusy,
    oneLoopFlag := ofInt fl.oneLoop, twoLoopFlag := ofInt fl.twoLoop, threeLoopFlag := ofInt fl.threeLoop }

/-- What `calculateHierarchy` asks a class for: the three self energies and the coefficients of the logarithms;
HierarchyCalculator.cpp:495-503 and :551-556 (and the corresponding lines of the other classes). -/
structure ClassFns (F : Type) where
  S1 : HConst F → HMem F → F
  S2 : HConst F → HMem F → F
  S12 : HConst F → HMem F → F
  c0 : HConst F → HMem F → F
  c1 : HConst F → HMem F → F
  c2 : HConst F → HMem F → F
  c3 : HConst F → HMem F → F

/-- The class of a hierarchy, HierarchyCalculator.cpp:538-800 (`switch`) and Hierarchies.hpp:14-30. -/
def classFns : Int → Option (ClassFns F)
  | 0 => some ⟨H3.getS1, H3.getS2, H3.getS12, H3.calc_coef_at_as2_no_sm_logs_log0, H3.calc_coef_at_as2_no_sm_logs_log1,
      H3.calc_coef_at_as2_no_sm_logs_log2, H3.calc_coef_at_as2_no_sm_logs_log3⟩
  | 1 => some ⟨H32q2g.getS1, H32q2g.getS2, H32q2g.getS12, H32q2g.calc_coef_at_as2_no_sm_logs_log0, H32q2g.calc_coef_at_as2_no_sm_logs_log1,
      H32q2g.calc_coef_at_as2_no_sm_logs_log2, H32q2g.calc_coef_at_as2_no_sm_logs_log3⟩
  | 2 => some ⟨H3q22g.getS1, H3q22g.getS2, H3q22g.getS12, H3q22g.calc_coef_at_as2_no_sm_logs_log0, H3q22g.calc_coef_at_as2_no_sm_logs_log1,
      H3q22g.calc_coef_at_as2_no_sm_logs_log2, H3q22g.calc_coef_at_as2_no_sm_logs_log3⟩
  | 3 => some ⟨H4.getS1, H4.getS2, H4.getS12, H4.calc_coef_at_as2_no_sm_logs_log0, H4.calc_coef_at_as2_no_sm_logs_log1,
      H4.calc_coef_at_as2_no_sm_logs_log2, H4.calc_coef_at_as2_no_sm_logs_log3⟩
  | 4 => some ⟨H5.getS1, H5.getS2, H5.getS12, H5.calc_coef_at_as2_no_sm_logs_log0, H5.calc_coef_at_as2_no_sm_logs_log1,
      H5.calc_coef_at_as2_no_sm_logs_log2, H5.calc_coef_at_as2_no_sm_logs_log3⟩
  | 5 => some ⟨H5g1.getS1, H5g1.getS2, H5g1.getS12, H5g1.calc_coef_at_as2_no_sm_logs_log0, H5g1.calc_coef_at_as2_no_sm_logs_log1,
      H5g1.calc_coef_at_as2_no_sm_logs_log2, H5g1.calc_coef_at_as2_no_sm_logs_log3⟩
  | 6 => some ⟨H6.getS1, H6.getS2, H6.getS12, H6.calc_coef_at_as2_no_sm_logs_log0, H6.calc_coef_at_as2_no_sm_logs_log1,
      H6.calc_coef_at_as2_no_sm_logs_log2, H6.calc_coef_at_as2_no_sm_logs_log3⟩
  | 7 => some ⟨H6b.getS1, H6b.getS2, H6b.getS12, H6b.calc_coef_at_as2_no_sm_logs_log0, H6b.calc_coef_at_as2_no_sm_logs_log1,
      H6b.calc_coef_at_as2_no_sm_logs_log2, H6b.calc_coef_at_as2_no_sm_logs_log3⟩
  | 8 => some ⟨H6b2qg2.getS1, H6b2qg2.getS2, H6b2qg2.getS12, H6b2qg2.calc_coef_at_as2_no_sm_logs_log0, H6b2qg2.calc_coef_at_as2_no_sm_logs_log1,
      H6b2qg2.calc_coef_at_as2_no_sm_logs_log2, H6b2qg2.calc_coef_at_as2_no_sm_logs_log3⟩
  | 9 => some ⟨H6bq22g.getS1, H6bq22g.getS2, H6bq22g.getS12, H6bq22g.calc_coef_at_as2_no_sm_logs_log0, H6bq22g.calc_coef_at_as2_no_sm_logs_log1,
      H6bq22g.calc_coef_at_as2_no_sm_logs_log2, H6bq22g.calc_coef_at_as2_no_sm_logs_log3⟩
  | 10 => some ⟨H6bq2g2.getS1, H6bq2g2.getS2, H6bq2g2.getS12, H6bq2g2.calc_coef_at_as2_no_sm_logs_log0, H6bq2g2.calc_coef_at_as2_no_sm_logs_log1,
      H6bq2g2.calc_coef_at_as2_no_sm_logs_log2, H6bq2g2.calc_coef_at_as2_no_sm_logs_log3⟩
  | 11 => some ⟨H6g2.getS1, H6g2.getS2, H6g2.getS12, H6g2.calc_coef_at_as2_no_sm_logs_log0, H6g2.calc_coef_at_as2_no_sm_logs_log1,
      H6g2.calc_coef_at_as2_no_sm_logs_log2, H6g2.calc_coef_at_as2_no_sm_logs_log3⟩
  | 12 => some ⟨H9.getS1, H9.getS2, H9.getS12, H9.calc_coef_at_as2_no_sm_logs_log0, H9.calc_coef_at_as2_no_sm_logs_log1,
      H9.calc_coef_at_as2_no_sm_logs_log2, H9.calc_coef_at_as2_no_sm_logs_log3⟩
  | 13 => some ⟨H9q2.getS1, H9q2.getS2, H9q2.getS12, H9q2.calc_coef_at_as2_no_sm_logs_log0, H9q2.calc_coef_at_as2_no_sm_logs_log1,
      H9q2.calc_coef_at_as2_no_sm_logs_log2, H9q2.calc_coef_at_as2_no_sm_logs_log3⟩
  | _ => none

/-- The results of class `k` for the flags `xs` it has read, the arguments `args`, the scheme flag and the loop flags. -/
def classImpl (kc : HConst F) (tan : F → F) : Impl F := fun k xs args mdr fl =>
  match classFns k, ctorParams k with
  | some C, some ps =>
    let h := classMem tan k ps xs args mdr fl
    .ok { s1 := C.S1 kc h, s2 := C.S2 kc h, s12 := C.S12 kc h, c0 := C.c0 kc h, c1 := C.c1 kc h, c2 := C.c2 kc h, c3 := C.c3 kc h }
  | _, _ => .error "no such hierarchy"

/-- every hierarchy the calculator knows has a class, and its results are numbers of the class's formulas -/
theorem classImpl_ok (kc : HConst F) (tan : F → F) (k : Int) (h0 : 0 ≤ k) (h1 : k ≤ 13) (xs : List Int) (args : List F) (mdr : Int)
    (fl : LoopFlags) : ∃ C : ClassFns F, ∃ ps, classFns k = some C ∧ ctorParams k = some ps ∧
      classImpl kc tan k xs args mdr fl = .ok
        { s1 := C.S1 kc (classMem tan k ps xs args mdr fl), s2 := C.S2 kc (classMem tan k ps xs args mdr fl),
          s12 := C.S12 kc (classMem tan k ps xs args mdr fl), c0 := C.c0 kc (classMem tan k ps xs args mdr fl),
          c1 := C.c1 kc (classMem tan k ps xs args mdr fl), c2 := C.c2 kc (classMem tan k ps xs args mdr fl),
          c3 := C.c3 kc (classMem tan k ps xs args mdr fl) } := by
  have : k = 0 ∨ k = 1 ∨ k = 2 ∨ k = 3 ∨ k = 4 ∨ k = 5 ∨ k = 6 ∨ k = 7 ∨ k = 8 ∨ k = 9 ∨ k = 10 ∨ k = 11 ∨ k = 12 ∨ k = 13 := by
    omega
  rcases this with h | h | h | h | h | h | h | h | h | h | h | h | h | h <;> subst h <;> exact ⟨_, _, rfl, rfl, rfl⟩

end

end Himalaya
