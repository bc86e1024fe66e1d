import Verif.Hier.CoefBase
import Verif.Hier.H3P
import Verif.Hier.H32q2gP
import Verif.Hier.H3q22gP
import Verif.Hier.H9P
import Verif.Hier.H9q2P

/-!
# The coefficients of the logarithms in `Δλ`: H3, H9 and their variants

Generated by tools/gen_hiercoef.py.
-/

set_option linter.unusedVariables false
set_option linter.unusedSimpArgs false
set_option maxRecDepth 100000

namespace Himalaya

namespace H3

open Laur
open Kron (E eval)

def kC : HConst E := {
  z2 := .var 12,
  z3 := .var 13,
  z4 := .bad,
  B4 := .bad,
  D3 := .bad,
  DN := .bad,
  OepS2 := .bad,
  S2 := .bad,
  T1ep := .bad }

/-- the members: three-loop part, no truncation, no logarithm of the top mass, `μ = 0` -/
def hC : HMem E := {
  Al4p := .lit 1,
  At := .bad,
  Cbeta := .bad,
  Sbeta := .var 0,
  Tbeta := .var 1,
  Dmglst1 := .var 7,
  Dmglst2 := .bad,
  Dmsqst1 := .var 8,
  Dmsqst2 := .bad,
  Dmst12 := .var 9,
  lmMt := .lit 0,
  lmMst1 := .var 10,
  lmMst2 := .bad,
  lmMsq := .bad,
  lmMgl := .bad,
  lmMsusy := .bad,
  Mt := .var 2,
  Mst1 := .var 3,
  Mst2 := .var 4,
  Msq := .var 5,
  Mgl := .var 6,
  Msusy := .bad,
  MuSUSY := .lit 0,
  s2t := .var 11,
  shiftst1 := .lit 0,
  shiftst2 := .lit 0,
  shiftst3 := .lit 0,
  xDR2DRMOD := .lit 0,
  x := .lit 1,
  xAt := .lit 1,
  xDmglst1 := .lit 1,
  xDmglst2 := .lit 1,
  xDmsqst1 := .lit 1,
  xDmsqst2 := .lit 1,
  xDmst12 := .lit 1,
  xMst := .lit 1,
  xMsq := .lit 1,
  xMgl := .lit 1,
  xMsusy := .lit 1,
  xlmMsusy := .lit 1,
  oneLoopFlag := .lit 0,
  twoLoopFlag := .lit 0,
  threeLoopFlag := .lit 1 }

/-- the members that enter the coefficients -/
def hC0 : HMem E := {
  Al4p := .bad,
  At := .bad,
  Cbeta := .bad,
  Sbeta := .var 0,
  Tbeta := .var 1,
  Dmglst1 := .var 7,
  Dmglst2 := .bad,
  Dmsqst1 := .var 8,
  Dmsqst2 := .bad,
  Dmst12 := .var 9,
  lmMt := .bad,
  lmMst1 := .var 10,
  lmMst2 := .bad,
  lmMsq := .bad,
  lmMgl := .bad,
  lmMsusy := .bad,
  Mt := .var 2,
  Mst1 := .var 3,
  Mst2 := .var 4,
  Msq := .var 5,
  Mgl := .var 6,
  Msusy := .bad,
  MuSUSY := .bad,
  s2t := .var 11,
  shiftst1 := .bad,
  shiftst2 := .bad,
  shiftst3 := .bad,
  xDR2DRMOD := .bad,
  x := .bad,
  xAt := .bad,
  xDmglst1 := .bad,
  xDmglst2 := .bad,
  xDmsqst1 := .bad,
  xDmsqst2 := .bad,
  xDmst12 := .bad,
  xMst := .bad,
  xMsq := .bad,
  xMgl := .bad,
  xMsusy := .bad,
  xlmMsusy := .bad,
  oneLoopFlag := .bad,
  twoLoopFlag := .bad,
  threeLoopFlag := .bad }

/-- the values of the variables -/
noncomputable def ptC (k : HConst ℝ) (h : HMem ℝ) (L : ℝ) : List ℝ := [h.Sbeta, h.Tbeta, h.Mt, h.Mst1, h.Mst2, h.Msq, h.Mgl, h.Dmglst1, h.Dmsqst1, h.Dmst12, L, h.s2t, k.z2, k.z3]

def resE : E := coefRes (calc_coef_at_as2_no_sm_logs_log0 kC hC0) (calc_coef_at_as2_no_sm_logs_log1 kC hC0) (calc_coef_at_as2_no_sm_logs_log2 kC hC0)
  (.var 10) (getS2 kC hC) hC.Mt

def logTab : List (E × E) := []

set_option maxHeartbeats 1000000 in
theorem checkCoef : zeroB 14 7 (Kron.subst logTab resE) = true := by decide +kernel

theorem linkCoef (k : HConst ℝ) (h : HMem ℝ) (L : ℝ) : eval (fun _ => 0) (fun i => (ptC k h L).getD i 0) resE =
    coefRes (calc_coef_at_as2_no_sm_logs_log0 k h) (calc_coef_at_as2_no_sm_logs_log1 k h) (calc_coef_at_as2_no_sm_logs_log2 k h)
      L (getS2 k (h.noSMq L 0)) h.Mt := by krfl

/-- the masses in the denominators do not vanish -/
def regC (h : HMem ℝ) : Prop := h.Sbeta ≠ 0 ∧ h.Tbeta ≠ 0 ∧ h.Mt ≠ 0 ∧ h.Mst1 ≠ 0 ∧ h.Mst2 ≠ 0 ∧ h.Msq ≠ 0 ∧ h.Mgl ≠ 0

theorem coefS2 (k : HConst ℝ) (h : HMem ℝ) (L : ℝ) (r : regC h) :
    12 * getS2 k { h.noSM L with MuSUSY := 0 } / h.Mt ^ 4 = calc_coef_at_as2_no_sm_logs_log0 k h
      + calc_coef_at_as2_no_sm_logs_log1 k h * L + calc_coef_at_as2_no_sm_logs_log2 k h * L ^ 2 - 896 / 3 * L ^ 3 := by
  have z : NZ 7 (ptC k h L) := ⟨r.1, r.2.1, r.2.2.1, r.2.2.2.1, r.2.2.2.2.1, r.2.2.2.2.2.1, r.2.2.2.2.2.2, trivial⟩
  have e := zeroB_subst (fun _ => 0) checkCoef (ptC k h L) rfl z (by
    intro p hp
    simp [logTab] at hp)
  rw [linkCoef, HMem.noSMq_eq] at e
  exact coefRes_zero e

end H3

namespace H32q2g

open Laur
open Kron (E eval)

def kC : HConst E := {
  z2 := .var 10,
  z3 := .var 11,
  z4 := .bad,
  B4 := .bad,
  D3 := .bad,
  DN := .bad,
  OepS2 := .bad,
  S2 := .bad,
  T1ep := .bad }

/-- the members: three-loop part, no truncation, no logarithm of the top mass, `μ = 0` -/
def hC : HMem E := {
  Al4p := .lit 1,
  At := .bad,
  Cbeta := .bad,
  Sbeta := .var 0,
  Tbeta := .var 1,
  Dmglst1 := .var 5,
  Dmglst2 := .bad,
  Dmsqst1 := .var 6,
  Dmsqst2 := .bad,
  Dmst12 := .var 7,
  lmMt := .lit 0,
  lmMst1 := .var 8,
  lmMst2 := .bad,
  lmMsq := .bad,
  lmMgl := .bad,
  lmMsusy := .bad,
  Mt := .var 2,
  Mst1 := .var 3,
  Mst2 := .var 4,
  Msq := .bad,
  Mgl := .bad,
  Msusy := .bad,
  MuSUSY := .lit 0,
  s2t := .var 9,
  shiftst1 := .lit 0,
  shiftst2 := .lit 0,
  shiftst3 := .lit 0,
  xDR2DRMOD := .lit 0,
  x := .lit 1,
  xAt := .lit 1,
  xDmglst1 := .lit 1,
  xDmglst2 := .lit 1,
  xDmsqst1 := .lit 1,
  xDmsqst2 := .lit 1,
  xDmst12 := .lit 1,
  xMst := .lit 1,
  xMsq := .lit 1,
  xMgl := .lit 1,
  xMsusy := .lit 1,
  xlmMsusy := .lit 1,
  oneLoopFlag := .lit 0,
  twoLoopFlag := .lit 0,
  threeLoopFlag := .lit 1 }

/-- the members that enter the coefficients -/
def hC0 : HMem E := {
  Al4p := .bad,
  At := .bad,
  Cbeta := .bad,
  Sbeta := .var 0,
  Tbeta := .var 1,
  Dmglst1 := .var 5,
  Dmglst2 := .bad,
  Dmsqst1 := .var 6,
  Dmsqst2 := .bad,
  Dmst12 := .var 7,
  lmMt := .bad,
  lmMst1 := .var 8,
  lmMst2 := .bad,
  lmMsq := .bad,
  lmMgl := .bad,
  lmMsusy := .bad,
  Mt := .var 2,
  Mst1 := .var 3,
  Mst2 := .var 4,
  Msq := .bad,
  Mgl := .bad,
  Msusy := .bad,
  MuSUSY := .bad,
  s2t := .var 9,
  shiftst1 := .bad,
  shiftst2 := .bad,
  shiftst3 := .bad,
  xDR2DRMOD := .bad,
  x := .bad,
  xAt := .bad,
  xDmglst1 := .bad,
  xDmglst2 := .bad,
  xDmsqst1 := .bad,
  xDmsqst2 := .bad,
  xDmst12 := .bad,
  xMst := .bad,
  xMsq := .bad,
  xMgl := .bad,
  xMsusy := .bad,
  xlmMsusy := .bad,
  oneLoopFlag := .bad,
  twoLoopFlag := .bad,
  threeLoopFlag := .bad }

/-- the values of the variables -/
noncomputable def ptC (k : HConst ℝ) (h : HMem ℝ) (L : ℝ) : List ℝ := [h.Sbeta, h.Tbeta, h.Mt, h.Mst1, h.Mst2, h.Dmglst1, h.Dmsqst1, h.Dmst12, L, h.s2t, k.z2, k.z3]

def resE : E := coefRes (calc_coef_at_as2_no_sm_logs_log0 kC hC0) (calc_coef_at_as2_no_sm_logs_log1 kC hC0) (calc_coef_at_as2_no_sm_logs_log2 kC hC0)
  (.var 8) (getS2 kC hC) hC.Mt

def logTab : List (E × E) := []

set_option maxHeartbeats 1000000 in
theorem checkCoef : zeroB 12 5 (Kron.subst logTab resE) = true := by decide +kernel

theorem linkCoef (k : HConst ℝ) (h : HMem ℝ) (L : ℝ) : eval (fun _ => 0) (fun i => (ptC k h L).getD i 0) resE =
    coefRes (calc_coef_at_as2_no_sm_logs_log0 k h) (calc_coef_at_as2_no_sm_logs_log1 k h) (calc_coef_at_as2_no_sm_logs_log2 k h)
      L (getS2 k (h.noSMq L 0)) h.Mt := by krfl

/-- the masses in the denominators do not vanish -/
def regC (h : HMem ℝ) : Prop := h.Sbeta ≠ 0 ∧ h.Tbeta ≠ 0 ∧ h.Mt ≠ 0 ∧ h.Mst1 ≠ 0 ∧ h.Mst2 ≠ 0

theorem coefS2 (k : HConst ℝ) (h : HMem ℝ) (L : ℝ) (r : regC h) :
    12 * getS2 k { h.noSM L with MuSUSY := 0 } / h.Mt ^ 4 = calc_coef_at_as2_no_sm_logs_log0 k h
      + calc_coef_at_as2_no_sm_logs_log1 k h * L + calc_coef_at_as2_no_sm_logs_log2 k h * L ^ 2 - 896 / 3 * L ^ 3 := by
  have z : NZ 5 (ptC k h L) := ⟨r.1, r.2.1, r.2.2.1, r.2.2.2.1, r.2.2.2.2, trivial⟩
  have e := zeroB_subst (fun _ => 0) checkCoef (ptC k h L) rfl z (by
    intro p hp
    simp [logTab] at hp)
  rw [linkCoef, HMem.noSMq_eq] at e
  exact coefRes_zero e

end H32q2g

namespace H3q22g

open Laur
open Kron (E eval)

def kC : HConst E := {
  z2 := .var 11,
  z3 := .var 12,
  z4 := .bad,
  B4 := .bad,
  D3 := .bad,
  DN := .bad,
  OepS2 := .bad,
  S2 := .bad,
  T1ep := .bad }

/-- the members: three-loop part, no truncation, no logarithm of the top mass, `μ = 0` -/
def hC : HMem E := {
  Al4p := .lit 1,
  At := .bad,
  Cbeta := .bad,
  Sbeta := .var 0,
  Tbeta := .var 1,
  Dmglst1 := .var 6,
  Dmglst2 := .bad,
  Dmsqst1 := .var 7,
  Dmsqst2 := .bad,
  Dmst12 := .var 8,
  lmMt := .lit 0,
  lmMst1 := .var 9,
  lmMst2 := .bad,
  lmMsq := .bad,
  lmMgl := .bad,
  lmMsusy := .bad,
  Mt := .var 2,
  Mst1 := .var 3,
  Mst2 := .var 4,
  Msq := .var 5,
  Mgl := .bad,
  Msusy := .bad,
  MuSUSY := .lit 0,
  s2t := .var 10,
  shiftst1 := .lit 0,
  shiftst2 := .lit 0,
  shiftst3 := .lit 0,
  xDR2DRMOD := .lit 0,
  x := .lit 1,
  xAt := .lit 1,
  xDmglst1 := .lit 1,
  xDmglst2 := .lit 1,
  xDmsqst1 := .lit 1,
  xDmsqst2 := .lit 1,
  xDmst12 := .lit 1,
  xMst := .lit 1,
  xMsq := .lit 1,
  xMgl := .lit 1,
  xMsusy := .lit 1,
  xlmMsusy := .lit 1,
  oneLoopFlag := .lit 0,
  twoLoopFlag := .lit 0,
  threeLoopFlag := .lit 1 }

/-- the members that enter the coefficients -/
def hC0 : HMem E := {
  Al4p := .bad,
  At := .bad,
  Cbeta := .bad,
  Sbeta := .var 0,
  Tbeta := .var 1,
  Dmglst1 := .var 6,
  Dmglst2 := .bad,
  Dmsqst1 := .var 7,
  Dmsqst2 := .bad,
  Dmst12 := .var 8,
  lmMt := .bad,
  lmMst1 := .var 9,
  lmMst2 := .bad,
  lmMsq := .bad,
  lmMgl := .bad,
  lmMsusy := .bad,
  Mt := .var 2,
  Mst1 := .var 3,
  Mst2 := .var 4,
  Msq := .var 5,
  Mgl := .bad,
  Msusy := .bad,
  MuSUSY := .bad,
  s2t := .var 10,
  shiftst1 := .bad,
  shiftst2 := .bad,
  shiftst3 := .bad,
  xDR2DRMOD := .bad,
  x := .bad,
  xAt := .bad,
  xDmglst1 := .bad,
  xDmglst2 := .bad,
  xDmsqst1 := .bad,
  xDmsqst2 := .bad,
  xDmst12 := .bad,
  xMst := .bad,
  xMsq := .bad,
  xMgl := .bad,
  xMsusy := .bad,
  xlmMsusy := .bad,
  oneLoopFlag := .bad,
  twoLoopFlag := .bad,
  threeLoopFlag := .bad }

/-- the values of the variables -/
noncomputable def ptC (k : HConst ℝ) (h : HMem ℝ) (L : ℝ) : List ℝ := [h.Sbeta, h.Tbeta, h.Mt, h.Mst1, h.Mst2, h.Msq, h.Dmglst1, h.Dmsqst1, h.Dmst12, L, h.s2t, k.z2, k.z3]

def resE : E := coefRes (calc_coef_at_as2_no_sm_logs_log0 kC hC0) (calc_coef_at_as2_no_sm_logs_log1 kC hC0) (calc_coef_at_as2_no_sm_logs_log2 kC hC0)
  (.var 9) (getS2 kC hC) hC.Mt

def logTab : List (E × E) := []

set_option maxHeartbeats 1000000 in
theorem checkCoef : zeroB 13 6 (Kron.subst logTab resE) = true := by decide +kernel

theorem linkCoef (k : HConst ℝ) (h : HMem ℝ) (L : ℝ) : eval (fun _ => 0) (fun i => (ptC k h L).getD i 0) resE =
    coefRes (calc_coef_at_as2_no_sm_logs_log0 k h) (calc_coef_at_as2_no_sm_logs_log1 k h) (calc_coef_at_as2_no_sm_logs_log2 k h)
      L (getS2 k (h.noSMq L 0)) h.Mt := by krfl

/-- the masses in the denominators do not vanish -/
def regC (h : HMem ℝ) : Prop := h.Sbeta ≠ 0 ∧ h.Tbeta ≠ 0 ∧ h.Mt ≠ 0 ∧ h.Mst1 ≠ 0 ∧ h.Mst2 ≠ 0 ∧ h.Msq ≠ 0

theorem coefS2 (k : HConst ℝ) (h : HMem ℝ) (L : ℝ) (r : regC h) :
    12 * getS2 k { h.noSM L with MuSUSY := 0 } / h.Mt ^ 4 = calc_coef_at_as2_no_sm_logs_log0 k h
      + calc_coef_at_as2_no_sm_logs_log1 k h * L + calc_coef_at_as2_no_sm_logs_log2 k h * L ^ 2 - 896 / 3 * L ^ 3 := by
  have z : NZ 6 (ptC k h L) := ⟨r.1, r.2.1, r.2.2.1, r.2.2.2.1, r.2.2.2.2.1, r.2.2.2.2.2, trivial⟩
  have e := zeroB_subst (fun _ => 0) checkCoef (ptC k h L) rfl z (by
    intro p hp
    simp [logTab] at hp)
  rw [linkCoef, HMem.noSMq_eq] at e
  exact coefRes_zero e

end H3q22g

namespace H9

open Laur
open Kron (E eval)

def kC : HConst E := {
  z2 := .var 10,
  z3 := .var 11,
  z4 := .bad,
  B4 := .bad,
  D3 := .bad,
  DN := .bad,
  OepS2 := .bad,
  S2 := .bad,
  T1ep := .bad }

/-- the members: three-loop part, no truncation, no logarithm of the top mass, `μ = 0` -/
def hC : HMem E := {
  Al4p := .lit 1,
  At := .bad,
  Cbeta := .bad,
  Sbeta := .var 0,
  Tbeta := .var 1,
  Dmglst1 := .bad,
  Dmglst2 := .bad,
  Dmsqst1 := .var 6,
  Dmsqst2 := .bad,
  Dmst12 := .var 7,
  lmMt := .lit 0,
  lmMst1 := .var 8,
  lmMst2 := .bad,
  lmMsq := .bad,
  lmMgl := .add (.var 8) (.log (.div (.mul (.var 3) (.var 3)) (.mul (.var 5) (.var 5)))),
  lmMsusy := .bad,
  Mt := .var 2,
  Mst1 := .var 3,
  Mst2 := .var 4,
  Msq := .bad,
  Mgl := .var 5,
  Msusy := .bad,
  MuSUSY := .lit 0,
  s2t := .var 9,
  shiftst1 := .lit 0,
  shiftst2 := .lit 0,
  shiftst3 := .lit 0,
  xDR2DRMOD := .lit 0,
  x := .lit 1,
  xAt := .lit 1,
  xDmglst1 := .lit 1,
  xDmglst2 := .lit 1,
  xDmsqst1 := .lit 1,
  xDmsqst2 := .lit 1,
  xDmst12 := .lit 1,
  xMst := .lit 1,
  xMsq := .lit 1,
  xMgl := .lit 1,
  xMsusy := .lit 1,
  xlmMsusy := .lit 1,
  oneLoopFlag := .lit 0,
  twoLoopFlag := .lit 0,
  threeLoopFlag := .lit 1 }

/-- the members that enter the coefficients -/
def hC0 : HMem E := {
  Al4p := .bad,
  At := .bad,
  Cbeta := .bad,
  Sbeta := .var 0,
  Tbeta := .var 1,
  Dmglst1 := .bad,
  Dmglst2 := .bad,
  Dmsqst1 := .var 6,
  Dmsqst2 := .bad,
  Dmst12 := .var 7,
  lmMt := .bad,
  lmMst1 := .var 8,
  lmMst2 := .bad,
  lmMsq := .bad,
  lmMgl := .bad,
  lmMsusy := .bad,
  Mt := .var 2,
  Mst1 := .var 3,
  Mst2 := .var 4,
  Msq := .bad,
  Mgl := .var 5,
  Msusy := .bad,
  MuSUSY := .bad,
  s2t := .var 9,
  shiftst1 := .bad,
  shiftst2 := .bad,
  shiftst3 := .bad,
  xDR2DRMOD := .bad,
  x := .bad,
  xAt := .bad,
  xDmglst1 := .bad,
  xDmglst2 := .bad,
  xDmsqst1 := .bad,
  xDmsqst2 := .bad,
  xDmst12 := .bad,
  xMst := .bad,
  xMsq := .bad,
  xMgl := .bad,
  xMsusy := .bad,
  xlmMsusy := .bad,
  oneLoopFlag := .bad,
  twoLoopFlag := .bad,
  threeLoopFlag := .bad }

/-- the values of the variables -/
noncomputable def ptC (k : HConst ℝ) (h : HMem ℝ) (L : ℝ) : List ℝ := [h.Sbeta, h.Tbeta, h.Mt, h.Mst1, h.Mst2, h.Mgl, h.Dmsqst1, h.Dmst12, L, h.s2t, k.z2, k.z3, Real.log (h.Mst1 * h.Mst1 / (h.Mgl * h.Mgl))]

def resE : E := coefRes (calc_coef_at_as2_no_sm_logs_log0 kC hC0) (calc_coef_at_as2_no_sm_logs_log1 kC hC0) (calc_coef_at_as2_no_sm_logs_log2 kC hC0)
  (.var 8) (getS2 kC hC) hC.Mt

def logTab : List (E × E) := [(.log (.div (.mul (.var 3) (.var 3)) (.mul (.var 5) (.var 5))), .var 12)]

set_option maxHeartbeats 1000000 in
theorem checkCoef : zeroB 13 6 (Kron.subst logTab resE) = true := by decide +kernel

theorem linkCoef (k : HConst ℝ) (h : HMem ℝ) (L : ℝ) : eval (fun _ => 0) (fun i => (ptC k h L).getD i 0) resE =
    coefRes (calc_coef_at_as2_no_sm_logs_log0 k h) (calc_coef_at_as2_no_sm_logs_log1 k h) (calc_coef_at_as2_no_sm_logs_log2 k h)
      L (getS2 k (h.noSMq L 0)) h.Mt := by krfl

/-- the masses in the denominators do not vanish -/
def regC (h : HMem ℝ) : Prop := h.Sbeta ≠ 0 ∧ h.Tbeta ≠ 0 ∧ h.Mt ≠ 0 ∧ h.Mst1 ≠ 0 ∧ h.Mst2 ≠ 0 ∧ h.Mgl ≠ 0

theorem coefS2 (k : HConst ℝ) (h : HMem ℝ) (L : ℝ) (r : regC h) :
    12 * getS2 k { h.noSM L with MuSUSY := 0 } / h.Mt ^ 4 = calc_coef_at_as2_no_sm_logs_log0 k h
      + calc_coef_at_as2_no_sm_logs_log1 k h * L + calc_coef_at_as2_no_sm_logs_log2 k h * L ^ 2 - 896 / 3 * L ^ 3 := by
  have z : NZ 6 (ptC k h L) := ⟨r.1, r.2.1, r.2.2.1, r.2.2.2.1, r.2.2.2.2.1, r.2.2.2.2.2, trivial⟩
  have e := zeroB_subst (fun _ => 0) checkCoef (ptC k h L) rfl z (by
    intro p hp
    simp only [logTab, List.mem_cons, List.not_mem_nil, or_false] at hp
    subst hp; rfl)
  rw [linkCoef, HMem.noSMq_eq] at e
  exact coefRes_zero e

end H9

namespace H9q2

open Laur
open Kron (E eval)

def kC : HConst E := {
  z2 := .var 11,
  z3 := .var 12,
  z4 := .bad,
  B4 := .bad,
  D3 := .bad,
  DN := .bad,
  OepS2 := .bad,
  S2 := .bad,
  T1ep := .bad }

/-- the members: three-loop part, no truncation, no logarithm of the top mass, `μ = 0` -/
def hC : HMem E := {
  Al4p := .lit 1,
  At := .bad,
  Cbeta := .bad,
  Sbeta := .var 0,
  Tbeta := .var 1,
  Dmglst1 := .bad,
  Dmglst2 := .bad,
  Dmsqst1 := .var 7,
  Dmsqst2 := .bad,
  Dmst12 := .var 8,
  lmMt := .lit 0,
  lmMst1 := .var 9,
  lmMst2 := .bad,
  lmMsq := .bad,
  lmMgl := .add (.var 9) (.log (.div (.mul (.var 3) (.var 3)) (.mul (.var 6) (.var 6)))),
  lmMsusy := .bad,
  Mt := .var 2,
  Mst1 := .var 3,
  Mst2 := .var 4,
  Msq := .var 5,
  Mgl := .var 6,
  Msusy := .bad,
  MuSUSY := .lit 0,
  s2t := .var 10,
  shiftst1 := .lit 0,
  shiftst2 := .lit 0,
  shiftst3 := .lit 0,
  xDR2DRMOD := .lit 0,
  x := .lit 1,
  xAt := .lit 1,
  xDmglst1 := .lit 1,
  xDmglst2 := .lit 1,
  xDmsqst1 := .lit 1,
  xDmsqst2 := .lit 1,
  xDmst12 := .lit 1,
  xMst := .lit 1,
  xMsq := .lit 1,
  xMgl := .lit 1,
  xMsusy := .lit 1,
  xlmMsusy := .lit 1,
  oneLoopFlag := .lit 0,
  twoLoopFlag := .lit 0,
  threeLoopFlag := .lit 1 }

/-- the members that enter the coefficients -/
def hC0 : HMem E := {
  Al4p := .bad,
  At := .bad,
  Cbeta := .bad,
  Sbeta := .var 0,
  Tbeta := .var 1,
  Dmglst1 := .bad,
  Dmglst2 := .bad,
  Dmsqst1 := .var 7,
  Dmsqst2 := .bad,
  Dmst12 := .var 8,
  lmMt := .bad,
  lmMst1 := .var 9,
  lmMst2 := .bad,
  lmMsq := .bad,
  lmMgl := .bad,
  lmMsusy := .bad,
  Mt := .var 2,
  Mst1 := .var 3,
  Mst2 := .var 4,
  Msq := .var 5,
  Mgl := .var 6,
  Msusy := .bad,
  MuSUSY := .bad,
  s2t := .var 10,
  shiftst1 := .bad,
  shiftst2 := .bad,
  shiftst3 := .bad,
  xDR2DRMOD := .bad,
  x := .bad,
  xAt := .bad,
  xDmglst1 := .bad,
  xDmglst2 := .bad,
  xDmsqst1 := .bad,
  xDmsqst2 := .bad,
  xDmst12 := .bad,
  xMst := .bad,
  xMsq := .bad,
  xMgl := .bad,
  xMsusy := .bad,
  xlmMsusy := .bad,
  oneLoopFlag := .bad,
  twoLoopFlag := .bad,
  threeLoopFlag := .bad }

/-- the values of the variables -/
noncomputable def ptC (k : HConst ℝ) (h : HMem ℝ) (L : ℝ) : List ℝ := [h.Sbeta, h.Tbeta, h.Mt, h.Mst1, h.Mst2, h.Msq, h.Mgl, h.Dmsqst1, h.Dmst12, L, h.s2t, k.z2, k.z3, Real.log (h.Mst1 * h.Mst1 / (h.Mgl * h.Mgl))]

def resE : E := coefRes (calc_coef_at_as2_no_sm_logs_log0 kC hC0) (calc_coef_at_as2_no_sm_logs_log1 kC hC0) (calc_coef_at_as2_no_sm_logs_log2 kC hC0)
  (.var 9) (getS2 kC hC) hC.Mt

def logTab : List (E × E) := [(.log (.div (.mul (.var 3) (.var 3)) (.mul (.var 6) (.var 6))), .var 13)]

set_option maxHeartbeats 1000000 in
theorem checkCoef : zeroB 14 7 (Kron.subst logTab resE) = true := by decide +kernel

theorem linkCoef (k : HConst ℝ) (h : HMem ℝ) (L : ℝ) : eval (fun _ => 0) (fun i => (ptC k h L).getD i 0) resE =
    coefRes (calc_coef_at_as2_no_sm_logs_log0 k h) (calc_coef_at_as2_no_sm_logs_log1 k h) (calc_coef_at_as2_no_sm_logs_log2 k h)
      L (getS2 k (h.noSMq L 0)) h.Mt := by krfl

/-- the masses in the denominators do not vanish -/
def regC (h : HMem ℝ) : Prop := h.Sbeta ≠ 0 ∧ h.Tbeta ≠ 0 ∧ h.Mt ≠ 0 ∧ h.Mst1 ≠ 0 ∧ h.Mst2 ≠ 0 ∧ h.Msq ≠ 0 ∧ h.Mgl ≠ 0

theorem coefS2 (k : HConst ℝ) (h : HMem ℝ) (L : ℝ) (r : regC h) :
    12 * getS2 k { h.noSM L with MuSUSY := 0 } / h.Mt ^ 4 = calc_coef_at_as2_no_sm_logs_log0 k h
      + calc_coef_at_as2_no_sm_logs_log1 k h * L + calc_coef_at_as2_no_sm_logs_log2 k h * L ^ 2 - 896 / 3 * L ^ 3 := by
  have z : NZ 7 (ptC k h L) := ⟨r.1, r.2.1, r.2.2.1, r.2.2.2.1, r.2.2.2.2.1, r.2.2.2.2.2.1, r.2.2.2.2.2.2, trivial⟩
  have e := zeroB_subst (fun _ => 0) checkCoef (ptC k h L) rfl z (by
    intro p hp
    simp only [logTab, List.mem_cons, List.not_mem_nil, or_false] at hp
    subst hp; rfl)
  rw [linkCoef, HMem.noSMq_eq] at e
  exact coefRes_zero e

end H9q2

end Himalaya
