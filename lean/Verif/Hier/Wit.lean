import Verif.Hier.Props3

/-!
# Values of the self energies of some hierarchy classes at rational points
-/

set_option linter.unusedVariables false
set_option linter.unusedSimpArgs false
set_option linter.unusedTactic false
set_option linter.unreachableTactic false

namespace Himalaya

open Kron (E eval sumR nonzero nonzero_sound)

/-- All masses equal to one unit, `tan β = 3/4`, `sin 2θ = 1`, all truncation flags set, the other members zero. -/
def witQ : HMem ℚ :=
  { Al4p := 1, At := 0, Cbeta := 4/5, Sbeta := 3/5, Tbeta := 3/4, Dmglst1 := 0, Dmglst2 := 0, Dmsqst1 := 0, Dmsqst2 := 0, Dmst12 := 0, lmMt := 0, lmMst1 := 0, lmMst2 := 0, lmMsq := 0, lmMgl := 0, lmMsusy := 0, Mt := 1, Mst1 := 1, Mst2 := 1, Msq := 1, Mgl := 1, Msusy := 1, MuSUSY := 0, s2t := 1, shiftst1 := 0, shiftst2 := 0, shiftst3 := 0, xDR2DRMOD := 0, x := 1, xAt := 1, xDmglst1 := 1, xDmglst2 := 1, xDmsqst1 := 1, xDmsqst2 := 1, xDmst12 := 1, xMst := 1, xMsq := 1, xMgl := 1, xMsusy := 1, xlmMsusy := 1, oneLoopFlag := 0, twoLoopFlag := 0, threeLoopFlag := 0 }

def H3_mu_q0 : List ℚ := [3/5, 3/4, 1, 1, 1, 1, 0, 1, 0, 1, 1, 0, 1, 1, 1, 0, 0, 1, 0, 0, 0, 0, 0, 0, codeConstQ.getD 0 0, codeConstQ.getD 1 0]
/-- `H3` at two values of `μ` -/
def H3_mu_h0 : HMem ℚ := { witQ with oneLoopFlag := 1, xDmst12 := 0, Dmst12 := 1, MuSUSY := 0 }
def H3_mu_q1 : List ℚ := [3/5, 3/4, 1, 1, 1, 1, 0, 1, 0, 1, 1, 0, 1, 1, 1, 0, 0, 1, 0, 0, 1, 0, 0, 0, codeConstQ.getD 0 0, codeConstQ.getD 1 0]
/-- `H3` at two values of `μ` -/
def H3_mu_h1 : HMem ℚ := { witQ with oneLoopFlag := 1, xDmst12 := 0, Dmst12 := 1, MuSUSY := 1 }

theorem H3_mu_differs : nonzero [(16, H3_mu_q1, H3.getS1 H3.kE H3.hE), (24, H3_mu_q1, H3.getS12 H3.kE H3.hE), (9, H3_mu_q1, H3.getS2 H3.kE H3.hE), (-16, H3_mu_q0, H3.getS1 H3.kE H3.hE), (-24, H3_mu_q0, H3.getS12 H3.kE H3.hE), (-9, H3_mu_q0, H3.getS2 H3.kE H3.hE)] = true := by decide +kernel

theorem H3_mu : 16 * H3.getS1 codeConst H3_mu_h1.cast + 24 * H3.getS12 codeConst H3_mu_h1.cast + 9 * H3.getS2 codeConst H3_mu_h1.cast ≠ 16 * H3.getS1 codeConst H3_mu_h0.cast + 24 * H3.getS12 codeConst H3_mu_h0.cast + 9 * H3.getS2 codeConst H3_mu_h0.cast := by
  have p0 : H3.pt codeConst H3_mu_h0.cast = H3_mu_q0.map (↑) := by
    simp only [H3.pt, H3_mu_q0, H3_mu_h0, witQ, codeConst, codeConstQ, HMem.cast, List.map_cons, List.map_nil, List.getD_cons_zero, List.getD_cons_succ] <;> norm_num
  have p1 : H3.pt codeConst H3_mu_h1.cast = H3_mu_q1.map (↑) := by
    simp only [H3.pt, H3_mu_q1, H3_mu_h1, witQ, codeConst, codeConstQ, HMem.cast, List.map_cons, List.map_nil, List.getD_cons_zero, List.getD_cons_succ] <;> norm_num
  have h := nonzero_sound (fun _ => 0) H3_mu_differs
  simp only [sumR] at h
  rw [← value_at (P := H3.pt) (H3.linkS1 _) codeConst _ _ p1, ← value_at (P := H3.pt) (H3.linkS12 _) codeConst _ _ p1, ← value_at (P := H3.pt) (H3.linkS2 _) codeConst _ _ p1, ← value_at (P := H3.pt) (H3.linkS1 _) codeConst _ _ p0, ← value_at (P := H3.pt) (H3.linkS12 _) codeConst _ _ p0, ← value_at (P := H3.pt) (H3.linkS2 _) codeConst _ _ p0] at h
  intro e
  apply h
  push_cast
  linarith

def H32q2g_mu_q0 : List ℚ := [3/5, 3/4, 1, 1, 0, 1, 0, 1, 1, 0, 1, 1, 1, 0, 0, 1, 0, 0, 0, 0, 0, 0, codeConstQ.getD 0 0, codeConstQ.getD 1 0]
/-- `H32q2g` at two values of `μ` -/
def H32q2g_mu_h0 : HMem ℚ := { witQ with oneLoopFlag := 1, xDmst12 := 0, Dmst12 := 1, MuSUSY := 0 }
def H32q2g_mu_q1 : List ℚ := [3/5, 3/4, 1, 1, 0, 1, 0, 1, 1, 0, 1, 1, 1, 0, 0, 1, 0, 0, 1, 0, 0, 0, codeConstQ.getD 0 0, codeConstQ.getD 1 0]
/-- `H32q2g` at two values of `μ` -/
def H32q2g_mu_h1 : HMem ℚ := { witQ with oneLoopFlag := 1, xDmst12 := 0, Dmst12 := 1, MuSUSY := 1 }

theorem H32q2g_mu_differs : nonzero [(16, H32q2g_mu_q1, H32q2g.getS1 H32q2g.kE H32q2g.hE), (24, H32q2g_mu_q1, H32q2g.getS12 H32q2g.kE H32q2g.hE), (9, H32q2g_mu_q1, H32q2g.getS2 H32q2g.kE H32q2g.hE), (-16, H32q2g_mu_q0, H32q2g.getS1 H32q2g.kE H32q2g.hE), (-24, H32q2g_mu_q0, H32q2g.getS12 H32q2g.kE H32q2g.hE), (-9, H32q2g_mu_q0, H32q2g.getS2 H32q2g.kE H32q2g.hE)] = true := by decide +kernel

theorem H32q2g_mu : 16 * H32q2g.getS1 codeConst H32q2g_mu_h1.cast + 24 * H32q2g.getS12 codeConst H32q2g_mu_h1.cast + 9 * H32q2g.getS2 codeConst H32q2g_mu_h1.cast ≠ 16 * H32q2g.getS1 codeConst H32q2g_mu_h0.cast + 24 * H32q2g.getS12 codeConst H32q2g_mu_h0.cast + 9 * H32q2g.getS2 codeConst H32q2g_mu_h0.cast := by
  have p0 : H32q2g.pt codeConst H32q2g_mu_h0.cast = H32q2g_mu_q0.map (↑) := by
    simp only [H32q2g.pt, H32q2g_mu_q0, H32q2g_mu_h0, witQ, codeConst, codeConstQ, HMem.cast, List.map_cons, List.map_nil, List.getD_cons_zero, List.getD_cons_succ] <;> norm_num
  have p1 : H32q2g.pt codeConst H32q2g_mu_h1.cast = H32q2g_mu_q1.map (↑) := by
    simp only [H32q2g.pt, H32q2g_mu_q1, H32q2g_mu_h1, witQ, codeConst, codeConstQ, HMem.cast, List.map_cons, List.map_nil, List.getD_cons_zero, List.getD_cons_succ] <;> norm_num
  have h := nonzero_sound (fun _ => 0) H32q2g_mu_differs
  simp only [sumR] at h
  rw [← value_at (P := H32q2g.pt) (H32q2g.linkS1 _) codeConst _ _ p1, ← value_at (P := H32q2g.pt) (H32q2g.linkS12 _) codeConst _ _ p1, ← value_at (P := H32q2g.pt) (H32q2g.linkS2 _) codeConst _ _ p1, ← value_at (P := H32q2g.pt) (H32q2g.linkS1 _) codeConst _ _ p0, ← value_at (P := H32q2g.pt) (H32q2g.linkS12 _) codeConst _ _ p0, ← value_at (P := H32q2g.pt) (H32q2g.linkS2 _) codeConst _ _ p0] at h
  intro e
  apply h
  push_cast
  linarith

def H3q22g_mu_q0 : List ℚ := [3/5, 3/4, 1, 1, 1, 0, 1, 0, 1, 1, 0, 1, 1, 1, 0, 0, 1, 0, 0, 0, 0, 0, 0, codeConstQ.getD 0 0, codeConstQ.getD 1 0]
/-- `H3q22g` at two values of `μ` -/
def H3q22g_mu_h0 : HMem ℚ := { witQ with oneLoopFlag := 1, xDmst12 := 0, Dmst12 := 1, MuSUSY := 0 }
def H3q22g_mu_q1 : List ℚ := [3/5, 3/4, 1, 1, 1, 0, 1, 0, 1, 1, 0, 1, 1, 1, 0, 0, 1, 0, 0, 1, 0, 0, 0, codeConstQ.getD 0 0, codeConstQ.getD 1 0]
/-- `H3q22g` at two values of `μ` -/
def H3q22g_mu_h1 : HMem ℚ := { witQ with oneLoopFlag := 1, xDmst12 := 0, Dmst12 := 1, MuSUSY := 1 }

theorem H3q22g_mu_differs : nonzero [(16, H3q22g_mu_q1, H3q22g.getS1 H3q22g.kE H3q22g.hE), (24, H3q22g_mu_q1, H3q22g.getS12 H3q22g.kE H3q22g.hE), (9, H3q22g_mu_q1, H3q22g.getS2 H3q22g.kE H3q22g.hE), (-16, H3q22g_mu_q0, H3q22g.getS1 H3q22g.kE H3q22g.hE), (-24, H3q22g_mu_q0, H3q22g.getS12 H3q22g.kE H3q22g.hE), (-9, H3q22g_mu_q0, H3q22g.getS2 H3q22g.kE H3q22g.hE)] = true := by decide +kernel

theorem H3q22g_mu : 16 * H3q22g.getS1 codeConst H3q22g_mu_h1.cast + 24 * H3q22g.getS12 codeConst H3q22g_mu_h1.cast + 9 * H3q22g.getS2 codeConst H3q22g_mu_h1.cast ≠ 16 * H3q22g.getS1 codeConst H3q22g_mu_h0.cast + 24 * H3q22g.getS12 codeConst H3q22g_mu_h0.cast + 9 * H3q22g.getS2 codeConst H3q22g_mu_h0.cast := by
  have p0 : H3q22g.pt codeConst H3q22g_mu_h0.cast = H3q22g_mu_q0.map (↑) := by
    simp only [H3q22g.pt, H3q22g_mu_q0, H3q22g_mu_h0, witQ, codeConst, codeConstQ, HMem.cast, List.map_cons, List.map_nil, List.getD_cons_zero, List.getD_cons_succ] <;> norm_num
  have p1 : H3q22g.pt codeConst H3q22g_mu_h1.cast = H3q22g_mu_q1.map (↑) := by
    simp only [H3q22g.pt, H3q22g_mu_q1, H3q22g_mu_h1, witQ, codeConst, codeConstQ, HMem.cast, List.map_cons, List.map_nil, List.getD_cons_zero, List.getD_cons_succ] <;> norm_num
  have h := nonzero_sound (fun _ => 0) H3q22g_mu_differs
  simp only [sumR] at h
  rw [← value_at (P := H3q22g.pt) (H3q22g.linkS1 _) codeConst _ _ p1, ← value_at (P := H3q22g.pt) (H3q22g.linkS12 _) codeConst _ _ p1, ← value_at (P := H3q22g.pt) (H3q22g.linkS2 _) codeConst _ _ p1, ← value_at (P := H3q22g.pt) (H3q22g.linkS1 _) codeConst _ _ p0, ← value_at (P := H3q22g.pt) (H3q22g.linkS12 _) codeConst _ _ p0, ← value_at (P := H3q22g.pt) (H3q22g.linkS2 _) codeConst _ _ p0] at h
  intro e
  apply h
  push_cast
  linarith

def H5_mu_q0 : List ℚ := [3/5, 3/4, 1, 1, 1, 1, 0, 1, 1, 1, 1, 0, 0, 1, 0, 0, 0, 0, 0, 0, 0, 0, codeConstQ.getD 0 0, codeConstQ.getD 1 0, codeConstQ.getD 2 0, codeConstQ.getD 3 0, codeConstQ.getD 5 0, codeConstQ.getD 6 0, codeConstQ.getD 7 0, codeConstQ.getD 8 0]
/-- `H5` at two values of `μ` -/
def H5_mu_h0 : HMem ℚ := { witQ with oneLoopFlag := 1, MuSUSY := 0 }
def H5_mu_q1 : List ℚ := [3/5, 3/4, 1, 1, 1, 1, 0, 1, 1, 1, 1, 0, 0, 1, 0, 0, 0, 0, 1, 0, 0, 0, codeConstQ.getD 0 0, codeConstQ.getD 1 0, codeConstQ.getD 2 0, codeConstQ.getD 3 0, codeConstQ.getD 5 0, codeConstQ.getD 6 0, codeConstQ.getD 7 0, codeConstQ.getD 8 0]
/-- `H5` at two values of `μ` -/
def H5_mu_h1 : HMem ℚ := { witQ with oneLoopFlag := 1, MuSUSY := 1 }

theorem H5_mu_differs : nonzero [(16, H5_mu_q1, H5.getS1 H5.kE H5.hE), (24, H5_mu_q1, H5.getS12 H5.kE H5.hE), (9, H5_mu_q1, H5.getS2 H5.kE H5.hE), (-16, H5_mu_q0, H5.getS1 H5.kE H5.hE), (-24, H5_mu_q0, H5.getS12 H5.kE H5.hE), (-9, H5_mu_q0, H5.getS2 H5.kE H5.hE)] = true := by decide +kernel

theorem H5_mu : 16 * H5.getS1 codeConst H5_mu_h1.cast + 24 * H5.getS12 codeConst H5_mu_h1.cast + 9 * H5.getS2 codeConst H5_mu_h1.cast ≠ 16 * H5.getS1 codeConst H5_mu_h0.cast + 24 * H5.getS12 codeConst H5_mu_h0.cast + 9 * H5.getS2 codeConst H5_mu_h0.cast := by
  have p0 : H5.pt codeConst H5_mu_h0.cast = H5_mu_q0.map (↑) := by
    simp only [H5.pt, H5_mu_q0, H5_mu_h0, witQ, codeConst, codeConstQ, HMem.cast, List.map_cons, List.map_nil, List.getD_cons_zero, List.getD_cons_succ] <;> norm_num
  have p1 : H5.pt codeConst H5_mu_h1.cast = H5_mu_q1.map (↑) := by
    simp only [H5.pt, H5_mu_q1, H5_mu_h1, witQ, codeConst, codeConstQ, HMem.cast, List.map_cons, List.map_nil, List.getD_cons_zero, List.getD_cons_succ] <;> norm_num
  have h := nonzero_sound (fun _ => 0) H5_mu_differs
  simp only [sumR] at h
  rw [← value_at (P := H5.pt) (H5.linkS1 _) codeConst _ _ p1, ← value_at (P := H5.pt) (H5.linkS12 _) codeConst _ _ p1, ← value_at (P := H5.pt) (H5.linkS2 _) codeConst _ _ p1, ← value_at (P := H5.pt) (H5.linkS1 _) codeConst _ _ p0, ← value_at (P := H5.pt) (H5.linkS12 _) codeConst _ _ p0, ← value_at (P := H5.pt) (H5.linkS2 _) codeConst _ _ p0] at h
  intro e
  apply h
  push_cast
  linarith

def H5g1_mu_q0 : List ℚ := [3/5, 3/4, 1, 1, 1, 1, 1, 0, 1, 1, 1, 1, 0, 0, 1, 0, 0, 0, 0, 0, 0, 0, 0, codeConstQ.getD 0 0, codeConstQ.getD 1 0, codeConstQ.getD 2 0, codeConstQ.getD 3 0, codeConstQ.getD 5 0, codeConstQ.getD 6 0, codeConstQ.getD 7 0, codeConstQ.getD 8 0]
/-- `H5g1` at two values of `μ` -/
def H5g1_mu_h0 : HMem ℚ := { witQ with oneLoopFlag := 1, MuSUSY := 0 }
def H5g1_mu_q1 : List ℚ := [3/5, 3/4, 1, 1, 1, 1, 1, 0, 1, 1, 1, 1, 0, 0, 1, 0, 0, 0, 0, 1, 0, 0, 0, codeConstQ.getD 0 0, codeConstQ.getD 1 0, codeConstQ.getD 2 0, codeConstQ.getD 3 0, codeConstQ.getD 5 0, codeConstQ.getD 6 0, codeConstQ.getD 7 0, codeConstQ.getD 8 0]
/-- `H5g1` at two values of `μ` -/
def H5g1_mu_h1 : HMem ℚ := { witQ with oneLoopFlag := 1, MuSUSY := 1 }

theorem H5g1_mu_differs : nonzero [(16, H5g1_mu_q1, H5g1.getS1 H5g1.kE H5g1.hE), (24, H5g1_mu_q1, H5g1.getS12 H5g1.kE H5g1.hE), (9, H5g1_mu_q1, H5g1.getS2 H5g1.kE H5g1.hE), (-16, H5g1_mu_q0, H5g1.getS1 H5g1.kE H5g1.hE), (-24, H5g1_mu_q0, H5g1.getS12 H5g1.kE H5g1.hE), (-9, H5g1_mu_q0, H5g1.getS2 H5g1.kE H5g1.hE)] = true := by decide +kernel

theorem H5g1_mu : 16 * H5g1.getS1 codeConst H5g1_mu_h1.cast + 24 * H5g1.getS12 codeConst H5g1_mu_h1.cast + 9 * H5g1.getS2 codeConst H5g1_mu_h1.cast ≠ 16 * H5g1.getS1 codeConst H5g1_mu_h0.cast + 24 * H5g1.getS12 codeConst H5g1_mu_h0.cast + 9 * H5g1.getS2 codeConst H5g1_mu_h0.cast := by
  have p0 : H5g1.pt codeConst H5g1_mu_h0.cast = H5g1_mu_q0.map (↑) := by
    simp only [H5g1.pt, H5g1_mu_q0, H5g1_mu_h0, witQ, codeConst, codeConstQ, HMem.cast, List.map_cons, List.map_nil, List.getD_cons_zero, List.getD_cons_succ] <;> norm_num
  have p1 : H5g1.pt codeConst H5g1_mu_h1.cast = H5g1_mu_q1.map (↑) := by
    simp only [H5g1.pt, H5g1_mu_q1, H5g1_mu_h1, witQ, codeConst, codeConstQ, HMem.cast, List.map_cons, List.map_nil, List.getD_cons_zero, List.getD_cons_succ] <;> norm_num
  have h := nonzero_sound (fun _ => 0) H5g1_mu_differs
  simp only [sumR] at h
  rw [← value_at (P := H5g1.pt) (H5g1.linkS1 _) codeConst _ _ p1, ← value_at (P := H5g1.pt) (H5g1.linkS12 _) codeConst _ _ p1, ← value_at (P := H5g1.pt) (H5g1.linkS2 _) codeConst _ _ p1, ← value_at (P := H5g1.pt) (H5g1.linkS1 _) codeConst _ _ p0, ← value_at (P := H5g1.pt) (H5g1.linkS12 _) codeConst _ _ p0, ← value_at (P := H5g1.pt) (H5g1.linkS2 _) codeConst _ _ p0] at h
  intro e
  apply h
  push_cast
  linarith

def H6_mu_q0 : List ℚ := [3/5, 3/4, 1, 1, 1, 1, 1, 1, 1, 1, 0, 1, 0, 1, 0, 0, 0, 0, 0, 0, 0, 0, 0, 1, codeConstQ.getD 0 0, codeConstQ.getD 1 0, codeConstQ.getD 2 0, codeConstQ.getD 3 0, codeConstQ.getD 4 0, codeConstQ.getD 5 0, codeConstQ.getD 6 0, codeConstQ.getD 7 0, codeConstQ.getD 8 0]
/-- `H6` at two values of `μ` -/
def H6_mu_h0 : HMem ℚ := { witQ with twoLoopFlag := 1, Dmglst2 := 1, MuSUSY := 0 }
def H6_mu_q1 : List ℚ := [3/5, 3/4, 1, 1, 1, 1, 1, 1, 1, 1, 0, 1, 0, 1, 0, 0, 0, 0, 1, 0, 0, 0, 0, 1, codeConstQ.getD 0 0, codeConstQ.getD 1 0, codeConstQ.getD 2 0, codeConstQ.getD 3 0, codeConstQ.getD 4 0, codeConstQ.getD 5 0, codeConstQ.getD 6 0, codeConstQ.getD 7 0, codeConstQ.getD 8 0]
/-- `H6` at two values of `μ` -/
def H6_mu_h1 : HMem ℚ := { witQ with twoLoopFlag := 1, Dmglst2 := 1, MuSUSY := 1 }

theorem H6_mu_differs : nonzero [(16, H6_mu_q1, H6.getS1 H6.kE H6.hE), (24, H6_mu_q1, H6.getS12 H6.kE H6.hE), (9, H6_mu_q1, H6.getS2 H6.kE H6.hE), (-16, H6_mu_q0, H6.getS1 H6.kE H6.hE), (-24, H6_mu_q0, H6.getS12 H6.kE H6.hE), (-9, H6_mu_q0, H6.getS2 H6.kE H6.hE)] = true := by decide +kernel

theorem H6_mu : 16 * H6.getS1 codeConst H6_mu_h1.cast + 24 * H6.getS12 codeConst H6_mu_h1.cast + 9 * H6.getS2 codeConst H6_mu_h1.cast ≠ 16 * H6.getS1 codeConst H6_mu_h0.cast + 24 * H6.getS12 codeConst H6_mu_h0.cast + 9 * H6.getS2 codeConst H6_mu_h0.cast := by
  have p0 : H6.pt codeConst H6_mu_h0.cast = H6_mu_q0.map (↑) := by
    simp only [H6.pt, H6_mu_q0, H6_mu_h0, witQ, codeConst, codeConstQ, HMem.cast, List.map_cons, List.map_nil, List.getD_cons_zero, List.getD_cons_succ] <;> norm_num
  have p1 : H6.pt codeConst H6_mu_h1.cast = H6_mu_q1.map (↑) := by
    simp only [H6.pt, H6_mu_q1, H6_mu_h1, witQ, codeConst, codeConstQ, HMem.cast, List.map_cons, List.map_nil, List.getD_cons_zero, List.getD_cons_succ] <;> norm_num
  have h := nonzero_sound (fun _ => 0) H6_mu_differs
  simp only [sumR] at h
  rw [← value_at (P := H6.pt) (H6.linkS1 _) codeConst _ _ p1, ← value_at (P := H6.pt) (H6.linkS12 _) codeConst _ _ p1, ← value_at (P := H6.pt) (H6.linkS2 _) codeConst _ _ p1, ← value_at (P := H6.pt) (H6.linkS1 _) codeConst _ _ p0, ← value_at (P := H6.pt) (H6.linkS12 _) codeConst _ _ p0, ← value_at (P := H6.pt) (H6.linkS2 _) codeConst _ _ p0] at h
  intro e
  apply h
  push_cast
  linarith

def H6bq22g_mu_q0 : List ℚ := [3/5, 3/4, 1, 1, 1, 1, 1, 1, 1, 1, 1, 1, 0, 0, 1, 1, 0, 0, 0, 0, 0, 0, 0, codeConstQ.getD 0 0, codeConstQ.getD 1 0, codeConstQ.getD 2 0, codeConstQ.getD 3 0, codeConstQ.getD 4 0, codeConstQ.getD 5 0, codeConstQ.getD 6 0, codeConstQ.getD 7 0, codeConstQ.getD 8 0]
/-- `H6bq22g` at two values of `μ` -/
def H6bq22g_mu_h0 : HMem ℚ := { witQ with threeLoopFlag := 1, Dmsqst2 := 1, Dmglst2 := 1, MuSUSY := 0 }
def H6bq22g_mu_q1 : List ℚ := [3/5, 3/4, 1, 1, 1, 1, 1, 1, 1, 1, 1, 1, 0, 0, 1, 1, 0, 0, 0, 1, 0, 0, 0, codeConstQ.getD 0 0, codeConstQ.getD 1 0, codeConstQ.getD 2 0, codeConstQ.getD 3 0, codeConstQ.getD 4 0, codeConstQ.getD 5 0, codeConstQ.getD 6 0, codeConstQ.getD 7 0, codeConstQ.getD 8 0]
/-- `H6bq22g` at two values of `μ` -/
def H6bq22g_mu_h1 : HMem ℚ := { witQ with threeLoopFlag := 1, Dmsqst2 := 1, Dmglst2 := 1, MuSUSY := 1 }

theorem H6bq22g_mu_differs : nonzero [(16, H6bq22g_mu_q1, H6bq22g.getS1 H6bq22g.kE H6bq22g.hE), (24, H6bq22g_mu_q1, H6bq22g.getS12 H6bq22g.kE H6bq22g.hE), (9, H6bq22g_mu_q1, H6bq22g.getS2 H6bq22g.kE H6bq22g.hE), (-16, H6bq22g_mu_q0, H6bq22g.getS1 H6bq22g.kE H6bq22g.hE), (-24, H6bq22g_mu_q0, H6bq22g.getS12 H6bq22g.kE H6bq22g.hE), (-9, H6bq22g_mu_q0, H6bq22g.getS2 H6bq22g.kE H6bq22g.hE)] = true := by decide +kernel

theorem H6bq22g_mu : 16 * H6bq22g.getS1 codeConst H6bq22g_mu_h1.cast + 24 * H6bq22g.getS12 codeConst H6bq22g_mu_h1.cast + 9 * H6bq22g.getS2 codeConst H6bq22g_mu_h1.cast ≠ 16 * H6bq22g.getS1 codeConst H6bq22g_mu_h0.cast + 24 * H6bq22g.getS12 codeConst H6bq22g_mu_h0.cast + 9 * H6bq22g.getS2 codeConst H6bq22g_mu_h0.cast := by
  have p0 : H6bq22g.pt codeConst H6bq22g_mu_h0.cast = H6bq22g_mu_q0.map (↑) := by
    simp only [H6bq22g.pt, H6bq22g_mu_q0, H6bq22g_mu_h0, witQ, codeConst, codeConstQ, HMem.cast, List.map_cons, List.map_nil, List.getD_cons_zero, List.getD_cons_succ] <;> norm_num
  have p1 : H6bq22g.pt codeConst H6bq22g_mu_h1.cast = H6bq22g_mu_q1.map (↑) := by
    simp only [H6bq22g.pt, H6bq22g_mu_q1, H6bq22g_mu_h1, witQ, codeConst, codeConstQ, HMem.cast, List.map_cons, List.map_nil, List.getD_cons_zero, List.getD_cons_succ] <;> norm_num
  have h := nonzero_sound (fun _ => 0) H6bq22g_mu_differs
  simp only [sumR] at h
  rw [← value_at (P := H6bq22g.pt) (H6bq22g.linkS1 _) codeConst _ _ p1, ← value_at (P := H6bq22g.pt) (H6bq22g.linkS12 _) codeConst _ _ p1, ← value_at (P := H6bq22g.pt) (H6bq22g.linkS2 _) codeConst _ _ p1, ← value_at (P := H6bq22g.pt) (H6bq22g.linkS1 _) codeConst _ _ p0, ← value_at (P := H6bq22g.pt) (H6bq22g.linkS12 _) codeConst _ _ p0, ← value_at (P := H6bq22g.pt) (H6bq22g.linkS2 _) codeConst _ _ p0] at h
  intro e
  apply h
  push_cast
  linarith

def H6_mu0_q0 : List ℚ := [3/5, 3/4, 1, 1, 1, 1, 1, 1, 1, 1, 0, 1, 0, 1, 0, 0, 0, 0, 0, 0, 0, 0, 0, 1, codeConstQ.getD 0 0, codeConstQ.getD 1 0, codeConstQ.getD 2 0, codeConstQ.getD 3 0, codeConstQ.getD 4 0, codeConstQ.getD 5 0, codeConstQ.getD 6 0, codeConstQ.getD 7 0, codeConstQ.getD 8 0]
/-- `H6` at `μ = 0` -/
def H6_mu0_h0 : HMem ℚ := { witQ with twoLoopFlag := 1, Dmglst2 := 1, MuSUSY := 0 }

theorem H6_mu0_differs : nonzero [(1, H6_mu0_q0, H6.getS1 H6.kE H6.hE)] = true := by decide +kernel

theorem H6_mu0 : H6.getS1 codeConst H6_mu0_h0.cast ≠ 0 := by
  have p0 : H6.pt codeConst H6_mu0_h0.cast = H6_mu0_q0.map (↑) := by
    simp only [H6.pt, H6_mu0_q0, H6_mu0_h0, witQ, codeConst, codeConstQ, HMem.cast, List.map_cons, List.map_nil, List.getD_cons_zero, List.getD_cons_succ] <;> norm_num
  have h := nonzero_sound (fun _ => 0) H6_mu0_differs
  simp only [sumR] at h
  rw [← value_at (P := H6.pt) (H6.linkS1 _) codeConst _ _ p0] at h
  intro e
  apply h
  push_cast
  linarith

def H6b_mu0_q0 : List ℚ := [3/5, 3/4, 1, 1, 1, 1, 1, 1, 1, 1, 1, 0, 0, 1, 1, 0, 0, 0, 0, 0, 0, 0, codeConstQ.getD 0 0, codeConstQ.getD 1 0, codeConstQ.getD 2 0, codeConstQ.getD 3 0, codeConstQ.getD 4 0, codeConstQ.getD 5 0, codeConstQ.getD 6 0, codeConstQ.getD 7 0, codeConstQ.getD 8 0]
/-- `H6b` at `μ = 0` -/
def H6b_mu0_h0 : HMem ℚ := { witQ with threeLoopFlag := 1, Dmglst2 := 1, Dmsqst2 := 1, MuSUSY := 0 }

theorem H6b_mu0_differs : nonzero [(1, H6b_mu0_q0, H6b.getS1 H6b.kE H6b.hE)] = true := by decide +kernel

theorem H6b_mu0 : H6b.getS1 codeConst H6b_mu0_h0.cast ≠ 0 := by
  have p0 : H6b.pt codeConst H6b_mu0_h0.cast = H6b_mu0_q0.map (↑) := by
    simp only [H6b.pt, H6b_mu0_q0, H6b_mu0_h0, witQ, codeConst, codeConstQ, HMem.cast, List.map_cons, List.map_nil, List.getD_cons_zero, List.getD_cons_succ] <;> norm_num
  have h := nonzero_sound (fun _ => 0) H6b_mu0_differs
  simp only [sumR] at h
  rw [← value_at (P := H6b.pt) (H6b.linkS1 _) codeConst _ _ p0] at h
  intro e
  apply h
  push_cast
  linarith

def H3_s12_q0 : List ℚ := [3/5, 3/4, 1, 1, 1, 1, 0, 1, 0, 1, 0, 0, 1, 1, 1, 0, 0, 1, 0, 0, 1, 0, 0, 0, codeConstQ.getD 0 0, codeConstQ.getD 1 0]
/-- `H3` with the flag `xDmst12` off, as a function of `Dmst12` -/
def H3_s12_h0 : HMem ℚ := { witQ with oneLoopFlag := 1, MuSUSY := 1, xDmst12 := 0, Dmst12 := 0 }
def H3_s12_q1 : List ℚ := [3/5, 3/4, 1, 1, 1, 1, 0, 1, 0, 1, 1, 0, 1, 1, 1, 0, 0, 1, 0, 0, 1, 0, 0, 0, codeConstQ.getD 0 0, codeConstQ.getD 1 0]
/-- `H3` with the flag `xDmst12` off, as a function of `Dmst12` -/
def H3_s12_h1 : HMem ℚ := { witQ with oneLoopFlag := 1, MuSUSY := 1, xDmst12 := 0, Dmst12 := 1 }
def H3_s12_q2 : List ℚ := [3/5, 3/4, 1, 1, 1, 1, 0, 1, 0, 1, 2, 0, 1, 1, 1, 0, 0, 1, 0, 0, 1, 0, 0, 0, codeConstQ.getD 0 0, codeConstQ.getD 1 0]
/-- `H3` with the flag `xDmst12` off, as a function of `Dmst12` -/
def H3_s12_h2 : HMem ℚ := { witQ with oneLoopFlag := 1, MuSUSY := 1, xDmst12 := 0, Dmst12 := 2 }
def H3_s12_q3 : List ℚ := [3/5, 3/4, 1, 1, 1, 1, 0, 1, 0, 1, 3, 0, 1, 1, 1, 0, 0, 1, 0, 0, 1, 0, 0, 0, codeConstQ.getD 0 0, codeConstQ.getD 1 0]
/-- `H3` with the flag `xDmst12` off, as a function of `Dmst12` -/
def H3_s12_h3 : HMem ℚ := { witQ with oneLoopFlag := 1, MuSUSY := 1, xDmst12 := 0, Dmst12 := 3 }

theorem H3_s12_differs : nonzero [(1, H3_s12_q3, H3.getS12 H3.kE H3.hE), (-3, H3_s12_q2, H3.getS12 H3.kE H3.hE), (3, H3_s12_q1, H3.getS12 H3.kE H3.hE), (-1, H3_s12_q0, H3.getS12 H3.kE H3.hE)] = true := by decide +kernel

theorem H3_s12 : H3.getS12 codeConst H3_s12_h3.cast - 3 * H3.getS12 codeConst H3_s12_h2.cast + 3 * H3.getS12 codeConst H3_s12_h1.cast - H3.getS12 codeConst H3_s12_h0.cast ≠ 0 := by
  have p0 : H3.pt codeConst H3_s12_h0.cast = H3_s12_q0.map (↑) := by
    simp only [H3.pt, H3_s12_q0, H3_s12_h0, witQ, codeConst, codeConstQ, HMem.cast, List.map_cons, List.map_nil, List.getD_cons_zero, List.getD_cons_succ] <;> norm_num
  have p1 : H3.pt codeConst H3_s12_h1.cast = H3_s12_q1.map (↑) := by
    simp only [H3.pt, H3_s12_q1, H3_s12_h1, witQ, codeConst, codeConstQ, HMem.cast, List.map_cons, List.map_nil, List.getD_cons_zero, List.getD_cons_succ] <;> norm_num
  have p2 : H3.pt codeConst H3_s12_h2.cast = H3_s12_q2.map (↑) := by
    simp only [H3.pt, H3_s12_q2, H3_s12_h2, witQ, codeConst, codeConstQ, HMem.cast, List.map_cons, List.map_nil, List.getD_cons_zero, List.getD_cons_succ] <;> norm_num
  have p3 : H3.pt codeConst H3_s12_h3.cast = H3_s12_q3.map (↑) := by
    simp only [H3.pt, H3_s12_q3, H3_s12_h3, witQ, codeConst, codeConstQ, HMem.cast, List.map_cons, List.map_nil, List.getD_cons_zero, List.getD_cons_succ] <;> norm_num
  have h := nonzero_sound (fun _ => 0) H3_s12_differs
  simp only [sumR] at h
  rw [← value_at (P := H3.pt) (H3.linkS12 _) codeConst _ _ p3, ← value_at (P := H3.pt) (H3.linkS12 _) codeConst _ _ p2, ← value_at (P := H3.pt) (H3.linkS12 _) codeConst _ _ p1, ← value_at (P := H3.pt) (H3.linkS12 _) codeConst _ _ p0] at h
  intro e
  apply h
  push_cast
  linarith

def H32q2g_s12_q0 : List ℚ := [3/5, 3/4, 1, 1, 0, 1, 0, 1, 0, 0, 1, 1, 1, 0, 0, 1, 0, 0, 1, 0, 0, 0, codeConstQ.getD 0 0, codeConstQ.getD 1 0]
/-- `H32q2g` with the flag `xDmst12` off, as a function of `Dmst12` -/
def H32q2g_s12_h0 : HMem ℚ := { witQ with oneLoopFlag := 1, MuSUSY := 1, xDmst12 := 0, Dmst12 := 0 }
def H32q2g_s12_q1 : List ℚ := [3/5, 3/4, 1, 1, 0, 1, 0, 1, 1, 0, 1, 1, 1, 0, 0, 1, 0, 0, 1, 0, 0, 0, codeConstQ.getD 0 0, codeConstQ.getD 1 0]
/-- `H32q2g` with the flag `xDmst12` off, as a function of `Dmst12` -/
def H32q2g_s12_h1 : HMem ℚ := { witQ with oneLoopFlag := 1, MuSUSY := 1, xDmst12 := 0, Dmst12 := 1 }
def H32q2g_s12_q2 : List ℚ := [3/5, 3/4, 1, 1, 0, 1, 0, 1, 2, 0, 1, 1, 1, 0, 0, 1, 0, 0, 1, 0, 0, 0, codeConstQ.getD 0 0, codeConstQ.getD 1 0]
/-- `H32q2g` with the flag `xDmst12` off, as a function of `Dmst12` -/
def H32q2g_s12_h2 : HMem ℚ := { witQ with oneLoopFlag := 1, MuSUSY := 1, xDmst12 := 0, Dmst12 := 2 }
def H32q2g_s12_q3 : List ℚ := [3/5, 3/4, 1, 1, 0, 1, 0, 1, 3, 0, 1, 1, 1, 0, 0, 1, 0, 0, 1, 0, 0, 0, codeConstQ.getD 0 0, codeConstQ.getD 1 0]
/-- `H32q2g` with the flag `xDmst12` off, as a function of `Dmst12` -/
def H32q2g_s12_h3 : HMem ℚ := { witQ with oneLoopFlag := 1, MuSUSY := 1, xDmst12 := 0, Dmst12 := 3 }

theorem H32q2g_s12_differs : nonzero [(1, H32q2g_s12_q3, H32q2g.getS12 H32q2g.kE H32q2g.hE), (-3, H32q2g_s12_q2, H32q2g.getS12 H32q2g.kE H32q2g.hE), (3, H32q2g_s12_q1, H32q2g.getS12 H32q2g.kE H32q2g.hE), (-1, H32q2g_s12_q0, H32q2g.getS12 H32q2g.kE H32q2g.hE)] = true := by decide +kernel

theorem H32q2g_s12 : H32q2g.getS12 codeConst H32q2g_s12_h3.cast - 3 * H32q2g.getS12 codeConst H32q2g_s12_h2.cast + 3 * H32q2g.getS12 codeConst H32q2g_s12_h1.cast - H32q2g.getS12 codeConst H32q2g_s12_h0.cast ≠ 0 := by
  have p0 : H32q2g.pt codeConst H32q2g_s12_h0.cast = H32q2g_s12_q0.map (↑) := by
    simp only [H32q2g.pt, H32q2g_s12_q0, H32q2g_s12_h0, witQ, codeConst, codeConstQ, HMem.cast, List.map_cons, List.map_nil, List.getD_cons_zero, List.getD_cons_succ] <;> norm_num
  have p1 : H32q2g.pt codeConst H32q2g_s12_h1.cast = H32q2g_s12_q1.map (↑) := by
    simp only [H32q2g.pt, H32q2g_s12_q1, H32q2g_s12_h1, witQ, codeConst, codeConstQ, HMem.cast, List.map_cons, List.map_nil, List.getD_cons_zero, List.getD_cons_succ] <;> norm_num
  have p2 : H32q2g.pt codeConst H32q2g_s12_h2.cast = H32q2g_s12_q2.map (↑) := by
    simp only [H32q2g.pt, H32q2g_s12_q2, H32q2g_s12_h2, witQ, codeConst, codeConstQ, HMem.cast, List.map_cons, List.map_nil, List.getD_cons_zero, List.getD_cons_succ] <;> norm_num
  have p3 : H32q2g.pt codeConst H32q2g_s12_h3.cast = H32q2g_s12_q3.map (↑) := by
    simp only [H32q2g.pt, H32q2g_s12_q3, H32q2g_s12_h3, witQ, codeConst, codeConstQ, HMem.cast, List.map_cons, List.map_nil, List.getD_cons_zero, List.getD_cons_succ] <;> norm_num
  have h := nonzero_sound (fun _ => 0) H32q2g_s12_differs
  simp only [sumR] at h
  rw [← value_at (P := H32q2g.pt) (H32q2g.linkS12 _) codeConst _ _ p3, ← value_at (P := H32q2g.pt) (H32q2g.linkS12 _) codeConst _ _ p2, ← value_at (P := H32q2g.pt) (H32q2g.linkS12 _) codeConst _ _ p1, ← value_at (P := H32q2g.pt) (H32q2g.linkS12 _) codeConst _ _ p0] at h
  intro e
  apply h
  push_cast
  linarith

def H3q22g_s12_q0 : List ℚ := [3/5, 3/4, 1, 1, 1, 0, 1, 0, 1, 0, 0, 1, 1, 1, 0, 0, 1, 0, 0, 1, 0, 0, 0, codeConstQ.getD 0 0, codeConstQ.getD 1 0]
/-- `H3q22g` with the flag `xDmst12` off, as a function of `Dmst12` -/
def H3q22g_s12_h0 : HMem ℚ := { witQ with oneLoopFlag := 1, MuSUSY := 1, xDmst12 := 0, Dmst12 := 0 }
def H3q22g_s12_q1 : List ℚ := [3/5, 3/4, 1, 1, 1, 0, 1, 0, 1, 1, 0, 1, 1, 1, 0, 0, 1, 0, 0, 1, 0, 0, 0, codeConstQ.getD 0 0, codeConstQ.getD 1 0]
/-- `H3q22g` with the flag `xDmst12` off, as a function of `Dmst12` -/
def H3q22g_s12_h1 : HMem ℚ := { witQ with oneLoopFlag := 1, MuSUSY := 1, xDmst12 := 0, Dmst12 := 1 }
def H3q22g_s12_q2 : List ℚ := [3/5, 3/4, 1, 1, 1, 0, 1, 0, 1, 2, 0, 1, 1, 1, 0, 0, 1, 0, 0, 1, 0, 0, 0, codeConstQ.getD 0 0, codeConstQ.getD 1 0]
/-- `H3q22g` with the flag `xDmst12` off, as a function of `Dmst12` -/
def H3q22g_s12_h2 : HMem ℚ := { witQ with oneLoopFlag := 1, MuSUSY := 1, xDmst12 := 0, Dmst12 := 2 }
def H3q22g_s12_q3 : List ℚ := [3/5, 3/4, 1, 1, 1, 0, 1, 0, 1, 3, 0, 1, 1, 1, 0, 0, 1, 0, 0, 1, 0, 0, 0, codeConstQ.getD 0 0, codeConstQ.getD 1 0]
/-- `H3q22g` with the flag `xDmst12` off, as a function of `Dmst12` -/
def H3q22g_s12_h3 : HMem ℚ := { witQ with oneLoopFlag := 1, MuSUSY := 1, xDmst12 := 0, Dmst12 := 3 }

theorem H3q22g_s12_differs : nonzero [(1, H3q22g_s12_q3, H3q22g.getS12 H3q22g.kE H3q22g.hE), (-3, H3q22g_s12_q2, H3q22g.getS12 H3q22g.kE H3q22g.hE), (3, H3q22g_s12_q1, H3q22g.getS12 H3q22g.kE H3q22g.hE), (-1, H3q22g_s12_q0, H3q22g.getS12 H3q22g.kE H3q22g.hE)] = true := by decide +kernel

theorem H3q22g_s12 : H3q22g.getS12 codeConst H3q22g_s12_h3.cast - 3 * H3q22g.getS12 codeConst H3q22g_s12_h2.cast + 3 * H3q22g.getS12 codeConst H3q22g_s12_h1.cast - H3q22g.getS12 codeConst H3q22g_s12_h0.cast ≠ 0 := by
  have p0 : H3q22g.pt codeConst H3q22g_s12_h0.cast = H3q22g_s12_q0.map (↑) := by
    simp only [H3q22g.pt, H3q22g_s12_q0, H3q22g_s12_h0, witQ, codeConst, codeConstQ, HMem.cast, List.map_cons, List.map_nil, List.getD_cons_zero, List.getD_cons_succ] <;> norm_num
  have p1 : H3q22g.pt codeConst H3q22g_s12_h1.cast = H3q22g_s12_q1.map (↑) := by
    simp only [H3q22g.pt, H3q22g_s12_q1, H3q22g_s12_h1, witQ, codeConst, codeConstQ, HMem.cast, List.map_cons, List.map_nil, List.getD_cons_zero, List.getD_cons_succ] <;> norm_num
  have p2 : H3q22g.pt codeConst H3q22g_s12_h2.cast = H3q22g_s12_q2.map (↑) := by
    simp only [H3q22g.pt, H3q22g_s12_q2, H3q22g_s12_h2, witQ, codeConst, codeConstQ, HMem.cast, List.map_cons, List.map_nil, List.getD_cons_zero, List.getD_cons_succ] <;> norm_num
  have p3 : H3q22g.pt codeConst H3q22g_s12_h3.cast = H3q22g_s12_q3.map (↑) := by
    simp only [H3q22g.pt, H3q22g_s12_q3, H3q22g_s12_h3, witQ, codeConst, codeConstQ, HMem.cast, List.map_cons, List.map_nil, List.getD_cons_zero, List.getD_cons_succ] <;> norm_num
  have h := nonzero_sound (fun _ => 0) H3q22g_s12_differs
  simp only [sumR] at h
  rw [← value_at (P := H3q22g.pt) (H3q22g.linkS12 _) codeConst _ _ p3, ← value_at (P := H3q22g.pt) (H3q22g.linkS12 _) codeConst _ _ p2, ← value_at (P := H3q22g.pt) (H3q22g.linkS12 _) codeConst _ _ p1, ← value_at (P := H3q22g.pt) (H3q22g.linkS12 _) codeConst _ _ p0] at h
  intro e
  apply h
  push_cast
  linarith

def H6b_s12_q0 : List ℚ := [3/5, 3/4, 1, 1, 1, 0, 1, 0, 0, 1, 1, 0, 0, 1, 1, 0, 0, 0, 1, 0, 0, 1, codeConstQ.getD 0 0, codeConstQ.getD 1 0, codeConstQ.getD 2 0, codeConstQ.getD 3 0, codeConstQ.getD 4 0, codeConstQ.getD 5 0, codeConstQ.getD 6 0, codeConstQ.getD 7 0, codeConstQ.getD 8 0]
/-- `H6b` with the flag `xDmsqst2` off, as a function of `Dmsqst2` -/
def H6b_s12_h0 : HMem ℚ := { witQ with threeLoopFlag := 1, MuSUSY := 1, xDmsqst2 := 0, xDR2DRMOD := 1, Dmsqst2 := 0 }
def H6b_s12_q1 : List ℚ := [3/5, 3/4, 1, 1, 1, 0, 1, 1, 0, 1, 1, 0, 0, 1, 1, 0, 0, 0, 1, 0, 0, 1, codeConstQ.getD 0 0, codeConstQ.getD 1 0, codeConstQ.getD 2 0, codeConstQ.getD 3 0, codeConstQ.getD 4 0, codeConstQ.getD 5 0, codeConstQ.getD 6 0, codeConstQ.getD 7 0, codeConstQ.getD 8 0]
/-- `H6b` with the flag `xDmsqst2` off, as a function of `Dmsqst2` -/
def H6b_s12_h1 : HMem ℚ := { witQ with threeLoopFlag := 1, MuSUSY := 1, xDmsqst2 := 0, xDR2DRMOD := 1, Dmsqst2 := 1 }
def H6b_s12_q2 : List ℚ := [3/5, 3/4, 1, 1, 1, 0, 1, 2, 0, 1, 1, 0, 0, 1, 1, 0, 0, 0, 1, 0, 0, 1, codeConstQ.getD 0 0, codeConstQ.getD 1 0, codeConstQ.getD 2 0, codeConstQ.getD 3 0, codeConstQ.getD 4 0, codeConstQ.getD 5 0, codeConstQ.getD 6 0, codeConstQ.getD 7 0, codeConstQ.getD 8 0]
/-- `H6b` with the flag `xDmsqst2` off, as a function of `Dmsqst2` -/
def H6b_s12_h2 : HMem ℚ := { witQ with threeLoopFlag := 1, MuSUSY := 1, xDmsqst2 := 0, xDR2DRMOD := 1, Dmsqst2 := 2 }

theorem H6b_s12_differs : nonzero [(1, H6b_s12_q2, H6b.getS12 H6b.kE H6b.hE), (-2, H6b_s12_q1, H6b.getS12 H6b.kE H6b.hE), (1, H6b_s12_q0, H6b.getS12 H6b.kE H6b.hE)] = true := by decide +kernel

theorem H6b_s12 : H6b.getS12 codeConst H6b_s12_h2.cast - 2 * H6b.getS12 codeConst H6b_s12_h1.cast + H6b.getS12 codeConst H6b_s12_h0.cast ≠ 0 := by
  have p0 : H6b.pt codeConst H6b_s12_h0.cast = H6b_s12_q0.map (↑) := by
    simp only [H6b.pt, H6b_s12_q0, H6b_s12_h0, witQ, codeConst, codeConstQ, HMem.cast, List.map_cons, List.map_nil, List.getD_cons_zero, List.getD_cons_succ] <;> norm_num
  have p1 : H6b.pt codeConst H6b_s12_h1.cast = H6b_s12_q1.map (↑) := by
    simp only [H6b.pt, H6b_s12_q1, H6b_s12_h1, witQ, codeConst, codeConstQ, HMem.cast, List.map_cons, List.map_nil, List.getD_cons_zero, List.getD_cons_succ] <;> norm_num
  have p2 : H6b.pt codeConst H6b_s12_h2.cast = H6b_s12_q2.map (↑) := by
    simp only [H6b.pt, H6b_s12_q2, H6b_s12_h2, witQ, codeConst, codeConstQ, HMem.cast, List.map_cons, List.map_nil, List.getD_cons_zero, List.getD_cons_succ] <;> norm_num
  have h := nonzero_sound (fun _ => 0) H6b_s12_differs
  simp only [sumR] at h
  rw [← value_at (P := H6b.pt) (H6b.linkS12 _) codeConst _ _ p2, ← value_at (P := H6b.pt) (H6b.linkS12 _) codeConst _ _ p1, ← value_at (P := H6b.pt) (H6b.linkS12 _) codeConst _ _ p0] at h
  intro e
  apply h
  push_cast
  linarith

def H6b2qg2_s2_q0 : List ℚ := [3/5, 3/4, 1, 1, 1, 0, 1, 1, 1, 1, 1, 1, 0, 1, 1, 1, 0, 0, 0, 1, 0, 0, 0, codeConstQ.getD 0 0, codeConstQ.getD 1 0, codeConstQ.getD 2 0, codeConstQ.getD 3 0, codeConstQ.getD 4 0, codeConstQ.getD 5 0, codeConstQ.getD 6 0, codeConstQ.getD 7 0, codeConstQ.getD 8 0]
/-- `H6b2qg2` with the flag `xMst` off and on, for two values of `Mst1` -/
def H6b2qg2_s2_h0 : HMem ℚ := { witQ with threeLoopFlag := 1, twoLoopFlag := 1, MuSUSY := 1, Dmsqst2 := 1, Dmglst2 := 1, Mst1 := 1, xMst := 0 }
def H6b2qg2_s2_q1 : List ℚ := [3/5, 3/4, 1, 1, 1, 1, 1, 1, 1, 1, 1, 1, 0, 1, 1, 1, 0, 0, 0, 1, 0, 0, 0, codeConstQ.getD 0 0, codeConstQ.getD 1 0, codeConstQ.getD 2 0, codeConstQ.getD 3 0, codeConstQ.getD 4 0, codeConstQ.getD 5 0, codeConstQ.getD 6 0, codeConstQ.getD 7 0, codeConstQ.getD 8 0]
/-- `H6b2qg2` with the flag `xMst` off and on, for two values of `Mst1` -/
def H6b2qg2_s2_h1 : HMem ℚ := { witQ with threeLoopFlag := 1, twoLoopFlag := 1, MuSUSY := 1, Dmsqst2 := 1, Dmglst2 := 1, Mst1 := 1, xMst := 1 }
def H6b2qg2_s2_q2 : List ℚ := [3/5, 3/4, 1, 1, 2, 0, 1, 1, 1, 1, 1, 1, 0, 1, 1, 1, 0, 0, 0, 1, 0, 0, 0, codeConstQ.getD 0 0, codeConstQ.getD 1 0, codeConstQ.getD 2 0, codeConstQ.getD 3 0, codeConstQ.getD 4 0, codeConstQ.getD 5 0, codeConstQ.getD 6 0, codeConstQ.getD 7 0, codeConstQ.getD 8 0]
/-- `H6b2qg2` with the flag `xMst` off and on, for two values of `Mst1` -/
def H6b2qg2_s2_h2 : HMem ℚ := { witQ with threeLoopFlag := 1, twoLoopFlag := 1, MuSUSY := 1, Dmsqst2 := 1, Dmglst2 := 1, Mst1 := 2, xMst := 0 }
def H6b2qg2_s2_q3 : List ℚ := [3/5, 3/4, 1, 1, 2, 1, 1, 1, 1, 1, 1, 1, 0, 1, 1, 1, 0, 0, 0, 1, 0, 0, 0, codeConstQ.getD 0 0, codeConstQ.getD 1 0, codeConstQ.getD 2 0, codeConstQ.getD 3 0, codeConstQ.getD 4 0, codeConstQ.getD 5 0, codeConstQ.getD 6 0, codeConstQ.getD 7 0, codeConstQ.getD 8 0]
/-- `H6b2qg2` with the flag `xMst` off and on, for two values of `Mst1` -/
def H6b2qg2_s2_h3 : HMem ℚ := { witQ with threeLoopFlag := 1, twoLoopFlag := 1, MuSUSY := 1, Dmsqst2 := 1, Dmglst2 := 1, Mst1 := 2, xMst := 1 }

theorem H6b2qg2_s2_differs : nonzero [(1, H6b2qg2_s2_q3, H6b2qg2.getS2 H6b2qg2.kE H6b2qg2.hE), (-1, H6b2qg2_s2_q2, H6b2qg2.getS2 H6b2qg2.kE H6b2qg2.hE), (-64, H6b2qg2_s2_q1, H6b2qg2.getS2 H6b2qg2.kE H6b2qg2.hE), (64, H6b2qg2_s2_q0, H6b2qg2.getS2 H6b2qg2.kE H6b2qg2.hE)] = true := by decide +kernel

theorem H6b2qg2_s2 : H6b2qg2.getS2 codeConst H6b2qg2_s2_h3.cast - H6b2qg2.getS2 codeConst H6b2qg2_s2_h2.cast ≠ 2 ^ 6 * (H6b2qg2.getS2 codeConst H6b2qg2_s2_h1.cast - H6b2qg2.getS2 codeConst H6b2qg2_s2_h0.cast) := by
  have p0 : H6b2qg2.pt codeConst H6b2qg2_s2_h0.cast = H6b2qg2_s2_q0.map (↑) := by
    simp only [H6b2qg2.pt, H6b2qg2_s2_q0, H6b2qg2_s2_h0, witQ, codeConst, codeConstQ, HMem.cast, List.map_cons, List.map_nil, List.getD_cons_zero, List.getD_cons_succ] <;> norm_num
  have p1 : H6b2qg2.pt codeConst H6b2qg2_s2_h1.cast = H6b2qg2_s2_q1.map (↑) := by
    simp only [H6b2qg2.pt, H6b2qg2_s2_q1, H6b2qg2_s2_h1, witQ, codeConst, codeConstQ, HMem.cast, List.map_cons, List.map_nil, List.getD_cons_zero, List.getD_cons_succ] <;> norm_num
  have p2 : H6b2qg2.pt codeConst H6b2qg2_s2_h2.cast = H6b2qg2_s2_q2.map (↑) := by
    simp only [H6b2qg2.pt, H6b2qg2_s2_q2, H6b2qg2_s2_h2, witQ, codeConst, codeConstQ, HMem.cast, List.map_cons, List.map_nil, List.getD_cons_zero, List.getD_cons_succ] <;> norm_num
  have p3 : H6b2qg2.pt codeConst H6b2qg2_s2_h3.cast = H6b2qg2_s2_q3.map (↑) := by
    simp only [H6b2qg2.pt, H6b2qg2_s2_q3, H6b2qg2_s2_h3, witQ, codeConst, codeConstQ, HMem.cast, List.map_cons, List.map_nil, List.getD_cons_zero, List.getD_cons_succ] <;> norm_num
  have h := nonzero_sound (fun _ => 0) H6b2qg2_s2_differs
  simp only [sumR] at h
  rw [← value_at (P := H6b2qg2.pt) (H6b2qg2.linkS2 _) codeConst _ _ p3, ← value_at (P := H6b2qg2.pt) (H6b2qg2.linkS2 _) codeConst _ _ p2, ← value_at (P := H6b2qg2.pt) (H6b2qg2.linkS2 _) codeConst _ _ p1, ← value_at (P := H6b2qg2.pt) (H6b2qg2.linkS2 _) codeConst _ _ p0] at h
  intro e
  apply h
  push_cast
  linarith

def H9_s2_q0 : List ℚ := [3/5, 3/4, 1, 1, 0, 1, 0, 1, 1, 0, 1, 1, 0, 1, 1, 1, 0, 0, 0, 1, 0, 0, 0, 1, codeConstQ.getD 0 0, codeConstQ.getD 1 0]
/-- `H9` with the flag `xMgl` off, as a function of `Mgl` -/
def H9_s2_h0 : HMem ℚ := { witQ with threeLoopFlag := 1, twoLoopFlag := 1, MuSUSY := 1, xMgl := 0, Mgl := 1 }
def H9_s2_q1 : List ℚ := [3/5, 3/4, 1, 1, 0, 1, 0, 1, 2, 0, 1, 1, 0, 1, 1, 1, 0, 0, 0, 1, 0, 0, 0, 1, codeConstQ.getD 0 0, codeConstQ.getD 1 0]
/-- `H9` with the flag `xMgl` off, as a function of `Mgl` -/
def H9_s2_h1 : HMem ℚ := { witQ with threeLoopFlag := 1, twoLoopFlag := 1, MuSUSY := 1, xMgl := 0, Mgl := 2 }
def H9_s2_q2 : List ℚ := [3/5, 3/4, 1, 1, 0, 1, 0, 1, 3, 0, 1, 1, 0, 1, 1, 1, 0, 0, 0, 1, 0, 0, 0, 1, codeConstQ.getD 0 0, codeConstQ.getD 1 0]
/-- `H9` with the flag `xMgl` off, as a function of `Mgl` -/
def H9_s2_h2 : HMem ℚ := { witQ with threeLoopFlag := 1, twoLoopFlag := 1, MuSUSY := 1, xMgl := 0, Mgl := 3 }
def H9_s2_q3 : List ℚ := [3/5, 3/4, 1, 1, 0, 1, 0, 1, 4, 0, 1, 1, 0, 1, 1, 1, 0, 0, 0, 1, 0, 0, 0, 1, codeConstQ.getD 0 0, codeConstQ.getD 1 0]
/-- `H9` with the flag `xMgl` off, as a function of `Mgl` -/
def H9_s2_h3 : HMem ℚ := { witQ with threeLoopFlag := 1, twoLoopFlag := 1, MuSUSY := 1, xMgl := 0, Mgl := 4 }
def H9_s2_q4 : List ℚ := [3/5, 3/4, 1, 1, 0, 1, 0, 1, 5, 0, 1, 1, 0, 1, 1, 1, 0, 0, 0, 1, 0, 0, 0, 1, codeConstQ.getD 0 0, codeConstQ.getD 1 0]
/-- `H9` with the flag `xMgl` off, as a function of `Mgl` -/
def H9_s2_h4 : HMem ℚ := { witQ with threeLoopFlag := 1, twoLoopFlag := 1, MuSUSY := 1, xMgl := 0, Mgl := 5 }

theorem H9_s2_differs : nonzero [(1, H9_s2_q4, H9.getS2 H9.kE H9.hE), (-4, H9_s2_q3, H9.getS2 H9.kE H9.hE), (6, H9_s2_q2, H9.getS2 H9.kE H9.hE), (-4, H9_s2_q1, H9.getS2 H9.kE H9.hE), (1, H9_s2_q0, H9.getS2 H9.kE H9.hE)] = true := by decide +kernel

theorem H9_s2 : H9.getS2 codeConst H9_s2_h4.cast - 4 * H9.getS2 codeConst H9_s2_h3.cast + 6 * H9.getS2 codeConst H9_s2_h2.cast - 4 * H9.getS2 codeConst H9_s2_h1.cast + H9.getS2 codeConst H9_s2_h0.cast ≠ 0 := by
  have p0 : H9.pt codeConst H9_s2_h0.cast = H9_s2_q0.map (↑) := by
    simp only [H9.pt, H9_s2_q0, H9_s2_h0, witQ, codeConst, codeConstQ, HMem.cast, List.map_cons, List.map_nil, List.getD_cons_zero, List.getD_cons_succ] <;> norm_num
  have p1 : H9.pt codeConst H9_s2_h1.cast = H9_s2_q1.map (↑) := by
    simp only [H9.pt, H9_s2_q1, H9_s2_h1, witQ, codeConst, codeConstQ, HMem.cast, List.map_cons, List.map_nil, List.getD_cons_zero, List.getD_cons_succ] <;> norm_num
  have p2 : H9.pt codeConst H9_s2_h2.cast = H9_s2_q2.map (↑) := by
    simp only [H9.pt, H9_s2_q2, H9_s2_h2, witQ, codeConst, codeConstQ, HMem.cast, List.map_cons, List.map_nil, List.getD_cons_zero, List.getD_cons_succ] <;> norm_num
  have p3 : H9.pt codeConst H9_s2_h3.cast = H9_s2_q3.map (↑) := by
    simp only [H9.pt, H9_s2_q3, H9_s2_h3, witQ, codeConst, codeConstQ, HMem.cast, List.map_cons, List.map_nil, List.getD_cons_zero, List.getD_cons_succ] <;> norm_num
  have p4 : H9.pt codeConst H9_s2_h4.cast = H9_s2_q4.map (↑) := by
    simp only [H9.pt, H9_s2_q4, H9_s2_h4, witQ, codeConst, codeConstQ, HMem.cast, List.map_cons, List.map_nil, List.getD_cons_zero, List.getD_cons_succ] <;> norm_num
  have h := nonzero_sound (fun _ => 0) H9_s2_differs
  simp only [sumR] at h
  rw [← value_at (P := H9.pt) (H9.linkS2 _) codeConst _ _ p4, ← value_at (P := H9.pt) (H9.linkS2 _) codeConst _ _ p3, ← value_at (P := H9.pt) (H9.linkS2 _) codeConst _ _ p2, ← value_at (P := H9.pt) (H9.linkS2 _) codeConst _ _ p1, ← value_at (P := H9.pt) (H9.linkS2 _) codeConst _ _ p0] at h
  intro e
  apply h
  push_cast
  linarith

end Himalaya
