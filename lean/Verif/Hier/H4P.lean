import Verif.Hier.Spec
import Verif.Hier.H4

/-!
# Normal forms of the self energies of `H4`

Generated by tools/gen_hierp.py; the kernel computes the normal forms.
-/

set_option linter.unusedVariables false
set_option linter.unusedSimpArgs false
set_option maxRecDepth 100000

namespace Himalaya

namespace H4

open Laur
open Kron (E eval)

/-- the constants as variables of formulas -/
def kE : HConst E := {
  z2 := .var 20,
  z3 := .var 21,
  z4 := .bad,
  B4 := .bad,
  D3 := .bad,
  DN := .bad,
  OepS2 := .bad,
  S2 := .bad,
  T1ep := .bad }

/-- the members as variables of formulas -/
def hE : HMem E := {
  Al4p := .var 12,
  At := .var 4,
  Cbeta := .var 0,
  Sbeta := .var 13,
  Tbeta := .bad,
  Dmglst1 := .bad,
  Dmglst2 := .bad,
  Dmsqst1 := .bad,
  Dmsqst2 := .bad,
  Dmst12 := .bad,
  lmMt := .var 14,
  lmMst1 := .bad,
  lmMst2 := .bad,
  lmMsq := .var 15,
  lmMgl := .bad,
  lmMsusy := .var 6,
  Mt := .var 8,
  Mst1 := .bad,
  Mst2 := .bad,
  Msq := .var 2,
  Mgl := .bad,
  Msusy := .var 1,
  MuSUSY := .bad,
  s2t := .bad,
  shiftst1 := .var 16,
  shiftst2 := .var 17,
  shiftst3 := .var 18,
  xDR2DRMOD := .bad,
  x := .bad,
  xAt := .var 5,
  xDmglst1 := .bad,
  xDmglst2 := .bad,
  xDmsqst1 := .bad,
  xDmsqst2 := .bad,
  xDmst12 := .bad,
  xMst := .bad,
  xMsq := .var 3,
  xMgl := .bad,
  xMsusy := .var 19,
  xlmMsusy := .var 7,
  oneLoopFlag := .var 9,
  twoLoopFlag := .var 10,
  threeLoopFlag := .var 11 }

/-- the values of the variables -/
noncomputable def pt (k : HConst ℝ) (h : HMem ℝ) : List ℝ := [
  h.Cbeta, h.Msusy, h.Msq, h.xMsq, h.At, h.xAt, h.lmMsusy, h.xlmMsusy, h.Mt, h.oneLoopFlag, h.twoLoopFlag, h.threeLoopFlag,
  h.Al4p, h.Sbeta, h.lmMt, h.lmMsq, h.shiftst1, h.shiftst2, h.shiftst3, h.xMsusy, k.z2, k.z3]

/-- the denominators do not vanish -/
def reg (h : HMem ℝ) : Prop := h.Cbeta ≠ 0 ∧ h.Msusy ≠ 0 ∧ h.Msq ≠ 0

theorem nz (k : HConst ℝ) (h : HMem ℝ) (r : reg h) : NZ 3 (pt k h) :=
  ⟨r.1, r.2.1, r.2.2, trivial⟩

theorem len (k : HConst ℝ) (h : HMem ℝ) : (pt k h).length = 22 := rfl

/-- dimensions of the variables in units of mass -/
def ws : List (ℕ × ℕ) := [(1, 1), (2, 1), (4, 1), (8, 1)]

/-- variables that change sign with the top mass -/
def par : List (ℕ × ℕ) := [(8, 1)]

/-- conditions on the exponents of the monomials of `getS1` -/
def chkS1 (k : ℕ) : Bool :=
  Nat.beq (wtS k ws) 2052 &&
  (Nat.beq (Nat.mod (wtS k par) 2) 0 &&
  (tabN 1237940039285380274899124224 1099511627776 [550293209601, 551366952448, 552441741824] k &&
  (tabN 1099511627776 1048576 [525826] k)))

set_option maxHeartbeats 1000000 in
theorem checkS1 : checkB 22 3 chkS1 (getS1 kE hE) = true := by decide +kernel

theorem linkS1 (dl : ℝ → ℝ) (k : HConst ℝ) (h : HMem ℝ) :
    eval dl (fun i => (pt k h).getD i 0) (getS1 kE hE) = getS1 k h := by krfl

theorem normalS1 : Nonempty (Normal chkS1 22 3 pt getS1) := normal_of_check checkS1 len (linkS1 _)

theorem chkS1_0 (k : ℕ) (hk : chkS1 k = true) : (Nat.beq (wtS k ws) 2052) = true := by
  simp only [chkS1, Bool.and_eq_true] at hk
  exact  hk.1

theorem chkS1_1 (k : ℕ) (hk : chkS1 k = true) : (Nat.beq (Nat.mod (wtS k par) 2) 0) = true := by
  simp only [chkS1, Bool.and_eq_true] at hk
  exact  hk.2.1

theorem chkS1_2 (k : ℕ) (hk : chkS1 k = true) : (tabB [9, 10, 11, 12] [[513, 512, 512, 512], [512, 513, 512, 513], [512, 512, 513, 514]] k) = true := by
  simp only [chkS1, Bool.and_eq_true] at hk
  exact tabN_tabB (i := 9) (n := 4) (js := [0, 1, 2, 3]) (is := [9, 10, 11, 12]) (al' := [[513, 512, 512, 512], [512, 513, 512, 513], [512, 512, 513, 514]]) (by norm_num) (by norm_num) (by decide) rfl (by decide) hk.2.2.1

theorem chkS1_3 (k : ℕ) (hk : chkS1 k = true) : (tabB [5, 4] [[513, 514]] k) = true := by
  simp only [chkS1, Bool.and_eq_true] at hk
  exact tabN_tabB (i := 4) (n := 2) (js := [1, 0]) (is := [5, 4]) (al' := [[513, 514]]) (by norm_num) (by norm_num) (by decide) rfl (by decide) hk.2.2.2

theorem unitsS1 : Units reg getS1 := by
  obtain ⟨Q⟩ := normalS1
  refine Q.units reg ws (by decide) (fun k hk => Nat.eq_of_beq_eq_true (chkS1_0 k hk)) (fun k h l => ?_) nz
  simp [pt, ws, scaleS, HMem.rescale, zpow_one, zpow_zero, one_mul]

theorem mtSignS1 : MtSign reg getS1 := by
  obtain ⟨Q⟩ := normalS1
  refine Q.mtSign reg par (by decide) (by decide) (fun k hk => Nat.dvd_of_mod_eq_zero (Nat.eq_of_beq_eq_true (chkS1_1 k hk))) (fun k h => ?_) nz
  simp [pt, par, scaleS, HMem.flipMt, zpow_one, zpow_zero, one_mul]

theorem loopsS1 : Loops reg getS1 := by
  obtain ⟨Q⟩ := normalS1
  obtain ⟨C, hC⟩ := Q.tab _ _ chkS1_2
  refine loops_of_tab reg hC (fun k h f1 f2 f3 a r => nz k _ r) ⟨fun k h => ones (pt k h) [9, 10, 11, 12], fun k h f1 f2 f3 a => ?_⟩
  have e : ones (pt k (h.loops f1 f2 f3 a)) [9, 10, 11, 12] = ones (pt k h) [9, 10, 11, 12] := rfl
  simp only [sumTab, pw, e]
  simp [pt, HMem.loops]
  ring

theorem truncAtS1 : Truncates reg HMem.updAt [] 2 getS1 := by
  obtain ⟨Q⟩ := normalS1
  obtain ⟨C, hC⟩ := Q.tab _ _ chkS1_3
  exact truncates_of_tab hC rfl nz (by decide) (by decide) (fun _ _ _ _ => rfl) (fun _ _ _ _ => rfl) (fun _ _ _ _ => rfl)

/-- conditions on the exponents of the monomials of `getS2` -/
def chkS2 (k : ℕ) : Bool :=
  Nat.beq (wtS k ws) 2052 &&
  (Nat.beq (Nat.mod (wtS k par) 2) 0 &&
  (tabN 1237940039285380274899124224 1099511627776 [550293209601, 551366952448, 552441741824] k &&
  (tabN 1099511627776 1048576 [524800, 524801, 525826] k &&
  (tabN 1152921504606846976 1048576 [524800, 524801, 524802, 525827] k &&
  (tabB [19, 1] [[512, 510], [512, 511], [512, 512], [512, 513], [512, 514], [512, 515], [512, 516], [512, 517], [512, 518], [512, 519], [513, 520]] k &&
  (tabN 1048576 1048576 [524792, 524794, 524796, 524798, 524800, 525826] k))))))

set_option maxHeartbeats 1000000 in
theorem checkS2 : checkB 22 3 chkS2 (getS2 kE hE) = true := by decide +kernel

theorem linkS2 (dl : ℝ → ℝ) (k : HConst ℝ) (h : HMem ℝ) :
    eval dl (fun i => (pt k h).getD i 0) (getS2 kE hE) = getS2 k h := by krfl

theorem normalS2 : Nonempty (Normal chkS2 22 3 pt getS2) := normal_of_check checkS2 len (linkS2 _)

theorem chkS2_0 (k : ℕ) (hk : chkS2 k = true) : (Nat.beq (wtS k ws) 2052) = true := by
  simp only [chkS2, Bool.and_eq_true] at hk
  exact  hk.1

theorem chkS2_1 (k : ℕ) (hk : chkS2 k = true) : (Nat.beq (Nat.mod (wtS k par) 2) 0) = true := by
  simp only [chkS2, Bool.and_eq_true] at hk
  exact  hk.2.1

theorem chkS2_2 (k : ℕ) (hk : chkS2 k = true) : (tabB [9, 10, 11, 12] [[513, 512, 512, 512], [512, 513, 512, 513], [512, 512, 513, 514]] k) = true := by
  simp only [chkS2, Bool.and_eq_true] at hk
  exact tabN_tabB (i := 9) (n := 4) (js := [0, 1, 2, 3]) (is := [9, 10, 11, 12]) (al' := [[513, 512, 512, 512], [512, 513, 512, 513], [512, 512, 513, 514]]) (by norm_num) (by norm_num) (by decide) rfl (by decide) hk.2.2.1

theorem chkS2_3 (k : ℕ) (hk : chkS2 k = true) : (tabB [5, 4] [[512, 512], [512, 513], [513, 514]] k) = true := by
  simp only [chkS2, Bool.and_eq_true] at hk
  exact tabN_tabB (i := 4) (n := 2) (js := [1, 0]) (is := [5, 4]) (al' := [[512, 512], [512, 513], [513, 514]]) (by norm_num) (by norm_num) (by decide) rfl (by decide) hk.2.2.2.1

theorem chkS2_4 (k : ℕ) (hk : chkS2 k = true) : (tabB [7, 6] [[512, 512], [512, 513], [512, 514], [513, 515]] k) = true := by
  simp only [chkS2, Bool.and_eq_true] at hk
  exact tabN_tabB (i := 6) (n := 2) (js := [1, 0]) (is := [7, 6]) (al' := [[512, 512], [512, 513], [512, 514], [513, 515]]) (by norm_num) (by norm_num) (by decide) rfl (by decide) hk.2.2.2.2.1

theorem chkS2_5 (k : ℕ) (hk : chkS2 k = true) : (tabB [19, 1] [[512, 510], [512, 511], [512, 512], [512, 513], [512, 514], [512, 515], [512, 516], [512, 517], [512, 518], [512, 519], [513, 520]] k) = true := by
  simp only [chkS2, Bool.and_eq_true] at hk
  exact id hk.2.2.2.2.2.1

theorem chkS2_6 (k : ℕ) (hk : chkS2 k = true) : (tabB [3, 2] [[512, 504], [512, 506], [512, 508], [512, 510], [512, 512], [513, 514]] k) = true := by
  simp only [chkS2, Bool.and_eq_true] at hk
  exact tabN_tabB (i := 2) (n := 2) (js := [1, 0]) (is := [3, 2]) (al' := [[512, 504], [512, 506], [512, 508], [512, 510], [512, 512], [513, 514]]) (by norm_num) (by norm_num) (by decide) rfl (by decide) hk.2.2.2.2.2.2

theorem unitsS2 : Units reg getS2 := by
  obtain ⟨Q⟩ := normalS2
  refine Q.units reg ws (by decide) (fun k hk => Nat.eq_of_beq_eq_true (chkS2_0 k hk)) (fun k h l => ?_) nz
  simp [pt, ws, scaleS, HMem.rescale, zpow_one, zpow_zero, one_mul]

theorem mtSignS2 : MtSign reg getS2 := by
  obtain ⟨Q⟩ := normalS2
  refine Q.mtSign reg par (by decide) (by decide) (fun k hk => Nat.dvd_of_mod_eq_zero (Nat.eq_of_beq_eq_true (chkS2_1 k hk))) (fun k h => ?_) nz
  simp [pt, par, scaleS, HMem.flipMt, zpow_one, zpow_zero, one_mul]

theorem loopsS2 : Loops reg getS2 := by
  obtain ⟨Q⟩ := normalS2
  obtain ⟨C, hC⟩ := Q.tab _ _ chkS2_2
  refine loops_of_tab reg hC (fun k h f1 f2 f3 a r => nz k _ r) ⟨fun k h => ones (pt k h) [9, 10, 11, 12], fun k h f1 f2 f3 a => ?_⟩
  have e : ones (pt k (h.loops f1 f2 f3 a)) [9, 10, 11, 12] = ones (pt k h) [9, 10, 11, 12] := rfl
  simp only [sumTab, pw, e]
  simp [pt, HMem.loops]
  ring

theorem truncAtS2 : Truncates reg HMem.updAt [0, 1] 2 getS2 := by
  obtain ⟨Q⟩ := normalS2
  obtain ⟨C, hC⟩ := Q.tab _ _ chkS2_3
  exact truncates_of_tab hC rfl nz (by decide) (by decide) (fun _ _ _ _ => rfl) (fun _ _ _ _ => rfl) (fun _ _ _ _ => rfl)

theorem trunclmMsusyS2 : Truncates reg HMem.updlmMsusy [0, 1, 2] 3 getS2 := by
  obtain ⟨Q⟩ := normalS2
  obtain ⟨C, hC⟩ := Q.tab _ _ chkS2_4
  exact truncates_of_tab hC rfl nz (by decide) (by decide) (fun _ _ _ _ => rfl) (fun _ _ _ _ => rfl) (fun _ _ _ _ => rfl)

theorem truncMsusyS2 : Truncates reg HMem.updMsusy [-2, -1, 0, 1, 2, 3, 4, 5, 6, 7] 8 getS2 := by
  obtain ⟨Q⟩ := normalS2
  obtain ⟨C, hC⟩ := Q.tab _ _ chkS2_5
  exact truncates_of_tab hC rfl nz (by decide) (by decide) (fun _ _ _ _ => rfl) (fun _ _ _ _ => rfl) (fun _ _ _ _ => rfl)

theorem truncMsqS2 : Truncates reg HMem.updMsq [-8, -6, -4, -2, 0] 2 getS2 := by
  obtain ⟨Q⟩ := normalS2
  obtain ⟨C, hC⟩ := Q.tab _ _ chkS2_6
  exact truncates_of_tab hC rfl nz (by decide) (by decide) (fun _ _ _ _ => rfl) (fun _ _ _ _ => rfl) (fun _ _ _ _ => rfl)

/-- conditions on the exponents of the monomials of `getS12` -/
def chkS12 (k : ℕ) : Bool :=
  Nat.beq (wtS k ws) 2052 &&
  (Nat.beq (Nat.mod (wtS k par) 2) 0 &&
  (tabN 1237940039285380274899124224 1099511627776 [550293209601, 551366952448, 552441741824] k &&
  (tabN 1099511627776 1048576 [524801, 525826] k)))

set_option maxHeartbeats 1000000 in
theorem checkS12 : checkB 22 3 chkS12 (getS12 kE hE) = true := by decide +kernel

theorem linkS12 (dl : ℝ → ℝ) (k : HConst ℝ) (h : HMem ℝ) :
    eval dl (fun i => (pt k h).getD i 0) (getS12 kE hE) = getS12 k h := by krfl

theorem normalS12 : Nonempty (Normal chkS12 22 3 pt getS12) := normal_of_check checkS12 len (linkS12 _)

theorem chkS12_0 (k : ℕ) (hk : chkS12 k = true) : (Nat.beq (wtS k ws) 2052) = true := by
  simp only [chkS12, Bool.and_eq_true] at hk
  exact  hk.1

theorem chkS12_1 (k : ℕ) (hk : chkS12 k = true) : (Nat.beq (Nat.mod (wtS k par) 2) 0) = true := by
  simp only [chkS12, Bool.and_eq_true] at hk
  exact  hk.2.1

theorem chkS12_2 (k : ℕ) (hk : chkS12 k = true) : (tabB [9, 10, 11, 12] [[513, 512, 512, 512], [512, 513, 512, 513], [512, 512, 513, 514]] k) = true := by
  simp only [chkS12, Bool.and_eq_true] at hk
  exact tabN_tabB (i := 9) (n := 4) (js := [0, 1, 2, 3]) (is := [9, 10, 11, 12]) (al' := [[513, 512, 512, 512], [512, 513, 512, 513], [512, 512, 513, 514]]) (by norm_num) (by norm_num) (by decide) rfl (by decide) hk.2.2.1

theorem chkS12_3 (k : ℕ) (hk : chkS12 k = true) : (tabB [5, 4] [[512, 513], [513, 514]] k) = true := by
  simp only [chkS12, Bool.and_eq_true] at hk
  exact tabN_tabB (i := 4) (n := 2) (js := [1, 0]) (is := [5, 4]) (al' := [[512, 513], [513, 514]]) (by norm_num) (by norm_num) (by decide) rfl (by decide) hk.2.2.2

theorem unitsS12 : Units reg getS12 := by
  obtain ⟨Q⟩ := normalS12
  refine Q.units reg ws (by decide) (fun k hk => Nat.eq_of_beq_eq_true (chkS12_0 k hk)) (fun k h l => ?_) nz
  simp [pt, ws, scaleS, HMem.rescale, zpow_one, zpow_zero, one_mul]

theorem mtSignS12 : MtSign reg getS12 := by
  obtain ⟨Q⟩ := normalS12
  refine Q.mtSign reg par (by decide) (by decide) (fun k hk => Nat.dvd_of_mod_eq_zero (Nat.eq_of_beq_eq_true (chkS12_1 k hk))) (fun k h => ?_) nz
  simp [pt, par, scaleS, HMem.flipMt, zpow_one, zpow_zero, one_mul]

theorem loopsS12 : Loops reg getS12 := by
  obtain ⟨Q⟩ := normalS12
  obtain ⟨C, hC⟩ := Q.tab _ _ chkS12_2
  refine loops_of_tab reg hC (fun k h f1 f2 f3 a r => nz k _ r) ⟨fun k h => ones (pt k h) [9, 10, 11, 12], fun k h f1 f2 f3 a => ?_⟩
  have e : ones (pt k (h.loops f1 f2 f3 a)) [9, 10, 11, 12] = ones (pt k h) [9, 10, 11, 12] := rfl
  simp only [sumTab, pw, e]
  simp [pt, HMem.loops]
  ring

theorem truncAtS12 : Truncates reg HMem.updAt [1] 2 getS12 := by
  obtain ⟨Q⟩ := normalS12
  obtain ⟨C, hC⟩ := Q.tab _ _ chkS12_3
  exact truncates_of_tab hC rfl nz (by decide) (by decide) (fun _ _ _ _ => rfl) (fun _ _ _ _ => rfl) (fun _ _ _ _ => rfl)

end H4

end Himalaya
