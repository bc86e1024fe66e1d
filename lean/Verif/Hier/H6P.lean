import Verif.Hier.Spec
import Verif.Hier.H6
-- the next import only serialises the build (each of these modules needs several GB)
import Verif.Hier.H6bq2g2P

/-!
# Normal forms of the self energies of `H6`

Generated by tools/gen_hierp.py; the kernel computes the normal forms.
-/

set_option linter.unusedVariables false
set_option linter.unusedSimpArgs false
set_option maxRecDepth 100000

namespace Himalaya

namespace H6

open Laur
open Kron (E eval)

/-- the constants as variables of formulas -/
def kE : HConst E := {
  z2 := .var 24,
  z3 := .var 25,
  z4 := .var 26,
  B4 := .var 27,
  D3 := .var 28,
  DN := .var 29,
  OepS2 := .var 30,
  S2 := .var 31,
  T1ep := .var 32 }

/-- the members as variables of formulas -/
def hE : HMem E := {
  Al4p := .var 13,
  At := .bad,
  Cbeta := .bad,
  Sbeta := .var 0,
  Tbeta := .var 1,
  Dmglst1 := .bad,
  Dmglst2 := .var 6,
  Dmsqst1 := .bad,
  Dmsqst2 := .bad,
  Dmst12 := .bad,
  lmMt := .var 14,
  lmMst1 := .var 15,
  lmMst2 := .var 16,
  lmMsq := .var 17,
  lmMgl := .bad,
  lmMsusy := .bad,
  Mt := .var 8,
  Mst1 := .var 4,
  Mst2 := .var 2,
  Msq := .var 3,
  Mgl := .bad,
  Msusy := .bad,
  MuSUSY := .var 18,
  s2t := .var 9,
  shiftst1 := .var 19,
  shiftst2 := .var 20,
  shiftst3 := .var 21,
  xDR2DRMOD := .var 22,
  x := .bad,
  xAt := .bad,
  xDmglst1 := .bad,
  xDmglst2 := .var 7,
  xDmsqst1 := .bad,
  xDmsqst2 := .bad,
  xDmst12 := .bad,
  xMst := .var 5,
  xMsq := .var 23,
  xMgl := .bad,
  xMsusy := .bad,
  xlmMsusy := .bad,
  oneLoopFlag := .var 10,
  twoLoopFlag := .var 11,
  threeLoopFlag := .var 12 }

/-- the values of the variables -/
noncomputable def pt (k : HConst ℝ) (h : HMem ℝ) : List ℝ := [
  h.Sbeta, h.Tbeta, h.Mst2, h.Msq, h.Mst1, h.xMst, h.Dmglst2, h.xDmglst2, h.Mt, h.s2t, h.oneLoopFlag, h.twoLoopFlag,
  h.threeLoopFlag, h.Al4p, h.lmMt, h.lmMst1, h.lmMst2, h.lmMsq, h.MuSUSY, h.shiftst1, h.shiftst2, h.shiftst3, h.xDR2DRMOD,
  h.xMsq, k.z2, k.z3, k.z4, k.B4, k.D3, k.DN, k.OepS2, k.S2, k.T1ep]

/-- the denominators do not vanish -/
def reg (h : HMem ℝ) : Prop := h.Sbeta ≠ 0 ∧ h.Tbeta ≠ 0 ∧ h.Mst2 ≠ 0 ∧ h.Msq ≠ 0 ∧ h.Mst1 ≠ 0

theorem nz (k : HConst ℝ) (h : HMem ℝ) (r : reg h) : NZ 5 (pt k h) :=
  ⟨r.1, r.2.1, r.2.2.1, r.2.2.2.1, r.2.2.2.2, trivial⟩

theorem len (k : HConst ℝ) (h : HMem ℝ) : (pt k h).length = 33 := rfl

/-- dimensions of the variables in units of mass -/
def ws : List (ℕ × ℕ) := [(2, 1), (3, 1), (4, 1), (6, 1), (8, 1), (18, 1)]

/-- variables that change sign with the top mass -/
def par : List (ℕ × ℕ) := [(8, 1), (9, 1)]

/-- conditions on the exponents of the monomials of `getS1` -/
def chkS1 (k : ℕ) : Bool :=
  Nat.beq (wtS k ws) 3076 &&
  (Nat.beq (Nat.mod (wtS k par) 2) 0 &&
  (tabN 1267650600228229401496703205376 1099511627776 [550293209601, 551366952448, 552441741824] k &&
  (tabN 1152921504606846976 1048576 [524800, 524801, 525826] k &&
  (tabB [23, 3] [[512, 508], [512, 510], [512, 512], [513, 514]] k &&
  (tabN 1099511627776 1048576 [524796, 524798, 524800, 524802, 524804, 525830] k)))))

set_option maxHeartbeats 1000000 in
theorem checkS1 : checkB 33 5 chkS1 (getS1 kE hE) = true := by decide +kernel

theorem linkS1 (dl : ℝ → ℝ) (k : HConst ℝ) (h : HMem ℝ) :
    eval dl (fun i => (pt k h).getD i 0) (getS1 kE hE) = getS1 k h := by krfl

theorem normalS1 : Nonempty (Normal chkS1 33 5 pt getS1) := normal_of_check checkS1 len (linkS1 _)

theorem chkS1_0 (k : ℕ) (hk : chkS1 k = true) : (Nat.beq (wtS k ws) 3076) = true := by
  simp only [chkS1, Bool.and_eq_true] at hk
  exact  hk.1

theorem chkS1_1 (k : ℕ) (hk : chkS1 k = true) : (Nat.beq (Nat.mod (wtS k par) 2) 0) = true := by
  simp only [chkS1, Bool.and_eq_true] at hk
  exact  hk.2.1

theorem chkS1_2 (k : ℕ) (hk : chkS1 k = true) : (tabB [10, 11, 12, 13] [[513, 512, 512, 512], [512, 513, 512, 513], [512, 512, 513, 514]] k) = true := by
  simp only [chkS1, Bool.and_eq_true] at hk
  exact tabN_tabB (i := 10) (n := 4) (js := [0, 1, 2, 3]) (is := [10, 11, 12, 13]) (al' := [[513, 512, 512, 512], [512, 513, 512, 513], [512, 512, 513, 514]]) (by norm_num) (by norm_num) (by decide) rfl (by decide) hk.2.2.1

theorem chkS1_3 (k : ℕ) (hk : chkS1 k = true) : (tabB [7, 6] [[512, 512], [512, 513], [513, 514]] k) = true := by
  simp only [chkS1, Bool.and_eq_true] at hk
  exact tabN_tabB (i := 6) (n := 2) (js := [1, 0]) (is := [7, 6]) (al' := [[512, 512], [512, 513], [513, 514]]) (by norm_num) (by norm_num) (by decide) rfl (by decide) hk.2.2.2.1

theorem chkS1_4 (k : ℕ) (hk : chkS1 k = true) : (tabB [23, 3] [[512, 508], [512, 510], [512, 512], [513, 514]] k) = true := by
  simp only [chkS1, Bool.and_eq_true] at hk
  exact id hk.2.2.2.2.1

theorem chkS1_5 (k : ℕ) (hk : chkS1 k = true) : (tabB [5, 4] [[512, 508], [512, 510], [512, 512], [512, 514], [512, 516], [513, 518]] k) = true := by
  simp only [chkS1, Bool.and_eq_true] at hk
  exact tabN_tabB (i := 4) (n := 2) (js := [1, 0]) (is := [5, 4]) (al' := [[512, 508], [512, 510], [512, 512], [512, 514], [512, 516], [513, 518]]) (by norm_num) (by norm_num) (by decide) rfl (by decide) hk.2.2.2.2.2

theorem unitsS1 : Units reg getS1 := by
  obtain ⟨Q⟩ := normalS1
  refine Q.units reg ws (by decide) (fun k hk => Nat.eq_of_beq_eq_true (chkS1_0 k hk)) (fun k h l => ?_) nz
  simp [pt, ws, scaleS, HMem.rescale, zpow_one, zpow_zero, one_mul]

theorem mtSignS1 : MtSign reg getS1 := by
  obtain ⟨Q⟩ := normalS1
  refine Q.mtSign reg par (by decide) (by decide) (fun k hk => Nat.dvd_of_mod_eq_zero (Nat.eq_of_beq_eq_true (chkS1_1 k hk))) (fun k h => ?_) nz
  simp [pt, par, scaleS, HMem.flipMt, zpow_one, zpow_zero, one_mul]

theorem loopsS1 : Loops reg getS1 := by
  obtain ⟨Q⟩ := normalS1
  obtain ⟨C, hC⟩ := Q.tab _ _ chkS1_2
  refine loops_of_tab reg hC (fun k h f1 f2 f3 a r => nz k _ r) ⟨fun k h => ones (pt k h) [10, 11, 12, 13], fun k h f1 f2 f3 a => ?_⟩
  have e : ones (pt k (h.loops f1 f2 f3 a)) [10, 11, 12, 13] = ones (pt k h) [10, 11, 12, 13] := rfl
  simp only [sumTab, pw, e]
  simp [pt, HMem.loops]
  ring

theorem truncDmglst2S1 : Truncates reg HMem.updDmglst2 [0, 1] 2 getS1 := by
  obtain ⟨Q⟩ := normalS1
  obtain ⟨C, hC⟩ := Q.tab _ _ chkS1_3
  exact truncates_of_tab hC rfl nz (by decide) (by decide) (fun _ _ _ _ => rfl) (fun _ _ _ _ => rfl) (fun _ _ _ _ => rfl)

theorem truncMsqS1 : Truncates reg HMem.updMsq [-4, -2, 0] 2 getS1 := by
  obtain ⟨Q⟩ := normalS1
  obtain ⟨C, hC⟩ := Q.tab _ _ chkS1_4
  exact truncates_of_tab hC rfl nz (by decide) (by decide) (fun _ _ _ _ => rfl) (fun _ _ _ _ => rfl) (fun _ _ _ _ => rfl)

theorem truncMstS1 : Truncates reg HMem.updMst [-4, -2, 0, 2, 4] 6 getS1 := by
  obtain ⟨Q⟩ := normalS1
  obtain ⟨C, hC⟩ := Q.tab _ _ chkS1_5
  exact truncates_of_tab hC rfl nz (by decide) (by decide) (fun _ _ _ _ => rfl) (fun _ _ _ _ => rfl) (fun _ _ _ _ => rfl)

/-- conditions on the exponents of the monomials of `getS2` -/
def chkS2 (k : ℕ) : Bool :=
  Nat.beq (wtS k ws) 3076 &&
  (Nat.beq (Nat.mod (wtS k par) 2) 0 &&
  (tabN 1267650600228229401496703205376 1099511627776 [550293209601, 551366952448, 552441741824] k &&
  (tabN 1152921504606846976 1048576 [524800, 524801, 525826] k &&
  (tabB [23, 3] [[512, 508], [512, 510], [512, 512], [513, 514]] k &&
  (tabN 1099511627776 1048576 [524796, 524798, 524800, 524802, 524804, 525830] k)))))

set_option maxHeartbeats 1000000 in
theorem checkS2 : checkB 33 5 chkS2 (getS2 kE hE) = true := by decide +kernel

theorem linkS2 (dl : ℝ → ℝ) (k : HConst ℝ) (h : HMem ℝ) :
    eval dl (fun i => (pt k h).getD i 0) (getS2 kE hE) = getS2 k h := by krfl

theorem normalS2 : Nonempty (Normal chkS2 33 5 pt getS2) := normal_of_check checkS2 len (linkS2 _)

theorem chkS2_0 (k : ℕ) (hk : chkS2 k = true) : (Nat.beq (wtS k ws) 3076) = true := by
  simp only [chkS2, Bool.and_eq_true] at hk
  exact  hk.1

theorem chkS2_1 (k : ℕ) (hk : chkS2 k = true) : (Nat.beq (Nat.mod (wtS k par) 2) 0) = true := by
  simp only [chkS2, Bool.and_eq_true] at hk
  exact  hk.2.1

theorem chkS2_2 (k : ℕ) (hk : chkS2 k = true) : (tabB [10, 11, 12, 13] [[513, 512, 512, 512], [512, 513, 512, 513], [512, 512, 513, 514]] k) = true := by
  simp only [chkS2, Bool.and_eq_true] at hk
  exact tabN_tabB (i := 10) (n := 4) (js := [0, 1, 2, 3]) (is := [10, 11, 12, 13]) (al' := [[513, 512, 512, 512], [512, 513, 512, 513], [512, 512, 513, 514]]) (by norm_num) (by norm_num) (by decide) rfl (by decide) hk.2.2.1

theorem chkS2_3 (k : ℕ) (hk : chkS2 k = true) : (tabB [7, 6] [[512, 512], [512, 513], [513, 514]] k) = true := by
  simp only [chkS2, Bool.and_eq_true] at hk
  exact tabN_tabB (i := 6) (n := 2) (js := [1, 0]) (is := [7, 6]) (al' := [[512, 512], [512, 513], [513, 514]]) (by norm_num) (by norm_num) (by decide) rfl (by decide) hk.2.2.2.1

theorem chkS2_4 (k : ℕ) (hk : chkS2 k = true) : (tabB [23, 3] [[512, 508], [512, 510], [512, 512], [513, 514]] k) = true := by
  simp only [chkS2, Bool.and_eq_true] at hk
  exact id hk.2.2.2.2.1

theorem chkS2_5 (k : ℕ) (hk : chkS2 k = true) : (tabB [5, 4] [[512, 508], [512, 510], [512, 512], [512, 514], [512, 516], [513, 518]] k) = true := by
  simp only [chkS2, Bool.and_eq_true] at hk
  exact tabN_tabB (i := 4) (n := 2) (js := [1, 0]) (is := [5, 4]) (al' := [[512, 508], [512, 510], [512, 512], [512, 514], [512, 516], [513, 518]]) (by norm_num) (by norm_num) (by decide) rfl (by decide) hk.2.2.2.2.2

theorem unitsS2 : Units reg getS2 := by
  obtain ⟨Q⟩ := normalS2
  refine Q.units reg ws (by decide) (fun k hk => Nat.eq_of_beq_eq_true (chkS2_0 k hk)) (fun k h l => ?_) nz
  simp [pt, ws, scaleS, HMem.rescale, zpow_one, zpow_zero, one_mul]

theorem mtSignS2 : MtSign reg getS2 := by
  obtain ⟨Q⟩ := normalS2
  refine Q.mtSign reg par (by decide) (by decide) (fun k hk => Nat.dvd_of_mod_eq_zero (Nat.eq_of_beq_eq_true (chkS2_1 k hk))) (fun k h => ?_) nz
  simp [pt, par, scaleS, HMem.flipMt, zpow_one, zpow_zero, one_mul]

theorem loopsS2 : Loops reg getS2 := by
  obtain ⟨Q⟩ := normalS2
  obtain ⟨C, hC⟩ := Q.tab _ _ chkS2_2
  refine loops_of_tab reg hC (fun k h f1 f2 f3 a r => nz k _ r) ⟨fun k h => ones (pt k h) [10, 11, 12, 13], fun k h f1 f2 f3 a => ?_⟩
  have e : ones (pt k (h.loops f1 f2 f3 a)) [10, 11, 12, 13] = ones (pt k h) [10, 11, 12, 13] := rfl
  simp only [sumTab, pw, e]
  simp [pt, HMem.loops]
  ring

theorem truncDmglst2S2 : Truncates reg HMem.updDmglst2 [0, 1] 2 getS2 := by
  obtain ⟨Q⟩ := normalS2
  obtain ⟨C, hC⟩ := Q.tab _ _ chkS2_3
  exact truncates_of_tab hC rfl nz (by decide) (by decide) (fun _ _ _ _ => rfl) (fun _ _ _ _ => rfl) (fun _ _ _ _ => rfl)

theorem truncMsqS2 : Truncates reg HMem.updMsq [-4, -2, 0] 2 getS2 := by
  obtain ⟨Q⟩ := normalS2
  obtain ⟨C, hC⟩ := Q.tab _ _ chkS2_4
  exact truncates_of_tab hC rfl nz (by decide) (by decide) (fun _ _ _ _ => rfl) (fun _ _ _ _ => rfl) (fun _ _ _ _ => rfl)

theorem truncMstS2 : Truncates reg HMem.updMst [-4, -2, 0, 2, 4] 6 getS2 := by
  obtain ⟨Q⟩ := normalS2
  obtain ⟨C, hC⟩ := Q.tab _ _ chkS2_5
  exact truncates_of_tab hC rfl nz (by decide) (by decide) (fun _ _ _ _ => rfl) (fun _ _ _ _ => rfl) (fun _ _ _ _ => rfl)

/-- conditions on the exponents of the monomials of `getS12` -/
def chkS12 (k : ℕ) : Bool :=
  Nat.beq (wtS k ws) 3076 &&
  (Nat.beq (Nat.mod (wtS k par) 2) 0 &&
  (tabN 1267650600228229401496703205376 1099511627776 [550293209601, 551366952448, 552441741824] k &&
  (tabN 1152921504606846976 1048576 [524800, 524801, 525826] k &&
  (tabB [23, 3] [[512, 508], [512, 510], [512, 512], [513, 514]] k &&
  (tabN 1099511627776 1048576 [524796, 524798, 524800, 524802, 524804, 525830] k)))))

set_option maxHeartbeats 1000000 in
theorem checkS12 : checkB 33 5 chkS12 (getS12 kE hE) = true := by decide +kernel

theorem linkS12 (dl : ℝ → ℝ) (k : HConst ℝ) (h : HMem ℝ) :
    eval dl (fun i => (pt k h).getD i 0) (getS12 kE hE) = getS12 k h := by krfl

theorem normalS12 : Nonempty (Normal chkS12 33 5 pt getS12) := normal_of_check checkS12 len (linkS12 _)

theorem chkS12_0 (k : ℕ) (hk : chkS12 k = true) : (Nat.beq (wtS k ws) 3076) = true := by
  simp only [chkS12, Bool.and_eq_true] at hk
  exact  hk.1

theorem chkS12_1 (k : ℕ) (hk : chkS12 k = true) : (Nat.beq (Nat.mod (wtS k par) 2) 0) = true := by
  simp only [chkS12, Bool.and_eq_true] at hk
  exact  hk.2.1

theorem chkS12_2 (k : ℕ) (hk : chkS12 k = true) : (tabB [10, 11, 12, 13] [[513, 512, 512, 512], [512, 513, 512, 513], [512, 512, 513, 514]] k) = true := by
  simp only [chkS12, Bool.and_eq_true] at hk
  exact tabN_tabB (i := 10) (n := 4) (js := [0, 1, 2, 3]) (is := [10, 11, 12, 13]) (al' := [[513, 512, 512, 512], [512, 513, 512, 513], [512, 512, 513, 514]]) (by norm_num) (by norm_num) (by decide) rfl (by decide) hk.2.2.1

theorem chkS12_3 (k : ℕ) (hk : chkS12 k = true) : (tabB [7, 6] [[512, 512], [512, 513], [513, 514]] k) = true := by
  simp only [chkS12, Bool.and_eq_true] at hk
  exact tabN_tabB (i := 6) (n := 2) (js := [1, 0]) (is := [7, 6]) (al' := [[512, 512], [512, 513], [513, 514]]) (by norm_num) (by norm_num) (by decide) rfl (by decide) hk.2.2.2.1

theorem chkS12_4 (k : ℕ) (hk : chkS12 k = true) : (tabB [23, 3] [[512, 508], [512, 510], [512, 512], [513, 514]] k) = true := by
  simp only [chkS12, Bool.and_eq_true] at hk
  exact id hk.2.2.2.2.1

theorem chkS12_5 (k : ℕ) (hk : chkS12 k = true) : (tabB [5, 4] [[512, 508], [512, 510], [512, 512], [512, 514], [512, 516], [513, 518]] k) = true := by
  simp only [chkS12, Bool.and_eq_true] at hk
  exact tabN_tabB (i := 4) (n := 2) (js := [1, 0]) (is := [5, 4]) (al' := [[512, 508], [512, 510], [512, 512], [512, 514], [512, 516], [513, 518]]) (by norm_num) (by norm_num) (by decide) rfl (by decide) hk.2.2.2.2.2

theorem unitsS12 : Units reg getS12 := by
  obtain ⟨Q⟩ := normalS12
  refine Q.units reg ws (by decide) (fun k hk => Nat.eq_of_beq_eq_true (chkS12_0 k hk)) (fun k h l => ?_) nz
  simp [pt, ws, scaleS, HMem.rescale, zpow_one, zpow_zero, one_mul]

theorem mtSignS12 : MtSign reg getS12 := by
  obtain ⟨Q⟩ := normalS12
  refine Q.mtSign reg par (by decide) (by decide) (fun k hk => Nat.dvd_of_mod_eq_zero (Nat.eq_of_beq_eq_true (chkS12_1 k hk))) (fun k h => ?_) nz
  simp [pt, par, scaleS, HMem.flipMt, zpow_one, zpow_zero, one_mul]

theorem loopsS12 : Loops reg getS12 := by
  obtain ⟨Q⟩ := normalS12
  obtain ⟨C, hC⟩ := Q.tab _ _ chkS12_2
  refine loops_of_tab reg hC (fun k h f1 f2 f3 a r => nz k _ r) ⟨fun k h => ones (pt k h) [10, 11, 12, 13], fun k h f1 f2 f3 a => ?_⟩
  have e : ones (pt k (h.loops f1 f2 f3 a)) [10, 11, 12, 13] = ones (pt k h) [10, 11, 12, 13] := rfl
  simp only [sumTab, pw, e]
  simp [pt, HMem.loops]
  ring

theorem truncDmglst2S12 : Truncates reg HMem.updDmglst2 [0, 1] 2 getS12 := by
  obtain ⟨Q⟩ := normalS12
  obtain ⟨C, hC⟩ := Q.tab _ _ chkS12_3
  exact truncates_of_tab hC rfl nz (by decide) (by decide) (fun _ _ _ _ => rfl) (fun _ _ _ _ => rfl) (fun _ _ _ _ => rfl)

theorem truncMsqS12 : Truncates reg HMem.updMsq [-4, -2, 0] 2 getS12 := by
  obtain ⟨Q⟩ := normalS12
  obtain ⟨C, hC⟩ := Q.tab _ _ chkS12_4
  exact truncates_of_tab hC rfl nz (by decide) (by decide) (fun _ _ _ _ => rfl) (fun _ _ _ _ => rfl) (fun _ _ _ _ => rfl)

theorem truncMstS12 : Truncates reg HMem.updMst [-4, -2, 0, 2, 4] 6 getS12 := by
  obtain ⟨Q⟩ := normalS12
  obtain ⟨C, hC⟩ := Q.tab _ _ chkS12_5
  exact truncates_of_tab hC rfl nz (by decide) (by decide) (fun _ _ _ _ => rfl) (fun _ _ _ _ => rfl) (fun _ _ _ _ => rfl)

end H6

end Himalaya
