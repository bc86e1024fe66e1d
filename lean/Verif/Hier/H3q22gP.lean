import Verif.Hier.Spec
import Verif.Hier.H3q22g

/-!
# Normal forms of the self energies of `H3q22g`

Generated by tools/gen_hierp.py; the kernel computes the normal forms.
-/

set_option linter.unusedVariables false
set_option linter.unusedSimpArgs false
set_option maxRecDepth 100000

namespace Himalaya

namespace H3q22g

open Laur
open Kron (E eval)

/-- the constants as variables of formulas -/
def kE : HConst E := {
  z2 := .var 23,
  z3 := .var 24,
  z4 := .bad,
  B4 := .bad,
  D3 := .bad,
  DN := .bad,
  OepS2 := .bad,
  S2 := .bad,
  T1ep := .bad }

/-- the members as variables of formulas -/
def hE : HMem E := {
  Al4p := .var 16,
  At := .bad,
  Cbeta := .bad,
  Sbeta := .var 0,
  Tbeta := .var 1,
  Dmglst1 := .var 5,
  Dmglst2 := .bad,
  Dmsqst1 := .var 7,
  Dmsqst2 := .bad,
  Dmst12 := .var 9,
  lmMt := .var 17,
  lmMst1 := .var 18,
  lmMst2 := .bad,
  lmMsq := .bad,
  lmMgl := .bad,
  lmMsusy := .bad,
  Mt := .var 11,
  Mst1 := .var 2,
  Mst2 := .var 3,
  Msq := .var 4,
  Mgl := .bad,
  Msusy := .bad,
  MuSUSY := .var 19,
  s2t := .var 12,
  shiftst1 := .var 20,
  shiftst2 := .var 21,
  shiftst3 := .var 22,
  xDR2DRMOD := .bad,
  x := .bad,
  xAt := .bad,
  xDmglst1 := .var 6,
  xDmglst2 := .bad,
  xDmsqst1 := .var 8,
  xDmsqst2 := .bad,
  xDmst12 := .var 10,
  xMst := .bad,
  xMsq := .bad,
  xMgl := .bad,
  xMsusy := .bad,
  xlmMsusy := .bad,
  oneLoopFlag := .var 13,
  twoLoopFlag := .var 14,
  threeLoopFlag := .var 15 }

/-- the values of the variables -/
noncomputable def pt (k : HConst ℝ) (h : HMem ℝ) : List ℝ := [
  h.Sbeta, h.Tbeta, h.Mst1, h.Mst2, h.Msq, h.Dmglst1, h.xDmglst1, h.Dmsqst1, h.xDmsqst1, h.Dmst12, h.xDmst12, h.Mt, h.s2t,
  h.oneLoopFlag, h.twoLoopFlag, h.threeLoopFlag, h.Al4p, h.lmMt, h.lmMst1, h.MuSUSY, h.shiftst1, h.shiftst2, h.shiftst3,
  k.z2, k.z3]

/-- the denominators do not vanish -/
def reg (h : HMem ℝ) : Prop := h.Sbeta ≠ 0 ∧ h.Tbeta ≠ 0 ∧ h.Mst1 ≠ 0 ∧ h.Mst2 ≠ 0 ∧ h.Msq ≠ 0

theorem nz (k : HConst ℝ) (h : HMem ℝ) (r : reg h) : NZ 5 (pt k h) :=
  ⟨r.1, r.2.1, r.2.2.1, r.2.2.2.1, r.2.2.2.2, trivial⟩

theorem len (k : HConst ℝ) (h : HMem ℝ) : (pt k h).length = 25 := rfl

/-- dimensions of the variables in units of mass -/
def ws : List (ℕ × ℕ) := [(2, 1), (3, 1), (4, 1), (5, 1), (7, 2), (9, 2), (11, 1), (19, 1)]

/-- variables that change sign with the top mass -/
def par : List (ℕ × ℕ) := [(11, 1), (12, 1)]

/-- conditions on the exponents of the monomials of `getS1` -/
def chkS1 (k : ℕ) : Bool :=
  Nat.beq (wtS k ws) 5124 &&
  (Nat.beq (Nat.mod (wtS k par) 2) 0 &&
  (tabN 1361129467683753853853498429727072845824 1099511627776 [550293209601, 551366952448, 552441741824] k &&
  (tabN 1569275433846670190958947355801916604025588861116008628224 1024 [514] k &&
  (tabN 1125899906842624 1048576 [524800, 524801, 524802, 525827] k &&
  (tabN 1180591620717411303424 1048576 [524800, 524801, 525826] k &&
  (tabN 1237940039285380274899124224 1048576 [524800, 524801, 524802, 525827] k))))))

set_option maxHeartbeats 1000000 in
theorem checkS1 : checkB 25 5 chkS1 (getS1 kE hE) = true := by decide +kernel

theorem linkS1 (dl : ℝ → ℝ) (k : HConst ℝ) (h : HMem ℝ) :
    eval dl (fun i => (pt k h).getD i 0) (getS1 kE hE) = getS1 k h := by krfl

theorem normalS1 : Nonempty (Normal chkS1 25 5 pt getS1) := normal_of_check checkS1 len (linkS1 _)

theorem chkS1_0 (k : ℕ) (hk : chkS1 k = true) : (Nat.beq (wtS k ws) 5124) = true := by
  simp only [chkS1, Bool.and_eq_true] at hk
  exact  hk.1

theorem chkS1_1 (k : ℕ) (hk : chkS1 k = true) : (Nat.beq (Nat.mod (wtS k par) 2) 0) = true := by
  simp only [chkS1, Bool.and_eq_true] at hk
  exact  hk.2.1

theorem chkS1_2 (k : ℕ) (hk : chkS1 k = true) : (tabB [13, 14, 15, 16] [[513, 512, 512, 512], [512, 513, 512, 513], [512, 512, 513, 514]] k) = true := by
  simp only [chkS1, Bool.and_eq_true] at hk
  exact tabN_tabB (i := 13) (n := 4) (js := [0, 1, 2, 3]) (is := [13, 14, 15, 16]) (al' := [[513, 512, 512, 512], [512, 513, 512, 513], [512, 512, 513, 514]]) (by norm_num) (by norm_num) (by decide) rfl (by decide) hk.2.2.1

theorem chkS1_3 (k : ℕ) (hk : chkS1 k = true) : (tabB [19] [[514]] k) = true := by
  simp only [chkS1, Bool.and_eq_true] at hk
  exact tabN_tabB (i := 19) (n := 1) (js := [0]) (is := [19]) (al' := [[514]]) (by norm_num) (by norm_num) (by decide) rfl (by decide) hk.2.2.2.1

theorem chkS1_4 (k : ℕ) (hk : chkS1 k = true) : (tabB [6, 5] [[512, 512], [512, 513], [512, 514], [513, 515]] k) = true := by
  simp only [chkS1, Bool.and_eq_true] at hk
  exact tabN_tabB (i := 5) (n := 2) (js := [1, 0]) (is := [6, 5]) (al' := [[512, 512], [512, 513], [512, 514], [513, 515]]) (by norm_num) (by norm_num) (by decide) rfl (by decide) hk.2.2.2.2.1

theorem chkS1_5 (k : ℕ) (hk : chkS1 k = true) : (tabB [8, 7] [[512, 512], [512, 513], [513, 514]] k) = true := by
  simp only [chkS1, Bool.and_eq_true] at hk
  exact tabN_tabB (i := 7) (n := 2) (js := [1, 0]) (is := [8, 7]) (al' := [[512, 512], [512, 513], [513, 514]]) (by norm_num) (by norm_num) (by decide) rfl (by decide) hk.2.2.2.2.2.1

theorem chkS1_6 (k : ℕ) (hk : chkS1 k = true) : (tabB [10, 9] [[512, 512], [512, 513], [512, 514], [513, 515]] k) = true := by
  simp only [chkS1, Bool.and_eq_true] at hk
  exact tabN_tabB (i := 9) (n := 2) (js := [1, 0]) (is := [10, 9]) (al' := [[512, 512], [512, 513], [512, 514], [513, 515]]) (by norm_num) (by norm_num) (by decide) rfl (by decide) hk.2.2.2.2.2.2

theorem unitsS1 : Units reg getS1 := by
  obtain ⟨Q⟩ := normalS1
  refine Q.units reg ws (by decide) (fun k hk => Nat.eq_of_beq_eq_true (chkS1_0 k hk)) (fun k h l => ?_) nz
  simp [pt, ws, scaleS, HMem.rescale, zpow_one, zpow_zero, one_mul]

theorem mtSignS1 : MtSign reg getS1 := by
  obtain ⟨Q⟩ := normalS1
  refine Q.mtSign reg par (by decide) (by decide) (fun k hk => Nat.dvd_of_mod_eq_zero (Nat.eq_of_beq_eq_true (chkS1_1 k hk))) (fun k h => ?_) nz
  simp [pt, par, scaleS, HMem.flipMt, zpow_one, zpow_zero, one_mul]

theorem loopsS1 : Loops reg getS1 := by
  obtain ⟨Q⟩ := normalS1
  obtain ⟨C, hC⟩ := Q.tab _ _ chkS1_2
  refine loops_of_tab reg hC (fun k h f1 f2 f3 a r => nz k _ r) ⟨fun k h => ones (pt k h) [13, 14, 15, 16], fun k h f1 f2 f3 a => ?_⟩
  have e : ones (pt k (h.loops f1 f2 f3 a)) [13, 14, 15, 16] = ones (pt k h) [13, 14, 15, 16] := rfl
  simp only [sumTab, pw, e]
  simp [pt, HMem.loops]
  ring

theorem muSquaredS1 : MuSquared reg getS1 := by
  obtain ⟨Q⟩ := normalS1
  obtain ⟨C, hC⟩ := Q.tab _ _ chkS1_3
  intro k h μ r
  have e : ones (pt k { h with MuSUSY := μ }) [19] = ones (pt k { h with MuSUSY := 1 }) [19] := rfl
  rw [hC k { h with MuSUSY := μ } (nz k _ r), hC k { h with MuSUSY := 1 } (nz k _ r)]
  simp only [sumTab, pw, e]
  simp [pt]

theorem truncDmglst1S1 : Truncates reg HMem.updDmglst1 [0, 1, 2] 3 getS1 := by
  obtain ⟨Q⟩ := normalS1
  obtain ⟨C, hC⟩ := Q.tab _ _ chkS1_4
  exact truncates_of_tab hC rfl nz (by decide) (by decide) (fun _ _ _ _ => rfl) (fun _ _ _ _ => rfl) (fun _ _ _ _ => rfl)

theorem truncDmsqst1S1 : Truncates reg HMem.updDmsqst1 [0, 1] 2 getS1 := by
  obtain ⟨Q⟩ := normalS1
  obtain ⟨C, hC⟩ := Q.tab _ _ chkS1_5
  exact truncates_of_tab hC rfl nz (by decide) (by decide) (fun _ _ _ _ => rfl) (fun _ _ _ _ => rfl) (fun _ _ _ _ => rfl)

theorem truncDmst12S1 : Truncates reg HMem.updDmst12 [0, 1, 2] 3 getS1 := by
  obtain ⟨Q⟩ := normalS1
  obtain ⟨C, hC⟩ := Q.tab _ _ chkS1_6
  exact truncates_of_tab hC rfl nz (by decide) (by decide) (fun _ _ _ _ => rfl) (fun _ _ _ _ => rfl) (fun _ _ _ _ => rfl)

/-- conditions on the exponents of the monomials of `getS2` -/
def chkS2 (k : ℕ) : Bool :=
  Nat.beq (wtS k ws) 5124 &&
  (Nat.beq (Nat.mod (wtS k par) 2) 0 &&
  (tabN 1361129467683753853853498429727072845824 1099511627776 [550293209601, 551366952448, 552441741824] k &&
  (tabN 1125899906842624 1048576 [524800, 524801, 524802, 525827] k &&
  (tabN 1180591620717411303424 1048576 [524800, 524801, 525826] k &&
  (tabN 1237940039285380274899124224 1048576 [524800, 524801, 524802, 525827] k)))))

set_option maxHeartbeats 1000000 in
theorem checkS2 : checkB 25 5 chkS2 (getS2 kE hE) = true := by decide +kernel

theorem linkS2 (dl : ℝ → ℝ) (k : HConst ℝ) (h : HMem ℝ) :
    eval dl (fun i => (pt k h).getD i 0) (getS2 kE hE) = getS2 k h := by krfl

theorem normalS2 : Nonempty (Normal chkS2 25 5 pt getS2) := normal_of_check checkS2 len (linkS2 _)

theorem chkS2_0 (k : ℕ) (hk : chkS2 k = true) : (Nat.beq (wtS k ws) 5124) = true := by
  simp only [chkS2, Bool.and_eq_true] at hk
  exact  hk.1

theorem chkS2_1 (k : ℕ) (hk : chkS2 k = true) : (Nat.beq (Nat.mod (wtS k par) 2) 0) = true := by
  simp only [chkS2, Bool.and_eq_true] at hk
  exact  hk.2.1

theorem chkS2_2 (k : ℕ) (hk : chkS2 k = true) : (tabB [13, 14, 15, 16] [[513, 512, 512, 512], [512, 513, 512, 513], [512, 512, 513, 514]] k) = true := by
  simp only [chkS2, Bool.and_eq_true] at hk
  exact tabN_tabB (i := 13) (n := 4) (js := [0, 1, 2, 3]) (is := [13, 14, 15, 16]) (al' := [[513, 512, 512, 512], [512, 513, 512, 513], [512, 512, 513, 514]]) (by norm_num) (by norm_num) (by decide) rfl (by decide) hk.2.2.1

theorem chkS2_3 (k : ℕ) (hk : chkS2 k = true) : (tabB [6, 5] [[512, 512], [512, 513], [512, 514], [513, 515]] k) = true := by
  simp only [chkS2, Bool.and_eq_true] at hk
  exact tabN_tabB (i := 5) (n := 2) (js := [1, 0]) (is := [6, 5]) (al' := [[512, 512], [512, 513], [512, 514], [513, 515]]) (by norm_num) (by norm_num) (by decide) rfl (by decide) hk.2.2.2.1

theorem chkS2_4 (k : ℕ) (hk : chkS2 k = true) : (tabB [8, 7] [[512, 512], [512, 513], [513, 514]] k) = true := by
  simp only [chkS2, Bool.and_eq_true] at hk
  exact tabN_tabB (i := 7) (n := 2) (js := [1, 0]) (is := [8, 7]) (al' := [[512, 512], [512, 513], [513, 514]]) (by norm_num) (by norm_num) (by decide) rfl (by decide) hk.2.2.2.2.1

theorem chkS2_5 (k : ℕ) (hk : chkS2 k = true) : (tabB [10, 9] [[512, 512], [512, 513], [512, 514], [513, 515]] k) = true := by
  simp only [chkS2, Bool.and_eq_true] at hk
  exact tabN_tabB (i := 9) (n := 2) (js := [1, 0]) (is := [10, 9]) (al' := [[512, 512], [512, 513], [512, 514], [513, 515]]) (by norm_num) (by norm_num) (by decide) rfl (by decide) hk.2.2.2.2.2

theorem unitsS2 : Units reg getS2 := by
  obtain ⟨Q⟩ := normalS2
  refine Q.units reg ws (by decide) (fun k hk => Nat.eq_of_beq_eq_true (chkS2_0 k hk)) (fun k h l => ?_) nz
  simp [pt, ws, scaleS, HMem.rescale, zpow_one, zpow_zero, one_mul]

theorem mtSignS2 : MtSign reg getS2 := by
  obtain ⟨Q⟩ := normalS2
  refine Q.mtSign reg par (by decide) (by decide) (fun k hk => Nat.dvd_of_mod_eq_zero (Nat.eq_of_beq_eq_true (chkS2_1 k hk))) (fun k h => ?_) nz
  simp [pt, par, scaleS, HMem.flipMt, zpow_one, zpow_zero, one_mul]

theorem loopsS2 : Loops reg getS2 := by
  obtain ⟨Q⟩ := normalS2
  obtain ⟨C, hC⟩ := Q.tab _ _ chkS2_2
  refine loops_of_tab reg hC (fun k h f1 f2 f3 a r => nz k _ r) ⟨fun k h => ones (pt k h) [13, 14, 15, 16], fun k h f1 f2 f3 a => ?_⟩
  have e : ones (pt k (h.loops f1 f2 f3 a)) [13, 14, 15, 16] = ones (pt k h) [13, 14, 15, 16] := rfl
  simp only [sumTab, pw, e]
  simp [pt, HMem.loops]
  ring

theorem truncDmglst1S2 : Truncates reg HMem.updDmglst1 [0, 1, 2] 3 getS2 := by
  obtain ⟨Q⟩ := normalS2
  obtain ⟨C, hC⟩ := Q.tab _ _ chkS2_3
  exact truncates_of_tab hC rfl nz (by decide) (by decide) (fun _ _ _ _ => rfl) (fun _ _ _ _ => rfl) (fun _ _ _ _ => rfl)

theorem truncDmsqst1S2 : Truncates reg HMem.updDmsqst1 [0, 1] 2 getS2 := by
  obtain ⟨Q⟩ := normalS2
  obtain ⟨C, hC⟩ := Q.tab _ _ chkS2_4
  exact truncates_of_tab hC rfl nz (by decide) (by decide) (fun _ _ _ _ => rfl) (fun _ _ _ _ => rfl) (fun _ _ _ _ => rfl)

theorem truncDmst12S2 : Truncates reg HMem.updDmst12 [0, 1, 2] 3 getS2 := by
  obtain ⟨Q⟩ := normalS2
  obtain ⟨C, hC⟩ := Q.tab _ _ chkS2_5
  exact truncates_of_tab hC rfl nz (by decide) (by decide) (fun _ _ _ _ => rfl) (fun _ _ _ _ => rfl) (fun _ _ _ _ => rfl)

/-- conditions on the exponents of the monomials of `getS12` -/
def chkS12 (k : ℕ) : Bool :=
  Nat.beq (wtS k ws) 5124 &&
  (Nat.beq (Nat.mod (wtS k par) 2) 0 &&
  (tabN 1361129467683753853853498429727072845824 1099511627776 [550293209601, 551366952448, 552441741824] k &&
  (tabN 1569275433846670190958947355801916604025588861116008628224 1024 [513, 514] k &&
  (tabN 1125899906842624 1048576 [524800, 524801, 524802, 525827] k &&
  (tabN 1180591620717411303424 1048576 [524800, 524801, 525826] k)))))

set_option maxHeartbeats 1000000 in
theorem checkS12 : checkB 25 5 chkS12 (getS12 kE hE) = true := by decide +kernel

theorem linkS12 (dl : ℝ → ℝ) (k : HConst ℝ) (h : HMem ℝ) :
    eval dl (fun i => (pt k h).getD i 0) (getS12 kE hE) = getS12 k h := by krfl

theorem normalS12 : Nonempty (Normal chkS12 25 5 pt getS12) := normal_of_check checkS12 len (linkS12 _)

theorem chkS12_0 (k : ℕ) (hk : chkS12 k = true) : (Nat.beq (wtS k ws) 5124) = true := by
  simp only [chkS12, Bool.and_eq_true] at hk
  exact  hk.1

theorem chkS12_1 (k : ℕ) (hk : chkS12 k = true) : (Nat.beq (Nat.mod (wtS k par) 2) 0) = true := by
  simp only [chkS12, Bool.and_eq_true] at hk
  exact  hk.2.1

theorem chkS12_2 (k : ℕ) (hk : chkS12 k = true) : (tabB [13, 14, 15, 16] [[513, 512, 512, 512], [512, 513, 512, 513], [512, 512, 513, 514]] k) = true := by
  simp only [chkS12, Bool.and_eq_true] at hk
  exact tabN_tabB (i := 13) (n := 4) (js := [0, 1, 2, 3]) (is := [13, 14, 15, 16]) (al' := [[513, 512, 512, 512], [512, 513, 512, 513], [512, 512, 513, 514]]) (by norm_num) (by norm_num) (by decide) rfl (by decide) hk.2.2.1

theorem chkS12_3 (k : ℕ) (hk : chkS12 k = true) : (tabB [19] [[513], [514]] k) = true := by
  simp only [chkS12, Bool.and_eq_true] at hk
  exact tabN_tabB (i := 19) (n := 1) (js := [0]) (is := [19]) (al' := [[513], [514]]) (by norm_num) (by norm_num) (by decide) rfl (by decide) hk.2.2.2.1

theorem chkS12_4 (k : ℕ) (hk : chkS12 k = true) : (tabB [6, 5] [[512, 512], [512, 513], [512, 514], [513, 515]] k) = true := by
  simp only [chkS12, Bool.and_eq_true] at hk
  exact tabN_tabB (i := 5) (n := 2) (js := [1, 0]) (is := [6, 5]) (al' := [[512, 512], [512, 513], [512, 514], [513, 515]]) (by norm_num) (by norm_num) (by decide) rfl (by decide) hk.2.2.2.2.1

theorem chkS12_5 (k : ℕ) (hk : chkS12 k = true) : (tabB [8, 7] [[512, 512], [512, 513], [513, 514]] k) = true := by
  simp only [chkS12, Bool.and_eq_true] at hk
  exact tabN_tabB (i := 7) (n := 2) (js := [1, 0]) (is := [8, 7]) (al' := [[512, 512], [512, 513], [513, 514]]) (by norm_num) (by norm_num) (by decide) rfl (by decide) hk.2.2.2.2.2

theorem unitsS12 : Units reg getS12 := by
  obtain ⟨Q⟩ := normalS12
  refine Q.units reg ws (by decide) (fun k hk => Nat.eq_of_beq_eq_true (chkS12_0 k hk)) (fun k h l => ?_) nz
  simp [pt, ws, scaleS, HMem.rescale, zpow_one, zpow_zero, one_mul]

theorem mtSignS12 : MtSign reg getS12 := by
  obtain ⟨Q⟩ := normalS12
  refine Q.mtSign reg par (by decide) (by decide) (fun k hk => Nat.dvd_of_mod_eq_zero (Nat.eq_of_beq_eq_true (chkS12_1 k hk))) (fun k h => ?_) nz
  simp [pt, par, scaleS, HMem.flipMt, zpow_one, zpow_zero, one_mul]

theorem loopsS12 : Loops reg getS12 := by
  obtain ⟨Q⟩ := normalS12
  obtain ⟨C, hC⟩ := Q.tab _ _ chkS12_2
  refine loops_of_tab reg hC (fun k h f1 f2 f3 a r => nz k _ r) ⟨fun k h => ones (pt k h) [13, 14, 15, 16], fun k h f1 f2 f3 a => ?_⟩
  have e : ones (pt k (h.loops f1 f2 f3 a)) [13, 14, 15, 16] = ones (pt k h) [13, 14, 15, 16] := rfl
  simp only [sumTab, pw, e]
  simp [pt, HMem.loops]
  ring

theorem muVanishesS12 : MuVanishes reg getS12 := by
  obtain ⟨Q⟩ := normalS12
  obtain ⟨C, hC⟩ := Q.tab _ _ chkS12_3
  intro k h r
  rw [hC k { h with MuSUSY := 0 } (nz k _ r)]
  simp only [sumTab, pw]
  simp [pt]

theorem truncDmglst1S12 : Truncates reg HMem.updDmglst1 [0, 1, 2] 3 getS12 := by
  obtain ⟨Q⟩ := normalS12
  obtain ⟨C, hC⟩ := Q.tab _ _ chkS12_4
  exact truncates_of_tab hC rfl nz (by decide) (by decide) (fun _ _ _ _ => rfl) (fun _ _ _ _ => rfl) (fun _ _ _ _ => rfl)

theorem truncDmsqst1S12 : Truncates reg HMem.updDmsqst1 [0, 1] 2 getS12 := by
  obtain ⟨Q⟩ := normalS12
  obtain ⟨C, hC⟩ := Q.tab _ _ chkS12_5
  exact truncates_of_tab hC rfl nz (by decide) (by decide) (fun _ _ _ _ => rfl) (fun _ _ _ _ => rfl) (fun _ _ _ _ => rfl)

end H3q22g

end Himalaya
