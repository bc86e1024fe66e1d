import Verif.EFT.UnitsF

/-!
# Parity of the formulas of the threshold corrections

Generated by `tools/gen_signs.py` from the model: each formula is even under a common change of sign of `Mu`, `Xt`, `Xb`, `Xtau`, `Yt`, `Yb`
and `Ytau`.
-/

set_option linter.unusedVariables false
set_option maxRecDepth 20000

namespace Himalaya.Signs

open Kron

theorem m1 : (-1 : ℝ) ≠ 0 := by norm_num
theorem m2 : (-1 : ℝ) ^ (2 : ℤ) = 1 := by norm_num

/-- a formula of even weight -/
theorem even (dl : ℝ → ℝ) {w : List ℤ} {xs ys : List ℝ} (h : Scaled (-1) w xs ys) {e : E} (hw : wtFun 2 (wt 2 w e) = some 0) :
    eval dl (env ys) e = eval dl (env xs) e := by
  obtain ⟨-, d, hd, hs⟩ := wtFun_some hw
  have := wt_sound dl m1 m2 w (env xs) (env ys) h.env e d hd
  rwa [sameW_pow m1 m2 hs, zpow_zero, one_mul] at this

theorem Yb6_signs (a b : Yb6.Arg ℝ)
    (h : Scaled (-1) [1, 0, 1, 0, 1, 0, 0, 0, 0, 0, 0, 0, 0, 0, 0, 0, 0, 0, 0, 0, 0, 0, 0] [a.Mu, a.Mu2, a.Xb, a.Xb2, a.Yb, a.cbeta, a.lmQ3MR, a.lmUMR, a.mA, a.mA2, a.mD3, a.mD32, a.mQ3, a.mQ32, a.sbeta, a.log_mA2_MR2, a.dilog_Mu2_mD32, a.dilog_Mu2_mQ32, a.dilog_mD32_mQ32, a.log_mD32_mQ32, a.phixyz_mA2_mD32_mD32, a.phixyz_mA2_mQ32_mD32, a.phixyz_mA2_mQ32_mQ32]
      [b.Mu, b.Mu2, b.Xb, b.Xb2, b.Yb, b.cbeta, b.lmQ3MR, b.lmUMR, b.mA, b.mA2, b.mD3, b.mD32, b.mQ3, b.mQ32, b.sbeta, b.log_mA2_MR2, b.dilog_Mu2_mD32, b.dilog_Mu2_mQ32, b.dilog_mD32_mQ32, b.log_mD32_mQ32, b.phixyz_mA2_mD32_mD32, b.phixyz_mA2_mQ32_mD32, b.phixyz_mA2_mQ32_mQ32]) : Yb6.formula b = Yb6.formula a := by
  have e : ∀ a : Yb6.Arg ℝ, Yb6.formula a = eval id (env [a.Mu, a.Mu2, a.Xb, a.Xb2, a.Yb, a.cbeta, a.lmQ3MR, a.lmUMR, a.mA, a.mA2, a.mD3, a.mD32, a.mQ3, a.mQ32, a.sbeta, a.log_mA2_MR2, a.dilog_Mu2_mD32, a.dilog_Mu2_mQ32, a.dilog_mD32_mQ32, a.log_mD32_mQ32, a.phixyz_mA2_mD32_mD32, a.phixyz_mA2_mQ32_mD32, a.phixyz_mA2_mQ32_mQ32])
      (Yb6.formula ⟨.var 0, .var 1, .var 2, .var 3, .var 4, .var 5, .var 6, .var 7, .var 8, .var 9, .var 10, .var 11, .var 12, .var 13, .var 14, .var 15, .var 16, .var 17, .var 18, .var 19, .var 20, .var 21, .var 22⟩) := fun a => by krfl
  rw [e, e]
  exact even id h (by decide +kernel)

theorem Ytau6_signs (a b : Ytau6.Arg ℝ)
    (h : Scaled (-1) [1, 1, 1, 0, 0, 0, 0, 0, 0, 0, 0, 0, 0, 0, 0, 0, 0, 0, 0, 0, 0, 0, 0] [a.Mu, a.Xtau, a.Ytau, a.cbeta, a.lMR, a.mA, a.mE3, a.mL3, a.sbeta, a.log_mE3, a.log_mL3, a.dilog_mL32_mE32, a.dilog_mE32_mL32, a.log_mA, a.phixyz_mA2_mE32_mE32, a.phixyz_mA2_mL32_mL32, a.phixyz_mA2_mE32_mL32, a.log_mE3_mL3, a.phixyz_mA2_mL32_mE32, a.log_mL32_mE32, a.dilog_mL32_Mu2, a.dilog_mE32_Mu2, a.log_Mu2]
      [b.Mu, b.Xtau, b.Ytau, b.cbeta, b.lMR, b.mA, b.mE3, b.mL3, b.sbeta, b.log_mE3, b.log_mL3, b.dilog_mL32_mE32, b.dilog_mE32_mL32, b.log_mA, b.phixyz_mA2_mE32_mE32, b.phixyz_mA2_mL32_mL32, b.phixyz_mA2_mE32_mL32, b.log_mE3_mL3, b.phixyz_mA2_mL32_mE32, b.log_mL32_mE32, b.dilog_mL32_Mu2, b.dilog_mE32_Mu2, b.log_Mu2]) : Ytau6.formula b = Ytau6.formula a := by
  have e : ∀ a : Ytau6.Arg ℝ, Ytau6.formula a = eval id (env [a.Mu, a.Xtau, a.Ytau, a.cbeta, a.lMR, a.mA, a.mE3, a.mL3, a.sbeta, a.log_mE3, a.log_mL3, a.dilog_mL32_mE32, a.dilog_mE32_mL32, a.log_mA, a.phixyz_mA2_mE32_mE32, a.phixyz_mA2_mL32_mL32, a.phixyz_mA2_mE32_mL32, a.log_mE3_mL3, a.phixyz_mA2_mL32_mE32, a.log_mL32_mE32, a.dilog_mL32_Mu2, a.dilog_mE32_Mu2, a.log_Mu2])
      (Ytau6.formula ⟨.var 0, .var 1, .var 2, .var 3, .var 4, .var 5, .var 6, .var 7, .var 8, .var 9, .var 10, .var 11, .var 12, .var 13, .var 14, .var 15, .var 16, .var 17, .var 18, .var 19, .var 20, .var 21, .var 22⟩) := fun a => by krfl
  rw [e, e]
  exact even id h (by decide +kernel)

theorem Yt6_signs (dl : ℝ → ℝ) (phi : ℝ → ℝ → ℝ → ℝ) (a b : Yt6.Arg ℝ) (lA lQ lm L : ℝ)
    (h : Scaled (-1) [0, 0, 0, 0, 0, 0, 1, 0, 0, 0, 1, 1, 0, 0, 0, 0, 0, 0, 0, 0, 0, 0, 0] [a.mQ32, a.mU32, a.mQ3, a.mU3, a.mA, a.mA2, a.Mu, a.Mu2, a.sbeta, a.cbeta, a.Xt, a.Yt, a.Xt2, a.Xt4, a.Xt6, lA, lQ, lm, L, phi a.mA2 a.mU32 a.mQ32, phi a.mA2 a.mQ32 a.mQ32, phi a.mA2 a.mU32 a.mU32, phi a.mA2 a.mQ32 a.mU32]
      [b.mQ32, b.mU32, b.mQ3, b.mU3, b.mA, b.mA2, b.Mu, b.Mu2, b.sbeta, b.cbeta, b.Xt, b.Yt, b.Xt2, b.Xt4, b.Xt6, lA, lQ, lm, L, phi b.mA2 b.mU32 b.mQ32, phi b.mA2 b.mQ32 b.mQ32, phi b.mA2 b.mU32 b.mU32, phi b.mA2 b.mQ32 b.mU32]) :
    Yt6.formula dl phi b lA lQ lm L = Yt6.formula dl phi a lA lQ lm L := by
  have e : ∀ (a : Yt6.Arg ℝ), Yt6.formula dl phi a lA lQ lm L = eval dl (env [a.mQ32, a.mU32, a.mQ3, a.mU3, a.mA, a.mA2, a.Mu, a.Mu2, a.sbeta, a.cbeta, a.Xt, a.Yt, a.Xt2, a.Xt4, a.Xt6, lA, lQ, lm, L, phi a.mA2 a.mU32 a.mQ32, phi a.mA2 a.mQ32 a.mQ32, phi a.mA2 a.mU32 a.mU32, phi a.mA2 a.mQ32 a.mU32])
      (Yt6.formula E.dilog Units.phiE ⟨.var 0, .var 1, .var 2, .var 3, .var 4, .var 5, .var 6, .var 7, .var 8, .var 9, .var 10, .var 11, .var 12, .var 13, .var 14⟩ (.var 15) (.var 16) (.var 17) (.var 18)) := fun a => by krfl
  rw [e, e]
  exact even dl h (by decide +kernel)

theorem Yb6_l0_signs {cbeta Xb2 M sbeta Xb Yb cbeta' Xb2' M' sbeta' Xb' Yb' : ℝ}
    (h : Scaled (-1) [0, 0, 0, 0, 1, 1] [cbeta, Xb2, M, sbeta, Xb, Yb] [cbeta', Xb2', M', sbeta', Xb', Yb']) :
    Units.Yb6_l0 cbeta' Xb2' M' sbeta' Xb' Yb' = Units.Yb6_l0 cbeta Xb2 M sbeta Xb Yb := by
  have e : ∀ cbeta Xb2 M sbeta Xb Yb : ℝ, Units.Yb6_l0 cbeta Xb2 M sbeta Xb Yb = eval id (env [cbeta, Xb2, M, sbeta, Xb, Yb])
    (Units.Yb6_l0 (.var 0) (.var 1) (.var 2) (.var 3) (.var 4) (.var 5)) := fun cbeta Xb2 M sbeta Xb Yb => by krfl
  rw [e, e]
  exact even id h (by decide +kernel)

theorem Ytau4Yb2_l0_signs {lmQ3MR Xb Xtau mL3 Xtau2 cbeta sbeta lmQ3MR' Xb' Xtau' mL3' Xtau2' cbeta' sbeta' : ℝ}
    (h : Scaled (-1) [0, 1, 1, 0, 0, 0, 0] [lmQ3MR, Xb, Xtau, mL3, Xtau2, cbeta, sbeta] [lmQ3MR', Xb', Xtau', mL3', Xtau2', cbeta', sbeta']) :
    Units.Ytau4Yb2_l0 lmQ3MR' Xb' Xtau' mL3' Xtau2' cbeta' sbeta' = Units.Ytau4Yb2_l0 lmQ3MR Xb Xtau mL3 Xtau2 cbeta sbeta := by
  have e : ∀ lmQ3MR Xb Xtau mL3 Xtau2 cbeta sbeta : ℝ, Units.Ytau4Yb2_l0 lmQ3MR Xb Xtau mL3 Xtau2 cbeta sbeta = eval id (env [lmQ3MR, Xb, Xtau, mL3, Xtau2, cbeta, sbeta])
    (Units.Ytau4Yb2_l0 (.var 0) (.var 1) (.var 2) (.var 3) (.var 4) (.var 5) (.var 6)) := fun lmQ3MR Xb Xtau mL3 Xtau2 cbeta sbeta => by krfl
  rw [e, e]
  exact even id h (by decide +kernel)

theorem Ytau4Yb2_l1_signs {Xb Xtau mL3 Xtau2 lmQ3MR mD32 mQ32 cbeta sbeta Xb' Xtau' mL3' Xtau2' lmQ3MR' mD32' mQ32' cbeta' sbeta' : ℝ}
    (h : Scaled (-1) [1, 1, 0, 0, 0, 0, 0, 0, 0] [Xb, Xtau, mL3, Xtau2, lmQ3MR, mD32, mQ32, cbeta, sbeta] [Xb', Xtau', mL3', Xtau2', lmQ3MR', mD32', mQ32', cbeta', sbeta']) :
    Units.Ytau4Yb2_l1 Xb' Xtau' mL3' Xtau2' lmQ3MR' mD32' mQ32' cbeta' sbeta' = Units.Ytau4Yb2_l1 Xb Xtau mL3 Xtau2 lmQ3MR mD32 mQ32 cbeta sbeta := by
  have e : ∀ Xb Xtau mL3 Xtau2 lmQ3MR mD32 mQ32 cbeta sbeta : ℝ, Units.Ytau4Yb2_l1 Xb Xtau mL3 Xtau2 lmQ3MR mD32 mQ32 cbeta sbeta = eval id (env [Xb, Xtau, mL3, Xtau2, lmQ3MR, mD32, mQ32, cbeta, sbeta])
    (Units.Ytau4Yb2_l1 (.var 0) (.var 1) (.var 2) (.var 3) (.var 4) (.var 5) (.var 6) (.var 7) (.var 8)) := fun Xb Xtau mL3 Xtau2 lmQ3MR mD32 mQ32 cbeta sbeta => by krfl
  rw [e, e]
  exact even id h (by decide +kernel)

theorem Ytau4Yb2_l2_signs {mE3 mL3 lmQ3MR Xb Xtau Xtau2 cbeta sbeta mE3' mL3' lmQ3MR' Xb' Xtau' Xtau2' cbeta' sbeta' : ℝ}
    (h : Scaled (-1) [0, 0, 0, 1, 1, 0, 0, 0] [mE3, mL3, lmQ3MR, Xb, Xtau, Xtau2, cbeta, sbeta] [mE3', mL3', lmQ3MR', Xb', Xtau', Xtau2', cbeta', sbeta']) :
    Units.Ytau4Yb2_l2 mE3' mL3' lmQ3MR' Xb' Xtau' Xtau2' cbeta' sbeta' = Units.Ytau4Yb2_l2 mE3 mL3 lmQ3MR Xb Xtau Xtau2 cbeta sbeta := by
  have e : ∀ mE3 mL3 lmQ3MR Xb Xtau Xtau2 cbeta sbeta : ℝ, Units.Ytau4Yb2_l2 mE3 mL3 lmQ3MR Xb Xtau Xtau2 cbeta sbeta = eval id (env [mE3, mL3, lmQ3MR, Xb, Xtau, Xtau2, cbeta, sbeta])
    (Units.Ytau4Yb2_l2 (.var 0) (.var 1) (.var 2) (.var 3) (.var 4) (.var 5) (.var 6) (.var 7)) := fun mE3 mL3 lmQ3MR Xb Xtau Xtau2 cbeta sbeta => by krfl
  rw [e, e]
  exact even id h (by decide +kernel)

theorem Ytau4Yb2_l3_signs {Xb Xtau lmQ3MR mD32 mQ32 Xtau2 mE3 mL3 cbeta sbeta Xb' Xtau' lmQ3MR' mD32' mQ32' Xtau2' mE3' mL3' cbeta' sbeta' : ℝ}
    (h : Scaled (-1) [1, 1, 0, 0, 0, 0, 0, 0, 0, 0] [Xb, Xtau, lmQ3MR, mD32, mQ32, Xtau2, mE3, mL3, cbeta, sbeta] [Xb', Xtau', lmQ3MR', mD32', mQ32', Xtau2', mE3', mL3', cbeta', sbeta']) :
    Units.Ytau4Yb2_l3 Xb' Xtau' lmQ3MR' mD32' mQ32' Xtau2' mE3' mL3' cbeta' sbeta' = Units.Ytau4Yb2_l3 Xb Xtau lmQ3MR mD32 mQ32 Xtau2 mE3 mL3 cbeta sbeta := by
  have e : ∀ Xb Xtau lmQ3MR mD32 mQ32 Xtau2 mE3 mL3 cbeta sbeta : ℝ, Units.Ytau4Yb2_l3 Xb Xtau lmQ3MR mD32 mQ32 Xtau2 mE3 mL3 cbeta sbeta = eval id (env [Xb, Xtau, lmQ3MR, mD32, mQ32, Xtau2, mE3, mL3, cbeta, sbeta])
    (Units.Ytau4Yb2_l3 (.var 0) (.var 1) (.var 2) (.var 3) (.var 4) (.var 5) (.var 6) (.var 7) (.var 8) (.var 9)) := fun Xb Xtau lmQ3MR mD32 mQ32 Xtau2 mE3 mL3 cbeta sbeta => by krfl
  rw [e, e]
  exact even id h (by decide +kernel)

theorem Ytau2Yb4_l0_signs {lmL3MR Xb mQ32 Xb2 Xtau cbeta sbeta mQ3 lmL3MR' Xb' mQ32' Xb2' Xtau' cbeta' sbeta' mQ3' : ℝ}
    (h : Scaled (-1) [0, 1, 0, 0, 1, 0, 0, 0] [lmL3MR, Xb, mQ32, Xb2, Xtau, cbeta, sbeta, mQ3] [lmL3MR', Xb', mQ32', Xb2', Xtau', cbeta', sbeta', mQ3']) :
    Units.Ytau2Yb4_l0 lmL3MR' Xb' mQ32' Xb2' Xtau' cbeta' sbeta' mQ3' = Units.Ytau2Yb4_l0 lmL3MR Xb mQ32 Xb2 Xtau cbeta sbeta mQ3 := by
  have e : ∀ lmL3MR Xb mQ32 Xb2 Xtau cbeta sbeta mQ3 : ℝ, Units.Ytau2Yb4_l0 lmL3MR Xb mQ32 Xb2 Xtau cbeta sbeta mQ3 = eval id (env [lmL3MR, Xb, mQ32, Xb2, Xtau, cbeta, sbeta, mQ3])
    (Units.Ytau2Yb4_l0 (.var 0) (.var 1) (.var 2) (.var 3) (.var 4) (.var 5) (.var 6) (.var 7)) := fun lmL3MR Xb mQ32 Xb2 Xtau cbeta sbeta mQ3 => by krfl
  rw [e, e]
  exact even id h (by decide +kernel)

theorem Ytau2Yb4_l1_signs {lmL3MR Xb Xtau mD32 mQ32 Xb2 lmQ3MR mD3 mQ3 lmD3MR cbeta sbeta lmL3MR' Xb' Xtau' mD32' mQ32' Xb2' lmQ3MR' mD3' mQ3' lmD3MR' cbeta' sbeta' : ℝ}
    (h : Scaled (-1) [0, 1, 1, 0, 0, 0, 0, 0, 0, 0, 0, 0] [lmL3MR, Xb, Xtau, mD32, mQ32, Xb2, lmQ3MR, mD3, mQ3, lmD3MR, cbeta, sbeta] [lmL3MR', Xb', Xtau', mD32', mQ32', Xb2', lmQ3MR', mD3', mQ3', lmD3MR', cbeta', sbeta']) :
    Units.Ytau2Yb4_l1 lmL3MR' Xb' Xtau' mD32' mQ32' Xb2' lmQ3MR' mD3' mQ3' lmD3MR' cbeta' sbeta' = Units.Ytau2Yb4_l1 lmL3MR Xb Xtau mD32 mQ32 Xb2 lmQ3MR mD3 mQ3 lmD3MR cbeta sbeta := by
  have e : ∀ lmL3MR Xb Xtau mD32 mQ32 Xb2 lmQ3MR mD3 mQ3 lmD3MR cbeta sbeta : ℝ, Units.Ytau2Yb4_l1 lmL3MR Xb Xtau mD32 mQ32 Xb2 lmQ3MR mD3 mQ3 lmD3MR cbeta sbeta = eval id (env [lmL3MR, Xb, Xtau, mD32, mQ32, Xb2, lmQ3MR, mD3, mQ3, lmD3MR, cbeta, sbeta])
    (Units.Ytau2Yb4_l1 (.var 0) (.var 1) (.var 2) (.var 3) (.var 4) (.var 5) (.var 6) (.var 7) (.var 8) (.var 9) (.var 10) (.var 11)) := fun lmL3MR Xb Xtau mD32 mQ32 Xb2 lmQ3MR mD3 mQ3 lmD3MR cbeta sbeta => by krfl
  rw [e, e]
  exact even id h (by decide +kernel)

theorem Ytau2Yb4_l2_signs {mE3 mL3 lmE3MR lmL3MR Xb mQ32 Xb2 Xtau cbeta sbeta mQ3 mE3' mL3' lmE3MR' lmL3MR' Xb' mQ32' Xb2' Xtau' cbeta' sbeta' mQ3' : ℝ}
    (h : Scaled (-1) [0, 0, 0, 0, 1, 0, 0, 1, 0, 0, 0] [mE3, mL3, lmE3MR, lmL3MR, Xb, mQ32, Xb2, Xtau, cbeta, sbeta, mQ3] [mE3', mL3', lmE3MR', lmL3MR', Xb', mQ32', Xb2', Xtau', cbeta', sbeta', mQ3']) :
    Units.Ytau2Yb4_l2 mE3' mL3' lmE3MR' lmL3MR' Xb' mQ32' Xb2' Xtau' cbeta' sbeta' mQ3' = Units.Ytau2Yb4_l2 mE3 mL3 lmE3MR lmL3MR Xb mQ32 Xb2 Xtau cbeta sbeta mQ3 := by
  have e : ∀ mE3 mL3 lmE3MR lmL3MR Xb mQ32 Xb2 Xtau cbeta sbeta mQ3 : ℝ, Units.Ytau2Yb4_l2 mE3 mL3 lmE3MR lmL3MR Xb mQ32 Xb2 Xtau cbeta sbeta mQ3 = eval id (env [mE3, mL3, lmE3MR, lmL3MR, Xb, mQ32, Xb2, Xtau, cbeta, sbeta, mQ3])
    (Units.Ytau2Yb4_l2 (.var 0) (.var 1) (.var 2) (.var 3) (.var 4) (.var 5) (.var 6) (.var 7) (.var 8) (.var 9) (.var 10)) := fun mE3 mL3 lmE3MR lmL3MR Xb mQ32 Xb2 Xtau cbeta sbeta mQ3 => by krfl
  rw [e, e]
  exact even id h (by decide +kernel)

theorem Ytau2Yb4_l3_signs {Xb Xtau mE3 lmE3MR mL3 lmL3MR mD32 mQ32 Xb2 lmQ3MR mD3 mQ3 lmD3MR cbeta sbeta Xb' Xtau' mE3' lmE3MR' mL3' lmL3MR' mD32' mQ32' Xb2' lmQ3MR' mD3' mQ3' lmD3MR' cbeta' sbeta' : ℝ}
    (h : Scaled (-1) [1, 1, 0, 0, 0, 0, 0, 0, 0, 0, 0, 0, 0, 0, 0] [Xb, Xtau, mE3, lmE3MR, mL3, lmL3MR, mD32, mQ32, Xb2, lmQ3MR, mD3, mQ3, lmD3MR, cbeta, sbeta] [Xb', Xtau', mE3', lmE3MR', mL3', lmL3MR', mD32', mQ32', Xb2', lmQ3MR', mD3', mQ3', lmD3MR', cbeta', sbeta']) :
    Units.Ytau2Yb4_l3 Xb' Xtau' mE3' lmE3MR' mL3' lmL3MR' mD32' mQ32' Xb2' lmQ3MR' mD3' mQ3' lmD3MR' cbeta' sbeta' = Units.Ytau2Yb4_l3 Xb Xtau mE3 lmE3MR mL3 lmL3MR mD32 mQ32 Xb2 lmQ3MR mD3 mQ3 lmD3MR cbeta sbeta := by
  have e : ∀ Xb Xtau mE3 lmE3MR mL3 lmL3MR mD32 mQ32 Xb2 lmQ3MR mD3 mQ3 lmD3MR cbeta sbeta : ℝ, Units.Ytau2Yb4_l3 Xb Xtau mE3 lmE3MR mL3 lmL3MR mD32 mQ32 Xb2 lmQ3MR mD3 mQ3 lmD3MR cbeta sbeta = eval id (env [Xb, Xtau, mE3, lmE3MR, mL3, lmL3MR, mD32, mQ32, Xb2, lmQ3MR, mD3, mQ3, lmD3MR, cbeta, sbeta])
    (Units.Ytau2Yb4_l3 (.var 0) (.var 1) (.var 2) (.var 3) (.var 4) (.var 5) (.var 6) (.var 7) (.var 8) (.var 9) (.var 10) (.var 11) (.var 12) (.var 13) (.var 14)) := fun Xb Xtau mE3 lmE3MR mL3 lmL3MR mD32 mQ32 Xb2 lmQ3MR mD3 mQ3 lmD3MR cbeta sbeta => by krfl
  rw [e, e]
  exact even id h (by decide +kernel)

end Himalaya.Signs
