import Verif.Kron.Weight
import Verif.Kron.LaurentKeys
import Verif.EFT.Yuk

/-!
# Mass dimension of the formulas of the threshold corrections

Generated by `tools/gen_units.py` from the model: each formula has mass dimension zero, i.e. it does not change if its arguments are
multiplied by the powers of `l` given by their mass dimensions.
-/

set_option linter.unusedVariables false
set_option maxRecDepth 20000

namespace Himalaya.Units

open Kron

theorem dYtAsGen_units (dl : ℝ → ℝ) {l : ℝ} (hl : l ≠ 0) {m32 mQ32 mU32 m3 mQ3 mU3 Xt lmQ3MR m32' mQ32' mU32' m3' mQ3' mU3' Xt' lmQ3MR' : ℝ}
    (h : Scaled l [2, 2, 2, 1, 1, 1, 1, 0] [m32, mQ32, mU32, m3, mQ3, mU3, Xt, lmQ3MR] [m32', mQ32', mU32', m3', mQ3', mU3', Xt', lmQ3MR']) : Thr.dYtAsGen m32' mQ32' mU32' m3' mQ3' mU3' Xt' lmQ3MR' = Thr.dYtAsGen m32 mQ32 mU32 m3 mQ3 mU3 Xt lmQ3MR := by
  have e : ∀ m32 mQ32 mU32 m3 mQ3 mU3 Xt lmQ3MR : ℝ, Thr.dYtAsGen m32 mQ32 mU32 m3 mQ3 mU3 Xt lmQ3MR = eval dl (env [m32, mQ32,
      mU32, m3, mQ3, mU3, Xt, lmQ3MR]) (Thr.dYtAsGen (.var 0) (.var 1) (.var 2) (.var 3) (.var 4) (.var 5) (.var 6) (.var 7)) :=
      fun m32 mQ32 mU32 m3 mQ3 mU3 Xt lmQ3MR => by krfl
  rw [e, e]
  exact homog dl hl (zpow_zero l) h (by decide +kernel)

theorem dYtAsQU_units (dl : ℝ → ℝ) {l : ℝ} (hl : l ≠ 0) {m32 mQ32 mU32 m3 mQ3 mU3 Xt lmQ3MR m32' mQ32' mU32' m3' mQ3' mU3' Xt' lmQ3MR' : ℝ}
    (h : Scaled l [2, 2, 2, 1, 1, 1, 1, 0] [m32, mQ32, mU32, m3, mQ3, mU3, Xt, lmQ3MR] [m32', mQ32', mU32', m3', mQ3', mU3', Xt', lmQ3MR']) : Thr.dYtAsQU m32' mQ32' mU32' m3' mQ3' mU3' Xt' lmQ3MR' = Thr.dYtAsQU m32 mQ32 mU32 m3 mQ3 mU3 Xt lmQ3MR := by
  have e : ∀ m32 mQ32 mU32 m3 mQ3 mU3 Xt lmQ3MR : ℝ, Thr.dYtAsQU m32 mQ32 mU32 m3 mQ3 mU3 Xt lmQ3MR = eval dl (env [m32, mQ32,
      mU32, m3, mQ3, mU3, Xt, lmQ3MR]) (Thr.dYtAsQU (.var 0) (.var 1) (.var 2) (.var 3) (.var 4) (.var 5) (.var 6) (.var 7)) := fun
      m32 mQ32 mU32 m3 mQ3 mU3 Xt lmQ3MR => by krfl
  rw [e, e]
  exact homog dl hl (zpow_zero l) h (by decide +kernel)

theorem dYtAsQG_units (dl : ℝ → ℝ) {l : ℝ} (hl : l ≠ 0) {m32 mQ32 mU32 m3 mQ3 mU3 Xt lmQ3MR m32' mQ32' mU32' m3' mQ3' mU3' Xt' lmQ3MR' : ℝ}
    (h : Scaled l [2, 2, 2, 1, 1, 1, 1, 0] [m32, mQ32, mU32, m3, mQ3, mU3, Xt, lmQ3MR] [m32', mQ32', mU32', m3', mQ3', mU3', Xt', lmQ3MR']) : Thr.dYtAsQG m32' mQ32' mU32' m3' mQ3' mU3' Xt' lmQ3MR' = Thr.dYtAsQG m32 mQ32 mU32 m3 mQ3 mU3 Xt lmQ3MR := by
  have e : ∀ m32 mQ32 mU32 m3 mQ3 mU3 Xt lmQ3MR : ℝ, Thr.dYtAsQG m32 mQ32 mU32 m3 mQ3 mU3 Xt lmQ3MR = eval dl (env [m32, mQ32,
      mU32, m3, mQ3, mU3, Xt, lmQ3MR]) (Thr.dYtAsQG (.var 0) (.var 1) (.var 2) (.var 3) (.var 4) (.var 5) (.var 6) (.var 7)) := fun
      m32 mQ32 mU32 m3 mQ3 mU3 Xt lmQ3MR => by krfl
  rw [e, e]
  exact homog dl hl (zpow_zero l) h (by decide +kernel)

theorem dYtAsUG_units (dl : ℝ → ℝ) {l : ℝ} (hl : l ≠ 0) {m32 mQ32 mU32 m3 mQ3 mU3 Xt lmQ3MR m32' mQ32' mU32' m3' mQ3' mU3' Xt' lmQ3MR' : ℝ}
    (h : Scaled l [2, 2, 2, 1, 1, 1, 1, 0] [m32, mQ32, mU32, m3, mQ3, mU3, Xt, lmQ3MR] [m32', mQ32', mU32', m3', mQ3', mU3', Xt', lmQ3MR']) : Thr.dYtAsUG m32' mQ32' mU32' m3' mQ3' mU3' Xt' lmQ3MR' = Thr.dYtAsUG m32 mQ32 mU32 m3 mQ3 mU3 Xt lmQ3MR := by
  have e : ∀ m32 mQ32 mU32 m3 mQ3 mU3 Xt lmQ3MR : ℝ, Thr.dYtAsUG m32 mQ32 mU32 m3 mQ3 mU3 Xt lmQ3MR = eval dl (env [m32, mQ32,
      mU32, m3, mQ3, mU3, Xt, lmQ3MR]) (Thr.dYtAsUG (.var 0) (.var 1) (.var 2) (.var 3) (.var 4) (.var 5) (.var 6) (.var 7)) := fun
      m32 mQ32 mU32 m3 mQ3 mU3 Xt lmQ3MR => by krfl
  rw [e, e]
  exact homog dl hl (zpow_zero l) h (by decide +kernel)

theorem dYtAsQUG_units (dl : ℝ → ℝ) {l : ℝ} (hl : l ≠ 0) {m32 mQ32 mU32 m3 mQ3 mU3 Xt lmQ3MR m32' mQ32' mU32' m3' mQ3' mU3' Xt' lmQ3MR' : ℝ}
    (h : Scaled l [2, 2, 2, 1, 1, 1, 1, 0] [m32, mQ32, mU32, m3, mQ3, mU3, Xt, lmQ3MR] [m32', mQ32', mU32', m3', mQ3', mU3', Xt', lmQ3MR']) : Thr.dYtAsQUG m32' mQ32' mU32' m3' mQ3' mU3' Xt' lmQ3MR' = Thr.dYtAsQUG m32 mQ32 mU32 m3 mQ3 mU3 Xt lmQ3MR := by
  have e : ∀ m32 mQ32 mU32 m3 mQ3 mU3 Xt lmQ3MR : ℝ, Thr.dYtAsQUG m32 mQ32 mU32 m3 mQ3 mU3 Xt lmQ3MR = eval dl (env [m32, mQ32,
      mU32, m3, mQ3, mU3, Xt, lmQ3MR]) (Thr.dYtAsQUG (.var 0) (.var 1) (.var 2) (.var 3) (.var 4) (.var 5) (.var 6) (.var 7)) :=
      fun m32 mQ32 mU32 m3 mQ3 mU3 Xt lmQ3MR => by krfl
  rw [e, e]
  exact homog dl hl (zpow_zero l) h (by decide +kernel)

theorem dLamAtGen_units (dl : ℝ → ℝ) {l : ℝ} (hl : l ≠ 0) {m32 mQ32 mU32 m3 mQ3 mU3 Xt lmQ3MR m32' mQ32' mU32' m3' mQ3' mU3' Xt' lmQ3MR' : ℝ}
    (h : Scaled l [2, 2, 2, 1, 1, 1, 1, 0] [m32, mQ32, mU32, m3, mQ3, mU3, Xt, lmQ3MR] [m32', mQ32', mU32', m3', mQ3', mU3', Xt', lmQ3MR']) : Thr.dLamAtGen m32' mQ32' mU32' m3' mQ3' mU3' Xt' lmQ3MR' = Thr.dLamAtGen m32 mQ32 mU32 m3 mQ3 mU3 Xt lmQ3MR := by
  have e : ∀ m32 mQ32 mU32 m3 mQ3 mU3 Xt lmQ3MR : ℝ, Thr.dLamAtGen m32 mQ32 mU32 m3 mQ3 mU3 Xt lmQ3MR = eval dl (env [m32,
      mQ32, mU32, m3, mQ3, mU3, Xt, lmQ3MR]) (Thr.dLamAtGen (.var 0) (.var 1) (.var 2) (.var 3) (.var 4) (.var 5) (.var 6) (.var
      7)) := fun m32 mQ32 mU32 m3 mQ3 mU3 Xt lmQ3MR => by krfl
  rw [e, e]
  exact homog dl hl (zpow_zero l) h (by decide +kernel)

theorem dLamAtQU_units (dl : ℝ → ℝ) {l : ℝ} (hl : l ≠ 0) {m32 mQ32 mU32 m3 mQ3 mU3 Xt lmQ3MR m32' mQ32' mU32' m3' mQ3' mU3' Xt' lmQ3MR' : ℝ}
    (h : Scaled l [2, 2, 2, 1, 1, 1, 1, 0] [m32, mQ32, mU32, m3, mQ3, mU3, Xt, lmQ3MR] [m32', mQ32', mU32', m3', mQ3', mU3', Xt', lmQ3MR']) : Thr.dLamAtQU m32' mQ32' mU32' m3' mQ3' mU3' Xt' lmQ3MR' = Thr.dLamAtQU m32 mQ32 mU32 m3 mQ3 mU3 Xt lmQ3MR := by
  have e : ∀ m32 mQ32 mU32 m3 mQ3 mU3 Xt lmQ3MR : ℝ, Thr.dLamAtQU m32 mQ32 mU32 m3 mQ3 mU3 Xt lmQ3MR = eval dl (env [m32, mQ32,
      mU32, m3, mQ3, mU3, Xt, lmQ3MR]) (Thr.dLamAtQU (.var 0) (.var 1) (.var 2) (.var 3) (.var 4) (.var 5) (.var 6) (.var 7)) :=
      fun m32 mQ32 mU32 m3 mQ3 mU3 Xt lmQ3MR => by krfl
  rw [e, e]
  exact homog dl hl (zpow_zero l) h (by decide +kernel)

theorem dLamAtAsGen_units (dl : ℝ → ℝ) {l : ℝ} (hl : l ≠ 0) {m32 mQ32 mU32 m3 mQ3 mU3 Xt lmQ3MR m32' mQ32' mU32' m3' mQ3' mU3' Xt' lmQ3MR' : ℝ}
    (h : Scaled l [2, 2, 2, 1, 1, 1, 1, 0] [m32, mQ32, mU32, m3, mQ3, mU3, Xt, lmQ3MR] [m32', mQ32', mU32', m3', mQ3', mU3', Xt', lmQ3MR']) : Thr.dLamAtAsGen dl m32' mQ32' mU32' m3' mQ3' mU3' Xt' lmQ3MR' = Thr.dLamAtAsGen dl m32 mQ32 mU32 m3 mQ3 mU3 Xt lmQ3MR := by
  have e : ∀ m32 mQ32 mU32 m3 mQ3 mU3 Xt lmQ3MR : ℝ, Thr.dLamAtAsGen dl m32 mQ32 mU32 m3 mQ3 mU3 Xt lmQ3MR = eval dl (env [m32,
      mQ32, mU32, m3, mQ3, mU3, Xt, lmQ3MR]) (Thr.dLamAtAsGen E.dilog (.var 0) (.var 1) (.var 2) (.var 3) (.var 4) (.var 5) (.var
      6) (.var 7)) := fun m32 mQ32 mU32 m3 mQ3 mU3 Xt lmQ3MR => by krfl
  rw [e, e]
  exact homog dl hl (zpow_zero l) h (by decide +kernel)

theorem dLamAtAsQU_units (dl : ℝ → ℝ) {l : ℝ} (hl : l ≠ 0) {m32 mQ32 mU32 m3 mQ3 mU3 Xt lmQ3MR m32' mQ32' mU32' m3' mQ3' mU3' Xt' lmQ3MR' : ℝ}
    (h : Scaled l [2, 2, 2, 1, 1, 1, 1, 0] [m32, mQ32, mU32, m3, mQ3, mU3, Xt, lmQ3MR] [m32', mQ32', mU32', m3', mQ3', mU3', Xt', lmQ3MR']) : Thr.dLamAtAsQU dl m32' mQ32' mU32' m3' mQ3' mU3' Xt' lmQ3MR' = Thr.dLamAtAsQU dl m32 mQ32 mU32 m3 mQ3 mU3 Xt lmQ3MR := by
  have e : ∀ m32 mQ32 mU32 m3 mQ3 mU3 Xt lmQ3MR : ℝ, Thr.dLamAtAsQU dl m32 mQ32 mU32 m3 mQ3 mU3 Xt lmQ3MR = eval dl (env [m32,
      mQ32, mU32, m3, mQ3, mU3, Xt, lmQ3MR]) (Thr.dLamAtAsQU E.dilog (.var 0) (.var 1) (.var 2) (.var 3) (.var 4) (.var 5) (.var 6)
      (.var 7)) := fun m32 mQ32 mU32 m3 mQ3 mU3 Xt lmQ3MR => by krfl
  rw [e, e]
  exact homog dl hl (zpow_zero l) h (by decide +kernel)

theorem dLamAtAsQG_units (dl : ℝ → ℝ) {l : ℝ} (hl : l ≠ 0) {m32 mQ32 mU32 m3 mQ3 mU3 Xt lmQ3MR m32' mQ32' mU32' m3' mQ3' mU3' Xt' lmQ3MR' : ℝ}
    (h : Scaled l [2, 2, 2, 1, 1, 1, 1, 0] [m32, mQ32, mU32, m3, mQ3, mU3, Xt, lmQ3MR] [m32', mQ32', mU32', m3', mQ3', mU3', Xt', lmQ3MR']) : Thr.dLamAtAsQG dl m32' mQ32' mU32' m3' mQ3' mU3' Xt' lmQ3MR' = Thr.dLamAtAsQG dl m32 mQ32 mU32 m3 mQ3 mU3 Xt lmQ3MR := by
  have e : ∀ m32 mQ32 mU32 m3 mQ3 mU3 Xt lmQ3MR : ℝ, Thr.dLamAtAsQG dl m32 mQ32 mU32 m3 mQ3 mU3 Xt lmQ3MR = eval dl (env [m32,
      mQ32, mU32, m3, mQ3, mU3, Xt, lmQ3MR]) (Thr.dLamAtAsQG E.dilog (.var 0) (.var 1) (.var 2) (.var 3) (.var 4) (.var 5) (.var 6)
      (.var 7)) := fun m32 mQ32 mU32 m3 mQ3 mU3 Xt lmQ3MR => by krfl
  rw [e, e]
  exact homog dl hl (zpow_zero l) h (by decide +kernel)

theorem dLamAtAsUG_units (dl : ℝ → ℝ) {l : ℝ} (hl : l ≠ 0) {m32 mQ32 mU32 m3 mQ3 mU3 Xt lmQ3MR m32' mQ32' mU32' m3' mQ3' mU3' Xt' lmQ3MR' : ℝ}
    (h : Scaled l [2, 2, 2, 1, 1, 1, 1, 0] [m32, mQ32, mU32, m3, mQ3, mU3, Xt, lmQ3MR] [m32', mQ32', mU32', m3', mQ3', mU3', Xt', lmQ3MR']) : Thr.dLamAtAsUG dl m32' mQ32' mU32' m3' mQ3' mU3' Xt' lmQ3MR' = Thr.dLamAtAsUG dl m32 mQ32 mU32 m3 mQ3 mU3 Xt lmQ3MR := by
  have e : ∀ m32 mQ32 mU32 m3 mQ3 mU3 Xt lmQ3MR : ℝ, Thr.dLamAtAsUG dl m32 mQ32 mU32 m3 mQ3 mU3 Xt lmQ3MR = eval dl (env [m32,
      mQ32, mU32, m3, mQ3, mU3, Xt, lmQ3MR]) (Thr.dLamAtAsUG E.dilog (.var 0) (.var 1) (.var 2) (.var 3) (.var 4) (.var 5) (.var 6)
      (.var 7)) := fun m32 mQ32 mU32 m3 mQ3 mU3 Xt lmQ3MR => by krfl
  rw [e, e]
  exact homog dl hl (zpow_zero l) h (by decide +kernel)

theorem dLamAtAsQUG_units (dl : ℝ → ℝ) {l : ℝ} (hl : l ≠ 0) {m32 mQ32 mU32 m3 mQ3 mU3 Xt lmQ3MR m32' mQ32' mU32' m3' mQ3' mU3' Xt' lmQ3MR' : ℝ}
    (h : Scaled l [2, 2, 2, 1, 1, 1, 1, 0] [m32, mQ32, mU32, m3, mQ3, mU3, Xt, lmQ3MR] [m32', mQ32', mU32', m3', mQ3', mU3', Xt', lmQ3MR']) : Thr.dLamAtAsQUG dl m32' mQ32' mU32' m3' mQ3' mU3' Xt' lmQ3MR' = Thr.dLamAtAsQUG dl m32 mQ32 mU32 m3 mQ3 mU3 Xt lmQ3MR := by
  have e : ∀ m32 mQ32 mU32 m3 mQ3 mU3 Xt lmQ3MR : ℝ, Thr.dLamAtAsQUG dl m32 mQ32 mU32 m3 mQ3 mU3 Xt lmQ3MR = eval dl (env [m32,
      mQ32, mU32, m3, mQ3, mU3, Xt, lmQ3MR]) (Thr.dLamAtAsQUG E.dilog (.var 0) (.var 1) (.var 2) (.var 3) (.var 4) (.var 5) (.var
      6) (.var 7)) := fun m32 mQ32 mU32 m3 mQ3 mU3 Xt lmQ3MR => by krfl
  rw [e, e]
  exact homog dl hl (zpow_zero l) h (by decide +kernel)

theorem dYtAs2Gen_units (dl : ℝ → ℝ) {l : ℝ} (hl : l ≠ 0) {m32 mQ32 mU32 msq2 m3 mQ3 mU3 msq Xt lmQ3MR m32' mQ32' mU32' msq2' m3' mQ3' mU3' msq' Xt' lmQ3MR' : ℝ}
    (h : Scaled l [2, 2, 2, 2, 1, 1, 1, 1, 1, 0] [m32, mQ32, mU32, msq2, m3, mQ3, mU3, msq, Xt, lmQ3MR] [m32', mQ32', mU32', msq2', m3', mQ3', mU3', msq', Xt', lmQ3MR']) : Thr.dYtAs2Gen dl m32' mQ32' mU32' msq2' m3' mQ3' mU3' msq' Xt' lmQ3MR' = Thr.dYtAs2Gen dl m32 mQ32 mU32 msq2 m3 mQ3 mU3 msq Xt lmQ3MR := by
  have e : ∀ m32 mQ32 mU32 msq2 m3 mQ3 mU3 msq Xt lmQ3MR : ℝ, Thr.dYtAs2Gen dl m32 mQ32 mU32 msq2 m3 mQ3 mU3 msq Xt lmQ3MR =
      eval dl (env [m32, mQ32, mU32, msq2, m3, mQ3, mU3, msq, Xt, lmQ3MR]) (Thr.dYtAs2Gen E.dilog (.var 0) (.var 1) (.var 2) (.var
      3) (.var 4) (.var 5) (.var 6) (.var 7) (.var 8) (.var 9)) := fun m32 mQ32 mU32 msq2 m3 mQ3 mU3 msq Xt lmQ3MR => by krfl
  rw [e, e]
  exact homog dl hl (zpow_zero l) h (by decide +kernel)

theorem dYtAs2QU_units (dl : ℝ → ℝ) {l : ℝ} (hl : l ≠ 0) {m32 mQ32 mU32 msq2 m3 mQ3 mU3 msq Xt lmQ3MR m32' mQ32' mU32' msq2' m3' mQ3' mU3' msq' Xt' lmQ3MR' : ℝ}
    (h : Scaled l [2, 2, 2, 2, 1, 1, 1, 1, 1, 0] [m32, mQ32, mU32, msq2, m3, mQ3, mU3, msq, Xt, lmQ3MR] [m32', mQ32', mU32', msq2', m3', mQ3', mU3', msq', Xt', lmQ3MR']) : Thr.dYtAs2QU dl m32' mQ32' mU32' msq2' m3' mQ3' mU3' msq' Xt' lmQ3MR' = Thr.dYtAs2QU dl m32 mQ32 mU32 msq2 m3 mQ3 mU3 msq Xt lmQ3MR := by
  have e : ∀ m32 mQ32 mU32 msq2 m3 mQ3 mU3 msq Xt lmQ3MR : ℝ, Thr.dYtAs2QU dl m32 mQ32 mU32 msq2 m3 mQ3 mU3 msq Xt lmQ3MR =
      eval dl (env [m32, mQ32, mU32, msq2, m3, mQ3, mU3, msq, Xt, lmQ3MR]) (Thr.dYtAs2QU E.dilog (.var 0) (.var 1) (.var 2) (.var
      3) (.var 4) (.var 5) (.var 6) (.var 7) (.var 8) (.var 9)) := fun m32 mQ32 mU32 msq2 m3 mQ3 mU3 msq Xt lmQ3MR => by krfl
  rw [e, e]
  exact homog dl hl (zpow_zero l) h (by decide +kernel)

theorem dYtAs2QG_units (dl : ℝ → ℝ) {l : ℝ} (hl : l ≠ 0) {m32 mQ32 mU32 msq2 m3 mQ3 mU3 msq Xt lmQ3MR m32' mQ32' mU32' msq2' m3' mQ3' mU3' msq' Xt' lmQ3MR' : ℝ}
    (h : Scaled l [2, 2, 2, 2, 1, 1, 1, 1, 1, 0] [m32, mQ32, mU32, msq2, m3, mQ3, mU3, msq, Xt, lmQ3MR] [m32', mQ32', mU32', msq2', m3', mQ3', mU3', msq', Xt', lmQ3MR']) : Thr.dYtAs2QG dl m32' mQ32' mU32' msq2' m3' mQ3' mU3' msq' Xt' lmQ3MR' = Thr.dYtAs2QG dl m32 mQ32 mU32 msq2 m3 mQ3 mU3 msq Xt lmQ3MR := by
  have e : ∀ m32 mQ32 mU32 msq2 m3 mQ3 mU3 msq Xt lmQ3MR : ℝ, Thr.dYtAs2QG dl m32 mQ32 mU32 msq2 m3 mQ3 mU3 msq Xt lmQ3MR =
      eval dl (env [m32, mQ32, mU32, msq2, m3, mQ3, mU3, msq, Xt, lmQ3MR]) (Thr.dYtAs2QG E.dilog (.var 0) (.var 1) (.var 2) (.var
      3) (.var 4) (.var 5) (.var 6) (.var 7) (.var 8) (.var 9)) := fun m32 mQ32 mU32 msq2 m3 mQ3 mU3 msq Xt lmQ3MR => by krfl
  rw [e, e]
  exact homog dl hl (zpow_zero l) h (by decide +kernel)

theorem dYtAs2UG_units (dl : ℝ → ℝ) {l : ℝ} (hl : l ≠ 0) {m32 mQ32 mU32 msq2 m3 mQ3 mU3 msq Xt lmQ3MR m32' mQ32' mU32' msq2' m3' mQ3' mU3' msq' Xt' lmQ3MR' : ℝ}
    (h : Scaled l [2, 2, 2, 2, 1, 1, 1, 1, 1, 0] [m32, mQ32, mU32, msq2, m3, mQ3, mU3, msq, Xt, lmQ3MR] [m32', mQ32', mU32', msq2', m3', mQ3', mU3', msq', Xt', lmQ3MR']) : Thr.dYtAs2UG dl m32' mQ32' mU32' msq2' m3' mQ3' mU3' msq' Xt' lmQ3MR' = Thr.dYtAs2UG dl m32 mQ32 mU32 msq2 m3 mQ3 mU3 msq Xt lmQ3MR := by
  have e : ∀ m32 mQ32 mU32 msq2 m3 mQ3 mU3 msq Xt lmQ3MR : ℝ, Thr.dYtAs2UG dl m32 mQ32 mU32 msq2 m3 mQ3 mU3 msq Xt lmQ3MR =
      eval dl (env [m32, mQ32, mU32, msq2, m3, mQ3, mU3, msq, Xt, lmQ3MR]) (Thr.dYtAs2UG E.dilog (.var 0) (.var 1) (.var 2) (.var
      3) (.var 4) (.var 5) (.var 6) (.var 7) (.var 8) (.var 9)) := fun m32 mQ32 mU32 msq2 m3 mQ3 mU3 msq Xt lmQ3MR => by krfl
  rw [e, e]
  exact homog dl hl (zpow_zero l) h (by decide +kernel)

theorem dYtAs2QUG_units (dl : ℝ → ℝ) {l : ℝ} (hl : l ≠ 0) {m32 mQ32 mU32 msq2 m3 mQ3 mU3 msq Xt lmQ3MR m32' mQ32' mU32' msq2' m3' mQ3' mU3' msq' Xt' lmQ3MR' : ℝ}
    (h : Scaled l [2, 2, 2, 2, 1, 1, 1, 1, 1, 0] [m32, mQ32, mU32, msq2, m3, mQ3, mU3, msq, Xt, lmQ3MR] [m32', mQ32', mU32', msq2', m3', mQ3', mU3', msq', Xt', lmQ3MR']) : Thr.dYtAs2QUG dl m32' mQ32' mU32' msq2' m3' mQ3' mU3' msq' Xt' lmQ3MR' = Thr.dYtAs2QUG dl m32 mQ32 mU32 msq2 m3 mQ3 mU3 msq Xt lmQ3MR := by
  have e : ∀ m32 mQ32 mU32 msq2 m3 mQ3 mU3 msq Xt lmQ3MR : ℝ, Thr.dYtAs2QUG dl m32 mQ32 mU32 msq2 m3 mQ3 mU3 msq Xt lmQ3MR =
      eval dl (env [m32, mQ32, mU32, msq2, m3, mQ3, mU3, msq, Xt, lmQ3MR]) (Thr.dYtAs2QUG E.dilog (.var 0) (.var 1) (.var 2) (.var
      3) (.var 4) (.var 5) (.var 6) (.var 7) (.var 8) (.var 9)) := fun m32 mQ32 mU32 msq2 m3 mQ3 mU3 msq Xt lmQ3MR => by krfl
  rw [e, e]
  exact homog dl hl (zpow_zero l) h (by decide +kernel)

theorem dYtAs2Deg_units (dl : ℝ → ℝ) {l : ℝ} (hl : l ≠ 0) {m32 mQ32 mU32 msq2 m3 mQ3 mU3 msq Xt lmQ3MR m32' mQ32' mU32' msq2' m3' mQ3' mU3' msq' Xt' lmQ3MR' : ℝ}
    (h : Scaled l [2, 2, 2, 2, 1, 1, 1, 1, 1, 0] [m32, mQ32, mU32, msq2, m3, mQ3, mU3, msq, Xt, lmQ3MR] [m32', mQ32', mU32', msq2', m3', mQ3', mU3', msq', Xt', lmQ3MR']) : Thr.dYtAs2Deg dl m32' mQ32' mU32' msq2' m3' mQ3' mU3' msq' Xt' lmQ3MR' = Thr.dYtAs2Deg dl m32 mQ32 mU32 msq2 m3 mQ3 mU3 msq Xt lmQ3MR := by
  have e : ∀ m32 mQ32 mU32 msq2 m3 mQ3 mU3 msq Xt lmQ3MR : ℝ, Thr.dYtAs2Deg dl m32 mQ32 mU32 msq2 m3 mQ3 mU3 msq Xt lmQ3MR =
      eval dl (env [m32, mQ32, mU32, msq2, m3, mQ3, mU3, msq, Xt, lmQ3MR]) (Thr.dYtAs2Deg E.dilog (.var 0) (.var 1) (.var 2) (.var
      3) (.var 4) (.var 5) (.var 6) (.var 7) (.var 8) (.var 9)) := fun m32 mQ32 mU32 msq2 m3 mQ3 mU3 msq Xt lmQ3MR => by krfl
  rw [e, e]
  exact homog dl hl (zpow_zero l) h (by decide +kernel)

theorem xtTermsGen_units (dl : ℝ → ℝ) {l : ℝ} (hl : l ≠ 0) {m32 mQ32 mU32 msq2 m3 mQ3 mU3 msq lmQ3MR Xt4 Xt5 Xt6 m32' mQ32' mU32' msq2' m3' mQ3' mU3' msq' lmQ3MR' Xt4' Xt5' Xt6' : ℝ}
    (h : Scaled l [2, 2, 2, 2, 1, 1, 1, 1, 0, 4, 5, 6] [m32, mQ32, mU32, msq2, m3, mQ3, mU3, msq, lmQ3MR, Xt4, Xt5, Xt6] [m32', mQ32', mU32', msq2', m3', mQ3', mU3', msq', lmQ3MR', Xt4', Xt5', Xt6']) : Thr.xtTermsGen dl m32' mQ32' mU32' msq2' m3' mQ3' mU3' msq' lmQ3MR' Xt4' Xt5' Xt6' = Thr.xtTermsGen dl m32 mQ32 mU32 msq2 m3 mQ3 mU3 msq lmQ3MR Xt4 Xt5 Xt6 := by
  have e : ∀ m32 mQ32 mU32 msq2 m3 mQ3 mU3 msq lmQ3MR Xt4 Xt5 Xt6 : ℝ, Thr.xtTermsGen dl m32 mQ32 mU32 msq2 m3 mQ3 mU3 msq
      lmQ3MR Xt4 Xt5 Xt6 = eval dl (env [m32, mQ32, mU32, msq2, m3, mQ3, mU3, msq, lmQ3MR, Xt4, Xt5, Xt6]) (Thr.xtTermsGen E.dilog
      (.var 0) (.var 1) (.var 2) (.var 3) (.var 4) (.var 5) (.var 6) (.var 7) (.var 8) (.var 9) (.var 10) (.var 11)) := fun m32
      mQ32 mU32 msq2 m3 mQ3 mU3 msq lmQ3MR Xt4 Xt5 Xt6 => by krfl
  rw [e, e]
  exact homog dl hl (zpow_zero l) h (by decide +kernel)

theorem xtTermsQU_units (dl : ℝ → ℝ) {l : ℝ} (hl : l ≠ 0) {m32 mQ32 mU32 msq2 m3 mQ3 mU3 msq lmQ3MR Xt4 Xt5 Xt6 m32' mQ32' mU32' msq2' m3' mQ3' mU3' msq' lmQ3MR' Xt4' Xt5' Xt6' : ℝ}
    (h : Scaled l [2, 2, 2, 2, 1, 1, 1, 1, 0, 4, 5, 6] [m32, mQ32, mU32, msq2, m3, mQ3, mU3, msq, lmQ3MR, Xt4, Xt5, Xt6] [m32', mQ32', mU32', msq2', m3', mQ3', mU3', msq', lmQ3MR', Xt4', Xt5', Xt6']) : Thr.xtTermsQU dl m32' mQ32' mU32' msq2' m3' mQ3' mU3' msq' lmQ3MR' Xt4' Xt5' Xt6' = Thr.xtTermsQU dl m32 mQ32 mU32 msq2 m3 mQ3 mU3 msq lmQ3MR Xt4 Xt5 Xt6 := by
  have e : ∀ m32 mQ32 mU32 msq2 m3 mQ3 mU3 msq lmQ3MR Xt4 Xt5 Xt6 : ℝ, Thr.xtTermsQU dl m32 mQ32 mU32 msq2 m3 mQ3 mU3 msq
      lmQ3MR Xt4 Xt5 Xt6 = eval dl (env [m32, mQ32, mU32, msq2, m3, mQ3, mU3, msq, lmQ3MR, Xt4, Xt5, Xt6]) (Thr.xtTermsQU E.dilog
      (.var 0) (.var 1) (.var 2) (.var 3) (.var 4) (.var 5) (.var 6) (.var 7) (.var 8) (.var 9) (.var 10) (.var 11)) := fun m32
      mQ32 mU32 msq2 m3 mQ3 mU3 msq lmQ3MR Xt4 Xt5 Xt6 => by krfl
  rw [e, e]
  exact homog dl hl (zpow_zero l) h (by decide +kernel)

theorem xtTermsQG_units (dl : ℝ → ℝ) {l : ℝ} (hl : l ≠ 0) {m32 mQ32 mU32 msq2 m3 mQ3 mU3 msq lmQ3MR Xt4 Xt5 Xt6 m32' mQ32' mU32' msq2' m3' mQ3' mU3' msq' lmQ3MR' Xt4' Xt5' Xt6' : ℝ}
    (h : Scaled l [2, 2, 2, 2, 1, 1, 1, 1, 0, 4, 5, 6] [m32, mQ32, mU32, msq2, m3, mQ3, mU3, msq, lmQ3MR, Xt4, Xt5, Xt6] [m32', mQ32', mU32', msq2', m3', mQ3', mU3', msq', lmQ3MR', Xt4', Xt5', Xt6']) : Thr.xtTermsQG dl m32' mQ32' mU32' msq2' m3' mQ3' mU3' msq' lmQ3MR' Xt4' Xt5' Xt6' = Thr.xtTermsQG dl m32 mQ32 mU32 msq2 m3 mQ3 mU3 msq lmQ3MR Xt4 Xt5 Xt6 := by
  have e : ∀ m32 mQ32 mU32 msq2 m3 mQ3 mU3 msq lmQ3MR Xt4 Xt5 Xt6 : ℝ, Thr.xtTermsQG dl m32 mQ32 mU32 msq2 m3 mQ3 mU3 msq
      lmQ3MR Xt4 Xt5 Xt6 = eval dl (env [m32, mQ32, mU32, msq2, m3, mQ3, mU3, msq, lmQ3MR, Xt4, Xt5, Xt6]) (Thr.xtTermsQG E.dilog
      (.var 0) (.var 1) (.var 2) (.var 3) (.var 4) (.var 5) (.var 6) (.var 7) (.var 8) (.var 9) (.var 10) (.var 11)) := fun m32
      mQ32 mU32 msq2 m3 mQ3 mU3 msq lmQ3MR Xt4 Xt5 Xt6 => by krfl
  rw [e, e]
  exact homog dl hl (zpow_zero l) h (by decide +kernel)

theorem xtTermsUG_units (dl : ℝ → ℝ) {l : ℝ} (hl : l ≠ 0) {m32 mQ32 mU32 msq2 m3 mQ3 mU3 msq lmQ3MR Xt4 Xt5 Xt6 m32' mQ32' mU32' msq2' m3' mQ3' mU3' msq' lmQ3MR' Xt4' Xt5' Xt6' : ℝ}
    (h : Scaled l [2, 2, 2, 2, 1, 1, 1, 1, 0, 4, 5, 6] [m32, mQ32, mU32, msq2, m3, mQ3, mU3, msq, lmQ3MR, Xt4, Xt5, Xt6] [m32', mQ32', mU32', msq2', m3', mQ3', mU3', msq', lmQ3MR', Xt4', Xt5', Xt6']) : Thr.xtTermsUG dl m32' mQ32' mU32' msq2' m3' mQ3' mU3' msq' lmQ3MR' Xt4' Xt5' Xt6' = Thr.xtTermsUG dl m32 mQ32 mU32 msq2 m3 mQ3 mU3 msq lmQ3MR Xt4 Xt5 Xt6 := by
  have e : ∀ m32 mQ32 mU32 msq2 m3 mQ3 mU3 msq lmQ3MR Xt4 Xt5 Xt6 : ℝ, Thr.xtTermsUG dl m32 mQ32 mU32 msq2 m3 mQ3 mU3 msq
      lmQ3MR Xt4 Xt5 Xt6 = eval dl (env [m32, mQ32, mU32, msq2, m3, mQ3, mU3, msq, lmQ3MR, Xt4, Xt5, Xt6]) (Thr.xtTermsUG E.dilog
      (.var 0) (.var 1) (.var 2) (.var 3) (.var 4) (.var 5) (.var 6) (.var 7) (.var 8) (.var 9) (.var 10) (.var 11)) := fun m32
      mQ32 mU32 msq2 m3 mQ3 mU3 msq lmQ3MR Xt4 Xt5 Xt6 => by krfl
  rw [e, e]
  exact homog dl hl (zpow_zero l) h (by decide +kernel)

theorem xtTermsQUG_units (dl : ℝ → ℝ) {l : ℝ} (hl : l ≠ 0) {m32 mQ32 mU32 msq2 m3 mQ3 mU3 msq lmQ3MR Xt4 Xt5 Xt6 m32' mQ32' mU32' msq2' m3' mQ3' mU3' msq' lmQ3MR' Xt4' Xt5' Xt6' : ℝ}
    (h : Scaled l [2, 2, 2, 2, 1, 1, 1, 1, 0, 4, 5, 6] [m32, mQ32, mU32, msq2, m3, mQ3, mU3, msq, lmQ3MR, Xt4, Xt5, Xt6] [m32', mQ32', mU32', msq2', m3', mQ3', mU3', msq', lmQ3MR', Xt4', Xt5', Xt6']) : Thr.xtTermsQUG dl m32' mQ32' mU32' msq2' m3' mQ3' mU3' msq' lmQ3MR' Xt4' Xt5' Xt6' = Thr.xtTermsQUG dl m32 mQ32 mU32 msq2 m3 mQ3 mU3 msq lmQ3MR Xt4 Xt5 Xt6 := by
  have e : ∀ m32 mQ32 mU32 msq2 m3 mQ3 mU3 msq lmQ3MR Xt4 Xt5 Xt6 : ℝ, Thr.xtTermsQUG dl m32 mQ32 mU32 msq2 m3 mQ3 mU3 msq
      lmQ3MR Xt4 Xt5 Xt6 = eval dl (env [m32, mQ32, mU32, msq2, m3, mQ3, mU3, msq, lmQ3MR, Xt4, Xt5, Xt6]) (Thr.xtTermsQUG E.dilog
      (.var 0) (.var 1) (.var 2) (.var 3) (.var 4) (.var 5) (.var 6) (.var 7) (.var 8) (.var 9) (.var 10) (.var 11)) := fun m32
      mQ32 mU32 msq2 m3 mQ3 mU3 msq lmQ3MR Xt4 Xt5 Xt6 => by krfl
  rw [e, e]
  exact homog dl hl (zpow_zero l) h (by decide +kernel)

theorem xtTermsDeg_units (dl : ℝ → ℝ) {l : ℝ} (hl : l ≠ 0) {m32 mQ32 mU32 msq2 m3 mQ3 mU3 msq lmQ3MR Xt4 Xt5 Xt6 m32' mQ32' mU32' msq2' m3' mQ3' mU3' msq' lmQ3MR' Xt4' Xt5' Xt6' : ℝ}
    (h : Scaled l [2, 2, 2, 2, 1, 1, 1, 1, 0, 4, 5, 6] [m32, mQ32, mU32, msq2, m3, mQ3, mU3, msq, lmQ3MR, Xt4, Xt5, Xt6] [m32', mQ32', mU32', msq2', m3', mQ3', mU3', msq', lmQ3MR', Xt4', Xt5', Xt6']) : Thr.xtTermsDeg dl m32' mQ32' mU32' msq2' m3' mQ3' mU3' msq' lmQ3MR' Xt4' Xt5' Xt6' = Thr.xtTermsDeg dl m32 mQ32 mU32 msq2 m3 mQ3 mU3 msq lmQ3MR Xt4 Xt5 Xt6 := by
  have e : ∀ m32 mQ32 mU32 msq2 m3 mQ3 mU3 msq lmQ3MR Xt4 Xt5 Xt6 : ℝ, Thr.xtTermsDeg dl m32 mQ32 mU32 msq2 m3 mQ3 mU3 msq
      lmQ3MR Xt4 Xt5 Xt6 = eval dl (env [m32, mQ32, mU32, msq2, m3, mQ3, mU3, msq, lmQ3MR, Xt4, Xt5, Xt6]) (Thr.xtTermsDeg E.dilog
      (.var 0) (.var 1) (.var 2) (.var 3) (.var 4) (.var 5) (.var 6) (.var 7) (.var 8) (.var 9) (.var 10) (.var 11)) := fun m32
      mQ32 mU32 msq2 m3 mQ3 mU3 msq lmQ3MR Xt4 Xt5 Xt6 => by krfl
  rw [e, e]
  exact homog dl hl (zpow_zero l) h (by decide +kernel)

theorem dLamAtAs2Gen_units (dl : ℝ → ℝ) {l : ℝ} (hl : l ≠ 0) {m32 mQ32 mU32 msq2 m3 mQ3 mU3 Xt lmQ3MR z3 dlatas2Const Xt4 Xt5 m32' mQ32' mU32' msq2' m3' mQ3' mU3' Xt' lmQ3MR' z3' dlatas2Const' Xt4' Xt5' : ℝ}
    (h : Scaled l [2, 2, 2, 2, 1, 1, 1, 1, 0, 0, 0, 4, 5] [m32, mQ32, mU32, msq2, m3, mQ3, mU3, Xt, lmQ3MR, z3, dlatas2Const, Xt4, Xt5] [m32', mQ32', mU32', msq2', m3', mQ3', mU3', Xt', lmQ3MR', z3', dlatas2Const', Xt4', Xt5']) : Thr.dLamAtAs2Gen dl m32' mQ32' mU32' msq2' m3' mQ3' mU3' Xt' lmQ3MR' z3' dlatas2Const' Xt4' Xt5' = Thr.dLamAtAs2Gen dl m32 mQ32 mU32 msq2 m3 mQ3 mU3 Xt lmQ3MR z3 dlatas2Const Xt4 Xt5 := by
  have e : ∀ m32 mQ32 mU32 msq2 m3 mQ3 mU3 Xt lmQ3MR z3 dlatas2Const Xt4 Xt5 : ℝ, Thr.dLamAtAs2Gen dl m32 mQ32 mU32 msq2 m3 mQ3
      mU3 Xt lmQ3MR z3 dlatas2Const Xt4 Xt5 = eval dl (env [m32, mQ32, mU32, msq2, m3, mQ3, mU3, Xt, lmQ3MR, z3, dlatas2Const, Xt4,
      Xt5]) (Thr.dLamAtAs2Gen E.dilog (.var 0) (.var 1) (.var 2) (.var 3) (.var 4) (.var 5) (.var 6) (.var 7) (.var 8) (.var 9)
      (.var 10) (.var 11) (.var 12)) := fun m32 mQ32 mU32 msq2 m3 mQ3 mU3 Xt lmQ3MR z3 dlatas2Const Xt4 Xt5 => by krfl
  rw [e, e]
  exact homog dl hl (zpow_zero l) h (by decide +kernel)

theorem dLamAtAs2QU_units (dl : ℝ → ℝ) {l : ℝ} (hl : l ≠ 0) {m32 mQ32 mU32 msq2 m3 mQ3 mU3 Xt lmQ3MR z3 dlatas2Const Xt4 Xt5 m32' mQ32' mU32' msq2' m3' mQ3' mU3' Xt' lmQ3MR' z3' dlatas2Const' Xt4' Xt5' : ℝ}
    (h : Scaled l [2, 2, 2, 2, 1, 1, 1, 1, 0, 0, 0, 4, 5] [m32, mQ32, mU32, msq2, m3, mQ3, mU3, Xt, lmQ3MR, z3, dlatas2Const, Xt4, Xt5] [m32', mQ32', mU32', msq2', m3', mQ3', mU3', Xt', lmQ3MR', z3', dlatas2Const', Xt4', Xt5']) : Thr.dLamAtAs2QU dl m32' mQ32' mU32' msq2' m3' mQ3' mU3' Xt' lmQ3MR' z3' dlatas2Const' Xt4' Xt5' = Thr.dLamAtAs2QU dl m32 mQ32 mU32 msq2 m3 mQ3 mU3 Xt lmQ3MR z3 dlatas2Const Xt4 Xt5 := by
  have e : ∀ m32 mQ32 mU32 msq2 m3 mQ3 mU3 Xt lmQ3MR z3 dlatas2Const Xt4 Xt5 : ℝ, Thr.dLamAtAs2QU dl m32 mQ32 mU32 msq2 m3 mQ3
      mU3 Xt lmQ3MR z3 dlatas2Const Xt4 Xt5 = eval dl (env [m32, mQ32, mU32, msq2, m3, mQ3, mU3, Xt, lmQ3MR, z3, dlatas2Const, Xt4,
      Xt5]) (Thr.dLamAtAs2QU E.dilog (.var 0) (.var 1) (.var 2) (.var 3) (.var 4) (.var 5) (.var 6) (.var 7) (.var 8) (.var 9)
      (.var 10) (.var 11) (.var 12)) := fun m32 mQ32 mU32 msq2 m3 mQ3 mU3 Xt lmQ3MR z3 dlatas2Const Xt4 Xt5 => by krfl
  rw [e, e]
  exact homog dl hl (zpow_zero l) h (by decide +kernel)

theorem dLamAtAs2QG_units (dl : ℝ → ℝ) {l : ℝ} (hl : l ≠ 0) {m32 mQ32 mU32 msq2 m3 mQ3 mU3 Xt lmQ3MR z3 dlatas2Const Xt4 Xt5 m32' mQ32' mU32' msq2' m3' mQ3' mU3' Xt' lmQ3MR' z3' dlatas2Const' Xt4' Xt5' : ℝ}
    (h : Scaled l [2, 2, 2, 2, 1, 1, 1, 1, 0, 0, 0, 4, 5] [m32, mQ32, mU32, msq2, m3, mQ3, mU3, Xt, lmQ3MR, z3, dlatas2Const, Xt4, Xt5] [m32', mQ32', mU32', msq2', m3', mQ3', mU3', Xt', lmQ3MR', z3', dlatas2Const', Xt4', Xt5']) : Thr.dLamAtAs2QG dl m32' mQ32' mU32' msq2' m3' mQ3' mU3' Xt' lmQ3MR' z3' dlatas2Const' Xt4' Xt5' = Thr.dLamAtAs2QG dl m32 mQ32 mU32 msq2 m3 mQ3 mU3 Xt lmQ3MR z3 dlatas2Const Xt4 Xt5 := by
  have e : ∀ m32 mQ32 mU32 msq2 m3 mQ3 mU3 Xt lmQ3MR z3 dlatas2Const Xt4 Xt5 : ℝ, Thr.dLamAtAs2QG dl m32 mQ32 mU32 msq2 m3 mQ3
      mU3 Xt lmQ3MR z3 dlatas2Const Xt4 Xt5 = eval dl (env [m32, mQ32, mU32, msq2, m3, mQ3, mU3, Xt, lmQ3MR, z3, dlatas2Const, Xt4,
      Xt5]) (Thr.dLamAtAs2QG E.dilog (.var 0) (.var 1) (.var 2) (.var 3) (.var 4) (.var 5) (.var 6) (.var 7) (.var 8) (.var 9)
      (.var 10) (.var 11) (.var 12)) := fun m32 mQ32 mU32 msq2 m3 mQ3 mU3 Xt lmQ3MR z3 dlatas2Const Xt4 Xt5 => by krfl
  rw [e, e]
  exact homog dl hl (zpow_zero l) h (by decide +kernel)

theorem dLamAtAs2UG_units (dl : ℝ → ℝ) {l : ℝ} (hl : l ≠ 0) {m32 mQ32 mU32 msq2 m3 mQ3 mU3 Xt lmQ3MR z3 dlatas2Const Xt4 Xt5 m32' mQ32' mU32' msq2' m3' mQ3' mU3' Xt' lmQ3MR' z3' dlatas2Const' Xt4' Xt5' : ℝ}
    (h : Scaled l [2, 2, 2, 2, 1, 1, 1, 1, 0, 0, 0, 4, 5] [m32, mQ32, mU32, msq2, m3, mQ3, mU3, Xt, lmQ3MR, z3, dlatas2Const, Xt4, Xt5] [m32', mQ32', mU32', msq2', m3', mQ3', mU3', Xt', lmQ3MR', z3', dlatas2Const', Xt4', Xt5']) : Thr.dLamAtAs2UG dl m32' mQ32' mU32' msq2' m3' mQ3' mU3' Xt' lmQ3MR' z3' dlatas2Const' Xt4' Xt5' = Thr.dLamAtAs2UG dl m32 mQ32 mU32 msq2 m3 mQ3 mU3 Xt lmQ3MR z3 dlatas2Const Xt4 Xt5 := by
  have e : ∀ m32 mQ32 mU32 msq2 m3 mQ3 mU3 Xt lmQ3MR z3 dlatas2Const Xt4 Xt5 : ℝ, Thr.dLamAtAs2UG dl m32 mQ32 mU32 msq2 m3 mQ3
      mU3 Xt lmQ3MR z3 dlatas2Const Xt4 Xt5 = eval dl (env [m32, mQ32, mU32, msq2, m3, mQ3, mU3, Xt, lmQ3MR, z3, dlatas2Const, Xt4,
      Xt5]) (Thr.dLamAtAs2UG E.dilog (.var 0) (.var 1) (.var 2) (.var 3) (.var 4) (.var 5) (.var 6) (.var 7) (.var 8) (.var 9)
      (.var 10) (.var 11) (.var 12)) := fun m32 mQ32 mU32 msq2 m3 mQ3 mU3 Xt lmQ3MR z3 dlatas2Const Xt4 Xt5 => by krfl
  rw [e, e]
  exact homog dl hl (zpow_zero l) h (by decide +kernel)

theorem dLamAtAs2QUG_units (dl : ℝ → ℝ) {l : ℝ} (hl : l ≠ 0) {m32 mQ32 mU32 msq2 m3 mQ3 mU3 Xt lmQ3MR z3 dlatas2Const Xt4 Xt5 m32' mQ32' mU32' msq2' m3' mQ3' mU3' Xt' lmQ3MR' z3' dlatas2Const' Xt4' Xt5' : ℝ}
    (h : Scaled l [2, 2, 2, 2, 1, 1, 1, 1, 0, 0, 0, 4, 5] [m32, mQ32, mU32, msq2, m3, mQ3, mU3, Xt, lmQ3MR, z3, dlatas2Const, Xt4, Xt5] [m32', mQ32', mU32', msq2', m3', mQ3', mU3', Xt', lmQ3MR', z3', dlatas2Const', Xt4', Xt5']) : Thr.dLamAtAs2QUG dl m32' mQ32' mU32' msq2' m3' mQ3' mU3' Xt' lmQ3MR' z3' dlatas2Const' Xt4' Xt5' = Thr.dLamAtAs2QUG dl m32 mQ32 mU32 msq2 m3 mQ3 mU3 Xt lmQ3MR z3 dlatas2Const Xt4 Xt5 := by
  have e : ∀ m32 mQ32 mU32 msq2 m3 mQ3 mU3 Xt lmQ3MR z3 dlatas2Const Xt4 Xt5 : ℝ, Thr.dLamAtAs2QUG dl m32 mQ32 mU32 msq2 m3 mQ3
      mU3 Xt lmQ3MR z3 dlatas2Const Xt4 Xt5 = eval dl (env [m32, mQ32, mU32, msq2, m3, mQ3, mU3, Xt, lmQ3MR, z3, dlatas2Const, Xt4,
      Xt5]) (Thr.dLamAtAs2QUG E.dilog (.var 0) (.var 1) (.var 2) (.var 3) (.var 4) (.var 5) (.var 6) (.var 7) (.var 8) (.var 9)
      (.var 10) (.var 11) (.var 12)) := fun m32 mQ32 mU32 msq2 m3 mQ3 mU3 Xt lmQ3MR z3 dlatas2Const Xt4 Xt5 => by krfl
  rw [e, e]
  exact homog dl hl (zpow_zero l) h (by decide +kernel)

theorem Yb6_units (a b : Yb6.Arg ℝ) {l : ℝ} (hl : l ≠ 0)
    (h : Scaled l [1, 2, 1, 2, 1, 0, 0, 0, 1, 2, 1, 2, 1, 2, 0, 0, 0, 0, 0, 0, 0, 0, 0] [a.Mu, a.Mu2, a.Xb, a.Xb2, a.Yb, a.cbeta, a.lmQ3MR, a.lmUMR, a.mA, a.mA2, a.mD3, a.mD32, a.mQ3, a.mQ32, a.sbeta, a.log_mA2_MR2, a.dilog_Mu2_mD32, a.dilog_Mu2_mQ32, a.dilog_mD32_mQ32, a.log_mD32_mQ32, a.phixyz_mA2_mD32_mD32, a.phixyz_mA2_mQ32_mD32, a.phixyz_mA2_mQ32_mQ32]
      [b.Mu, b.Mu2, b.Xb, b.Xb2, b.Yb, b.cbeta, b.lmQ3MR, b.lmUMR, b.mA, b.mA2, b.mD3, b.mD32, b.mQ3, b.mQ32, b.sbeta,
          b.log_mA2_MR2, b.dilog_Mu2_mD32, b.dilog_Mu2_mQ32, b.dilog_mD32_mQ32, b.log_mD32_mQ32, b.phixyz_mA2_mD32_mD32,
          b.phixyz_mA2_mQ32_mD32, b.phixyz_mA2_mQ32_mQ32]) : Yb6.formula b = Yb6.formula a := by
  have e : ∀ a : Yb6.Arg ℝ, Yb6.formula a = eval id (env [a.Mu, a.Mu2, a.Xb, a.Xb2, a.Yb, a.cbeta, a.lmQ3MR, a.lmUMR, a.mA,
      a.mA2, a.mD3, a.mD32, a.mQ3, a.mQ32, a.sbeta, a.log_mA2_MR2, a.dilog_Mu2_mD32, a.dilog_Mu2_mQ32, a.dilog_mD32_mQ32,
      a.log_mD32_mQ32, a.phixyz_mA2_mD32_mD32, a.phixyz_mA2_mQ32_mD32, a.phixyz_mA2_mQ32_mQ32])
      (Yb6.formula ⟨.var 0, .var 1, .var 2, .var 3, .var 4, .var 5, .var 6, .var 7, .var 8, .var 9, .var 10, .var 11, .var 12, .var 13, .var 14, .var 15, .var 16, .var 17, .var 18, .var 19, .var 20, .var 21, .var 22⟩) := fun a => by krfl
  rw [e, e]
  exact homog id hl (zpow_zero l) h (by decide +kernel)

theorem Yt2Yb4_units (a b : Yt2Yb4.Arg ℝ) {l : ℝ} (hl : l ≠ 0)
    (h : Scaled l [1, 2, 1, 2, 1, 2, 1, 1, 0, 0, 0, 1, 2, 1, 2, 1, 2, 1, 2, 0, 1, 0, 0, 0, 0, 0, 3, 0, 0, 0, 0, 0, 0, 0, 0] [a.Mu, a.Mu2, a.Xb, a.Xb2, a.Xt, a.Xt2, a.Yb, a.Yt, a.cbeta, a.lmQ3MR, a.lmUMR, a.mA, a.mA2, a.mD3, a.mD32, a.mQ3, a.mQ32, a.mU3, a.mU32, a.sbeta, a.abs_Mu, a.dilog_Mu2_mD32, a.dilog_Mu2_mQ32, a.dilog_Mu2_mU32, a.log_mA2_MR2, a.log_mU32_mQ32, a.pow_Mu2_15, a.dilog_mD32_mQ32, a.log_mD32_mQ32, a.phixyz_mA2_mU32_mD32, a.phixyz_mA2_mQ32_mD32, a.phixyz_mA2_mQ32_mQ32, a.phixyz_mA2_mU32_mQ32, a.dilog_mQ32_mU32, a.dilog_mD32_mU32]
      [b.Mu, b.Mu2, b.Xb, b.Xb2, b.Xt, b.Xt2, b.Yb, b.Yt, b.cbeta, b.lmQ3MR, b.lmUMR, b.mA, b.mA2, b.mD3, b.mD32, b.mQ3, b.mQ32,
          b.mU3, b.mU32, b.sbeta, b.abs_Mu, b.dilog_Mu2_mD32, b.dilog_Mu2_mQ32, b.dilog_Mu2_mU32, b.log_mA2_MR2, b.log_mU32_mQ32,
          b.pow_Mu2_15, b.dilog_mD32_mQ32, b.log_mD32_mQ32, b.phixyz_mA2_mU32_mD32, b.phixyz_mA2_mQ32_mD32, b.phixyz_mA2_mQ32_mQ32,
          b.phixyz_mA2_mU32_mQ32, b.dilog_mQ32_mU32, b.dilog_mD32_mU32]) : Yt2Yb4.formula b = Yt2Yb4.formula a := by
  have e : ∀ a : Yt2Yb4.Arg ℝ, Yt2Yb4.formula a = eval id (env [a.Mu, a.Mu2, a.Xb, a.Xb2, a.Xt, a.Xt2, a.Yb, a.Yt, a.cbeta,
      a.lmQ3MR, a.lmUMR, a.mA, a.mA2, a.mD3, a.mD32, a.mQ3, a.mQ32, a.mU3, a.mU32, a.sbeta, a.abs_Mu, a.dilog_Mu2_mD32,
      a.dilog_Mu2_mQ32, a.dilog_Mu2_mU32, a.log_mA2_MR2, a.log_mU32_mQ32, a.pow_Mu2_15, a.dilog_mD32_mQ32, a.log_mD32_mQ32,
      a.phixyz_mA2_mU32_mD32, a.phixyz_mA2_mQ32_mD32, a.phixyz_mA2_mQ32_mQ32, a.phixyz_mA2_mU32_mQ32, a.dilog_mQ32_mU32,
      a.dilog_mD32_mU32])
      (Yt2Yb4.formula ⟨.var 0, .var 1, .var 2, .var 3, .var 4, .var 5, .var 6, .var 7, .var 8, .var 9, .var 10, .var 11, .var 12, .var 13, .var 14, .var 15, .var 16, .var 17, .var 18, .var 19, .var 20, .var 21, .var 22, .var 23, .var 24, .var 25, .var 26, .var 27, .var 28, .var 29, .var 30, .var 31, .var 32, .var 33, .var 34⟩) := fun a => by krfl
  rw [e, e]
  exact homog id hl (zpow_zero l) h (by decide +kernel)

theorem Yt4Yb2_units (a b : Yt4Yb2.Arg ℝ) {l : ℝ} (hl : l ≠ 0)
    (h : Scaled l [1, 2, 1, 2, 1, 2, 4, 1, 1, 0, 0, 0, 1, 2, 1, 2, 1, 2, 1, 2, 0, 1, 0, 0, 0, 0, 0, 0, 0, 3, 0, 0, 0, 0, 0, 0] [a.Mu, a.Mu2, a.Xb, a.Xb2, a.Xt, a.Xt2, a.Xt4, a.Yb, a.Yt, a.cbeta, a.lmQ3MR, a.lmUMR, a.mA, a.mA2, a.mD3, a.mD32, a.mQ3, a.mQ32, a.mU3, a.mU32, a.sbeta, a.abs_Mu, a.dilog_Mu2_mD32, a.dilog_Mu2_mQ32, a.dilog_Mu2_mU32, a.log_mA2_MR2, a.dilog_mD32_mQ32, a.phixyz_mA2_mQ32_mQ32, a.log_mD32_mQ32, a.pow_Mu2_15, a.log_mU32_mQ32, a.phixyz_mA2_mQ32_mD32, a.dilog_mD32_mU32, a.dilog_mQ32_mU32, a.phixyz_mA2_mU32_mD32, a.phixyz_mA2_mU32_mQ32]
      [b.Mu, b.Mu2, b.Xb, b.Xb2, b.Xt, b.Xt2, b.Xt4, b.Yb, b.Yt, b.cbeta, b.lmQ3MR, b.lmUMR, b.mA, b.mA2, b.mD3, b.mD32, b.mQ3,
          b.mQ32, b.mU3, b.mU32, b.sbeta, b.abs_Mu, b.dilog_Mu2_mD32, b.dilog_Mu2_mQ32, b.dilog_Mu2_mU32, b.log_mA2_MR2,
          b.dilog_mD32_mQ32, b.phixyz_mA2_mQ32_mQ32, b.log_mD32_mQ32, b.pow_Mu2_15, b.log_mU32_mQ32, b.phixyz_mA2_mQ32_mD32,
          b.dilog_mD32_mU32, b.dilog_mQ32_mU32, b.phixyz_mA2_mU32_mD32, b.phixyz_mA2_mU32_mQ32]) : Yt4Yb2.formula b = Yt4Yb2.formula a
          := by
  have e : ∀ a : Yt4Yb2.Arg ℝ, Yt4Yb2.formula a = eval id (env [a.Mu, a.Mu2, a.Xb, a.Xb2, a.Xt, a.Xt2, a.Xt4, a.Yb, a.Yt,
      a.cbeta, a.lmQ3MR, a.lmUMR, a.mA, a.mA2, a.mD3, a.mD32, a.mQ3, a.mQ32, a.mU3, a.mU32, a.sbeta, a.abs_Mu, a.dilog_Mu2_mD32,
      a.dilog_Mu2_mQ32, a.dilog_Mu2_mU32, a.log_mA2_MR2, a.dilog_mD32_mQ32, a.phixyz_mA2_mQ32_mQ32, a.log_mD32_mQ32, a.pow_Mu2_15,
      a.log_mU32_mQ32, a.phixyz_mA2_mQ32_mD32, a.dilog_mD32_mU32, a.dilog_mQ32_mU32, a.phixyz_mA2_mU32_mD32,
      a.phixyz_mA2_mU32_mQ32])
      (Yt4Yb2.formula ⟨.var 0, .var 1, .var 2, .var 3, .var 4, .var 5, .var 6, .var 7, .var 8, .var 9, .var 10, .var 11, .var 12, .var 13, .var 14, .var 15, .var 16, .var 17, .var 18, .var 19, .var 20, .var 21, .var 22, .var 23, .var 24, .var 25, .var 26, .var 27, .var 28, .var 29, .var 30, .var 31, .var 32, .var 33, .var 34, .var 35⟩) := fun a => by krfl
  rw [e, e]
  exact homog id hl (zpow_zero l) h (by decide +kernel)

/-- `phixyz` in `Yt6.formula` -/
def phiE : E → E → E → E
  | .var 5, .var 1, .var 0 => .var 19
  | .var 5, .var 0, .var 0 => .var 20
  | .var 5, .var 1, .var 1 => .var 21
  | .var 5, .var 0, .var 1 => .var 22
  | _, _, _ => .bad

theorem Yt6_units (dl : ℝ → ℝ) (phi : ℝ → ℝ → ℝ → ℝ) (a b : Yt6.Arg ℝ) (lA lQ lm L : ℝ) {l : ℝ} (hl : l ≠ 0)
    (h : Scaled l [2, 2, 1, 1, 1, 2, 1, 2, 0, 0, 1, 1, 2, 4, 6, 0, 0, 0, 0, 0, 0, 0, 0] [a.mQ32, a.mU32, a.mQ3, a.mU3, a.mA, a.mA2, a.Mu, a.Mu2, a.sbeta, a.cbeta, a.Xt, a.Yt, a.Xt2, a.Xt4, a.Xt6, lA, lQ, lm, L, phi a.mA2 a.mU32 a.mQ32, phi a.mA2 a.mQ32 a.mQ32, phi a.mA2 a.mU32 a.mU32, phi a.mA2 a.mQ32 a.mU32]
      [b.mQ32, b.mU32, b.mQ3, b.mU3, b.mA, b.mA2, b.Mu, b.Mu2, b.sbeta, b.cbeta, b.Xt, b.Yt, b.Xt2, b.Xt4, b.Xt6, lA, lQ, lm, L,
          phi b.mA2 b.mU32 b.mQ32, phi b.mA2 b.mQ32 b.mQ32, phi b.mA2 b.mU32 b.mU32, phi b.mA2 b.mQ32 b.mU32]) :
    Yt6.formula dl phi b lA lQ lm L = Yt6.formula dl phi a lA lQ lm L := by
  have e : ∀ (a : Yt6.Arg ℝ), Yt6.formula dl phi a lA lQ lm L = eval dl (env [a.mQ32, a.mU32, a.mQ3, a.mU3, a.mA, a.mA2, a.Mu,
      a.Mu2, a.sbeta, a.cbeta, a.Xt, a.Yt, a.Xt2, a.Xt4, a.Xt6, lA, lQ, lm, L, phi a.mA2 a.mU32 a.mQ32, phi a.mA2 a.mQ32 a.mQ32,
      phi a.mA2 a.mU32 a.mU32, phi a.mA2 a.mQ32 a.mU32])
      (Yt6.formula E.dilog phiE ⟨.var 0, .var 1, .var 2, .var 3, .var 4, .var 5, .var 6, .var 7, .var 8, .var 9, .var 10, .var 11, .var 12, .var 13, .var 14⟩ (.var 15) (.var 16) (.var 17) (.var 18)) := fun a => by krfl
  rw [e, e]
  exact homog dl hl (zpow_zero l) h (by decide +kernel)

section
open FOps
open scoped Himalaya
variable {F : Type} [Add F] [Sub F] [Mul F] [Div F] [Neg F] [FOps F]
/-- the formula of a branch of `dLamYb6` (lt (abs (mD3 - mQ3)) eps && lt (abs (mA - mQ3)) eps && lt (abs (Mu - mQ3)) eps);
    see `TcObj.dLamYb6` -/
def Yb6_l0 (cbeta Xb2 M sbeta Xb Yb : F) : F :=
  30 * Misc.pow4 cbeta * (Xb2 * pow2 M * (Xb2 * (lit (1/5) + lit (7/10) * pow2 cbeta - lit (1/10) * pow2 sbeta) + lit
      (4373952000000001/25000000000000000) * Xb * Yb * pow2 sbeta - lit (4229546666666551/1000000000000000000) * pow2 sbeta * pow2
      Yb) + (Xb2 * (-(lit (2/5)) - lit (14/5) * pow2 cbeta + lit (5375628799999999/10000000000000000) * pow2 sbeta) + lit
      (10016767999999983/100000000000000000) * Xb * Yb * pow2 sbeta + lit (25041919999999957/1000000000000000000) * pow2 sbeta *
      pow2 Yb) * Misc.pow4 M - lit (8291413333333341/2000000000000000000) * pow2 sbeta * pow2 Yb * Misc.pow4 Xb + (lit (4/5) + pow2
      cbeta - lit (6699863197821283/10000000000000000) * pow2 sbeta) * Misc.pow6 M - lit (6666666666666667/100000000000000000) *
      pow2 cbeta * Misc.pow6 Xb) / Misc.pow6 M
end
theorem Yb6_l0_units {l : ℝ} (hl : l ≠ 0) {cbeta Xb2 M sbeta Xb Yb cbeta' Xb2' M' sbeta' Xb' Yb' : ℝ}
    (h : Scaled l [0, 2, 1, 0, 1, 1] [cbeta, Xb2, M, sbeta, Xb, Yb] [cbeta', Xb2', M', sbeta', Xb', Yb']) : Yb6_l0 cbeta' Xb2' M' sbeta' Xb' Yb' = Yb6_l0 cbeta Xb2 M sbeta Xb Yb := by
  have e : ∀ cbeta Xb2 M sbeta Xb Yb : ℝ, Yb6_l0 cbeta Xb2 M sbeta Xb Yb = eval id (env [cbeta, Xb2, M, sbeta, Xb, Yb]) (Yb6_l0
      (.var 0) (.var 1) (.var 2) (.var 3) (.var 4) (.var 5)) := fun cbeta Xb2 M sbeta Xb Yb => by krfl
  rw [e, e]
  exact homog id hl (zpow_zero l) h (by decide +kernel)

section
open FOps
open scoped Himalaya
variable {F : Type} [Add F] [Sub F] [Mul F] [Div F] [Neg F] [FOps F]
theorem dLamYb6_eq (dilog : F → F) (phi : F → F → F → F) (c : TcObj F) (omitLogs : Int) : c.dLamYb6 dilog phi omitLogs = (
  let MR2 := pow2 c.p.scale
  let mQ32 := (c.p.mq2 2 2)
  let mD32 := (c.p.md2 2 2)
  let mQ3 := sqrt mQ32
  let mD3 := sqrt mD32
  let mA := c.p.MA
  let sbeta := (eftSinBeta c.p)
  let cbeta := (eftCosBeta c.p)
  let Xb := (calcXb c.p)
  let Yb := (calcYb c.p)
  let Mu := c.p.mu
  let Xb2 := pow2 Xb
  let mA2 := pow2 mA
  let Mu2 := pow2 Mu
  let lmQ3MR := (ofInt omitLogs) * log (mQ32 / MR2)
  let lmUMR := (ofInt omitLogs) * log (Mu2 / MR2)
  let eps := mQ3 * lit (1/100)
  if lt (abs (mD3 - mQ3)) eps && lt (abs (mA - mQ3)) eps && lt (abs (Mu - mQ3)) eps then
    let M := sqrt (mQ3 * mD3)
    Yb6_l0 cbeta Xb2 M sbeta Xb Yb
  else
  Yb6.formula
    { Mu := Mu, Mu2 := Mu2, Xb := Xb, Xb2 := Xb2, Yb := Yb, cbeta := cbeta, lmQ3MR := lmQ3MR, lmUMR := lmUMR, mA := mA,
      mA2 := mA2, mD3 := mD3, mD32 := mD32, mQ3 := mQ3, mQ32 := mQ32, sbeta := sbeta, log_mA2_MR2 := log (mA2 / MR2),
      dilog_Mu2_mD32 := dilog (1 - Mu2 / mD32), dilog_Mu2_mQ32 := dilog (1 - Mu2 / mQ32),
      dilog_mD32_mQ32 := dilog (1 - mD32 / mQ32), log_mD32_mQ32 := log (mD32 / mQ32),
      phixyz_mA2_mD32_mD32 := phi mA2 mD32 mD32, phixyz_mA2_mQ32_mD32 := phi mA2 mQ32 mD32,
      phixyz_mA2_mQ32_mQ32 := phi mA2 mQ32 mQ32 }
  ) := rfl
end

section
open FOps
open scoped Himalaya
variable {F : Type} [Add F] [Sub F] [Mul F] [Div F] [Neg F] [FOps F]
/-- the formula of a branch of `dLamYt2Yb4` (lt (abs (mU3 - mQ3)) eps && lt (abs (mD3 - mQ3)) eps && lt (abs (Mu - mQ3))
    eps); see `TcObj.dLamYt2Yb4` -/
def Yt2Yb4_l0 (cbeta sbeta M Xb Xt Xb2 Yt Xt2 Yb : F) : F :=
  lit (535153120435743/200000000000000) * pow2 cbeta * (cbeta * (lit (14948992530373513/10000000000000000) * sbeta * Misc.pow3
      M * Misc.pow3 Xb - lit (896939551822411/100000000000000) * sbeta * Xt * Misc.pow5 M) + Misc.pow4 cbeta * (Xb2 * pow2 M *
      ((-(lit (1868624066296689/5000000000000000))) * Xb2 - lit (34273774426277803/100000000000000000) * Xb * Yt - lit
      (514106616394167/1000000000000000) * pow2 Yt) + (lit (17519525612344349/5000000000000000) * Xb2 + lit
      (5046224971651371/1000000000000000) * Xb * Yt + lit (12615562429128429/10000000000000000) * pow2 Yt) * Misc.pow4 M + lit
      (1039168917554059/20000000000000000) * pow2 Yt * Misc.pow4 Xb + 1 * Misc.pow6 M) + pow2 sbeta * ((-(lit
      (10117797056397451/50000000000000000))) * Xb2 * Xt2 * pow2 sbeta * pow2 Yb + pow2 M * (lit
      (14948992530373513/10000000000000000) * Xb * Xt2 * Yb * pow2 sbeta + lit (1868624066296689/2500000000000000) * Xt2 * pow2
      sbeta * pow2 Yb + Xb2 * (lit (11211744397780137/10000000000000000) * Xt2 + lit (14948992530373513/10000000000000000) * Xt *
      Yb * pow2 sbeta + lit (1868624066296689/2500000000000000) * pow2 sbeta * pow2 Yb)) + (Xb * ((-(lit
      (14015620489875479/2000000000000000))) * Xt - lit (14015620489875479/2000000000000000) * Yb) * pow2 sbeta - lit
      (14015620489875479/2000000000000000) * Xt * Yb * pow2 sbeta + Xb2 * (-(lit (11211744397780137/5000000000000000)) + lit
      (6307781214564213/5000000000000000) * pow2 sbeta) + Xt2 * (-(lit (11211744397780137/5000000000000000)) + lit
      (6307781214564213/5000000000000000) * pow2 sbeta) - lit (17519525612344349/5000000000000000) * pow2 sbeta * pow2 Yb) *
      Misc.pow4 M + (-(lit (896939551822411/50000000000000)) - lit (10511715367406609/1000000000000000) * pow2 sbeta) * Misc.pow6
      M) + pow2 cbeta * (Xt * (lit (1868624066296689/2500000000000000) * Xb * Xt - lit (3062728328833549/5000000000000000) * Yb *
      Yt) * pow2 sbeta * Misc.pow3 Xb + Xb * pow2 M * (Xb2 * ((-(lit (171368872131389/500000000000000))) * Yb - lit
      (34273774426277803/100000000000000000) * Yt) * pow2 sbeta + lit (1195919402429881/400000000000000) * Xt * Yb * Yt * pow2
      sbeta + Xb * Xt * ((-(lit (3363523319334041/500000000000000))) * Xt + lit (14948992530373513/10000000000000000) * Yb + lit
      (14948992530373513/10000000000000000) * Yt) * pow2 sbeta + (lit (1868624066296689/5000000000000000) + lit
      (1868624066296689/5000000000000000) * pow2 sbeta) * Misc.pow3 Xb) + ((-(lit (4203934152842397/500000000000000))) * Xb2 + Xt *
      (lit (896939551822411/100000000000000) * Xt - lit (14015620489875479/2000000000000000) * Yb - lit
      (14015620489875479/2000000000000000) * Yt) + Xb * ((-(lit (14015620489875479/2000000000000000))) * Xt + lit
      (10092449943302741/2000000000000000) * Yb + lit (10092449943302741/2000000000000000) * Yt)) * pow2 sbeta * Misc.pow4 M + (lit
      (8969395518224111/1000000000000000) + lit (6242348879556027/1000000000000000) * pow2 sbeta) * Misc.pow6 M)) / Misc.pow6 M
end
theorem Yt2Yb4_l0_units {l : ℝ} (hl : l ≠ 0) {cbeta sbeta M Xb Xt Xb2 Yt Xt2 Yb cbeta' sbeta' M' Xb' Xt' Xb2' Yt' Xt2' Yb' : ℝ}
    (h : Scaled l [0, 0, 1, 1, 1, 2, 1, 2, 1] [cbeta, sbeta, M, Xb, Xt, Xb2, Yt, Xt2, Yb] [cbeta', sbeta', M', Xb', Xt', Xb2', Yt', Xt2', Yb']) : Yt2Yb4_l0 cbeta' sbeta' M' Xb' Xt' Xb2' Yt' Xt2' Yb' = Yt2Yb4_l0 cbeta sbeta M Xb Xt Xb2 Yt Xt2 Yb := by
  have e : ∀ cbeta sbeta M Xb Xt Xb2 Yt Xt2 Yb : ℝ, Yt2Yb4_l0 cbeta sbeta M Xb Xt Xb2 Yt Xt2 Yb = eval id (env [cbeta, sbeta,
      M, Xb, Xt, Xb2, Yt, Xt2, Yb]) (Yt2Yb4_l0 (.var 0) (.var 1) (.var 2) (.var 3) (.var 4) (.var 5) (.var 6) (.var 7) (.var 8)) :=
      fun cbeta sbeta M Xb Xt Xb2 Yt Xt2 Yb => by krfl
  rw [e, e]
  exact homog id hl (zpow_zero l) h (by decide +kernel)

section
open FOps
open scoped Himalaya
variable {F : Type} [Add F] [Sub F] [Mul F] [Div F] [Neg F] [FOps F]
theorem dLamYt2Yb4_eq (dilog : F → F) (phi : F → F → F → F) (c : TcObj F) (omitLogs : Int) : c.dLamYt2Yb4 dilog phi omitLogs = (
  let MR2 := pow2 c.p.scale
  let mQ32 := (c.p.mq2 2 2)
  let mD32 := (c.p.md2 2 2)
  let mU32 := (c.p.mu2 2 2)
  let mQ3 := sqrt mQ32
  let mU3 := sqrt mU32
  let mD3 := sqrt mD32
  let mA := c.p.MA
  let sbeta := (eftSinBeta c.p)
  let cbeta := (eftCosBeta c.p)
  let Xt := (calcXt c.p)
  let Yt := (calcYt c.p)
  let Xb := (calcXb c.p)
  let Yb := (calcYb c.p)
  let Mu := c.p.mu
  let Mu2 := pow2 Mu
  let Xt2 := pow2 Xt
  let mA2 := pow2 mA
  let Xb2 := pow2 Xb
  let lmQ3MR := (ofInt omitLogs) * log (mQ32 / MR2)
  let lmUMR := (ofInt omitLogs) * log (Mu2 / MR2)
  let eps := mQ3 * lit (1/100)
  if lt (abs (mU3 - mQ3)) eps && lt (abs (mD3 - mQ3)) eps && lt (abs (Mu - mQ3)) eps then
    let M := sqrt (mQ3 * mD3)
    Yt2Yb4_l0 cbeta sbeta M Xb Xt Xb2 Yt Xt2 Yb
  else
  Yt2Yb4.formula
    { Mu := Mu, Mu2 := Mu2, Xb := Xb, Xb2 := Xb2, Xt := Xt, Xt2 := Xt2, Yb := Yb, Yt := Yt, cbeta := cbeta,
      lmQ3MR := lmQ3MR, lmUMR := lmUMR, mA := mA, mA2 := mA2, mD3 := mD3, mD32 := mD32, mQ3 := mQ3, mQ32 := mQ32,
      mU3 := mU3, mU32 := mU32, sbeta := sbeta, abs_Mu := abs Mu, dilog_Mu2_mD32 := dilog (1 - Mu2 / mD32),
      dilog_Mu2_mQ32 := dilog (1 - Mu2 / mQ32), dilog_Mu2_mU32 := dilog (1 - Mu2 / mU32), log_mA2_MR2 := log (mA2 / MR2),
      log_mU32_mQ32 := log (mU32 / mQ32), pow_Mu2_15 := Mu2 * sqrt Mu2, dilog_mD32_mQ32 := dilog (1 - mD32 / mQ32),
      log_mD32_mQ32 := log (mD32 / mQ32), phixyz_mA2_mU32_mD32 := phi mA2 mU32 mD32,
      phixyz_mA2_mQ32_mD32 := phi mA2 mQ32 mD32, phixyz_mA2_mQ32_mQ32 := phi mA2 mQ32 mQ32,
      phixyz_mA2_mU32_mQ32 := phi mA2 mU32 mQ32, dilog_mQ32_mU32 := dilog (1 - mQ32 / mU32),
      dilog_mD32_mU32 := dilog (1 - mD32 / mU32) }
  ) := rfl
end

section
open FOps
open scoped Himalaya
variable {F : Type} [Add F] [Sub F] [Mul F] [Div F] [Neg F] [FOps F]
/-- the formula of a branch of `dLamYt4Yb2` (lt (abs (mU3 - mQ3)) eps && lt (abs (mD3 - mQ3)) eps && lt (abs (Mu - mQ3))
    eps); see `TcObj.dLamYt4Yb2` -/
def Yt4Yb2_l0 (sbeta cbeta M Xb Xt4 Xt Xt2 Yt Xb2 Yb : F) : F :=
  lit (535153120435743/200000000000000) * pow2 sbeta * (cbeta * M * sbeta * ((-(lit (1868624066296689/2500000000000000))) * Xb
      * Xt4 + (lit (896939551822411/100000000000000) * Xb + lit (14948992530373513/10000000000000000) * Xt) * Xt2 * pow2 M - lit
      (896939551822411/100000000000000) * Xb * Misc.pow4 M) + Misc.pow4 cbeta * (Yt * (lit (14948992530373513/10000000000000000) *
      Xb * Xt2 + Xb2 * (lit (14948992530373513/10000000000000000) * Xt + lit (1868624066296689/2500000000000000) * Yt) + lit
      (1868624066296689/2500000000000000) * Xt2 * Yt) * pow2 M - lit (10117797056397451/50000000000000000) * Xb2 * Xt2 * pow2 Yt +
      (lit (6307781214564213/5000000000000000) * Xb2 - lit (14015620489875479/2000000000000000) * Xb * Xt + lit
      (6307781214564213/5000000000000000) * Xt2 - lit (14015620489875479/2000000000000000) * Xb * Yt - lit
      (14015620489875479/2000000000000000) * Xt * Yt - lit (17519525612344349/5000000000000000) * pow2 Yt) * Misc.pow4 M - lit
      (10511715367406609/1000000000000000) * Misc.pow6 M) + pow2 sbeta * (lit (1039168917554059/20000000000000000) * Xt4 * pow2
      sbeta * pow2 Yb + Xt2 * pow2 M * (Xt2 * (lit (1868624066296689/5000000000000000) - lit (560587219889007/1000000000000000) *
      pow2 sbeta) - lit (171368872131389/500000000000000) * Xt * Yb * pow2 sbeta - lit (514106616394167/1000000000000000) * pow2
      sbeta * pow2 Yb) + pow2 sbeta * (lit (5746254002024897/1000000000000000) * Xt2 + lit (5046224971651371/1000000000000000) * Xt
      * Yb + lit (12615562429128429/10000000000000000) * pow2 Yb) * Misc.pow4 M + (lit (8969395518224111/1000000000000000) + 1 *
      pow2 sbeta) * Misc.pow6 M) + pow2 cbeta * (Xt * pow2 M * (Xb2 * Xt * (lit (11211744397780137/10000000000000000) - lit
      (11211744397780137/5000000000000000) * pow2 sbeta) + Xt2 * ((-(lit (11211744397780137/10000000000000000))) * Xt - lit
      (171368872131389/500000000000000) * Yb - lit (171368872131389/500000000000000) * Yt) * pow2 sbeta + Xb * (lit
      (14948992530373513/10000000000000000) * Xt * Yb + lit (14948992530373513/10000000000000000) * Xt * Yt + lit
      (1195919402429881/400000000000000) * Yb * Yt) * pow2 sbeta) + Xb * (lit (1868624066296689/5000000000000000) * Xb * Xt - lit
      (3062728328833549/5000000000000000) * Yb * Yt) * pow2 sbeta * Misc.pow3 Xt + (Xb * ((-(lit
      (14015620489875479/2000000000000000))) * Xt - lit (14015620489875479/2000000000000000) * Yb - lit
      (14015620489875479/2000000000000000) * Yt) * pow2 sbeta + Xb2 * (-(lit (11211744397780137/5000000000000000)) + lit
      (896939551822411/100000000000000) * pow2 sbeta) + Xt * ((lit (10092449943302741/2000000000000000) * Yb + lit
      (10092449943302741/2000000000000000) * Yt) * pow2 sbeta + Xt * (-(lit (11211744397780137/5000000000000000)) + lit
      (381236909230537/40000000000000) * pow2 sbeta))) * Misc.pow4 M + (-(lit (896939551822411/50000000000000)) + lit
      (6242348879556027/1000000000000000) * pow2 sbeta) * Misc.pow6 M)) / Misc.pow6 M
end
theorem Yt4Yb2_l0_units {l : ℝ} (hl : l ≠ 0) {sbeta cbeta M Xb Xt4 Xt Xt2 Yt Xb2 Yb sbeta' cbeta' M' Xb' Xt4' Xt' Xt2' Yt' Xb2' Yb' : ℝ}
    (h : Scaled l [0, 0, 1, 1, 4, 1, 2, 1, 2, 1] [sbeta, cbeta, M, Xb, Xt4, Xt, Xt2, Yt, Xb2, Yb] [sbeta', cbeta', M', Xb', Xt4', Xt', Xt2', Yt', Xb2', Yb']) : Yt4Yb2_l0 sbeta' cbeta' M' Xb' Xt4' Xt' Xt2' Yt' Xb2' Yb' = Yt4Yb2_l0 sbeta cbeta M Xb Xt4 Xt Xt2 Yt Xb2 Yb := by
  have e : ∀ sbeta cbeta M Xb Xt4 Xt Xt2 Yt Xb2 Yb : ℝ, Yt4Yb2_l0 sbeta cbeta M Xb Xt4 Xt Xt2 Yt Xb2 Yb = eval id (env [sbeta,
      cbeta, M, Xb, Xt4, Xt, Xt2, Yt, Xb2, Yb]) (Yt4Yb2_l0 (.var 0) (.var 1) (.var 2) (.var 3) (.var 4) (.var 5) (.var 6) (.var 7)
      (.var 8) (.var 9)) := fun sbeta cbeta M Xb Xt4 Xt Xt2 Yt Xb2 Yb => by krfl
  rw [e, e]
  exact homog id hl (zpow_zero l) h (by decide +kernel)

section
open FOps
open scoped Himalaya
variable {F : Type} [Add F] [Sub F] [Mul F] [Div F] [Neg F] [FOps F]
theorem dLamYt4Yb2_eq (dilog : F → F) (phi : F → F → F → F) (c : TcObj F) (omitLogs : Int) : c.dLamYt4Yb2 dilog phi omitLogs = (
  let MR2 := pow2 c.p.scale
  let mQ32 := (c.p.mq2 2 2)
  let mD32 := (c.p.md2 2 2)
  let mU32 := (c.p.mu2 2 2)
  let mQ3 := sqrt mQ32
  let mU3 := sqrt mU32
  let mD3 := sqrt mD32
  let mA := c.p.MA
  let sbeta := (eftSinBeta c.p)
  let cbeta := (eftCosBeta c.p)
  let Xt := (calcXt c.p)
  let Yt := (calcYt c.p)
  let Xb := (calcXb c.p)
  let Yb := (calcYb c.p)
  let Mu := c.p.mu
  let Mu2 := pow2 Mu
  let Xt2 := pow2 Xt
  let Xt4 := pow2 Xt2
  let mA2 := pow2 mA
  let Xb2 := pow2 Xb
  let lmQ3MR := (ofInt omitLogs) * log (mQ32 / MR2)
  let lmUMR := (ofInt omitLogs) * log (Mu2 / MR2)
  let eps := mQ3 * lit (1/100)
  if lt (abs (mU3 - mQ3)) eps && lt (abs (mD3 - mQ3)) eps && lt (abs (Mu - mQ3)) eps then
    let M := sqrt (mQ3 * mU3)
    Yt4Yb2_l0 sbeta cbeta M Xb Xt4 Xt Xt2 Yt Xb2 Yb
  else
  Yt4Yb2.formula
    { Mu := Mu, Mu2 := Mu2, Xb := Xb, Xb2 := Xb2, Xt := Xt, Xt2 := Xt2, Xt4 := Xt4, Yb := Yb, Yt := Yt, cbeta := cbeta,
      lmQ3MR := lmQ3MR, lmUMR := lmUMR, mA := mA, mA2 := mA2, mD3 := mD3, mD32 := mD32, mQ3 := mQ3, mQ32 := mQ32,
      mU3 := mU3, mU32 := mU32, sbeta := sbeta, abs_Mu := abs Mu, dilog_Mu2_mD32 := dilog (1 - Mu2 / mD32),
      dilog_Mu2_mQ32 := dilog (1 - Mu2 / mQ32), dilog_Mu2_mU32 := dilog (1 - Mu2 / mU32), log_mA2_MR2 := log (mA2 / MR2),
      dilog_mD32_mQ32 := dilog (1 - mD32 / mQ32), phixyz_mA2_mQ32_mQ32 := phi mA2 mQ32 mQ32,
      log_mD32_mQ32 := log (mD32 / mQ32), pow_Mu2_15 := Mu2 * sqrt Mu2, log_mU32_mQ32 := log (mU32 / mQ32),
      phixyz_mA2_mQ32_mD32 := phi mA2 mQ32 mD32, dilog_mD32_mU32 := dilog (1 - mD32 / mU32),
      dilog_mQ32_mU32 := dilog (1 - mQ32 / mU32), phixyz_mA2_mU32_mD32 := phi mA2 mU32 mD32,
      phixyz_mA2_mU32_mQ32 := phi mA2 mU32 mQ32 }
  ) := rfl
end

section
open FOps
open scoped Himalaya
variable {F : Type} [Add F] [Sub F] [Mul F] [Div F] [Neg F] [FOps F]
/-- the formula of a branch of `dLamYtau4Yb2` (lt (abs (mE3 - mL3)) eps && lt (abs (mD3 - mQ3)) eps); see `TcObj.dLamYtau4Yb2` -/
def Ytau4Yb2_l0 (lmQ3MR Xb Xtau mL3 Xtau2 cbeta sbeta : F) : F :=
  (-4) * lmQ3MR * Xb * Xtau * ((-6) * pow2 mL3 + Xtau2) / (cbeta * sbeta * Misc.pow4 mL3)
end
theorem Ytau4Yb2_l0_units {l : ℝ} (hl : l ≠ 0) {lmQ3MR Xb Xtau mL3 Xtau2 cbeta sbeta lmQ3MR' Xb' Xtau' mL3' Xtau2' cbeta' sbeta' : ℝ}
    (h : Scaled l [0, 1, 1, 1, 2, 0, 0] [lmQ3MR, Xb, Xtau, mL3, Xtau2, cbeta, sbeta] [lmQ3MR', Xb', Xtau', mL3', Xtau2', cbeta', sbeta']) : Ytau4Yb2_l0 lmQ3MR' Xb' Xtau' mL3' Xtau2' cbeta' sbeta' = Ytau4Yb2_l0 lmQ3MR Xb Xtau mL3 Xtau2 cbeta sbeta := by
  have e : ∀ lmQ3MR Xb Xtau mL3 Xtau2 cbeta sbeta : ℝ, Ytau4Yb2_l0 lmQ3MR Xb Xtau mL3 Xtau2 cbeta sbeta = eval id (env [lmQ3MR,
      Xb, Xtau, mL3, Xtau2, cbeta, sbeta]) (Ytau4Yb2_l0 (.var 0) (.var 1) (.var 2) (.var 3) (.var 4) (.var 5) (.var 6)) := fun
      lmQ3MR Xb Xtau mL3 Xtau2 cbeta sbeta => by krfl
  rw [e, e]
  exact homog id hl (zpow_zero l) h (by decide +kernel)

section
open FOps
open scoped Himalaya
variable {F : Type} [Add F] [Sub F] [Mul F] [Div F] [Neg F] [FOps F]
/-- the formula of a branch of `dLamYtau4Yb2` (lt (abs (mE3 - mL3)) eps); see `TcObj.dLamYtau4Yb2` -/
def Ytau4Yb2_l1 (Xb Xtau mL3 Xtau2 lmQ3MR mD32 mQ32 cbeta sbeta : F) : F :=
  (-4) * Xb * Xtau * ((-6) * pow2 mL3 + Xtau2) * ((-1 + lmQ3MR) * (mD32 - mQ32) + mD32 * log (mD32 / mQ32)) / (cbeta * (mD32 -
      mQ32) * sbeta * Misc.pow4 mL3)
end
theorem Ytau4Yb2_l1_units {l : ℝ} (hl : l ≠ 0) {Xb Xtau mL3 Xtau2 lmQ3MR mD32 mQ32 cbeta sbeta Xb' Xtau' mL3' Xtau2' lmQ3MR' mD32' mQ32' cbeta' sbeta' : ℝ}
    (h : Scaled l [1, 1, 1, 2, 0, 2, 2, 0, 0] [Xb, Xtau, mL3, Xtau2, lmQ3MR, mD32, mQ32, cbeta, sbeta] [Xb', Xtau', mL3', Xtau2', lmQ3MR', mD32', mQ32', cbeta', sbeta']) : Ytau4Yb2_l1 Xb' Xtau' mL3' Xtau2' lmQ3MR' mD32' mQ32' cbeta' sbeta' = Ytau4Yb2_l1 Xb Xtau mL3 Xtau2 lmQ3MR mD32 mQ32 cbeta sbeta := by
  have e : ∀ Xb Xtau mL3 Xtau2 lmQ3MR mD32 mQ32 cbeta sbeta : ℝ, Ytau4Yb2_l1 Xb Xtau mL3 Xtau2 lmQ3MR mD32 mQ32 cbeta sbeta =
      eval id (env [Xb, Xtau, mL3, Xtau2, lmQ3MR, mD32, mQ32, cbeta, sbeta]) (Ytau4Yb2_l1 (.var 0) (.var 1) (.var 2) (.var 3) (.var
      4) (.var 5) (.var 6) (.var 7) (.var 8)) := fun Xb Xtau mL3 Xtau2 lmQ3MR mD32 mQ32 cbeta sbeta => by krfl
  rw [e, e]
  exact homog id hl (zpow_zero l) h (by decide +kernel)

section
open FOps
open scoped Himalaya
variable {F : Type} [Add F] [Sub F] [Mul F] [Div F] [Neg F] [FOps F]
/-- the formula of a branch of `dLamYtau4Yb2` (lt (abs (mD3 - mQ3)) eps); see `TcObj.dLamYtau4Yb2` -/
def Ytau4Yb2_l2 (mE3 mL3 lmQ3MR Xb Xtau Xtau2 cbeta sbeta : F) : F :=
  let mE32 := pow2 mE3
  let mL32 := pow2 mL3
  (-24) * lmQ3MR * Xb * Xtau * (2 * (-mE32 + mL32) * Xtau2 + log (mE32 / mL32) * (mL32 * Xtau2 + mE32 * (2 * mL32 + Xtau2) -
      Misc.pow4 mE3 - Misc.pow4 mL3)) / (cbeta * sbeta * Misc.pow3 (mE32 - mL32))
end
theorem Ytau4Yb2_l2_units {l : ℝ} (hl : l ≠ 0) {mE3 mL3 lmQ3MR Xb Xtau Xtau2 cbeta sbeta mE3' mL3' lmQ3MR' Xb' Xtau' Xtau2' cbeta' sbeta' : ℝ}
    (h : Scaled l [1, 1, 0, 1, 1, 2, 0, 0] [mE3, mL3, lmQ3MR, Xb, Xtau, Xtau2, cbeta, sbeta] [mE3', mL3', lmQ3MR', Xb', Xtau', Xtau2', cbeta', sbeta']) : Ytau4Yb2_l2 mE3' mL3' lmQ3MR' Xb' Xtau' Xtau2' cbeta' sbeta' = Ytau4Yb2_l2 mE3 mL3 lmQ3MR Xb Xtau Xtau2 cbeta sbeta := by
  have e : ∀ mE3 mL3 lmQ3MR Xb Xtau Xtau2 cbeta sbeta : ℝ, Ytau4Yb2_l2 mE3 mL3 lmQ3MR Xb Xtau Xtau2 cbeta sbeta = eval id (env
      [mE3, mL3, lmQ3MR, Xb, Xtau, Xtau2, cbeta, sbeta]) (Ytau4Yb2_l2 (.var 0) (.var 1) (.var 2) (.var 3) (.var 4) (.var 5) (.var
      6) (.var 7)) := fun mE3 mL3 lmQ3MR Xb Xtau Xtau2 cbeta sbeta => by krfl
  rw [e, e]
  exact homog id hl (zpow_zero l) h (by decide +kernel)

section
open FOps
open scoped Himalaya
variable {F : Type} [Add F] [Sub F] [Mul F] [Div F] [Neg F] [FOps F]
/-- the formula of a branch of `dLamYtau4Yb2` (last case); see `TcObj.dLamYtau4Yb2` -/
def Ytau4Yb2_l3 (Xb Xtau lmQ3MR mD32 mQ32 Xtau2 mE3 mL3 cbeta sbeta : F) : F :=
  (-24) * Xb * Xtau * ((-1 + lmQ3MR) * (mD32 - mQ32) + mD32 * log (mD32 / mQ32)) * (2 * Xtau2 * (-(pow2 mE3) + pow2 mL3) + log
      (pow2 mE3 / pow2 mL3) * (Xtau2 * pow2 mL3 + pow2 mE3 * (Xtau2 + 2 * pow2 mL3) - Misc.pow4 mE3 - Misc.pow4 mL3)) / (cbeta *
      (mD32 - mQ32) * sbeta * Misc.pow3 (pow2 mE3 - pow2 mL3))
end
theorem Ytau4Yb2_l3_units {l : ℝ} (hl : l ≠ 0) {Xb Xtau lmQ3MR mD32 mQ32 Xtau2 mE3 mL3 cbeta sbeta Xb' Xtau' lmQ3MR' mD32' mQ32' Xtau2' mE3' mL3' cbeta' sbeta' : ℝ}
    (h : Scaled l [1, 1, 0, 2, 2, 2, 1, 1, 0, 0] [Xb, Xtau, lmQ3MR, mD32, mQ32, Xtau2, mE3, mL3, cbeta, sbeta] [Xb', Xtau', lmQ3MR', mD32', mQ32', Xtau2', mE3', mL3', cbeta', sbeta']) : Ytau4Yb2_l3 Xb' Xtau' lmQ3MR' mD32' mQ32' Xtau2' mE3' mL3' cbeta' sbeta' = Ytau4Yb2_l3 Xb Xtau lmQ3MR mD32 mQ32 Xtau2 mE3 mL3 cbeta sbeta := by
  have e : ∀ Xb Xtau lmQ3MR mD32 mQ32 Xtau2 mE3 mL3 cbeta sbeta : ℝ, Ytau4Yb2_l3 Xb Xtau lmQ3MR mD32 mQ32 Xtau2 mE3 mL3 cbeta
      sbeta = eval id (env [Xb, Xtau, lmQ3MR, mD32, mQ32, Xtau2, mE3, mL3, cbeta, sbeta]) (Ytau4Yb2_l3 (.var 0) (.var 1) (.var 2)
      (.var 3) (.var 4) (.var 5) (.var 6) (.var 7) (.var 8) (.var 9)) := fun Xb Xtau lmQ3MR mD32 mQ32 Xtau2 mE3 mL3 cbeta sbeta =>
      by krfl
  rw [e, e]
  exact homog id hl (zpow_zero l) h (by decide +kernel)

section
open FOps
open scoped Himalaya
variable {F : Type} [Add F] [Sub F] [Mul F] [Div F] [Neg F] [FOps F]
theorem dLamYtau4Yb2_eq (c : TcObj F) (omitLogs : Int) : c.dLamYtau4Yb2 omitLogs = (
  let Xb := (calcXb c.p)
  let Xtau := (calcXtau c.p)
  let Xtau2 := pow2 Xtau
  let mQ32 := (c.p.mq2 2 2)
  let mD32 := (c.p.md2 2 2)
  let mD3 := sqrt mD32
  let mQ3 := sqrt mQ32
  let mL3 := sqrt ((c.p.ml2 2 2))
  let mE3 := sqrt ((c.p.me2 2 2))
  let cbeta := (eftCosBeta c.p)
  let sbeta := (eftSinBeta c.p)
  let lmQ3MR := (ofInt omitLogs) * log (mQ32 / pow2 c.p.scale)
  let eps := mQ3 * lit (1/100)
  if lt (abs (mE3 - mL3)) eps && lt (abs (mD3 - mQ3)) eps then
    Ytau4Yb2_l0 lmQ3MR Xb Xtau mL3 Xtau2 cbeta sbeta
  else
  if lt (abs (mE3 - mL3)) eps then
    Ytau4Yb2_l1 Xb Xtau mL3 Xtau2 lmQ3MR mD32 mQ32 cbeta sbeta
  else
  if lt (abs (mD3 - mQ3)) eps then
    Ytau4Yb2_l2 mE3 mL3 lmQ3MR Xb Xtau Xtau2 cbeta sbeta
  else
  Ytau4Yb2_l3 Xb Xtau lmQ3MR mD32 mQ32 Xtau2 mE3 mL3 cbeta sbeta
  ) := rfl
end

section
open FOps
open scoped Himalaya
variable {F : Type} [Add F] [Sub F] [Mul F] [Div F] [Neg F] [FOps F]
/-- the formula of a branch of `dLamYtau2Yb4` (lt (abs (mE3 - mL3)) eps && lt (abs (mD3 - mQ3)) eps); see `TcObj.dLamYtau2Yb4` -/
def Ytau2Yb4_l0 (lmL3MR Xb mQ32 Xb2 Xtau cbeta sbeta mQ3 : F) : F :=
  (-4) * lmL3MR * Xb * ((-6) * mQ32 + Xb2) * Xtau / (cbeta * sbeta * Misc.pow4 mQ3)
end
theorem Ytau2Yb4_l0_units {l : ℝ} (hl : l ≠ 0) {lmL3MR Xb mQ32 Xb2 Xtau cbeta sbeta mQ3 lmL3MR' Xb' mQ32' Xb2' Xtau' cbeta' sbeta' mQ3' : ℝ}
    (h : Scaled l [0, 1, 2, 2, 1, 0, 0, 1] [lmL3MR, Xb, mQ32, Xb2, Xtau, cbeta, sbeta, mQ3] [lmL3MR', Xb', mQ32', Xb2', Xtau', cbeta', sbeta', mQ3']) : Ytau2Yb4_l0 lmL3MR' Xb' mQ32' Xb2' Xtau' cbeta' sbeta' mQ3' = Ytau2Yb4_l0 lmL3MR Xb mQ32 Xb2 Xtau cbeta sbeta mQ3 := by
  have e : ∀ lmL3MR Xb mQ32 Xb2 Xtau cbeta sbeta mQ3 : ℝ, Ytau2Yb4_l0 lmL3MR Xb mQ32 Xb2 Xtau cbeta sbeta mQ3 = eval id (env
      [lmL3MR, Xb, mQ32, Xb2, Xtau, cbeta, sbeta, mQ3]) (Ytau2Yb4_l0 (.var 0) (.var 1) (.var 2) (.var 3) (.var 4) (.var 5) (.var 6)
      (.var 7)) := fun lmL3MR Xb mQ32 Xb2 Xtau cbeta sbeta mQ3 => by krfl
  rw [e, e]
  exact homog id hl (zpow_zero l) h (by decide +kernel)

section
open FOps
open scoped Himalaya
variable {F : Type} [Add F] [Sub F] [Mul F] [Div F] [Neg F] [FOps F]
/-- the formula of a branch of `dLamYtau2Yb4` (lt (abs (mE3 - mL3)) eps); see `TcObj.dLamYtau2Yb4` -/
def Ytau2Yb4_l1 (lmL3MR Xb Xtau mD32 mQ32 Xb2 lmQ3MR mD3 mQ3 lmD3MR cbeta sbeta : F) : F :=
  24 * lmL3MR * Xb * Xtau * (2 * (mD32 - mQ32) * Xb2 + lmQ3MR * (mQ32 * Xb2 + mD32 * (2 * mQ32 + Xb2) - Misc.pow4 mD3 -
      Misc.pow4 mQ3) + lmD3MR * (-(mQ32 * Xb2) - mD32 * (2 * mQ32 + Xb2) + Misc.pow4 mD3 + Misc.pow4 mQ3)) / (cbeta * sbeta *
      Misc.pow3 (mD32 - mQ32))
end
theorem Ytau2Yb4_l1_units {l : ℝ} (hl : l ≠ 0) {lmL3MR Xb Xtau mD32 mQ32 Xb2 lmQ3MR mD3 mQ3 lmD3MR cbeta sbeta lmL3MR' Xb' Xtau' mD32' mQ32' Xb2' lmQ3MR' mD3' mQ3' lmD3MR' cbeta' sbeta' : ℝ}
    (h : Scaled l [0, 1, 1, 2, 2, 2, 0, 1, 1, 0, 0, 0] [lmL3MR, Xb, Xtau, mD32, mQ32, Xb2, lmQ3MR, mD3, mQ3, lmD3MR, cbeta, sbeta] [lmL3MR', Xb', Xtau', mD32', mQ32', Xb2', lmQ3MR', mD3', mQ3', lmD3MR', cbeta', sbeta']) : Ytau2Yb4_l1 lmL3MR' Xb' Xtau' mD32' mQ32' Xb2' lmQ3MR' mD3' mQ3' lmD3MR' cbeta' sbeta' = Ytau2Yb4_l1 lmL3MR Xb Xtau mD32 mQ32 Xb2 lmQ3MR mD3 mQ3 lmD3MR cbeta sbeta := by
  have e : ∀ lmL3MR Xb Xtau mD32 mQ32 Xb2 lmQ3MR mD3 mQ3 lmD3MR cbeta sbeta : ℝ, Ytau2Yb4_l1 lmL3MR Xb Xtau mD32 mQ32 Xb2
      lmQ3MR mD3 mQ3 lmD3MR cbeta sbeta = eval id (env [lmL3MR, Xb, Xtau, mD32, mQ32, Xb2, lmQ3MR, mD3, mQ3, lmD3MR, cbeta, sbeta])
      (Ytau2Yb4_l1 (.var 0) (.var 1) (.var 2) (.var 3) (.var 4) (.var 5) (.var 6) (.var 7) (.var 8) (.var 9) (.var 10) (.var 11))
      := fun lmL3MR Xb Xtau mD32 mQ32 Xb2 lmQ3MR mD3 mQ3 lmD3MR cbeta sbeta => by krfl
  rw [e, e]
  exact homog id hl (zpow_zero l) h (by decide +kernel)

section
open FOps
open scoped Himalaya
variable {F : Type} [Add F] [Sub F] [Mul F] [Div F] [Neg F] [FOps F]
/-- the formula of a branch of `dLamYtau2Yb4` (lt (abs (mD3 - mQ3)) eps); see `TcObj.dLamYtau2Yb4` -/
def Ytau2Yb4_l2 (mE3 mL3 lmE3MR lmL3MR Xb mQ32 Xb2 Xtau cbeta sbeta mQ3 : F) : F :=
  let mE32 := pow2 mE3
  let mL32 := pow2 mL3
  (-4) * (-mE32 + lmE3MR * mE32 + mL32 - lmL3MR * mL32) * Xb * ((-6) * mQ32 + Xb2) * Xtau / (cbeta * (mE32 - mL32) * sbeta * Misc.pow4 mQ3)
end
theorem Ytau2Yb4_l2_units {l : ℝ} (hl : l ≠ 0) {mE3 mL3 lmE3MR lmL3MR Xb mQ32 Xb2 Xtau cbeta sbeta mQ3 mE3' mL3' lmE3MR' lmL3MR' Xb' mQ32' Xb2' Xtau' cbeta' sbeta' mQ3' : ℝ}
    (h : Scaled l [1, 1, 0, 0, 1, 2, 2, 1, 0, 0, 1] [mE3, mL3, lmE3MR, lmL3MR, Xb, mQ32, Xb2, Xtau, cbeta, sbeta, mQ3] [mE3', mL3', lmE3MR', lmL3MR', Xb', mQ32', Xb2', Xtau', cbeta', sbeta', mQ3']) : Ytau2Yb4_l2 mE3' mL3' lmE3MR' lmL3MR' Xb' mQ32' Xb2' Xtau' cbeta' sbeta' mQ3' = Ytau2Yb4_l2 mE3 mL3 lmE3MR lmL3MR Xb mQ32 Xb2 Xtau cbeta sbeta mQ3 := by
  have e : ∀ mE3 mL3 lmE3MR lmL3MR Xb mQ32 Xb2 Xtau cbeta sbeta mQ3 : ℝ, Ytau2Yb4_l2 mE3 mL3 lmE3MR lmL3MR Xb mQ32 Xb2 Xtau
      cbeta sbeta mQ3 = eval id (env [mE3, mL3, lmE3MR, lmL3MR, Xb, mQ32, Xb2, Xtau, cbeta, sbeta, mQ3]) (Ytau2Yb4_l2 (.var 0)
      (.var 1) (.var 2) (.var 3) (.var 4) (.var 5) (.var 6) (.var 7) (.var 8) (.var 9) (.var 10)) := fun mE3 mL3 lmE3MR lmL3MR Xb
      mQ32 Xb2 Xtau cbeta sbeta mQ3 => by krfl
  rw [e, e]
  exact homog id hl (zpow_zero l) h (by decide +kernel)

section
open FOps
open scoped Himalaya
variable {F : Type} [Add F] [Sub F] [Mul F] [Div F] [Neg F] [FOps F]
/-- the formula of a branch of `dLamYtau2Yb4` (last case); see `TcObj.dLamYtau2Yb4` -/
def Ytau2Yb4_l3 (Xb Xtau mE3 lmE3MR mL3 lmL3MR mD32 mQ32 Xb2 lmQ3MR mD3 mQ3 lmD3MR cbeta sbeta : F) : F :=
  24 * Xb * Xtau * (-(pow2 mE3) + lmE3MR * pow2 mE3 + pow2 mL3 - lmL3MR * pow2 mL3) * (2 * (mD32 - mQ32) * Xb2 + lmQ3MR * (mQ32
      * Xb2 + mD32 * (2 * mQ32 + Xb2) - Misc.pow4 mD3 - Misc.pow4 mQ3) + lmD3MR * (-(mQ32 * Xb2) - mD32 * (2 * mQ32 + Xb2) +
      Misc.pow4 mD3 + Misc.pow4 mQ3)) / (cbeta * sbeta * (pow2 mE3 - pow2 mL3) * Misc.pow3 (mD32 - mQ32))
end
theorem Ytau2Yb4_l3_units {l : ℝ} (hl : l ≠ 0) {Xb Xtau mE3 lmE3MR mL3 lmL3MR mD32 mQ32 Xb2 lmQ3MR mD3 mQ3 lmD3MR cbeta sbeta Xb' Xtau' mE3' lmE3MR' mL3' lmL3MR' mD32' mQ32' Xb2' lmQ3MR' mD3' mQ3' lmD3MR' cbeta' sbeta' : ℝ}
    (h : Scaled l [1, 1, 1, 0, 1, 0, 2, 2, 2, 0, 1, 1, 0, 0, 0] [Xb, Xtau, mE3, lmE3MR, mL3, lmL3MR, mD32, mQ32, Xb2, lmQ3MR, mD3, mQ3, lmD3MR, cbeta, sbeta] [Xb', Xtau', mE3', lmE3MR', mL3', lmL3MR', mD32', mQ32', Xb2', lmQ3MR', mD3', mQ3', lmD3MR', cbeta', sbeta']) : Ytau2Yb4_l3 Xb' Xtau' mE3' lmE3MR' mL3' lmL3MR' mD32' mQ32' Xb2' lmQ3MR' mD3' mQ3' lmD3MR' cbeta' sbeta' = Ytau2Yb4_l3 Xb Xtau mE3 lmE3MR mL3 lmL3MR mD32 mQ32 Xb2 lmQ3MR mD3 mQ3 lmD3MR cbeta sbeta := by
  have e : ∀ Xb Xtau mE3 lmE3MR mL3 lmL3MR mD32 mQ32 Xb2 lmQ3MR mD3 mQ3 lmD3MR cbeta sbeta : ℝ, Ytau2Yb4_l3 Xb Xtau mE3 lmE3MR
      mL3 lmL3MR mD32 mQ32 Xb2 lmQ3MR mD3 mQ3 lmD3MR cbeta sbeta = eval id (env [Xb, Xtau, mE3, lmE3MR, mL3, lmL3MR, mD32, mQ32,
      Xb2, lmQ3MR, mD3, mQ3, lmD3MR, cbeta, sbeta]) (Ytau2Yb4_l3 (.var 0) (.var 1) (.var 2) (.var 3) (.var 4) (.var 5) (.var 6)
      (.var 7) (.var 8) (.var 9) (.var 10) (.var 11) (.var 12) (.var 13) (.var 14)) := fun Xb Xtau mE3 lmE3MR mL3 lmL3MR mD32 mQ32
      Xb2 lmQ3MR mD3 mQ3 lmD3MR cbeta sbeta => by krfl
  rw [e, e]
  exact homog id hl (zpow_zero l) h (by decide +kernel)

section
open FOps
open scoped Himalaya
variable {F : Type} [Add F] [Sub F] [Mul F] [Div F] [Neg F] [FOps F]
theorem dLamYtau2Yb4_eq (c : TcObj F) (omitLogs : Int) : c.dLamYtau2Yb4 omitLogs = (
  let Xb := (calcXb c.p)
  let Xtau := (calcXtau c.p)
  let Xb2 := pow2 Xb
  let mL3 := sqrt ((c.p.ml2 2 2))
  let mE3 := sqrt ((c.p.me2 2 2))
  let mQ32 := (c.p.mq2 2 2)
  let mD32 := (c.p.md2 2 2)
  let mD3 := sqrt mD32
  let mQ3 := sqrt mQ32
  let lmE3MR := (ofInt omitLogs) * log (pow2 mE3 / pow2 c.p.scale)
  let lmL3MR := (ofInt omitLogs) * log (pow2 mL3 / pow2 c.p.scale)
  let lmD3MR := (ofInt omitLogs) * log (pow2 mD3 / pow2 c.p.scale)
  let lmQ3MR := (ofInt omitLogs) * log (mQ32 / pow2 c.p.scale)
  let cbeta := (eftCosBeta c.p)
  let sbeta := (eftSinBeta c.p)
  let eps := mQ3 * lit (1/100)
  if lt (abs (mE3 - mL3)) eps && lt (abs (mD3 - mQ3)) eps then
    Ytau2Yb4_l0 lmL3MR Xb mQ32 Xb2 Xtau cbeta sbeta mQ3
  else
  if lt (abs (mE3 - mL3)) eps then
    Ytau2Yb4_l1 lmL3MR Xb Xtau mD32 mQ32 Xb2 lmQ3MR mD3 mQ3 lmD3MR cbeta sbeta
  else
  if lt (abs (mD3 - mQ3)) eps then
    Ytau2Yb4_l2 mE3 mL3 lmE3MR lmL3MR Xb mQ32 Xb2 Xtau cbeta sbeta mQ3
  else
  Ytau2Yb4_l3 Xb Xtau mE3 lmE3MR mL3 lmL3MR mD32 mQ32 Xb2 lmQ3MR mD3 mQ3 lmD3MR cbeta sbeta
  ) := rfl
end

end Himalaya.Units
