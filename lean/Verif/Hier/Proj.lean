import Verif.Hier.ProjBase
import Verif.Hier.H3P
import Verif.Hier.H32q2gP
import Verif.Hier.H3q22gP
import Verif.Hier.H9P
import Verif.Hier.H9q2P

/-!
# Independence of `μ` of the SM-like projection: H3, H9 and their variants

Generated by tools/gen_hierproj.py.
-/

set_option linter.unusedVariables false
set_option linter.unusedSimpArgs false
set_option maxRecDepth 100000

namespace Himalaya

namespace H3

open Laur
open Kron (E eval)

def projE : E := projF hE.Tbeta hE.Sbeta (getS1 kE { hE with xDmst12 := .lit 1 })
  (getS2 kE { hE with xDmst12 := .lit 1 }) (getS12 kE { hE with xDmst12 := .lit 1 })

set_option maxHeartbeats 1000000 in
theorem checkProj : checkB 26 6 (tabN 1606938044258990275541962092341162602522202993782792835301376 1024 [512]) projE = true := by decide +kernel

theorem linkProj (k : HConst ℝ) (h : HMem ℝ) : eval (fun _ => 0) (fun i => (pt k h).getD i 0) projE =
    projF h.Tbeta h.Sbeta (getS1 k { h with xDmst12 := ((1 : ℚ) : ℝ) })
      (getS2 k { h with xDmst12 := ((1 : ℚ) : ℝ) })
      (getS12 k { h with xDmst12 := ((1 : ℚ) : ℝ) }) := by krfl

/-- The SM-like projection of `H3` does not depend on `μ`. -/
theorem muIndependent : MuIndependent reg (fun h => h.xDmst12 = 1) getS1 getS2 getS12 := by
  refine muIndependent_of_tab (n := 26) (m := 6) (j := 20) (P := pt)
    (normal_of_check checkProj len linkProj)
    (fun k hk => tabN_tabB (i := 20) (n := 1) (js := [0]) (by norm_num) (by norm_num) (by decide) rfl (by decide) hk)
    (fun k h q => ?_) nz (fun h r => r.1) (fun h μ r => r) (fun h μ q => q) (fun k h μ => rfl)
  have e : ({ h with xDmst12 := ((1 : ℚ) : ℝ) } : HMem ℝ) = h := by
    cases h
    simp only [Rat.cast_one, Rat.cast_zero] at q ⊢
    simp [q]
  rw [e]

end H3

namespace H32q2g

open Laur
open Kron (E eval)

def projE : E := projF hE.Tbeta hE.Sbeta (getS1 kE { hE with xDmst12 := .lit 1 })
  (getS2 kE { hE with xDmst12 := .lit 1 }) (getS12 kE { hE with xDmst12 := .lit 1 })

set_option maxHeartbeats 1000000 in
theorem checkProj : checkB 24 4 (tabN 1532495540865888858358347027150309183618739122183602176 1024 [512]) projE = true := by decide +kernel

theorem linkProj (k : HConst ℝ) (h : HMem ℝ) : eval (fun _ => 0) (fun i => (pt k h).getD i 0) projE =
    projF h.Tbeta h.Sbeta (getS1 k { h with xDmst12 := ((1 : ℚ) : ℝ) })
      (getS2 k { h with xDmst12 := ((1 : ℚ) : ℝ) })
      (getS12 k { h with xDmst12 := ((1 : ℚ) : ℝ) }) := by krfl

/-- The SM-like projection of `H32q2g` does not depend on `μ`. -/
theorem muIndependent : MuIndependent reg (fun h => h.xDmst12 = 1) getS1 getS2 getS12 := by
  refine muIndependent_of_tab (n := 24) (m := 4) (j := 18) (P := pt)
    (normal_of_check checkProj len linkProj)
    (fun k hk => tabN_tabB (i := 18) (n := 1) (js := [0]) (by norm_num) (by norm_num) (by decide) rfl (by decide) hk)
    (fun k h q => ?_) nz (fun h r => r.1) (fun h μ r => r) (fun h μ q => q) (fun k h μ => rfl)
  have e : ({ h with xDmst12 := ((1 : ℚ) : ℝ) } : HMem ℝ) = h := by
    cases h
    simp only [Rat.cast_one, Rat.cast_zero] at q ⊢
    simp [q]
  rw [e]

end H32q2g

namespace H3q22g

open Laur
open Kron (E eval)

def projE : E := projF hE.Tbeta hE.Sbeta (getS1 kE { hE with xDmst12 := .lit 1 })
  (getS2 kE { hE with xDmst12 := .lit 1 }) (getS12 kE { hE with xDmst12 := .lit 1 })

set_option maxHeartbeats 1000000 in
theorem checkProj : checkB 25 5 (tabN 1569275433846670190958947355801916604025588861116008628224 1024 [512]) projE = true := by decide +kernel

theorem linkProj (k : HConst ℝ) (h : HMem ℝ) : eval (fun _ => 0) (fun i => (pt k h).getD i 0) projE =
    projF h.Tbeta h.Sbeta (getS1 k { h with xDmst12 := ((1 : ℚ) : ℝ) })
      (getS2 k { h with xDmst12 := ((1 : ℚ) : ℝ) })
      (getS12 k { h with xDmst12 := ((1 : ℚ) : ℝ) }) := by krfl

/-- The SM-like projection of `H3q22g` does not depend on `μ`. -/
theorem muIndependent : MuIndependent reg (fun h => h.xDmst12 = 1) getS1 getS2 getS12 := by
  refine muIndependent_of_tab (n := 25) (m := 5) (j := 19) (P := pt)
    (normal_of_check checkProj len linkProj)
    (fun k hk => tabN_tabB (i := 19) (n := 1) (js := [0]) (by norm_num) (by norm_num) (by decide) rfl (by decide) hk)
    (fun k h q => ?_) nz (fun h r => r.1) (fun h μ r => r) (fun h μ q => q) (fun k h μ => rfl)
  have e : ({ h with xDmst12 := ((1 : ℚ) : ℝ) } : HMem ℝ) = h := by
    cases h
    simp only [Rat.cast_one, Rat.cast_zero] at q ⊢
    simp [q]
  rw [e]

end H3q22g

namespace H9

open Laur
open Kron (E eval)

def projE : E := projF hE.Tbeta hE.Sbeta (getS1 kE hE)
  (getS2 kE hE) (getS12 kE hE)

set_option maxHeartbeats 1000000 in
theorem checkProj : checkB 26 4 (tabN 1569275433846670190958947355801916604025588861116008628224 1024 [512]) projE = true := by decide +kernel

theorem linkProj (k : HConst ℝ) (h : HMem ℝ) : eval (fun _ => 0) (fun i => (pt k h).getD i 0) projE =
    projF h.Tbeta h.Sbeta (getS1 k h)
      (getS2 k h)
      (getS12 k h) := by krfl

/-- The SM-like projection of `H9` does not depend on `μ`. -/
theorem muIndependent : MuIndependent reg (fun _ => True) getS1 getS2 getS12 := by
  refine muIndependent_of_tab (n := 26) (m := 4) (j := 19) (P := pt)
    (normal_of_check checkProj len linkProj)
    (fun k hk => tabN_tabB (i := 19) (n := 1) (js := [0]) (by norm_num) (by norm_num) (by decide) rfl (by decide) hk)
    (fun k h q => ?_) nz (fun h r => r.1) (fun h μ r => r) (fun h μ q => q) (fun k h μ => rfl)
  rfl

end H9

namespace H9q2

open Laur
open Kron (E eval)

def projE : E := projF hE.Tbeta hE.Sbeta (getS1 kE hE)
  (getS2 kE hE) (getS12 kE hE)

set_option maxHeartbeats 1000000 in
theorem checkProj : checkB 27 5 (tabN 1606938044258990275541962092341162602522202993782792835301376 1024 [512]) projE = true := by decide +kernel

theorem linkProj (k : HConst ℝ) (h : HMem ℝ) : eval (fun _ => 0) (fun i => (pt k h).getD i 0) projE =
    projF h.Tbeta h.Sbeta (getS1 k h)
      (getS2 k h)
      (getS12 k h) := by krfl

/-- The SM-like projection of `H9q2` does not depend on `μ`. -/
theorem muIndependent : MuIndependent reg (fun _ => True) getS1 getS2 getS12 := by
  refine muIndependent_of_tab (n := 27) (m := 5) (j := 20) (P := pt)
    (normal_of_check checkProj len linkProj)
    (fun k hk => tabN_tabB (i := 20) (n := 1) (js := [0]) (by norm_num) (by norm_num) (by decide) rfl (by decide) hk)
    (fun k h q => ?_) nz (fun h r => r.1) (fun h μ r => r) (fun h μ q => q) (fun k h μ => rfl)
  rfl

end H9q2

end Himalaya
