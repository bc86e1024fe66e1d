import Verif.Calc.Frame
import Verif.Select.Props
import Mathlib.Tactic.FieldSimp
import Mathlib.Tactic.Ring
import Mathlib.Tactic.Linarith
import Mathlib.Algebra.BigOperators.Fin
import Mathlib.Algebra.Order.BigOperators.Group.Finset

/-!
# C24 (loop flags are additive), C25 (no MDR flag, no shift), C26 (expansion uncertainty)

Exact real arithmetic.
-/

set_option linter.unusedSimpArgs false
set_option linter.unusedSectionVars false
set_option linter.unusedVariables false

namespace Himalaya

open CalcM

/-- the literal `0` of the model -/
local notation "fz" => (@OfNat.ofNat ℝ 0 (FOps.instOfNat 0))

/-! ### C24 -/

/-- the zero matrix -/
noncomputable def zeroMat : Mat2 ℝ := ⟨0, 0, 0, 0⟩

/-- The result of a call with only one loop flag, or the zero matrix if the flag is off. -/
noncomputable def ifFlag (f : Int) (r : Except String (Mat2 ℝ)) : Except String (Mat2 ℝ) := if f = 0 then .ok zeroMat else r

private theorem zeroSE : ((0, 0, 0) : SE ℝ) = ((((0:ℕ):ℝ)), (((0:ℕ):ℝ)), (((0:ℕ):ℝ))) := by simp

private theorem mat2_ext {a b : Mat2 ℝ} (h1 : a.m00 = b.m00) (h2 : a.m01 = b.m01) (h3 : a.m10 = b.m10) (h4 : a.m11 = b.m11) :
    a = b := by
  cases a; cases b; simp_all

theorem add_m00 (a b : Mat2 ℝ) : (a + b).m00 = a.m00 + b.m00 := rfl
theorem add_m01 (a b : Mat2 ℝ) : (a + b).m01 = a.m01 + b.m01 := rfl
theorem add_m10 (a b : Mat2 ℝ) : (a + b).m10 = a.m10 + b.m10 := rfl
theorem add_m11 (a b : Mat2 ℝ) : (a + b).m11 = a.m11 + b.m11 := rfl

private theorem pureStep_eq (E : Env ℝ) (p : Params ℝ) (d : Depth) (ho : HObj ℝ) (b : Bool) (l : Int) (acc : SE ℝ) :
    pureStep E p d ho b l acc = match (if b then loopOut E p d ho l else .ok (⟨0,0,0,0,0,0,0⟩, 0)) with
      | .error e => .error e
      | .ok o => .ok (acc.1 + o.1.s1, acc.2.1 + o.1.s2, acc.2.2 + o.1.s12) := by
  unfold pureStep
  cases b
  · simp
  · simp only [if_true]
    cases loopOut E p d ho l <;> rfl

/-- The call with flags `f1, f2, f3` returns the sum of the calls with a single flag (zero for a flag that is off); it throws exactly
when one of these throws, with the same error. -/
theorem C24_additive (E : Env ℝ) (p : Params ℝ) (s : St ℝ) (f1 f2 f3 : Int) :
    (calculateHierarchy E p f1 f2 f3 s).1 = (do
      let a ← ifFlag f1 (calculateHierarchy E p 1 0 0 s).1
      let b ← ifFlag f2 (calculateHierarchy E p 0 1 0 s).1
      let c ← ifFlag f3 (calculateHierarchy E p 0 0 1 s).1
      return a + b + c) := by
  simp only [calculateHierarchy_fst]
  unfold pureHier ifFlag
  simp only [pureStep_eq]
  by_cases h1 : f1 = 0 <;> by_cases h2 : f2 = 0 <;> by_cases h3 : f3 = 0 <;>
    simp only [h1, h2, h3, ne_eq, not_true, not_false_iff, decide_true, decide_false, if_true, if_false, Bool.false_eq_true,
      one_ne_zero] <;>
    cases loopOut E p s.depth s.ho 1 <;> cases loopOut E p s.depth s.ho 2 <;> cases loopOut E p s.depth s.ho 3 <;>
    first
    | rfl
    | (show Except.ok _ = Except.ok _
       congr 1
       apply mat2_ext <;> simp only [add_m00, add_m01, add_m10, add_m11, Mat2.smul, zeroMat, real_ofNat, Nat.cast_zero] <;> ring)

/-- Nothing requested, nothing computed: the zero matrix, and no state change. -/
theorem C24_no_flags (E : Env ℝ) (p : Params ℝ) (s : St ℝ) : calculateHierarchy E p 0 0 0 s = (.ok zeroMat, s) := by
  rw [calculateHierarchy_no3 E p 0 0 0 (by decide)]
  refine Prod.ext ?_ rfl
  rw [← calculateHierarchy_fst, C24_additive]
  show Except.ok _ = Except.ok _
  congr 1
  apply mat2_ext <;> simp [add_m00, add_m01, add_m10, add_m11, zeroMat]

/-! ### C25 -/

private theorem mother_ok {ho : HObj ℝ} (h : HasHierarchy ho) : ∃ m, getMotherHierarchy ho.getSuitableHierarchy = .ok m ∧
    (m = 0 ∨ m = 3 ∨ m = 4 ∨ m = 6 ∨ m = 7 ∨ m = 12) := by
  obtain ⟨h1, h2⟩ := h
  generalize ho.getSuitableHierarchy = k at *
  interval_cases k <;> (refine ⟨_, rfl, ?_⟩; decide)

private theorem modH6_one (p : Params ℝ) (M2 M f1 f2 : ℝ) (hM : M ≠ 0) (hq : calcMeanMsq p ≠ 0)
    (h : (f1 = 0 ∧ f2 = 0) ∨ p.g3 = 0) : modH6 p M2 M 0 f1 f2 = 1 := by
  unfold modH6 pow4
  have hA : p.g3 = 0 → calcAsOver4Pi p = 0 := by
    intro h; unfold calcAsOver4Pi pow2; simp [h]
  rcases h with ⟨rfl, rfl⟩ | h
  · simp only [pow2, real_ofNat]; push_cast; field_simp; ring
  · simp only [pow2, real_ofNat, hA h]; push_cast; field_simp; ring

private theorem modH6b_one (p : Params ℝ) (M2 M f1 f2 : ℝ) (hM : M ≠ 0)
    (h : (f1 = 0 ∧ f2 = 0) ∨ p.g3 = 0) : modH6b p M2 M 0 f1 f2 = 1 := by
  unfold modH6b
  have hA : p.g3 = 0 → calcAsOver4Pi p = 0 := by
    intro h; unfold calcAsOver4Pi pow2; simp [h]
  rcases h with ⟨rfl, rfl⟩ | h
  · simp only [pow2, real_ofNat]; push_cast; field_simp; ring
  · simp only [pow2, real_ofNat, hA h]; push_cast; field_simp; ring

private theorem shiftMod_one (p : Params ℝ) (m : Int) (hm : m = 0 ∨ m = 3 ∨ m = 4 ∨ m = 6 ∨ m = 7 ∨ m = 12) (M2 M f1 f2 : ℝ)
    (hM : M ≠ 0) (hq : calcMeanMsq p ≠ 0) (h : (f1 = 0 ∧ f2 = 0) ∨ p.g3 = 0) : shiftMod p m M2 M 0 f1 f2 = 1 := by
  rcases hm with rfl | rfl | rfl | rfl | rfl | rfl <;> unfold shiftMod <;>
    first
    | exact modH6_one p M2 M f1 f2 hM hq h
    | exact modH6b_one p M2 M f1 f2 hM h
    | (simp only [real_ofNat]; norm_num)

private theorem ka1_zero (p : Params ℝ) (M1 M2 f2 : ℝ) (h : f2 = 0 ∨ p.g3 = 0) : mdr2mst1ka p M1 M2 f2 = 0 := by
  unfold mdr2mst1ka calcAsOver4Pi pow2
  rcases h with rfl | h
  · simp
  · simp [h]

private theorem ka2_zero (p : Params ℝ) (M2 f2 : ℝ) (h : f2 = 0 ∨ p.g3 = 0) : mdr2mst2ka p M2 f2 = 0 := by
  unfold mdr2mst2ka calcAsOver4Pi pow2
  rcases h with rfl | h
  · simp
  · simp [h]

/-- Lighter stop (sbottom) mass as the caller passed it in. -/
noncomputable def inputMass1 (p : Params ℝ) (ho : HObj ℝ) : ℝ := if ho.getIsAlphab then p.MSb.x0 else p.MSt.x0
/-- Heavier stop (sbottom) mass as the caller passed it in. -/
noncomputable def inputMass2 (p : Params ℝ) (ho : HObj ℝ) : ℝ := if ho.getIsAlphab then p.MSb.x1 else p.MSt.x1

/-- With flags (0,0), or without strong coupling for any flags, the mass shifts return the DR' masses. -/
theorem C25_no_shift (p : Params ℝ) (ho : HObj ℝ) (h : HasHierarchy ho) (hq : calcMeanMsq p ≠ 0) (a b : Int)
    (hab : (a = 0 ∧ b = 0) ∨ p.g3 = 0) :
    shiftMst1ToMDR p ho a b = .ok (inputMass1 p ho) ∧ shiftMst2ToMDR p ho a b = .ok (inputMass2 p ho) := by
  obtain ⟨m, hm, hm'⟩ := mother_ok h
  have hf : ((FOps.ofInt a : ℝ) = 0 ∧ (FOps.ofInt b : ℝ) = 0) ∨ p.g3 = 0 := by
    rcases hab with ⟨rfl, rfl⟩ | h
    · left; simp
    · right; exact h
  have hb : (FOps.ofInt b : ℝ) = 0 ∨ p.g3 = 0 := by tauto
  constructor
  · unfold shiftMst1ToMDR
    rw [hm]
    show Except.ok _ = Except.ok _
    rw [ka1_zero p _ _ _ hb]
    congr 1
    show mst1 p ho * _ = mst1 p ho
    by_cases h0 : mst1 p ho = 0
    · rw [h0]; simp
    · rw [shiftMod_one p m hm' _ _ _ _ h0 hq hf]; simp
  · unfold shiftMst2ToMDR
    rw [hm]
    show Except.ok _ = Except.ok _
    rw [ka2_zero p _ _ hb]
    congr 1
    show mst2 p ho * _ = mst2 p ho
    by_cases h0 : mst2 p ho = 0
    · rw [h0]; simp
    · rw [shiftMod_one p m hm' _ _ _ _ h0 hq hf]; simp

/-- A 3-loop calculation with MDR flag 0 reports the input masses as "MDR masses" (sorted) and uses them. -/
theorem C25_masses_used_without_mdr_flag (p : Params ℝ) (ho : HObj ℝ) (h : HasHierarchy ho) (hq : calcMeanMsq p ≠ 0)
    (hf : ho.getMDRFlag = 0) (l : Int) (hl : l = 1 ∨ l = 2 ∨ l = 3) :
    calcMsfMDRFlag p ho l = .ok (inputMass1 p ho, inputMass2 p ho) := by
  obtain ⟨h1, h2⟩ := C25_no_shift p ho h hq 0 0 (Or.inl ⟨rfl, rfl⟩)
  unfold calcMsfMDRFlag
  rw [hf]
  rcases hl with rfl | rfl | rfl <;> simp only [h1, h2] <;> rfl

/-- At one loop never any shift, whatever the MDR flag. -/
theorem C25_one_loop_masses_unshifted (p : Params ℝ) (ho : HObj ℝ) (h : HasHierarchy ho) (hq : calcMeanMsq p ≠ 0) :
    calcMsfMDRFlag p ho 1 = .ok (inputMass1 p ho, inputMass2 p ho) := by
  obtain ⟨h1, h2⟩ := C25_no_shift p ho h hq 0 0 (Or.inl ⟨rfl, rfl⟩)
  unfold calcMsfMDRFlag
  simp only [h1, h2]; rfl

/-- With both switches off the DR' to MDR' shift is the zero matrix for every object (even without hierarchy). -/
theorem C25_shift_off (E : Env ℝ) (p : Params ℝ) (ho : HObj ℝ) : calcDRbarToMDRbarShift E p ho false false = .ok zeroMat := by
  unfold calcDRbarToMDRbarShift
  show Except.ok _ = Except.ok _
  congr 1
  simp [Mat2.const, zeroMat]

theorem sub_self_mat (a : Mat2 ℝ) : a - a = zeroMat := by
  apply mat2_ext <;> show _ - _ = (0:ℝ) <;> ring

/-- Without strong coupling the schemes agree: the shift vanishes whenever it can be computed. -/
theorem C25_shift_vanishes_without_strong_coupling (E : Env ℝ) (p : Params ℝ) (ho : HObj ℝ) (h : HasHierarchy ho)
    (hq : calcMeanMsq p ≠ 0) (hg : p.g3 = 0) (x y : Bool) (m : Mat2 ℝ)
    (hm : calcDRbarToMDRbarShift E p ho x y = .ok m) : m = zeroMat := by
  obtain ⟨a1, a2⟩ := C25_no_shift p ho h hq 0 0 (Or.inr hg)
  obtain ⟨b1, b2⟩ := C25_no_shift p ho h hq 1 1 (Or.inr hg)
  have e1 : getMt41L p ho 1 1 = getMt41L p ho 0 0 := by unfold getMt41L; rw [a1, a2, b1, b2]
  have e2 : getMt42L E p ho 1 1 = getMt42L E p ho 0 0 := by unfold getMt42L; rw [a1, a2, b1, b2]
  have z : Mat2.const (0:ℝ) = zeroMat := rfl
  have zz : zeroMat + zeroMat = zeroMat := by apply mat2_ext <;> show (0:ℝ) + 0 = 0 <;> ring
  have z' : (Mat2.const (@OfNat.ofNat ℝ 0 (FOps.instOfNat 0)) : Mat2 ℝ) = zeroMat := by
    simp [Mat2.const, zeroMat]
  unfold calcDRbarToMDRbarShift at hm
  rw [e1, e2, z'] at hm
  cases h1 : getMt41L p ho 0 0 <;> cases h2 : getMt42L E p ho 0 0 <;> rw [h1, h2] at hm <;>
    cases x <;> cases y <;>
    first
    | (exfalso; cases hm; done)
    | (have hm' : _ = m := Except.ok.inj hm
       rw [← hm']; try simp only [sub_self_mat, zz])

/-- an external environment whose expansion depends on the truncation flags and never throws -/
noncomputable def exampleEnv : Env ℝ where
  hier _ d _ _ _ := .ok ⟨(d XD.Dmglst1 : ℝ), 0, 0, 0, 0, 0, 0⟩
  smallestEig m := m.m00
  atas _ := .ok (0, 0, 0)
  eftFull _ := .ok ⟨0, fun _ _ => 0, fun _ _ => 0, fun _ _ _ => 0⟩
  eftAs _ := .ok ⟨0, fun _ _ => 0, fun _ _ => 0, fun _ _ _ => 0⟩
  tc _ := .ok ⟨fun _ _ _ _ => 0, fun _ _ _ => 0, fun _ _ _ => 0, 0⟩
  fo _ _ := .ok (0, 0, 0)
  diag _ _ _ _ := (0, 0, 0, 0)

/-- a parameter point -/
noncomputable def examplePoint : Params ℝ where
  scale := 1
  mu := 1
  g1 := 0
  g2 := 0
  g3 := 1
  vd := 1
  vu := 1
  mq2 := fun _ _ => 1
  md2 := fun _ _ => 1
  mu2 := fun _ _ => 1
  ml2 := fun _ _ => 1
  me2 := fun _ _ => 1
  Au := fun _ _ => 0
  Ad := fun _ _ => 0
  Ae := fun _ _ => 0
  Yu := fun _ _ => 0
  Yd := fun _ _ => 0
  Ye := fun _ _ => 0
  M1 := 1
  M2 := 1
  MG := 1/4
  MW := 1
  MZ := 1
  Mt := 1
  Mb := 0
  Mtau := 1
  MA := 1
  MSt := ⟨1/2, 3/4⟩
  MSb := ⟨1/2, 3/4⟩
  MStau := ⟨1/2, 3/4⟩
  s2t := 0
  s2b := 0
  s2tau := 0
  theta_t := 0
  theta_b := 0
  theta_tau := 0
  massLimit3LThreshold := 0

theorem examplePoint_msq : calcMeanMsq examplePoint = 1 := by
  unfold calcMeanMsq calculateMsq2 examplePoint calc_cos2beta
  simp [pow2, real_ofNat, FOps.pow01]

example : HasHierarchy (HObj.new false : HObj ℝ) ∧ calcMeanMsq examplePoint ≠ 0 ∧ (HObj.new false : HObj ℝ).getMDRFlag = 0 := by
  refine ⟨⟨by decide, by decide⟩, ?_, rfl⟩
  rw [examplePoint_msq]; norm_num

/-! ### C26 -/

/-- Expansion variables of each hierarchy (by hierarchy key): the flags that are truncated for the uncertainty of
hierarchy `k`. -/
def truncatedVariables (k : Int) : Finset DepthIdx :=
  if k = 0 ∨ k = 1 ∨ k = 2 then {XD.Dmglst1, XD.Dmsqst1, XD.Dmst12}
  else if k = 3 then {XD.At, XD.lmMsusy, XD.Msq, XD.Msusy}
  else if k = 4 ∨ k = 5 then {XD.Dmglst1, XD.Msq}
  else if k = 6 ∨ k = 11 then {XD.Dmglst2, XD.Msq}
  else if k = 7 ∨ k = 8 ∨ k = 9 ∨ k = 10 then {XD.Dmglst2, XD.Dmsqst2}
  else {XD.Dmsqst1, XD.Dmst12, XD.Mgl}

/-- Higgs mass obtained with expansion flags `d`. -/
noncomputable def higgsMass (E : Env ℝ) (p : Params ℝ) (ho : HObj ℝ) (M : Mat2 ℝ) (f1 f2 f3 : Int) (d : Depth) : Except String ℝ :=
  ((calculateHierarchy E p f1 f2 f3 ⟨d, ho⟩).1).map (fun m => E.smallestEig (M + m))

/-- All terms kept: three-loop and top-mass flags on. -/
def fullDepth (d : Depth) : Depth := fun i => if i = XD.threeLoop ∨ i = XD.Mst then 1 else d i

/-- Flag `i` off. -/
def without (d : Depth) (i : DepthIdx) : Depth := fun j => if j = i then 0 else d j

private theorem uncDepth_eq (d : Depth) : uncDepth d = fullDepth d := by
  funext i
  unfold uncDepth fullDepth setIdx
  by_cases h1 : i = XD.threeLoop
  · subst h1; rfl
  · by_cases h2 : i = XD.Mst
    · subst h2; rfl
    · simp [h1, h2]

private theorem higgsMass_eq (E : Env ℝ) (p : Params ℝ) (ho : HObj ℝ) (M : Mat2 ℝ) (f1 f2 f3 : Int) (d : Depth) :
    higgsMass E p ho M f1 f2 f3 d = pureMh E p d ho M f1 f2 f3 := by
  unfold higgsMass pureMh
  rw [calculateHierarchy_fst]
  dsimp only
  cases pureHier E p d ho f1 f2 f3 <;> rfl

private theorem pureSum_eq (E : Env ℝ) (p : Params ℝ) (ho : HObj ℝ) (M : Mat2 ℝ) (f1 f2 f3 : Int) (d : Depth) (Mh : ℝ) (mh : DepthIdx → ℝ)
    (l : List DepthIdx) (hmh : ∀ i ∈ l, pureMh E p (setIdx d i 0) ho M f1 f2 f3 = .ok (mh i)) :
    ∀ acc, pureSum E p d ho M f1 f2 f3 Mh l acc = .ok (acc + (l.map fun i => (Mh - mh i)^2).sum) := by
  induction l with
  | nil => intro acc; simp [pureSum]
  | cons i l ih =>
    intro acc
    unfold pureSum
    rw [hmh i (by simp)]
    dsimp only
    rw [ih (fun j hj => hmh j (by simp [hj]))]
    simp [pow2]; ring

private theorem pureSum_ok (E : Env ℝ) (p : Params ℝ) (ho : HObj ℝ) (M : Mat2 ℝ) (f1 f2 f3 : Int) (d : Depth) (Mh : ℝ)
    (l : List DepthIdx) : ∀ acc u, pureSum E p d ho M f1 f2 f3 Mh l acc = .ok u →
      ∀ i ∈ l, ∃ m, pureMh E p (setIdx d i 0) ho M f1 f2 f3 = .ok m := by
  induction l with
  | nil => intro acc u _ i hi; cases hi
  | cons i l ih =>
    intro acc u h j hj
    unfold pureSum at h
    cases hi : pureMh E p (setIdx d i 0) ho M f1 f2 f3 with
    | error e => rw [hi] at h; cases h
    | ok m =>
      rw [hi] at h
      rcases List.mem_cons.1 hj with rfl | hj
      · exact ⟨m, hi⟩
      · exact ih _ _ h j hj

private theorem trunc_spec (k m : Int) (h : getMotherHierarchy k = .ok m) :
    (truncationFlags m).Nodup ∧ (truncationFlags m).toFinset = truncatedVariables k := by
  have hk : 0 ≤ k ∧ k ≤ 13 := (C07_mother_domain k).1 ⟨m, h⟩
  obtain ⟨h1, h2⟩ := hk
  interval_cases k <;> (cases h; decide)

/-- The returned uncertainty is the root of the sum of squared changes of the Higgs mass, one summand for every expansion variable of
the hierarchy, in no particular order. -/
theorem C26_formula (E : Env ℝ) (p : Params ℝ) (s : St ℝ) (M : Mat2 ℝ) (f1 f2 f3 : Int) (u : ℝ)
    (h : (getExpansionUncertainty E p M f1 f2 f3 s).1 = .ok u) :
    ∃ (Mh : ℝ) (mh : DepthIdx → ℝ), higgsMass E p s.ho M f1 f2 f3 (fullDepth s.depth) = .ok Mh ∧
      (∀ i ∈ truncatedVariables s.ho.getSuitableHierarchy,
        higgsMass E p s.ho M f1 f2 f3 (without (fullDepth s.depth) i) = .ok (mh i)) ∧
      u = Real.sqrt (∑ i ∈ truncatedVariables s.ho.getSuitableHierarchy, (Mh - mh i)^2) := by
  rw [getExpansionUncertainty_run] at h
  unfold pureUnc at h
  dsimp only at h
  simp only [higgsMass_eq]
  rw [← uncDepth_eq]
  cases h1 : pureMh E p (uncDepth s.depth) s.ho M f1 f2 f3 with
  | error e => rw [h1] at h; cases h
  | ok Mh =>
    rw [h1] at h
    dsimp only at h
    cases h2 : getMotherHierarchy s.ho.hierarchy with
    | error e => rw [h2] at h; cases h
    | ok m =>
      rw [h2] at h
      dsimp only at h
      obtain ⟨t1, t2⟩ := trunc_spec _ _ h2
      cases h3 : pureSum E p (uncDepth s.depth) s.ho M f1 f2 f3 Mh (truncationFlags m) fz with
      | error e => rw [h3] at h; cases h
      | ok v =>
        rw [h3] at h
        have hu : FOps.sqrt v = u := Except.ok.inj h
        have hall := pureSum_ok _ _ _ _ _ _ _ _ _ _ _ _ h3
        classical
        have : ∀ i, ∃ m', i ∈ truncationFlags m → pureMh E p (setIdx (uncDepth s.depth) i 0) s.ho M f1 f2 f3 = .ok m' := by
          intro i
          by_cases hi : i ∈ truncationFlags m
          · obtain ⟨m', hm'⟩ := hall i hi; exact ⟨m', fun _ => hm'⟩
          · exact ⟨0, fun hc => absurd hc hi⟩
        choose mh hmh using this
        rw [pureSum_eq E p s.ho M f1 f2 f3 _ Mh mh _ hmh] at h3
        refine ⟨Mh, mh, rfl, ?_, ?_⟩
        · intro i hi
          apply hmh
          have := hi
          unfold HObj.getSuitableHierarchy at this
          rw [← t2, List.mem_toFinset] at this
          exact this
        · unfold HObj.getSuitableHierarchy
          rw [← t2, List.sum_toFinset _ t1, ← hu, ← Except.ok.inj h3]
          simp

/-- Never negative. -/
theorem C26_nonneg (E : Env ℝ) (p : Params ℝ) (s : St ℝ) (M : Mat2 ℝ) (f1 f2 f3 : Int) (u : ℝ)
    (h : (getExpansionUncertainty E p M f1 f2 f3 s).1 = .ok u) : 0 ≤ u := by
  obtain ⟨Mh, mh, -, -, rfl⟩ := C26_formula E p s M f1 f2 f3 u h
  exact Real.sqrt_nonneg _

/-- It bounds the effect of dropping any single expansion variable. -/
theorem C26_bounds_each_truncation (E : Env ℝ) (p : Params ℝ) (s : St ℝ) (M : Mat2 ℝ) (f1 f2 f3 : Int) (u : ℝ)
    (h : (getExpansionUncertainty E p M f1 f2 f3 s).1 = .ok u) (i : DepthIdx)
    (hi : i ∈ truncatedVariables s.ho.getSuitableHierarchy) (a b : ℝ)
    (ha : higgsMass E p s.ho M f1 f2 f3 (fullDepth s.depth) = .ok a)
    (hb : higgsMass E p s.ho M f1 f2 f3 (without (fullDepth s.depth) i) = .ok b) : |a - b| ≤ u := by
  obtain ⟨Mh, mh, h1, h2, rfl⟩ := C26_formula E p s M f1 f2 f3 u h
  rw [h1] at ha
  rw [h2 i hi] at hb
  cases ha; cases hb
  apply Real.abs_le_sqrt
  exact Finset.single_le_sum (f := fun i => (_ - mh i)^2) (fun _ _ => sq_nonneg _) hi

/-- It vanishes when the expansion of this hierarchy does not depend on its truncation flags. -/
theorem C26_zero_if_flags_irrelevant (E : Env ℝ) (p : Params ℝ) (s : St ℝ) (M : Mat2 ℝ) (f1 f2 f3 : Int) (u : ℝ)
    (h : (getExpansionUncertainty E p M f1 f2 f3 s).1 = .ok u)
    (hE : ∀ d i args mdr fl, i ∈ truncatedVariables s.ho.getSuitableHierarchy →
      E.hier s.ho.getSuitableHierarchy (without d i) args mdr fl = E.hier s.ho.getSuitableHierarchy d args mdr fl) : u = 0 := by
  obtain ⟨Mh, mh, h1, h2, rfl⟩ := C26_formula E p s M f1 f2 f3 u h
  have : ∀ i ∈ truncatedVariables s.ho.getSuitableHierarchy, mh i = Mh := by
    intro i hi
    have h3 := h2 i hi
    have : higgsMass E p s.ho M f1 f2 f3 (without (fullDepth s.depth) i) = higgsMass E p s.ho M f1 f2 f3 (fullDepth s.depth) := by
      rw [higgsMass_eq, higgsMass_eq]
      unfold pureMh pureHier pureStep loopOut
      simp only [hE _ i _ _ _ hi]
    rw [this, h1] at h3
    exact (Except.ok.inj h3).symm
  rw [Finset.sum_eq_zero]
  · simp
  · intro i hi; rw [this i hi]; simp

/-- It is available for every known hierarchy if the expansion does not throw. -/
theorem C26_total (E : Env ℝ) (p : Params ℝ) (s : St ℝ) (M : Mat2 ℝ) (f1 f2 f3 : Int) (hh : HasHierarchy s.ho)
    (hE : ∀ k d args mdr fl, ∃ o, E.hier k d args mdr fl = .ok o) :
    ∃ u, (getExpansionUncertainty E p M f1 f2 f3 s).1 = .ok u := by
  obtain ⟨m, hm, hm'⟩ := mother_ok hh
  have hsh1 : ∀ a b, ∃ x, shiftMst1ToMDR p s.ho a b = .ok x := by
    intro a b; unfold shiftMst1ToMDR; rw [hm]; exact ⟨_, rfl⟩
  have hsh2 : ∀ a b, ∃ x, shiftMst2ToMDR p s.ho a b = .ok x := by
    intro a b; unfold shiftMst2ToMDR; rw [hm]; exact ⟨_, rfl⟩
  have hmsf : ∀ l, l = 1 ∨ l = 2 ∨ l = 3 → ∃ x, calcMsfMDRFlag p s.ho l = .ok x := by
    intro l hl
    unfold calcMsfMDRFlag
    obtain ⟨a, ha⟩ := hsh1 0 0
    obtain ⟨b, hb⟩ := hsh1 s.ho.getMDRFlag 0
    obtain ⟨c, hc⟩ := hsh1 s.ho.getMDRFlag s.ho.getMDRFlag
    obtain ⟨a', ha'⟩ := hsh2 0 0
    obtain ⟨b', hb'⟩ := hsh2 s.ho.getMDRFlag 0
    obtain ⟨c', hc'⟩ := hsh2 s.ho.getMDRFlag s.ho.getMDRFlag
    rcases hl with rfl | rfl | rfl
    · rw [ha, ha']; exact ⟨_, rfl⟩
    · rw [hb, hb']; exact ⟨_, rfl⟩
    · rw [hc, hc']; exact ⟨_, rfl⟩
  have hargs : ∀ x y, ∃ a, hierArgs p s.ho x y = some a := by
    intro x y
    unfold hierArgs
    obtain ⟨h1, h2⟩ := hh
    generalize s.ho.getSuitableHierarchy = k at h1 h2
    interval_cases k <;> exact ⟨_, rfl⟩
  have hlo : ∀ d l, l = 1 ∨ l = 2 ∨ l = 3 → ∃ o, loopOut E p d s.ho l = .ok o := by
    intro d l hl
    unfold loopOut
    obtain ⟨x, hx⟩ := hmsf l hl
    obtain ⟨a, ha⟩ := hargs x.1 x.2
    obtain ⟨o, ho⟩ := hE s.ho.getSuitableHierarchy d a s.ho.getMDRFlag (loopFlagsOf l)
    rw [hx]; dsimp only; rw [ha]; dsimp only; rw [ho]; exact ⟨_, rfl⟩
  have hst : ∀ d b l acc, l = 1 ∨ l = 2 ∨ l = 3 → ∃ o, pureStep E p d s.ho b l acc = .ok o := by
    intro d b l acc hl
    unfold pureStep
    obtain ⟨o, ho⟩ := hlo d l hl
    cases b
    · exact ⟨_, rfl⟩
    · simp only [if_true]; rw [ho]; exact ⟨_, rfl⟩
  have hmh : ∀ d, ∃ x, pureMh E p d s.ho M f1 f2 f3 = .ok x := by
    intro d
    unfold pureMh pureHier
    obtain ⟨a, ha⟩ := hst d (decide (f1 ≠ 0)) 1 (fz, fz, fz) (by simp)
    obtain ⟨b, hb⟩ := hst d (decide (f2 ≠ 0)) 2 a (by simp)
    obtain ⟨c, hc⟩ := hst d (decide (f3 ≠ 0)) 3 b (by simp)
    rw [ha]; dsimp only; rw [hb]; dsimp only; rw [hc]
    exact ⟨_, rfl⟩
  rw [getExpansionUncertainty_run]
  unfold pureUnc
  obtain ⟨x, hx⟩ := hmh (uncDepth s.depth)
  choose mh hmh using fun i => hmh (setIdx (uncDepth s.depth) i 0)
  dsimp only
  rw [hx]
  dsimp only
  have hm2 : getMotherHierarchy s.ho.hierarchy = .ok m := hm
  rw [hm2]
  dsimp only
  rw [pureSum_eq E p s.ho M f1 f2 f3 _ x mh _ (fun i _ => hmh i)]
  exact ⟨_, rfl⟩

example : (∀ k d args mdr fl, ∃ o, exampleEnv.hier k d args mdr fl = .ok o) ∧ HasHierarchy (HObj.new true : HObj ℝ) :=
  ⟨fun _ _ _ _ _ => ⟨_, rfl⟩, ⟨by decide, by decide⟩⟩

end Himalaya
