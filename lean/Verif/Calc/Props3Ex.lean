import Verif.Calc.Total
import Verif.Calc.Props2
import Verif.Iface.Props3

/-!
# C08, C09, C20: the hypotheses can be met; a NaN estimate is really selected
-/

set_option linter.unusedSimpArgs false
set_option linter.unusedSectionVars false
set_option linter.unusedVariables false

namespace Himalaya

open CalcM

/-! ### Real arithmetic -/

theorem exampleEnv_total : TotalEnv exampleEnv where
  hier _ _ _ _ _ := ⟨_, rfl⟩
  atas _ := ⟨_, rfl⟩
  eftFull _ := ⟨_, rfl⟩
  eftAs _ := ⟨_, rfl⟩
  tc _ := ⟨_, rfl⟩
  fo _ _ := ⟨_, rfl⟩

theorem examplePoint_suitable : Suitable examplePoint (HObj.new false) 4 := by
  unfold Suitable isHierarchySuitable
  rw [examplePoint_msq]
  simp [suitableMasses, examplePoint, HObj.new, HObj.setSuitableHierarchy, HObj.getSuitableHierarchy, HObj.getIsAlphab,
    real_ofNat, Hier.h3, Hier.h32q2g, Hier.h3q22g, Hier.h4, Hier.h5]
  norm_num

/-- The hypotheses of C08, C09 are met: the selection returns some hierarchy. -/
example : ∃ k s', compareHierarchies exampleEnv examplePoint ⟨fun _ => 1, HObj.new false⟩ = (.ok k, s') ∧ k ≠ -1 := by
  obtain ⟨k, s', h⟩ := compareHierarchies_returns (p := examplePoint) exampleEnv_total ⟨fun _ => 1, HObj.new false⟩
  refine ⟨k, s', h, fun hk => ?_⟩
  exact ((C08_selected_is_suitable _ _ _ _ _ _ h).2.1.1 hk) 4 examplePoint_suitable

/-- The hypotheses of C20_returns_if_suitable are met. -/
example : ∃ r, (calculateDMh3L exampleEnv examplePoint false ⟨fun _ => 1, HObj.new false⟩).1 = .ok r :=
  C20_returns_if_suitable exampleEnv_total _ _ _ 4 examplePoint_suitable

/-! ### Doubles with NaN -/

/-- External code that never throws; the expansion of hierarchy 2 (h3q22g) is not a number, all others vanish.  The eigenvalue
routine returns NaN for a matrix with a NaN, else 1. -/
noncomputable def nanEnv : Env Dbl where
  hier k _ _ _ _ := .ok ⟨if k = 2 then .nan else .fin 0, .fin 0, .fin 0, .fin 0, .fin 0, .fin 0, .fin 0⟩
  smallestEig m := if FOps.isNaN m.m00 then .nan else .fin 1
  atas _ := .ok (.fin 0, .fin 0, .fin 0)
  eftFull _ := .ok ⟨.fin 0, fun _ _ => .fin 0, fun _ _ => .fin 0, fun _ _ _ => .fin 0⟩
  eftAs _ := .ok ⟨.fin 0, fun _ _ => .fin 0, fun _ _ => .fin 0, fun _ _ _ => .fin 0⟩
  tc _ := .ok ⟨fun _ _ _ _ => .fin 0, fun _ _ _ => .fin 0, fun _ _ _ => .fin 0, 0⟩
  fo _ _ := .ok (.fin 0, .fin 0, .fin 0)
  diag _ _ _ _ := (.fin 0, .fin 0, .fin 0, .fin 0)

theorem nanEnv_total : TotalEnv nanEnv where
  hier _ _ _ _ _ := ⟨_, rfl⟩
  atas _ := ⟨_, rfl⟩
  eftFull _ := ⟨_, rfl⟩
  eftAs _ := ⟨_, rfl⟩
  tc _ := ⟨_, rfl⟩
  fo _ _ := ⟨_, rfl⟩

/-- a parameter point with finite entries -/
noncomputable def finPoint : Params Dbl where
  scale := .fin 1
  mu := .fin 1
  g1 := .fin 0
  g2 := .fin 0
  g3 := .fin 1
  vd := .fin 1
  vu := .fin 1
  mq2 := fun _ _ => .fin 1
  md2 := fun _ _ => .fin 1
  mu2 := fun _ _ => .fin 1
  ml2 := fun _ _ => .fin 1
  me2 := fun _ _ => .fin 1
  Au := fun _ _ => .fin 0
  Ad := fun _ _ => .fin 0
  Ae := fun _ _ => .fin 0
  Yu := fun _ _ => .fin 0
  Yd := fun _ _ => .fin 0
  Ye := fun _ _ => .fin 0
  M1 := .fin 1
  M2 := .fin 1
  MG := .fin (1/4)
  MW := .fin 1
  MZ := .fin 1
  Mt := .fin 1
  Mb := .fin 0
  Mtau := .fin 1
  MA := .fin 1
  MSt := ⟨.fin (1/2), .fin (3/4)⟩
  MSb := ⟨.fin (1/2), .fin (3/4)⟩
  MStau := ⟨.fin (1/2), .fin (3/4)⟩
  s2t := .fin 0
  s2b := .fin 0
  s2tau := .fin 0
  theta_t := .fin 0
  theta_b := .fin 0
  theta_tau := .fin 0
  massLimit3LThreshold := 0

theorem dbl_div (x y : ℝ) (h : y ≠ 0) : (Dbl.fin x / Dbl.fin y : Dbl) = .fin (x / y) := Dbl.fin_div x y h
theorem dbl_log (x : ℝ) (h : 0 < x) : FOps.log (Dbl.fin x) = .fin (Real.log x) := by
  show Dbl.logd _ = _; simp [Dbl.logd, h]
theorem dbl_pow01 (x : ℝ) (h : 0 ≤ x) : FOps.pow01 (Dbl.fin x) = .fin (x ^ ((1:ℝ)/10)) := by
  show Dbl.pow01d _ = _; simp [Dbl.pow01d, h]
theorem dbl_atan (x : ℝ) : FOps.atan (Dbl.fin x) = .fin (Real.arctan x) := rfl

theorem finPoint_msq : calcMeanMsq finPoint = .fin 1 := by
  have h1 : calc_v2 (Dbl.fin 1) (Dbl.fin 1) = .fin 2 := by
    simp [calc_v2, pow2]; norm_num
  have h2 : calc_sw2 (Dbl.fin 1) (Dbl.fin 1) = .fin 0 := by
    simp [calc_sw2, calc_cw2, pow2, dbl_div]
  unfold calcMeanMsq calculateMsq2 finPoint calc_cos2beta
  dsimp only
  rw [h1, h2]
  simp [pow2, dbl_div, dbl_pow01, Dbl.fin_sqrt]

theorem finPoint_suitable : Suitable finPoint (HObj.new false) 4 ∧ Suitable finPoint (HObj.new false) 2 ∧
    ∀ i, i < 2 → ¬ Suitable finPoint (HObj.new false) i := by
  have key : ∀ k, isHierarchySuitable finPoint ((HObj.new false).setSuitableHierarchy k) =
      suitableMasses k (Dbl.fin (1/2)) (Dbl.fin (3/4)) (Dbl.fin (1/4)) (Dbl.fin 1) := by
    intro k
    unfold isHierarchySuitable
    rw [finPoint_msq]; rfl
  refine ⟨?_, ?_, fun i hi hs => ?_⟩
  · unfold Suitable
    rw [key]
    simp [suitableMasses]; norm_num
  · unfold Suitable
    rw [key]
    simp [suitableMasses]; norm_num
  · have hr := suitable_range hs
    unfold Suitable at hs
    rw [key] at hs
    obtain ⟨h0, -⟩ := hr
    interval_cases i
    · simp [suitableMasses] at hs; norm_num at hs
    · simp [suitableMasses] at hs; norm_num at hs

/-- Masses without shift -/
theorem finPoint_shift (k : Int) (hk : k = 2 ∨ k = 4) :
    shiftMst1ToMDR finPoint ((HObj.new false).setSuitableHierarchy k) 0 0 = .ok (.fin (1/2)) ∧
    shiftMst2ToMDR finPoint ((HObj.new false).setSuitableHierarchy k) 0 0 = .ok (.fin (3/4)) := by
  have h1 : mdr2mst1ka finPoint (Dbl.fin (1/2)) (Dbl.fin (3/4)) (.fin 0) = .fin 0 := by
    unfold mdr2mst1ka
    rw [finPoint_msq]
    simp [finPoint, calcAsOver4Pi, pow2, dbl_div, dbl_log, cz2]
  have h2 : mdr2mst2ka finPoint (Dbl.fin (3/4)) (.fin 0) = .fin 0 := by
    unfold mdr2mst2ka
    rw [finPoint_msq]
    simp [finPoint, calcAsOver4Pi, pow2, dbl_div, dbl_log, cz2]
  have e : (FOps.ofInt 0 : Dbl) = .fin 0 := by simp
  have m1 : mst1 finPoint ((HObj.new false).setSuitableHierarchy k) = .fin (1/2) := rfl
  have m2 : mst2 finPoint ((HObj.new false).setSuitableHierarchy k) = .fin (3/4) := rfl
  unfold shiftMst1ToMDR shiftMst2ToMDR
  rw [m1, m2, e]
  dsimp only
  rw [h1, h2]
  have hm : ∃ m, getMotherHierarchy ((HObj.new false : HObj Dbl).setSuitableHierarchy k).getSuitableHierarchy = .ok m ∧ (m = 0 ∨ m = 4) := by
    rcases hk with rfl | rfl
    · exact ⟨0, rfl, by simp⟩
    · exact ⟨4, rfl, by simp⟩
  obtain ⟨m, hm1, hm2⟩ := hm
  rw [hm1]
  have hs : ∀ M, shiftMod finPoint m (Dbl.fin (3/4)) M (.fin 0) (.fin 0) (.fin 0) = .fin 1 := by
    intro M
    rcases hm2 with rfl | rfl <;> simp [shiftMod]
  refine ⟨?_, ?_⟩
  · show Except.ok _ = _
    rw [hs]; simp [Dbl.fin_sqrt]
  · show Except.ok _ = _
    rw [hs]; simp [Dbl.fin_sqrt]

theorem finPoint_mt41 (k : Int) (hk : k = 2 ∨ k = 4) :
    ∃ m x, getMt41L finPoint ((HObj.new false).setSuitableHierarchy k) 0 0 = .ok m ∧ m.m00 = .fin x := by
  obtain ⟨h1, h2⟩ := finPoint_shift k hk
  unfold getMt41L
  rw [h1, h2]
  refine ⟨_, ?_, rfl, ?_⟩
  rotate_left
  · show calcPrefactor finPoint * _ = _
    unfold calcPrefactor mt41Matrix mt41LogTerm
    dsimp only
    simp [finPoint, HObj.getIsAlphab, HObj.new, HObj.setSuitableHierarchy, pow2, dbl_div, dbl_log, cPi, Const.value, Real.pi_ne_zero]
    rw [dbl_div _ _ (by norm_num)]
    simp
    rfl

theorem finPoint_tree : ∃ x, (treeLevel finPoint).m00 = .fin x := by
  unfold treeLevel calcBeta calcTanBeta
  simp [finPoint, dbl_div, dbl_atan, pow2]

/-- the expansion: NaN for hierarchy 2, zero for hierarchy 4 -/
theorem nanEnv_hier (d : Depth) (k : Int) (hk : k = 2 ∨ k = 4) :
    ∃ m, pureHier nanEnv finPoint d ((HObj.new false).setSuitableHierarchy k) 0 1 0 = .ok m ∧
      (k = 2 → m.m00 = .nan) ∧ (k = 4 → m.m00 = .fin 0) := by
  have hh : HasHierarchy ((HObj.new false : HObj Dbl).setSuitableHierarchy k) := by
    unfold HasHierarchy
    show 0 ≤ k ∧ k ≤ 13
    omega
  obtain ⟨x, hx⟩ := msf_ok (p := finPoint) hh 2 (by simp)
  obtain ⟨a, ha⟩ := hierArgs_ok (p := finPoint) hh x.1 x.2
  have hl : loopOut nanEnv finPoint d ((HObj.new false).setSuitableHierarchy k) 2 =
      .ok (⟨if k = 2 then .nan else .fin 0, .fin 0, .fin 0, .fin 0, .fin 0, .fin 0, .fin 0⟩, x.1) := by
    unfold loopOut
    rw [hx]; dsimp only; rw [ha]; rfl
  have hp : calcPrefactor finPoint = .fin (3 / (2 * (Real.pi * Real.pi))) := by
    unfold calcPrefactor
    simp [finPoint, cPi, Const.value, pow2]
    rw [dbl_div _ _ (by positivity)]
  unfold pureHier pureStep
  simp only [ne_eq, not_true_eq_false, decide_false, one_ne_zero, not_false_eq_true, decide_true, if_true, Bool.false_eq_true, if_false, hl]
  refine ⟨_, rfl, ?_, ?_⟩
  · rintro rfl
    show calcPrefactor finPoint * _ = _
    rw [hp]
    simp
    rfl
  · rintro rfl
    show calcPrefactor finPoint * _ = _
    rw [hp]
    simp

theorem nanEnv_mh (d : Depth) (k : Int) (hk : k = 2 ∨ k = 4) (M : Mat2 Dbl) (x : ℝ) (hM : M.m00 = .fin x) :
    pureMh nanEnv finPoint d ((HObj.new false).setSuitableHierarchy k) M 0 1 0 = .ok (if k = 2 then .nan else .fin 1) := by
  obtain ⟨m, hm, h2, h4⟩ := nanEnv_hier d k hk
  unfold pureMh
  rw [hm]
  show Except.ok (if FOps.isNaN (M.m00 + m.m00) = true then Dbl.nan else .fin 1) = _
  rcases hk with rfl | rfl
  · rw [hM, h2 rfl]
    rfl
  · rw [hM, h4 rfl]
    simp

/-- The claim of C08 without the assumption on the first suitable hierarchy is false: with a NaN in the expansion of one hierarchy,
that hierarchy is selected although another suitable hierarchy has a finite estimate. -/
theorem C08_nan_counterexample : ∃ (E : Env Dbl) (p : Params Dbl) (d : Depth) (ho : HObj Dbl) (k : Int) (s' : St Dbl) (c : Cand Dbl)
    (j : Int) (cj : Cand Dbl), compareHierarchies E p ⟨d, ho⟩ = (.ok k, s') ∧ estimate E p d ho k = .ok c ∧
      FOps.isNaN c.currError = true ∧ Suitable p ho j ∧ estimate E p d ho j = .ok cj ∧ FOps.isFinite cj.currError = true := by
  obtain ⟨t, ht⟩ := finPoint_tree
  have est : ∀ k, k = 2 ∨ k = 4 → ∃ c, estimate nanEnv finPoint (fun _ => 1) (HObj.new false) k = .ok c ∧
      (k = 2 → FOps.isNaN c.currError = true) ∧ (k = 4 → FOps.isFinite c.currError = true) := by
    intro k hk
    have hh : HasHierarchy ((HObj.new false : HObj Dbl).setSuitableHierarchy k) := by
      unfold HasHierarchy
      show 0 ≤ k ∧ k ≤ 13
      omega
    obtain ⟨m1, x1, hm1, hx1⟩ := finPoint_mt41 k hk
    obtain ⟨m2, hm2⟩ := mt42_ok (p := finPoint) nanEnv_total hh 0 0
    have hm2' : m2.m00 = .fin 0 := by
      unfold getMt42L at hm2
      obtain ⟨h1, h2⟩ := finPoint_shift k hk
      rw [h1, h2] at hm2
      have := Except.ok.inj hm2
      rw [← this]
      have hr : calcTanBeta finPoint = .fin 1 := by
        unfold calcTanBeta finPoint
        rw [dbl_div _ _ (by norm_num)]; norm_num
      rw [hr]
      have hs : FOps.sqrt (Dbl.fin 2) = .fin (Real.sqrt 2) := Dbl.fin_sqrt _ (by norm_num)
      show (Dbl.fin 0) + (rotateBy _ (Dbl.fin 1)).m00 = _
      unfold rotateBy
      have e12 : (1 + 1 : ℝ) = 2 := by norm_num
      simp [pow2, e12, hs]
      rw [dbl_div _ _ (by positivity)]
      simp
    obtain ⟨ex, hex, hn2, hn4⟩ := nanEnv_hier (selDepth fun _ => 1) k hk
    obtain ⟨u3, hu3⟩ := pureUnc_ok (p := finPoint) nanEnv_total hh (selDepth fun _ => 1) (treeLevel finPoint + m1 + m2) 0 0 1
    have hT : (treeLevel finPoint + m1).m00 = .fin (t + x1) := by
      show (treeLevel finPoint).m00 + m1.m00 = _
      rw [ht, hx1]; rfl
    have hmother : ∃ m, getMotherHierarchy ((HObj.new false : HObj Dbl).setSuitableHierarchy k).hierarchy = .ok m := mother_ok hh
    obtain ⟨m, hm⟩ := hmother
    have hsum : ∀ (l : List DepthIdx) (acc : Dbl), ∃ u, pureSum nanEnv finPoint (uncDepth (selDepth fun _ => 1))
        ((HObj.new false).setSuitableHierarchy k) (treeLevel finPoint + m1) 0 1 0 (if k = 2 then .nan else .fin 1) l acc = .ok u ∧
        (k = 4 → u = acc ∨ (∃ a, acc = .fin a ∧ u = .fin a)) := by
      intro l
      induction l with
      | nil => exact fun acc => ⟨acc, rfl, fun _ => Or.inl rfl⟩
      | cons i l ih =>
        intro acc
        unfold pureSum
        rw [nanEnv_mh _ k hk _ _ hT]
        dsimp only
        obtain ⟨u, hu, h4⟩ := ih (acc + pow2 ((if k = 2 then Dbl.nan else .fin 1) - (if k = 2 then Dbl.nan else .fin 1)))
        refine ⟨u, hu, fun h => ?_⟩
        have := h4 h
        subst h
        have e : pow2 ((if (4:Int) = 2 then Dbl.nan else .fin 1) - (if (4:Int) = 2 then Dbl.nan else .fin 1)) = .fin 0 := by
          simp [pow2]
        rw [e] at this
        left
        have ha : acc + Dbl.fin 0 = acc := by
          cases acc
          · rfl
          · rfl
          · rfl
          · simp
        rw [ha] at this
        rcases this with h | ⟨a, h1, h2⟩
        · exact h
        · rw [h1, h2]
    obtain ⟨u, hu, hu4⟩ := hsum (truncationFlags m) (.fin 0)
    have hunc : pureUnc nanEnv finPoint (selDepth fun _ => 1) ((HObj.new false).setSuitableHierarchy k) (treeLevel finPoint + m1) 0 1 0
        = .ok (FOps.sqrt u) := by
      unfold pureUnc
      rw [nanEnv_mh _ k hk _ _ hT]
      dsimp only
      rw [hm]
      dsimp only
      have z : (@OfNat.ofNat Dbl 0 (FOps.instOfNat 0)) = .fin 0 := by simp
      rw [z, hu]
    unfold estimate
    dsimp only
    rw [calculateHierarchy_no3 _ _ 0 1 0 (by decide)]
    simp only [getExpansionUncertainty_run]
    have hf : ((HObj.new false : HObj Dbl).setSuitableHierarchy k).getMDRFlag = 0 := rfl
    have okb : ∀ {α β : Type} (a : α) (f : α → Except String β), (Except.ok a >>= f) = f a := fun _ _ => rfl
    rw [hf, hm1, hm2, hex]
    simp only [okb]
    rw [hunc, hu3]
    simp only [okb]
    refine ⟨_, rfl, ?_, ?_⟩
    · rintro rfl
      have e1 : nanEnv.smallestEig (treeLevel finPoint + m1 + ex) = .nan := by
        show (if FOps.isNaN ((treeLevel finPoint + m1).m00 + ex.m00) = true then Dbl.nan else .fin 1) = _
        rw [hT, hn2 rfl]; rfl
      show FOps.isNaN (FOps.sqrt (pow2 (FOps.abs (nanEnv.smallestEig _ - nanEnv.smallestEig _) / _) + pow2 (_ / nanEnv.smallestEig _))) = true
      rw [e1]
      have n1 : ∀ x : Dbl, x / Dbl.nan = .nan := by intro x; cases x <;> rfl
      have n2 : ∀ x : Dbl, x + Dbl.nan = .nan := by intro x; cases x <;> rfl
      rw [n1]
      show FOps.isNaN (FOps.sqrt (_ + Dbl.nan)) = true
      rw [n2]; rfl
    · rintro rfl
      have e1 : nanEnv.smallestEig (treeLevel finPoint + m1 + ex) = .fin 1 := by
        show (if FOps.isNaN ((treeLevel finPoint + m1).m00 + ex.m00) = true then Dbl.nan else .fin 1) = _
        rw [hT, hn4 rfl]; simp
      have e2 : nanEnv.smallestEig (treeLevel finPoint + m1 + m2) = .fin 1 := by
        show (if FOps.isNaN ((treeLevel finPoint + m1).m00 + m2.m00) = true then Dbl.nan else .fin 1) = _
        rw [hT, hm2']; simp
      have e3 : u = .fin 0 := by
        rcases hu4 rfl with h | ⟨a, h1, h2⟩
        · exact h
        · rw [h2, ← h1]
      show FOps.isFinite (FOps.sqrt (pow2 (FOps.abs (nanEnv.smallestEig _ - nanEnv.smallestEig _) / nanEnv.smallestEig _) + pow2 (_ / nanEnv.smallestEig _))) = true
      rw [e1, e2, e3]
      simp [pow2, dbl_div, Dbl.fin_sqrt]
  obtain ⟨k, s', hk⟩ := compareHierarchies_returns (p := finPoint) nanEnv_total ⟨fun _ => 1, HObj.new false⟩
  obtain ⟨c2, hc2, hn2, -⟩ := est 2 (Or.inl rfl)
  obtain ⟨c4, hc4, -, hn4⟩ := est 4 (Or.inr rfl)
  obtain ⟨s4, s2, sf⟩ := finPoint_suitable
  have := C08_nan_of_first_suitable_sticks _ _ _ _ _ _ hk 2 c2 s2 sf hc2 (hn2 rfl)
  subst this
  exact ⟨nanEnv, finPoint, _, _, 2, s', c2, 4, c4, hk, hc2, hn2 rfl, s4, hc4, hn4 rfl⟩

end Himalaya
