import Verif.FO.Units
import Verif.FO.MassEigen
import Verif.TwoLoop.Units

/-!
# C78: spectrum and Higgs mass of the fixed-order calculation in other units of mass
-/

set_option linter.unusedVariables false
set_option linter.unusedSimpArgs false
set_option linter.unusedSectionVars false
set_option linter.unusedTactic false
set_option linter.unreachableTactic false

namespace Himalaya

open scoped Himalaya Himalaya.FOps

/-- The external eigensolvers return the same mixing matrices and rescaled masses for a rescaled mass matrix. -/
structure UnitEigen (l : ℝ) (X : FExt ℝ) : Prop where
  eigVal : ∀ m : Mat2 ℝ, X.eigVal (Mat2.smul (l ^ 2) m) = ⟨l ^ 2 * (X.eigVal m).x0, l ^ 2 * (X.eigVal m).x1⟩
  eigVec : ∀ m : Mat2 ℝ, X.eigVec (Mat2.smul (l ^ 2) m) = X.eigVec m
  chi : ∀ m : Mat4 ℝ, X.chi (fun i j => l * m i j) = (fun i => l * (X.chi m).1 i, (X.chi m).2)
  svd2 : ∀ m : Mat2 ℝ, X.svd2 (Mat2.smul l m) = (⟨l * (X.svd2 m).1.x0, l * (X.svd2 m).1.x1⟩, (X.svd2 m).2)

/-- The two-loop routines in other units of mass: squared masses and the matrices have dimension 2, masses dimension 1.
(The routines of order at as and ab as compare `At` with an absolute number for equal squark masses.) -/
structure UnitTwoLoop (l : ℝ) (T : TwoLoopFns ℝ) : Prop where
  atAs : ∀ (t g m n s c q mu tb v g3 : ℝ) (h : Int), TwoLoop.SameAtTest ⟨t, g, m, n, s, c, q, mu, tb, v, g3⟩ l →
    T.atAs (l ^ 2 * t) (l * g) (l ^ 2 * m) (l ^ 2 * n) s c (l ^ 2 * q) (l * mu) tb (l ^ 2 * v) g3 h =
      Mat2.smul (l ^ 2) (T.atAs t g m n s c q mu tb v g3 h)
  abAs : ∀ (t g m n s c q mu tb v g3 : ℝ) (h : Int), TwoLoop.SameAtTest ⟨t, g, m, n, s, c, q, mu, tb, v, g3⟩ l →
    T.abAs (l ^ 2 * t) (l * g) (l ^ 2 * m) (l ^ 2 * n) s c (l ^ 2 * q) (l * mu) tb (l ^ 2 * v) g3 h =
      Mat2.smul (l ^ 2) (T.abAs t g m n s c q mu tb v g3 h)
  atAt : ∀ (t b a m n o r s c s' c' q mu tb v : ℝ) (h k : Int),
    T.atAt (l ^ 2 * t) (l ^ 2 * b) (l ^ 2 * a) (l ^ 2 * m) (l ^ 2 * n) (l ^ 2 * o) (l ^ 2 * r) s c s' c' (l ^ 2 * q) (l * mu) tb (l ^ 2 * v) h k =
      Mat2.smul (l ^ 2) (T.atAt t b a m n o r s c s' c' q mu tb v h k)
  atauAtau : ∀ (t a w m n s c q mu tb v : ℝ) (h : Int),
    T.atauAtau (l ^ 2 * t) (l ^ 2 * a) (l ^ 2 * w) (l ^ 2 * m) (l ^ 2 * n) s c (l ^ 2 * q) (l * mu) tb (l ^ 2 * v) h =
      Mat2.smul (l ^ 2) (T.atauAtau t a w m n s c q mu tb v h)
  abAtau : ∀ (t b m n o r s c s' c' q mu tb v : ℝ) (h : Int),
    T.abAtau (l ^ 2 * t) (l ^ 2 * b) (l ^ 2 * m) (l ^ 2 * n) (l ^ 2 * o) (l ^ 2 * r) s c s' c' (l ^ 2 * q) (l * mu) tb (l ^ 2 * v) h =
      Mat2.smul (l ^ 2) (T.abAtau t b m n o r s c s' c' q mu tb v h)

/-- The calculator in other units of mass. -/
noncomputable def MassEigen.rescale (l : ℝ) (c : MassEigen ℝ) : MassEigen ℝ :=
  { c with pars := c.pars.rescale l, masses := c.masses.rescale l, gaugeless := c.gaugeless.rescale l }

/-- For equal stop or sbottom masses the tests whether the trilinear coupling vanishes have the same results in both units. -/
structure SameSquarkTests (l : ℝ) (c : MassEigen ℝ) : Prop where
  stop : TwoLoop.SameAtTest ⟨pow2 c.gaugeless.MFt, c.pars.MG, pow2 c.pars.MSt.x0, pow2 c.pars.MSt.x1, FOps.sin c.pars.theta_t,
    FOps.cos c.pars.theta_t, pow2 c.pars.scale, -c.pars.mu, c.pars.vu / c.pars.vd, pow2 c.pars.vu + pow2 c.pars.vd, c.pars.g3⟩ l
  sbottom : TwoLoop.SameAtTest ⟨pow2 c.gaugeless.MFb, c.pars.MG, pow2 c.pars.MSb.x0, pow2 c.pars.MSb.x1, FOps.sin c.pars.theta_b,
    FOps.cos c.pars.theta_b, pow2 c.pars.scale, -c.pars.mu, 1 / (c.pars.vu / c.pars.vd), pow2 c.pars.vu + pow2 c.pars.vd, c.pars.g3⟩ l

namespace UnitsFS

variable {l : ℝ} {X : FExt ℝ}

theorem fsDiag_units (hl : 0 < l) (H : UnitEigen l X) (m : Mat2 ℝ) :
    fsDiag X.toExt (Mat2.smul (l ^ 2) m) = (⟨l ^ 2 * (fsDiag X.toExt m).1.x0, l ^ 2 * (fsDiag X.toExt m).1.x1⟩, (fsDiag X.toExt m).2) := by
  have hk : 0 < l ^ 2 := by positivity
  unfold fsDiag
  rw [H.eigVal, H.eigVec]
  have e : FOps.lt (FOps.abs (l ^ 2 * (X.eigVal m).x1)) (FOps.abs (l ^ 2 * (X.eigVal m).x0)) =
      FOps.lt (FOps.abs (X.eigVal m).x1) (FOps.abs (X.eigVal m).x0) := by
    simp only [real_abs, abs_mul, abs_of_pos hk]
    exact decide_eq_decide.2 (mul_lt_mul_iff_of_pos_left hk)
  simp only [e]
  split <;> rfl

theorem masses_units (hl : 0 < l) (H : UnitEigen l X) (m : Mat2 ℝ) :
    massesOf X.toExt (Mat2.smul (l ^ 2) m) =
      (⟨l ^ 2 * (massesOf X.toExt m).1.x0, l ^ 2 * (massesOf X.toExt m).1.x1⟩, (massesOf X.toExt m).2) := by
  unfold massesOf
  rw [fsDiag_units hl H]

theorem matUp_units (p : Params ℝ) (i : Fin 3) (y : ℝ) : matUp (p.rescale l) i y = Mat2.smul (l ^ 2) (matUp p i y) := by
  unfold matUp Mat2.smul
  simp only [Params.rescale, pow2]
  congr 1 <;> ring
theorem matDown_units (p : Params ℝ) (i : Fin 3) (y : ℝ) : matDown (p.rescale l) i y = Mat2.smul (l ^ 2) (matDown p i y) := by
  unfold matDown Mat2.smul
  simp only [Params.rescale, pow2]
  congr 1 <;> ring
theorem matLep_units (p : Params ℝ) (i : Fin 3) (y : ℝ) : matLep (p.rescale l) i y = Mat2.smul (l ^ 2) (matLep p i y) := by
  unfold matLep Mat2.smul
  simp only [Params.rescale, pow2]
  congr 1 <;> ring

theorem bmu_units (hl : l ≠ 0) (p : Params ℝ) : specBmu (p.rescale l) = l ^ 2 * specBmu p := by
  unfold specBmu
  simp only [Params.rescale, pow2]
  rw [show l * p.MA * (l * p.MA) * (l * p.vu) * (l * p.vd) = l ^ 2 * (l ^ 2 * (p.MA * p.MA * p.vu * p.vd)) by ring,
    show l * p.vu * (l * p.vu) + l * p.vd * (l * p.vd) = l ^ 2 * (p.vu * p.vu + p.vd * p.vd) by ring, mul_div_assoc,
    mul_div_mul_left _ _ (pow_ne_zero 2 hl)]

theorem matAh_units (hl : l ≠ 0) (p : Params ℝ) : matAh (p.rescale l) = Mat2.smul (l ^ 2) (matAh p) := by
  unfold matAh Mat2.smul
  simp only [bmu_units hl]
  generalize specBmu p = B
  simp only [Params.rescale, pow2, fpow3, real_ofNat]
  push_cast
  congr 1
  · rw [← mul_div_assoc, ← mul_div_mul_left _ (20 * p.vd) hl]; congr 1 <;> ring
  · ring
  · ring
  · rw [← mul_div_assoc, ← mul_div_mul_left _ (20 * p.vu) hl]; congr 1 <;> ring

theorem matHpm_units (hl : l ≠ 0) (p : Params ℝ) : matHpm (p.rescale l) = Mat2.smul (l ^ 2) (matHpm p) := by
  unfold matHpm Mat2.smul
  simp only [bmu_units hl]
  generalize specBmu p = B
  simp only [Params.rescale, pow2, real_ofNat]
  push_cast
  congr 1
  · rw [← mul_div_assoc, ← mul_div_mul_left _ (4 * p.vd) hl]; congr 1 <;> ring
  · ring
  · ring
  · rw [← mul_div_assoc, ← mul_div_mul_left _ (4 * p.vu) hl]; congr 1 <;> ring

theorem matChi_units (p : Params ℝ) : matChi (p.rescale l) = fun i j => l * matChi p i j := by
  funext i j
  unfold matChi
  fin_cases i <;> fin_cases j <;> simp [chiUpper, Params.rescale] <;> first | rfl | ring

theorem matCha_units (p : Params ℝ) : matCha (p.rescale l) = Mat2.smul l (matCha p) := by
  unfold matCha Mat2.smul
  simp only [Params.rescale]
  congr 1 <;> ring

end UnitsFS

open UnitsFS

variable {l : ℝ} {X : FExt ℝ}

/-- **C78.** The tree-level spectrum in other units of mass: squared masses and masses change by the power of their dimension, mixing
matrices do not change. -/
theorem C78_spectrum (hl : 0 < l) (H : UnitEigen l X) (p : Params ℝ) : spectrum X (p.rescale l) = (spectrum X p).rescale l := by
  have l0 := hl.ne'
  have y1 : (p.rescale l).Yu = p.Yu := rfl
  have y2 : (p.rescale l).Yd = p.Yd := rfl
  have y3 : (p.rescale l).Ye = p.Ye := rfl
  unfold spectrum Spec.rescale
  simp only [y1, y2, y3, matUp_units, matDown_units, matLep_units, matAh_units l0, matHpm_units l0, C78_tree_level l0, matChi_units,
    matCha_units, masses_units hl H, H.chi, H.svd2]
  congr 1 <;>
  · simp only [specM2VWm, specM2VZ, specMFt, specMFb, specMFtau, specM2Sv, Params.rescale, pow2]
    ring

namespace UnitsFS

theorem add2 (A B : Mat2 ℝ) : Mat2.smul (l ^ 2) A + Mat2.smul (l ^ 2) B = Mat2.smul (l ^ 2) (A + B) := by
  show (⟨_, _, _, _⟩ : Mat2 ℝ) = ⟨_, _, _, _⟩
  congr 1 <;> · simp only [Mat2.smul]; rw [← mul_add]; rfl

/-- the vanishing matrix of the model -/
noncomputable abbrev M0 : Mat2 ℝ := Mat2.const (@OfNat.ofNat ℝ 0 (FOps.instOfNat 0))

theorem zero2 : Mat2.smul (l ^ 2) M0 = M0 := by
  unfold M0
  simp only [real_ofNat, Mat2.const, Mat2.smul]
  push_cast
  simp only [mul_zero]

theorem ite2 (c : Prop) [Decidable c] (A B : Mat2 ℝ) : (if c then Mat2.smul (l ^ 2) A else Mat2.smul (l ^ 2) B) = Mat2.smul (l ^ 2) (if c then A else B) := by
  split <;> rfl

theorem usq (x : ℝ) : pow2 (l * x) = l ^ 2 * pow2 x := by simp only [pow2]; ring

end UnitsFS

/-- **C78.** The matrix of the two-loop corrections, with the perturbative momentum iteration or none. -/
theorem C78_two_loop_partial {L L' : LoopFns ℝ} {T : TwoLoopFns ℝ} (hl : 0 < l) (HL : UnitLoops l L L') (HT : UnitTwoLoop l T)
    (c : MassEigen ℝ) (hc : SameSquarkTests l c) (hm : c.momIt ≠ .num) : (c.rescale l).two X.toExt L' T = Mat2.smul (l ^ 2) (c.two X.toExt L T) := by
  have l0 := hl.ne'
  have hg : ∀ a b : ℝ, l * a / (l * b) = a / b := fun a b => mul_div_mul_left _ _ l0
  have hn : ∀ a : ℝ, -(l * a) = l * -a := fun a => (mul_neg _ _).symm
  have e0 : (c.rescale l).momPart X.toExt L' = Mat2.smul (l ^ 2) (c.momPart X.toExt L) := by
    unfold MassEigen.momPart
    have em : (c.rescale l).momIt = c.momIt := rfl
    rw [em]
    cases h : c.momIt with
    | num => exact absurd h hm
    | off => exact (zero2 (l := l)).symm
    | pert =>
      show (c.rescale l).momItPert L' = Mat2.smul (l ^ 2) (c.momItPert L)
      have e1 : (c.rescale l).treeGl = Mat2.smul (l ^ 2) c.treeGl := C78_tree_level l0 _
      have e2 : (c.rescale l).oneGl L' = Mat2.smul (l ^ 2) (c.oneGl L) := C78_gaugeless l0 HL _ _ _
      have e3 : (c.rescale l).deriv L' = c.deriv L := C78_derivative l0 HL _ _ _
      unfold MassEigen.momItPert
      rw [e1, e2, e3]
      have e4 := (C78_diagonalization hl c.treeGl (c.oneGl L) M0 M0).2.1
      rw [zero2] at e4
      simp only [e4]
      simp only [Mat2.smul]
      congr 1 <;> ring
  have a1 : (c.rescale l).atAs T = Mat2.smul (l ^ 2) (c.atAs T) := by
    unfold MassEigen.atAs
    rw [← HT.atAs _ _ _ _ _ _ _ _ _ _ _ _ hc.stop]
    simp only [MassEigen.rescale, Spec.rescale, Params.rescale, usq, hg, hn, mul_add]
  have a2 : (c.rescale l).abAs T = Mat2.smul (l ^ 2) (c.abAs T) := by
    unfold MassEigen.abAs
    simp only [real_ofNat, Nat.cast_one]
    rw [← HT.abAs _ _ _ _ _ _ _ _ _ _ _ _ hc.sbottom]
    simp only [MassEigen.rescale, Spec.rescale, Params.rescale, usq, hg, hn, mul_add]
  have a3 : (c.rescale l).atAt T = Mat2.smul (l ^ 2) (c.atAt T) := by
    unfold MassEigen.atAt
    rw [← HT.atAt]
    simp only [MassEigen.rescale, Spec.rescale, Params.rescale, usq, hg, hn, mul_add]
  have a4 : (c.rescale l).atauAtau T = Mat2.smul (l ^ 2) (c.atauAtau T) := by
    unfold MassEigen.atauAtau
    rw [← HT.atauAtau]
    simp only [MassEigen.rescale, Spec.rescale, Params.rescale, usq, hg, hn, mul_add]
  have a5 : (c.rescale l).abAtau T = Mat2.smul (l ^ 2) (c.abAtau T) := by
    unfold MassEigen.abAtau
    rw [← HT.abAtau]
    simp only [MassEigen.rescale, Spec.rescale, Params.rescale, usq, hg, hn, mul_add]
  have eo : (c.rescale l).orders = c.orders := rfl
  have ez : M0 + Mat2.smul (l ^ 2) (c.momPart X.toExt L) = Mat2.smul (l ^ 2) (M0 + c.momPart X.toExt L) := by
    rw [← add2, zero2]
  unfold MassEigen.two
  simp only [e0, a1, a2, a3, a4, a5, eo, ez, add2, ite2]

/-- **C78.** The tree-level, one-loop and two-loop results for the squared mass of the light Higgs boson, for both ways of diagonalizing the mass
matrix, with the perturbative momentum iteration or none. -/
theorem C78_higgs_mass_partial {L L' : LoopFns ℝ} {T : TwoLoopFns ℝ} (hl : 0 < l) (HX : UnitEigen l X) (HL : UnitLoops l L L')
    (HT : UnitTwoLoop l T) (c : MassEigen ℝ) (hc : SameSquarkTests l c) (hm : c.momIt ≠ .num) :
    (c.rescale l).calculateMh2 X.toExt L' T = (l ^ 2 * (c.calculateMh2 X.toExt L T).1, l ^ 2 * (c.calculateMh2 X.toExt L T).2.1,
      l ^ 2 * (c.calculateMh2 X.toExt L T).2.2) := by
  have l0 := hl.ne'
  have e1 : (c.rescale l).tree = Mat2.smul (l ^ 2) c.tree := C78_tree_level l0 _
  have e1g : (c.rescale l).treeGl = Mat2.smul (l ^ 2) c.treeGl := C78_tree_level l0 _
  have e2g : (c.rescale l).oneGl L' = Mat2.smul (l ^ 2) (c.oneGl L) := C78_gaugeless l0 HL _ _ _
  have e0 : (c.rescale l).mh2Tree = l ^ 2 * c.mh2Tree := by
    unfold MassEigen.mh2Tree
    rw [e1]
    have := (C78_diagonalization hl c.tree M0 M0 M0).1
    rwa [zero2] at this
  have e2 : (c.rescale l).one L' (l ^ 2 * c.mh2Tree) = Mat2.smul (l ^ 2) (c.one L c.mh2Tree) := C78_one_loop l0 HL _ _ _
  have e3 := C78_two_loop_partial (X := X) hl HL HT c hc hm
  have ed : (c.rescale l).diag = c.diag := rfl
  unfold MassEigen.calculateMh2
  simp only [e0, e1, e1g, e2, e2g, e3, ed, add2, fsDiag_units hl HX]
  cases c.diag
  · have d1 := C78_diagonalization hl c.tree (c.one L c.mh2Tree) M0 M0
    have d2 := C78_diagonalization hl c.treeGl (c.oneGl L) (c.two X.toExt L T) M0
    rw [zero2] at d1 d2
    simp only [d1.1, d1.2.1, d2.2.2.1]
  · simp only [mul_sub]

/-- The tests for massless fermions in the constructor have the same results in both units. -/
structure SameThresholds (l : ℝ) (p : Params ℝ) : Prop where
  top : |l * p.Mt| < 1 / 10 ^ 10 ↔ |p.Mt| < 1 / 10 ^ 10
  bottom : |l * p.Mb| < 1 / 10 ^ 10 ↔ |p.Mb| < 1 / 10 ^ 10
  tau : |l * p.Mtau| < 1 / 10 ^ 10 ↔ |p.Mtau| < 1 / 10 ^ 10

/-- **C78.** From the parameters to the results: the constructor followed by the calculation (all corrections, `only_at = false`). -/
theorem C78_partial {L L' : LoopFns ℝ} {T : TwoLoopFns ℝ} (hl : 0 < l) (HX : UnitEigen l X) (HL : UnitLoops l L L')
    (HT : UnitTwoLoop l T) (nan nan' : ℝ) (p : Params ℝ) (hp : SameThresholds l p)
    (hq : ∀ c, massEigen X nan p false = .ok c → SameSquarkTests l c) :
    ∃ c c' : MassEigen ℝ, massEigen X nan p false = .ok c ∧ massEigen X nan' (p.rescale l) false = .ok c' ∧
      (c'.calculateMh2 X.toExt L' T).1 = l ^ 2 * (c.calculateMh2 X.toExt L T).1 ∧
      (c'.calculateMh2 X.toExt L' T).2.1 = l ^ 2 * (c.calculateMh2 X.toExt L T).2.1 ∧
      (c'.calculateMh2 X.toExt L' T).2.2 = l ^ 2 * (c.calculateMh2 X.toExt L T).2.2 := by
  have lt1 : ∀ x : ℝ, FOps.lt (FOps.abs x) foEps = decide (|x| < 1 / 10 ^ 10) := fun x => by
    rw [real_abs]
    show decide (|x| < (FOps.lit (1 / 10 ^ 10) : ℝ)) = _
    rw [real_lit]; push_cast; rfl
  have eo : foOrders (p.rescale l) false = foOrders p false := by
    unfold foOrders
    simp only [lt1]
    have m1 : (p.rescale l).Mt = l * p.Mt := rfl
    have m2 : (p.rescale l).Mb = l * p.Mb := rfl
    have m3 : (p.rescale l).Mtau = l * p.Mtau := rfl
    simp only [m1, m2, m3, hp.top, hp.bottom, hp.tau]
  have eg : makeGaugeless (p.rescale l) = (makeGaugeless p).rescale l := rfl
  let c : MassEigen ℝ := ⟨p, spectrum X p, spectrum X (makeGaugeless p), foOrders p false, .pert, FOps.lit (1 / 10 ^ 5), 100, .pert⟩
  have hc : massEigen X nan' (p.rescale l) false = .ok (c.rescale l) := by
    show Except.ok (MassEigen.mk _ _ _ _ _ _ _ _) = Except.ok (MassEigen.mk _ _ _ _ _ _ _ _)
    rw [C78_spectrum hl HX, eg, C78_spectrum hl HX, eo]
  have h := C78_higgs_mass_partial hl HX HL HT c (hq c rfl) (fun h => MomIt.noConfusion h)
  exact ⟨c, c.rescale l, rfl, hc, congrArg Prod.fst h, congrArg (·.2.1) h, congrArg (·.2.2) h⟩

/-- a case for the hypotheses: the two-loop routines of the order at as of the code, a calculator with different stop masses, sbottom masses and
an eigensolver for diagonal matrices -/
example {phi : ℝ → ℝ → ℝ → ℝ} (hphi : TwoLoop.HomPhi phi) (hl : 0 < l) (li2 : ℝ → ℝ) (p : Params ℝ) (hM : |l * p.Mt| < 1 / 10 ^ 10 ↔ |p.Mt| < 1 / 10 ^ 10)
    (hb : |l * p.Mb| < 1 / 10 ^ 10 ↔ |p.Mb| < 1 / 10 ^ 10) (ht : |l * p.Mtau| < 1 / 10 ^ 10 ↔ |p.Mtau| < 1 / 10 ^ 10)
    (hs : 1 / 10 ^ 8 ≤ |(pow2 p.MSt.x0 - pow2 p.MSt.x1) / pow2 p.MSt.x0|) (hs' : 1 / 10 ^ 8 ≤ |(pow2 p.MSb.x0 - pow2 p.MSb.x1) / pow2 p.MSb.x0|) :
    ∃ (X : FExt ℝ) (T : TwoLoopFns ℝ), UnitEigen l X ∧ UnitTwoLoop l T ∧ SameThresholds l p ∧
      (∀ c, massEigen X 0 p false = .ok c → SameSquarkTests l c) ∧
      T.atAs = fun t g m n s c q mu tb v g3 h => TwoLoop.deltaAtAs ⟨phi, li2⟩ ⟨t, g, m, n, s, c, q, mu, tb, v, g3⟩ (h != 0) := by
  refine ⟨{ svd := fun _ _ => 1, eigVal := fun m => ⟨m.m00, m.m11⟩, eigVec := fun _ => ⟨1, 0, 0, 1⟩, chi := fun m => (fun i => m i i, fun _ _ => 1), svd2 := fun m => (⟨m.m00, m.m11⟩, ⟨1, 0, 0, 1⟩, ⟨1, 0, 0, 1⟩) },
    { atAs := fun t g m n s c q mu tb v g3 h => TwoLoop.deltaAtAs ⟨phi, li2⟩ ⟨t, g, m, n, s, c, q, mu, tb, v, g3⟩ (h != 0)
      abAs := fun t g m n s c q mu tb v g3 h => TwoLoop.deltaAbAs ⟨phi, li2⟩ ⟨t, g, m, n, s, c, q, mu, tb, v, g3⟩ (h != 0)
      atAt := fun t _ _ _ _ _ _ _ _ _ _ _ _ _ _ _ _ => ⟨t, t, t, t⟩
      atauAtau := fun t _ _ _ _ _ _ _ _ _ _ _ => ⟨t, t, t, t⟩
      abAtau := fun t b m n o r s c s' c' q mu tb v h => TwoLoop.deltaAbAtau ⟨t, b, m, n, o, r, s, c, s', c', q, mu, tb, v⟩ (h != 0) },
    ⟨fun m => rfl, fun m => rfl, fun m => rfl, fun m => rfl⟩, ⟨?_, ?_, ?_, ?_, ?_⟩, ⟨hM, hb, ht⟩, ?_, rfl⟩
  · intro t g m n s c q mu tb v g3 h hc
    exact TwoLoop.C78_at_as ⟨phi, li2⟩ hphi ⟨t, g, m, n, s, c, q, mu, tb, v, g3⟩ _ hl hc
  · intro t g m n s c q mu tb v g3 h hc
    exact TwoLoop.C78_ab_as ⟨phi, li2⟩ hphi ⟨t, g, m, n, s, c, q, mu, tb, v, g3⟩ _ hl hc
  · intros; rfl
  · intros; rfl
  · intro t b m n o r s c s' c' q mu tb v h
    exact TwoLoop.C78_ab_atau ⟨t, b, m, n, o, r, s, c, s', c', q, mu, tb, v⟩ _ hl
  · intro c hc
    obtain rfl := Except.ok.inj hc
    exact ⟨fun h => absurd h (not_lt.2 hs), fun h => absurd h (not_lt.2 hs')⟩

end Himalaya
