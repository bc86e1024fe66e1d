import Verif.EFT.UnitsApi
import Verif.Calc.Props2

/-!
# C77: the choice of the hierarchy and the fixed-order shifts in other units of mass
-/

set_option linter.unusedSimpArgs false
set_option linter.unusedVariables false
set_option linter.unusedSectionVars false
set_option linter.unusedTactic false
set_option linter.unreachableTactic false

namespace Himalaya.Units

open scoped Himalaya

variable {l : ℝ} (hl : 0 < l)

theorem rlt (x y : ℝ) : FOps.lt x y = decide (x < y) := rfl
theorem rle (x y : ℝ) : FOps.le x y = decide (x ≤ y) := rfl
include hl
theorem u_lt (x y : ℝ) : FOps.lt (l * x) (l * y) = FOps.lt x y := by
  rw [rlt, rlt]; exact decide_eq_decide.2 (mul_lt_mul_iff_of_pos_left hl)
theorem u_le (x y : ℝ) : FOps.le (l * x) (l * y) = FOps.le x y := by
  rw [rle, rle]; exact decide_eq_decide.2 (mul_le_mul_iff_of_pos_left hl)
theorem u_sub (x y : ℝ) : l * x - l * y = l * (x - y) := by ring
theorem u_abs (x : ℝ) : FOps.abs (l * x) = l * FOps.abs x := by
  simp only [real_abs, abs_mul, abs_of_pos hl]

/-- **C77.** The guards and the inequalities that decide whether a hierarchy is suitable compare masses with masses. -/
theorem C77_suitable_masses (h : Int) (Mst1 Mst2 Mgl Msq : ℝ) :
    suitableMasses h (l * Mst1) (l * Mst2) (l * Mgl) (l * Msq) = suitableMasses h Mst1 Mst2 Mgl Msq := by
  have a : ∀ (c x : ℝ), c * (l * x) = l * (c * x) := fun c x => by ring
  have b : ∀ (c x : ℝ), (l * x) * c = l * (x * c) := fun c x => by ring
  unfold suitableMasses
  simp only [a, b, u_sub hl, u_abs hl, u_lt hl, u_le hl]

/-- **C77.** -/
theorem C77_suitable (p : Params ℝ) (ho : HObj ℝ) : isHierarchySuitable (p.rescale l) ho = isHierarchySuitable p ho := by
  unfold isHierarchySuitable
  rw [calcMeanMsq_rescale hl, r_MG]
  cases ho.getIsAlphab
  · exact C77_suitable_masses hl _ _ _ _ _
  · exact C77_suitable_masses hl _ _ _ _ _

theorem u_scale (p : Params ℝ) (M : ℝ) : FOps.log (pow2 ((p.rescale l).scale / (l * M))) = FOps.log (pow2 (p.scale / M)) := by
  rw [r_scale, r_div hl]

theorem u_as (p : Params ℝ) : calcAsOver4Pi (p.rescale l) = calcAsOver4Pi p := rfl

omit hl in
theorem q_units {l : ℝ} (h : l ≠ 0) (j k : ℕ) {a b a' b' : ℝ} (ha : a' = l ^ (j + k) * a) (hb : b' = l ^ j * b) : a' / b' = l ^ k * (a / b) := by
  rw [ha, hb, pow_add, mul_assoc, mul_div_mul_left _ _ (pow_ne_zero j h), mul_div_assoc]
omit hl in
theorem q_units0 {l : ℝ} (h : l ≠ 0) (j : ℕ) {a b a' b' : ℝ} (ha : a' = l ^ j * a) (hb : b' = l ^ j * b) : a' / b' = a / b := by
  rw [ha, hb, mul_div_mul_left _ _ (pow_ne_zero j h)]

theorem u_modH6 (p : Params ℝ) (a b c d e : ℝ) : modH6 (p.rescale l) (l * a) (l * b) c d e = modH6 p a b c d e := by
  unfold modH6
  simp only [u_as hl, calcMeanMsq_rescale hl, r_MG, r_scale, r_div hl]
  generalize FOps.log (pow2 (p.scale / p.MG)) = l1
  generalize FOps.log (pow2 (p.scale / calcMeanMsq p)) = l2
  refine q_units0 hl.ne' 6 ?_ ?_ <;> simp only [pow2, pow3, pow4, pow5, Misc.pow2] <;> ring

theorem u_modH6b (p : Params ℝ) (a b c d e : ℝ) : modH6b (p.rescale l) (l * a) (l * b) c d e = modH6b p a b c d e := by
  unfold modH6b
  simp only [u_as hl, calcMeanMsq_rescale hl, r_MG, r_scale, r_div hl]
  generalize FOps.log (pow2 (p.scale / p.MG)) = l1
  generalize FOps.log (pow2 (p.scale / calcMeanMsq p)) = l2
  refine q_units0 hl.ne' 2 ?_ ?_ <;> simp only [pow2, pow3, pow4, pow5, Misc.pow2] <;> ring

theorem u_ka1 (p : Params ℝ) (a b f : ℝ) : mdr2mst1ka (p.rescale l) (l * a) (l * b) f = mdr2mst1ka p a b f := by
  unfold mdr2mst1ka
  simp only [u_as hl, calcMeanMsq_rescale hl, r_MG, r_scale, r_div hl, r_pow2 hl, r_div2 hl]
  refine q_units0 hl.ne' 2 ?_ ?_ <;> ring

theorem u_ka2 (p : Params ℝ) (b f : ℝ) : mdr2mst2ka (p.rescale l) (l * b) f = mdr2mst2ka p b f := by
  unfold mdr2mst2ka
  simp only [u_as hl, calcMeanMsq_rescale hl, r_MG, r_scale, r_div hl, r_pow2 hl, r_div2 hl]
  refine q_units0 hl.ne' 2 ?_ ?_ <;> ring

theorem u_shiftMod (p : Params ℝ) (m : Int) (a b c d e : ℝ) : shiftMod (p.rescale l) m (l * a) (l * b) c d e = shiftMod p m a b c d e := by
  unfold shiftMod
  rw [u_modH6 hl, u_modH6b hl]

theorem u_mst1 (p : Params ℝ) (ho : HObj ℝ) : mst1 (p.rescale l) ho = l * mst1 p ho := by
  unfold mst1; cases ho.getIsAlphab <;> rfl
theorem u_mst2 (p : Params ℝ) (ho : HObj ℝ) : mst2 (p.rescale l) ho = l * mst2 p ho := by
  unfold mst2; cases ho.getIsAlphab <;> rfl

/-- **C77.** The lighter stop (sbottom) mass in the scheme of the hierarchy. -/
theorem C77_mst1 (p : Params ℝ) (ho : HObj ℝ) (f g : Int) :
    shiftMst1ToMDR (p.rescale l) ho f g = Except.map (l * ·) (shiftMst1ToMDR p ho f g) := by
  unfold shiftMst1ToMDR
  simp only [u_mst1 hl, u_mst2 hl, u_ka1 hl, u_shiftMod hl]
  cases getMotherHierarchy ho.getSuitableHierarchy with
  | error e => rfl
  | ok m => exact congrArg Except.ok (mul_assoc _ _ _)

/-- **C77.** The heavier one. -/
theorem C77_mst2 (p : Params ℝ) (ho : HObj ℝ) (f g : Int) :
    shiftMst2ToMDR (p.rescale l) ho f g = Except.map (l * ·) (shiftMst2ToMDR p ho f g) := by
  unfold shiftMst2ToMDR
  simp only [u_mst1 hl, u_mst2 hl, u_ka2 hl, u_shiftMod hl]
  cases getMotherHierarchy ho.getSuitableHierarchy with
  | error e => rfl
  | ok m => exact congrArg Except.ok (mul_assoc _ _ _)

theorem u_tanF (p : Params ℝ) : calcTanBeta (p.rescale l) = calcTanBeta p := r_div hl _ _
theorem u_betaF (p : Params ℝ) : calcBeta (p.rescale l) = calcBeta p := by unfold calcBeta; rw [u_tanF hl]
theorem u_v2F (p : Params ℝ) : calcV2 (p.rescale l) = l ^ 2 * calcV2 p := by
  unfold calcV2; rw [r_vu, r_vd, r_pow2 hl, r_pow2 hl, mul_add]
theorem u_vF (p : Params ℝ) : calcV (p.rescale l) = l * calcV p := by unfold calcV; rw [u_v2F hl, r_sqrt hl]
theorem u_sinF (p : Params ℝ) : calcSinBeta (p.rescale l) = calcSinBeta p := by unfold calcSinBeta; rw [u_vF hl, r_vu, r_div hl]
theorem u_cosF (p : Params ℝ) : calcCosBeta (p.rescale l) = calcCosBeta p := by unfold calcCosBeta; rw [u_vF hl, r_vd, r_div hl]
theorem u_pre (p : Params ℝ) : calcPrefactor (p.rescale l) = calcPrefactor p / l ^ 2 := by
  unfold calcPrefactor; rw [r_vu]; simp only [pow2, Misc.pow2]
  rw [div_div]; congr 1; ring

/-- **C77.** The tree-level mass matrix of the neutral CP-even Higgs bosons. -/
theorem C77_tree_level (p : Params ℝ) : treeLevel (p.rescale l) = Mat2.smul (l ^ 2) (treeLevel p) := by
  unfold treeLevel
  simp only [u_betaF hl, u_tanF hl]
  have hz : (p.rescale l).MZ = l * p.MZ := rfl
  have e : ∀ (c a b z t : ℝ), c * (l ^ 2 * z / t + l ^ 2 * a * b) = l ^ 2 * (c * (z / t + a * b)) := fun c a b z t => by ring
  have e' : ∀ (c a b z t : ℝ), c * (l ^ 2 * z * b + l ^ 2 * a / t) = l ^ 2 * (c * (z * b + a / t)) := fun c a b z t => by ring
  simp only [hz, r_MA, r_pow2 hl, Mat2.smul, Mat2.mk.injEq, e, e', true_and, and_true]
  constructor <;> ring

theorem u_Xt (p : Params ℝ) (h : Int) : shiftXt (p.rescale l) h = l * shiftXt p h := by
  unfold shiftXt
  split_ifs
  · simp [real_ofNat]
  · rw [r_Au, r_mu, u_tanF hl]; ring

/-! ### the shift from the scheme of H3m to DRbar' -/

/-- rewrites the powers of the scaled masses -/
macro "hpow" : tactic => `(tactic| (simp only [pow2, pow3, pow4, pow5, pow6, Misc.pow2] <;> ring))

theorem u_lim00 (m g q x mu a b c : ℝ) : h3mLim00 (l * m) (l * g) (l ^ 2 * q) (l * x) (l * mu) a b c = h3mLim00 m g q x mu a b c := by
  unfold h3mLim00; refine q_units0 hl.ne' 6 ?_ ?_ <;> hpow
theorem u_lim10 (m g q x mu t a b c : ℝ) : h3mLim10 (l * m) (l * g) (l ^ 2 * q) (l * x) (l * mu) t a b c = h3mLim10 m g q x mu t a b c := by
  unfold h3mLim10; refine q_units0 hl.ne' 6 ?_ ?_ <;> hpow
theorem u_lim11 (m g q x mu t r a b c : ℝ) : h3mLim11 (l * m) (l * g) (l ^ 2 * q) (l * x) (l * mu) t r a b c = h3mLim11 m g q x mu t r a b c := by
  unfold h3mLim11; refine q_units0 hl.ne' 6 ?_ ?_ <;> hpow
theorem u_exact00 (m n g q x mu a b c d : ℝ) :
    h3mExact00 (l * m) (l * n) (l * g) (l ^ 2 * q) (l * x) (l * mu) a b c d = h3mExact00 m n g q x mu a b c d := by
  unfold h3mExact00; rw [r_div hl]; refine q_units0 hl.ne' 10 ?_ ?_ <;> hpow
theorem u_exact10 (m n g q x mu t a b c d : ℝ) :
    h3mExact10 (l * m) (l * n) (l * g) (l ^ 2 * q) (l * x) (l * mu) t a b c d = h3mExact10 m n g q x mu t a b c d := by
  unfold h3mExact10; rw [r_div hl]; refine q_units0 hl.ne' 10 ?_ ?_ <;> hpow
theorem u_exact11 (m n g q x mu t r a b c d : ℝ) :
    h3mExact11 (l * m) (l * n) (l * g) (l ^ 2 * q) (l * x) (l * mu) t r a b c d = h3mExact11 m n g q x mu t r a b c d := by
  unfold h3mExact11; rw [r_div hl]; refine q_units0 hl.ne' 10 ?_ ?_ <;> hpow
theorem u_mh2Exact (m n g q x r a b c d : ℝ) :
    h3mMh2Exact (l * m) (l * n) (l * g) (l ^ 2 * q) (l * x) r a b c d = h3mMh2Exact m n g q x r a b c d := by
  unfold h3mMh2Exact; rw [r_div hl]; refine q_units0 hl.ne' 10 ?_ ?_ <;> hpow
theorem u_mh2Lim (m g q x r a b c : ℝ) : h3mMh2Lim (l * m) (l * g) (l ^ 2 * q) (l * x) r a b c = h3mMh2Lim m g q x r a b c := by
  unfold h3mMh2Lim; refine q_units0 hl.ne' 6 ?_ ?_ <;> hpow

theorem u_degenerate (m n a b c : ℝ) : isDegenerateCase (l * m) (l * n) a b c = isDegenerateCase m n a b c := by
  unfold isDegenerateCase
  rw [u_sub hl, u_abs hl, mul_assoc, u_lt hl]

theorem u_shifted (m n : ℝ) : l * m + FOps.lit (1 / 2) * FOps.sqrt (FOps.abs (l ^ 2 * pow2 m - l ^ 2 * pow2 n)) =
    l * (m + FOps.lit (1 / 2) * FOps.sqrt (FOps.abs (pow2 m - pow2 n))) := by
  have : FOps.abs (l ^ 2 * pow2 m - l ^ 2 * pow2 n) = l ^ 2 * FOps.abs (pow2 m - pow2 n) := by
    rw [← mul_sub]; simp only [real_abs, abs_mul, abs_of_pos (pow_pos hl 2)]
  rw [this, r_sqrt hl]; ring

omit hl in
theorem smul_units {k : ℝ} (a b : ℝ) (M : Mat2 ℝ) (h : b = k * a) : Mat2.smul b M = Mat2.smul k (Mat2.smul a M) := by
  subst h; simp only [Mat2.smul, Mat2.mk.injEq]; refine ⟨?_, ?_, ?_, ?_⟩ <;> ring

/-- **C77.** The shift of the three-loop mass matrix. -/
theorem C77_h3m_shift (p : Params ℝ) (ho : HObj ℝ) :
    shiftH3mToDRbarPrime (p.rescale l) ho = Except.map (Mat2.smul (l ^ 2)) (shiftH3mToDRbarPrime p ho) := by
  unfold shiftH3mToDRbarPrime
  rw [C77_mst1 hl, C77_mst2 hl]
  cases shiftMst1ToMDR p ho ho.getMDRFlag ho.getMDRFlag with
  | error e => rfl
  | ok m =>
  cases shiftMst2ToMDR p ho ho.getMDRFlag ho.getMDRFlag with
  | error e => rfl
  | ok n =>
  have hm : (p.rescale l).Mt = l * p.Mt := rfl
  have hg : (p.rescale l).g3 = p.g3 := rfl
  dsimp only [Except.map, bind, Except.bind, pure, Except.pure]
  simp only [calcMeanMsq_rescale hl, u_Xt hl, u_tanF hl, r_MG, r_mu, r_scale, r_pow2 hl, r_div2 hl, u_shifted hl, u_lim00 hl,
    u_exact00 hl, u_degenerate hl, u_lim10 hl, u_lim11 hl, u_exact10 hl, u_exact11 hl, hm, r_vu, hg]
  refine congrArg Except.ok (smul_units _ _ _ ?_)
  have : FOps.const .sqrt2 * (l * p.Mt) / (l * p.vu) = FOps.const .sqrt2 * p.Mt / p.vu := by
    rw [mul_left_comm, r_div hl]
  rw [this]
  hpow

/-- **C77.** The corresponding shift of the correction to the quartic coupling is a pure number. -/
theorem C77_h3m_shift_mh2 (p : Params ℝ) (ho : HObj ℝ) (n : Int) :
    shiftH3mToDRbarPrimeMh2 (p.rescale l) ho n = shiftH3mToDRbarPrimeMh2 p ho n := by
  unfold shiftH3mToDRbarPrimeMh2
  have h0 : (p.rescale l).MSt.x0 = l * p.MSt.x0 := rfl
  have h1 : (p.rescale l).MSt.x1 = l * p.MSt.x1 := rfl
  dsimp only
  simp only [h0, h1, calcMeanMsq_rescale hl, u_Xt hl, r_MG, r_mu, r_scale, r_pow2 hl, r_div2 hl, u_shifted hl, u_mh2Lim hl, u_mh2Exact hl, u_degenerate hl]

/-! ### the one-loop mass matrix -/

omit hl in
/-- logarithms of masses -/
theorem u_logTerm (hl : 0 < l) {m n : ℝ} (hm : m ≠ 0) (hn : n ≠ 0) : mt41LogTerm (l * m) (l * n) = l ^ 2 * mt41LogTerm m n := by
  unfold mt41LogTerm
  simp only [real_log, Real.log_mul hl.ne' hm, Real.log_mul hl.ne' hn]
  hpow

theorem u_mt41 (t s mu be sb cb m n : ℝ) (ht : t ≠ 0) (hm : m ≠ 0) (hn : n ≠ 0) :
    mt41Matrix (l * t) s (l * mu) be sb cb (l * m) (l * n) = Mat2.smul (l ^ 4) (mt41Matrix t s mu be sb cb m n) := by
  unfold mt41Matrix
  rw [u_logTerm hl hm hn]
  generalize mt41LogTerm m n = L
  simp only [real_log, Real.log_mul hl.ne' hm, Real.log_mul hl.ne' hn, Real.log_mul hl.ne' ht, Mat2.smul, Mat2.mk.injEq]
  generalize Real.log m = lm
  generalize Real.log n = ln
  generalize Real.log t = lt
  generalize Real.log l = ll
  generalize ftan be = tb
  have hn0 := hl.ne'
  have e : pow2 (l * m) - pow2 (l * n) = l ^ 2 * (pow2 m - pow2 n) := by hpow
  simp only [real_ofNat]
  push_cast
  rw [e]
  generalize hD : pow2 m - pow2 n = D
  refine ⟨?_, ?_, ?_, ?_⟩ <;> simp only [pow2, pow3, pow4, Misc.pow2] <;> field_simp <;> ring

/-- **C77.** The one-loop matrix, at every point where the masses of the quark and of the squarks do not vanish. -/
theorem C77_one_loop (p : Params ℝ) (ho : HObj ℝ) (f g : Int) {m n : ℝ} (h1 : shiftMst1ToMDR p ho f g = .ok m)
    (h2 : shiftMst2ToMDR p ho f g = .ok n) (hm : m ≠ 0) (hn : n ≠ 0) (ht : (if ho.getIsAlphab then p.Mb else p.Mt) ≠ 0) :
    getMt41L (p.rescale l) ho f g = Except.map (Mat2.smul (l ^ 2)) (getMt41L p ho f g) := by
  unfold getMt41L
  rw [C77_mst1 hl, C77_mst2 hl, h1, h2]
  dsimp only [Except.map, bind, Except.bind, pure, Except.pure]
  have hq : (if ho.getIsAlphab then (p.rescale l).Mb else (p.rescale l).Mt) = l * (if ho.getIsAlphab then p.Mb else p.Mt) := by
    cases ho.getIsAlphab <;> rfl
  have hs : (if ho.getIsAlphab then (p.rescale l).s2b else (p.rescale l).s2t) = (if ho.getIsAlphab then p.s2b else p.s2t) := rfl
  rw [hq, hs, r_mu, u_betaF hl, u_sinF hl, u_cosF hl, u_mt41 hl _ _ _ _ _ _ _ _ ht hm hn, u_pre hl]
  simp only [Mat2.smul, Except.ok.injEq, Mat2.mk.injEq]
  have e : ∀ x y : ℝ, x / l ^ 2 * (l ^ 4 * y) = l ^ 2 * (x * y) := fun x y => by
    have := hl.ne'
    field_simp
  simp only [e, and_self]

/-! ### `Parameters::validate` -/

omit hl in
theorem minCoeff_units (hl : 0 < l) (m : Mat3 ℝ) : minCoeff (fun i j => l ^ 2 * m i j) = l ^ 2 * minCoeff m := by
  have hmin : ∀ a b : ℝ, (if FOps.lt (l ^ 2 * b) (l ^ 2 * a) then l ^ 2 * b else l ^ 2 * a) = l ^ 2 * (if FOps.lt b a then b else a) := by
    intro a b
    rw [u_lt (pow_pos hl 2)]
    split_ifs <;> rfl
  unfold minCoeff
  simp only [hmin]

theorem neg_units (x : ℝ) : FOps.lt (l * x) 0 = FOps.lt x (@OfNat.ofNat ℝ 0 (FOps.instOfNat 0)) := by
  have := u_lt hl x 0
  rw [mul_zero] at this
  simpa [real_ofNat] using this
theorem neg_units2 (x : ℝ) : FOps.lt (l ^ 2 * x) (@OfNat.ofNat ℝ 0 (FOps.instOfNat 0)) = FOps.lt x (@OfNat.ofNat ℝ 0 (FOps.instOfNat 0)) := by
  have := neg_units (pow_pos hl 2) x
  simpa [real_ofNat] using this
theorem nonpos_units (x : ℝ) : FOps.le (l * x) (@OfNat.ofNat ℝ 0 (FOps.instOfNat 0)) = FOps.le x (@OfNat.ofNat ℝ 0 (FOps.instOfNat 0)) := by
  have := u_le hl x 0
  rw [mul_zero] at this
  simpa [real_ofNat] using this

theorem soft_units (p : Params ℝ) : softMassesNegative (p.rescale l) = softMassesNegative p := by
  unfold softMassesNegative
  have a1 : (p.rescale l).mq2 = fun i j => l ^ 2 * p.mq2 i j := rfl
  have a2 : (p.rescale l).md2 = fun i j => l ^ 2 * p.md2 i j := rfl
  have a3 : (p.rescale l).mu2 = fun i j => l ^ 2 * p.mu2 i j := rfl
  have a4 : (p.rescale l).ml2 = fun i j => l ^ 2 * p.ml2 i j := rfl
  have a5 : (p.rescale l).me2 = fun i j => l ^ 2 * p.me2 i j := rfl
  simp only [a1, a2, a3, a4, a5, minCoeff_units hl, neg_units2 hl]

omit hl in
/-- The tests for degenerate masses give the same answer in both units. -/
structure SameTests (l : ℝ) (p : Params ℝ) : Prop where
  stops : l * |p.MSt.x0 - p.MSt.x1| < 1 / 10 ^ 8 ↔ |p.MSt.x0 - p.MSt.x1| < 1 / 10 ^ 8
  sbottoms : l * |p.MSb.x0 - p.MSb.x1| < 1 / 10 ^ 8 ↔ |p.MSb.x0 - p.MSb.x1| < 1 / 10 ^ 8
  soft : l ^ 2 * |p.mq2 2 2 - p.mu2 2 2| < 1 / 10 ^ 8 ↔ |p.mq2 2 2 - p.mu2 2 2| < 1 / 10 ^ 8

/-- a sector in other units -/
noncomputable def scaleV (l : ℝ) (v : Vec2 ℝ) : Vec2 ℝ := ⟨l * v.x0, l * v.x1⟩

theorem sortSf_units (s : Sf ℝ) : sort_ev ⟨scaleV l s.ev, s.theta, s.s2⟩ = ⟨scaleV l (sort_ev s).ev, (sort_ev s).theta, (sort_ev s).s2⟩ := by
  unfold sort_ev scaleV
  dsimp only
  rw [u_lt hl]
  split_ifs <;> rfl

omit hl in
theorem sort_diff (s : Sf ℝ) : |(sort_ev s).ev.x0 - (sort_ev s).ev.x1| = |s.ev.x0 - s.ev.x1| := by
  unfold sort_ev
  split_ifs
  · exact abs_sub_comm _ _
  · rfl

omit hl in
theorem deg_real : (degEps : ℝ) = 1 / 10 ^ 8 := by unfold degEps; simp [real_lit]

theorem shiftStops_units (v : Vec2 ℝ) (h : l * |v.x0 - v.x1| < 1 / 10 ^ 8 ↔ |v.x0 - v.x1| < 1 / 10 ^ 8) :
    shiftStops (scaleV l v) = scaleV l (shiftStops v) := by
  have e : FOps.lt (FOps.abs ((scaleV l v).x0 - (scaleV l v).x1)) degEps = FOps.lt (FOps.abs (v.x0 - v.x1)) degEps := by
    show FOps.lt (FOps.abs (l * v.x0 - l * v.x1)) degEps = _
    rw [u_sub hl, u_abs hl, rlt, rlt, deg_real]
    exact decide_eq_decide.2 h
  unfold shiftStops
  rw [e]
  split_ifs
  · unfold scaleV; dsimp only; rw [mul_div_assoc]
  · rfl
theorem shiftSbottoms_units (v : Vec2 ℝ) (h : l * |v.x0 - v.x1| < 1 / 10 ^ 8 ↔ |v.x0 - v.x1| < 1 / 10 ^ 8) :
    shiftSbottoms (scaleV l v) = scaleV l (shiftSbottoms v) := by
  have e : FOps.lt (FOps.abs ((scaleV l v).x0 - (scaleV l v).x1)) degEps = FOps.lt (FOps.abs (v.x0 - v.x1)) degEps := by
    show FOps.lt (FOps.abs (l * v.x0 - l * v.x1)) degEps = _
    rw [u_sub hl, u_abs hl, rlt, rlt, deg_real]
    exact decide_eq_decide.2 h
  unfold shiftSbottoms
  rw [e]
  split_ifs
  · unfold scaleV; dsimp only; rw [mul_div_assoc]
  · rfl
theorem shiftMq2_units (q u : Mat3 ℝ) (h : l ^ 2 * |q 2 2 - u 2 2| < 1 / 10 ^ 8 ↔ |q 2 2 - u 2 2| < 1 / 10 ^ 8) :
    shiftMq2 (fun i j => l ^ 2 * q i j) (fun i j => l ^ 2 * u i j) = fun i j => l ^ 2 * shiftMq2 q u i j := by
  have e : FOps.lt (FOps.abs (l ^ 2 * q 2 2 - l ^ 2 * u 2 2)) degEps = FOps.lt (FOps.abs (q 2 2 - u 2 2)) degEps := by
    rw [u_sub (pow_pos hl 2), u_abs (pow_pos hl 2), rlt, rlt, deg_real]
    exact decide_eq_decide.2 h
  unfold shiftMq2
  rw [e]
  split_ifs
  · funext i j
    unfold Mat3.set22
    split_ifs
    · rw [mul_div_assoc]
    · rfl
  · rfl

omit hl in
theorem computeSf_real (X : Ext ℝ) (p : Params ℝ) : computeSfermions X p = (.ok (), sortAndShift p) := by
  unfold computeSfermions fillSf Sf.incomplete
  simp only [real_isNaN, Bool.or_self, Bool.false_eq_true, if_false]
  rfl

theorem sortShift_units (p : Params ℝ) (h : SameTests l p) : sortAndShift (p.rescale l) = (sortAndShift p).rescale l := by
  have s1 := sortSf_units hl p.stops
  have s2 := sortSf_units hl p.sbottoms
  have s3 := sortSf_units hl p.staus
  have e1 : sort_ev (p.rescale l).stops = ⟨scaleV l (sort_ev p.stops).ev, (sort_ev p.stops).theta, (sort_ev p.stops).s2⟩ := s1
  have e2 : sort_ev (p.rescale l).sbottoms = ⟨scaleV l (sort_ev p.sbottoms).ev, (sort_ev p.sbottoms).theta, (sort_ev p.sbottoms).s2⟩ := s2
  have e3 : sort_ev (p.rescale l).staus = ⟨scaleV l (sort_ev p.staus).ev, (sort_ev p.staus).theta, (sort_ev p.staus).s2⟩ := s3
  have t1 := shiftStops_units hl (sort_ev p.stops).ev (by rw [sort_diff]; exact h.stops)
  have t2 := shiftSbottoms_units hl (sort_ev p.sbottoms).ev (by rw [sort_diff]; exact h.sbottoms)
  have t3 := shiftMq2_units hl p.mq2 p.mu2 h.soft
  have f1 : ((p.rescale l).withStops (sort_ev p.stops)).sbottoms = (p.rescale l).sbottoms := rfl
  unfold sortAndShift
  dsimp only
  rw [e1]
  have g2 : ((p.rescale l).withStops ⟨scaleV l (sort_ev p.stops).ev, (sort_ev p.stops).theta, (sort_ev p.stops).s2⟩).sbottoms = (p.rescale l).sbottoms := rfl
  rw [g2, e2]
  have g3 : (((p.rescale l).withStops ⟨scaleV l (sort_ev p.stops).ev, (sort_ev p.stops).theta, (sort_ev p.stops).s2⟩).withSbottoms
    ⟨scaleV l (sort_ev p.sbottoms).ev, (sort_ev p.sbottoms).theta, (sort_ev p.sbottoms).s2⟩).staus = (p.rescale l).staus := rfl
  rw [g3, e3]
  have k2 : (p.withStops (sort_ev p.stops)).sbottoms = p.sbottoms := rfl
  rw [k2]
  have k3 : ((p.withStops (sort_ev p.stops)).withSbottoms (sort_ev p.sbottoms)).staus = p.staus := rfl
  rw [k3]
  dsimp only [Params.withStops, Params.withSbottoms, Params.withStaus, Params.rescale]
  rw [t1, t2, t3]
  rfl

/-- **C77.** `Parameters::validate` accepts or rejects a point whatever the units, and prepares the same point, if the tests for degenerate
squark masses, whose bound is the number `1e-8`, give the same answers.  (All masses and mixing angles are given; real numbers are never NaN.) -/
theorem C77_validate_partial (X : Ext ℝ) (p : Params ℝ) (h : SameTests l p) :
    (validate X (p.rescale l)).1 = (validate X p).1 ∧ (validate X (p.rescale l)).2 = (validate X p).2.rescale l := by
  unfold validate
  have hM : (p.rescale l).MG = l * p.MG := rfl
  have n1 : FOps.lt ((p.rescale l).MG) (@OfNat.ofNat ℝ 0 (FOps.instOfNat 0)) = FOps.lt p.MG (@OfNat.ofNat ℝ 0 (FOps.instOfNat 0)) := by
    have := neg_units hl p.MG; simpa [real_ofNat, hM] using this
  have ha : FOps.abs ((p.rescale l).MG) = l * FOps.abs p.MG := u_abs hl _
  rw [soft_units hl, n1, r_vu, r_vd, nonpos_units hl, nonpos_units hl, ha]
  simp only [real_isNaN, Bool.false_or, computeSf_real]
  split_ifs
  · exact ⟨rfl, rfl⟩
  · exact ⟨rfl, rfl⟩
  · exact ⟨rfl, rfl⟩
  · exact ⟨rfl, rfl⟩
  · refine ⟨rfl, ?_⟩
    have e : prep X (p.rescale l) = (prep X p).rescale l := by
      unfold prep fillThetas fillSMMasses calc_theta
      rw [ha]
      simp only [real_isNaN, Bool.not_false, Bool.false_and, Bool.and_false, Bool.false_eq_true, if_false]
      rfl
    have h' : SameTests l (prep X p) := by
      have a1 : (prep X p).MSt = p.MSt := rfl
      have a2 : (prep X p).MSb = p.MSb := rfl
      have a3 : (prep X p).mq2 = p.mq2 := rfl
      have a4 : (prep X p).mu2 = p.mu2 := rfl
      exact ⟨by rw [a1]; exact h.stops, by rw [a2]; exact h.sbottoms, by rw [a3, a4]; exact h.soft⟩
    rw [e]
    exact sortShift_units hl _ h'

example : SameTests 2 examplePoint := by
  constructor <;> simp only [examplePoint] <;> norm_num

omit hl
/-- A point whose stop masses differ by `3/4 * 1e-8`. -/
noncomputable def nearPoint : Params ℝ := { examplePoint with MSt := ⟨1, 1 + 3 / 4 / 10 ^ 8⟩ }

/-- **C77, violated.** In one system of units the lighter stop mass is changed, in the other one it is not. -/
theorem C77_validate_violated (X : Ext ℝ) :
    ∃ q q', validate X nearPoint = (.ok (), q) ∧ validate X (nearPoint.rescale 2) = (.ok (), q') ∧ q'.MSt.x0 ≠ 2 * q.MSt.x0 := by
  have hv : ∀ l : ℝ, 0 < l → validate X (nearPoint.rescale l) = (.ok (), sortAndShift (prep X (nearPoint.rescale l))) := by
    intro l hl
    unfold validate
    have n1 : FOps.lt ((nearPoint.rescale l).MG) (@OfNat.ofNat ℝ 0 (FOps.instOfNat 0)) = false := by
      simp [rlt, Params.rescale, nearPoint, examplePoint, real_ofNat, hl.le]
    have n2 : softMassesNegative nearPoint = false := by
      unfold softMassesNegative minCoeff
      simp [nearPoint, examplePoint, rlt, real_ofNat]
    have n3 : FOps.le ((nearPoint.rescale l).vu) (@OfNat.ofNat ℝ 0 (FOps.instOfNat 0)) = false := by
      simp [rle, Params.rescale, nearPoint, examplePoint, real_ofNat, hl]
    have n4 : FOps.le ((nearPoint.rescale l).vd) (@OfNat.ofNat ℝ 0 (FOps.instOfNat 0)) = false := by
      simp [rle, Params.rescale, nearPoint, examplePoint, real_ofNat, hl]
    rw [soft_units hl, n2, n1, n3, n4]
    simp only [real_isNaN, Bool.or_self, Bool.false_eq_true, if_false, computeSf_real]
  have h1 : nearPoint.rescale 1 = nearPoint := by simp [Params.rescale, nearPoint, examplePoint]
  have hx : ∀ l : ℝ, 0 < l → (sortAndShift (prep X (nearPoint.rescale l))).MSt = shiftStops ⟨l, l * (1 + 3 / 4 / 10 ^ 8)⟩ := by
    intro l hl
    have : sort_ev (prep X (nearPoint.rescale l)).stops = (prep X (nearPoint.rescale l)).stops := by
      unfold sort_ev
      have : FOps.lt (prep X (nearPoint.rescale l)).stops.ev.x1 (prep X (nearPoint.rescale l)).stops.ev.x0 = false := by
        show FOps.lt (l * (1 + 3 / 4 / 10 ^ 8)) (l * 1) = false
        rw [u_lt hl, rlt]; norm_num
      rw [this]; simp
    show shiftStops (sort_ev (prep X (nearPoint.rescale l)).stops).ev = _
    rw [this]
    show shiftStops ⟨l * 1, l * (1 + 3 / 4 / 10 ^ 8)⟩ = _
    rw [mul_one]
  have v1 := hv 1 one_pos
  have x1 := hx 1 one_pos
  rw [h1] at v1 x1
  refine ⟨_, _, v1, hv 2 two_pos, ?_⟩
  rw [hx 2 two_pos, x1]
  unfold shiftStops
  simp only [rlt, real_abs, deg_real]
  have c2 : ¬ |(2 : ℝ) - 2 * (1 + 3 / 4 / 10 ^ 8)| < 1 / 10 ^ 8 := by rw [abs_of_neg (by norm_num)]; norm_num
  have c1 : |(1 : ℝ) - 1 * (1 + 3 / 4 / 10 ^ 8)| < 1 / 10 ^ 8 := by rw [abs_of_neg (by norm_num)]; norm_num
  simp only [c1, c2, decide_true, decide_false, Bool.false_eq_true, if_false, if_true, real_ofNat]
  norm_num

end Himalaya.Units
