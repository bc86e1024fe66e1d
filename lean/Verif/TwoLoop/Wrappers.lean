import Verif.TwoLoop.Model

set_option linter.unusedSimpArgs false

/-!
# C49: what the two-loop wrappers return

Specification: `higgsMatrix S` is the symmetric matrix of the correction in the basis (H_d, H_u): entry (i,j) is `S_ij`.  The vector
`(1, tanb)` is proportional to `(cos beta, sin beta)`, the direction of the light CP-even Higgs boson for a heavy CP-odd one.
-/

namespace Himalaya.TwoLoop

open Real

/-- the matrix with the entries `S_ij` -/
def higgsMatrix (S : SOut) : Mat2 ℝ := ⟨S.S11, S.S12, S.S12, S.S22⟩

/-- `M` is symmetric -/
def Symm (M : Mat2 ℝ) : Prop := M.m10 = M.m01
/-- `M (1, tanb)` -/
def onLight (M : Mat2 ℝ) (tanb : ℝ) : ℝ × ℝ := (M.m00 + M.m01 * tanb, M.m10 + M.m11 * tanb)
def trace (M : Mat2 ℝ) : ℝ := M.m00 + M.m11
/-- exchange of H_u and H_d -/
def exch (M : Mat2 ℝ) : Mat2 ℝ := ⟨M.m11, M.m10, M.m01, M.m00⟩

theorem one_add_sq_pos (x : ℝ) : 0 < 1 + x * x := by nlinarith [mul_self_nonneg x]

theorem sqrtabs_sq (x : ℝ) : sqrtabs (1 + x * x) * sqrtabs (1 + x * x) = 1 + x * x := by
  unfold sqrtabs; rw [abs_of_pos (one_add_sq_pos x), Real.mul_self_sqrt (one_add_sq_pos x).le]

theorem sqrtabs_ne (x : ℝ) : sqrtabs (1 + x * x) ≠ 0 := by
  intro h; have := sqrtabs_sq x; rw [h] at this; have := one_add_sq_pos x; linarith

/-- closed form of `rotate_by` -/
theorem rotateBy_eq (d tb : ℝ) : rotateBy d tb = ⟨d * tb ^ 2 / (1 + tb ^ 2), -d * tb / (1 + tb ^ 2), -d * tb / (1 + tb ^ 2), d / (1 + tb ^ 2)⟩ := by
  have h := sqrtabs_sq tb
  have hn := sqrtabs_ne tb
  have hp := one_add_sq_pos tb
  have hp' : (1 + tb ^ 2) ≠ 0 := by rw [pow_two]; exact hp.ne'
  unfold rotateBy
  simp only [Mat2.mk.injEq]
  set r := sqrtabs (1 + tb * tb) with hr
  have h2 : r ^ 2 = 1 + tb ^ 2 := by rw [pow_two, pow_two]; exact h
  refine ⟨?_, ?_, ?_, ?_⟩ <;> (rw [← h2]; field_simp)

theorem rotateBy_light (d tb : ℝ) : onLight (rotateBy d tb) tb = (0, 0) := by
  rw [rotateBy_eq]; unfold onLight
  have hp' : (1 + tb ^ 2) ≠ 0 := by rw [pow_two]; exact (one_add_sq_pos tb).ne'
  ext <;> simp only <;> field_simp <;> ring

theorem rotateBy_trace (d tb : ℝ) : trace (rotateBy d tb) = d := by
  rw [rotateBy_eq]; unfold trace
  have hp' : (1 + tb ^ 2) ≠ 0 := by rw [pow_two]; exact (one_add_sq_pos tb).ne'
  simp only; field_simp; ring

theorem rotateBy_zero (tb : ℝ) : rotateBy 0 tb = ⟨0, 0, 0, 0⟩ := by rw [rotateBy_eq]; simp

theorem rotateBy_exch (d tb : ℝ) (h : tb ≠ 0) : exch (rotateBy d (1 / tb)) = rotateBy d tb := by
  rw [rotateBy_eq, rotateBy_eq]; unfold exch
  have hp' : (1 + tb ^ 2) ≠ 0 := by rw [pow_two]; exact (one_add_sq_pos tb).ne'
  have hp'' : (tb ^ 2 + 1) ≠ 0 := by rw [add_comm]; exact hp'
  simp only [Mat2.mk.injEq]
  refine ⟨?_, ?_, ?_, ?_⟩ <;> field_simp <;> ring

theorem madd_zero (M : Mat2 ℝ) : madd M ⟨0, 0, 0, 0⟩ = M := by unfold madd; simp

/-- every two-loop contribution is a symmetric matrix -/
theorem C49_symmetric (X : Ext) (D : DDS) (S : SOut) (at1 : AtAs) (tb : TauBot) (sq : Sq) (dma tanb : ℝ) (heavy : Bool) :
    Symm (deltaAtAs X at1 heavy) ∧ Symm (deltaAbAs X at1 heavy) ∧ Symm (deltaAtAt D sq tanb heavy) ∧ Symm (deltaAtau S dma tanb heavy) ∧
    Symm (deltaAbAtau tb heavy) := by
  refine ⟨?_, ?_, ?_, ?_, ?_⟩ <;>
    simp only [Symm, deltaAtAs, deltaAbAs, deltaAtAt, deltaAtau, deltaAbAtau, madd, rotateBy, storeDiagFirst, storeRowFirst, ddshiggsOut,
      tausqOut, taubotOut, dszhiggsOut]
  · split <;> rfl
  · split <;> rfl

/-- `M'` is `M` plus a matrix of trace `dma` which does not act on the direction `(1, tanb)` -/
def AddsHeavy (M M' : Mat2 ℝ) (dma tanb : ℝ) : Prop :=
  onLight M' tanb = onLight M tanb ∧ trace M' = trace M + dma

theorem addsHeavy_madd (M : Mat2 ℝ) (d tanb : ℝ) : AddsHeavy (madd M (rotateBy 0 tanb)) (madd M (rotateBy d tanb)) d tanb := by
  rw [rotateBy_zero, madd_zero]
  have h := rotateBy_light d tanb
  have ht := rotateBy_trace d tanb
  simp only [onLight, Prod.mk.injEq] at h
  refine ⟨?_, ?_⟩
  · simp only [onLight, madd, Prod.mk.injEq]
    exact ⟨by linarith [h.1], by linarith [h.2]⟩
  · unfold trace madd; unfold trace at ht; simp only; linarith

/-- including the heavy Higgs boson adds the CP-odd mass shift in the direction orthogonal to `(cos beta, sin beta)` and changes nothing
else, in all five contributions.  The argument of the bottom routine is `cotb`. -/
theorem C49_heavy_higgs (X : Ext) (D : DDS) (S : SOut) (a : AtAs) (tb : TauBot) (sq : Sq) (dma tanb : ℝ) :
    AddsHeavy (deltaAtAs X a false) (deltaAtAs X a true) (maAtAs X a) a.tanb ∧
    (a.tanb ≠ 0 → AddsHeavy (deltaAbAs X a false) (deltaAbAs X a true) (maAtAs X a) (1 / a.tanb)) ∧
    AddsHeavy (deltaAtAt D sq tanb false) (deltaAtAt D sq tanb true) (D.odd (guards (guards sq))) tanb ∧
    AddsHeavy (deltaAtau S dma tanb false) (deltaAtau S dma tanb true) dma tanb ∧
    AddsHeavy (deltaAbAtau tb false) (deltaAbAtau tb true) (taubotoddF tb) tb.tanb := by
  have key : AddsHeavy (deltaAtAs X a false) (deltaAtAs X a true) (maAtAs X a) a.tanb := by
    unfold deltaAtAs; exact addsHeavy_madd _ _ _
  refine ⟨key, ?_, ?_, ?_, ?_⟩
  · intro h0
    obtain ⟨h1, h2⟩ := key
    simp only [AddsHeavy, onLight, trace, deltaAbAs, Prod.mk.injEq] at h1 h2 ⊢
    obtain ⟨h1, h3⟩ := h1
    have hs := (C49_symmetric X D S a tb sq dma tanb true).1
    have hs' := (C49_symmetric X D S a tb sq dma tanb false).1
    simp only [Symm] at hs hs'
    rw [hs, hs'] at h3 ⊢
    refine ⟨⟨?_, ?_⟩, by linarith⟩
    · field_simp; linarith
    · field_simp; linarith
  · unfold deltaAtAt; exact addsHeavy_madd _ _ _
  · unfold deltaAtau; exact addsHeavy_madd _ _ _
  · unfold deltaAbAtau; exact addsHeavy_madd _ _ _

/-- without the heavy Higgs boson the O(at as), O(at^2) and O(atau^2) contributions are the Fortran results, each entry in its place -/
theorem C49_entries (X : Ext) (D : DDS) (S : SOut) (a : AtAs) (sq : Sq) (dma tanb : ℝ) :
    (¬ |(a.T1 - a.T2) / a.T1| < 1 / 10 ^ 8 → deltaAtAs X a false = higgsMatrix (dszhiggsF X.phi a)) ∧
    deltaAtAt D sq tanb false = higgsMatrix (D.even (guards sq)) ∧ deltaAtau S dma tanb false = higgsMatrix S := by
  refine ⟨?_, ?_, ?_⟩
  · intro h
    simp only [deltaAtAs, if_neg h, Bool.false_eq_true, if_false, rotateBy_zero, madd_zero]; rfl
  · simp only [deltaAtAt, Bool.false_eq_true, if_false, rotateBy_zero, madd_zero]; rfl
  · simp only [deltaAtau, Bool.false_eq_true, if_false, rotateBy_zero, madd_zero]; rfl

/-- the bottom contribution is the top contribution with H_u and H_d exchanged; a shift by the heavy Higgs is the shift for
`tanb = 1 / cotb` -/
theorem C49_bottom_exchanges (X : Ext) (a : AtAs) (heavy : Bool) : deltaAbAs X a heavy = exch (deltaAtAs X a heavy) := by
  have hs := (C49_symmetric X ⟨fun _ => ⟨0, 0, 0⟩, fun _ => 0⟩ ⟨0, 0, 0⟩ a ⟨0, 0, 0, 0, 0, 0, 0, 0, 0, 0, 0, 0, 0, 0⟩ ⟨0, 0, 0, 0, 0, 0, 0, 0⟩ 0 0 heavy).1
  unfold exch
  rw [show (deltaAtAs X a heavy).m10 = (deltaAtAs X a heavy).m01 from hs]
  show (⟨_, _, _, _⟩ : Mat2 ℝ) = _
  rw [show (deltaAtAs X a heavy).m10 = (deltaAtAs X a heavy).m01 from hs]

theorem C49_bottom_heavy (dma tanb : ℝ) (h : tanb ≠ 0) : exch (rotateBy dma (1 / tanb)) = rotateBy dma tanb :=
  rotateBy_exch dma tanb h

/-- what `delta_mh2_2loop_ab_atau` returns: `S12` and `S22` are exchanged, for every argument -/
theorem C49_tau_bottom_entries (a : TauBot) :
    deltaAbAtau a false = ⟨(taubotF a).S11, (taubotF a).S22, (taubotF a).S22, (taubotF a).S12⟩ := by
  simp only [deltaAbAtau, Bool.false_eq_true, if_false, rotateBy_zero, madd_zero]; rfl

/-- it is the correct matrix exactly if `S12 = S22` -/
theorem C49_tau_bottom_right_iff_partial (a : TauBot) :
    deltaAbAtau a false = higgsMatrix (taubotF a) ↔ (taubotF a).S12 = (taubotF a).S22 := by
  rw [C49_tau_bottom_entries]; unfold higgsMatrix
  simp only [Mat2.mk.injEq, true_and]
  constructor
  · intro h; exact h.1.symm
  · intro h; exact ⟨h.symm, h.symm, h⟩

/-- a point: mb² = mtau² = 1, heavier squarks and sleptons of squared mass e, lighter ones 1, maximal mixing, Q = 1, mu = (e-1)/4 -/
noncomputable def tbPoint : TauBot :=
  ⟨1, 1, exp 1, 1, exp 1, 1, √2 / 2, √2 / 2, √2 / 2, √2 / 2, 1, (exp 1 - 1) / 4, 1, 1⟩

theorem tbPoint_args : tbPoint.args = ⟨1, 1, exp 1, 1, exp 1, 1, 1, 0, 1, 0, 1, (exp 1 - 1) / 4, 1, 1⟩ := by
  have h : √(2:ℝ) * √2 = 2 := Real.mul_self_sqrt (by norm_num)
  have h1 : 2 * (√(2:ℝ) / 2) * (√2 / 2) = 1 := by linear_combination h / 2
  have h2 : (√(2:ℝ) / 2) ^ 2 - (√2 / 2) ^ 2 = 0 := by ring
  simp only [TauBot.args, tbPoint, h1, h2]

/-- the matrix of `delta_mh2_2loop_ab_atau` is wrong: at a point with positive masses the off-diagonal and the (2,2) entries differ from
the computed `S12` and `S22` -/
theorem C49_tau_bottom_wrong : deltaAbAtau tbPoint false ≠ higgsMatrix (taubotF tbPoint) := by
  rw [Ne, C49_tau_bottom_right_iff_partial]
  intro hEq
  have he : (1:ℝ) < exp 1 := by have := Real.add_one_lt_exp (show (1:ℝ) ≠ 0 by norm_num); linarith
  have hb0 : 0 < cos (arctan 1) := Real.cos_arctan_pos 1
  set c := cos (arctan 1) with hc
  have hk : (0:ℝ) < 3 / (16 * π ^ 2) ^ 2 := by positivity
  set k := (3:ℝ) / (16 * π ^ 2) ^ 2 with hkdef
  have hr : 0 < √(2:ℝ) := by positivity
  unfold taubotF at hEq
  simp only [tbPoint_args] at hEq
  simp only [tbPoint, TauArgs.swap, TauArgs.F1q, TauArgs.F2q, TauArgs.F3q, TauArgs.F4q, TauArgs.F5q, TauArgs.F6q, TauArgs.ht, TauArgs.hb, tauYuk,
    TauArgs.pippot, TauArgs.pippob, pippo, div_one, Real.log_one, Real.log_exp, mul_one, one_pow, one_mul, Real.sqrt_one, ← hc, ← hkdef] at hEq
  have hh : 0 < √2 / c := by positivity
  generalize √2 / c = h at hEq hh
  generalize exp 1 = e at hEq he
  have e0 : e ≠ 0 := by linarith
  have e1 : e - 1 ≠ 0 := by linarith
  have hpos : 0 < k * ((e - 1) / 4) * h ^ 4 * ((e + 1) / e + 1) := by
    have : 0 < e - 1 := by linarith
    have : 0 < e := by linarith
    positivity
  rw [← sub_eq_zero] at hEq
  refine hpos.ne' (Eq.trans ?_ hEq)
  field_simp
  ring

end Himalaya.TwoLoop
