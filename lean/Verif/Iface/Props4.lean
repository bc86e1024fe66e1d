import Verif.Iface.Props3

/-!
# C12-C15: concrete points (non-vacuity) and counterexamples
-/

set_option linter.unusedSimpArgs false

namespace Himalaya
open FOps
open scoped Himalaya

/-! ### The ideal library satisfies the contracts -/

theorem contract_fin {X : Ext Dbl} {a b d : ℝ} (h : SolverContract X a b d) :
    ∃ l0 l1 v00 v01 v10 v11 : ℝ,
    X.eigVal ⟨.fin a, .fin b, .fin b, .fin d⟩ = ⟨.fin l0, .fin l1⟩ ∧
    X.eigVec ⟨.fin a, .fin b, .fin b, .fin d⟩ = ⟨.fin v00, .fin v01, .fin v10, .fin v11⟩ ∧
    |v00| ≤ 1 ∧ |v01| ≤ 1 ∧ ((l0 < 0 ∨ l1 < 0) ↔ HasNegEigenvalue a b d) := by
  obtain ⟨α, l0, l1, σ, -, hσ, ha, hb, hd, -, ⟨-, h1, h2⟩ | ⟨-, h1, h2⟩⟩ := h
  · refine ⟨_, _, _, _, _, _, h1, h2, ?_, ?_, (neg_eig_of_rot ha hb hd).symm⟩
    · rw [abs_sigma_mul hσ]; exact Real.abs_cos_le_one α
    · rw [_root_.abs_neg, abs_sigma_mul hσ]; exact Real.abs_sin_le_one α
  · refine ⟨_, _, _, _, _, _, h1, h2, ?_, ?_, ?_⟩
    · rw [_root_.abs_neg, abs_sigma_mul hσ]; exact Real.abs_sin_le_one α
    · rw [abs_sigma_mul hσ]; exact Real.abs_cos_le_one α
    · rw [neg_eig_of_rot ha hb hd]; tauto

theorem idealExt_finite : ExtFinite idealExt where
  svd M hM i := by
    unfold idealExt
    dsimp only
    split_ifs
    · exact hM _ _
    · exact ⟨_, rfl⟩
  eig a b d := by
    obtain ⟨l0, l1, v00, v01, v10, v11, h1, h2, h3, h4, -⟩ := contract_fin (idealExt_solver a b d)
    exact ⟨l0, l1, v00, v01, v10, v11, h1, h2, h3, h4⟩

theorem idealExt_svd : SvdContract idealExt where
  desc M hM := by
    by_cases h : AscDiag M
    · obtain ⟨a, b, c, h0, h1, h2, e⟩ := h
      have h' : AscDiag M := ⟨a, b, c, h0, h1, h2, e⟩
      refine ⟨a, b, c, h0, h1, h2, ?_, ?_, ?_⟩
      all_goals
        unfold idealExt
        dsimp only
        rw [if_pos h', e]
        rfl
    · refine ⟨0, 0, 0, le_rfl, le_rfl, le_rfl, ?_, ?_, ?_⟩
      all_goals
        unfold idealExt
        dsimp only
        rw [if_neg h]
  diag M hM i := by
    unfold idealExt
    dsimp only
    rw [if_pos hM]

theorem posdef_not_neg {a b d : ℝ} (ha : 0 < a) (h : b ^ 2 ≤ a * d) : ¬ HasNegEigenvalue a b d := by
  rintro ⟨l, x, y, hl, hxy, e1, e2⟩
  have q : a * (a * x ^ 2 + 2 * b * x * y + d * y ^ 2) = a * (l * (x ^ 2 + y ^ 2)) := by
    linear_combination a * (x * e1 + y * e2)
  have q2 : a * (a * x ^ 2 + 2 * b * x * y + d * y ^ 2) = (a * x + b * y) ^ 2 + (a * d - b ^ 2) * y ^ 2 := by ring
  have pos : 0 < x ^ 2 + y ^ 2 := by
    rcases hxy with h | h
    · have := sq_pos_of_ne_zero h; positivity
    · have := sq_pos_of_ne_zero h; positivity
  have h1 : 0 ≤ (a * x + b * y) ^ 2 + (a * d - b ^ 2) * y ^ 2 := by
    have := mul_nonneg (sub_nonneg.2 h) (sq_nonneg y)
    positivity
  rw [← q2, q] at h1
  have : l * (x ^ 2 + y ^ 2) < 0 := mul_neg_of_neg_of_pos hl pos
  nlinarith

/-! ### A concrete parameter point -/

/-- multiple of the unit matrix -/
noncomputable def dg (x : ℝ) : Mat3 Dbl := fun i j => if i = j then .fin x else .fin 0

/-- A concrete input: stops not given, sbottoms given in order, staus given in descending order. `b1`, `b2` are the
supplied sbottom masses. -/
noncomputable def demo (b1 b2 : ℝ) : Params Dbl where
  scale := .fin 1000
  mu := .fin 100
  g1 := .fin (1/2)
  g2 := .fin (3/5)
  g3 := .fin 1
  vd := .fin 60
  vu := .fin 240
  mq2 := dg 1000000
  md2 := dg 1000000
  mu2 := dg 2000000
  ml2 := dg 1000000
  me2 := dg 1000000
  Au := dg 200
  Ad := dg 100
  Ae := dg 100
  Yu := dg (9/10)
  Yd := dg (1/10)
  Ye := dg (1/10)
  M1 := .fin 1000
  M2 := .fin 1000
  MG := .fin 1500
  MW := .fin 80
  MZ := .fin 90
  Mt := .fin 160
  Mb := .nan
  Mtau := .fin 2
  MA := .fin 500
  MSt := ⟨.nan, .nan⟩
  MSb := ⟨.fin b1, .fin b2⟩
  MStau := ⟨.fin 600, .fin 500⟩
  s2t := .nan
  s2b := .fin 0
  s2tau := .fin 0
  theta_t := .nan
  theta_b := .fin 0
  theta_tau := .fin 0
  massLimit3LThreshold := 0

theorem dg_fin (x : ℝ) (i j : Fin 3) : IsFin (dg x i j) := by unfold dg; split_ifs <;> exact ⟨_, rfl⟩

theorem dg_nonneg {x : ℝ} (h : 0 ≤ x) : ¬ HasNegEntry (dg x) := by
  rintro ⟨i, j, hij⟩
  unfold dg at hij
  split_ifs at hij
  · simp at hij; linarith
  · simp at hij

theorem demo_finite {b1 b2 : ℝ} (h1 : 0 ≤ b1) (h2 : 0 ≤ b2) : FiniteInput (demo b1 b2) where
  mu := ⟨_, rfl⟩
  g1 := ⟨_, rfl⟩
  g2 := ⟨_, rfl⟩
  vu := ⟨_, rfl⟩
  vd := ⟨_, rfl⟩
  mq2 := dg_fin _
  md2 := dg_fin _
  mu2 := dg_fin _
  ml2 := dg_fin _
  me2 := dg_fin _
  Au := dg_fin _
  Ad := dg_fin _
  Ae := dg_fin _
  Yu := dg_fin _
  Yd := dg_fin _
  Ye := dg_fin _
  MG := ⟨_, rfl⟩
  MW := Or.inr ⟨_, rfl⟩
  MZ := Or.inr ⟨_, rfl⟩
  Mt := Or.inr ⟨_, rfl⟩
  Mb := Or.inl rfl
  Mtau := Or.inr ⟨_, rfl⟩
  MSt := ⟨Or.inl rfl, Or.inl rfl⟩
  MSb := ⟨Or.inr ⟨_, h1, rfl⟩, Or.inr ⟨_, h2, rfl⟩⟩
  MStau := ⟨Or.inr ⟨600, by norm_num, rfl⟩, Or.inr ⟨500, by norm_num, rfl⟩⟩
  angles := ⟨Or.inl rfl, Or.inl rfl, Or.inr ⟨_, rfl⟩, Or.inr ⟨_, rfl⟩, Or.inr ⟨_, rfl⟩, Or.inr ⟨_, rfl⟩⟩

/-- the stop mass matrix of the concrete point is positive -/
theorem demo_stop (b1 b2 : ℝ) (m : Vec2 Dbl) : ∃ a b d : ℝ,
    stopMatrix (prep idealExt { demo b1 b2 with MSt := m }) = ⟨.fin a, .fin b, .fin b, .fin d⟩ ∧
    ¬ HasNegEigenvalue a b d := by
  have hp : FiniteInput (demo 0 0) := demo_finite le_rfl le_rfl
  obtain ⟨-, -, -, hb, -⟩ := smMasses_fin idealExt_finite hp (p := demo 0 0) ⟨240, by norm_num, rfl⟩ ⟨60, by norm_num, rfl⟩
  obtain ⟨Mb, hb⟩ := hb
  have h := (C16_mass_matrices (prep idealExt { demo b1 b2 with MSt := m }) (vu := 240) (vd := 60) (mu := 100) (MW := 80)
    (MZ := 90) (Mt := 160) (Mb := Mb) (Mtau := 2) (q := 1000000) (u := 2000000) (dd := 1000000) (l := 1000000) (e := 1000000)
    (At := 200) (Ab := 100) (Atau := 100) rfl rfl (by norm_num) (by norm_num) rfl rfl rfl (by norm_num) rfl hb rfl rfl rfl
    rfl rfl rfl rfl rfl rfl).1
  refine ⟨_, _, _, h, ?_⟩
  simp only [stopMassMatrix, Real.tan_arctan]
  have c1 := Real.neg_one_le_cos (2 * Real.arctan (240 / 60))
  have c2 := Real.cos_le_one (2 * Real.arctan (240 / 60))
  set c := Real.cos (2 * Real.arctan (240 / 60))
  have ha : 1000000 ≤ (1000000 : ℝ) + 160 ^ 2 + (1 / 2 - 2 / 3 * (1 - 80 ^ 2 / 90 ^ 2)) * 90 ^ 2 * c := by
    norm_num; linarith
  have hd : 2000000 ≤ (2000000 : ℝ) + 160 ^ 2 + 2 / 3 * (1 - 80 ^ 2 / 90 ^ 2) * 90 ^ 2 * c := by
    norm_num; linarith
  apply posdef_not_neg (by linarith)
  have : (1000000 : ℝ) * 2000000 ≤ ((1000000 : ℝ) + 160 ^ 2 + (1 / 2 - 2 / 3 * (1 - 80 ^ 2 / 90 ^ 2)) * 90 ^ 2 * c) *
      (2000000 + 160 ^ 2 + 2 / 3 * (1 - 80 ^ 2 / 90 ^ 2) * 90 ^ 2 * c) := by gcongr
  refine le_trans ?_ this
  norm_num

/-- the concrete point is accepted, whatever is supplied for the (then ignored) stop masses -/
theorem demo_ok {b1 b2 : ℝ} (h1 : 0 ≤ b1) (h2 : 0 ≤ b2) (m : Vec2 Dbl) :
    ∃ p', validate idealExt { demo b1 b2 with MSt := m } = (.ok (), p') := by
  have hu : IsPos (demo b1 b2).vu := ⟨240, by norm_num, rfl⟩
  have hd : IsPos (demo b1 b2).vd := ⟨60, by norm_num, rfl⟩
  obtain ⟨-, mb, mtau⟩ := matrices_fin idealExt_finite (demo_finite h1 h2) hu hd
  obtain ⟨a, b, d, hM, hneg⟩ := demo_stop b1 b2 m
  obtain ⟨l0, l1, _, _, _, _, e1, -, -, -, e2⟩ := contract_fin (idealExt_solver a b d)
  have eig : ∀ M : Mat2 Dbl, (∃ a b d : ℝ, M = ⟨.fin a, .fin b, .fin b, .fin d⟩) → EigNum idealExt M := by
    rintro M ⟨a, b, d, rfl⟩
    obtain ⟨l0, l1, _, _, _, _, e1, -⟩ := contract_fin (idealExt_solver a b d)
    unfold EigNum; rw [e1]; exact ⟨rfl, rfl⟩
  refine (C12_accepts_iff_physical idealExt { demo b1 b2 with MSt := m } (noNaN_of (dg_fin _)) (noNaN_of (dg_fin _))
    (noNaN_of (dg_fin _)) (noNaN_of (dg_fin _)) (noNaN_of (dg_fin _)) (eig _ ⟨a, b, d, hM⟩) (eig _ mb)
    (eig _ mtau)).2 ?_
  unfold Unphysical
  have t1 : ¬ Tachyonic idealExt m Dbl.nan Dbl.nan (stopMatrix (prep idealExt { demo b1 b2 with MSt := m })) := by
    rintro ⟨-, h⟩
    rw [hM, e1, Dbl.fin_ofNat] at h
    simp only [Dbl.fin_lt, decide_eq_true_eq] at h
    push_cast at h
    exact hneg (e2.1 h)
  have given : ∀ x y : ℝ, SfGiven (⟨.fin x, .fin y⟩ : Vec2 Dbl) (.fin 0) (.fin 0) :=
    fun x y => ⟨rfl, rfl, Or.inl ⟨rfl, rfl⟩⟩
  have le0 : ∀ x : ℝ, 0 < x → ¬ (le (Dbl.fin x) 0 = true) := by
    intro x hx; rw [Dbl.fin_ofNat]; simp [hx]
  rintro (h | h | h | h | h | h | h | h | h | h | h | h | h)
  · exact dg_nonneg (by norm_num) h
  · exact dg_nonneg (by norm_num) h
  · exact dg_nonneg (by norm_num) h
  · exact dg_nonneg (by norm_num) h
  · exact dg_nonneg (by norm_num) h
  · have h : lt (Dbl.fin 1500) 0 = true := h
    rw [Dbl.fin_ofNat] at h; simp at h; linarith
  · cases h
  · exact le0 240 (by norm_num) h
  · cases h
  · exact le0 60 (by norm_num) h
  · exact t1 h
  · exact h.1 (given _ _)
  · exact h.1 (given _ _)

/-- C12 non-vacuity: a physical point is accepted, and its variants with negative soft mass, with `vu = 0`, and with a
negative gluino mass are rejected. -/
example : (∃ p', validate idealExt (demo 900 1000) = (.ok (), p')) ∧
    (∃ e, validate idealExt { demo 900 1000 with mq2 := dg (-1) } = (.error e, { demo 900 1000 with mq2 := dg (-1) })) ∧
    (∃ e p', validate idealExt { demo 900 1000 with vu := .fin 0 } = (.error e, p')) ∧
    (∃ e p', validate idealExt { demo 900 1000 with MG := .fin (-5) } = (.error e, p')) := by
  refine ⟨demo_ok (by norm_num) (by norm_num) _, ?_, ?_, ?_⟩
  · exact C12_early_rejection_pure idealExt _ (noNaN_of (dg_fin _)) (noNaN_of (dg_fin _))
      (noNaN_of (dg_fin _)) (noNaN_of (dg_fin _)) (noNaN_of (dg_fin _))
      (Or.inl ⟨0, 0, by show lt (Dbl.fin (-1)) 0 = true; rw [Dbl.fin_ofNat]; simp⟩)
  · rcases validate_cases idealExt { demo 900 1000 with vu := .fin 0 } with ⟨p', -, hv⟩ | ⟨e, p', h, -⟩
    · have h : le (Dbl.fin 0) 0 = false := hv.vu2
      rw [Dbl.fin_ofNat] at h; simp at h
    · exact ⟨e, p', h⟩
  · obtain ⟨e, h⟩ := C12_early_rejection_pure idealExt { demo 900 1000 with MG := .fin (-5) } (noNaN_of (dg_fin _)) (noNaN_of (dg_fin _))
      (noNaN_of (dg_fin _)) (noNaN_of (dg_fin _)) (noNaN_of (dg_fin _))
      (Or.inr (Or.inr (Or.inr (Or.inr (Or.inr (by show lt (Dbl.fin (-5)) 0 = true; rw [Dbl.fin_ofNat]; simp))))))
    exact ⟨e, _, h⟩

/-- C12: with the eigen-solver contract, the tachyon condition is the existence of a negative eigenvalue of the mass
matrix. -/
theorem C12_tachyonic_iff_negative_eigenvalue {X : Ext Dbl} {a b d : ℝ} (hX : SolverContract X a b d) (m : Vec2 Dbl)
    (t s : Dbl) : Tachyonic X m t s ⟨.fin a, .fin b, .fin b, .fin d⟩ ↔
      ¬ SfGiven m t s ∧ HasNegEigenvalue a b d := by
  obtain ⟨l0, l1, _, _, _, _, e1, -, -, -, e2⟩ := contract_fin hX
  unfold Tachyonic
  rw [e1, ← e2, Dbl.fin_ofNat]
  simp only [Dbl.fin_lt, decide_eq_true_eq]
  push_cast
  rfl

/-- C13 non-vacuity: for the concrete point the sbottoms are kept and the staus are exchanged. -/
example : ∃ p', validate idealExt (demo 900 1000) = (.ok (), p') ∧ p'.MSb = ⟨.fin 900, .fin 1000⟩ ∧
    p'.MStau = ⟨.fin 500, .fin 600⟩ := by
  obtain ⟨p', h⟩ := demo_ok (b1 := 900) (b2 := 1000) (by norm_num) (by norm_num) ⟨.nan, .nan⟩
  have h : validate idealExt (demo 900 1000) = (.ok (), p') := h
  refine ⟨p', h, ?_, ?_⟩
  · obtain ⟨m, _, _, hr, -, -, -, -, hk, -⟩ := C13_sbottoms_kept idealExt _ _ h ⟨rfl, rfl, Or.inl ⟨rfl, rfl⟩⟩
    rcases hr with ⟨-, rfl, -⟩ | ⟨hc, -⟩
    · apply hk
      show lt (FOps.abs (Dbl.fin 900 - Dbl.fin 1000)) eps8 = false
      rw [Dbl.fin_sub, Dbl.fin_abs, show (eps8 : Dbl) = degEps from rfl, degEps_fin, Dbl.fin_lt]
      simp only [decide_eq_false_iff_not]; norm_num [abs_of_nonpos]
    · exfalso
      have hc : lt (Dbl.fin 1000) (Dbl.fin 900) = true := hc
      simp at hc; linarith
  · obtain ⟨_, _, hr, -⟩ := C13_staus_kept idealExt _ _ h ⟨rfl, rfl, Or.inl ⟨rfl, rfl⟩⟩
    rcases hr with ⟨hc, -⟩ | ⟨-, e, -⟩
    · exfalso
      have hc : lt (Dbl.fin 500) (Dbl.fin 600) = false := hc
      simp at hc; linarith
    · exact e

/-- C13 (finding): the claim that supplied masses survive validation is false.  There is an accepted point whose supplied
stop masses are both different from the reported heavier stop mass (which is never shifted). -/
theorem C13_supplied_stop_masses_can_be_lost :
    ¬ ∀ (p p' : Params Dbl), FiniteInput p → validate idealExt p = (.ok (), p') →
      isNaN p.MSt.x0 = false → isNaN p.MSt.x1 = false → p'.MSt.x1 = p.MSt.x0 ∨ p'.MSt.x1 = p.MSt.x1 := by
  intro hall
  have hfin : ∀ x y : ℝ, 0 ≤ x → 0 ≤ y → FiniteInput { demo 900 1000 with MSt := ⟨.fin x, .fin y⟩ } := by
    intro x y hx hy
    have h := demo_finite (b1 := 900) (b2 := 1000) (by norm_num) (by norm_num)
    exact { h with MSt := ⟨Or.inr ⟨x, hx, rfl⟩, Or.inr ⟨y, hy, rfl⟩⟩ }
  obtain ⟨q, h⟩ := demo_ok (b1 := 900) (b2 := 1000) (by norm_num) (by norm_num) ⟨.fin 1, .fin 2⟩
  have h' := C13_stop_masses_without_angle_ignored idealExt (demo 900 1000) ⟨.fin 1, .fin 2⟩ ⟨.fin 3, .fin 5⟩ rfl rfl h
  have r1 := hall _ _ (hfin 1 2 (by norm_num) (by norm_num)) h rfl rfl
  have r2 := hall _ _ (hfin 3 5 (by norm_num) (by norm_num)) h' rfl rfl
  have r1 : q.MSt.x1 = Dbl.fin 1 ∨ q.MSt.x1 = Dbl.fin 2 := r1
  have r2 : q.MSt.x1 = Dbl.fin 3 ∨ q.MSt.x1 = Dbl.fin 5 := r2
  rcases r1 with r1 | r1 <;> rw [r1] at r2 <;> simp at r2

/-- C14, C15 non-vacuity: the concrete point meets all hypotheses. -/
example : ∃ p' mb2, ExtFinite idealExt ∧ SvdContract idealExt ∧ FiniteInput (demo 900 1000) ∧
    validate idealExt (demo 900 1000) = (.ok (), p') ∧ p'.MSb.x1 = .fin mb2 ∧ (1 + 1 / 10 ^ 8 : ℝ) ≤ mb2 := by
  obtain ⟨p', h⟩ := demo_ok (b1 := 900) (b2 := 1000) (by norm_num) (by norm_num) ⟨.nan, .nan⟩
  have h : validate idealExt (demo 900 1000) = (.ok (), p') := h
  refine ⟨p', 1000, idealExt_finite, idealExt_svd, demo_finite (by norm_num) (by norm_num), h, ?_, by norm_num⟩
  obtain ⟨m, _, _, hr, -, -, -, -, hk, hk'⟩ := C13_sbottoms_kept idealExt _ _ h ⟨rfl, rfl, Or.inl ⟨rfl, rfl⟩⟩
  rcases hr with ⟨-, rfl, -⟩ | ⟨hc, -⟩
  · cases hb : lt (FOps.abs ((demo 900 1000).MSb.x0 - (demo 900 1000).MSb.x1)) eps8
    · rw [hk hb]; rfl
    · rw [hk' hb]; rfl
  · exfalso
    have hc : lt (Dbl.fin 1000) (Dbl.fin 900) = true := hc
    simp at hc; linarith

/-- C15 (finding): without the lower bound on the sbottom mass the claim is false.  For two sbottoms of 0.5 GeV the
second validation moves the lighter sbottom mass again. -/
theorem C15_revalidation_fails_for_light_sbottoms :
    ∃ p p' : Params Dbl, FiniteInput p ∧ validate idealExt p = (.ok (), p') ∧ validate idealExt p' ≠ (.ok (), p') := by
  obtain ⟨p', h⟩ := demo_ok (b1 := 1/2) (b2 := 1/2) (by norm_num) (by norm_num) ⟨.nan, .nan⟩
  have h : validate idealExt (demo (1/2) (1/2)) = (.ok (), p') := h
  have hfin := demo_finite (b1 := 1/2) (b2 := 1/2) (by norm_num) (by norm_num)
  refine ⟨demo (1/2) (1/2), p', hfin, h, ?_⟩
  have hMSb : p'.MSb = ⟨.fin (1 / 2 / (1 + 1 / 10 ^ 8)), .fin (1/2)⟩ ∧ IsFin p'.theta_b ∧ IsFin p'.s2b := by
    obtain ⟨-, -, -, -, -, -, f1, -, -, f2, -⟩ := C14_validated_complete_and_ordered idealExt_finite hfin h
    refine ⟨?_, f1, f2⟩
    obtain ⟨m, _, _, hr, -, -, -, -, -, hk⟩ := C13_sbottoms_kept idealExt _ _ h ⟨rfl, rfl, Or.inl ⟨rfl, rfl⟩⟩
    rcases hr with ⟨-, rfl, -⟩ | ⟨hc, -⟩
    · have := hk (by
        show lt (FOps.abs (Dbl.fin (1/2) - Dbl.fin (1/2))) eps8 = true
        rw [Dbl.fin_sub, Dbl.fin_abs, show (eps8 : Dbl) = degEps from rfl, degEps_fin, Dbl.fin_lt]
        norm_num)
      rw [this]
      show (⟨Dbl.fin (1/2) / (1 + degEps), Dbl.fin (1/2)⟩ : Vec2 Dbl) = _
      rw [div_one_add]
    · exfalso
      have hc : lt (Dbl.fin (1/2)) (Dbl.fin (1/2)) = true := hc
      simp at hc
  obtain ⟨e, f1, f2⟩ := hMSb
  intro h2
  obtain ⟨m, _, _, hr, -, -, -, -, -, hk⟩ := C13_sbottoms_kept idealExt _ _ h2
    ⟨by rw [e]; rfl, by rw [e]; rfl, Or.inl ⟨f1.notnan, f2.notnan⟩⟩
  rcases hr with ⟨-, rfl, -⟩ | ⟨hc, -⟩
  · have hlt : lt (FOps.abs (p'.MSb.x0 - p'.MSb.x1)) eps8 = true := by
      rw [e, Dbl.fin_sub, Dbl.fin_abs, show (eps8 : Dbl) = degEps from rfl, degEps_fin, Dbl.fin_lt]
      rw [decide_eq_true_eq, abs_lt]; constructor <;> norm_num
    have := hk hlt
    have h0 : p'.MSb.x0 = p'.MSb.x0 / (1 + degEps) := congrArg Vec2.x0 this
    rw [e, div_one_add] at h0
    have := Dbl.fin.inj h0
    norm_num at this
  · rw [e] at hc
    simp only [Dbl.fin_lt, decide_eq_true_eq] at hc
    norm_num at hc

/-! ### C16 at the level of `validate` -/

/-- C16: if a validated point did not come with complete stop input, the reported stop masses, angle and `sin 2θ` are
those of the stop mass matrix of the completed point: rotating by the reported angle diagonalises it.  Only if the two
masses agree within `1e-8` the lighter one is moved (relative `1e-8`). -/
theorem C16_validated_stops {X : Ext Dbl} (hX : ExtFinite X) (hC : ∀ a b d, SolverContract X a b d) {p p' : Params Dbl}
    (hp : FiniteInput p) (h : validate X p = (.ok (), p')) (hg : ¬ SfGiven p.MSt p.theta_t p.s2t) :
    ∃ a b d m1 m2 θ : ℝ, stopMatrix (prep X p) = ⟨.fin a, .fin b, .fin b, .fin d⟩ ∧
      Diagonalises m1 m2 θ a b d ∧ 0 ≤ m1 ∧ m1 ≤ m2 ∧ p'.theta_t = .fin θ ∧ p'.s2t = .fin (Real.sin (2 * θ)) ∧
      p'.MSt.x1 = .fin m2 ∧
      (p'.MSt.x0 = .fin m1 ∨ (|m1 - m2| < 1 / 10 ^ 8 ∧ p'.MSt.x0 = .fin (m2 / (1 + 1 / 10 ^ 8)))) := by
  obtain ⟨-, -, -, h4, -, h6, st, sb, stau, e1, -, -, rfl⟩ := validate_ok h
  obtain ⟨⟨a, b, d, hM⟩, -, -⟩ := matrices_fin hX hp (isPos_of hp.vu h4) (isPos_of hp.vd h6)
  unfold fillSf at e1
  have hi : (prep X p).stops.incomplete = true := (incomplete_iff _ _ _).2 hg
  rw [if_pos hi, hM] at e1
  rcases calc_core (hC a b d) with ⟨-, e, he⟩ | ⟨-, m1, m2, θ, he, h0, h12, -, hD⟩
  · rw [he] at e1; cases e1
  · rw [he] at e1
    have hst := (Except.ok.inj e1).symm
    have hs : sort_ev st = st := sort_id (by rw [hst]) h12
    refine ⟨a, b, d, m1, m2, θ, hM, hD, h0, h12, ?_⟩
    rw [final_eq]
    refine ⟨?_, ?_, ?_, ?_⟩
    · show (sort_ev st).theta = _
      rw [hs, hst]
    · show (sort_ev st).s2 = _
      rw [hs, hst]
    · show (shiftStops (sort_ev st).ev).x1 = _
      rw [hs, hst]; unfold shiftStops; split_ifs <;> rfl
    · show (shiftStops (sort_ev st).ev).x0 = _ ∨ (_ ∧ (shiftStops (sort_ev st).ev).x0 = _)
      rw [hs, hst]; unfold shiftStops
      rw [div_one_add, degEps_fin, Dbl.fin_sub, Dbl.fin_abs, Dbl.fin_lt]
      by_cases hlt : |m1 - m2| < 1 / 10 ^ 8
      · right; rw [if_pos (by simpa using hlt)]; exact ⟨hlt, rfl⟩
      · left; rw [if_neg (by simpa using hlt)]

/-- C16 non-vacuity at the level of `validate`: the stops of the concrete point are computed. -/
example : ∃ p', ExtFinite idealExt ∧ (∀ a b d, SolverContract idealExt a b d) ∧ FiniteInput (demo 900 1000) ∧
    validate idealExt (demo 900 1000) = (.ok (), p') ∧
    ¬ SfGiven (demo 900 1000).MSt (demo 900 1000).theta_t (demo 900 1000).s2t := by
  obtain ⟨p', h⟩ := demo_ok (b1 := 900) (b2 := 1000) (by norm_num) (by norm_num) ⟨.nan, .nan⟩
  exact ⟨p', idealExt_finite, idealExt_solver, demo_finite (by norm_num) (by norm_num), h, fun hg => by cases hg.1⟩

end Himalaya
