import Verif.Iface.Diag

/-!
# C16, C17: computed sfermion masses and mixing angles
-/

set_option linter.unusedSimpArgs false

namespace Himalaya
open Real
open scoped Himalaya Himalaya.FOps

/-! ### Existence of a solver satisfying the contract -/

theorem rot_exists (a b d : ℝ) : ∃ α l0 l1 : ℝ, |α| ≤ π / 4 ∧
    a = cos α ^ 2 * l0 + sin α ^ 2 * l1 ∧ b = cos α * sin α * (l0 - l1) ∧
    d = sin α ^ 2 * l0 + cos α ^ 2 * l1 ∧ (a = d → l1 ≤ l0) := by
  by_cases had : a = d
  · subst had
    have hs : sin (π / 4) ^ 2 = 1 / 2 := by
      rw [sin_pi_div_four, div_pow, sq_sqrt (by norm_num)]; norm_num
    have hc : cos (π / 4) ^ 2 = 1 / 2 := by
      rw [cos_pi_div_four, div_pow, sq_sqrt (by norm_num)]; norm_num
    have hcs : cos (π / 4) * sin (π / 4) = 1 / 2 := by
      rw [cos_pi_div_four, sin_pi_div_four, ← sq, div_pow, sq_sqrt (by norm_num)]; norm_num
    have hp : |π / 4| ≤ π / 4 := by rw [abs_of_pos (by positivity)]
    by_cases hb : 0 ≤ b
    · refine ⟨π / 4, a + b, a - b, hp, ?_, ?_, ?_, fun _ => by linarith⟩
      · rw [hs, hc]; ring
      · rw [hcs]; ring
      · rw [hs, hc]; ring
    · push Not at hb
      refine ⟨-(π / 4), a - b, a + b, by rwa [abs_neg], ?_, ?_, ?_, fun _ => by linarith⟩
      · rw [cos_neg, sin_neg, neg_sq, hs, hc]; ring
      · rw [cos_neg, sin_neg, mul_neg, hcs]; ring
      · rw [cos_neg, sin_neg, neg_sq, hs, hc]; ring
  · have hne : a - d ≠ 0 := sub_ne_zero.2 had
    set β := arctan (2 * b / (a - d)) with hβ
    have h1 := arctan_lt_pi_div_two (2 * b / (a - d))
    have h2 := neg_pi_div_two_lt_arctan (2 * b / (a - d))
    have hcpos : 0 < cos β := cos_arctan_pos _
    have ht : tan β = 2 * b / (a - d) := tan_arctan _
    have hsin : sin β = tan β * cos β := by rw [tan_mul_cos hcpos.ne']
    have e2 : β = 2 * (β / 2) := by ring
    have hc2 : cos β = cos (β / 2) ^ 2 - sin (β / 2) ^ 2 := by rw [← cos_two_mul', ← e2]
    have hs2 : sin β = 2 * sin (β / 2) * cos (β / 2) := by rw [← sin_two_mul, ← e2]
    have hone := cos_sq_add_sin_sq (β / 2)
    have hD : (a - d) / cos β * cos β = a - d := by field_simp
    refine ⟨β / 2, ((a + d) + (a - d) / cos β) / 2, ((a + d) - (a - d) / cos β) / 2, ?_, ?_, ?_, ?_,
      fun h => absurd h had⟩
    · rw [abs_le]; constructor <;> linarith
    · rw [hc2] at hD ⊢
      linear_combination (-(a + d) / 2) * hone - hD / 2
    · have hb : 2 * b = (a - d) / cos β * sin β := by rw [hsin, ht]; field_simp
      rw [hs2] at hb
      linear_combination hb / 2
    · rw [hc2] at hD ⊢
      linear_combination (-(a + d) / 2) * hone + hD / 2

/-- the answer a solver satisfying the contract gives -/
theorem solver_exists (a b d : ℝ) : ∃ r : Vec2 Dbl × Mat2 Dbl, ∀ X : Ext Dbl,
    X.eigVal ⟨.fin a, .fin b, .fin b, .fin d⟩ = r.1 → X.eigVec ⟨.fin a, .fin b, .fin b, .fin d⟩ = r.2 →
    SolverContract X a b d := by
  obtain ⟨α, l0, l1, hα, ha, hb, hd, h⟩ := rot_exists a b d
  by_cases hl : l0 ≤ l1
  · exact ⟨(_, _), fun X h1 h2 => ⟨α, l0, l1, 1, hα, Or.inl rfl, ha, hb, hd, h, Or.inl ⟨hl, h1, h2⟩⟩⟩
  · push Not at hl
    exact ⟨(_, _), fun X h1 h2 => ⟨α, l0, l1, 1, hα, Or.inl rfl, ha, hb, hd, h, Or.inr ⟨hl, h1, h2⟩⟩⟩

/-- finite part -/
noncomputable def Dbl.toReal : Dbl → ℝ
  | .fin x => x
  | _ => 0

/-- ascending non-negative diagonal matrix (the form in which the Yukawa matrices are left by `validate`) -/
def AscDiag (M : Mat3 Dbl) : Prop := ∃ a b c : ℝ, 0 ≤ a ∧ a ≤ b ∧ b ≤ c ∧
  M = fun i j => if i = j then (if i = 0 then .fin a else if i = 1 then .fin b else .fin c) else .fin 0

open Classical in
/-- A numerical library satisfying all the contracts assumed below (for non-vacuity only). -/
noncomputable def idealExt : Ext Dbl where
  svd M i := if AscDiag M then M (2 - i) (2 - i) else .fin 0
  eigVal M := (Classical.choose (solver_exists M.m00.toReal M.m01.toReal M.m11.toReal)).1
  eigVec M := (Classical.choose (solver_exists M.m00.toReal M.m01.toReal M.m11.toReal)).2

theorem idealExt_solver (a b d : ℝ) : SolverContract idealExt a b d :=
  Classical.choose_spec (solver_exists a b d) idealExt rfl rfl

/-! ### C16 -/

/-- C16: For every symmetric 2x2 mass matrix `((a,b),(b,d))` the computation throws iff the matrix has a negative
eigenvalue; otherwise it returns finite masses `0 ≤ m1 ≤ m2` and an angle `θ` with `s2 = sin 2θ`, such that rotating
`diag(m1², m2²)` by `θ` gives the mass matrix back.  The angle lies between -45 and 135 degrees. -/
theorem C16_masses_and_mixing {X : Ext Dbl} {a b d : ℝ} (hX : SolverContract X a b d) :
    (HasNegEigenvalue a b d → ∃ e, calculate_MSf_s2f X ⟨.fin a, .fin b, .fin b, .fin d⟩ = .error e) ∧
    (¬ HasNegEigenvalue a b d → ∃ m1 m2 θ : ℝ,
      calculate_MSf_s2f X ⟨.fin a, .fin b, .fin b, .fin d⟩ =
        .ok { ev := ⟨.fin m1, .fin m2⟩, theta := .fin θ, s2 := .fin (sin (2 * θ)) } ∧
      0 ≤ m1 ∧ m1 ≤ m2 ∧ Diagonalises m1 m2 θ a b d ∧ (-(π / 4) ≤ θ ∧ θ ≤ 3 * π / 4) ∧
      m1 ^ 2 + m2 ^ 2 = a + d ∧ m1 ^ 2 * m2 ^ 2 = a * d - b ^ 2) := by
  rcases calc_core hX with ⟨h, e⟩ | ⟨h, m1, m2, θ, h1, h2, h3, hr, h4⟩
  · exact ⟨fun _ => e, fun h' => absurd h h'⟩
  · refine ⟨fun h' => absurd h' h, fun _ => ⟨m1, m2, θ, h1, h2, h3, h4, hr, ?_, ?_⟩⟩
    · rw [← h4.1, ← h4.2.2]; linear_combination (-(m1 ^ 2 + m2 ^ 2)) * cos_sq_add_sin_sq θ
    · rw [← h4.1, ← h4.2.1, ← h4.2.2]
      have := cos_sq_add_sin_sq θ
      linear_combination (-(m1 ^ 2 * m2 ^ 2 * (cos θ ^ 2 + sin θ ^ 2 + 1))) * this

/-- the hypothesis of C16 can be met for every matrix, tachyonic or not -/
example : SolverContract idealExt 4 1 4 ∧ SolverContract idealExt 1 2 1 ∧
    ¬ HasNegEigenvalue 4 1 4 ∧ HasNegEigenvalue 1 2 1 := by
  refine ⟨idealExt_solver _ _ _, idealExt_solver _ _ _, ?_, ⟨-1, 1, -1, by norm_num, by norm_num, by norm_num,
    by norm_num⟩⟩
  rintro ⟨l, x, y, hl, hxy, e1, e2⟩
  have h1 : (4 - l) * x = -y := by linarith
  have h2 : (4 - l) * y = -x := by linarith
  have hx : ((4 - l) ^ 2 - 1) * x = 0 := by linear_combination (4 - l) * h1 - h2
  have hy : ((4 - l) ^ 2 - 1) * y = 0 := by linear_combination (4 - l) * h2 - h1
  have hne : (4 - l) ^ 2 - 1 ≠ 0 := by nlinarith
  rcases hxy with h | h
  · exact (mul_ne_zero hne h) hx
  · exact (mul_ne_zero hne h) hy

/-! ### The mass matrices: textbook form -/

/-- textbook stop mass matrix: soft masses, D-terms with `cos 2β` and the electroweak mixing angle, off-diagonal
`m_t (A_t - μ cot β)`; returns the entries (LL, LR, RR) -/
noncomputable def stopMassMatrix (mQ2 mU2 mt At μ β sw2 mZ : ℝ) : ℝ × ℝ × ℝ :=
  (mQ2 + mt ^ 2 + (1 / 2 - 2 / 3 * sw2) * mZ ^ 2 * cos (2 * β), mt * (At - μ * (1 / tan β)),
   mU2 + mt ^ 2 + 2 / 3 * sw2 * mZ ^ 2 * cos (2 * β))

/-- textbook sbottom mass matrix (LL, LR, RR) -/
noncomputable def sbottomMassMatrix (mQ2 mD2 mb Ab μ β sw2 mZ : ℝ) : ℝ × ℝ × ℝ :=
  (mQ2 + mb ^ 2 + (-1 / 2 + 1 / 3 * sw2) * mZ ^ 2 * cos (2 * β), mb * (Ab - μ * tan β),
   mD2 + mb ^ 2 - 1 / 3 * sw2 * mZ ^ 2 * cos (2 * β))

/-- textbook stau mass matrix (LL, LR, RR) -/
noncomputable def stauMassMatrix (mL2 mE2 mtau Atau μ β sw2 mZ : ℝ) : ℝ × ℝ × ℝ :=
  (mL2 + mtau ^ 2 + (-1 / 2 + sw2) * mZ ^ 2 * cos (2 * β), mtau * (Atau - μ * tan β),
   mE2 + mtau ^ 2 - sw2 * mZ ^ 2 * cos (2 * β))

/-- a symmetric matrix of finite numbers -/
def finMat (t : ℝ × ℝ × ℝ) : Mat2 Dbl := ⟨.fin t.1, .fin t.2.1, .fin t.2.1, .fin t.2.2⟩

theorem cos_two_arctan (x : ℝ) : cos (2 * arctan x) = (1 - x ^ 2) / (1 + x ^ 2) := by
  rw [cos_two_mul, cos_sq_arctan]
  field_simp; ring

theorem cos2beta_fin {vu vd : ℝ} (hu : 0 < vu) (hd : 0 < vd) :
    calc_cos2beta (.fin vu : Dbl) (.fin vd) = .fin (cos (2 * arctan (vu / vd))) := by
  have : vu * vu + vd * vd ≠ 0 := by positivity
  simp only [calc_cos2beta, calc_v2, pow2, Dbl.fin_mul, Dbl.fin_sub, Dbl.fin_add]
  rw [Dbl.fin_div _ _ this, cos_two_arctan]
  congr 1
  have := hd.ne'
  field_simp
  ring

theorem sw2_fin {mW mZ : ℝ} (hz : mZ ≠ 0) :
    calc_sw2 (.fin mW : Dbl) (.fin mZ) = .fin (1 - mW ^ 2 / mZ ^ 2) := by
  simp only [calc_sw2, calc_cw2, pow2]
  rw [Dbl.fin_div _ _ hz]
  simp only [Dbl.fin_mul, Dbl.fin_isFinite, if_true, Dbl.fin_ofNat, Dbl.fin_sub]
  congr 1
  field_simp
  push_cast; ring

/-- C16: the matrices that are diagonalised are the textbook DR' mass matrices, with `tan β = vu/vd` and
`sin² θ_W = 1 - MW²/MZ²`, for all finite parameters. -/
theorem C16_mass_matrices (p : Params Dbl) {vu vd mu MW MZ Mt Mb Mtau q u dd l e At Ab Atau : ℝ}
    (h1 : p.vu = .fin vu) (h2 : p.vd = .fin vd) (hu : 0 < vu) (hd : 0 < vd) (h3 : p.mu = .fin mu)
    (h4 : p.MW = .fin MW) (h5 : p.MZ = .fin MZ) (hz : MZ ≠ 0) (h6 : p.Mt = .fin Mt) (h7 : p.Mb = .fin Mb)
    (h8 : p.Mtau = .fin Mtau) (h9 : p.mq2 2 2 = .fin q) (h10 : p.mu2 2 2 = .fin u) (h11 : p.md2 2 2 = .fin dd)
    (h12 : p.ml2 2 2 = .fin l) (h13 : p.me2 2 2 = .fin e) (h14 : p.Au 2 2 = .fin At) (h15 : p.Ad 2 2 = .fin Ab)
    (h16 : p.Ae 2 2 = .fin Atau) :
    stopMatrix p = finMat (stopMassMatrix q u Mt At mu (arctan (vu / vd)) (1 - MW ^ 2 / MZ ^ 2) MZ) ∧
    sbottomMatrix p = finMat (sbottomMassMatrix q dd Mb Ab mu (arctan (vu / vd)) (1 - MW ^ 2 / MZ ^ 2) MZ) ∧
    stauMatrix p = finMat (stauMassMatrix l e Mtau Atau mu (arctan (vu / vd)) (1 - MW ^ 2 / MZ ^ 2) MZ) := by
  have ht : vu / vd ≠ 0 := by positivity
  refine ⟨?_, ?_, ?_⟩
  · simp only [stopMatrix, finMat, stopMassMatrix, h1, h2, h3, h4, h5, h6, h9, h10, h14, cos2beta_fin hu hd, sw2_fin hz,
      tan_arctan, pow2]
    rw [Dbl.fin_div _ _ hd.ne']
    simp only [Dbl.fin_mul, Dbl.fin_ofNat, Dbl.fin_sub, Dbl.fin_add, Dbl.fin_lit]
    rw [Dbl.fin_div _ _ ht, Dbl.fin_div _ _ (by norm_num)]
    simp only [Dbl.fin_mul, Dbl.fin_ofNat, Dbl.fin_sub, Dbl.fin_add, Dbl.fin_lit, Mat2.mk.injEq, Dbl.fin.injEq]
    refine ⟨?_, ?_, ?_, ?_⟩ <;> push_cast <;> ring
  · simp only [sbottomMatrix, finMat, sbottomMassMatrix, h1, h2, h3, h4, h5, h7, h9, h11, h15, cos2beta_fin hu hd,
      sw2_fin hz, tan_arctan, pow2]
    rw [Dbl.fin_div _ _ hd.ne']
    simp only [Dbl.fin_mul, Dbl.fin_ofNat, Dbl.fin_sub, Dbl.fin_add, Dbl.fin_lit]
    rw [Dbl.fin_div _ _ (by norm_num)]
    simp only [Dbl.fin_mul, Dbl.fin_ofNat, Dbl.fin_sub, Dbl.fin_add, Dbl.fin_lit, Mat2.mk.injEq, Dbl.fin.injEq]
    refine ⟨?_, ?_, ?_, ?_⟩ <;> push_cast <;> ring
  · simp only [stauMatrix, finMat, stauMassMatrix, h1, h2, h3, h4, h5, h8, h12, h13, h16, cos2beta_fin hu hd,
      sw2_fin hz, tan_arctan, pow2]
    rw [Dbl.fin_div _ _ hd.ne']
    simp only [Dbl.fin_mul, Dbl.fin_ofNat, Dbl.fin_sub, Dbl.fin_add, Dbl.fin_lit]
    simp only [Mat2.mk.injEq, Dbl.fin.injEq]
    refine ⟨?_, ?_, ?_, ?_⟩ <;> push_cast <;> ring

/-! ### C17 -/

/-- C17: the reordering step of `validate` gives `m1 ≤ m2` and keeps the mass matrix described by masses and angle
as well as the relation `s2 = sin 2θ`, for all masses and angles. -/
theorem C17_sort_preserves (m1 m2 θ s2 a b d : ℝ) (h : Diagonalises m1 m2 θ a b d) (hs : s2 = sin (2 * θ)) :
    ∃ n1 n2 η t2 : ℝ, sort_ev (F := Dbl) ⟨⟨.fin m1, .fin m2⟩, .fin θ, .fin s2⟩ = ⟨⟨.fin n1, .fin n2⟩, .fin η, .fin t2⟩ ∧
      n1 ≤ n2 ∧ Diagonalises n1 n2 η a b d ∧ t2 = sin (2 * η) ∧ (n1 = m1 ∧ n2 = m2 ∨ n1 = m2 ∧ n2 = m1) := by
  unfold sort_ev
  by_cases hlt : m2 < m1
  · refine ⟨m2, m1, θ + π / 2, -s2, ?_, hlt.le, ?_, ?_, Or.inr ⟨rfl, rfl⟩⟩
    · rw [if_pos (by simpa using hlt)]
      simp [cPi, Const.value]
      ring
    · obtain ⟨h1, h2, h3⟩ := h
      refine ⟨?_, ?_, ?_⟩
      · rw [cos_add_pi_div_two, sin_add_pi_div_two, ← h1]; ring
      · rw [cos_add_pi_div_two, sin_add_pi_div_two, ← h2]; ring
      · rw [cos_add_pi_div_two, sin_add_pi_div_two, ← h3]; ring
    · rw [show 2 * (θ + π / 2) = 2 * θ + π by ring, sin_add_pi, hs]
  · refine ⟨m1, m2, θ, s2, ?_, not_lt.1 hlt, h, hs, Or.inl ⟨rfl, rfl⟩⟩
    rw [if_neg (by simpa using hlt)]

example : Diagonalises 3 2 0 9 0 4 ∧ (0:ℝ) = sin (2 * 0) := by
  refine ⟨⟨?_, ?_, ?_⟩, ?_⟩ <;> norm_num

end Himalaya
