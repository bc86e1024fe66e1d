import Verif.Iface.Props2

/-!
# C14, C15: validated points are complete and stable; a concrete point
-/

set_option linter.unusedSimpArgs false

namespace Himalaya
open FOps
open scoped Himalaya

/-! ### finiteness helpers -/

theorem IsFin.add {a b : Dbl} : IsFin a → IsFin b → IsFin (a + b) := by
  rintro ⟨x, rfl⟩ ⟨y, rfl⟩; exact ⟨_, Dbl.fin_add x y⟩
theorem IsFin.sub {a b : Dbl} : IsFin a → IsFin b → IsFin (a - b) := by
  rintro ⟨x, rfl⟩ ⟨y, rfl⟩; exact ⟨_, Dbl.fin_sub x y⟩
theorem IsFin.mul {a b : Dbl} : IsFin a → IsFin b → IsFin (a * b) := by
  rintro ⟨x, rfl⟩ ⟨y, rfl⟩; exact ⟨_, Dbl.fin_mul x y⟩
theorem IsFin.neg {a : Dbl} : IsFin a → IsFin (-a) := by
  rintro ⟨x, rfl⟩; exact ⟨_, Dbl.fin_neg x⟩
theorem IsFin.abs {a : Dbl} : IsFin a → IsFin (FOps.abs a) := by
  rintro ⟨x, rfl⟩; exact ⟨_, Dbl.fin_abs x⟩
theorem IsFin.pow2 {a : Dbl} (h : IsFin a) : IsFin (pow2 a) := h.mul h
theorem IsFin.lit (q : ℚ) : IsFin (FOps.lit q : Dbl) := ⟨_, rfl⟩
theorem IsFin.nat (n : ℕ) : IsFin (@OfNat.ofNat Dbl n (FOps.instOfNat n)) := ⟨_, Dbl.fin_ofNat n⟩
theorem IsFin.const (c : Const) : IsFin (FOps.const c : Dbl) := ⟨_, rfl⟩
theorem IsFin.divNum {a : Dbl} (n : ℕ) (hn : n ≠ 0) : IsFin a → IsFin (a / @OfNat.ofNat Dbl n (FOps.instOfNat n)) := by
  rintro ⟨x, rfl⟩
  rw [Dbl.fin_ofNat]
  exact ⟨_, Dbl.fin_div _ _ (by exact_mod_cast hn)⟩
theorem IsFin.notnan {a : Dbl} : IsFin a → isNaN a = false := by rintro ⟨x, rfl⟩; rfl
theorem OptFin.fin {a : Dbl} (h : OptFin a) (hn : isNaN a = false) : IsFin a := by
  rcases h with rfl | h
  · cases hn
  · exact h
theorem IsFin.sw2 (a b : Dbl) : IsFin (calc_sw2 a b) := by
  unfold calc_sw2 calc_cw2
  refine IsFin.sub (IsFin.nat 1) ?_
  generalize Himalaya.pow2 (a / b) = c
  cases c <;> simp [FOps.isFinite, Dbl.isFiniteb] <;> exact ⟨_, rfl⟩
theorem IsFin.ite {a b : Dbl} {c : Prop} [Decidable c] (ha : IsFin a) (hb : IsFin b) : IsFin (if c then a else b) := by
  split_ifs <;> assumption
theorem IsFin.signMul {a b : Dbl} (h : IsFin b) : IsFin (signMul a b) := by
  unfold Himalaya.signMul; exact IsFin.ite h h.neg

/-- a sfermion sector with finite non-negative masses -/
structure SfOK (s : Sf Dbl) : Prop where
  m : ∃ x y : ℝ, 0 ≤ x ∧ 0 ≤ y ∧ s.ev = ⟨.fin x, .fin y⟩
  theta : IsFin s.theta
  s2 : IsFin s.s2

theorem SfOK.complete {s : Sf Dbl} (h : SfOK s) : s.incomplete = false := by
  obtain ⟨⟨x, y, -, -, e⟩, h1, h2⟩ := h
  unfold Sf.incomplete
  rw [e, h1.notnan, h2.notnan]; rfl

theorem SfOK.sort {s : Sf Dbl} (h : SfOK s) : SfOK (sort_ev s) ∧
    ∃ x y : ℝ, 0 ≤ x ∧ x ≤ y ∧ (sort_ev s).ev = ⟨.fin x, .fin y⟩ := by
  obtain ⟨⟨x, y, hx, hy, e⟩, h1, h2⟩ := h
  unfold sort_ev
  rw [e]
  by_cases hlt : y < x
  · rw [if_pos (by simpa using hlt)]
    exact ⟨⟨⟨y, x, hy, hx, rfl⟩, h1.add ((IsFin.lit _).mul (IsFin.const _)), h2.mul (IsFin.neg (IsFin.nat 1))⟩,
      y, x, hy, hlt.le, rfl⟩
  · rw [if_neg (by simpa using hlt)]
    exact ⟨⟨⟨x, y, hx, hy, e⟩, h1, h2⟩, x, y, hx, not_lt.1 hlt, e⟩

theorem calc_ok {X : Ext Dbl} (hX : ExtFinite X) {M : Mat2 Dbl} (hM : ∃ a b d : ℝ, M = ⟨.fin a, .fin b, .fin b, .fin d⟩)
    {s : Sf Dbl} (h : calculate_MSf_s2f X M = .ok s) : SfOK s := by
  obtain ⟨a, b, d, rfl⟩ := hM
  obtain ⟨l0, l1, v00, v01, v10, v11, hval, hvec, hv0, hv1⟩ := hX.eig a b d
  have base : ∀ (x y t : ℝ) (z : Dbl), SfOK (⟨⟨Dbl.fin (Real.sqrt x), Dbl.fin (Real.sqrt y)⟩,
      signMul z (FOps.abs (Dbl.fin t)), (0 : Dbl)⟩ : Sf Dbl) := fun x y t z =>
    ⟨⟨_, _, Real.sqrt_nonneg _, Real.sqrt_nonneg _, rfl⟩, IsFin.signMul ⟨_, Dbl.fin_abs _⟩, IsFin.nat 0⟩
  have fin' : ∀ s : Sf Dbl, SfOK s → SfOK ⟨(sort_ev s).ev, (sort_ev s).theta, sin (2 * (sort_ev s).theta)⟩ := by
    intro s hs
    obtain ⟨hs, -⟩ := hs.sort
    refine ⟨hs.m, hs.theta, ?_⟩
    obtain ⟨t, ht⟩ := hs.theta
    simp only [ht, Dbl.fin_ofNat, Dbl.fin_mul, Dbl.fin_sin]
    exact ⟨_, rfl⟩
  unfold calculate_MSf_s2f at h
  simp only [hval, hvec] at h
  by_cases hneg : lt (if lt (Dbl.fin l1) (Dbl.fin l0) = true then Dbl.fin l1 else Dbl.fin l0) (0 : Dbl) = true
  · rw [if_pos hneg] at h; cases h
  · rw [if_neg hneg] at h
    have hl : 0 ≤ l0 ∧ 0 ≤ l1 := by
      have hk := mt (lt_mn (c := (0 : Dbl)) (a := Dbl.fin l0) (b := Dbl.fin l1) rfl rfl).2 hneg
      simp only [Dbl.fin_ofNat, Dbl.fin_lt, decide_eq_true_eq] at hk
      push Not at hk
      push_cast at hk
      exact hk
    rw [Dbl.fin_sqrt _ hl.1, Dbl.fin_sqrt _ hl.2, Dbl.fin_abs, acos_fin (by rw [_root_.abs_abs]; exact hv0),
      Dbl.fin_abs, acos_fin (by rw [_root_.abs_abs]; exact hv1)] at h
    by_cases hs : sameSign (Dbl.fin v00) (Dbl.fin v11) = true
    · simp only [hs, if_true] at h
      rw [← Except.ok.inj h]
      exact fin' _ (base _ _ _ _)
    · simp only [hs] at h
      rw [← Except.ok.inj h]
      exact fin' _ (base _ _ _ _)

theorem OptNonneg.fin {a : Dbl} (h : OptNonneg a) (hn : isNaN a = false) : ∃ x : ℝ, 0 ≤ x ∧ a = .fin x := by
  rcases h with rfl | h
  · cases hn
  · exact h

theorem calc_theta_fin {t s : Dbl} (ht : OptFin t) (hs : OptFin s)
    (h1 : isNaN (calc_theta t s).1 = false) (h2 : isNaN (calc_theta t s).2 = false) :
    IsFin (calc_theta t s).1 ∧ IsFin (calc_theta t s).2 := by
  rcases ht with rfl | ⟨x, rfl⟩ <;> rcases hs with rfl | ⟨y, rfl⟩
  · simp [calc_theta] at h1
  · simp only [calc_theta, Dbl.nan_isNaN, Dbl.fin_isNaN, Bool.not_true, Bool.false_and, Bool.false_eq_true, if_false,
      Bool.not_false, Bool.and_self, if_true] at h1 ⊢
    refine ⟨?_, ⟨_, rfl⟩⟩
    have e : (FOps.asin (Dbl.fin y)) = Dbl.onFin (fun x => -1 ≤ x ∧ x ≤ 1) Real.arcsin (Dbl.fin y) := rfl
    rw [e] at h1 ⊢
    unfold Dbl.onFin at h1 ⊢
    by_cases hy : -1 ≤ y ∧ y ≤ 1
    · simp only [hy] at h1 ⊢; exact ⟨_, Dbl.fin_mul _ _⟩
    · simp only [hy] at h1
      cases h1
  · simp [calc_theta]
    exact ⟨⟨_, rfl⟩, _, rfl⟩
  · simp [calc_theta]
    exact ⟨⟨_, rfl⟩, _, rfl⟩

theorem fillSf_ok {X : Ext Dbl} (hX : ExtFinite X) {m : Vec2 Dbl} {t s2 : Dbl} {M : Mat2 Dbl} {s : Sf Dbl}
    (hM : ∃ a b d : ℝ, M = ⟨.fin a, .fin b, .fin b, .fin d⟩)
    (hm : OptNonneg m.x0 ∧ OptNonneg m.x1) (ht : OptFin t) (hs : OptFin s2)
    (h : fillSf X ⟨m, (calc_theta t s2).1, (calc_theta t s2).2⟩ M = .ok s) : SfOK s := by
  unfold fillSf at h
  split_ifs at h with hi
  · exact calc_ok hX hM h
  · rw [Except.ok.injEq] at h
    subst h
    simp only [Sf.incomplete, Bool.not_eq_true, Bool.or_eq_false_iff] at hi
    obtain ⟨⟨⟨h0, h1⟩, h2⟩, h3⟩ := hi
    obtain ⟨x, hx, e0⟩ := hm.1.fin h0
    obtain ⟨y, hy, e1⟩ := hm.2.fin h1
    have ha := calc_theta_fin ht hs h3 h2
    refine ⟨⟨x, y, hx, hy, ?_⟩, ha.1, ha.2⟩
    show m = _
    cases m; simp_all

/-- a finite positive number -/
def IsPos (a : Dbl) : Prop := ∃ x : ℝ, 0 < x ∧ a = .fin x

theorem isPos_of {a : Dbl} (h : IsFin a) (hle : le a 0 = false) : IsPos a := by
  obtain ⟨x, rfl⟩ := h
  rw [Dbl.fin_ofNat, Dbl.fin_le] at hle
  exact ⟨x, by simpa using hle, rfl⟩

theorem IsPos.isFin {a : Dbl} : IsPos a → IsFin a := fun ⟨x, _, h⟩ => ⟨x, h⟩
theorem IsFin.divPos {a b : Dbl} : IsFin a → IsPos b → IsFin (a / b) := by
  rintro ⟨x, rfl⟩ ⟨y, hy, rfl⟩; exact ⟨_, Dbl.fin_div _ _ hy.ne'⟩
theorem IsPos.div {a b : Dbl} : IsPos a → IsPos b → IsPos (a / b) := by
  rintro ⟨x, hx, rfl⟩ ⟨y, hy, rfl⟩; exact ⟨_, by positivity, Dbl.fin_div _ _ hy.ne'⟩
theorem IsPos.v2 {a b : Dbl} : IsPos a → IsPos b → IsPos (calc_v2 a b) := by
  rintro ⟨x, hx, rfl⟩ ⟨y, hy, rfl⟩; exact ⟨x * x + y * y, by positivity, rfl⟩
theorem cos2beta_isFin {a b : Dbl} (ha : IsPos a) (hb : IsPos b) : IsFin (calc_cos2beta a b) :=
  (hb.isFin.pow2.sub ha.isFin.pow2).divPos (ha.v2 hb)

theorem exists_mat {a b d : Dbl} (ha : IsFin a) (hb : IsFin b) (hd : IsFin d) :
    ∃ x y z : ℝ, (⟨a, b, b, d⟩ : Mat2 Dbl) = ⟨.fin x, .fin y, .fin y, .fin z⟩ := by
  obtain ⟨x, rfl⟩ := ha; obtain ⟨y, rfl⟩ := hb; obtain ⟨z, rfl⟩ := hd; exact ⟨x, y, z, rfl⟩

theorem sqrt_isFin {a : Dbl} : (∃ x : ℝ, 0 ≤ x ∧ a = .fin x) → IsFin (sqrt a) := by
  rintro ⟨x, hx, rfl⟩; exact ⟨_, Dbl.fin_sqrt x hx⟩

theorem smMasses_fin {X : Ext Dbl} (hX : ExtFinite X) {p : Params Dbl} (hp : FiniteInput p) (hu : IsPos p.vu)
    (hd : IsPos p.vd) : IsFin (prep X p).MW ∧ IsFin (prep X p).MZ ∧ IsFin (prep X p).Mt ∧ IsFin (prep X p).Mb ∧
    IsFin (prep X p).Mtau := by
  have hv2 := hu.v2 hd
  have hsv : IsFin (sqrt (calc_v2 p.vu p.vd)) := by
    obtain ⟨x, hx, e⟩ := hv2; exact sqrt_isFin ⟨x, hx.le, e⟩
  have hY : ∀ M : Mat3 Dbl, (∀ i j, IsFin (M i j)) → IsFin (h_svd X M 2 2) := by
    intro M hM; unfold h_svd; rw [if_pos rfl]; exact hX.svd M hM _
  have gen : ∀ a b : Dbl, OptFin a → IsFin b → IsFin (if isNaN a = true then b else a) := by
    intro a b ha hb
    by_cases h : isNaN a = true
    · rw [if_pos h]; exact hb
    · rw [if_neg h]; exact ha.fin (by simpa using h)
  refine ⟨gen _ _ hp.MW (((IsFin.lit _).mul hp.g2).mul hsv), gen _ _ hp.MZ ((IsFin.lit _).mul (sqrt_isFin ?_)),
    gen _ _ hp.Mt (((IsFin.const _).mul (hY _ hp.Yu)).mul hp.vu), gen _ _ hp.Mb (((IsFin.const _).mul (hY _ hp.Yd)).mul hp.vd),
    gen _ _ hp.Mtau (((IsFin.const _).mul (hY _ hp.Ye)).mul hp.vd)⟩
  obtain ⟨v, hv, e⟩ := hv2
  obtain ⟨g1, e1⟩ := hp.g1
  obtain ⟨g2, e2⟩ := hp.g2
  show ∃ x, 0 ≤ x ∧ (lit (6/10) * Himalaya.pow2 p.g1 + Himalaya.pow2 p.g2) * calc_v2 p.vu p.vd = _
  rw [e, e1, e2]
  refine ⟨(((6/10 : ℚ) : ℝ) * (g1 * g1) + g2 * g2) * v, ?_, rfl⟩
  push_cast
  have := mul_self_nonneg g1
  have := mul_self_nonneg g2
  positivity

theorem matrices_fin {X : Ext Dbl} (hX : ExtFinite X) {p : Params Dbl} (hp : FiniteInput p) (hu : IsPos p.vu)
    (hd : IsPos p.vd) :
    (∃ a b d : ℝ, stopMatrix (prep X p) = ⟨.fin a, .fin b, .fin b, .fin d⟩) ∧
    (∃ a b d : ℝ, sbottomMatrix (prep X p) = ⟨.fin a, .fin b, .fin b, .fin d⟩) ∧
    (∃ a b d : ℝ, stauMatrix (prep X p) = ⟨.fin a, .fin b, .fin b, .fin d⟩) := by
  obtain ⟨hW, hZ, ht, hb, htau⟩ := smMasses_fin hX hp hu hd
  have hc := cos2beta_isFin hu hd
  have hs := IsFin.sw2 (prep X p).MW (prep X p).MZ
  have hzc := hZ.pow2
  have htb := hu.div hd
  refine ⟨exists_mat ?_ ?_ ?_, exists_mat ?_ ?_ ?_, exists_mat ?_ ?_ ?_⟩
  · exact ((hp.mq2 2 2).add ht.pow2).add ((((IsFin.lit _).sub (((IsFin.nat 2).mul hs).divNum 3 (by norm_num))).mul hzc).mul hc)
  · exact ht.mul ((hp.Au 2 2).sub (hp.mu.divPos htb))
  · exact ((hp.mu2 2 2).add ht.pow2).add (((((IsFin.nat 2).mul hs).divNum 3 (by norm_num)).mul hzc).mul hc)
  · exact ((hp.mq2 2 2).add hb.pow2).sub ((((IsFin.lit _).sub (hs.divNum 3 (by norm_num))).mul hzc).mul hc)
  · exact hb.mul ((hp.Ad 2 2).sub (hp.mu.mul htb.isFin))
  · exact ((hp.md2 2 2).add hb.pow2).sub (((hs.divNum 3 (by norm_num)).mul hzc).mul hc)
  · exact ((hp.ml2 2 2).add htau.pow2).sub ((((IsFin.lit _).sub hs).mul hzc).mul hc)
  · exact htau.mul ((hp.Ae 2 2).sub (hp.mu.mul htb.isFin))
  · exact ((hp.me2 2 2).add htau.pow2).sub ((hs.mul hzc).mul hc)

/-! ### degeneracy shifts -/

theorem degEps_fin : (degEps : Dbl) = .fin (1 / 10 ^ 8) := by
  show (lit (1 / 10 ^ 8) : Dbl) = _
  rw [Dbl.fin_lit]; congr 1; push_cast; rfl

theorem div_one_add {x : ℝ} : (Dbl.fin x / (1 + degEps) : Dbl) = .fin (x / (1 + 1 / 10 ^ 8)) := by
  rw [degEps_fin, Dbl.fin_ofNat, Dbl.fin_add, Dbl.fin_div _ _ (by norm_num)]
  norm_num

theorem shiftStops_spec {x y : ℝ} (hx : 0 ≤ x) (hxy : x ≤ y) : ∃ x' : ℝ, 0 ≤ x' ∧ x' ≤ y ∧ (0 < y → x' < y) ∧
    shiftStops (F := Dbl) ⟨.fin x, .fin y⟩ = ⟨.fin x', .fin y⟩ ∧
    shiftStops (F := Dbl) ⟨.fin x', .fin y⟩ = ⟨.fin x', .fin y⟩ := by
  have hy : 0 ≤ y := le_trans hx hxy
  unfold shiftStops
  simp only [Dbl.fin_sub, Dbl.fin_abs, div_one_add]
  rw [degEps_fin]
  simp only [Dbl.fin_lt, decide_eq_true_eq]
  by_cases h : |x - y| < 1 / 10 ^ 8
  · rw [if_pos h]
    refine ⟨y / (1 + 1 / 10 ^ 8), by positivity, ?_, ?_, rfl, ?_⟩
    · rw [div_le_iff₀ (by norm_num)]; nlinarith
    · intro hy'; rw [div_lt_iff₀ (by norm_num)]; nlinarith
    · split_ifs <;> rfl
  · rw [if_neg h]
    refine ⟨x, hx, hxy, ?_, rfl, by rw [if_neg h]⟩
    intro _
    rcases hxy.lt_or_eq with h' | h'
    · exact h'
    · exfalso; apply h; rw [h']; simp

theorem shiftSb_spec {x y : ℝ} (hx : 0 ≤ x) (hxy : x ≤ y) : ∃ x' : ℝ, 0 ≤ x' ∧ x' ≤ y ∧ (0 < x → x' < y) ∧
    shiftSbottoms (F := Dbl) ⟨.fin x, .fin y⟩ = ⟨.fin x', .fin y⟩ ∧
    (1 + 1 / 10 ^ 8 ≤ y → shiftSbottoms (F := Dbl) ⟨.fin x', .fin y⟩ = ⟨.fin x', .fin y⟩) := by
  unfold shiftSbottoms
  simp only [Dbl.fin_sub, Dbl.fin_abs, div_one_add]
  rw [degEps_fin]
  simp only [Dbl.fin_lt, decide_eq_true_eq]
  by_cases h : |x - y| < 1 / 10 ^ 8
  · rw [if_pos h]
    have hle : x / (1 + 1 / 10 ^ 8) ≤ x := by rw [div_le_iff₀ (by norm_num)]; nlinarith
    refine ⟨x / (1 + 1 / 10 ^ 8), by positivity, by linarith, ?_, rfl, ?_⟩
    · intro hx'
      have : x / (1 + 1 / 10 ^ 8) < x := by rw [div_lt_iff₀ (by norm_num)]; nlinarith
      linarith
    · intro hy
      rw [if_neg]
      push Not
      have h1 : x / (1 + 1 / 10 ^ 8) ≤ y / (1 + 1 / 10 ^ 8) := by gcongr
      have h2 : y / (1 + 1 / 10 ^ 8) ≤ y - 1 / 10 ^ 8 := by
        rw [div_le_iff₀ (by norm_num)]; nlinarith
      rw [abs_of_nonpos (by linarith)]
      linarith
  · rw [if_neg h]
    refine ⟨x, hx, hxy, ?_, rfl, fun _ => by rw [if_neg h]⟩
    intro _
    rcases hxy.lt_or_eq with h' | h'
    · exact h'
    · exfalso; apply h; rw [h']; simp

/-- everything that is known about a validated finite point -/
theorem validated_fin {X : Ext Dbl} (hX : ExtFinite X) {p p' : Params Dbl} (hp : FiniteInput p)
    (h : validate X p = (.ok (), p')) :
    ∃ st sb stau : Sf Dbl, SfOK st ∧ SfOK sb ∧ SfOK stau ∧
      p' = sortAndShift ((((prep X p).withStops st).withSbottoms sb).withStaus stau) ∧ IsPos p.vu ∧ IsPos p.vd := by
  obtain ⟨-, -, h3, h4, h5, h6, st, sb, stau, e1, e2, e3, e4⟩ := validate_ok h
  have hu := isPos_of hp.vu h4
  have hd := isPos_of hp.vd h6
  obtain ⟨m1, m2, m3⟩ := matrices_fin hX hp hu hd
  obtain ⟨a1, a2, a3, a4, a5, a6⟩ := hp.angles
  exact ⟨st, sb, stau, fillSf_ok hX m1 hp.MSt a1 a2 e1, fillSf_ok hX m2 hp.MSb a3 a4 e2, fillSf_ok hX m3 hp.MStau a5 a6 e3,
    e4, hu, hd⟩

/-- C14: a point accepted by `validate` has finite SM masses, sfermion masses and mixing angles (nothing is left
undetermined), the sfermion masses are non-negative and ascending; non-zero stop masses and sbottom masses are
strictly ascending. -/
theorem C14_validated_complete_and_ordered {X : Ext Dbl} (hX : ExtFinite X) {p p' : Params Dbl} (hp : FiniteInput p)
    (h : validate X p = (.ok (), p')) :
    IsFin p'.MW ∧ IsFin p'.MZ ∧ IsFin p'.Mt ∧ IsFin p'.Mb ∧ IsFin p'.Mtau ∧
    IsFin p'.theta_t ∧ IsFin p'.theta_b ∧ IsFin p'.theta_tau ∧ IsFin p'.s2t ∧ IsFin p'.s2b ∧ IsFin p'.s2tau ∧
    (∃ x y : ℝ, p'.MSt = ⟨.fin x, .fin y⟩ ∧ 0 ≤ x ∧ x ≤ y ∧ (0 < y → x < y)) ∧
    (∃ x y : ℝ, p'.MSb = ⟨.fin x, .fin y⟩ ∧ 0 ≤ x ∧ x ≤ y ∧ (0 < x → x < y)) ∧
    (∃ x y : ℝ, p'.MStau = ⟨.fin x, .fin y⟩ ∧ 0 ≤ x ∧ x ≤ y) := by
  obtain ⟨st, sb, stau, h1, h2, h3, rfl, hu, hd⟩ := validated_fin hX hp h
  obtain ⟨hW, hZ, ht, hb, htau⟩ := smMasses_fin hX hp hu hd
  rw [final_eq]
  obtain ⟨k1, x1, y1, p1, q1, r1⟩ := h1.sort
  obtain ⟨k2, x2, y2, p2, q2, r2⟩ := h2.sort
  obtain ⟨k3, x3, y3, p3, q3, r3⟩ := h3.sort
  obtain ⟨x1', s1, t1, u1, v1, -⟩ := shiftStops_spec p1 q1
  obtain ⟨x2', s2, t2, u2, v2, -⟩ := shiftSb_spec p2 q2
  refine ⟨hW, hZ, ht, hb, htau, k1.theta, k2.theta, k3.theta, k1.s2, k2.s2, k3.s2, ⟨x1', y1, ?_, s1, t1, u1⟩,
    ⟨x2', y2, ?_, s2, t2, ?_⟩, ⟨x3, y3, r3, p3, q3⟩⟩
  · show shiftStops (sort_ev st).ev = _
    rw [r1, v1]
  · show shiftSbottoms (sort_ev sb).ev = _
    rw [r2, v2]
  · intro hx
    rcases p2.lt_or_eq with h0 | h0
    · exact u2 h0
    · -- x2 = 0: the shift keeps 0
      exfalso
      rw [← h0] at v2
      unfold shiftSbottoms at v2
      simp only [Dbl.fin_sub, Dbl.fin_abs, div_one_add, zero_div] at v2
      split_ifs at v2
      · simp at v2; linarith
      · simp at v2; linarith

/-! ### C15 -/

/-- Contract for the singular value decomposition used by C15: the singular values of a finite matrix are
non-negative and descending, and those of an ascending non-negative diagonal matrix are its diagonal entries. -/
structure SvdContract (X : Ext Dbl) : Prop where
  desc : ∀ M : Mat3 Dbl, (∀ i j, IsFin (M i j)) → ∃ a b c : ℝ, 0 ≤ a ∧ a ≤ b ∧ b ≤ c ∧
    X.svd M 0 = .fin c ∧ X.svd M 1 = .fin b ∧ X.svd M 2 = .fin a
  diag : ∀ M : Mat3 Dbl, AscDiag M → ∀ i, X.svd M i = M (2 - i) (2 - i)

theorem h_svd_asc {X : Ext Dbl} (hX : SvdContract X) {M : Mat3 Dbl} (hM : ∀ i j, IsFin (M i j)) : AscDiag (h_svd X M) := by
  obtain ⟨a, b, c, h0, h1, h2, e0, e1, e2⟩ := hX.desc M hM
  refine ⟨a, b, c, h0, h1, h2, ?_⟩
  funext i j
  unfold h_svd
  by_cases hij : i = j
  · subst hij
    rw [if_pos rfl, if_pos rfl]
    fin_cases i
    · exact e2
    · exact e1
    · exact e0
  · rw [if_neg hij, if_neg hij, Dbl.fin_ofNat]; simp

theorem h_svd_idem {X : Ext Dbl} (hX : SvdContract X) {M : Mat3 Dbl} (hM : ∀ i j, IsFin (M i j)) :
    h_svd X (h_svd X M) = h_svd X M := by
  have h := h_svd_asc hX hM
  have hd := hX.diag _ h
  funext i j
  show (if i = j then X.svd (h_svd X M) (2 - i) else 0) = _
  by_cases hij : i = j
  · subst hij
    rw [if_pos rfl]
    have := hd (2 - i)
    rw [this]
    have e : (2 : Fin 3) - (2 - i) = i := by fin_cases i <;> rfl
    rw [e]
  · rw [if_neg hij]; unfold h_svd; rw [if_neg hij]

theorem calc_theta_id {t s : Dbl} (h1 : IsFin t) (h2 : IsFin s) : calc_theta t s = (t, s) := by
  unfold calc_theta; simp [h1.notnan, h2.notnan]

theorem fillSf_id (X : Ext Dbl) {s : Sf Dbl} (h : SfOK s) (M : Mat2 Dbl) : fillSf X s M = .ok s := by
  unfold fillSf; rw [h.complete]; rfl

theorem sort_id {s : Sf Dbl} {x y : ℝ} (h : s.ev = ⟨.fin x, .fin y⟩) (hxy : x ≤ y) : sort_ev s = s := by
  unfold sort_ev; rw [h]; simp [hxy]

theorem shiftMq2_spec (q u : Mat3 Dbl) : shiftMq2 (shiftMq2 q u) u = shiftMq2 q u := by
  by_cases h : lt (FOps.abs (q 2 2 - u 2 2)) degEps = true
  · have e : shiftMq2 q u = q.set22 (u 2 2 / (1 + degEps)) := by unfold shiftMq2; rw [if_pos h]
    rw [e]
    unfold shiftMq2
    split_ifs
    · funext i j; unfold Mat3.set22; split_ifs <;> rfl
    · rfl
  · have e : shiftMq2 q u = q := by unfold shiftMq2; rw [if_neg h]
    rw [e, e]

theorem noNaN_of {m : Mat3 Dbl} (h : ∀ i j, IsFin (m i j)) : NoNaN m := fun i j => (h i j).notnan

theorem not_neg_shift {q u : Mat3 Dbl} (hq : ∀ i j, IsFin (q i j)) (hu : ∀ i j, IsFin (u i j))
    (nq : ¬ HasNegEntry q) (nu : ¬ HasNegEntry u) :
    (∀ i j, IsFin (shiftMq2 q u i j)) ∧ ¬ HasNegEntry (shiftMq2 q u) := by
  obtain ⟨y, hy⟩ := hu 2 2
  have y0 : 0 ≤ y := by
    by_contra hc; push Not at hc
    exact nu ⟨2, 2, by rw [hy, Dbl.fin_ofNat]; simpa using hc⟩
  unfold shiftMq2
  split_ifs
  · rw [hy, div_one_add]
    refine ⟨fun i j => ?_, ?_⟩
    · unfold Mat3.set22; split_ifs
      · exact ⟨_, rfl⟩
      · exact hq i j
    · rintro ⟨i, j, hij⟩
      unfold Mat3.set22 at hij
      split_ifs at hij
      · rw [Dbl.fin_ofNat] at hij
        simp only [Dbl.fin_lt, decide_eq_true_eq] at hij
        have : 0 ≤ y / (1 + 1 / 10 ^ 8) := by positivity
        push_cast at hij
        linarith
      · exact nq ⟨i, j, hij⟩
  · exact ⟨hq, nq⟩

/-- C15: validating an already validated point succeeds and changes nothing, provided the heavier sbottom mass is at
least 1.00000001 (GeV). -/
theorem C15_revalidation {X : Ext Dbl} (hX : ExtFinite X) (hS : SvdContract X) {p p' : Params Dbl} (hp : FiniteInput p)
    (h : validate X p = (.ok (), p')) {mb2 : ℝ} (hmb : p'.MSb.x1 = .fin mb2) (hb : 1 + 1 / 10 ^ 8 ≤ mb2) :
    validate X p' = (.ok (), p') := by
  obtain ⟨g1, g2, g3, g4, g5, g6, -⟩ := validate_ok h
  obtain ⟨st, sb, stau, h1, h2, h3, rfl, hu, hd⟩ := validated_fin hX hp h
  obtain ⟨hW, hZ, ht, hbm, htau⟩ := smMasses_fin hX hp hu hd
  obtain ⟨k1, x1, y1, p1, q1, r1⟩ := h1.sort
  obtain ⟨k2, x2, y2, p2, q2, r2⟩ := h2.sort
  obtain ⟨k3, x3, y3, p3, q3, r3⟩ := h3.sort
  obtain ⟨x1', s1, t1, u1, v1, w1⟩ := shiftStops_spec p1 q1
  obtain ⟨x2', s2, t2, u2, v2, w2⟩ := shiftSb_spec p2 q2
  have ns := mt (softNeg_iff (noNaN_of hp.mq2) (noNaN_of hp.md2) (noNaN_of hp.mu2) (noNaN_of hp.ml2)
    (noNaN_of hp.me2)).2 (by rw [g1]; simp)
  push Not at ns
  obtain ⟨n1, n2, n3, n4, n5⟩ := ns
  obtain ⟨fq, nq⟩ := not_neg_shift hp.mq2 hp.mu2 n1 n3
  rw [final_eq] at hmb ⊢
  have hy2 : mb2 = y2 := by
    have hmb' : (shiftSbottoms (sort_ev sb).ev).x1 = .fin mb2 := hmb
    rw [r2, v2] at hmb'
    exact (Dbl.fin.inj hmb').symm
  subst hy2
  apply validate_of_ok
  have gen : ∀ a b : Dbl, IsFin a → (if isNaN a = true then b else a) = a := by
    intro a b ha; rw [ha.notnan]; rfl
  refine ⟨?_, ?_, g3, g4, g5, g6, ⟨shiftStops (sort_ev st).ev, (sort_ev st).theta, (sort_ev st).s2⟩,
    ⟨shiftSbottoms (sort_ev sb).ev, (sort_ev sb).theta, (sort_ev sb).s2⟩, sort_ev stau, ?_, ?_, ?_, ?_⟩
  · rw [← Bool.not_eq_true]
    refine mt (softNeg_iff ?_ ?_ ?_ ?_ ?_).1 ?_
    · exact noNaN_of fq
    · exact noNaN_of hp.md2
    · exact noNaN_of hp.mu2
    · exact noNaN_of hp.ml2
    · exact noNaN_of hp.me2
    · push Not
      exact ⟨nq, n2, n3, n4, n5⟩
  · obtain ⟨x, hx⟩ := hp.MG
    show lt (FOps.abs p.MG) 0 = false
    rw [hx, Dbl.fin_abs, Dbl.fin_ofNat, Dbl.fin_lt]
    have := abs_nonneg x
    simp
  · have ok : SfOK ⟨shiftStops (sort_ev st).ev, (sort_ev st).theta, (sort_ev st).s2⟩ := by
      refine ⟨⟨x1', y1, s1, le_trans p1 q1, ?_⟩, k1.theta, k1.s2⟩
      rw [r1, v1]
    have e : fillSf X ⟨shiftStops (sort_ev st).ev, (calc_theta (sort_ev st).theta (sort_ev st).s2).1,
        (calc_theta (sort_ev st).theta (sort_ev st).s2).2⟩ = fun _ => .ok ⟨shiftStops (sort_ev st).ev, (sort_ev st).theta, (sort_ev st).s2⟩ := by
      funext M
      rw [calc_theta_id k1.theta k1.s2, fillSf_id X ok]
    exact congrFun e _
  · have ok : SfOK ⟨shiftSbottoms (sort_ev sb).ev, (sort_ev sb).theta, (sort_ev sb).s2⟩ := by
      refine ⟨⟨x2', mb2, s2, le_trans p2 q2, ?_⟩, k2.theta, k2.s2⟩
      rw [r2, v2]
    have e : fillSf X ⟨shiftSbottoms (sort_ev sb).ev, (calc_theta (sort_ev sb).theta (sort_ev sb).s2).1,
        (calc_theta (sort_ev sb).theta (sort_ev sb).s2).2⟩ = fun _ => .ok ⟨shiftSbottoms (sort_ev sb).ev, (sort_ev sb).theta, (sort_ev sb).s2⟩ := by
      funext M
      rw [calc_theta_id k2.theta k2.s2, fillSf_id X ok]
    exact congrFun e _
  · have e : fillSf X ⟨(sort_ev stau).ev, (calc_theta (sort_ev stau).theta (sort_ev stau).s2).1,
        (calc_theta (sort_ev stau).theta (sort_ev stau).s2).2⟩ = fun _ => .ok (sort_ev stau) := by
      funext M
      rw [calc_theta_id k3.theta k3.s2, fillSf_id X k3]
    exact congrFun e _
  · rw [final_eq]
    have e1 : sort_ev (⟨shiftStops (sort_ev st).ev, (sort_ev st).theta, (sort_ev st).s2⟩ : Sf Dbl) = _ :=
      sort_id (by rw [r1, v1]) t1
    have e2 : sort_ev (⟨shiftSbottoms (sort_ev sb).ev, (sort_ev sb).theta, (sort_ev sb).s2⟩ : Sf Dbl) = _ :=
      sort_id (by rw [r2, v2]) t2
    have e3 : sort_ev (sort_ev stau) = sort_ev stau := sort_id r3 q3
    have e4 := shiftMq2_spec p.mq2 p.mu2
    have e5 : FOps.abs (FOps.abs p.MG) = FOps.abs p.MG := by
      obtain ⟨x, hx⟩ := hp.MG; rw [hx]; simp
    have e6 : shiftStops (shiftStops (sort_ev st).ev) = shiftStops (sort_ev st).ev := by rw [r1, v1, w1]
    have e7 : shiftSbottoms (shiftSbottoms (sort_ev sb).ev) = shiftSbottoms (sort_ev sb).ev := by rw [r2, v2, w2 hb]
    simp only [e1, e2, e3, e4, e5, e6, e7, h_svd_idem hS hp.Yu, h_svd_idem hS hp.Yd, h_svd_idem hS hp.Ye]
    simp only [prep, fillThetas, fillSMMasses] at hW hZ ht hbm htau ⊢
    simp only [gen _ _ hW, gen _ _ hZ, gen _ _ ht, gen _ _ hbm, gen _ _ htau]

end Himalaya
