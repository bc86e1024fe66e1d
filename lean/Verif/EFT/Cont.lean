import Verif.EFT.LamVal
import Verif.EFT.Dilog
import Verif.EFT.Scheme

/-!
# C56: the special mass cases are the limits of the general case

`getThresholdCorrection` evaluates one of five formulas, chosen by the stored mass limit.  The general one is singular
where masses coincide; the others are separate pieces of code.  Here: each special formula is the limit of the general one
(resp. of the `mQ3 = mU3` one) as the masses approach each other, for every scheme, at orders `y_t: a_s`, `lambda: a_t`,
`lambda: a_t a_s`.  The dilogarithm is the exact function here (C33 bounds the distance of the code's routine to it).
-/

set_option linter.unusedSimpArgs false
set_option linter.unusedVariables false

namespace Himalaya.Cont
open Filter Topology

/-- the object with the right-handed stop mass parameter `mu2(2,2)` replaced -/
def withMu (c : TcObj ℝ) (u : ℝ) : TcObj ℝ := { c with p := { c.p with mu2 := c.p.mu2.set22 u } }
/-- the object with the gluino mass replaced -/
def withMG (c : TcObj ℝ) (m : ℝ) : TcObj ℝ := { c with p := { c.p with MG := m } }

/-- `F` never throws near `x`, and its values converge to the value `l` when the argument approaches `x` -/
def LimitOf (F : ℝ → Except String ℝ) (x : ℝ) (l : Except String ℝ) : Prop :=
  ∃ (g : ℝ → ℝ) (v : ℝ), (∀ y, F y = .ok (g y)) ∧ l = .ok v ∧ Tendsto g (𝓝[≠] x) (𝓝 v)

/-- the orders whose formulas depend on the mass limit and are modelled -/
def limitOrders : List ThrOrder := [.YT_AS, .LAMBDA_AT, .LAMBDA_AT_AS]

section
variable (T : ThrFns ℝ) (c : TcObj ℝ) (n : Int)

/-- the three raw corrections of an object, as numbers -/
structure Raw (l : Limit) (y l1 l2 : ℝ) : Prop where
  yt : c.dYtAs l n = .ok y
  la : c.dLamAt l n = .ok l1
  las : c.dLamAtAs T l n = .ok l2

theorem limit_setLimit {l : Limit} (h : ∀ i, l ≠ .other i) : (c.setLimit l).limit = l := by
  cases l with
  | other i => exact absurd rfl (h i)
  | _ => rfl

theorem thr_limit {F : ℝ → TcObj ℝ} {c' : TcObj ℝ} {x : ℝ} {l l' : Limit} (hl : ∀ i, l ≠ .other i) (hl' : ∀ i, l' ≠ .other i)
    {y l1 l2 : ℝ → ℝ} {y' l1' l2' : ℝ} (h : ∀ t, Raw T (F t) n l (y t) (l1 t) (l2 t)) (h' : Raw T c' n l' y' l1' l2')
    (ty : Tendsto y (𝓝[≠] x) (𝓝 y')) (t1 : Tendsto l1 (𝓝[≠] x) (𝓝 l1')) (t2 : Tendsto l2 (𝓝[≠] x) (𝓝 l2'))
    (s : Scheme) {o : ThrOrder} (ho : o ∈ limitOrders) :
    LimitOf (fun t => ((F t).setLimit l).thr T o s n) x ((c'.setLimit l').thr T o s n) := by
  have e1 : ∀ (c : TcObj ℝ) (l : Limit) k, (c.setLimit l).dYtAs k n = c.dYtAs k n := fun _ _ _ => rfl
  have e2 : ∀ (c : TcObj ℝ) (l : Limit) k, (c.setLimit l).dLamAt k n = c.dLamAt k n := fun _ _ _ => rfl
  have e3 : ∀ (c : TcObj ℝ) (l : Limit) k, (c.setLimit l).dLamAtAs T k n = c.dLamAtAs T k n := fun _ _ _ => rfl
  simp only [limitOrders, List.mem_cons, List.not_mem_nil, or_false] at ho
  have four : (4 : ℝ) = FOps.ofInt 4 := by rw [real_ofInt]; norm_num
  rcases ho with rfl | rfl | rfl
  · by_cases hs : s = .DRBARPRIME
    · refine ⟨fun t => - y t, - y', fun t => ?_, ?_, ty.neg⟩ <;>
        simp only [TcObj.thr, limit_setLimit _ hl, limit_setLimit _ hl', e1, (h _).yt, h'.yt, bindOk, hs, if_true] <;> rfl
    · refine ⟨y, y', fun t => ?_, ?_, ty⟩ <;>
        simp only [TcObj.thr, limit_setLimit _ hl, limit_setLimit _ hl', e1, (h _).yt, h'.yt, bindOk, hs, if_false] <;> rfl
  · refine ⟨l1, l1', fun t => ?_, ?_, t1⟩ <;>
      simp only [TcObj.thr, limit_setLimit _ hl, limit_setLimit _ hl', e2, (h _).la, h'.la]
  · by_cases hs : s = .DRBARPRIME
    · refine ⟨fun t => l2 t - 4 * l1 t * y t, l2' - 4 * l1' * y', fun t => ?_, ?_, t2.sub ((t1.const_mul 4).mul ty)⟩ <;>
        simp only [TcObj.thr, limit_setLimit _ hl, limit_setLimit _ hl', e1, e2, e3, (h _).yt, h'.yt, (h _).la, h'.la,
          (h _).las, h'.las, bindOk, hs, if_true, real_ofNat, pure, Except.pure] <;> push_cast <;> rfl
    · refine ⟨l2, l2', fun t => ?_, ?_, t2⟩ <;>
        simp only [TcObj.thr, limit_setLimit _ hl, limit_setLimit _ hl', e3, (h _).las, h'.las, bindOk, hs, if_false] <;> rfl

end

theorem sqrt_sq' {x : ℝ} (h : 0 ≤ x) : Real.sqrt x ^ 2 = x := Real.sq_sqrt h

theorem three_logPoly (e : ℝ) : logPoly 3 e + e ^ 3 * logRem 3 e = e - e ^ 2 / 2 + e ^ 3 / 3 + e ^ 3 * logRem 3 e := by
  simp only [logPoly, Finset.sum_range_succ, Finset.sum_range_zero]; push_cast; ring

theorem two_log {e : ℝ} (he : e ≠ 0) : 2 * Real.log (1 + e) = 2 * e - e ^ 2 + e ^ 2 * (2 * logRem 2 e) := by
  rw [log_eq 2 he]
  simp only [logPoly, Finset.sum_range_succ, Finset.sum_range_zero]; push_cast; ring

theorem one_log {e : ℝ} (he : e ≠ 0) : Real.log (1 + e) = e + e * logRem 1 e := by
  rw [log_eq 1 he]
  simp only [logPoly, Finset.sum_range_succ, Finset.sum_range_zero]; push_cast; ring

/-! ## `mU3 → mQ3` -/

theorem yt_qu_tendsto {q a X L : ℝ} (hq : 0 < q) (ha : -q + a ^ 2 ≠ 0) :
    Tendsto (fun u => Thr.dYtAsGen (a ^ 2) q u a (Real.sqrt q) (Real.sqrt u) X L) (𝓝[≠] q)
      (𝓝 (Thr.dYtAsQU (a ^ 2) q q a (Real.sqrt q) (Real.sqrt q) X L)) := by
  apply limit_rel hq.ne'
  have h3 : q - a ^ 2 + 0 * q ≠ 0 := by intro h; apply ha; linear_combination -h
  have hrep : ∀ᶠ e in 𝓝[≠] (0 : ℝ), Thr.dYtAsGen (a ^ 2) q (q * (1 + e)) a (Real.sqrt q) (Real.sqrt (q * (1 + e))) X L
      = (fun z : ℝ × ℝ => gYtQU q a X L (Real.log (a ^ 2 / q)) z.1 z.2) (e, logRem 1 e) := by
    have n0 : ∀ᶠ e in 𝓝[≠] (0 : ℝ), 0 < 1 + e := near_pos (g := fun e => 1 + e) (by fun_prop) (by norm_num)
    filter_upwards [self_mem_nhdsWithin, n0, near_ne (g := fun e => q - a ^ 2 + e * q) (by fun_prop) h3] with e he h1 h2
    exact yt_qu_repr hq.ne' he h1.ne' (by intro h; apply ha; linear_combination h) (by intro h; apply h2; linear_combination h)
      (sqrt_sq' hq.le) (sqrt_sq' (by positivity)) (one_log he)
  have hl := limit_of_repr (G := fun z : ℝ × ℝ => gYtQU q a X L (Real.log (a ^ 2 / q)) z.1 z.2) (z := (0 : ℝ)) hrep
    (by unfold gYtQU; fun_prop (disch := cdisch)) (logRem_tendsto 1)
  convert hl using 2
  have h4 : q - a ^ 2 ≠ 0 := by intro h; apply ha; linear_combination -h
  unfold Thr.dYtAsQU
  simp only [p2_of (sqrt_sq' hq.le), real_log]
  simp only [real_ofNat, real_ofInt, Himalaya.pow2, Misc.pow2, Misc.pow3, Misc.pow4, Misc.pow5]
  push_cast
  simp only [gYtQU, zero_mul, mul_zero, add_zero, sub_zero, ne_eq, OfNat.ofNat_ne_zero, not_false_eq_true, zero_pow]
  have d3 : q - a ^ 2 = - (-q + a ^ 2) := by ring
  have d5 : a ^ 2 - q = (-q + a ^ 2) := by ring
  simp only [d3, d5]
  generalize hE : -q + a ^ 2 = E at *
  field_simp
  subst hE
  ring

theorem lam_qu_tendsto {q X L m32 m3 Q : ℝ} (hq : 0 < q) (U : ℝ → ℝ) (m32' m3' Q' U' : ℝ) :
    Tendsto (fun u => Thr.dLamAtGen m32 q u m3 Q (U u) X L) (𝓝[≠] q) (𝓝 (Thr.dLamAtQU m32' q q m3' Q' U' X L)) := by
  apply limit_rel hq.ne'
  have hrep : ∀ᶠ e in 𝓝[≠] (0 : ℝ), Thr.dLamAtGen m32 q (q * (1 + e)) m3 Q (U (q * (1 + e))) X L
      = (fun z : ℝ × ℝ => gLamQU q X L z.1 z.2) (e, logRem 3 e) := by
    filter_upwards [self_mem_nhdsWithin] with e he
    exact lam_qu_repr hq.ne' he (by rw [log_eq 3 he]; exact three_logPoly e)
  have hq0 := hq.ne'
  have hl := limit_of_repr (G := fun z : ℝ × ℝ => gLamQU q X L z.1 z.2) (z := (0 : ℝ)) hrep
    (by unfold gLamQU; fun_prop (disch := cdisch)) (logRem_tendsto 3)
  convert hl using 2
  unfold Thr.dLamAtQU
  simp only [real_ofNat, real_ofInt, Himalaya.pow2, Misc.pow2, Misc.pow3, Misc.pow4, Misc.pow5]
  push_cast
  simp only [gLamQU]
  field_simp
  ring

theorem lam2_qu_tendsto {q a X L : ℝ} (dl : ℝ → ℝ) (hdl : ∀ x < 1, dl x = Li2.Li2 x) (hq : 0 < q) (ha0 : a ≠ 0)
    (ha : -q + a ^ 2 ≠ 0) :
    Tendsto (fun u => Thr.dLamAtAsGen dl (a ^ 2) q u a (Real.sqrt q) (Real.sqrt u) X L) (𝓝[≠] q)
      (𝓝 (Thr.dLamAtAsQU dl (a ^ 2) q q a (Real.sqrt q) (Real.sqrt q) X L)) := by
  apply limit_rel hq.ne'
  have hq0 := hq.ne'
  have h3 : q - a ^ 2 + 0 * q ≠ 0 := by intro h; apply ha; linear_combination -h
  have hlt : ∀ v : ℝ, 0 < v → dl (1 - a ^ 2 / v) = Li2.Li2 (1 - a ^ 2 / v) := fun v hv =>
    hdl _ (by have : 0 < a ^ 2 / v := by positivity
              linarith)
  have hrep : ∀ᶠ e in 𝓝[≠] (0 : ℝ), Thr.dLamAtAsGen dl (a ^ 2) q (q * (1 + e)) a (Real.sqrt q) (Real.sqrt (q * (1 + e))) X L
      = (fun z : ℝ × (ℝ × ℝ) => gQU X a q L (Real.log (a ^ 2 / q)) (Li2.Li2 (1 - a ^ 2 / q)) z.1 z.2.1 z.2.2)
        (e, (logRem 3 e, dilRemQU a q e)) := by
    have n0 : ∀ᶠ e in 𝓝[≠] (0 : ℝ), 0 < 1 + e := near_pos (g := fun e => 1 + e) (by fun_prop) (by norm_num)
    filter_upwards [self_mem_nhdsWithin, n0, near_ne (g := fun e => q - a ^ 2 + e * q) (by fun_prop) h3] with e he h1 h2
    have hu : 0 < q * (1 + e) := by positivity
    have hs := lam_split dl a (Real.sqrt q) (Real.sqrt (q * (1 + e))) X L
    rw [sqrt_sq' hq.le, sqrt_sq' hu.le] at hs
    rw [hs, hlt _ hq, hlt _ hu, dilQU_eq he, show q * (1 + e) / q = 1 + e by field_simp, log_eq 3 he, three_logPoly]
    exact qu_repr hq0 he h1.ne' ha h2
  have hl := limit_of_repr (z := ((0 : ℝ), (0 : ℝ))) hrep (gQU_cont hq0 ha)
    ((logRem_tendsto 3).prodMk_nhds (dilRemQU_tendsto ha0 hq ha))
  have hv := lamQU_split dl a (Real.sqrt q) (Real.sqrt q) X L q
  rw [sqrt_sq' hq.le, hlt _ hq] at hv
  rw [hv, ← gQU_zero hq0 ha]
  exact hl

/-! ## `m3 → mQ3` -/

theorem rem2_tendsto : Tendsto (fun e => 2 * logRem 2 e) (𝓝[≠] 0) (𝓝 0) := by
  simpa using (logRem_tendsto 2).const_mul 2

theorem yt_qg_tendsto {Q u X L : ℝ} (hQ : 0 < Q) (hu : 0 < u) (hne : -u + Q ^ 2 ≠ 0) (m32 m3 : ℝ) :
    Tendsto (fun m => Thr.dYtAsGen (m ^ 2) (Q ^ 2) u m Q (Real.sqrt u) X L) (𝓝[≠] Q)
      (𝓝 (Thr.dYtAsQG m32 (Q ^ 2) u m3 Q (Real.sqrt u) X L)) := by
  apply limit_rel hQ.ne'
  have hQ0 := hQ.ne'
  have h3 : -u + Q ^ 2 + 2 * Q ^ 2 * 0 + Q ^ 2 * 0 ^ 2 ≠ 0 := by intro h; apply hne; linear_combination h
  have hrep : ∀ᶠ e in 𝓝[≠] (0 : ℝ), Thr.dYtAsGen ((Q * (1 + e)) ^ 2) (Q ^ 2) u (Q * (1 + e)) Q (Real.sqrt u) X L
      = (fun z : ℝ × ℝ => gYtQG Q u X L (Real.log (u / Q ^ 2)) z.1 z.2) (e, 2 * logRem 2 e) := by
    filter_upwards [self_mem_nhdsWithin, near_ne (g := fun e => 2 + e) (by fun_prop) (by norm_num),
      near_ne (g := fun e => -u + Q ^ 2 + 2 * Q ^ 2 * e + Q ^ 2 * e ^ 2) (by fun_prop) h3] with e he h1 h2
    exact yt_qg_repr hQ0 he h1 (by intro h; apply hne; linear_combination h) (by intro h; apply h2; linear_combination h)
      (sqrt_sq' hu.le) (two_log he)
  have hl := limit_of_repr (G := fun z : ℝ × ℝ => gYtQG Q u X L (Real.log (u / Q ^ 2)) z.1 z.2) (z := (0 : ℝ)) hrep
    (by unfold gYtQG; fun_prop (disch := cdisch)) rem2_tendsto
  convert hl using 2
  unfold Thr.dYtAsQG
  simp only [p2_of (rfl : Q ^ 2 = _), real_log]
  simp only [real_ofNat, real_ofInt, Himalaya.pow2, Misc.pow2, Misc.pow3, Misc.pow4, Misc.pow5]
  push_cast
  simp only [gYtQG, zero_mul, mul_zero, add_zero, sub_zero, ne_eq, OfNat.ofNat_ne_zero, not_false_eq_true, zero_pow]
  have d5 : Q ^ 2 - u = (-u + Q ^ 2) := by ring
  simp only [d5]
  generalize hE : -u + Q ^ 2 = E at *
  field_simp
  subst hE
  ring

theorem lam2_qg_tendsto {Q u X L : ℝ} (dl : ℝ → ℝ) (hdl : ∀ x < 1, dl x = Li2.Li2 x) (hQ : 0 < Q) (hu : 0 < u)
    (hne : -u + Q ^ 2 ≠ 0) (m32 m3 : ℝ) :
    Tendsto (fun m => Thr.dLamAtAsGen dl (m ^ 2) (Q ^ 2) u m Q (Real.sqrt u) X L) (𝓝[≠] Q)
      (𝓝 (Thr.dLamAtAsQG dl m32 (Q ^ 2) u m3 Q (Real.sqrt u) X L)) := by
  apply limit_rel hQ.ne'
  have hQ0 := hQ.ne'
  have hu0 := hu.ne'
  have h3 : -u + Q ^ 2 + 2 * Q ^ 2 * 0 + Q ^ 2 * 0 ^ 2 ≠ 0 := by intro h; apply hne; linear_combination h
  have hlt : ∀ m v : ℝ, m ≠ 0 → 0 < v → dl (1 - m ^ 2 / v) = Li2.Li2 (1 - m ^ 2 / v) := fun m v hm hv =>
    hdl _ (by have : 0 < m ^ 2 / v := by positivity
              linarith)
  have hrep : ∀ᶠ e in 𝓝[≠] (0 : ℝ), Thr.dLamAtAsGen dl ((Q * (1 + e)) ^ 2) (Q ^ 2) u (Q * (1 + e)) Q (Real.sqrt u) X L
      = (fun z : ℝ × (ℝ × (ℝ × ℝ)) => gQG X Q u L (Real.log (u / Q ^ 2)) z.1 z.2.1 z.2.2.1 z.2.2.2)
        (e, (2 * logRem 2 e, (dilRem e, Li2.Li2 (1 - (Q * (1 + e)) ^ 2 / u)))) := by
    filter_upwards [self_mem_nhdsWithin, near_ne (g := fun e => 2 + e) (by fun_prop) (by norm_num),
      near_ne (g := fun e => -u + Q ^ 2 + 2 * Q ^ 2 * e + Q ^ 2 * e ^ 2) (by fun_prop) h3,
      near_ne (g := fun e => 1 + e) (by fun_prop) (by norm_num)] with e he h1 h2 h4
    have hs := lam_split dl (Q * (1 + e)) Q (Real.sqrt u) X L
    have hm : Q * (1 + e) ≠ 0 := mul_ne_zero hQ0 h4
    rw [sqrt_sq' hu.le] at hs
    rw [hs, hlt _ _ hm (by positivity), hlt _ _ hm hu, show (Q * (1 + e)) ^ 2 / Q ^ 2 = (1 + e) ^ 2 by field_simp, dil_eq he,
      Real.log_pow]
    push_cast
    rw [two_log he]
    exact QG_repr hQ0 hu0 he h1 hne h2
  have hD : Tendsto (fun e => Li2.Li2 (1 - (Q * (1 + e)) ^ 2 / u)) (𝓝[≠] 0) (𝓝 (Li2.Li2 (1 - Q ^ 2 / u))) := by
    have : ContinuousAt (fun e => Li2.Li2 (1 - (Q * (1 + e)) ^ 2 / u)) 0 :=
      Li2.continuous_Li2.continuousAt.comp (by fun_prop (disch := cdisch))
    have h := this.tendsto
    simp only [add_zero, mul_one] at h
    exact h.mono_left nhdsWithin_le_nhds
  have hl := limit_of_repr (z := ((0 : ℝ), ((0 : ℝ), Li2.Li2 (1 - Q ^ 2 / u)))) hrep (gQG_cont hQ0 hu0 hne)
    (rem2_tendsto.prodMk_nhds (dilRem_tendsto.prodMk_nhds hD))
  have hv := gQG_zero (X := X) (L := L) (m32 := m32) (m3 := m3) (U := Real.sqrt u) dl hQ0 (Real.sqrt_pos.2 hu).ne' (by rw [sqrt_sq' hu.le]; exact hne)
  rw [sqrt_sq' hu.le, hlt _ _ hQ0 hu] at hv
  rw [← hv]
  exact hl

/-! ## `m3 → mU3` -/

theorem yt_ug_tendsto {U q X L : ℝ} (hU : 0 < U) (hq : 0 < q) (hne : q - U ^ 2 ≠ 0) (m32 m3 : ℝ) :
    Tendsto (fun m => Thr.dYtAsGen (m ^ 2) q (U ^ 2) m (Real.sqrt q) U X L) (𝓝[≠] U)
      (𝓝 (Thr.dYtAsUG m32 q (U ^ 2) m3 (Real.sqrt q) U X L)) := by
  apply limit_rel hU.ne'
  have hU0 := hU.ne'
  have hq0 := hq.ne'
  have h3 : q - U ^ 2 - 2 * U ^ 2 * 0 - U ^ 2 * 0 ^ 2 ≠ 0 := by intro h; apply hne; linear_combination h
  have hrep : ∀ᶠ e in 𝓝[≠] (0 : ℝ), Thr.dYtAsGen ((U * (1 + e)) ^ 2) q (U ^ 2) (U * (1 + e)) (Real.sqrt q) U X L
      = (fun z : ℝ × ℝ => gYtUG U q X L (Real.log (U ^ 2 / q)) z.1 z.2) (e, 2 * logRem 2 e) := by
    filter_upwards [self_mem_nhdsWithin, near_ne (g := fun e => 2 + e) (by fun_prop) (by norm_num),
      near_ne (g := fun e => q - U ^ 2 - 2 * U ^ 2 * e - U ^ 2 * e ^ 2) (by fun_prop) h3,
      near_ne (g := fun e => 1 + e) (by fun_prop) (by norm_num)] with e he h1 h2 h4
    exact yt_ug_repr hU0 he h1 h4 hq0 hne (by intro h; apply h2; linear_combination h)
      (sqrt_sq' hq.le) (two_log he)
  have hl := limit_of_repr (G := fun z : ℝ × ℝ => gYtUG U q X L (Real.log (U ^ 2 / q)) z.1 z.2) (z := (0 : ℝ)) hrep
    (by unfold gYtUG; fun_prop (disch := cdisch)) rem2_tendsto
  convert hl using 2
  unfold Thr.dYtAsUG
  simp only [p2_of (sqrt_sq' hq.le), p4_of (sqrt_sq' hq.le), real_log]
  simp only [real_ofNat, real_ofInt, Himalaya.pow2, Misc.pow2, Misc.pow3, Misc.pow4, Misc.pow5]
  push_cast
  simp only [gYtUG, zero_mul, mul_zero, add_zero, sub_zero, ne_eq, OfNat.ofNat_ne_zero, not_false_eq_true, zero_pow]
  generalize hE : q - U ^ 2 = E at *
  field_simp
  subst hE
  ring

theorem lam2_ug_tendsto {U q X L : ℝ} (dl : ℝ → ℝ) (hdl : ∀ x < 1, dl x = Li2.Li2 x) (hU : 0 < U) (hq : 0 < q)
    (hne : q - U ^ 2 ≠ 0) (m32 m3 : ℝ) :
    Tendsto (fun m => Thr.dLamAtAsGen dl (m ^ 2) q (U ^ 2) m (Real.sqrt q) U X L) (𝓝[≠] U)
      (𝓝 (Thr.dLamAtAsUG dl m32 q (U ^ 2) m3 (Real.sqrt q) U X L)) := by
  apply limit_rel hU.ne'
  have hU0 := hU.ne'
  have hq0 := hq.ne'
  have h3 : q - U ^ 2 - 2 * U ^ 2 * 0 - U ^ 2 * 0 ^ 2 ≠ 0 := by intro h; apply hne; linear_combination h
  have hlt : ∀ m v : ℝ, m ≠ 0 → 0 < v → dl (1 - m ^ 2 / v) = Li2.Li2 (1 - m ^ 2 / v) := fun m v hm hv =>
    hdl _ (by have : 0 < m ^ 2 / v := by positivity
              linarith)
  have hrep : ∀ᶠ e in 𝓝[≠] (0 : ℝ), Thr.dLamAtAsGen dl ((U * (1 + e)) ^ 2) q (U ^ 2) (U * (1 + e)) (Real.sqrt q) U X L
      = (fun z : ℝ × (ℝ × (ℝ × ℝ)) => gUG X U q L (Real.log (U ^ 2 / q)) z.1 z.2.1 z.2.2.1 z.2.2.2)
        (e, (2 * logRem 2 e, (dilRem e, Li2.Li2 (1 - (U * (1 + e)) ^ 2 / q)))) := by
    filter_upwards [self_mem_nhdsWithin, near_ne (g := fun e => 2 + e) (by fun_prop) (by norm_num),
      near_ne (g := fun e => q - U ^ 2 - 2 * U ^ 2 * e - U ^ 2 * e ^ 2) (by fun_prop) h3,
      near_ne (g := fun e => 1 + e) (by fun_prop) (by norm_num)] with e he h1 h2 h4
    have hs := lam_split dl (U * (1 + e)) (Real.sqrt q) U X L
    have hm : U * (1 + e) ≠ 0 := mul_ne_zero hU0 h4
    have hlog : Real.log ((U * (1 + e)) ^ 2 / q) = Real.log (U ^ 2 / q) + (2 * e - e ^ 2 + e ^ 2 * (2 * logRem 2 e)) := by
      rw [← two_log he, show (U * (1 + e)) ^ 2 / q = (U ^ 2 / q) * (1 + e) ^ 2 by field_simp,
        Real.log_mul (by positivity) (by positivity), Real.log_pow]
      norm_num
    rw [sqrt_sq' hq.le] at hs
    rw [hs, hlog, hlt _ _ hm hq, hlt _ (U ^ 2) hm (by positivity), show (U * (1 + e)) ^ 2 / U ^ 2 = (1 + e) ^ 2 by field_simp, dil_eq he]
    exact UG_repr hU0 hq0 he h1 hne h2
  have hD : Tendsto (fun e => Li2.Li2 (1 - (U * (1 + e)) ^ 2 / q)) (𝓝[≠] 0) (𝓝 (Li2.Li2 (1 - U ^ 2 / q))) := by
    have : ContinuousAt (fun e => Li2.Li2 (1 - (U * (1 + e)) ^ 2 / q)) 0 :=
      Li2.continuous_Li2.continuousAt.comp (by fun_prop (disch := cdisch))
    have h := this.tendsto
    simp only [add_zero, mul_one] at h
    exact h.mono_left nhdsWithin_le_nhds
  have hl := limit_of_repr (z := ((0 : ℝ), ((0 : ℝ), Li2.Li2 (1 - U ^ 2 / q)))) hrep (gUG_cont hU0 hq0 hne)
    (rem2_tendsto.prodMk_nhds (dilRem_tendsto.prodMk_nhds hD))
  have hv := gUG_zero (X := X) (L := L) (m32 := m32) (m3 := m3) (Q := Real.sqrt q) dl (Real.sqrt_pos.2 hq).ne' hU0 (by rw [sqrt_sq' hq.le]; exact hne)
  rw [sqrt_sq' hq.le, hlt _ _ hU0 hq] at hv
  rw [← hv]
  exact hl

/-! ## `m3 → mQ3 = mU3` -/

theorem yt_qug_tendsto {Q u X L U : ℝ} (hQ : 0 < Q) (m32 m3 u' U' : ℝ) :
    Tendsto (fun m => Thr.dYtAsQU (m ^ 2) (Q ^ 2) u m Q U X L) (𝓝[≠] Q)
      (𝓝 (Thr.dYtAsQUG m32 (Q ^ 2) u' m3 Q U' X L)) := by
  apply limit_rel hQ.ne'
  have hQ0 := hQ.ne'
  have hrep : ∀ᶠ e in 𝓝[≠] (0 : ℝ), Thr.dYtAsQU ((Q * (1 + e)) ^ 2) (Q ^ 2) u (Q * (1 + e)) Q U X L
      = (fun z : ℝ × ℝ => gYtQUG Q X L z.1 z.2) (e, 2 * logRem 2 e) := by
    filter_upwards [self_mem_nhdsWithin, near_ne (g := fun e => 2 + e) (by fun_prop) (by norm_num)] with e he h1
    exact yt_qug_repr hQ0 he h1 (two_log he)
  have hl := limit_of_repr (G := fun z : ℝ × ℝ => gYtQUG Q X L z.1 z.2) (z := (0 : ℝ)) hrep
    (by unfold gYtQUG; fun_prop (disch := cdisch)) rem2_tendsto
  convert hl using 2
  unfold Thr.dYtAsQUG
  simp only [real_ofNat, real_ofInt]
  push_cast
  simp only [gYtQUG, zero_mul, mul_zero, add_zero, sub_zero, ne_eq, OfNat.ofNat_ne_zero, not_false_eq_true, zero_pow]
  field_simp
  ring

theorem lam2_qug_tendsto {Q u X L U : ℝ} (dl : ℝ → ℝ) (hdl : ∀ x < 1, dl x = Li2.Li2 x) (hQ : 0 < Q) (m32 m3 u' U' : ℝ) :
    Tendsto (fun m => Thr.dLamAtAsQU dl (m ^ 2) (Q ^ 2) u m Q U X L) (𝓝[≠] Q)
      (𝓝 (Thr.dLamAtAsQUG dl m32 (Q ^ 2) u' m3 Q U' X L)) := by
  apply limit_rel hQ.ne'
  have hQ0 := hQ.ne'
  have hrep : ∀ᶠ e in 𝓝[≠] (0 : ℝ), Thr.dLamAtAsQU dl ((Q * (1 + e)) ^ 2) (Q ^ 2) u (Q * (1 + e)) Q U X L
      = (fun z : ℝ × (ℝ × ℝ) => gQUG X Q L z.1 z.2.1 z.2.2) (e, (2 * logRem 2 e, dilRem e)) := by
    filter_upwards [self_mem_nhdsWithin, near_ne (g := fun e => 2 + e) (by fun_prop) (by norm_num),
      near_ne (g := fun e => 1 + e) (by fun_prop) (by norm_num)] with e he h1 h4
    rw [lamQU_split, show (Q * (1 + e)) ^ 2 / Q ^ 2 = (1 + e) ^ 2 by field_simp, Real.log_pow]
    push_cast
    have : dl (1 - (1 + e) ^ 2) = Li2.Li2 (1 - (1 + e) ^ 2) := hdl _ (by have : 0 < (1 + e) ^ 2 := by positivity
                                                                         linarith)
    rw [this, dil_eq he, two_log he]
    exact QUG_repr hQ0 he h1
  have hl := limit_of_repr (z := ((0 : ℝ), (0 : ℝ))) hrep (gQUG_cont hQ0) (rem2_tendsto.prodMk_nhds dilRem_tendsto)
  rw [← gQUG_zero (X := X) (L := L) (m32 := m32) (m3 := m3) (mU32 := u') (U := U') dl hQ0]
  exact hl

end Himalaya.Cont
