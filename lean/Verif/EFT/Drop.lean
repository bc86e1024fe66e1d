import Verif.EFT.DropCheck
import Verif.EFT.Point

/-!
# C57: the terms that the DRbar' to MSbar shift leaves out

The full conversion `MSbar - DRbar'` of the three-loop correction is a polynomial in `Xt` of degree 6.
`getDRbarPrimeToMSbarXtTerms(limit, k)` must be minus its term of order `Xt^k`.
-/

set_option linter.unusedSimpArgs false
set_option linter.unusedVariables false

namespace Himalaya.Drop

open Kron Shape Scale
open scoped Himalaya

/-! ### The polynomial -/

/-- does not contain the variable `4` -/
def noX : E → Bool
  | .var i => !Nat.beq i 4
  | .add a b | .sub a b | .mul a b | .div a b => noX a && noX b
  | .neg a | .log a | .dilog a => noX a
  | _ => true

theorem noX_eval {dl : ℝ → ℝ} {ρ ρ' : ℕ → ℝ} (h : ∀ i, i ≠ 4 → ρ i = ρ' i) (e : E) (he : noX e = true) :
    eval dl ρ e = eval dl ρ' e := by
  induction e with
  | var i => simp only [noX, Bool.not_eq_true'] at he; exact h i fun hi => by subst hi; cases he
  | lit q => rfl
  | cst c => rfl
  | bad => rfl
  | add a b ia ib => simp only [noX, Bool.and_eq_true] at he; simp only [eval, ia he.1, ib he.2]
  | sub a b ia ib => simp only [noX, Bool.and_eq_true] at he; simp only [eval, ia he.1, ib he.2]
  | mul a b ia ib => simp only [noX, Bool.and_eq_true] at he; simp only [eval, ia he.1, ib he.2]
  | div a b ia ib => simp only [noX, Bool.and_eq_true] at he; simp only [eval, ia he.1, ib he.2]
  | neg a ia => simp only [noX] at he; simp only [eval, ia he]
  | log a ia => simp only [noX] at he; simp only [eval, ia he]
  | dilog a ia => simp only [noX] at he; simp only [eval, ia he]

theorem pt_other (dl : ℝ → ℝ) (q u s m X L : ℝ) (i : ℕ) (hi : i ≠ 4) : pt dl q u s m X L i = pt dl q u s m 0 L i := by
  match i with
  | 0 => rfl | 1 => rfl | 2 => rfl | 3 => rfl | 4 => exact absurd rfl hi | 5 => rfl | 6 => rfl | 7 => rfl | 8 => rfl | 9 => rfl
  | 10 => rfl | 11 => rfl | 12 => rfl | 13 => rfl | 14 => rfl | i + 15 => rfl

theorem poly_of {C : Cfg} {full : E} {xt : E → E → E → E} (hA : Agree C full xt = true) (hL : Linear C xt = true)
    (hX : C.wts ≠ []) {dl : ℝ → ℝ} (hT : ∀ y < 1, dl y = Li2.Li2 y) {q u s m : ℝ} (hq : 0 < q) (hu : 0 < u) (hs : 0 < s)
    (hm : 0 < m) (L : ℝ) (hf : ∀ X, ∀ f ∈ C.facs, eval dl (pt dl q u s m X L) f ≠ 0)
    (hn : (noX (xt (nat 1) (nat 0) (nat 0)) && noX (xt (nat 0) (nat 1) (nat 0)) && noX (xt (nat 0) (nat 0) (nat 1))) = true) :
    ∃ a : ℕ → ℝ, ∀ X,
      eval dl (pt dl q u s m X L) full = ∑ k ∈ Finset.range 7, a k * X ^ k ∧
      eval dl (pt dl q u s m X L) (xt x4 (nat 0) (nat 0)) = -(a 4 * X ^ 4) ∧
      eval dl (pt dl q u s m X L) (xt (nat 0) x5 (nat 0)) = -(a 5 * X ^ 5) ∧
      eval dl (pt dl q u s m X L) (xt (nat 0) (nat 0) x6) = -(a 6 * X ^ 6) := by
  obtain ⟨c, c1, c2⟩ := degCheck_sound C dl tab 4 _ hX hA
  simp only [Bool.and_eq_true] at hn
  obtain ⟨⟨n4, n5⟩, n6⟩ := hn
  have h4 : ∀ X, _ := fun X => noX_eval (dl := dl) (pt_other dl q u s m X L) _ n4
  have h5 : ∀ X, _ := fun X => noX_eval (dl := dl) (pt_other dl q u s m X L) _ n5
  have h6 : ∀ X, _ := fun X => noX_eval (dl := dl) (pt_other dl q u s m X L) _ n6
  generalize eval dl (pt dl q u s m 0 L) (xt (nat 1) (nat 0) (nat 0)) = t4 at h4
  generalize eval dl (pt dl q u s m 0 L) (xt (nat 0) (nat 1) (nat 0)) = t5 at h5
  generalize eval dl (pt dl q u s m 0 L) (xt (nat 0) (nat 0) (nat 1)) = t6 at h6
  simp only [Linear, Bool.and_eq_true] at hL
  obtain ⟨⟨l4, l5⟩, l6⟩ := hL
  have ht := fun X => tab_pt hT hq hu hs hm X L
  have z4 := fun X => zeroCheck_sound C dl tab _ l4 _ (hf X) (ht X)
  have z5 := fun X => zeroCheck_sound C dl tab _ l5 _ (hf X) (ht X)
  have z6 := fun X => zeroCheck_sound C dl tab _ l6 _ (hf X) (ht X)
  have e4 : ∀ X, eval dl (pt dl q u s m X L) (xt x4 (nat 0) (nat 0)) = t4 * X ^ 4 := fun X => by
    have : eval dl (pt dl q u s m X L) (xt x4 (nat 0) (nat 0)) -
      eval dl (pt dl q u s m X L) (xt (nat 1) (nat 0) (nat 0)) * ((X * X) * (X * X)) = 0 := z4 X
    rw [h4] at this; linear_combination this
  have e5 : ∀ X, eval dl (pt dl q u s m X L) (xt (nat 0) x5 (nat 0)) = t5 * X ^ 5 := fun X => by
    have : eval dl (pt dl q u s m X L) (xt (nat 0) x5 (nat 0)) -
      eval dl (pt dl q u s m X L) (xt (nat 0) (nat 1) (nat 0)) * ((X * X) * (X * X) * X) = 0 := z5 X
    rw [h5] at this; linear_combination this
  have e6 : ∀ X, eval dl (pt dl q u s m X L) (xt (nat 0) (nat 0) x6) = t6 * X ^ 6 := fun X => by
    have : eval dl (pt dl q u s m X L) (xt (nat 0) (nat 0) x6) -
      eval dl (pt dl q u s m X L) (xt (nat 0) (nat 0) (nat 1)) * ((X * X * X) * (X * X * X)) = 0 := z6 X
    rw [h6] at this; linear_combination this
  have hc : ∀ k X, c k (pt dl q u s m X L) = c k (pt dl q u s m 0 L) := fun k X => c1 k _ _ (pt_other dl q u s m X L)
  refine ⟨fun k => if k = 4 then -t4 else if k = 5 then -t5 else if k = 6 then -t6 else c k (pt dl q u s m 0 L), fun X => ?_⟩
  refine ⟨?_, by rw [e4]; simp, by rw [e5]; simp, by rw [e6]; simp⟩
  have h : eval dl (pt dl q u s m X L) full + (eval dl (pt dl q u s m X L) (xt x4 (nat 0) (nat 0)) +
      eval dl (pt dl q u s m X L) (xt (nat 0) x5 (nat 0)) + eval dl (pt dl q u s m X L) (xt (nat 0) (nat 0) x6)) =
      ∑ k ∈ Finset.range 4, c k (pt dl q u s m X L) * X ^ k := c2 _ (hf X) (ht X)
  simp only [hc, e4, e5, e6] at h
  simp only [Finset.sum_range_succ, Finset.sum_range_zero] at h ⊢
  norm_num at h ⊢
  linarith

/-! ### The property -/

/-- the parameters `p` with the trilinear coupling `At` -/
def withAt (p : Params ℝ) (At : ℝ) : Params ℝ := { p with Au := p.Au.set22 At }

theorem atLimit_withAt {l : Limit} {p : Params ℝ} {msq2 : ℝ} (h : AtLimit3 l p msq2) (At : ℝ) :
    AtLimit3 l (withAt p At) msq2 := h

/-- the conversion of a limit -/
def fullE : Limit → E
  | .general => fullGen | .qu => fullQU | .qg => fullQG | .ug => fullUG | .qug => fullQUG | _ => fullDeg

theorem full_eq (dl : ℝ → ℝ) (ρ : ℕ → ℝ) (l : Limit) : eval dl ρ (fullE l) =
    2 * (eval dl ρ (l1E l) * (3 * (eval dl ρ (yE l) * eval dl ρ (yE l)) + 2 * eval dl ρ (y2E l)) +
      (eval dl ρ (l2E l) - 4 * eval dl ρ (yE l) * eval dl ρ (l1E l)) * (eval dl ρ (g3 (msOf l)) + 2 * eval dl ρ (yE l))) := by
  have : eval dl ρ (fullE l) = ((2 : ℕ) : ℚ) * (eval dl ρ (l1E l) * (((3 : ℕ) : ℚ) * (eval dl ρ (yE l) * eval dl ρ (yE l)) +
      ((2 : ℕ) : ℚ) * eval dl ρ (y2E l)) +
      (eval dl ρ (l2E l) - ((4 : ℕ) : ℚ) * eval dl ρ (yE l) * eval dl ρ (l1E l)) *
        (eval dl ρ (g3 (msOf l)) + ((2 : ℕ) : ℚ) * eval dl ρ (yE l))) := by cases l <;> rfl
  rw [this]; norm_num

theorem poly_limit {dl : ℝ → ℝ} (hT : ∀ y < 1, dl y = Li2.Li2 y) {l : Limit} {p : Params ℝ} {msq2 q u s : ℝ}
    (h : Roots l p msq2 q u s) (L : ℝ) : ∃ a : ℕ → ℝ, ∀ X,
      eval dl (pt dl q u s p.MG X L) (fullE l) = ∑ k ∈ Finset.range 7, a k * X ^ k ∧
      eval dl (pt dl q u s p.MG X L) (xtE l x4 (nat 0) (nat 0)) = -(a 4 * X ^ 4) ∧
      eval dl (pt dl q u s p.MG X L) (xtE l (nat 0) x5 (nat 0)) = -(a 5 * X ^ 5) ∧
      eval dl (pt dl q u s p.MG X L) (xtE l (nat 0) (nat 0) x6) = -(a 6 * X ^ 6) := by
  have hq := h.q0
  have hu := h.u0
  have hs := h.s0
  have hm := h.m0
  have e := h.eqs
  have d2 : ∀ {a b : ℝ}, 0 < a → 0 < b → a ≠ b → a * a - b * b ≠ 0 := fun ha hb hne he => by
    apply hne
    exact (mul_self_inj_of_nonneg ha.le hb.le).1 (by linarith)
  have fac : ∀ (es : List E) (ρ : ℕ → ℝ), (∀ i (hi : i < es.length), eval dl ρ es[i] ≠ 0) → ∀ f ∈ es, eval dl ρ f ≠ 0 := by
    intro es ρ hh f hf
    obtain ⟨i, hi, rfl⟩ := List.getElem_of_mem hf
    exact hh i hi
  cases l with
  | other i => exact e.elim
  | general =>
    refine poly_of agreeGen linearGen (by simp [cfgGen, wts]) hT hq hu hs hm L (fun X => ?_) (by decide +kernel)
    intro f hf
    simp only [cfgGen, List.mem_cons, List.mem_nil_iff, or_false] at hf
    rcases hf with rfl | rfl | rfl | rfl | rfl | rfl
    · exact d2 hq hu e.2.2
    · exact d2 hm hu e.2.1
    · exact d2 hm hq e.1
    · exact hu.ne'
    · exact hm.ne'
    · exact hq.ne'
  | qu =>
    refine poly_of agreeQU linearQU (by simp [cfgQU, wts]) hT hq hu hs hm L (fun X => ?_) (by decide +kernel)
    intro f hf
    simp only [cfgQU, List.mem_cons, List.mem_nil_iff, or_false] at hf
    rcases hf with rfl | rfl | rfl
    · exact d2 hm hq e.2
    · exact hm.ne'
    · exact hq.ne'
  | qg =>
    refine poly_of agreeQG linearQG (by simp [cfgQG, wts]) hT hq hu hs hm L (fun X => ?_) (by decide +kernel)
    intro f hf
    simp only [cfgQG, List.mem_cons, List.mem_nil_iff, or_false] at hf
    rcases hf with rfl | rfl | rfl | rfl | rfl | rfl
    · exact d2 hq hu e.2.1
    · exact d2 hu hs e.2.2.1
    · exact d2 hq hs e.2.2.2
    · exact hu.ne'
    · exact hs.ne'
    · exact hq.ne'
  | ug =>
    refine poly_of agreeUG linearUG (by simp [cfgQG, wts]) hT hq hu hs hm L (fun X => ?_) (by decide +kernel)
    intro f hf
    simp only [cfgQG, List.mem_cons, List.mem_nil_iff, or_false] at hf
    rcases hf with rfl | rfl | rfl | rfl | rfl | rfl
    · exact d2 hq hu e.2.1
    · exact d2 hu hs e.2.2.1
    · exact d2 hq hs e.2.2.2
    · exact hu.ne'
    · exact hs.ne'
    · exact hq.ne'
  | qug =>
    refine poly_of agreeQUG linearQUG (by simp [cfgQUG, wts]) hT hq hu hs hm L (fun X => ?_) (by decide +kernel)
    intro f hf
    simp only [cfgQUG, List.mem_cons, List.mem_nil_iff, or_false] at hf
    rcases hf with rfl | rfl | rfl
    · exact d2 hq hs e.2.2
    · exact hs.ne'
    · exact hq.ne'
  | degenerate =>
    refine poly_of agreeDeg linearDeg (by simp [cfgDeg, wts]) hT hq hu hs hm L (fun X => ?_) (by decide +kernel)
    intro f hf
    simp only [cfgDeg, List.mem_cons, List.mem_nil_iff, or_false] at hf
    subst hf
    exact hq.ne'

variable {dl : ℝ → ℝ} {other : TcObj ℝ → ThrOrder → Int → Except String ℝ} {l : Limit} {p : Params ℝ} {msq2 : ℝ}

theorem other_ne (h : AtLimit3 l p msq2) : ∀ i, l ≠ .other i := fun i hi => by subst hi; exact h.1.2.2.2

/-- the corrections as values of the syntax trees at the point with trilinear coupling `At` -/
theorem vals_at (dl : ℝ → ℝ) (h : AtLimit3 l p msq2) (n : Int) (At : ℝ) :
    Vals dl l (tc l (withAt p At) msq2) n (pt dl (Real.sqrt (p.mq2 2 2)) (Real.sqrt (p.mu2 2 2)) (Real.sqrt msq2) p.MG
      (At - p.mu / (p.vu / p.vd)) (logMR p n (p.mq2 2 2))) := by
  have := vals dl (atLimit_withAt h At) 6 n
  exact ⟨this.1, this.2, this.3, this.4, this.5, this.6, this.7, this.8⟩

/-- **C57.** For every mass limit, at every point at which the limit is meant and for both values of `omitLogs` (any integer), the
difference between the MSbar (`TEST`) and the DRbar' value of the three-loop correction, as a function of `Xt = At - mu/tan(beta)`,
is a polynomial of degree at most 6, and for `k = 4, 5, 6` `getDRbarPrimeToMSbarXtTerms(limit, k, omitLogs)` is minus its term of
order `Xt^k`.  `dl` is the dilogarithm. -/
theorem C57_xt_terms (hT : ∀ y < 1, dl y = Li2.Li2 y) (h : AtLimit3 l p msq2) (n : Int) :
    ∃ a : ℕ → ℝ, ∀ At, let c := tc l (withAt p At) msq2; let X := At - p.mu / (p.vu / p.vd)
      (∃ d m, c.thr (thrFns dl other) .LAMBDA_AT_AS2 .DRBARPRIME n = .ok d ∧
        c.thr (thrFns dl other) .LAMBDA_AT_AS2 .TEST n = .ok m ∧ m - d = ∑ k ∈ Finset.range 7, a k * X ^ k) ∧
      c.dXtTerms dl l 4 n = .ok (-(a 4 * X ^ 4)) ∧ c.dXtTerms dl l 5 n = .ok (-(a 5 * X ^ 5)) ∧
      c.dXtTerms dl l 6 n = .ok (-(a 6 * X ^ 6)) := by
  obtain ⟨a, ha⟩ := poly_limit hT (roots h) (logMR p n (p.mq2 2 2))
  refine ⟨a, fun At => ?_⟩
  intro c X
  obtain ⟨f0, f4, f5, f6⟩ := ha X
  have V := vals_at dl h n At
  refine ⟨?_, by rw [V.xt4, f4], by rw [V.xt5, f5], by rw [V.xt6, f6]⟩
  have e1 : c.limit = l := Cont.limit_setLimit _ (other_ne h)
  obtain ⟨m, hm⟩ : ∃ m, c.dLamAtAs2 dl l n = .ok m := by
    have := other_ne h
    unfold TcObj.dLamAtAs2
    cases l with
    | other i => exact absurd rfl (this i)
    | _ => exact ⟨_, rfl⟩
  set ρ := pt dl (Real.sqrt (p.mq2 2 2)) (Real.sqrt (p.mu2 2 2)) (Real.sqrt msq2) p.MG (At - p.mu / (p.vu / p.vd))
    (logMR p n (p.mq2 2 2)) with hρ
  have hm' : (thrFns dl other).lamAtAs2 c l n = .ok m := hm
  have hy' : (thrFns dl other).ytAs2 c l n = .ok (eval dl ρ (y2E l)) := V.yt2
  have hd : c.thr (thrFns dl other) .LAMBDA_AT_AS2 .DRBARPRIME n = .ok (m + (eval dl ρ (l2E l) * (-2 * eval dl ρ (g3 (msOf l)) -
      4 * eval dl ρ (yE l)) + eval dl ρ (l1E l) * (8 * eval dl ρ (g3 (msOf l)) * eval dl ρ (yE l) +
        10 * (eval dl ρ (yE l) * eval dl ρ (yE l)) - 4 * eval dl ρ (y2E l)))) := by
    simp only [TcObj.thr, e1, hm', hy', bindOk, if_true]
    rw [show c.dYtAs l n = _ from V.yt, show c.dLamAt l n = _ from V.la,
      show c.dLamAtAs (thrFns dl other) l n = _ from V.las _ rfl, show c.dG3 n = _ from V.g3]
    simp only [bindOk, pure, Except.pure, real_ofNat, Himalaya.pow2]
    push_cast
    rfl
  refine ⟨_, m, hd, ?_, ?_⟩
  · simp only [TcObj.thr, e1, hm', bindOk, reduceCtorEq, if_false]; rfl
  · rw [← f0, full_eq]
    ring

/-- **C57.** Hence the reported shift: of the polynomial of `C57_xt_terms` (with coefficients `a` for `omitLogs = n` and `b` for
`omitXtLogs = m`) all orders up to `Xt^3` (`xtOrder <= 3`) or `Xt^4` (`xtOrder > 3`) are kept, and of the higher ones only the
difference between the coefficients with and without the logarithms of the scale. -/
theorem C57_shift (hT : ∀ y < 1, dl y = Li2.Li2 y) (h : AtLimit3 l p msq2) (n m : Int) :
    ∃ a b : ℕ → ℝ, ∀ At, let X := At - p.mu / (p.vu / p.vd); let c := tc l (withAt p At) msq2
      (∀ d t, c.thr (thrFns dl other) .LAMBDA_AT_AS2 .DRBARPRIME n = .ok d → c.thr (thrFns dl other) .LAMBDA_AT_AS2 .TEST n = .ok t →
        t - d = ∑ k ∈ Finset.range 7, a k * X ^ k) ∧
      (∀ d t, c.thr (thrFns dl other) .LAMBDA_AT_AS2 .DRBARPRIME m = .ok d → c.thr (thrFns dl other) .LAMBDA_AT_AS2 .TEST m = .ok t →
        t - d = ∑ k ∈ Finset.range 7, b k * X ^ k) ∧
      ∀ xo : Int, c.shift (thrFns dl other) xo n m = .ok (
        ∑ k ∈ Finset.range 7, (if (k : Int) ≤ (if xo ≤ 3 then 3 else 4) then a k else a k - b k) * X ^ k) := by
  obtain ⟨a, ha⟩ := C57_xt_terms (other := other) hT h n
  obtain ⟨b, hb⟩ := C57_xt_terms (other := other) hT h m
  refine ⟨a, b, fun At => ?_⟩
  intro X c
  obtain ⟨⟨d, t, hd, ht, hdt⟩, -⟩ := ha At
  obtain ⟨⟨d', t', hd', ht', hdt'⟩, x4, x5, x6⟩ := hb At
  refine ⟨fun d1 t1 h1 h2 => ?_, fun d1 t1 h1 h2 => ?_, fun xo => ?_⟩
  · rw [hd] at h1; rw [ht] at h2; injection h1 with h1; injection h2 with h2; rw [← h1, ← h2]; exact hdt
  · rw [hd'] at h1; rw [ht'] at h2; injection h1 with h1; injection h2 with h2; rw [← h1, ← h2]; exact hdt'
  · have e1 : c.limit = l := Cont.limit_setLimit _ (other_ne h)
    have V := vals_at dl h n At
    obtain ⟨s, hs⟩ : ∃ s, c.shift (thrFns dl other) xo n m = .ok s := by
      have y4 : (thrFns dl other).xtTerms c l 4 m = _ := x4
      have y5 : (thrFns dl other).xtTerms c l 5 m = _ := x5
      have y6 : (thrFns dl other).xtTerms c l 6 m = _ := x6
      have v1 : c.dYtAs l n = _ := V.yt
      have v2 : c.dLamAt l n = _ := V.la
      have v3 : c.dLamAtAs (thrFns dl other) l n = _ := V.las _ rfl
      have v4 : (thrFns dl other).ytAs2 c l n = _ := V.yt2
      unfold TcObj.shift
      simp only [e1, y4, y5, y6, bindOk, v1, v2, v3, v4]
      by_cases hx : xo ≤ 3
      · simp only [hx, if_true]; exact ⟨_, rfl⟩
      · simp only [hx, if_false]; exact ⟨_, rfl⟩
    rw [hs]
    have := C38_shift (c := c) (T := thrFns dl other) (n := n) d t s _ _ _ xo m hd ht hs (by rw [e1]; exact x4) (by rw [e1]; exact x5)
      (by rw [e1]; exact x6)
    rw [show At - p.mu / (p.vu / p.vd) = X from rfl] at this
    have hs' : s = t - d + ((if xo ≤ 3 then -(b 4 * X ^ 4) else 0) + -(b 5 * X ^ 5) + -(b 6 * X ^ 6)) := by linarith
    rw [hs', hdt]
    congr 1
    simp only [Finset.sum_range_succ, Finset.sum_range_zero]
    by_cases hx : xo ≤ 3
    · simp only [hx, if_true]; norm_num; ring
    · simp only [hx, if_false]; norm_num; ring

/-- The hypotheses are met: all masses different, all masses equal, and equal stop masses. -/
example : (∀ y < 1, Li2.Li2 y = Li2.Li2 y) ∧
    AtLimit3 .general { onePoint with mq2 := fun _ _ => 4, mu2 := fun _ _ => 9, MG := 5, MSt := ⟨1, 2⟩ } 7 ∧
    AtLimit3 .qu { onePoint with mq2 := fun _ _ => 4, mu2 := fun _ _ => 4, MG := 5, MSt := ⟨1, 2⟩ } 7 ∧
    AtLimit3 .qg { onePoint with mq2 := fun _ _ => 4, mu2 := fun _ _ => 9, MG := 2, MSt := ⟨1, 2⟩ } 7 ∧
    AtLimit3 .ug { onePoint with mq2 := fun _ _ => 4, mu2 := fun _ _ => 9, MG := 3, MSt := ⟨1, 2⟩ } 7 ∧
    AtLimit3 .qug { onePoint with mq2 := fun _ _ => 4, mu2 := fun _ _ => 4, MG := 2, MSt := ⟨1, 2⟩ } 7 ∧
    AtLimit3 .degenerate { onePoint with mq2 := fun _ _ => 4, mu2 := fun _ _ => 4, MG := 2, MSt := ⟨1, 2⟩ } 4 := by
  simp only [AtLimit3, AtLimit]
  norm_num

/-- all supersymmetric masses and the scale equal to 1, `Xt = 1` -/
noncomputable def unitPoint : Params ℝ :=
  { onePoint with
    scale := 1, mq2 := fun _ _ => 1, mu2 := fun _ _ => 1, MG := 1, MSt := ⟨1, 1⟩, mu := 0, Au := fun _ _ => 1 }

theorem unitPoint_limit : AtLimit3 .degenerate unitPoint 1 := by
  simp only [AtLimit3, AtLimit, unitPoint]
  norm_num

/-- **C57, finding.** The documentation says that `xtOrder` omits the contributions of order `Xt^(xtOrder+1)` and higher.  For
`xtOrder = 6` nothing should then be omitted from the sixth-order polynomial, but the terms of order `Xt^5` and `Xt^6` are: the shift
is not the difference between the MSbar and the DRbar' value. -/
theorem C57_xt_order_ignored_above_four :
    ∃ (p : Params ℝ) (msq2 : ℝ), AtLimit3 .degenerate p msq2 ∧ ∀ other, ∃ d t s,
      let c := tc .degenerate p msq2
      c.thr (thrFns Li2.Li2 other) .LAMBDA_AT_AS2 .DRBARPRIME 1 = .ok d ∧ c.thr (thrFns Li2.Li2 other) .LAMBDA_AT_AS2 .TEST 1 = .ok t ∧
      c.shift (thrFns Li2.Li2 other) 6 1 1 = .ok s ∧ s ≠ t - d := by
  refine ⟨unitPoint, 1, unitPoint_limit, fun other => ?_⟩
  have e : withAt unitPoint 1 = unitPoint := by
    simp only [withAt, unitPoint]
    congr 1
    funext i j
    simp only [Mat3.set22, ite_self]
  have h0 := C57_xt_terms (dl := Li2.Li2) (other := other) (fun _ _ => rfl) unitPoint_limit 1
  obtain ⟨a, ha⟩ := h0
  obtain ⟨⟨d, t, hd, ht, hdt⟩, h4, h5, h6⟩ := ha 1
  obtain ⟨a', b', hs'⟩ := C57_shift (dl := Li2.Li2) (other := other) (fun _ _ => rfl) unitPoint_limit 1 1
  have hs := (hs' 1).2.2 6
  rw [e] at hd ht h4 h5 h6 hs
  refine ⟨d, t, _, hd, ht, hs, ?_⟩
  have e1 : (tc .degenerate unitPoint 1).limit = .degenerate := Cont.limit_setLimit _ (other_ne unitPoint_limit)
  have := C38_shift (c := tc .degenerate unitPoint 1) (T := thrFns Li2.Li2 other) (n := 1) d t _ _ _ _ 6 1 hd ht hs
    (by rw [e1]; exact h4) (by rw [e1]; exact h5) (by rw [e1]; exact h6)
  have X1 : (1 : ℝ) - unitPoint.mu / (unitPoint.vu / unitPoint.vd) = 1 := by simp [unitPoint]
  have k5 : (tc .degenerate unitPoint 1).dXtTerms Li2.Li2 .degenerate 5 1 = .ok (1232 / 27) := by
    simp [TcObj.dXtTerms, Thr.xtTermsDeg, tc, TcObj.setLimit, unitPoint, calcXt, logMR, Himalaya.pow2, Misc.pow5, Misc.pow4, Misc.pow6, Misc.pow3, Misc.pow2]
    try norm_num
  have k6 : (tc .degenerate unitPoint 1).dXtTerms Li2.Li2 .degenerate 6 1 = .ok (160 / 9) := by
    simp [TcObj.dXtTerms, Thr.xtTermsDeg, tc, TcObj.setLimit, unitPoint, calcXt, logMR, Himalaya.pow2, Misc.pow5, Misc.pow4, Misc.pow6, Misc.pow3, Misc.pow2]
    try norm_num
  rw [h5] at k5
  rw [h6] at k6
  injection k5 with k5
  injection k6 with k6
  simp only [k5, k6] at this
  intro hc
  rw [hc] at this
  norm_num at this

end Himalaya.Drop
