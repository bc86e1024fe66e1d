import Verif.EFT.ScaleLim
import Verif.EFT.Cont

/-!
# C58: the EFT Higgs mass does not depend on the renormalization scale to the order calculated

Specification: the textbook one-loop MSSM renormalization group equations in the limit where only `g3` is kept
(`QcdRunning`), in the variable `s = ln Q²`:
`dMt/ds = -(8/3) a Mt`, `dmQ²/ds = dmU²/ds = -(16/3) a MG²`, `dAt/ds = (16/3) a MG`, `a = g3²/(4π)²`.
-/

set_option linter.unusedSimpArgs false
set_option linter.unusedVariables false

namespace Himalaya.Scale
open Filter Topology
open Himalaya.Cont

/-- `g3²/(4π)²` -/
noncomputable def as4 (p : Params ℝ) : ℝ := p.g3 ^ 2 / (4 * Real.pi) ^ 2

/-- The family of parameter points `P s` (`s = ln Q²`) obeys the one-loop renormalization group equations of the MSSM at
`s = t`, with all couplings but `g3` neglected.  (The running of `g3` and of the gluino mass enters only at higher order; both
are taken constant.) -/
structure QcdRunning (P : ℝ → Params ℝ) (t : ℝ) : Prop where
  scale : ∀ s, (P s).scale ^ 2 = Real.exp s
  g3 : ∀ s, (P s).g3 = (P t).g3
  MG : ∀ s, (P s).MG = (P t).MG
  mu : ∀ s, (P s).mu = (P t).mu
  vu : ∀ s, (P s).vu = (P t).vu
  vd : ∀ s, (P s).vd = (P t).vd
  Mt : HasDerivAt (fun s => (P s).Mt) (-(8 / 3) * as4 (P t) * (P t).Mt) t
  mq2 : HasDerivAt (fun s => (P s).mq2 2 2) (-(16 / 3) * as4 (P t) * (P t).MG ^ 2) t
  mu2 : HasDerivAt (fun s => (P s).mu2 2 2) (-(16 / 3) * as4 (P t) * (P t).MG ^ 2) t
  At : HasDerivAt (fun s => (P s).Au 2 2) (16 / 3 * as4 (P t) * (P t).MG) t

/-- the parameter points for which a mass limit is meant -/
def AtLimit (l : Limit) (p : Params ℝ) : Prop :=
  0 < p.MG ∧ 0 < p.mq2 2 2 ∧ 0 < p.mu2 2 2 ∧ match l with
  | .general => p.MG ^ 2 ≠ p.mq2 2 2 ∧ p.MG ^ 2 ≠ p.mu2 2 2 ∧ p.mq2 2 2 ≠ p.mu2 2 2
  | .qu => p.mq2 2 2 = p.mu2 2 2 ∧ p.MG ^ 2 ≠ p.mq2 2 2
  | .qg => p.MG ^ 2 = p.mq2 2 2 ∧ p.mq2 2 2 ≠ p.mu2 2 2
  | .ug => p.MG ^ 2 = p.mu2 2 2 ∧ p.mq2 2 2 ≠ p.mu2 2 2
  | .qug | .degenerate => p.MG ^ 2 = p.mq2 2 2 ∧ p.MG ^ 2 = p.mu2 2 2
  | .other _ => False

/-- the calculator as constructed for the parameters `p`, after `disable_non_as_terms` -/
noncomputable def built (p : Params ℝ) : EftCalc ℝ := disableNonAs ⟨p, eftOrders p⟩

/-- `built` is what the constructor followed by `disable_non_as_terms` yields -/
theorem built_of {X : Ext ℝ} {p : Params ℝ} {c : EftCalc ℝ} (h : mh2EftCalculator X p = .ok c) : disableNonAs c = built c.p := by
  unfold mh2EftCalculator at h
  split at h
  · cases h
  · injection h with h; subst h; rfl

/-- a `ThresholdCalculator` for the parameters `p` with mass limit `l` -/
def tc (l : Limit) (p : Params ℝ) (msq2 : ℝ) : TcObj ℝ := (⟨p, msq2, 6⟩ : TcObj ℝ).setLimit l

noncomputable def yOf (l : Limit) (m : ℝ) : Pt → ℝ := match l with
  | .general => yGen m | .qu => yQU m | .qg => yQG m | .ug => yUG m | _ => yQUG m
noncomputable def l1Of (l : Limit) (m : ℝ) : Pt → ℝ := match l with
  | .general => l1Gen m | .qu => l1QU m | .qg => l1Gen m | .ug => l1Gen m | _ => l1QU m
noncomputable def l2Of (dl : ℝ → ℝ) (l : Limit) (m : ℝ) : Pt → ℝ := match l with
  | .general => l2Gen dl m | .qu => l2QU dl m | .qg => l2QG dl m | .ug => l2UG dl m | _ => l2QUG dl m

theorem cs_of {dl : ℝ → ℝ} (hT : ∀ y < 1, dl y = Li2.Li2 y) {l : Limit} {p : Params ℝ} (h : AtLimit l p) (X L : ℝ) :
    Cs p.MG (yOf l p.MG) (l1Of l p.MG) (l2Of dl l p.MG) (p.mq2 2 2, p.mu2 2 2, X, L) := by
  obtain ⟨hm, hq, hu, h⟩ := h
  have nz : ∀ {a b : ℝ}, a ≠ b → a - b ≠ 0 := fun h => sub_ne_zero.2 h
  cases l with
  | general => exact cs_gen hT hm.ne' hq hu (nz h.2.2) (nz h.1) (nz h.2.1)
  | qu => exact cs_qu hT hm.ne' hq (nz h.2)
  | qg => exact cs_qg hT hm h.1.symm hu (nz h.2)
  | ug => exact cs_ug hT hm h.1.symm hq (nz h.2)
  | qug => exact cs_qug hm h.1.symm
  | degenerate => exact cs_qug hm h.1.symm
  | other => exact h.elim

theorem raw_of (T : ThrFns ℝ) {l : Limit} (hl : ∀ i, l ≠ .other i) {p : Params ℝ} (hm : 0 < p.MG) (msq2 : ℝ) (n : Int) :
    Raw T (⟨p, msq2, 6⟩ : TcObj ℝ) n l
      (yOf l p.MG (p.mq2 2 2, p.mu2 2 2, calcXt p, logMR p n (p.mq2 2 2)))
      (l1Of l p.MG (p.mq2 2 2, p.mu2 2 2, calcXt p, logMR p n (p.mq2 2 2)))
      (l2Of T.dilog l p.MG (p.mq2 2 2, p.mu2 2 2, calcXt p, logMR p n (p.mq2 2 2))) := by
  have e2 : Himalaya.pow2 p.MG = p.MG ^ 2 := by unfold Himalaya.pow2; ring
  have e1 : FOps.sqrt (Himalaya.pow2 p.MG) = p.MG := by rw [e2, real_sqrt]; exact Real.sqrt_sq hm.le
  constructor
  · simp only [TcObj.dYtAs, e1]
    cases l with
    | other i => exact absurd rfl (hl i)
    | _ => simp only [yOf, yGen, yQU, yQG, yUG, yQUG, ← e2, reduceCtorEq, if_true, if_false, real_sqrt]
  · simp only [TcObj.dLamAt, e1]
    cases l with
    | other i => exact absurd rfl (hl i)
    | _ => simp only [l1Of, l1Gen, l1QU, ← e2, reduceCtorEq, if_true, if_false, real_sqrt, or_false, or_true, false_or, true_or]
  · simp only [TcObj.dLamAtAs, e1]
    cases l with
    | other i => exact absurd rfl (hl i)
    | _ => simp only [l2Of, l2Gen, l2QU, l2QG, l2UG, l2QUG, ← e2, reduceCtorEq, if_true, if_false, real_sqrt]

theorem built_on {p : Params ℝ} (ht : (1 : ℝ) / 10 ^ 10 ≤ |p.Mt|) (o : Order) :
    (built p).on o = (o = .YT4 ∨ o = .G32YT4 ∨ o = .YT6 ∧ (built p).on .YT6 = true ∨
      (o = .YTAU2YT4 ∨ o = .ONLY_AT_AS) ∧ (built p).on o = true : Bool) := by
  have h : ∀ o, (built p).on o =
      if o = .YT4 ∨ o = .G32YT4 ∨ o = .YTAU2YT4 ∨ o = .ONLY_AT_AS then (eftOrders p o != 0) else false := by
    intro o; unfold EftCalc.on built; rw [C36_disable_non_as]; split <;> simp
  simp only [h, C36_constructed, massive _ ht]
  cases o <;> simp
  split
  · rename_i h'; simp [h']
  · rename_i h'; simp at h'; simp [h']

/-- the corrections of the calculator in terms of the threshold formulas -/
theorem built_values (T : ThrFns ℝ) (fB : ℝ → ℝ → ℝ → ℝ) {l : Limit} (hl : ∀ i, l ≠ .other i) {p : Params ℝ} (hm : 0 < p.MG)
    (ht : (1 : ℝ) / 10 ^ 10 ≤ |p.Mt|) (msq2 : ℝ) :
    let x : Pt := (p.mq2 2 2, p.mu2 2 2, calcXt p, logMR p 1 (p.mq2 2 2))
    let lt := Real.log (p.scale ^ 2 / p.Mt ^ 2)
    let thr := fun o n => (tc l p msq2).thr T o .DRBARPRIME n
    (built p).loop1 thr fB 1 1 = .ok (specAt p lt (l1Of l p.MG x)) ∧
    (built p).loop2 thr 1 1 = .ok (specAtAs p lt (-yOf l p.MG x)
      (l2Of T.dilog l p.MG x - 4 * l1Of l p.MG x * yOf l p.MG x)) := by
  intro x lt thr
  have h := raw_of T hl hm msq2 1
  have e1 : (tc l p msq2).limit = l := limit_setLimit _ hl
  have t1 : thr .LAMBDA_AT 1 = .ok (l1Of l p.MG x) := by
    simp only [thr, TcObj.thr, e1]
    exact h.la
  have t2 : thr .YT_AS 1 = .ok (-yOf l p.MG x) := by
    simp only [thr, TcObj.thr, e1]
    rw [show (tc l p msq2).dYtAs l 1 = _ from h.yt]; rfl
  have t3 : thr .LAMBDA_AT_AS 1 = .ok (l2Of T.dilog l p.MG x - 4 * l1Of l p.MG x * yOf l p.MG x) := by
    simp only [thr, TcObj.thr, e1]
    rw [show (tc l p msq2).dYtAs l 1 = _ from h.yt, show (tc l p msq2).dLamAt l 1 = _ from h.la,
      show (tc l p msq2).dLamAtAs T l 1 = _ from h.las]
    simp only [bindOk, if_true, real_ofNat, pure, Except.pure]
    push_cast; rfl
  constructor
  · have := loop1_on (c := built p) (thr := thr) fB 1 1 _ t1 (built_on ht)
    rw [this]; simp only [Int.cast_one, one_mul]; rfl
  · have h6 : (built p).on .YT6 = false := rfl
    have := loop2_on (c := built p) (thr := thr) 1 1 _ _ t2 t3 0 0 0 0 (fun h => by rw [h6] at h; cases h) (built_on ht)
    rw [this, h6]; simp only [Int.cast_one, one_mul, Bool.false_eq_true, if_false, add_zero]; rfl

/-- **C58.** The sum of the one- and two-loop corrections of the EFT calculator (orders `at` and `at as`) changes with the
renormalization scale only at order `g3⁴`, i.e. at three loops, if the parameters run with the renormalization group equations:
its derivative with respect to `ln Q²` is `g3⁴` times a quantity which does not depend on `g3`.  This holds in each of the six
cases of the threshold formulas. -/
theorem C58_scale_independence (T : ThrFns ℝ) (hT : ∀ x < 1, T.dilog x = Li2.Li2 x) (fB : ℝ → ℝ → ℝ → ℝ) (l : Limit) :
    ∃ R : Params ℝ → ℝ, (∀ p g, R { p with g3 := g } = R p) ∧
      ∀ (P : ℝ → Params ℝ) (msq2 : ℝ → ℝ) (t : ℝ), QcdRunning P t → AtLimit l (P t) →
        (1 : ℝ) / 10 ^ 10 < |(P t).Mt| → (∀ᶠ s in 𝓝 t, (P s).MSt.x0 ≠ 0) →
        ∃ m1 m2 : ℝ → ℝ,
          (∀ᶠ s in 𝓝 t, (built (P s)).loop1 (fun o n => (tc l (P s) (msq2 s)).thr T o .DRBARPRIME n) fB 1 1 = .ok (m1 s) ∧
            (built (P s)).loop2 (fun o n => (tc l (P s) (msq2 s)).thr T o .DRBARPRIME n) 1 1 = .ok (m2 s)) ∧
          HasDerivAt (fun s => m1 s + m2 s) ((P t).g3 ^ 4 * R (P t)) t := by
  refine ⟨fun p => 2 * p.Mt ^ 4 / ((p.vu ^ 2 + p.vd ^ 2) * (4 * Real.pi) ^ 6) *
    rest p.MG (yOf l p.MG) (l1Of l p.MG) (l2Of T.dilog l p.MG) (p.mq2 2 2, p.mu2 2 2, calcXt p, logMR p 1 (p.mq2 2 2))
      (Real.log (p.scale ^ 2 / p.Mt ^ 2)), fun p g => rfl, ?_⟩
  intro P msq2 t hP hA hMt hS
  have hM : ∀ᶠ s in 𝓝 t, (1 : ℝ) / 10 ^ 10 ≤ |(P s).Mt| := by
    filter_upwards [hP.Mt.continuousAt.abs.eventually (lt_mem_nhds hMt)] with s hs using hs.le
  have hl : ∀ i, l ≠ .other i := by rintro i rfl; exact hA.2.2.2
  have hm : ∀ s, 0 < (P s).MG := fun s => by rw [hP.MG s]; exact hA.1
  refine ⟨fun s => specAt (P s) (Real.log ((P s).scale ^ 2 / (P s).Mt ^ 2))
      (l1Of l (P s).MG ((P s).mq2 2 2, (P s).mu2 2 2, calcXt (P s), logMR (P s) 1 ((P s).mq2 2 2))),
    fun s => specAtAs (P s) (Real.log ((P s).scale ^ 2 / (P s).Mt ^ 2))
      (-yOf l (P s).MG ((P s).mq2 2 2, (P s).mu2 2 2, calcXt (P s), logMR (P s) 1 ((P s).mq2 2 2)))
      (l2Of T.dilog l (P s).MG ((P s).mq2 2 2, (P s).mu2 2 2, calcXt (P s), logMR (P s) 1 ((P s).mq2 2 2))
       - 4 * l1Of l (P s).MG ((P s).mq2 2 2, (P s).mu2 2 2, calcXt (P s), logMR (P s) 1 ((P s).mq2 2 2))
        * yOf l (P s).MG ((P s).mq2 2 2, (P s).mu2 2 2, calcXt (P s), logMR (P s) 1 ((P s).mq2 2 2))),
    by filter_upwards [hM] with s hs using built_values T fB hl (hm s) hs (msq2 s), ?_⟩
  have nzM : ∀ {s}, (1 : ℝ) / 10 ^ 10 ≤ |(P s).Mt| → (P s).Mt ≠ 0 := fun {s} hs h => by rw [h] at hs; norm_num at hs
  have hMt0 : (P t).Mt ≠ 0 := nzM hMt.le
  set a := as4 (P t) with ha
  set m := (P t).MG with hmd
  let x : ℝ → Pt := fun s => ((P s).mq2 2 2, (P s).mu2 2 2, calcXt (P s), Real.log ((P s).mq2 2 2) - s)
  let lt : ℝ → ℝ := fun s => s - 2 * Real.log ((P s).Mt)
  have elt : ∀ s, (P s).Mt ≠ 0 → Real.log ((P s).scale ^ 2 / (P s).Mt ^ 2) = lt s := fun s h0 => by
    rw [hP.scale s, Real.log_div (Real.exp_ne_zero _) (pow_ne_zero _ h0), Real.log_exp, Real.log_pow]; push_cast; rfl
  have elog : ∀ s, (P s).mq2 2 2 ≠ 0 → (P s).MSt.x0 ≠ 0 → logMR (P s) 1 ((P s).mq2 2 2) = Real.log ((P s).mq2 2 2) - s := fun s h hS => by
    have hsc : (P s).scale ^ 2 ≠ 0 := by rw [hP.scale s]; exact Real.exp_ne_zero _
    have hs2 : (P s).MSt.x0 ^ 2 ≠ 0 := pow_ne_zero _ hS
    unfold logMR Himalaya.pow2
    simp only [real_log, real_ofInt, Int.cast_one, one_mul, ← sq]
    rw [Real.log_div hs2 hsc, Real.log_div h hs2, hP.scale s, Real.log_exp]; ring
  have hx : HasDerivAt x ((0, 0, 0, -1) + a • flow m (x t)) t := by
    have hq0 := hA.2.1.ne'
    have k4 := (hP.mq2.log hq0).sub (hasDerivAt_id t)
    have k3 : HasDerivAt (fun s => calcXt (P s)) (16 / 3 * a * m) t := by
      have : (fun s => calcXt (P s)) = fun s => (P s).Au 2 2 - (P t).mu / ((P t).vu / (P t).vd) := by
        funext s; unfold calcXt eftTanBeta; rw [hP.mu s, hP.vu s, hP.vd s]
      rw [this]; exact hP.At.sub_const _
    refine HasDerivAt.congr_deriv (hP.mq2.prodMk (hP.mu2.prodMk (k3.prodMk k4))) ?_
    simp only [flow, x, Prod.smul_mk, smul_eq_mul, Prod.mk_add_mk, Prod.mk.injEq]
    refine ⟨by ring, by ring, by ring, ?_⟩
    simp only [ha, hmd]
    field_simp
    ring
  have hlt : HasDerivAt lt (1 + 16 / 3 * a) t := by
    have := (hasDerivAt_id t).sub ((hP.Mt.log hMt0).const_mul 2)
    refine HasDerivAt.congr_deriv this ?_
    field_simp
    ring
  have hc := cs_core (C := 2 / (((P t).vu ^ 2 + (P t).vd ^ 2) * (4 * Real.pi) ^ 2)) (a := a) (x := x)
    (cs_of hT hA (calcXt (P t)) (Real.log ((P t).mq2 2 2) - t)) hx hP.Mt hlt
  have hev : ∀ᶠ s in 𝓝 t, (P s).mq2 2 2 ≠ 0 := hP.mq2.continuousAt.eventually_ne hA.2.1.ne'
  have hpi := Real.pi_ne_zero
  have hfin := hc.congr_of_eventuallyEq (f₁ := fun s =>
    specAt (P s) (Real.log ((P s).scale ^ 2 / (P s).Mt ^ 2)) (l1Of l (P s).MG ((P s).mq2 2 2, (P s).mu2 2 2, calcXt (P s), logMR (P s) 1 ((P s).mq2 2 2))) +
    specAtAs (P s) (Real.log ((P s).scale ^ 2 / (P s).Mt ^ 2))
      (-yOf l (P s).MG ((P s).mq2 2 2, (P s).mu2 2 2, calcXt (P s), logMR (P s) 1 ((P s).mq2 2 2)))
      (l2Of T.dilog l (P s).MG ((P s).mq2 2 2, (P s).mu2 2 2, calcXt (P s), logMR (P s) 1 ((P s).mq2 2 2))
       - 4 * l1Of l (P s).MG ((P s).mq2 2 2, (P s).mu2 2 2, calcXt (P s), logMR (P s) 1 ((P s).mq2 2 2))
        * yOf l (P s).MG ((P s).mq2 2 2, (P s).mu2 2 2, calcXt (P s), logMR (P s) 1 ((P s).mq2 2 2)))) (by
    filter_upwards [hev, hM, hS] with s hs hs1 hs2
    rw [elog s hs hs2, elt s (nzM hs1), hP.MG s]
    unfold specAt specAtAs
    rw [hP.g3 s, hP.vu s, hP.vd s]
    simp only [x, ha, as4]
    by_cases hv : (P t).vu ^ 2 + (P t).vd ^ 2 = 0
    · simp only [hv, zero_mul, div_zero, zero_mul]
    · field_simp)
  refine HasDerivAt.congr_deriv hfin ?_
  simp only
  rw [elog t hA.2.1.ne' hS.self_of_nhds, elt t hMt0]
  simp only [x, ha, as4, hmd]
  by_cases hv : (P t).vu ^ 2 + (P t).vd ^ 2 = 0
  · simp only [hv, zero_mul, div_zero, zero_mul, mul_zero]
  · field_simp

/-- through every parameter point with positive scale passes a family which obeys the renormalization group equations there -/
theorem exists_running (p : Params ℝ) (hs : 0 < p.scale) :
    ∃ (P : ℝ → Params ℝ) (t : ℝ), QcdRunning P t ∧ P t = p ∧ ∀ s, (P s).MSt = p.MSt := by
  let t := Real.log (p.scale ^ 2)
  let a := as4 p
  have set_self : ∀ m : Mat3 ℝ, m.set22 (m 2 2) = m := fun m => by
    funext i j; unfold Mat3.set22; split
    · rename_i h; rw [h.1, h.2]
    · rfl
  have e0 : ∀ m : Mat3 ℝ, ∀ u, m.set22 u 2 2 = u := fun m u => by simp [Mat3.set22]
  let P : ℝ → Params ℝ := fun s =>
    { p with
      scale := Real.exp (s / 2), Mt := p.Mt + (s - t) * (-(8 / 3) * a * p.Mt),
      mq2 := p.mq2.set22 (p.mq2 2 2 + (s - t) * (-(16 / 3) * a * p.MG ^ 2)),
      mu2 := p.mu2.set22 (p.mu2 2 2 + (s - t) * (-(16 / 3) * a * p.MG ^ 2)),
      Au := p.Au.set22 (p.Au 2 2 + (s - t) * (16 / 3 * a * p.MG)) }
  have ht : P t = p := by
    have h1 : Real.exp (t / 2) = p.scale := by
      rw [show t / 2 = Real.log p.scale by simp only [t, Real.log_pow]; push_cast; ring, Real.exp_log hs]
    simp only [P, sub_self, zero_mul, add_zero, set_self, h1]
  have hd : ∀ x v : ℝ, HasDerivAt (fun s : ℝ => x + (s - t) * v) v t := fun x v => by
    have := (((hasDerivAt_id t).sub_const t).mul_const v).const_add x
    simpa using this
  refine ⟨P, t, ⟨fun s => ?_, fun s => rfl, fun s => rfl, fun s => rfl, fun s => rfl, fun s => rfl, ?_, ?_, ?_, ?_⟩, ht, fun s => rfl⟩
  · show Real.exp (s / 2) ^ 2 = _
    rw [← Real.exp_nat_mul]; congr 1; push_cast; ring
  · rw [ht]; exact hd _ _
  · rw [ht]
    have : (fun s => (P s).mq2 2 2) = fun s => p.mq2 2 2 + (s - t) * (-(16 / 3) * a * p.MG ^ 2) := funext fun s => e0 p.mq2 _
    rw [this]; exact hd _ _
  · rw [ht]
    have : (fun s => (P s).mu2 2 2) = fun s => p.mu2 2 2 + (s - t) * (-(16 / 3) * a * p.MG ^ 2) := funext fun s => e0 p.mu2 _
    rw [this]; exact hd _ _
  · rw [ht]
    have : (fun s => (P s).Au 2 2) = fun s => p.Au 2 2 + (s - t) * (16 / 3 * a * p.MG) := funext fun s => e0 p.Au _
    rw [this]; exact hd _ _

/-- the hypotheses of `C58_scale_independence` are met, e.g. in the general case -/
example : ∃ (P : ℝ → Params ℝ) (t : ℝ), QcdRunning P t ∧ AtLimit .general (P t) ∧ (1 : ℝ) / 10 ^ 10 < |(P t).Mt| ∧
    ∀ᶠ s in 𝓝 t, (P s).MSt.x0 ≠ 0 := by
  obtain ⟨P, t, h, e, hS⟩ := exists_running
    { onePoint with
      scale := 91, mq2 := fun _ _ => 4, mu2 := fun _ _ => 9, MG := 5, Mt := 1, MSt := ⟨1, 2⟩ } (by norm_num)
  refine ⟨P, t, h, ?_, ?_, Eventually.of_forall fun s => by rw [hS s]; norm_num⟩
  · rw [e]; simp only [AtLimit]; norm_num
  · rw [e]; norm_num

end Himalaya.Scale
