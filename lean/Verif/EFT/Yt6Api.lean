import Verif.EFT.Yt6Scale

/-!
# C62: the `O(at) + O(at^2)` EFT correction and the renormalization scale

Specification (`TopRunning`): the textbook one-loop MSSM renormalization group equations in which only the top Yukawa coupling is
kept, in the variable `s = ln Q²`.
-/

set_option linter.unusedSimpArgs false
set_option linter.unusedVariables false

namespace Himalaya

section
open FOps
open scoped Himalaya
variable {F : Type} [Add F] [Sub F] [Mul F] [Div F] [Neg F] [FOps F]

/-- the local variables of `getDeltaLambdaYt6` for squared soft masses `mQ32`, `mU32` and Higgsino mass `Mu` -/
def Yt6.argOf (p : Params F) (mQ32 mU32 Mu : F) : Yt6.Arg F :=
  { mQ32 := mQ32, mU32 := mU32, mQ3 := sqrt mQ32, mU3 := sqrt mU32, mA := p.MA, mA2 := pow2 p.MA, Mu := Mu, Mu2 := pow2 Mu,
    sbeta := eftSinBeta p, cbeta := eftCosBeta p, Xt := calcXt p, Yt := calcYt p, Xt2 := pow2 (calcXt p),
    Xt4 := pow2 (pow2 (calcXt p)), Xt6 := Misc.pow3 (pow2 (calcXt p)) }

/-- the formula of `getDeltaLambdaYt6` evaluated at the masses of the parameter point, i.e. without the factors 1.02, 0.98 and
`sqrt(1.03)` of ThresholdCalculator.cpp:1399-1403 (this is *not* what the code does) -/
def TcObj.dLamYt6Unshifted (dilog : F → F) (phi : F → F → F → F) (c : TcObj F) : F :=
  Yt6.formula dilog phi (Yt6.argOf c.p (c.p.mq2 2 2) (c.p.mu2 2 2) c.p.mu) (log (pow2 c.p.MA / pow2 c.p.scale))
    (log (c.p.mq2 2 2 / pow2 c.p.scale)) (log (pow2 c.p.mu / pow2 c.p.scale)) (log (c.p.mu2 2 2 / c.p.mq2 2 2))

/-- the threshold corrections with the formula for `yt^6` evaluated at the masses of the parameter point -/
def thrUnshifted (dilog : F → F) (phi : F → F → F → F) (rest : TcObj F → ThrOrder → Int → Except String F) : ThrFns F :=
  thrFns2 dilog (fun c o n => match o with
    | .LAMBDA_YT6 => .ok (c.dLamYt6Unshifted dilog phi)
    | o => rest c o n)

end

namespace Scale
open Filter Topology
open Himalaya.Cont
open Yt6

/-- `yt²/(4π)²` -/
noncomputable def at4 (p : Params ℝ) : ℝ := kap * yt2 p
/-- `cos² β` -/
noncomputable def cosSq (p : Params ℝ) : ℝ := p.vd ^ 2 / (p.vu ^ 2 + p.vd ^ 2)
/-- `mQ² + mU² + mHu² + At²` with the tree-level relation `mHu² = MA² cos² β - μ²` without gauge couplings -/
noncomputable def massSum (p : Params ℝ) : ℝ :=
  p.mq2 2 2 + p.mu2 2 2 + (p.MA ^ 2 * cosSq p - p.mu ^ 2) + p.Au 2 2 ^ 2

/-- The family of parameter points `P s` (`s = ln Q²`) obeys at `s = t` the one-loop renormalization group equations of the MSSM
with all couplings but `yt` neglected (the running of `MA` enters only at higher order; it is taken constant). -/
structure TopRunning (P : ℝ → Params ℝ) (t : ℝ) : Prop where
  scale : ∀ s, (P s).scale = Real.exp (s / 2)
  g3 : ∀ s, (P s).g3 = 0
  MA : ∀ s, (P s).MA = (P t).MA
  vd : ∀ s, (P s).vd = (P t).vd
  vu : HasDerivAt (fun s => (P s).vu) (-(3 / 2) * at4 (P t) * (P t).vu) t
  Mt : HasDerivAt (fun s => (P s).Mt) (3 / 2 * at4 (P t) * (P t).Mt) t
  mu : HasDerivAt (fun s => (P s).mu) (3 / 2 * at4 (P t) * (P t).mu) t
  At : HasDerivAt (fun s => (P s).Au 2 2) (6 * at4 (P t) * (P t).Au 2 2) t
  mq2 : HasDerivAt (fun s => (P s).mq2 2 2) (at4 (P t) * massSum (P t)) t
  mu2 : HasDerivAt (fun s => (P s).mu2 2 2) (2 * at4 (P t) * massSum (P t)) t

/-- all masses which occur in logarithms or denominators differ from zero -/
structure TopMasses (p : Params ℝ) : Prop where
  mq : 0 < p.mq2 2 2
  mu : 0 < p.mu2 2 2
  MA : p.MA ≠ 0
  mu0 : p.mu ≠ 0
  MG : 0 < p.MG
  Mt : p.Mt ≠ 0
  MSt : p.MSt.x0 ≠ 0
  vu : 0 < p.vu
  vd : 0 < p.vd

/-- Källén function -/
def kallen (x y z : ℝ) : ℝ := x ^ 2 + y ^ 2 + z ^ 2 - 2 * (x * y + x * z + y * z)

/-- the masses differ from each other, so that the general formula has no vanishing denominator -/
structure GeneralMasses (p : Params ℝ) : Prop extends TopMasses p where
  qu : p.mq2 2 2 ≠ p.mu2 2 2
  qm : p.mq2 2 2 ≠ p.mu ^ 2
  um : p.mu2 2 2 ≠ p.mu ^ 2
  thresh : kallen (p.MA ^ 2) (p.mu2 2 2) (p.mq2 2 2) ≠ 0

theorem trig_beta {p : Params ℝ} (hu : 0 < p.vu) : eftSinBeta p ^ 2 + eftCosBeta p ^ 2 = 1 ∧ eftSinBeta p ≠ 0 ∧
    eftCosBeta p ^ 2 = cosSq p ∧ eftSinBeta p ^ 2 = p.vu ^ 2 / (p.vu ^ 2 + p.vd ^ 2) := by
  have v2 : eftV2 p = p.vu ^ 2 + p.vd ^ 2 := by unfold eftV2 Himalaya.pow2; ring
  have hn : (0 : ℝ) < p.vu ^ 2 + p.vd ^ 2 := by positivity
  have vv : eftV p ^ 2 = p.vu ^ 2 + p.vd ^ 2 := by unfold eftV; rw [v2, real_sqrt, Real.sq_sqrt hn.le]
  have v0 : eftV p ≠ 0 := fun h => by rw [h] at vv; norm_num at vv; linarith
  have s2 : eftSinBeta p ^ 2 = p.vu ^ 2 / (p.vu ^ 2 + p.vd ^ 2) := by unfold eftSinBeta; rw [div_pow, vv]
  have cc2 : eftCosBeta p ^ 2 = p.vd ^ 2 / (p.vu ^ 2 + p.vd ^ 2) := by unfold eftCosBeta; rw [div_pow, vv]
  refine ⟨?_, div_ne_zero hu.ne' v0, cc2, s2⟩
  rw [s2, cc2]; field_simp

theorem regular_of {p : Params ℝ} {q u M : ℝ} (hv : 0 < p.vu) (hq : 0 < q) (hu : 0 < u) (qu : q ≠ u) (qm : q ≠ M ^ 2) (um : u ≠ M ^ 2)
    (hd : kallen (p.MA ^ 2) u q ≠ 0) : Regular (argOf p q u M) := by
  have e2 : Himalaya.pow2 M = M ^ 2 := by unfold Himalaya.pow2; ring
  obtain ⟨tr, s0, -⟩ := trig_beta hv
  refine ⟨(Real.mul_self_sqrt hq.le).symm, (Real.mul_self_sqrt hu.le).symm, rfl, rfl, rfl, rfl, rfl, tr, s0,
    (Real.sqrt_pos.2 hq).ne', (Real.sqrt_pos.2 hu).ne', qu, ?_, ?_, ?_⟩
  · show q ≠ Himalaya.pow2 M; rwa [e2]
  · show u ≠ Himalaya.pow2 M; rwa [e2]
  · refine fun h => hd (Eq.trans ?_ h)
    unfold kallen Yt6.deltaxyz argOf Himalaya.pow2
    simp only [real_ofNat]; push_cast; ring

/-- `log (x/Q²)` at `Q = exp (s/2)` -/
theorem log_scale {x : ℝ} (hx : x ≠ 0) (s : ℝ) : FOps.log (x / Himalaya.pow2 (Real.exp (s / 2))) = Real.log x - s := by
  have e : Himalaya.pow2 (Real.exp (s / 2)) = Real.exp s := by
    unfold Himalaya.pow2; rw [← Real.exp_add]; congr 1; ring
  rw [e, real_log, Real.log_div hx (Real.exp_ne_zero _), Real.log_exp]

theorem logMR_scale {p : Params ℝ} {s : ℝ} (hp : p.scale = Real.exp (s / 2)) (hm : p.MSt.x0 ≠ 0) {x : ℝ} (hx : x ≠ 0) :
    logMR p 1 x = Real.log x - s := by
  unfold logMR
  have h2 : Himalaya.pow2 p.MSt.x0 ≠ 0 := mul_ne_zero hm hm
  rw [hp, log_scale h2, real_one_int, real_log, Real.log_div hx h2]; ring

theorem log_top {p : Params ℝ} {s : ℝ} (hp : p.scale = Real.exp (s / 2)) (hm : p.Mt ≠ 0) :
    Real.log (p.scale ^ 2 / p.Mt ^ 2) = s - Real.log (p.Mt ^ 2) := by
  rw [hp, ← Real.exp_nat_mul, Real.log_div (Real.exp_ne_zero _) (pow_ne_zero _ hm), Real.log_exp]; push_cast; ring

/-- only the contributions of the orders `yt^4`, `g3² yt^4` and `yt^6` are switched on -/
def topOrders : Flags := fun o => if o = .YT4 ∨ o = .G32YT4 ∨ o = .YT6 then 1 else 0

theorem top_on (p : Params ℝ) (o : Order) : (⟨p, topOrders⟩ : EftCalc ℝ).on o =
    (o = .YT4 ∨ o = .G32YT4 ∨ o = .YT6 ∧ (⟨p, topOrders⟩ : EftCalc ℝ).on .YT6 = true ∨
      (o = .YTAU2YT4 ∨ o = .ONLY_AT_AS) ∧ (⟨p, topOrders⟩ : EftCalc ℝ).on o = true : Bool) := by
  unfold EftCalc.on topOrders
  cases o <;> simp

/-- the one-loop threshold correction in terms of the masses -/
noncomputable def lam1 (p : Params ℝ) : ℝ :=
  12 * calcXt p ^ 4 / (p.mq2 2 2 - p.mu2 2 2) ^ 2 + 12 * Real.log (p.mq2 2 2)
    + (6 - 12 * calcXt p ^ 2 / (p.mq2 2 2 - p.mu2 2 2) + 6 * (p.mq2 2 2 + p.mu2 2 2) / (p.mq2 2 2 - p.mu2 2 2) ^ 3 * calcXt p ^ 4)
      * Real.log (p.mu2 2 2 / p.mq2 2 2)

theorem lamAt_value (T : ThrFns ℝ) {p : Params ℝ} {s : ℝ} (hp : p.scale = Real.exp (s / 2)) (h : TopMasses p) (msq2 : ℝ) :
    (tc .general p msq2).thr T .LAMBDA_AT .DRBARPRIME 1 = .ok (lam1 p - 12 * s) := by
  have e1 : (tc .general p msq2).limit = .general := rfl
  have r := raw_of T (l := .general) (by simp) h.MG msq2 1
  show (tc .general p msq2).dLamAt .general 1 = _
  rw [show (tc .general p msq2).dLamAt .general 1 = _ from r.la]
  refine congrArg Except.ok ?_
  show l1Gen _ _ = _
  rw [l1Gen_real]
  simp only [logMR_scale hp h.MSt h.mq.ne', lam1]
  ring

theorem loop1_value (T : ThrFns ℝ) (fB : ℝ → ℝ → ℝ → ℝ) {p : Params ℝ} {s : ℝ} (hp : p.scale = Real.exp (s / 2)) (h : TopMasses p)
    (msq2 : ℝ) : EftCalc.loop1 (fun o n => (tc .general p msq2).thr T o .DRBARPRIME n) fB ⟨p, topOrders⟩ 1 1 =
      .ok (2 * p.Mt ^ 4 / ((p.vu ^ 2 + p.vd ^ 2) * (4 * Real.pi) ^ 2) * (lam1 p - 12 * Real.log (p.Mt ^ 2))) := by
  rw [loop1_on (c := ⟨p, topOrders⟩) fB 1 1 _ (lamAt_value T hp h msq2) (top_on p)]
  refine congrArg Except.ok ?_
  simp only [specAt, log_top hp h.Mt]
  push_cast; ring

theorem loop2_value (T : ThrFns ℝ) {p : Params ℝ} {s : ℝ} (hp : p.scale = Real.exp (s / 2)) (h : TopMasses p) (h3 : p.g3 = 0)
    (msq2 : ℝ) {yy dv l6 : ℝ} (hy : (tc .general p msq2).thr T .YT_YT .DRBARPRIME 1 = .ok yy)
    (hv : (tc .general p msq2).thr T .VEV_YT2 .DRBARPRIME 1 = .ok dv)
    (h6 : (tc .general p msq2).thr T .LAMBDA_YT6 .DRBARPRIME 1 = .ok l6) :
    EftCalc.loop2 (fun o n => (tc .general p msq2).thr T o .DRBARPRIME n) ⟨p, topOrders⟩ 1 1 =
      .ok (specAt2 p (s - Real.log (p.Mt ^ 2)) (lam1 p - 12 * s) yy dv l6) := by
  have r := raw_of T (l := .general) (by simp) h.MG msq2 1
  have e1 : (tc .general p msq2).limit = .general := rfl
  obtain ⟨y, t2⟩ : ∃ y, (tc .general p msq2).thr T .YT_AS .DRBARPRIME 1 = .ok y := by
    simp only [TcObj.thr, e1]
    rw [show (tc .general p msq2).dYtAs .general 1 = _ from r.yt]; exact ⟨_, rfl⟩
  obtain ⟨z, t3⟩ : ∃ z, (tc .general p msq2).thr T .LAMBDA_AT_AS .DRBARPRIME 1 = .ok z := by
    simp only [TcObj.thr, e1]
    rw [show (tc .general p msq2).dYtAs .general 1 = _ from r.yt, show (tc .general p msq2).dLamAt .general 1 = _ from r.la,
      show (tc .general p msq2).dLamAtAs T .general 1 = _ from r.las]
    exact ⟨_, rfl⟩
  have on6 : (⟨p, topOrders⟩ : EftCalc ℝ).on .YT6 = true := by simp [EftCalc.on, topOrders]
  rw [loop2_on (c := ⟨p, topOrders⟩) (thr := fun o n => (tc .general p msq2).thr T o .DRBARPRIME n) 1 1 _ _ t2 t3 _ yy l6 dv (fun _ => ⟨lamAt_value T hp h msq2, hy, h6, hv⟩) (top_on p), if_pos on6]
  refine congrArg Except.ok ?_
  simp only [log_top hp h.Mt, specAtAs, h3]
  push_cast
  rw [one_mul]; ring

/-- the correction to the top Yukawa coupling is an affine function of `ln Q²` -/
theorem ytyt_value (dl : ℝ → ℝ) (rest : TcObj ℝ → ThrOrder → Int → Except String ℝ) {p : Params ℝ} (h : TopMasses p)
    (msq2 : ℝ) : ∃ a : ℝ, ∀ s, (tc .general (atScale p s) msq2).thr (thrFns2 dl rest) .YT_YT .DRBARPRIME 1 =
      .ok (a - 3 / 4 * (1 + cosSq p) * s) := by
  refine ⟨(tc .general (atScale p 0) msq2).dYtYt 1, fun s => congrArg Except.ok ?_⟩
  have sq0 : ∀ {x : ℝ}, x ≠ 0 → Himalaya.pow2 x ≠ 0 := fun hx => mul_ne_zero hx hx
  have hA := lg (sq0 h.MA)
  have hm := lg (sq0 h.mu0)
  have hc : Himalaya.pow2 (eftCosBeta p) = cosSq p := by rw [← (trig_beta h.vu).2.2.1]; unfold Himalaya.pow2; ring
  have ec : ∀ s, eftCosBeta (tc .general (atScale p s) msq2).p = eftCosBeta p := fun s => rfl
  have es : ∀ s, eftSinBeta (tc .general (atScale p s) msq2).p = eftSinBeta p := fun s => rfl
  have ex : ∀ s, calcXt (tc .general (atScale p s) msq2).p = calcXt p := fun s => rfl
  simp only [TcObj.dYtYt, ec, es, ex, hc]
  simp only [tc, TcObj.setLimit, atScale, hA s, hm s, real_ofNat, real_ofInt, real_sqrt]
  push_cast
  ring

theorem xt_deriv {P : ℝ → Params ℝ} {t : ℝ} (hP : TopRunning P t) (h : TopMasses (P t)) (q u : ℝ) :
    HasDerivAt (fun s => calcXt (P s)) (at4 (P t) * fX (argOf (P t) q u (P t).mu)) t := by
  have hv := h.vu.ne'
  have hd := h.vd.ne'
  have e : (fun s => calcXt (P s)) = fun s => (P s).Au 2 2 - (P s).mu / ((P s).vu / (P t).vd) := by
    funext s; unfold calcXt eftTanBeta; rw [hP.vd s]
  rw [e]
  have d := hP.At.sub (hP.mu.div (hP.vu.div_const (P t).vd) (div_ne_zero hv hd))
  refine d.congr_deriv ?_
  obtain ⟨-, -, c2, -⟩ := trig_beta (p := P t) h.vu
  have cc : Himalaya.pow2 (eftCosBeta (P t)) = cosSq (P t) := by rw [← c2]; unfold Himalaya.pow2; ring
  simp only [fX, argOf, cc]
  simp only [cosSq, calcXt, calcYt, eftTanBeta, real_ofNat]
  push_cast
  have hn : (P t).vu ^ 2 + (P t).vd ^ 2 ≠ 0 := by have := h.vu; positivity
  field_simp
  ring

theorem fS_eq {p : Params ℝ} (h : TopMasses p) : fS (argOf p (p.mq2 2 2) (p.mu2 2 2) p.mu) = massSum p := by
  obtain ⟨-, -, c2, s2⟩ := trig_beta (p := p) h.vu
  have hv := h.vu.ne'
  have hd := h.vd.ne'
  have hn : p.vu ^ 2 + p.vd ^ 2 ≠ 0 := by have := h.vu; positivity
  simp only [fS, argOf, Himalaya.pow2, ← sq, c2, s2, massSum]
  simp only [cosSq, calcXt, calcYt, eftTanBeta, real_ofNat]
  push_cast
  field_simp
  ring

theorem lam1_deriv {P : ℝ → Params ℝ} {t : ℝ} (hP : TopRunning P t) (h : TopMasses (P t)) (hqu : (P t).mq2 2 2 ≠ (P t).mu2 2 2) :
    HasDerivAt (fun s => lam1 (P s)) (at4 (P t) * (flow1 (argOf (P t) ((P t).mq2 2 2) ((P t).mu2 2 2) (P t).mu)
      + flowL (argOf (P t) ((P t).mq2 2 2) ((P t).mu2 2 2) (P t).mu) * Real.log ((P t).mu2 2 2 / (P t).mq2 2 2))) t := by
  have hq := h.mq.ne'
  have hu := h.mu.ne'
  have hne : (P t).mq2 2 2 - (P t).mu2 2 2 ≠ 0 := sub_ne_zero.2 hqu
  have dX := xt_deriv hP h ((P t).mq2 2 2) ((P t).mu2 2 2)
  have dq := hP.mq2
  have du := hP.mu2
  have dd := dq.sub du
  have d := ((((dX.pow 4).const_mul 12).div (dd.pow 2) (pow_ne_zero 2 hne)).add ((dq.log hq).const_mul 12)).add
    (((((dX.pow 2).const_mul 12).div dd hne).const_sub 6 |>.add ((((dq.add du).const_mul 6).div (dd.pow 3) (pow_ne_zero 3 hne)).mul
      (dX.pow 4))).mul ((du.div dq hq).log (div_ne_zero hu hq)))
  refine d.congr_deriv ?_
  have eS : fS (argOf (P t) ((P t).mq2 2 2) ((P t).mu2 2 2) (P t).mu) = massSum (P t) := fS_eq h
  have e3 : ∀ x : ℝ, Misc.pow3 x = x ^ 3 := fun x => by unfold Misc.pow3; ring
  have e4 : ∀ x : ℝ, Misc.pow4 x = x ^ 4 := fun x => by unfold Misc.pow4 Misc.pow2; ring
  have e2 : ∀ x : ℝ, Himalaya.pow2 x = x ^ 2 := fun x => by unfold Himalaya.pow2; ring
  simp only [flow1, flowL, p4, eS, e2, e3, e4, real_ofNat]
  generalize fX (argOf (P t) ((P t).mq2 2 2) ((P t).mu2 2 2) (P t).mu) = fx
  simp only [argOf, e2, Pi.pow_apply, Pi.add_apply, Pi.sub_apply, Pi.mul_apply, Pi.div_apply]
  push_cast
  generalize massSum (P t) = S
  generalize at4 (P t) = k
  generalize calcXt (P t) = X
  generalize (P t).mq2 2 2 = q at *
  generalize (P t).mu2 2 2 = u at *
  generalize Real.log (u / q) = L
  clear d dd du dq dX eS
  obtain ⟨w, hw⟩ : ∃ w, w = q - u := ⟨_, rfl⟩
  rw [← hw] at hne ⊢
  field_simp
  rw [hw]
  ring

/-- the two-loop correction of order `yt^6` as a function of `ln Q²` at fixed parameters, for a quadratic dependence of the
threshold correction -/
theorem spec2_deriv (p : Params ℝ) (c t a dv k b1 b2 : ℝ) :
    HasDerivAt (fun s => specAt2 p (s - c) (lam1 p - 12 * s) (a - 3 / 4 * (1 + k) * s) dv (b1 - s * b2 + 18 * s ^ 2))
      (8 * p.Mt ^ 6 / (p.vu ^ 6 * (4 * Real.pi) ^ 4) * ((p.vu ^ 2 + p.vd ^ 2) / 2 * (p.vu ^ 2 / (p.vu ^ 2 + p.vd ^ 2)) ^ 2 *
        (-3 * (1 + k) * (-6 + lam1 p - 12 * c) + p.vu ^ 2 / (p.vu ^ 2 + p.vd ^ 2) *
          (-b2 + 36 * t - 12 * (2 - 3 * (t - c)) - 3 * (lam1 p - 12 * t) - 18 - 108 * (t - c))))) t := by
  have hs : HasDerivAt (fun s : ℝ => s) 1 t := hasDerivAt_id t
  generalize lam1 p = l1
  have d1 : HasDerivAt (fun s => 4 * (a - 3 / 4 * (1 + k) * s) * (-6 + (l1 - 12 * s) + 12 * (s - c))) (-3 * (1 + k) * (-6 + l1 - 12 * c)) t := by
    have := (((hs.const_mul (3 / 4 * (1 + k))).const_sub a).const_mul 4).mul_const (-6 + l1 - 12 * c)
    refine (this.congr_of_eventuallyEq (Eventually.of_forall fun s => ?_)).congr_deriv (by ring)
    show _ = _; ring
  have d2 : HasDerivAt (fun s => -12 + (b1 - s * b2 + 18 * s ^ 2) + (l1 - 12 * s) * (2 + 2 * dv - 3 * (s - c)) + 24 * dv * (-1 + (s - c))
      - 18 * (s - c) * (1 + 3 * (s - c)) - 2 * Real.pi ^ 2)
      (-b2 + 36 * t - 12 * (2 - 3 * (t - c)) - 3 * (l1 - 12 * t) - 18 - 108 * (t - c)) t := by
    have h2 : HasDerivAt (fun s : ℝ => s ^ 2) (2 * t) t := by
      have := hs.pow 2
      refine this.congr_deriv ?_
      push_cast; ring
    have := ((hs.const_mul (-b2 - 24 - 24 * dv - 36 * c - 3 * l1 + 24 * dv - 18 + 108 * c)).add (h2.const_mul (18 + 36 - 54))).const_add
      (-12 + b1 + l1 * (2 + 2 * dv + 3 * c) + 24 * dv * (-1 - c) + 18 * c - 54 * c ^ 2 - 2 * Real.pi ^ 2)
    refine (this.congr_of_eventuallyEq (Eventually.of_forall fun s => ?_)).congr_deriv (by ring)
    simp only [Pi.add_apply]; ring
  unfold specAt2
  exact (((d1.add (d2.const_mul _)).const_mul _).const_mul _)

/-- factor between the threshold correction of order `yt^6` and the correction to the squared Higgs mass -/
noncomputable def pref6 (p : Params ℝ) : ℝ :=
  8 * p.Mt ^ 6 / (p.vu ^ 6 * (4 * Real.pi) ^ 4) * ((p.vu ^ 2 + p.vd ^ 2) / 2 * (p.vu ^ 2 / (p.vu ^ 2 + p.vd ^ 2)) ^ 3)

/-- the argument list of the formula at the masses of the parameter point -/
noncomputable def argAt (p : Params ℝ) : Arg ℝ := argOf p (p.mq2 2 2) (p.mu2 2 2) p.mu

/-- The coefficient of `-ln Q²` which the threshold correction of order `yt^6` must have: three times the one-loop threshold
correction, minus 60, plus the change of the one-loop threshold correction with `ln Q²` divided by `yt² sin² β/(4π)²` -/
noncomputable def slopeAt (p : Params ℝ) : ℝ :=
  Yt6.slope (argAt p) (Real.log (p.mq2 2 2)) (Real.log (p.mu2 2 2 / p.mq2 2 2))

theorem total_deriv (dl : ℝ → ℝ) (other : TcObj ℝ → ThrOrder → Int → Except String ℝ)
    (fB : ℝ → ℝ → ℝ → ℝ) (msq2 : ℝ) {P : ℝ → Params ℝ} {t : ℝ} (hP : TopRunning P t) (hm : ∀ s, TopMasses (P s))
    (hqu : (P t).mq2 2 2 ≠ (P t).mu2 2 2) (b1 b2 : ℝ)
    (h6 : ∀ s, (tc .general (atScale (P t) s) msq2).thr (thrFns2 dl other) .LAMBDA_YT6 .DRBARPRIME 1 =
      .ok (b1 - s * b2 + 18 * s ^ 2)) :
    ∃ (m1 m2 : ℝ → ℝ) (D : ℝ),
      (∀ s, EftCalc.loop1 (fun o n => (tc .general (P s) msq2).thr (thrFns2 dl other) o .DRBARPRIME n) fB
        ⟨P s, topOrders⟩ 1 1 = .ok (m1 s)) ∧
      (∀ s, EftCalc.loop2 (fun o n => (tc .general (atScale (P t) s) msq2).thr (thrFns2 dl other) o .DRBARPRIME n)
        ⟨atScale (P t) s, topOrders⟩ 1 1 = .ok (m2 s)) ∧
      HasDerivAt m1 D t ∧ HasDerivAt m2 (-D - pref6 (P t) * (b2 - slopeAt (P t))) t := by
  unfold slopeAt argAt
  set p := P t with hp
  have h := hm t
  rw [← hp] at h
  set a := argOf p (p.mq2 2 2) (p.mu2 2 2) p.mu with ha
  obtain ⟨y, hy⟩ : ∃ y : ℝ, ∀ s, (tc .general (atScale p s) msq2).thr (thrFns2 dl other) .YT_YT .DRBARPRIME 1 =
      .ok (y - 3 / 4 * (1 + cosSq p) * s) := ytyt_value dl _ h msq2
  have hs : ∀ s, TopMasses (atScale p s) := fun s => ⟨h.mq, h.mu, h.MA, h.mu0, h.MG, h.Mt, h.MSt, h.vu, h.vd⟩
  set L := Real.log (p.mu2 2 2 / p.mq2 2 2) with hL
  have hpi : (4 * Real.pi) ^ 2 ≠ 0 := by have := Real.pi_pos; positivity
  have hn : p.vu ^ 2 + p.vd ^ 2 ≠ 0 := by have := h.vu; positivity
  have hvu := h.vu.ne'
  have hMt := h.Mt
  -- derivative of the one-loop correction
  have dM := (((hP.Mt.pow 4).const_mul 2).div (((hP.vu.pow 2).add_const (p.vd ^ 2)).mul_const ((4 * Real.pi) ^ 2))
    (mul_ne_zero hn hpi)).mul ((lam1_deriv hP (hm t) hqu).sub (((hP.Mt.pow 2).log
      (pow_ne_zero 2 h.Mt)).const_mul 12))
  refine ⟨_, _, _, fun s => loop1_value _ fB (hP.scale s) (hm s) msq2,
    fun s => loop2_value _ (s := s) rfl (hs s) (hP.g3 t) msq2 (hy s) rfl (h6 s),
    dM.congr_of_eventuallyEq (Eventually.of_forall fun s => ?_), ?_⟩
  · show 2 * (P s).Mt ^ 4 / (((P s).vu ^ 2 + (P s).vd ^ 2) * (4 * Real.pi) ^ 2) * (lam1 (P s) - 12 * Real.log ((P s).Mt ^ 2)) = _
    rw [hP.vd s]; rfl
  · have dv := (tc .general (atScale p 0) msq2).dVevYt2 .general
    have d2 := spec2_deriv p (Real.log (p.Mt ^ 2)) t y ((tc .general (atScale p 0) msq2).dVevYt2 .general) (cosSq p) b1 b2
    refine d2.congr_deriv ?_
    simp only [Pi.pow_apply, Pi.add_apply, Pi.sub_apply, Pi.mul_apply, Pi.div_apply, ← hp, ← ha, ← hL]
    obtain ⟨-, -, c2, s2⟩ := trig_beta (p := p) h.vu
    have s2' : a.sbeta ^ 2 = p.vu ^ 2 / (p.vu ^ 2 + p.vd ^ 2) := s2
    have e4 : d4 a (Real.log (p.mq2 2 2)) L = lam1 p := by
      rw [ha]; unfold d4 lam1 p4 argOf
      simp only [Himalaya.pow2, Misc.pow3, Misc.pow2, real_ofNat]
      push_cast; ring
    unfold Yt6.slope
    rw [e4, s2']
    simp only [at4, yt2, kap, cosSq, pref6]
    generalize lam1 p = l1
    generalize flow1 a + flowL a * L = fl
    generalize Real.log (p.Mt ^ 2) = c
    have hpi := Real.pi_ne_zero
    generalize p.Mt = Mt at *
    generalize p.vu = u at *
    generalize p.vd = d at *
    push_cast
    field_simp
    ring

/-- **C62 (partial: not for what the code computes).** Let the parameters run with the one-loop renormalization group equations of
the MSSM with only the top Yukawa coupling.  Then the change of the one-loop correction of order `yt^4` with the renormalization
scale is exactly the opposite of the explicit change of the two-loop correction of order `yt^6` — provided the formula of
`getDeltaLambdaYt6` is evaluated at the masses of the parameter point. -/
theorem C62_scale_independence_partial (dl : ℝ → ℝ) (phi : ℝ → ℝ → ℝ → ℝ) (rest : TcObj ℝ → ThrOrder → Int → Except String ℝ)
    (fB : ℝ → ℝ → ℝ → ℝ) (msq2 : ℝ) {P : ℝ → Params ℝ} {t : ℝ} (hP : TopRunning P t) (hm : ∀ s, TopMasses (P s))
    (hg : GeneralMasses (P t)) :
    ∃ (m1 m2 : ℝ → ℝ) (D : ℝ),
      (∀ s, EftCalc.loop1 (fun o n => (tc .general (P s) msq2).thr (thrUnshifted dl phi rest) o .DRBARPRIME n) fB
        ⟨P s, topOrders⟩ 1 1 = .ok (m1 s)) ∧
      (∀ s, EftCalc.loop2 (fun o n => (tc .general (atScale (P t) s) msq2).thr (thrUnshifted dl phi rest) o .DRBARPRIME n)
        ⟨atScale (P t) s, topOrders⟩ 1 1 = .ok (m2 s)) ∧
      HasDerivAt m1 D t ∧ HasDerivAt m2 (-D) t := by
  have h := hm t
  have reg : Regular (argAt (P t)) := regular_of h.vu h.mq h.mu hg.qu hg.qm hg.um hg.thresh
  obtain ⟨m1, m2, D, e1, e2, d1, d2⟩ := total_deriv dl (fun c o n => match o with
    | .LAMBDA_YT6 => .ok (c.dLamYt6Unshifted dl phi)
    | o => rest c o n) fB msq2 hP hm hg.qu
    (formula dl phi (argAt (P t)) (Real.log (Himalaya.pow2 (P t).MA)) (Real.log ((P t).mq2 2 2)) (Real.log (Himalaya.pow2 (P t).mu))
      (Real.log ((P t).mu2 2 2 / (P t).mq2 2 2)))
    (slopeAt (P t)) (fun s => by
      refine congrArg Except.ok ?_
      show formula dl phi (argAt (P t)) (FOps.log (Himalaya.pow2 (P t).MA / Himalaya.pow2 (Real.exp (s / 2))))
        (FOps.log ((P t).mq2 2 2 / Himalaya.pow2 (Real.exp (s / 2))))
        (FOps.log (Himalaya.pow2 (P t).mu / Himalaya.pow2 (Real.exp (s / 2)))) (Real.log ((P t).mu2 2 2 / (P t).mq2 2 2)) = _
      rw [log_scale (show Himalaya.pow2 (P t).MA ≠ 0 from mul_ne_zero h.MA h.MA), log_scale h.mq.ne',
        log_scale (show Himalaya.pow2 (P t).mu ≠ 0 from mul_ne_zero h.mu0 h.mu0), formula_scale reg]
      rfl)
  exact ⟨m1, m2, D, e1, e2, d1, d2.congr_deriv (by ring)⟩

/-- the argument list of the formula at the shifted masses which the code uses; ThresholdCalculator.cpp:1399-1403 -/
noncomputable def argCode (p : Params ℝ) : Arg ℝ :=
  argOf p (p.mq2 2 2 * (102 / 100)) (p.mu2 2 2 * (98 / 100)) (p.mu * Real.sqrt (103 / 100))

/-- the coefficient of `-ln Q²` in the threshold correction of the code -/
noncomputable def slopeCode (p : Params ℝ) : ℝ :=
  Yt6.slope (argCode p) (Real.log (p.mq2 2 2)) (Real.log (p.mu2 2 2 * (98 / 100) / (p.mq2 2 2 * (102 / 100))))

/-- the point is treated with the general formula and no denominator of the formula vanishes at the shifted masses -/
structure ShiftedMasses (p : Params ℝ) : Prop extends TopMasses p where
  branch : (Misc.isEqualRel (p.mq2 2 2) (p.mu2 2 2) (1 / 10) && (Misc.isEqualRel (p.mq2 2 2) (p.MA ^ 2) (1 / 10) ||
    Misc.isEqualRel (p.mu2 2 2) (p.MA ^ 2) (1 / 10))) = false
  qu : p.mq2 2 2 * (102 / 100) ≠ p.mu2 2 2 * (98 / 100)
  qm : p.mq2 2 2 * (102 / 100) ≠ p.mu ^ 2 * (103 / 100)
  um : p.mu2 2 2 * (98 / 100) ≠ p.mu ^ 2 * (103 / 100)
  thresh : kallen (p.MA ^ 2) (p.mu2 2 2 * (98 / 100)) (p.mq2 2 2 * (102 / 100)) ≠ 0

theorem shifted_regular {p : Params ℝ} (h : ShiftedMasses p) : Regular (argCode p) := by
  have e : (p.mu * Real.sqrt (103 / 100)) ^ 2 = p.mu ^ 2 * (103 / 100) := by
    rw [mul_pow, Real.sq_sqrt (by norm_num)]
  have := h.mq
  have := h.mu
  exact regular_of h.vu (by positivity) (by positivity) h.qu (by rw [e]; exact h.qm) (by rw [e]; exact h.um) h.thresh

/-- the threshold correction of order `yt^6` of the code as a function of `ln Q²` -/
theorem yt6_value (dl : ℝ → ℝ) (phi : ℝ → ℝ → ℝ → ℝ) (rest : TcObj ℝ → ThrOrder → Int → Except String ℝ) {p : Params ℝ}
    (h : ShiftedMasses p) (msq2 : ℝ) : ∃ b : ℝ, ∀ s,
    (tc .general (atScale p s) msq2).thr (thrFns3 dl phi rest) .LAMBDA_YT6 .DRBARPRIME 1 =
      .ok (b - s * slopeCode p + 18 * s ^ 2) := by
  refine ⟨formula dl phi (argCode p) (Real.log (Himalaya.pow2 p.MA)) (Real.log (p.mq2 2 2))
    (Real.log (Himalaya.pow2 (p.mu * Real.sqrt (103 / 100)))) (Real.log (p.mu2 2 2 * (98 / 100) / (p.mq2 2 2 * (102 / 100)))),
    fun s => congrArg Except.ok ?_⟩
  show (tc .general (atScale p s) msq2).dLamYt6 dl phi 1 = _
  have hb : (Misc.isEqualRel (p.mq2 2 2) (p.mu2 2 2) (1 / 10 : ℝ) && (Misc.isEqualRel (p.mq2 2 2) (Himalaya.pow2 p.MA) (1 / 10) ||
      Misc.isEqualRel (p.mu2 2 2) (Himalaya.pow2 p.MA) (1 / 10))) = false := by
    rw [show Himalaya.pow2 p.MA = p.MA ^ 2 by unfold Himalaya.pow2; ring]; exact h.branch
  have l1 : (FOps.lit (1 / 10) : ℝ) = 1 / 10 := by rw [real_lit]; norm_num
  have l2 : (FOps.lit (102 / 100) : ℝ) = 102 / 100 := by rw [real_lit]; norm_num
  have l3 : (FOps.lit (98 / 100) : ℝ) = 98 / 100 := by rw [real_lit]; norm_num
  have l4 : (FOps.lit (103 / 100) : ℝ) = 103 / 100 := by rw [real_lit]; norm_num
  have s0 : Real.sqrt (103 / 100) ≠ 0 := (Real.sqrt_pos.2 (by norm_num)).ne'
  unfold TcObj.dLamYt6
  simp only [tc, TcObj.setLimit, atScale, l1, l2, l3, l4, hb, Bool.false_eq_true, if_false]
  have hA : Himalaya.pow2 p.MA ≠ 0 := mul_ne_zero h.MA h.MA
  have hM : Himalaya.pow2 (p.mu * Real.sqrt (103 / 100)) ≠ 0 := mul_ne_zero (mul_ne_zero h.mu0 s0) (mul_ne_zero h.mu0 s0)
  simp only [real_sqrt, real_ofInt, log_scale hA, log_scale hM, log_scale h.mq.ne']
  push_cast
  simp only [one_mul]
  exact formula_scale (shifted_regular h) dl phi _ _ _ _ s

/-- **C62.** Scale dependence of what the code computes: the sum of the changes with the renormalization scale is proportional to the
difference of the slopes at the shifted masses and at the masses of the parameter point. -/
theorem C62_scale_dependence (dl : ℝ → ℝ) (phi : ℝ → ℝ → ℝ → ℝ) (rest : TcObj ℝ → ThrOrder → Int → Except String ℝ)
    (fB : ℝ → ℝ → ℝ → ℝ) (msq2 : ℝ) {P : ℝ → Params ℝ} {t : ℝ} (hP : TopRunning P t) (hm : ∀ s, TopMasses (P s))
    (hqu : (P t).mq2 2 2 ≠ (P t).mu2 2 2) (hs : ShiftedMasses (P t)) :
    ∃ (m1 m2 : ℝ → ℝ) (D : ℝ),
      (∀ s, EftCalc.loop1 (fun o n => (tc .general (P s) msq2).thr (thrFns3 dl phi rest) o .DRBARPRIME n) fB
        ⟨P s, topOrders⟩ 1 1 = .ok (m1 s)) ∧
      (∀ s, EftCalc.loop2 (fun o n => (tc .general (atScale (P t) s) msq2).thr (thrFns3 dl phi rest) o .DRBARPRIME n)
        ⟨atScale (P t) s, topOrders⟩ 1 1 = .ok (m2 s)) ∧
      HasDerivAt m1 D t ∧ HasDerivAt m2 (-D - pref6 (P t) * (slopeCode (P t) - slopeAt (P t))) t := by
  obtain ⟨b, hb⟩ := yt6_value dl phi rest hs msq2
  exact total_deriv dl _ fB msq2 hP hm hqu b _ hb

end Scale
end Himalaya
