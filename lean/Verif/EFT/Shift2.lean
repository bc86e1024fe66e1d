import Verif.EFT.Scheme
import Verif.Calc.Props6

/-!
# C55: the reported DRbar' to MSbar shifts of the quartic coupling

`getDLambda(n) + getDLambdaDRbarPrimeToMSbarShift(n)` should be the `n`-loop correction in the MSbar scheme, that is
`prefactor(n) * (threshold correction in the scheme TEST) / v^2`.  This is so for one loop and, up to the truncation in `Xt`, for
the three-loop shift; the two-loop shift contains the prefactor of the one-loop correction twice.
-/

set_option linter.unusedSimpArgs false
set_option linter.unusedVariables false

namespace Himalaya

open scoped Himalaya Himalaya.FOps

/-- member of `ThresholdCouplingOrders` -/
def TCO.order : TCO → ThrOrder
  | .LAMBDA_AT => .LAMBDA_AT | .LAMBDA_AT_AS => .LAMBDA_AT_AS | .LAMBDA_AT_AS2 => .LAMBDA_AT_AS2 | .YT_AS => .YT_AS

/-- `tc` (the calculator as the hierarchy calculator sees it) behaves as the modelled `ThresholdCalculator` object `c` -/
structure IsTc (T : ThrFns ℝ) (c : TcObj ℝ) (tc : Tc ℝ) : Prop where
  thr : ∀ xo o n, (c.setXtOrder xo).thr T o.order .DRBARPRIME n = .ok (tc.thr xo o schemeDRbarPrime n)
  shift : ∀ xo n m, c.shift T xo n m = .ok (tc.shift xo n m)
  limit : c.p.massLimit3LThreshold = tc.limit

theorem setXtOrder_limit (c : TcObj ℝ) (x : Int) : (c.setXtOrder x).limit = c.limit := rfl

variable {E : Env ℝ} {p : Params ℝ} {d : Depth} {h0 r : HObj ℝ} {T : ThrFns ℝ} {c : TcObj ℝ} {tc : Tc ℝ}

/-- the one-loop prefactor over `v^2`, `2 (Mt/v)^4/(4 pi)^2` -/
noncomputable def doubled (p : Params ℝ) : ℝ := 2 * (p.Mt / Real.sqrt (p.vu ^ 2 + p.vd ^ 2)) ^ 4 / (4 * Real.pi) ^ 2

/-- the two-loop prefactor over `v^2` -/
noncomputable def pref2 (p : Params ℝ) : ℝ :=
  2 * (p.Mt / Real.sqrt (p.vu ^ 2 + p.vd ^ 2)) ^ 4 * p.g3 ^ 2 / (4 * Real.pi) ^ 4

theorem lambda_facts (h : (calculateDMh3L E p false ⟨d, h0⟩).1 = .ok r) (htc : E.tc (pMassES p) = .ok tc)
    (hv : 0 < p.vu ^ 2 + p.vd ^ 2) :
    r.getDLambda 2 = .ok (pref2 p * tc.thr 6 .LAMBDA_AT_AS 1 1) ∧
    r.getDLambdaShift 2 = .ok (pref2 p * (-4 * (doubled p * tc.thr 6 .LAMBDA_AT 1 1) * tc.thr 6 .YT_AS 1 1)) := by
  obtain ⟨eft, tc', out, M1, -, h2, -, -, a1, a2, -, -, hb, -⟩ := (report_ok h).lambda
  rw [htc] at h2; injection h2 with h2; subst h2
  obtain ⟨-, -, -, -, b2, -⟩ := hb rfl
  have hs : Real.sqrt (p.vu ^ 2 + p.vd ^ 2) ^ 2 = p.vu ^ 2 + p.vd ^ 2 := Real.sq_sqrt hv.le
  have hs0 : Real.sqrt (p.vu ^ 2 + p.vd ^ 2) ≠ 0 := (Real.sqrt_pos.2 hv).ne'
  have h2s : Real.sqrt 2 ^ 2 = 2 := Real.sq_sqrt (by norm_num)
  have hv2 : calcV2 p = Real.sqrt (p.vu ^ 2 + p.vd ^ 2) ^ 2 := by rw [hs]; simp only [calcV2, pow2]; ring
  have hd : r.dLambdaMap 1 = doubled p * tc.thr 6 .LAMBDA_AT 1 1 := by
    rw [a1]
    simp only [doubled, hv2, real_const, Const.value, real_sqrt, Real.sqrt_sq (Real.sqrt_nonneg _), pow2, schemeDRbarPrime]
    generalize Real.sqrt (p.vu ^ 2 + p.vd ^ 2) = v at hs0 ⊢
    have hpi := Real.pi_ne_zero
    field_simp
    linear_combination (tc.thr 6 TCO.LAMBDA_AT 1 1 * p.Mt ^ 4) * h2s
  constructor
  · show Except.ok (r.dLambdaMap 2) = _
    rw [a2]
    simp only [pref2, hv2, real_const, Const.value, real_sqrt, Real.sqrt_sq (Real.sqrt_nonneg _), pow2, schemeDRbarPrime]
    congr 1
    generalize Real.sqrt (p.vu ^ 2 + p.vd ^ 2) = v at hs0 ⊢
    have hpi := Real.pi_ne_zero
    field_simp
    linear_combination (tc.thr 6 TCO.LAMBDA_AT_AS 1 1 * p.Mt ^ 4 * p.g3 ^ 2) * h2s
  · show Except.ok (r.dLambdaDRbarPrimeToMSbarShiftMap 2) = _
    rw [b2, hd]
    simp only [pref2, hv2, real_const, Const.value, real_sqrt, Real.sqrt_sq (Real.sqrt_nonneg _), pow2, schemeDRbarPrime,
      real_ofNat]
    push_cast
    congr 1
    generalize Real.sqrt (p.vu ^ 2 + p.vd ^ 2) = v at hs0 ⊢
    have hpi := Real.pi_ne_zero
    field_simp
    linear_combination (tc.thr 6 TCO.LAMBDA_AT 1 1 * p.Mt ^ 4 * p.g3 ^ 2 * doubled p * tc.thr 6 TCO.YT_AS 1 1) * (-h2s)

/-- **C55 (negation of the expected property at two loops).** For every returned result in alpha_t mode, the two-loop correction
plus its reported shift is the MSbar correction `l2` minus the fraction `1 - 2 (Mt/v)^4/(4 pi)^2` of the full conversion
`4 l1 dyt`: all but a few per mille of the conversion is missing.  `l1`, `dyt`, `l2` are the MSbar corrections. -/
theorem C55_two_loop_shift (h : (calculateDMh3L E p false ⟨d, h0⟩).1 = .ok r) (htc : E.tc (pMassES p) = .ok tc)
    (hc : IsTc T c tc) (hv : 0 < p.vu ^ 2 + p.vd ^ 2) (l1 y l2 : ℝ) (hl1 : c.thr T .LAMBDA_AT .TEST 1 = .ok l1)
    (hy : c.thr T .YT_AS .TEST 1 = .ok y) (hl2 : c.thr T .LAMBDA_AT_AS .TEST 1 = .ok l2) :
    ∃ L S, r.getDLambda 2 = .ok L ∧ r.getDLambdaShift 2 = .ok S ∧
      L + S = pref2 p * (l2 - (1 - doubled p) * (4 * l1 * y)) := by
  obtain ⟨e1, e2⟩ := lambda_facts h htc hv
  have t1 := hc.thr 6 .LAMBDA_AT 1
  have t2 := hc.thr 6 .YT_AS 1
  have t3 := hc.thr 6 .LAMBDA_AT_AS 1
  have e : (Scheme.TEST = Scheme.DRBARPRIME) = False := by simp
  have hl1' : c.dLamAt c.limit 1 = .ok l1 := hl1
  have hy' : c.dYtAs c.limit 1 = .ok y := by
    simp only [TcObj.thr, e, if_false] at hy
    cases q : c.dYtAs c.limit 1 with
    | error s => rw [q] at hy; cases hy
    | ok t => rw [q] at hy; injection hy with hy; rw [hy]
  have hl2' : c.dLamAtAs T c.limit 1 = .ok l2 := by
    simp only [TcObj.thr, e, if_false] at hl2
    cases q : c.dLamAtAs T c.limit 1 with
    | error s => rw [q] at hl2; cases hl2
    | ok t => rw [q] at hl2; injection hl2 with hl2; rw [hl2]
  have u1 : tc.thr 6 .LAMBDA_AT 1 1 = l1 := by
    have : (c.setXtOrder 6).thr T (TCO.order .LAMBDA_AT) .DRBARPRIME 1 = .ok l1 := hl1'
    rw [this] at t1; injection t1 with t1; exact t1.symm
  have u2 : tc.thr 6 .YT_AS 1 1 = -y := by
    have : (c.setXtOrder 6).thr T (TCO.order .YT_AS) .DRBARPRIME 1 = .ok (-y) := by
      show (c.dYtAs c.limit 1 >>= fun t => _) = _
      rw [hy']; rfl
    rw [this] at t2; injection t2 with t2; exact t2.symm
  have u3 : tc.thr 6 .LAMBDA_AT_AS 1 1 = l2 - 4 * l1 * y := by
    have : (c.setXtOrder 6).thr T (TCO.order .LAMBDA_AT_AS) .DRBARPRIME 1 = .ok (l2 - 4 * l1 * y) := by
      show (c.dLamAtAs T c.limit 1 >>= fun t => _) = _
      rw [hl2', bindOk, if_pos rfl]
      show (c.dLamAt c.limit 1 >>= fun t => _) = _
      rw [hl1', bindOk]
      show (c.dYtAs c.limit 1 >>= fun t => _) = _
      rw [hy', bindOk]
      simp [pure, Except.pure, real_ofNat]
    rw [this] at t3; injection t3 with t3; exact t3.symm
  refine ⟨_, _, e1, e2, ?_⟩
  rw [u1, u2, u3]; ring

/-- **C55.** Consequently the sum is not the MSbar correction unless there is nothing to convert. -/
theorem C55_two_loop_shift_wrong (h : (calculateDMh3L E p false ⟨d, h0⟩).1 = .ok r) (htc : E.tc (pMassES p) = .ok tc)
    (hc : IsTc T c tc) (hv : 0 < p.vu ^ 2 + p.vd ^ 2) (l1 y l2 : ℝ) (hl1 : c.thr T .LAMBDA_AT .TEST 1 = .ok l1)
    (hy : c.thr T .YT_AS .TEST 1 = .ok y) (hl2 : c.thr T .LAMBDA_AT_AS .TEST 1 = .ok l2) (h1 : l1 ≠ 0) (h2 : y ≠ 0)
    (h3 : p.Mt ≠ 0) (h4 : p.g3 ≠ 0) (h5 : p.Mt ^ 2 ≤ p.vu ^ 2 + p.vd ^ 2) :
    ∀ L S, r.getDLambda 2 = .ok L → r.getDLambdaShift 2 = .ok S → L + S ≠ pref2 p * l2 := by
  intro L S hL hS he
  obtain ⟨L', S', e1, e2, e3⟩ := C55_two_loop_shift h htc hc hv l1 y l2 hl1 hy hl2
  rw [hL] at e1; injection e1 with e1; rw [hS] at e2; injection e2 with e2; subst e1; subst e2
  rw [he] at e3
  have hs0 : Real.sqrt (p.vu ^ 2 + p.vd ^ 2) ≠ 0 := (Real.sqrt_pos.2 hv).ne'
  have hs : Real.sqrt (p.vu ^ 2 + p.vd ^ 2) ^ 2 = p.vu ^ 2 + p.vd ^ 2 := Real.sq_sqrt hv.le
  have hp : pref2 p ≠ 0 := by
    unfold pref2
    have := Real.pi_ne_zero
    have hq : p.Mt / Real.sqrt (p.vu ^ 2 + p.vd ^ 2) ≠ 0 := div_ne_zero h3 hs0
    positivity
  have hd : doubled p < 1 := by
    have hq : (p.Mt / Real.sqrt (p.vu ^ 2 + p.vd ^ 2)) ^ 2 ≤ 1 := by
      rw [div_pow, hs]; exact div_le_one_of_le₀ h5 hv.le
    have hq4 : (p.Mt / Real.sqrt (p.vu ^ 2 + p.vd ^ 2)) ^ 4 ≤ 1 := by
      have : (p.Mt / Real.sqrt (p.vu ^ 2 + p.vd ^ 2)) ^ 4 = ((p.Mt / Real.sqrt (p.vu ^ 2 + p.vd ^ 2)) ^ 2) ^ 2 := by ring
      rw [this]; exact pow_le_one₀ (sq_nonneg _) hq
    unfold doubled
    rw [div_lt_one (by have := Real.pi_pos; positivity)]
    have := Real.two_le_pi
    nlinarith
  have : (1 - doubled p) * (4 * l1 * y) ≠ 0 := by
    refine mul_ne_zero (by linarith) (by positivity)
  have e4 := mul_left_cancel₀ hp e3
  apply this; linarith

/-- **C55 (what holds).** At one loop the DRbar' and MSbar corrections coincide and the shift is zero. -/
theorem C55_one_loop_partial (h : (calculateDMh3L E p false ⟨d, h0⟩).1 = .ok r) (htc : E.tc (pMassES p) = .ok tc)
    (hc : IsTc T c tc) (hv : 0 < p.vu ^ 2 + p.vd ^ 2) (l1 : ℝ) (hl1 : c.thr T .LAMBDA_AT .TEST 1 = .ok l1) :
    r.getDLambda 1 = .ok (doubled p * l1) ∧ r.getDLambdaShift 1 = .ok 0 := by
  obtain ⟨-, -, z⟩ := C21_alpha_t_values h
  obtain ⟨eft, tc', out, M1, -, h2, -, -, a1, -⟩ := (report_ok h).lambda
  rw [htc] at h2; injection h2 with h2; subst h2
  refine ⟨?_, by rw [z]; simp⟩
  have u1 : tc.thr 6 .LAMBDA_AT 1 1 = l1 := by
    have t1 := hc.thr 6 .LAMBDA_AT 1
    have : (c.setXtOrder 6).thr T (TCO.order .LAMBDA_AT) .DRBARPRIME 1 = .ok l1 := hl1
    rw [this] at t1; injection t1 with t1; exact t1.symm
  show Except.ok (r.dLambdaMap 1) = _
  rw [a1]
  have hs : Real.sqrt (p.vu ^ 2 + p.vd ^ 2) ^ 2 = p.vu ^ 2 + p.vd ^ 2 := Real.sq_sqrt hv.le
  have hs0 : Real.sqrt (p.vu ^ 2 + p.vd ^ 2) ≠ 0 := (Real.sqrt_pos.2 hv).ne'
  have h2s : Real.sqrt 2 ^ 2 = 2 := Real.sq_sqrt (by norm_num)
  have hv2 : calcV2 p = Real.sqrt (p.vu ^ 2 + p.vd ^ 2) ^ 2 := by rw [hs]; simp only [calcV2, pow2]; ring
  rw [← u1]
  simp only [doubled, hv2, real_const, Const.value, real_sqrt, Real.sqrt_sq (Real.sqrt_nonneg _), pow2, schemeDRbarPrime]
  congr 1
  generalize Real.sqrt (p.vu ^ 2 + p.vd ^ 2) = v at hs0 ⊢
  have hpi := Real.pi_ne_zero
  field_simp
  linear_combination (tc.thr 6 TCO.LAMBDA_AT 1 1 * p.Mt ^ 4) * h2s

/-- **C55 (what holds).** At three loops the reported shift is exactly the prefactor times the conversion of `C38_shift`: added to
the DRbar' threshold correction of the matching calculator it gives the MSbar one, plus the `Xt` terms left out. -/
theorem C55_three_loop_partial (h : (calculateDMh3L E p false ⟨d, h0⟩).1 = .ok r) (htc : E.tc (pMassES p) = .ok tc)
    (hc : IsTc T c tc) (L3 l3 x4 x5 x6 : ℝ) (hD : c.thr T .LAMBDA_AT_AS2 .DRBARPRIME 1 = .ok L3)
    (hM : c.thr T .LAMBDA_AT_AS2 .TEST 1 = .ok l3)
    (h4 : T.xtTerms c c.limit 4 0 = .ok x4) (h5 : T.xtTerms c c.limit 5 0 = .ok x5) (h6 : T.xtTerms c c.limit 6 0 = .ok x6) :
    ∃ S, r.getDLambdaShift 3 = .ok S ∧
      1 / (4 * Real.pi) ^ 6 * (2 * p.Mt ^ 4 * p.g3 ^ 4 / (p.vu ^ 2 + p.vd ^ 2) ^ 2) * L3 + S =
        1 / (4 * Real.pi) ^ 6 * (2 * p.Mt ^ 4 * p.g3 ^ 4 / (p.vu ^ 2 + p.vd ^ 2) ^ 2) *
          (l3 + ((if xtOrderOf r.hierarchy ≤ 3 then x4 else 0) + x5 + x6)) := by
  obtain ⟨eft, tc', out, M1, -, h2, -, -, a1, a2, -, -, hb, -⟩ := (report_ok h).lambda
  rw [htc] at h2; injection h2 with h2; subst h2
  obtain ⟨-, -, -, -, -, b3, -⟩ := hb rfl
  refine ⟨_, congrArg Except.ok b3, ?_⟩
  have := C38_shift L3 l3 _ x4 x5 x6 _ 0 hD hM (hc.shift (xtOrderOf r.hierarchy) 1 0) h4 h5 h6
  rw [← this]
  simp only [calcV2, pow2, real_const, Const.value, real_ofNat]
  push_cast
  by_cases hv : p.vu * p.vu + p.vd * p.vd = 0
  · simp [show p.vu ^ 2 + p.vd ^ 2 = 0 by nlinarith, hv]
  · have hv' : p.vu ^ 2 + p.vd ^ 2 ≠ 0 := by intro hc; apply hv; nlinarith
    rw [show p.vu * p.vu + p.vd * p.vd = p.vu ^ 2 + p.vd ^ 2 by ring]
    field_simp

/-! ### The hypotheses are met -/

/-- value of a correction that is available -/
noncomputable def valueOf (e : Except String ℝ) : ℝ := match e with | .ok x => x | .error _ => 0

/-- the threshold calculator seen by the hierarchy calculator -/
noncomputable def tcOf (T : ThrFns ℝ) (c : TcObj ℝ) : Tc ℝ where
  thr xo o _ n := valueOf ((c.setXtOrder xo).thr T o.order .DRBARPRIME n)
  shift xo n m := valueOf (c.shift T xo n m)
  xtTerms l x n := valueOf (T.xtTerms c (Limit.ofInt l) x n)
  limit := c.p.massLimit3LThreshold

theorem tcOf_isTc (c : TcObj ℝ) (h : c.p.massLimit3LThreshold = 4) : IsTc demoThr c (tcOf demoThr c) where
  thr xo o n := by
    have hl : (c.setXtOrder xo).limit = .qug := by show Limit.ofInt c.p.massLimit3LThreshold = _; rw [h]; rfl
    cases o <;> simp only [TCO.order, TcObj.thr, hl, tcOf] <;> rfl
  shift xo n m := by
    have hl : c.limit = .qug := by show Limit.ofInt c.p.massLimit3LThreshold = _; rw [h]; rfl
    by_cases hx : xo ≤ 3 <;> simp only [tcOf, TcObj.shift, hl, hx, if_true, if_false] <;> rfl
  limit := rfl

/-- `examplePoint` at the scale of the heavier stop, with the fully degenerate mass limit -/
noncomputable def shiftPoint : Params ℝ := { examplePoint with scale := 3 / 4, massLimit3LThreshold := 4 }

/-- `exampleEnv` with the modelled threshold calculator -/
noncomputable def shiftEnv : Env ℝ := { exampleEnv with tc := fun p => .ok (tcOf demoThr ⟨p, 1, 6⟩) }

theorem shiftEnv_total : TotalEnv shiftEnv where
  hier _ _ _ _ _ := ⟨_, rfl⟩
  atas _ := ⟨_, rfl⟩
  eftFull _ := ⟨_, rfl⟩
  eftAs _ := ⟨_, rfl⟩
  tc _ := ⟨_, rfl⟩
  fo _ _ := ⟨_, rfl⟩

theorem shiftPoint_suitable : Suitable shiftPoint (HObj.new false) 4 := by
  have : calcMeanMsq shiftPoint = calcMeanMsq examplePoint := rfl
  unfold Suitable isHierarchySuitable
  rw [this, examplePoint_msq]
  simp [suitableMasses, shiftPoint, examplePoint, HObj.new, HObj.setSuitableHierarchy, HObj.getSuitableHierarchy,
    HObj.getIsAlphab, real_ofNat, Hier.h3, Hier.h32q2g, Hier.h3q22g, Hier.h4, Hier.h5]
  norm_num

/-- a complete run at which the reported two-loop shift is wrong -/
theorem C55_witness : ∃ r, (calculateDMh3L shiftEnv shiftPoint false ⟨fun _ => 1, HObj.new false⟩).1 = .ok r ∧
    ∃ l2, (⟨pMassES shiftPoint, 1, 6⟩ : TcObj ℝ).thr demoThr .LAMBDA_AT_AS .TEST 1 = .ok l2 ∧
      ∀ L S, r.getDLambda 2 = .ok L → r.getDLambdaShift 2 = .ok S → L + S ≠ pref2 shiftPoint * l2 := by
  obtain ⟨r, hr⟩ := C20_returns_if_suitable shiftEnv_total (fun _ => 1) false (HObj.new false) 4 shiftPoint_suitable
  refine ⟨r, hr, _, rfl, ?_⟩
  have hs : Real.sqrt (9 / 16) = 3 / 4 := by
    rw [show (9 / 16 : ℝ) = (3 / 4) ^ 2 by norm_num]; exact Real.sqrt_sq (by norm_num)
  have hlog : logMR (pMassES shiftPoint) 1 ((pMassES shiftPoint).mq2 2 2) = (0 : ℝ) := by
    simp [logMR, pMassES, shiftPoint, examplePoint, Mat3.set22, pow2]
    rw [← Real.log_mul (by norm_num) (by norm_num)]; norm_num
  refine C55_two_loop_shift_wrong hr rfl (tcOf_isTc ⟨pMassES shiftPoint, 1, 6⟩ rfl) ?_ _ _ _ rfl rfl rfl ?_ ?_ ?_ ?_ ?_
  · simp [shiftPoint, examplePoint]
  · show Thr.dLamAtQU _ _ _ _ _ _ _ (logMR (pMassES shiftPoint) 1 ((pMassES shiftPoint).mq2 2 2)) ≠ (0 : ℝ)
    rw [hlog]
    simp [Thr.dLamAtQU, calcXt, eftTanBeta, pMassES, shiftPoint, examplePoint, Mat3.set22, pow2, Misc.pow4, Misc.pow2]
    norm_num
  · show Thr.dYtAsQUG _ _ _ _ _ _ _ (logMR (pMassES shiftPoint) 1 ((pMassES shiftPoint).mq2 2 2)) ≠ (0 : ℝ)
    rw [hlog]
    have : (pMassES shiftPoint).mq2 2 2 = 9 / 16 := by
      simp [pMassES, shiftPoint, examplePoint, Mat3.set22, pow2]; norm_num
    simp only [this, real_sqrt, hs]
    simp [Thr.dYtAsQUG, calcXt, eftTanBeta, pMassES, shiftPoint, examplePoint]
    norm_num
  · simp [shiftPoint, examplePoint]
  · simp [shiftPoint, examplePoint]
  · simp [shiftPoint, examplePoint]

end Himalaya
