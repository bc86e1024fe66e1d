import Verif.EFT.Switches
import Verif.Iface.Props4

/-!
# C37: selection of the mass limit by the constructor of the threshold calculator
-/

set_option linter.unusedSimpArgs false
set_option linter.unusedVariables false
set_option linter.unusedSectionVars false

namespace Himalaya

open scoped Himalaya Himalaya.FOps

section
variable {F : Type} [Add F] [Sub F] [Mul F] [Div F] [Neg F] [FOps F]

/-! ### Specification -/

/-- `a` and `b` differ by less than one percent of `m` -/
def nearTo (m a b : F) : Bool := FOps.lt (FOps.abs (a - b)) (m * FOps.lit (1 / 100))

/-- the near-equalities that define each limit, for `mQ3`, `mU3`, gluino mass `m3` and average squark mass `msq` -/
def nearLimit (mQ mU m3 msq : F) : Limit → Bool
  | .degenerate => nearTo mQ mQ mU && nearTo mQ mU m3 && nearTo mQ m3 msq
  | .qug => nearTo mQ mQ mU && nearTo mQ mU m3
  | .qu => nearTo mQ mQ mU
  | .qg => nearTo mQ mQ m3
  | .ug => nearTo mU mU m3
  | _ => false

/-- limits in the order of preference -/
def limitOrder : List Limit := [.degenerate, .qug, .qu, .qg, .ug]

/-- the limit closest to a point: the first one whose near-equalities hold -/
def closestLimit (mQ mU m3 msq : F) : Option Limit := limitOrder.find? (nearLimit mQ mU m3 msq)

/-- the point half-way to the limit at which the general formula is tried: right-handed stop and gluino mass (and for the
degenerate case the squark mass) at half their distance from `mQ3` -/
def halfWay (c : TcObj F) (l : Limit) : TcObj F :=
  let mQ := FOps.sqrt (c.p.mq2 2 2)
  let half (m : F) : F := mQ + FOps.abs (m - mQ) / 2
  { p := { c.p with mu2 := c.p.mu2.set22 (pow2 (half (FOps.sqrt (c.p.mu2 2 2)))), MG := half c.p.MG },
    msq2 := if l = .degenerate then pow2 (half (FOps.sqrt c.msq2)) else c.msq2,
    xtOrder := c.xtOrder }

/-- the general formula is trusted: finite at both points, not larger than 1 at both, and closer to the limit at the nearer point -/
def trusted (exact half lim : F) : Prop :=
  FOps.isFinite exact = true ∧ FOps.isFinite half = true ∧
    (FOps.lt 1 (FOps.abs exact) = false ∨ FOps.lt 1 (FOps.abs half) = false) ∧
    FOps.lt (FOps.abs (half - lim)) (FOps.abs (exact - lim)) = true

theorem isGeneralStable_iff (e s l : F) : isGeneralStable e s l = true ↔ trusted e s l := by
  unfold isGeneralStable trusted
  cases FOps.isFinite e <;> cases FOps.isFinite s <;> cases FOps.lt 1 (FOps.abs e) <;> cases FOps.lt 1 (FOps.abs s) <;> simp

/-- prefactor of the two-loop top Yukawa correction in the stability test; ThresholdCalculator.cpp:147 -/
def ytPref (p : Params F) : F := FOps.const .twoLoop * FOps.const .sqrt2 * p.Mt * Misc.pow4 p.g3 / eftV p

/-! ### Theorems -/

theorem selectLimit_eq (T : ThrFns F) (c : TcObj F) :
    c.selectLimit T =
      match closestLimit (FOps.sqrt (c.p.mq2 2 2)) (FOps.sqrt (c.p.mu2 2 2)) c.p.MG (FOps.sqrt c.msq2) with
      | none => .ok c
      | some l => c.tryLimit T (ytPref c.p) l (halfWay c l) := by
  unfold TcObj.selectLimit closestLimit limitOrder
  have h : ∀ m a b : F, FOps.lt (FOps.abs (a - b)) (m * FOps.lit (1 / 100)) = nearTo m a b := fun _ _ _ => rfl
  simp only [h, List.find?, nearLimit]
  cases nearTo (FOps.sqrt (c.p.mq2 2 2)) (FOps.sqrt (c.p.mq2 2 2)) (FOps.sqrt (c.p.mu2 2 2)) <;>
    cases nearTo (FOps.sqrt (c.p.mq2 2 2)) (FOps.sqrt (c.p.mu2 2 2)) c.p.MG <;>
    cases nearTo (FOps.sqrt (c.p.mq2 2 2)) c.p.MG (FOps.sqrt c.msq2) <;>
    cases nearTo (FOps.sqrt (c.p.mq2 2 2)) (FOps.sqrt (c.p.mq2 2 2)) c.p.MG <;>
    cases nearTo (FOps.sqrt (c.p.mu2 2 2)) (FOps.sqrt (c.p.mu2 2 2)) c.p.MG <;> rfl

/-- **C37.** Construction without a close pair of masses: the object holds the validated parameters, with whatever mass limit
the user asked for. -/
theorem C37_no_close_masses (X : Ext F) (T : ThrFns F) (p q : Params F) (hv : validate X p = (.ok (), q))
    (h : ∀ l, nearLimit (FOps.sqrt (q.mq2 2 2)) (FOps.sqrt (q.mu2 2 2)) q.MG (FOps.sqrt (calculateMsq2 p)) l = false) :
    thresholdCalculator X T p false = .ok ⟨q, calculateMsq2 p, 6⟩ := by
  unfold thresholdCalculator
  rw [hv]
  simp only [Bool.false_eq_true, if_false]
  rw [selectLimit_eq]
  have : closestLimit (FOps.sqrt (q.mq2 2 2)) (FOps.sqrt (q.mu2 2 2)) q.MG (FOps.sqrt (calculateMsq2 p)) = none := by
    unfold closestLimit; rw [List.find?_eq_none]; intro l _; rw [h l]; simp
  simp only [this]

/-- **C37.** Construction with close masses.  The limit is the first of degenerate, `mQ3=mU3=m3`, `mQ3=mU3`, `mQ3=m3`, `mU3=m3`
whose defining near-equalities hold; it replaces the user's choice exactly if the general formula is not trusted at the
point, and nothing else changes: all masses varied for the test are back at their validated values. -/
theorem C37_selection (X : Ext F) (T : ThrFns F) (p q : Params F) (c : TcObj F) (hv : validate X p = (.ok (), q))
    (hc : thresholdCalculator X T p false = .ok c) (l : Limit)
    (hl : closestLimit (FOps.sqrt (q.mq2 2 2)) (FOps.sqrt (q.mu2 2 2)) q.MG (FOps.sqrt (calculateMsq2 p)) = some l) :
    let base : TcObj F := ⟨q, calculateMsq2 p, 6⟩
    nearLimit (FOps.sqrt (q.mq2 2 2)) (FOps.sqrt (q.mu2 2 2)) q.MG (FOps.sqrt (calculateMsq2 p)) l = true ∧
    ∃ lim exact half, T.ytAs2 base l 1 = .ok lim ∧ T.ytAs2 base .general 1 = .ok exact ∧
      T.ytAs2 (halfWay base l) .general 1 = .ok half ∧
      (trusted (ytPref q * exact) (ytPref q * half) (ytPref q * lim) ∧ c = base ∨
       ¬ trusted (ytPref q * exact) (ytPref q * half) (ytPref q * lim) ∧
         c = ⟨{ q with massLimit3LThreshold := l.toInt }, calculateMsq2 p, 6⟩) := by
  intro base
  refine ⟨List.find?_some hl, ?_⟩
  unfold thresholdCalculator at hc
  rw [hv] at hc
  simp only [Bool.false_eq_true, if_false] at hc
  rw [selectLimit_eq] at hc
  simp only [hl] at hc
  unfold TcObj.tryLimit at hc
  cases e1 : T.ytAs2 base l 1 with
  | error s => rw [e1] at hc; cases hc
  | ok lim =>
  cases e2 : T.ytAs2 base .general 1 with
  | error s => rw [e1, bindOk, e2] at hc; cases hc
  | ok exact =>
  cases e3 : T.ytAs2 (halfWay base l) .general 1 with
  | error s => rw [e1, bindOk, e2, bindOk, e3] at hc; cases hc
  | ok half =>
  rw [e1, bindOk, e2, bindOk, e3, bindOk] at hc
  refine ⟨_, _, _, rfl, rfl, rfl, ?_⟩
  rw [← isGeneralStable_iff]
  split_ifs at hc with h
  · left; injection hc with hc; exact ⟨h, hc.symm⟩
  · right; injection hc with hc; exact ⟨h, hc.symm⟩

/-- **C37.** With `check = true` no limit is selected. -/
theorem C37_check (X : Ext F) (T : ThrFns F) (p q : Params F) (hv : validate X p = (.ok (), q)) :
    thresholdCalculator X T p true = .ok ⟨q, calculateMsq2 p, 6⟩ := by
  unfold thresholdCalculator; rw [hv]; rfl

/-- **C37.** Whatever happens, the object holds the validated parameters except possibly for the mass limit, and the limit is
either the user's or one whose near-equalities hold at the validated point. -/
theorem C37_frame (X : Ext F) (T : ThrFns F) (p : Params F) (c : TcObj F) (check : Bool)
    (hc : thresholdCalculator X T p check = .ok c) :
    ∃ q, validate X p = (.ok (), q) ∧ c.msq2 = calculateMsq2 p ∧ c.xtOrder = 6 ∧
      (c.p = q ∨ ∃ l, c.limit = l ∧ c.p = { q with massLimit3LThreshold := l.toInt } ∧
        nearLimit (FOps.sqrt (q.mq2 2 2)) (FOps.sqrt (q.mu2 2 2)) q.MG (FOps.sqrt (calculateMsq2 p)) l = true) := by
  rcases validate_cases X p with ⟨q, hv, -⟩ | ⟨e, q, hv, -⟩
  · refine ⟨q, hv, ?_⟩
    cases check with
    | true => rw [C37_check X T p q hv] at hc; injection hc with hc; subst hc; exact ⟨rfl, rfl, Or.inl rfl⟩
    | false =>
      cases hl : closestLimit (FOps.sqrt (q.mq2 2 2)) (FOps.sqrt (q.mu2 2 2)) q.MG (FOps.sqrt (calculateMsq2 p)) with
      | none =>
        unfold thresholdCalculator at hc
        rw [hv] at hc
        simp only [Bool.false_eq_true, if_false] at hc
        rw [selectLimit_eq] at hc
        simp only [hl] at hc
        injection hc with hc; subst hc; exact ⟨rfl, rfl, Or.inl rfl⟩
      | some l =>
        obtain ⟨hn, _, _, _, -, -, -, h | h⟩ := C37_selection X T p q c hv hc l hl
        · rw [h.2]; exact ⟨rfl, rfl, Or.inl rfl⟩
        · rw [h.2]
          refine ⟨rfl, rfl, Or.inr ⟨l, ?_, rfl, hn⟩⟩
          show Limit.ofInt l.toInt = l
          have : l ∈ limitOrder := List.mem_of_find?_eq_some hl
          simp only [limitOrder, List.mem_cons, List.not_mem_nil, or_false] at this
          rcases this with rfl | rfl | rfl | rfl | rfl <;> rfl
  · unfold thresholdCalculator at hc; rw [hv] at hc; cases hc

/-- **C37.** If the general formula breaks down at the point (it is not finite there), the limit closest to the point is used. -/
theorem C37_singular_point (X : Ext F) (T : ThrFns F) (p q : Params F) (c : TcObj F) (hv : validate X p = (.ok (), q))
    (hc : thresholdCalculator X T p false = .ok c) (l : Limit)
    (hl : closestLimit (FOps.sqrt (q.mq2 2 2)) (FOps.sqrt (q.mu2 2 2)) q.MG (FOps.sqrt (calculateMsq2 p)) = some l)
    (hs : ∀ x, T.ytAs2 ⟨q, calculateMsq2 p, 6⟩ .general 1 = .ok x → FOps.isFinite (ytPref q * x) = false) : c.limit = l := by
  obtain ⟨-, lim, exact, half, -, h2, -, ⟨h, -⟩ | ⟨-, h⟩⟩ := C37_selection X T p q c hv hc l hl
  · have := h.1; rw [hs _ h2] at this; cases this
  · rw [h]
    show Limit.ofInt l.toInt = l
    have : l ∈ limitOrder := List.mem_of_find?_eq_some hl
    simp only [limitOrder, List.mem_cons, List.not_mem_nil, or_false] at this
    rcases this with rfl | rfl | rfl | rfl | rfl <;> rfl

/-- **C37.** `setLimit` followed by `getLimit`. -/
theorem C37_set_get (c : TcObj F) (l : Limit) (h : ∀ i, l = .other i → 6 ≤ i ∨ i < 0) :
    (c.setLimit l).limit = l ∧ (c.setLimit l).msq2 = c.msq2 ∧ (c.setLimit l).xtOrder = c.xtOrder ∧
      ∀ l', ((c.setLimit l).setLimit l') = c.setLimit l' := by
  refine ⟨?_, rfl, rfl, fun _ => rfl⟩
  cases l <;> try rfl
  case other i =>
    show Limit.ofInt i = .other i
    have := h i rfl
    unfold Limit.ofInt
    rw [if_neg (by omega), if_neg (by omega), if_neg (by omega), if_neg (by omega), if_neg (by omega), if_neg (by omega)]

end

/-! ### Over the reals -/

theorem near_real (m a b : ℝ) : nearTo m a b = true ↔ |a - b| < m / 100 := by
  unfold nearTo
  rw [real_lt_iff, real_abs]
  simp only [real_lit]; push_cast
  rw [mul_one_div]

/-- **C37.** Over the reals: a limit that the constructor selects differs from the point by less than one percent in every mass it
identifies. -/
theorem C37_real_near (mQ mU m3 msq : ℝ) (l : Limit) (h : nearLimit mQ mU m3 msq l = true) :
    (l = .degenerate → |mQ - mU| < mQ / 100 ∧ |mU - m3| < mQ / 100 ∧ |m3 - msq| < mQ / 100) ∧
    (l = .qug → |mQ - mU| < mQ / 100 ∧ |mU - m3| < mQ / 100) ∧ (l = .qu → |mQ - mU| < mQ / 100) ∧
    (l = .qg → |mQ - m3| < mQ / 100) ∧ (l = .ug → |mU - m3| < mU / 100) := by
  cases l <;> simp [nearLimit, near_real] at h <;> simp [h]

/-- non-vacuity: at a completely degenerate point the closest limit is the degenerate one; with the gluino apart it is
`mQ3 = mU3`; with three different masses there is none -/
example : closestLimit (1000 : ℝ) 1001 1002 1003 = some .degenerate ∧ closestLimit (1000 : ℝ) 1001 2000 1003 = some .qu ∧
    closestLimit (1000 : ℝ) 2000 1001 1003 = some .qg ∧ closestLimit (1000 : ℝ) 2000 2001 1003 = some .ug ∧
    closestLimit (1000 : ℝ) 2000 3000 1003 = none := by
  have f : ∀ m a b : ℝ, nearTo m a b = decide (|a - b| < m / 100) := by
    intro m a b; rw [Bool.eq_iff_iff, near_real]; simp
  refine ⟨?_, ?_, ?_, ?_, ?_⟩ <;> simp only [closestLimit, limitOrder, List.find?, nearLimit, f] <;> norm_num [abs_of_neg]

/-- non-vacuity of `C37_selection`: a complete construction that replaces the user's limit -/
example (X : Ext ℝ) (T : ThrFns ℝ) (hT : ∀ c l n, T.ytAs2 c l n = .ok (if l = .general then 1 else 0)) :
    ∃ p c, thresholdCalculator X T p false = .ok c ∧ p.massLimit3LThreshold = 0 ∧ c.limit = .ug := by
  let p : Params ℝ := { onePoint with mu2 := fun _ _ => 4, MG := 2 }
  have hs : softMassesNegative p = false := by
    have hm : ∀ x : ℝ, 0 ≤ x → FOps.lt (minCoeff (fun _ _ => x)) (@OfNat.ofNat ℝ 0 (FOps.instOfNat 0)) = false := by
      intro x hx
      have : minCoeff (fun _ _ => x) = x := by
        unfold minCoeff
        simp
      rw [this, real_lt_false, real_ofNat]; simpa using hx
    simp only [softMassesNegative, p, onePoint, hm 1 (by norm_num), hm 4 (by norm_num), Bool.or_self]
  obtain ⟨q, hq, h1, h2, h3, h4, h5, h6⟩ := validate_real X p hs (by norm_num [p]) (by norm_num [p, onePoint])
    (by norm_num [p, onePoint])
  have e3 : q.mq2 2 2 = 1 := by
    rw [h3]
    unfold shiftMq2
    rw [if_neg]
    · rfl
    · simp [p, onePoint, degEps]
      norm_num [abs_of_neg]
  have e4 : q.mu2 2 2 = 4 := by rw [h4]
  have e5 : q.MG = 2 := h5
  have r4 : Real.sqrt 4 = 2 := by rw [show (4 : ℝ) = 2 ^ 2 by norm_num]; exact Real.sqrt_sq (by norm_num)
  have hl : closestLimit (FOps.sqrt (q.mq2 2 2)) (FOps.sqrt (q.mu2 2 2)) q.MG (FOps.sqrt (calculateMsq2 p)) = some .ug := by
    have f : ∀ m a b : ℝ, nearTo m a b = decide (|a - b| < m / 100) := by
      intro m a b; rw [Bool.eq_iff_iff, near_real]; simp
    simp only [closestLimit, limitOrder, List.find?, nearLimit, f, e3, e4, e5, real_sqrt, r4, Real.sqrt_one]
    norm_num [abs_of_neg]
  have hok : ∃ c, thresholdCalculator X T p false = .ok c := by
    unfold thresholdCalculator
    rw [hq]
    simp only [Bool.false_eq_true, if_false]
    rw [selectLimit_eq]
    simp only [hl]
    unfold TcObj.tryLimit
    rw [hT, bindOk, hT, bindOk, hT, bindOk]
    split_ifs <;> exact ⟨_, rfl⟩
  obtain ⟨c, hc⟩ := hok
  refine ⟨p, c, hc, rfl, ?_⟩
  obtain ⟨-, lim, exact, half, g1, g2, g3, ⟨g, -⟩ | ⟨-, g⟩⟩ := C37_selection X T p q c hq hc _ hl
  · rw [hT] at g1 g2 g3
    injection g1 with g1; injection g2 with g2; injection g3 with g3
    have := g.2.2.2
    rw [← g2, ← g3, real_lt_iff] at this
    exact absurd this (lt_irrefl _)
  · rw [g]; rfl

/-! ### The squark mass average is computed before the parameters are completed -/

/-- **C37 (finding).** If the bottom or Z mass is left for Himalaya to compute (NaN, as the interface allows), the average
squark mass of a threshold calculator is NaN, although the parameters it stores contain the computed masses; then the
strong-coupling threshold correction is NaN in every scheme. -/
theorem C37_msq2_nan (X : Ext Dbl) (T : ThrFns Dbl) (p : Params Dbl) (c : TcObj Dbl) (check : Bool)
    (hc : thresholdCalculator X T p check = .ok c) (h : p.Mb = .nan ∨ p.MZ = .nan) (s : Scheme) (n : Int) :
    c.msq2 = .nan ∧ c.thr T .G3_AS s n = .ok .nan := by
  have nadd : ∀ x : Dbl, x + .nan = .nan := by intro x; cases x <;> rfl
  have addn : ∀ x : Dbl, .nan + x = .nan := by intro x; cases x <;> rfl
  have nmul : ∀ x : Dbl, x * .nan = .nan := by intro x; cases x <;> rfl
  have muln : ∀ x : Dbl, .nan * x = .nan := by intro x; cases x <;> rfl
  have ndiv : ∀ x : Dbl, x / .nan = .nan := by intro x; cases x <;> rfl
  have divn : ∀ x : Dbl, .nan / x = .nan := by intro x; cases x <;> rfl
  have nsub : ∀ x : Dbl, x - .nan = .nan := by intro x; cases x <;> rfl
  have subn : ∀ x : Dbl, .nan - x = .nan := by intro x; cases x <;> rfl
  have hm : c.msq2 = .nan := by
    obtain ⟨q, -, e, -⟩ := C37_frame X T p c check hc
    rw [e]
    unfold calculateMsq2
    rcases h with h | h <;>
      simp only [h, pow2, calc_sw2, calc_cw2, nadd, addn, nmul, muln, ndiv, divn, nsub, subn] <;> rfl
  refine ⟨hm, ?_⟩
  have : c.dG3 n = .nan := by
    unfold TcObj.dG3 logMR
    rw [hm]
    simp only [nadd, addn, nmul, muln, ndiv, divn, nsub, subn,
      show FOps.log (Dbl.nan) = .nan from rfl]
  show Except.ok (if s = .DRBARPRIME then -c.dG3 n else c.dG3 n) = _
  rw [this]
  split_ifs <;> rfl

/-- non-vacuity: such points are accepted -/
example (T : ThrFns Dbl) : ∃ c, thresholdCalculator idealExt T (demo 900 1000) true = .ok c ∧ (demo 900 1000).Mb = .nan := by
  obtain ⟨q, hq⟩ := demo_ok (b1 := 900) (b2 := 1000) (by norm_num) (by norm_num) (demo 900 1000).MSt
  exact ⟨_, C37_check idealExt T (demo 900 1000) q hq, rfl⟩

end Himalaya
