import Verif.EFT.Scheme
import Verif.Calc.Props6
import Verif.Iface.Props2

/-!
# C36: the coupling-order switches of the EFT calculator
-/

set_option linter.unusedSimpArgs false
set_option linter.unusedVariables false
set_option linter.unusedSectionVars false

namespace Himalaya

open scoped Himalaya Himalaya.FOps

section
variable {F : Type} [Add F] [Sub F] [Mul F] [Div F] [Neg F] [FOps F]

/-! ### Specification -/

/-- one-loop correction as a sum over coupling orders: `x o` is the contribution of the order `o` stripped of its couplings -/
def eftSum1 (p : Params F) (x : Order → F) : F :=
  let yt := FOps.const .sqrt2 * p.Mt / p.vu
  let yb := FOps.const .sqrt2 * p.Mb / p.vd
  let ytau := FOps.const .sqrt2 * p.Mtau / p.vd
  x .YT4 + FOps.const .oneLoop * (pow2 (p.g1 * p.g2) * x .G12G22 + Misc.pow4 p.g1 * x .G14 + Misc.pow4 p.g2 * x .G24
    + pow2 (p.g1 * yb) * x .G12YB2 + pow2 (p.g2 * yb) * x .G22YB2 + Misc.pow4 yb * x .YB4 + pow2 (p.g1 * ytau) * x .G12YTAU2
    + pow2 (p.g2 * ytau) * x .G22YTAU2 + Misc.pow4 ytau * x .YTAU4 + pow2 (p.g1 * yt) * x .G12YT2
    + pow2 (p.g2 * yt) * x .G22YT2)

/-- two-loop correction as a sum over coupling orders -/
def eftSum2 (p : Params F) (x : Order → F) : F :=
  let yt2 := 2 * pow2 (p.Mt / p.vu)
  let yb2 := 2 * pow2 (p.Mb / p.vd)
  let ytau2 := 2 * pow2 (p.Mtau / p.vd)
  FOps.const .twoLoop * (pow2 p.g3 * pow2 yb2 * x .G32YB4 + Misc.pow3 yb2 * x .YB6 + Misc.pow3 yt2 * x .YT6
    + pow2 yb2 * ytau2 * x .YTAU2YB4 + yb2 * pow2 ytau2 * x .YTAU4YB2 + Misc.pow3 ytau2 * x .YTAU6
    + yt2 * pow2 yb2 * x .YT2YB4 + pow2 yt2 * yb2 * x .YB2YT4) + x .G32YT4

/-! ### Proofs -/

theorem calcIf_ok (b : Bool) (t : F) : calcIf b (.ok t) = .ok (zeroIf b t) := by cases b <;> rfl

theorem zeroIf_on (c : EftCalc F) (o : Order) (x : F) : zeroIf (c.on o) x = if c.orders o ≠ 0 then x else 0 := by
  unfold zeroIf EftCalc.on
  by_cases h : c.orders o = 0 <;> simp [h]

theorem zeroIf_true (x : F) : zeroIf true x = x := rfl
theorem zeroIf_congr {b : Bool} {x y : F} (h : b = true → x = y) : zeroIf b x = zeroIf b y := by
  cases b
  · rfl
  · exact h rfl

/-- contribution of the order `o` to the one-loop correction; Mh2EFTCalculator.cpp:161-433 -/
def eftX1 (t : ThrOrder → F) (fB : F → F → F → F) (p : Params F) (n : Int) (o : Order) : F :=
  let lmMt := (FOps.ofInt n) * FOps.log (pow2 (p.scale / p.Mt))
  let v2 := (eftV2 p)
  let gt := (FOps.const .sqrt2) * p.Mt / (eftV p)
  let pref_at := (FOps.const .oneLoop) * pow2 (p.Mt * gt)
  let q2 := pow2 p.Mt
  let beta := (eftBeta p)
  let cbeta := (eftCosBeta p)
  let c2beta := FOps.cos (2 * beta)
  let sbeta := (eftSinBeta p)
  let mhtree2 := pow2 (c2beta * p.MZ)
  let yt := (FOps.const .sqrt2) * p.Mt / p.vu
  let yb := (FOps.const .sqrt2) * p.Mb / p.vd
  let ytau := (FOps.const .sqrt2) * p.Mtau / p.vd
  let dlambdayb2g12 := t .LAMBDA_YB2_G12
  let dlambdag14 := t .LAMBDA_G14
  let dlambdaregg14 := t .LAMBDA_REG_G14
  let dlambdachig14 := t .LAMBDA_CHI_G14
  let dg1g1 := t .G1_G1
  let dlambdachig24 := t .LAMBDA_CHI_G24
  let dlambdag24 := t .LAMBDA_G24
  let dg2g2 := t .G2_G2
  let dlambdaregg24 := t .LAMBDA_REG_G24
  let dlambdag12g22 := t .LAMBDA_G12_G22
  let dlambdaregg12g22 := t .LAMBDA_REG_G12_G22
  let dlambdachig12g22 := t .LAMBDA_CHI_G12_G22
  let dlambdayb2g22 := t .LAMBDA_YB2_G22
  let dlambdayb4 := t .LAMBDA_YB4
  let dlambdayt2g12 := t .LAMBDA_YT2_G12
  let dlambdayt2g22 := t .LAMBDA_YT2_G22
  let dlambdaytau2g12 := t .LAMBDA_YTAU2_G12
  let dlambdaytau2g22 := t .LAMBDA_YTAU2_G22
  let dlambdaytau4 := t .LAMBDA_YTAU4
  let dvg12 := 0
  let dvg22 := 0
  let dvyt2 := t .VEV_YT2
  let dvyb2 := t .VEV_YB2
  let dvytau2 := t .VEV_YTAU2
  let bbhDR := fB mhtree2 mhtree2 q2
  let bbwDR := fB mhtree2 (pow2 p.MW) q2
  let bbzDR := fB mhtree2 (pow2 p.MZ) q2
  let B00DR := fB mhtree2 0 q2
  let tdmh2yt4 := t .LAMBDA_AT
  match o with
  | .G12G22 => discardNaN (v2 * (24 + 40 * dlambdachig12g22 + 40 * dlambdag12g22 + 40 *
      dlambdaregg12g22 - 36 * lmMt + 40 * dvg12 * pow2 c2beta + 24 * dvg22 * pow2 c2beta + 36 * lmMt * pow2 c2beta - 12 * lmMt
      * 1 * pow2 c2beta - 6 * bbwDR * (-2 + pow2 c2beta) * pow2 c2beta - 6 * Misc.pow4 c2beta - 27 * bbhDR * Misc.pow4 c2beta
      - 36 * lmMt * Misc.pow4 c2beta - 3 * bbzDR * (12 - 4 * pow2 c2beta + Misc.pow4 c2beta)) / 80)
  | .G14 => discardNaN ((-(v2 * ((-4) * (18 + 100 * dlambdachig14 + 100 * dlambdag14 + 100 *
      dlambdaregg14 - 27 * lmMt) + 6 * (40 * dg1g1 - 40 * dvg12 + 3 * lmMt * (-3 + 1)) * pow2 c2beta + 9 * (9 * bbhDR + 2 * (1
      + bbwDR + 6 * lmMt)) * Misc.pow4 c2beta + 9 * bbzDR * (12 - 4 * pow2 c2beta + Misc.pow4 c2beta)))) / 800)
  | .G24 => discardNaN ((-(v2 * (-24 - 16 * dlambdachig24 - 16 * dlambdag24 - 16 * dlambdaregg24 +
      36 * lmMt + 16 * dg2g2 * pow2 c2beta - 16 * dvg22 * pow2 c2beta - 18 * lmMt * pow2 c2beta + 6 * lmMt * 1 * pow2 c2beta +
      2 * Misc.pow4 c2beta + 9 * bbhDR * Misc.pow4 c2beta + 12 * lmMt * Misc.pow4 c2beta + 2 * bbwDR * (12 - 4 * pow2 c2beta +
      Misc.pow4 c2beta) + bbzDR * (12 - 4 * pow2 c2beta + Misc.pow4 c2beta)))) / 32)
  | .G12YB2 => discardNaN ((10 * dlambdayb2g12 - 3 * (3 * B00DR - 2 * dvyb2 + 3 * lmMt) * pow2
      c2beta) * pow2 cbeta * v2 / 20)
  | .G22YB2 => discardNaN ((2 * dlambdayb2g22 + ((-3) * B00DR + 2 * dvyb2 - 3 * lmMt) * pow2
      c2beta) * pow2 cbeta * v2 / 4)
  | .YB4 => discardNaN ((12 * B00DR + dlambdayb4 + 12 * lmMt) * v2 * Misc.pow4 cbeta / 2)
  | .G12YT2 => discardNaN ((10 * dlambdayt2g12 + (6 + 6 * dvyt2 - 9 * lmMt) * pow2 c2beta) *
      pow2 sbeta * v2 / 20)
  | .G22YT2 => discardNaN ((2 * dlambdayt2g22 + (2 + 2 * dvyt2 - 3 * lmMt) * pow2 c2beta) * pow2
      sbeta * v2 / 4)
  | .YT4 => discardNaN (pref_at * (12 * lmMt + tdmh2yt4))
  | .G12YTAU2 => discardNaN ((-(((-10) * dlambdaytau2g12 + 3 * B00DR * pow2 c2beta + 3 * ((-2)
      * dvytau2 + lmMt) * pow2 c2beta) * pow2 cbeta * v2)) / 20)
  | .G22YTAU2 => discardNaN ((-(((-2) * dlambdaytau2g22 + B00DR * pow2 c2beta + ((-2) *
      dvytau2 + lmMt) * pow2 c2beta) * pow2 cbeta * v2)) / 4)
  | .YTAU4 => discardNaN ((4 * B00DR + dlambdaytau4 + 4 * lmMt) * v2 * Misc.pow4 cbeta / 2)
  | _ => 0

/-- contribution of the order `o` to the two-loop correction; Mh2EFTCalculator.cpp:441-690 -/
def eftX2 (t : ThrOrder → F) (p : Params F) (n : Int) (o : Order) : F :=
  let lmMt := (FOps.ofInt n) * FOps.log (pow2 (p.scale / p.Mt))
  let v2 := (eftV2 p)
  let gt := (FOps.const .sqrt2) * p.Mt / (eftV p)
  let g32 := pow2 p.g3
  let yt2 := 2 * pow2 (p.Mt / p.vu)
  let yb2 := 2 * pow2 (p.Mb / p.vd)
  let ytau2 := 2 * pow2 (p.Mtau / p.vd)
  let yt4 := pow2 yt2
  let yb4 := pow2 yb2
  let yt6 := Misc.pow3 yt2
  let yb6 := Misc.pow3 yb2
  let ytau4 := pow2 ytau2
  let ytau6 := Misc.pow3 ytau2
  let cbeta := (eftCosBeta p)
  let sbeta := (eftSinBeta p)
  let lmbMt := FOps.log (pow2 (p.Mb / p.Mt))
  let pref := (FOps.const .twoLoop) * pow2 (p.Mt * gt * p.g3)
  let B00DR := 0
  let dytas := t .YT_AS
  let dlambdayb4g32 := t .LAMBDA_YB4_G32
  let dlambdayb4 := t .LAMBDA_YB4
  let dlambdayb6 := t .LAMBDA_YB6
  let dlambdayt4 := t .LAMBDA_AT
  let dytyt := t .YT_YT
  let dlambdayt6 := t .LAMBDA_YT6
  let dvyt2 := t .VEV_YT2
  let dytauytau := t .YTAU_YTAU
  let dlambdaytau4 := t .LAMBDA_YTAU4
  let dlambdaytau6 := t .LAMBDA_YTAU6
  let dlambdayt2yb4 := t .LAMBDA_YT2_YB4
  let dlambdayt4yb2 := t .LAMBDA_YT4_YB2
  let dytyb := t .YT_YB
  let dvytau2 := t .VEV_YTAU2
  let dvyb2 := t .VEV_YB2
  let dytauyb := t .YTAU_YB
  let dlambdayb4ytau2 := t .LAMBDA_YTAU2_YB4
  let dlambdayb2ytau4 := t .LAMBDA_YTAU4_YB2
  let dybyt := t .YB_YT
  let dybas := t .YB_AS
  let dybyb := t .YB_YB
  let tdmh2yt4g32 := t .LAMBDA_AT_AS
  match o with
  | .G32YT4 => discardNaN (pref * (96 * pow2 lmMt + (-32 + 48 * dytas) * lmMt - 24 * dytas +
      tdmh2yt4g32))
  | .G32YB4 => discardNaN ((dlambdayb4g32 + 16 * (3 * B00DR * (dybas + 16 * lmMt) + lmMt * (-2 +
      3 * dybas + 24 * lmMt))) * v2 * Misc.pow4 cbeta / 2)
  | .YB6 => discardNaN ((-(((-144) * dybyb * (B00DR + lmMt) + pow2 cbeta * (-49 - 3 * dlambdayb6 +
      72 * dvyb2 - 72 * B00DR * dvyb2 - 60 * lmbMt + 234 * lmMt + 1296 * B00DR * lmMt - 72 * dvyb2 * lmMt + dlambdayb4 * (-9 +
      9 * B00DR - 6 * dvyb2 + 9 * lmMt) + 36 * pow2 lmbMt + 648 * pow2 lmMt - 6 * pow2 (FOps.const .pi))) * v2 * Misc.pow4 cbeta))
      / 6)
  | .YT6 => discardNaN (v2 * (4 * dytyt * (-6 + dlambdayt4 + 12 * lmMt) + (-12 + dlambdayt6 +
      dlambdayt4 * (2 + 2 * dvyt2 - 3 * lmMt) + 24 * dvyt2 * (-1 + lmMt) - 18 * lmMt * (1 + 3 * lmMt) - 2 * pow2 (FOps.const .pi))
      * pow2 sbeta) * Misc.pow4 sbeta / 2)
  | .YTAU2YB4 => discardNaN ((dlambdayb4ytau2 - 96 * B00DR * lmMt - dlambdayb4 * (-1 + B00DR +
      lmMt) + 2 * dvytau2 * (-12 + 12 * B00DR + dlambdayb4 + 12 * lmMt) - 48 * pow2 lmMt) * v2 * Misc.pow6 cbeta / 2)
  | .YTAU4YB2 => discardNaN ((4 * dytauyb * (4 * B00DR + dlambdaytau4 + 4 * lmMt) + pow2 cbeta
      * (dlambdayb2ytau4 - 8 * dvyb2 + 8 * B00DR * dvyb2 + dlambdaytau4 * (3 - 3 * B00DR + 2 * dvyb2 - 3 * lmMt) - 6 * lmMt -
      24 * B00DR * lmMt + 8 * dvyb2 * lmMt - 12 * pow2 lmMt)) * v2 * Misc.pow4 cbeta / 2)
  | .YTAU6 => discardNaN ((-(((-12) * dytauytau * (4 * B00DR + dlambdaytau4 + 4 * lmMt) + pow2
      cbeta * ((-3) * dlambdaytau6 + 3 * dlambdaytau4 * (-1 + B00DR - 2 * dvytau2 + lmMt) + 2 * (6 + 30 * (1 + B00DR) * lmMt -
      12 * dvytau2 * (-1 + B00DR + lmMt) + 15 * pow2 lmMt + pow2 (FOps.const .pi)))) * v2 * Misc.pow4 cbeta)) / 6)
  | .YT2YB4 => discardNaN ((48 * dybyt * lmMt + (dlambdayt2yb4 + dlambdayb4 * (2 + 2 * dvyt2 - 3
      * lmMt) + 3 * (-15 + 8 * lmbMt + 8 * dvyt2 * (-1 + lmMt) + 18 * lmMt - 24 * pow2 lmMt - 2 * pow2 (FOps.const .pi))) * pow2
      sbeta + 12 * B00DR * (4 * dybyt + (2 * dvyt2 - 9 * lmMt) * pow2 sbeta)) * v2 * Misc.pow4 cbeta / 2)
  | .YB2YT4 => discardNaN ((4 * dytyb * (-6 + dlambdayt4 + 12 * lmMt) + pow2 cbeta *
      (dlambdayt4yb2 + dlambdayt4 * (3 - 3 * B00DR + 2 * dvyb2 - 3 * lmMt) - 6 * (4 * dvyb2 + lmMt + 6 * B00DR * lmMt - 4 *
      dvyb2 * lmMt + 3 * pow2 lmMt - pow2 (FOps.const .pi)))) * v2 * Misc.pow4 sbeta / 2)
  | _ => 0


/-- **C36.** One loop: there are contributions, one for each coupling order and independent of all switches, such that for every
setting of the switches the result is the sum of those switched on, each multiplied by its own couplings. -/
theorem C36_one_loop (thr : ThrOrder → Int → Except String F) (t : ThrOrder → F) (fB : F → F → F → F) (p : Params F) (n m : Int)
    (ht : ∀ o, thr o m = .ok (t o)) :
    ∃ x : Order → F, ∀ orders : Flags,
      EftCalc.loop1 thr fB ⟨p, orders⟩ n m = .ok (eftSum1 p fun o => if orders o ≠ 0 then x o else 0) := by
  refine ⟨eftX1 t fB p n, fun orders => ?_⟩
  unfold EftCalc.loop1
  simp only [ht, calcIf_ok, bindOk, pure, Except.pure]
  refine congrArg Except.ok ?_
  unfold eftSum1 eftX1
  dsimp only
  set c : EftCalc F := ⟨p, orders⟩ with hc
  have e : ∀ o, (orders o ≠ 0) = (c.on o = true) := by
    intro o; simp [EftCalc.on, hc]
  simp only [e]
  have key : ∀ o (a b : F), (c.on o = true → a = b) → zeroIf (c.on o) a = if c.on o = true then b else 0 := by
    intro o a b h
    unfold zeroIf
    cases ho : c.on o
    · rfl
    · simp [h ho]
  repeat' first
    | (refine key _ _ _ fun ho => ?_; simp only [ho, zeroIf_true, Bool.or_true, Bool.true_or])
    | refine congrArg₂ HAdd.hAdd ?_ ?_
    | refine congrArg (HMul.hMul _) ?_

/-- **C36.** Two loops. -/
theorem C36_two_loop (thr : ThrOrder → Int → Except String F) (t : ThrOrder → F) (p : Params F) (n m : Int)
    (ht : ∀ o, thr o m = .ok (t o)) :
    ∃ x : Order → F, ∀ orders : Flags,
      EftCalc.loop2 thr ⟨p, orders⟩ n m = .ok (eftSum2 p fun o => if orders o ≠ 0 then x o else 0) := by
  refine ⟨eftX2 t p n, fun orders => ?_⟩
  unfold EftCalc.loop2
  simp only [ht, calcIf_ok, bindOk, pure, Except.pure]
  refine congrArg Except.ok ?_
  unfold eftSum2 eftX2
  dsimp only
  set c : EftCalc F := ⟨p, orders⟩ with hc
  have e : ∀ o, (orders o ≠ 0) = (c.on o = true) := by
    intro o; simp [EftCalc.on, hc]
  simp only [e]
  have key : ∀ o (a b : F), (c.on o = true → a = b) → zeroIf (c.on o) a = if c.on o = true then b else 0 := by
    intro o a b h
    unfold zeroIf
    cases ho : c.on o
    · rfl
    · simp [h ho]
  repeat' first
    | (refine key _ _ _ fun ho => ?_; simp only [ho, zeroIf_true, Bool.or_true, Bool.true_or])
    | refine congrArg₂ HAdd.hAdd ?_ ?_
    | refine congrArg (HMul.hMul _) ?_

/-- **C36.** The three-loop correction does not look at the switches. -/
theorem C36_three_loop (thr : ThrOrder → Int → Except String F) (p : Params F) (o o' : Flags) (n m k : Int) :
    EftCalc.loop3 thr ⟨p, o⟩ n m k = EftCalc.loop3 thr ⟨p, o'⟩ n m k := rfl

/-! ### Histories of switch settings -/

/-- **C36.** After any sequence of `setCorrectionFlag` calls, a switch has the value of the last call that named it, or its value
before; the parameters are untouched. -/
theorem C36_history (c : EftCalc F) (l : List (Order × Int)) (o : Order) :
    let c' := l.foldl (fun d s => d.setFlag s.1 s.2) c
    c'.p = c.p ∧ c'.orders o = ((l.filter fun s => s.1 = o).getLast?.map Prod.snd).getD (c.orders o) := by
  induction l using List.reverseRecOn with
  | nil => simp
  | append_singleton l s ih =>
    obtain ⟨h1, h2⟩ := ih
    dsimp only at h1 h2 ⊢
    rw [List.foldl_append]
    refine ⟨h1, ?_⟩
    show (Flags.put _ s.1 s.2) o = _
    rw [List.filter_append]
    by_cases h : s.1 = o
    · subst h; simp
    · rw [Flags.put_other _ _ (Ne.symm h), h2]; simp [h]

/-- **C36.** The switches right after construction: the one-loop and two-loop top-Yukawa orders are on unless the top (for the
`O(at^2)` order also the bottom) quark mass is below `1e-10`; the two inert orders; nothing else. -/
theorem C36_constructed (p : Params F) (o : Order) :
    eftOrders p o = match o with
      | .YT4 | .G32YT4 => if FOps.lt (FOps.abs p.Mt) eftEps then 0 else 1
      | .YT6 => if FOps.lt (FOps.abs p.Mt) eftEps || FOps.lt (FOps.abs p.Mb) eftEps then 0 else 1
      | .YTAU2YT4 => if FOps.lt (FOps.abs p.Mt) eftEps || FOps.lt (FOps.abs p.Mtau) eftEps then 0 else 1
      | .ONLY_AT_AS => 1
      | _ => 0 := by
  unfold eftOrders eftDisabled
  cases FOps.lt (FOps.abs p.g1) (eftEps : F) <;> cases FOps.lt (FOps.abs p.g2) (eftEps : F) <;>
    cases FOps.lt (FOps.abs p.Mt) (eftEps : F) <;> cases FOps.lt (FOps.abs p.Mb) (eftEps : F) <;>
    cases FOps.lt (FOps.abs p.Mtau) (eftEps : F) <;> cases o <;> rfl

/-- **C36.** `disable_non_as_terms` switches off every order except the two of the form `at as^n` and the inert ones, and changes
none of these. -/
theorem C36_disable_non_as (c : EftCalc F) (o : Order) :
    (disableNonAs c).orders o =
      if o = .YT4 ∨ o = .G32YT4 ∨ o = .YTAU2YT4 ∨ o = .ONLY_AT_AS then c.orders o else 0 := by
  cases o <;> rfl

end

/-! ### What remains after construction, over the reals -/

/-- Specification: the `O(at)` correction to `Mh^2`, `2 Mt^4/(v^2 (4 pi)^2) (12 L + dlambda_at)`, with
`L = log(Q^2/Mt^2)` (or 0) -/
noncomputable def specAt (p : Params ℝ) (L l1 : ℝ) : ℝ :=
  2 * p.Mt ^ 4 / ((p.vu ^ 2 + p.vd ^ 2) * (4 * Real.pi) ^ 2) * (12 * L + l1)

/-- Specification: the `O(at as)` correction -/
noncomputable def specAtAs (p : Params ℝ) (L dyt l2 : ℝ) : ℝ :=
  2 * p.Mt ^ 4 * p.g3 ^ 2 / ((p.vu ^ 2 + p.vd ^ 2) * (4 * Real.pi) ^ 4) *
    (96 * L ^ 2 + (-32 + 48 * dyt) * L - 24 * dyt + l2)

/-- Specification: the `O(at^2)` correction, with `sin^2 beta = vu^2/(vu^2 + vd^2)` -/
noncomputable def specAt2 (p : Params ℝ) (L l1 dytyt dv l6 : ℝ) : ℝ :=
  let s2 := p.vu ^ 2 / (p.vu ^ 2 + p.vd ^ 2)
  8 * p.Mt ^ 6 / (p.vu ^ 6 * (4 * Real.pi) ^ 4) * ((p.vu ^ 2 + p.vd ^ 2) / 2 * s2 ^ 2 *
    (4 * dytyt * (-6 + l1 + 12 * L)
      + s2 * (-12 + l6 + l1 * (2 + 2 * dv - 3 * L) + 24 * dv * (-1 + L) - 18 * L * (1 + 3 * L) - 2 * Real.pi ^ 2)))

theorem sqrt2_div_sqrt_sq (a v : ℝ) (hv : 0 ≤ v) : (Real.sqrt 2 * a / Real.sqrt v) * (Real.sqrt 2 * a / Real.sqrt v) = 2 * a ^ 2 / v := by
  have h2 : Real.sqrt 2 ^ 2 = 2 := Real.sq_sqrt (by norm_num)
  have h3 : Real.sqrt v ^ 2 = v := Real.sq_sqrt hv
  rw [div_mul_div_comm, ← sq, ← sq, h3, mul_pow, h2]

section
variable {X : Ext ℝ} {p : Params ℝ} {c : EftCalc ℝ} {thr : ThrOrder → Int → Except String ℝ}

theorem constructed_on (hc : mh2EftCalculator X p = .ok c) (o : Order) : c.on o = decide (eftOrders c.p o ≠ 0) := by
  have ho : c.orders = eftOrders c.p := by
    unfold mh2EftCalculator at hc
    split at hc
    · cases hc
    · injection hc with hc; rw [← hc]
  unfold EftCalc.on; rw [ho]; by_cases h : eftOrders c.p o = 0 <;> simp [h]

theorem massive (x : ℝ) (h : (1 : ℝ) / 10 ^ 10 ≤ |x|) : FOps.lt (FOps.abs x) (eftEps : ℝ) = false := by
  rw [real_lt_false, real_abs]; simpa [eftEps] using h
theorem massless (x : ℝ) (h : |x| < (1 : ℝ) / 10 ^ 10) : FOps.lt (FOps.abs x) (eftEps : ℝ) = true := by
  rw [real_lt_iff, real_abs]; simpa [eftEps] using h

theorem loop1_on (fB : ℝ → ℝ → ℝ → ℝ) (n m : Int) (l : ℝ)
    (hl : thr .LAMBDA_AT m = .ok l) (hon : ∀ o, c.on o = (o = .YT4 ∨ o = .G32YT4 ∨ o = .YT6 ∧ c.on .YT6 = true ∨
      (o = .YTAU2YT4 ∨ o = .ONLY_AT_AS) ∧ c.on o = true : Bool)) :
    c.loop1 thr fB n m = .ok (specAt c.p (n * Real.log (c.p.scale ^ 2 / c.p.Mt ^ 2)) l) := by
  unfold EftCalc.loop1
  rw [hon .G12YB2, hon .G14, hon .G24, hon .G12G22, hon .G22YB2, hon .YB4, hon .G12YT2, hon .G22YT2, hon .G12YTAU2,
    hon .G22YTAU2, hon .YTAU4, hon .YT4]
  simp only [calcIf, zeroIf, hl, bindOk, pure, Except.pure, reduceCtorEq, false_and, or_false, false_or, decide_false,
    decide_true, true_or, Bool.false_eq_true, if_false, if_true, Bool.or_self]
  refine congrArg Except.ok ?_
  simp only [discardNaN, real_isNaN, Bool.false_eq_true, if_false, real_ofNat, real_ofInt, real_const, Const.value, real_log,
    real_sqrt, pow2, eftV, eftV2, specAt]
  have h0 : (0 : ℝ) ≤ c.p.vu * c.p.vu + c.p.vd * c.p.vd := by nlinarith [mul_self_nonneg c.p.vu, mul_self_nonneg c.p.vd]
  have := sqrt2_div_sqrt_sq c.p.Mt _ h0
  rw [mul_mul_mul_comm, this]
  push_cast
  rw [div_mul_div_comm, ← sq, ← sq, ← sq, ← sq]
  field_simp
  ring

theorem loop2_on (n m : Int) (dy l2 : ℝ)
    (hy : thr .YT_AS m = .ok dy) (hl2 : thr .LAMBDA_AT_AS m = .ok l2)
    (l1 yy l6 dv : ℝ) (h6 : c.on .YT6 = true → thr .LAMBDA_AT m = .ok l1 ∧ thr .YT_YT m = .ok yy ∧ thr .LAMBDA_YT6 m = .ok l6 ∧
      thr .VEV_YT2 m = .ok dv)
    (hon : ∀ o, c.on o = (o = .YT4 ∨ o = .G32YT4 ∨ o = .YT6 ∧ c.on .YT6 = true ∨
      (o = .YTAU2YT4 ∨ o = .ONLY_AT_AS) ∧ c.on o = true : Bool)) :
    c.loop2 thr n m = .ok (specAtAs c.p (n * Real.log (c.p.scale ^ 2 / c.p.Mt ^ 2)) dy l2 +
      if c.on .YT6 = true then specAt2 c.p (n * Real.log (c.p.scale ^ 2 / c.p.Mt ^ 2)) l1 yy dv l6 else 0) := by
  unfold EftCalc.loop2
  rw [hon .G32YT4, hon .G32YB4, hon .YB6, hon .YTAU2YB4, hon .YT2YB4, hon .YB2YT4, hon .YTAU6, hon .YTAU4YB2]
  have h0 : (0 : ℝ) ≤ c.p.vu * c.p.vu + c.p.vd * c.p.vd := by nlinarith [mul_self_nonneg c.p.vu, mul_self_nonneg c.p.vd]
  have h00 : (0 : ℝ) ≤ c.p.vu ^ 2 + c.p.vd ^ 2 := by positivity
  have := sqrt2_div_sqrt_sq c.p.Mt _ h0
  have hs : Real.sqrt (c.p.vu ^ 2 + c.p.vd ^ 2) ^ 2 = c.p.vu ^ 2 + c.p.vd ^ 2 := Real.sq_sqrt h00
  have hA : ∀ g : ℝ, c.p.Mt * (Real.sqrt 2 * c.p.Mt / Real.sqrt (c.p.vu * c.p.vu + c.p.vd * c.p.vd)) * g *
      (c.p.Mt * (Real.sqrt 2 * c.p.Mt / Real.sqrt (c.p.vu * c.p.vu + c.p.vd * c.p.vd)) * g)
      = 2 * c.p.Mt ^ 4 * g ^ 2 / (c.p.vu ^ 2 + c.p.vd ^ 2) := by
    intro g
    rw [mul_mul_mul_comm, mul_mul_mul_comm c.p.Mt, this, ← sq, ← sq, ← sq, ← sq]; ring
  cases h : c.on .YT6 with
  | false =>
    simp only [calcIf, zeroIf, hy, hl2, bindOk, pure, Except.pure, reduceCtorEq, false_and, or_false, false_or, decide_false,
      decide_true, true_or, or_true, Bool.false_eq_true, if_false, if_true, Bool.or_self, and_false]
    refine congrArg Except.ok ?_
    simp only [discardNaN, real_isNaN, Bool.false_eq_true, if_false, real_ofNat, real_ofInt, real_const, Const.value, real_log,
      real_sqrt, pow2, eftV, eftV2, specAtAs, hA]
    push_cast
    rw [div_mul_div_comm, ← sq, ← sq]
    field_simp
    ring
  | true =>
    obtain ⟨h61, h62, h63, h64⟩ := h6 h
    simp only [calcIf, zeroIf, hy, hl2, h61, h62, h63, h64, bindOk, pure, Except.pure, reduceCtorEq, false_and, or_false, false_or,
      decide_false, decide_true, true_or, or_true, Bool.false_eq_true, if_false, if_true, Bool.or_self, and_false,
      and_true, Bool.or_false, Bool.or_true]
    refine congrArg Except.ok ?_
    rw [add_comm]
    refine congrArg₂ HAdd.hAdd ?_ ?_
    · simp only [discardNaN, real_isNaN, Bool.false_eq_true, if_false, real_ofNat, real_ofInt, real_const, Const.value, real_log,
        real_sqrt, pow2, eftV, eftV2, specAtAs, hA]
      push_cast
      rw [div_mul_div_comm, ← sq, ← sq]
      field_simp
    · simp only [discardNaN, real_isNaN, Bool.false_eq_true, if_false, real_ofNat, real_ofInt, real_const, Const.value, real_log,
        real_sqrt, pow2, eftV, eftV2, specAt2, eftSinBeta, Misc.pow3, Misc.pow4, Misc.pow2]
      push_cast
      rw [div_mul_div_comm c.p.scale, ← sq c.p.scale, ← sq c.p.Mt, ← sq c.p.vu, ← sq c.p.vd]
      generalize (n : ℝ) * Real.log (c.p.scale ^ 2 / c.p.Mt ^ 2) = L
      have e2 : c.p.vu / Real.sqrt (c.p.vu ^ 2 + c.p.vd ^ 2) * (c.p.vu / Real.sqrt (c.p.vu ^ 2 + c.p.vd ^ 2))
          = c.p.vu ^ 2 / (c.p.vu ^ 2 + c.p.vd ^ 2) := by rw [div_mul_div_comm, ← sq, ← sq, hs]
      rw [← e2]
      generalize c.p.vu / Real.sqrt (c.p.vu ^ 2 + c.p.vd ^ 2) = s
      have hpi := Real.pi_ne_zero
      field_simp
      ring

theorem on_of_constructed (hc : mh2EftCalculator X p = .ok c) (ht : (1 : ℝ) / 10 ^ 10 ≤ |c.p.Mt|) (o : Order) :
    c.on o = (o = .YT4 ∨ o = .G32YT4 ∨ o = .YT6 ∧ c.on .YT6 = true ∨
      (o = .YTAU2YT4 ∨ o = .ONLY_AT_AS) ∧ c.on o = true : Bool) := by
  simp only [constructed_on hc, C36_constructed, massive _ ht]
  cases o <;> simp

theorem on_of_disabled (hc : mh2EftCalculator X p = .ok c) (ht : (1 : ℝ) / 10 ^ 10 ≤ |c.p.Mt|) (o : Order) :
    (disableNonAs c).on o = (o = .YT4 ∨ o = .G32YT4 ∨ o = .YT6 ∧ (disableNonAs c).on .YT6 = true ∨
      (o = .YTAU2YT4 ∨ o = .ONLY_AT_AS) ∧ (disableNonAs c).on o = true : Bool) := by
  have h : ∀ o, (disableNonAs c).on o =
      if o = .YT4 ∨ o = .G32YT4 ∨ o = .YTAU2YT4 ∨ o = .ONLY_AT_AS then c.on o else false := by
    intro o; unfold EftCalc.on; rw [C36_disable_non_as]; split <;> simp
  simp only [h, constructed_on hc, C36_constructed, massive _ ht]
  cases o <;> simp

/-- **C36.** Whatever the other threshold corrections do (including failing), the one-loop correction of a freshly constructed
calculator with a massive top quark is the `O(at)` correction. -/
theorem C36_only_top_one_loop (hc : mh2EftCalculator X p = .ok c) (ht : (1 : ℝ) / 10 ^ 10 ≤ |c.p.Mt|)
    (fB : ℝ → ℝ → ℝ → ℝ) (n m : Int) (l : ℝ) (hl : thr .LAMBDA_AT m = .ok l) :
    c.loop1 thr fB n m = .ok (specAt c.p (n * Real.log (c.p.scale ^ 2 / c.p.Mt ^ 2)) l) :=
  loop1_on fB n m l hl (on_of_constructed hc ht)

/-- **C36.** The two-loop correction of a freshly constructed calculator with massive top and bottom quarks is the sum of the
`O(at as)` and `O(at^2)` corrections. -/
theorem C36_only_top_two_loop (hc : mh2EftCalculator X p = .ok c) (ht : (1 : ℝ) / 10 ^ 10 ≤ |c.p.Mt|)
    (hb : (1 : ℝ) / 10 ^ 10 ≤ |c.p.Mb|) (n m : Int) (dy l2 l1 yy l6 dv : ℝ)
    (hy : thr .YT_AS m = .ok dy) (hl2 : thr .LAMBDA_AT_AS m = .ok l2) (hl1 : thr .LAMBDA_AT m = .ok l1)
    (hyy : thr .YT_YT m = .ok yy) (hl6 : thr .LAMBDA_YT6 m = .ok l6) (hdv : thr .VEV_YT2 m = .ok dv) :
    c.loop2 thr n m = .ok (specAtAs c.p (n * Real.log (c.p.scale ^ 2 / c.p.Mt ^ 2)) dy l2 +
      specAt2 c.p (n * Real.log (c.p.scale ^ 2 / c.p.Mt ^ 2)) l1 yy dv l6) := by
  have h6 : c.on .YT6 = true := by rw [constructed_on hc, C36_constructed]; simp only [massive _ ht, massive _ hb]; simp
  rw [loop2_on n m dy l2 hy hl2 l1 yy l6 dv (fun _ => ⟨hl1, hyy, hl6, hdv⟩) (on_of_constructed hc ht), if_pos h6]

/-- **C36 (finding).** With a massless bottom quark the `O(at^2)` correction, which does not involve the bottom quark, is silently
dropped, whatever its value. -/
theorem C36_massless_bottom_drops_at2 (hc : mh2EftCalculator X p = .ok c) (ht : (1 : ℝ) / 10 ^ 10 ≤ |c.p.Mt|)
    (hb : |c.p.Mb| < (1 : ℝ) / 10 ^ 10) (n m : Int) (dy l2 : ℝ)
    (hy : thr .YT_AS m = .ok dy) (hl2 : thr .LAMBDA_AT_AS m = .ok l2) :
    c.loop2 thr n m = .ok (specAtAs c.p (n * Real.log (c.p.scale ^ 2 / c.p.Mt ^ 2)) dy l2) := by
  have h6 : c.on .YT6 = false := by rw [constructed_on hc, C36_constructed]; simp only [massive _ ht, massless _ hb]; simp
  rw [loop2_on n m dy l2 hy hl2 0 0 0 0 (fun h => by rw [h6] at h; cases h) (on_of_constructed hc ht), h6]
  simp

/-- **C36.** After `disable_non_as_terms` the one-loop correction is unchanged and the two-loop correction is the `O(at as)` one. -/
theorem C36_after_disable_non_as (hc : mh2EftCalculator X p = .ok c) (ht : (1 : ℝ) / 10 ^ 10 ≤ |c.p.Mt|)
    (fB : ℝ → ℝ → ℝ → ℝ) (n m : Int) (l1 dy l2 : ℝ) (hl : thr .LAMBDA_AT m = .ok l1)
    (hy : thr .YT_AS m = .ok dy) (hl2 : thr .LAMBDA_AT_AS m = .ok l2) :
    (disableNonAs c).loop1 thr fB n m = .ok (specAt c.p (n * Real.log (c.p.scale ^ 2 / c.p.Mt ^ 2)) l1) ∧
    (disableNonAs c).loop2 thr n m = .ok (specAtAs c.p (n * Real.log (c.p.scale ^ 2 / c.p.Mt ^ 2)) dy l2) := by
  refine ⟨loop1_on fB n m l1 hl (on_of_disabled hc ht), ?_⟩
  have h6 : (disableNonAs c).on .YT6 = false := rfl
  rw [loop2_on n m dy l2 hy hl2 0 0 0 0 (fun h => by rw [h6] at h; cases h) (on_of_disabled hc ht), h6]
  simp [disableNonAs]

/-- **C36.** A calculator whose top quark is massless contributes nothing at one and two loops. -/
theorem C36_massless_top (hc : mh2EftCalculator X p = .ok c) (ht : |c.p.Mt| < (1 : ℝ) / 10 ^ 10)
    (fB : ℝ → ℝ → ℝ → ℝ) (n m : Int) : c.loop1 thr fB n m = .ok 0 ∧ c.loop2 thr n m = .ok 0 := by
  have hon : ∀ o, o ≠ .YTAU2YT4 → o ≠ .ONLY_AT_AS → c.on o = false := by
    intro o h1 h2
    rw [constructed_on hc, C36_constructed]
    simp only [massless _ ht]
    cases o <;> simp_all
  constructor
  · unfold EftCalc.loop1
    simp only [hon, ne_eq, reduceCtorEq, not_false_eq_true, calcIf, zeroIf, bindOk, pure, Except.pure, Bool.false_eq_true,
      if_false, Bool.or_self]
    simp only [real_ofNat]; push_cast; simp
  · unfold EftCalc.loop2
    simp only [hon, ne_eq, reduceCtorEq, not_false_eq_true, calcIf, zeroIf, bindOk, pure, Except.pure, Bool.false_eq_true,
      if_false, Bool.or_self]
    simp only [real_ofNat]; push_cast; simp

/-- validation succeeds and keeps every given number, over the reals -/
theorem validate_real (X : Ext ℝ) (p : Params ℝ) (hs : softMassesNegative p = false) (hG : 0 ≤ p.MG) (hu : 0 < p.vu)
    (hd : 0 < p.vd) : ∃ q, validate X p = (.ok (), q) ∧ q.Mt = p.Mt ∧ q.Mb = p.Mb ∧ q.mq2 = shiftMq2 p.mq2 p.mu2 ∧ q.mu2 = p.mu2 ∧ q.MG = p.MG ∧
      q.massLimit3LThreshold = p.massLimit3LThreshold := by
  have z : ((@OfNat.ofNat ℝ 0 (FOps.instOfNat 0))) = 0 := by rw [real_ofNat]; simp
  have hn : ∀ x : ℝ, FOps.isNaN x = false := fun _ => rfl
  refine ⟨_, validate_of_ok ⟨hs, ?_, hn _, ?_, hn _, ?_, _, _, _, rfl, rfl, rfl, rfl⟩, ?_⟩
  · rw [real_lt_false, z]; exact hG
  · rw [real_le_false, z]; exact hu
  · rw [real_le_false, z]; exact hd
  · rw [final_eq]
    refine ⟨rfl, rfl, rfl, rfl, ?_, rfl⟩
    show |p.MG| = p.MG
    exact abs_of_nonneg hG

/-- a parameter point with all masses 1 -/
noncomputable def onePoint : Params ℝ :=
  { examplePoint with
    mq2 := fun _ _ => 1, mu2 := fun _ _ => 1, md2 := fun _ _ => 1, ml2 := fun _ _ => 1, me2 := fun _ _ => 1, MG := 1, vu := 1,
    vd := 1, Mt := 1, Mb := 1 }

theorem onePoint_soft : softMassesNegative onePoint = false := by
  have hm : FOps.lt (minCoeff (fun _ _ => (1 : ℝ))) (@OfNat.ofNat ℝ 0 (FOps.instOfNat 0)) = false := by
    have : minCoeff (fun _ _ => (1 : ℝ)) = 1 := by
      unfold minCoeff
      simp
    rw [this, real_lt_false, real_ofNat]; norm_num
  simp only [softMassesNegative, onePoint, hm, Bool.or_self]

/-- calculators to which the statements about construction apply exist: massive quarks ... -/
example (X : Ext ℝ) : ∃ c, mh2EftCalculator X onePoint = .ok c ∧ (1 : ℝ) / 10 ^ 10 ≤ |c.p.Mt| ∧ (1 : ℝ) / 10 ^ 10 ≤ |c.p.Mb| := by
  obtain ⟨q, hq, h1, h2, -⟩ := validate_real X onePoint onePoint_soft (by norm_num [onePoint]) (by norm_num [onePoint])
    (by norm_num [onePoint])
  refine ⟨⟨q, eftOrders q⟩, ?_, ?_, ?_⟩
  · unfold mh2EftCalculator; rw [hq]
  · show _ ≤ |q.Mt|; rw [h1]; norm_num [onePoint]
  · show _ ≤ |q.Mb|; rw [h2]; norm_num [onePoint]
/-- ... and a massless bottom quark -/
example (X : Ext ℝ) : ∃ p c, mh2EftCalculator X p = .ok c ∧ (1 : ℝ) / 10 ^ 10 ≤ |c.p.Mt| ∧ |c.p.Mb| < (1 : ℝ) / 10 ^ 10 := by
  obtain ⟨q, hq, h1, h2, -⟩ := validate_real X { onePoint with Mb := 0 } onePoint_soft (by norm_num [onePoint])
    (by norm_num [onePoint]) (by norm_num [onePoint])
  refine ⟨{ onePoint with Mb := 0 }, ⟨q, eftOrders q⟩, ?_, ?_, ?_⟩
  · unfold mh2EftCalculator; rw [hq]
  · show _ ≤ |q.Mt|; rw [h1]; norm_num [onePoint]
  · show |q.Mb| < _; rw [h2]; norm_num

end
end Himalaya
