import Verif.EFT.Yuk
import Verif.EFT.OmitLogs
import Verif.TLF.Props1

/-!
# C71: which parameters enter the two-loop EFT correction of a given coupling order
-/

set_option linter.unusedSimpArgs false
set_option linter.unusedVariables false

namespace Himalaya.Scale

/-! ### specification -/

/-- parameters of the MSSM which may enter the EFT corrections -/
inductive Par
  | scale | vu | vd | g3 | Mt | Mb | Mtau | MA | mu | MG | MSt1 | At | Ab | Atau | mQ | mU | mD | mL | mE
  deriving DecidableEq

/-- value of a parameter -/
def Par.get (p : Params ℝ) : Par → ℝ
  | .scale => p.scale | .vu => p.vu | .vd => p.vd | .g3 => p.g3 | .Mt => p.Mt | .Mb => p.Mb | .Mtau => p.Mtau | .MA => p.MA
  | .mu => p.mu | .MG => p.MG | .MSt1 => p.MSt.x0 | .At => p.Au 2 2 | .Ab => p.Ad 2 2 | .Atau => p.Ae 2 2 | .mQ => p.mq2 2 2
  | .mU => p.mu2 2 2 | .mD => p.md2 2 2 | .mL => p.ml2 2 2 | .mE => p.me2 2 2

/-- the parameters of the fields which couple with the given couplings: every order knows the scale, the vacuum expectation
values, `mu` and the top mass (which is the matching scale); in addition the masses of the fermions, sfermions and the trilinear
couplings which belong to the Yukawa couplings of the order, the heavy Higgs mass for products of Yukawa couplings of the same
generation of quarks or of leptons, and the gluino for `g3`. -/
def relevant : Order → List Par
  | .G32YT4 => [.g3, .MG, .At, .mQ, .mU, .MSt1]
  | .G32YB4 => [.g3, .MG, .Mb, .Ab, .mQ, .mD]
  | .YT6 => [.MA, .At, .mQ, .mU, .MSt1]
  | .YB6 => [.Mb, .MA, .Ab, .mQ, .mD]
  | .YTAU6 => [.Mtau, .MA, .Atau, .mL, .mE]
  | .YT2YB4 => [.Mb, .MA, .At, .Ab, .mQ, .mU, .mD]
  | .YB2YT4 => [.Mb, .MA, .At, .Ab, .mQ, .mU, .mD, .MSt1]
  | .YTAU2YB4 => [.Mb, .Mtau, .Ab, .Atau, .mQ, .mD, .mL, .mE]
  | .YTAU4YB2 => [.Mb, .Mtau, .Ab, .Atau, .mQ, .mD, .mL, .mE]
  | _ => []

/-- the points have the same parameters of the given list -/
def Agree (l : List Par) (p p' : Params ℝ) : Prop := ∀ x ∈ [.scale, .vu, .vd, .Mt, .mu] ++ l, x.get p' = x.get p

/-- only the contributions of the orders in the list are switched on -/
def onlyOrders (l : List Order) : Flags := fun o => if o ∈ l then 1 else 0

/-- the two-loop EFT correction with only the order `o` switched on -/
noncomputable def twoLoop (dl : ℝ → ℝ) (phi : ℝ → ℝ → ℝ → ℝ) (l : Limit) (msq2 : ℝ) (o : Order) (p : Params ℝ) (n m : Int) :
    Except String ℝ :=
  EftCalc.loop2 (thrOf (thrFns4 dl phi) (tc l p msq2)) ⟨p, onlyOrders [o]⟩ n m

/-! ### proofs -/

theorem only_on (p : Params ℝ) (l : List Order) (o : Order) : (⟨p, onlyOrders l⟩ : EftCalc ℝ).on o = decide (o ∈ l) := by
  unfold EftCalc.on onlyOrders
  by_cases h : o ∈ l <;> simp [h]

variable {p p' : Params ℝ}

/-- the point whose parameters are given by the function; all others are zero -/
noncomputable def keep (f : Par → ℝ) : Params ℝ where
  scale := f .scale
  mu := f .mu
  g1 := 0
  g2 := 0
  g3 := f .g3
  vd := f .vd
  vu := f .vu
  mq2 := fun _ _ => f .mQ
  md2 := fun _ _ => f .mD
  mu2 := fun _ _ => f .mU
  ml2 := fun _ _ => f .mL
  me2 := fun _ _ => f .mE
  Au := fun _ _ => f .At
  Ad := fun _ _ => f .Ab
  Ae := fun _ _ => f .Atau
  Yu := fun _ _ => 0
  Yd := fun _ _ => 0
  Ye := fun _ _ => 0
  M1 := 0
  M2 := 0
  MG := f .MG
  MW := 0
  MZ := 0
  Mt := f .Mt
  Mb := f .Mb
  Mtau := f .Mtau
  MA := f .MA
  MSt := ⟨f .MSt1, 0⟩
  MSb := ⟨0, 0⟩
  MStau := ⟨0, 0⟩
  s2t := 0
  s2b := 0
  s2tau := 0
  theta_t := 0
  theta_b := 0
  theta_tau := 0
  massLimit3LThreshold := 0

/-- the parameters in the list -/
noncomputable def pick (l : List Par) (p : Params ℝ) (x : Par) : ℝ :=
  match decide (x ∈ [.scale, .vu, .vd, .Mt, .mu] ++ l) with | true => x.get p | false => 0

theorem pick_agree {l : List Par} (h : Agree l p p') : keep (pick l p') = keep (pick l p) := by
  refine congrArg keep (funext fun x => ?_)
  unfold pick
  by_cases hx : x ∈ [.scale, .vu, .vd, .Mt, .mu] ++ l
  · simp only [hx, decide_true]; exact h x hx
  · simp only [hx, decide_false]

section
variable (dl : ℝ → ℝ) (phi : ℝ → ℝ → ℝ → ℝ) (l : Limit) (msq2 : ℝ) (m : Int)

set_option hygiene false in
/-- the equations contained in an agreement -/
macro "agree" h:ident : tactic => `(tactic| (
  have hk := pick_agree $h
  simp only [Agree, relevant, List.cons_append, List.nil_append, List.mem_cons, List.not_mem_nil, or_false, forall_eq_or_imp,
    forall_eq, Par.get] at $h:ident
  have hs := ($h).1
  have hvu := ($h).2.1
  have hvd := ($h).2.2.1
  have hMt := ($h).2.2.2.1
  have hmu := ($h).2.2.2.2.1
  have h' := ($h).2.2.2.2.2
  have hv2 : eftV2 p' = eftV2 p := by simp only [eftV2, hvu, hvd]
  have hv : eftV p' = eftV p := by simp only [eftV, hv2]
  have hc : eftCosBeta p' = eftCosBeta p := by simp only [eftCosBeta, hvd, hv]
  have hsb : eftSinBeta p' = eftSinBeta p := by simp only [eftSinBeta, hvu, hv]
  have htb : eftTanBeta p' = eftTanBeta p := by simp only [eftTanBeta, hvu, hvd]))

/-- the two-loop correction if one order is switched on -/
macro "one_order" : tactic => `(tactic| (
  unfold twoLoop EftCalc.loop2
  simp only [only_on, calcIf, zeroIf, bindOk, pure, Except.pure, List.mem_cons, List.not_mem_nil, reduceCtorEq, or_false, or_true,
    or_self, decide_false, decide_true, Bool.false_eq_true, if_false, if_true, Bool.or_self, Bool.or_false, Bool.or_true, Bool.false_or,
    real_ofNat, Nat.cast_zero, mul_zero, add_zero, zero_add]))

/-- **C71.** The order `G32YB4`. -/
theorem C71_g32yb4 (h : Agree (relevant .G32YB4) p p') (n : Int) (l' : Limit) (msq2' : ℝ) :
    twoLoop dl phi l' msq2' .G32YB4 p' n m = twoLoop dl phi l msq2 .G32YB4 p n m := by
  agree h
  obtain ⟨hg3, hMG, hMb, hAb, hmQ, hmD⟩ := h'
  have tLAMBDA_YB4_G32 : thrOf (thrFns4 dl phi) (tc l' p' msq2') .LAMBDA_YB4_G32 m = thrOf (thrFns4 dl phi) (tc l p msq2) .LAMBDA_YB4_G32 m := by
    have e : ∀ l p msq2, thrOf (thrFns4 dl phi) (tc l p msq2) .LAMBDA_YB4_G32 m = thrOf (thrFns4 dl phi) (tc .general (keep (pick (relevant .G32YB4) p)) 0) .LAMBDA_YB4_G32 m := fun _ _ _ => rfl
    rw [e l' p', e l p, hk]
  have tLAMBDA_YB4 : thrOf (thrFns4 dl phi) (tc l' p' msq2') .LAMBDA_YB4 m = thrOf (thrFns4 dl phi) (tc l p msq2) .LAMBDA_YB4 m := by
    have e : ∀ l p msq2, thrOf (thrFns4 dl phi) (tc l p msq2) .LAMBDA_YB4 m = thrOf (thrFns4 dl phi) (tc .general (keep (pick (relevant .G32YB4) p)) 0) .LAMBDA_YB4 m := fun _ _ _ => rfl
    rw [e l' p', e l p, hk]
  have tYB_AS : thrOf (thrFns4 dl phi) (tc l' p' msq2') .YB_AS m = thrOf (thrFns4 dl phi) (tc l p msq2) .YB_AS m := by
    have e : ∀ l p msq2, thrOf (thrFns4 dl phi) (tc l p msq2) .YB_AS m = thrOf (thrFns4 dl phi) (tc .general (keep (pick (relevant .G32YB4) p)) 0) .YB_AS m := fun _ _ _ => rfl
    rw [e l' p', e l p, hk]
  one_order
  simp only [tLAMBDA_YB4_G32, tLAMBDA_YB4, tYB_AS, hs, hmu, hvu, hvd, hMt, hc, hsb, hg3, hMG, hMb, hAb, hmQ, hmD, hv2, hv]

/-- **C71.** The order `YB6`. -/
theorem C71_yb6 (h : Agree (relevant .YB6) p p') (n : Int) (l' : Limit) (msq2' : ℝ) :
    twoLoop dl phi l' msq2' .YB6 p' n m = twoLoop dl phi l msq2 .YB6 p n m := by
  agree h
  obtain ⟨hMb, hMA, hAb, hmQ, hmD⟩ := h'
  have tLAMBDA_YB4 : thrOf (thrFns4 dl phi) (tc l' p' msq2') .LAMBDA_YB4 m = thrOf (thrFns4 dl phi) (tc l p msq2) .LAMBDA_YB4 m := by
    have e : ∀ l p msq2, thrOf (thrFns4 dl phi) (tc l p msq2) .LAMBDA_YB4 m = thrOf (thrFns4 dl phi) (tc .general (keep (pick (relevant .YB6) p)) 0) .LAMBDA_YB4 m := fun _ _ _ => rfl
    rw [e l' p', e l p, hk]
  have tLAMBDA_YB6 : thrOf (thrFns4 dl phi) (tc l' p' msq2') .LAMBDA_YB6 m = thrOf (thrFns4 dl phi) (tc l p msq2) .LAMBDA_YB6 m := by
    have e : ∀ l p msq2, thrOf (thrFns4 dl phi) (tc l p msq2) .LAMBDA_YB6 m = thrOf (thrFns4 dl phi) (tc .general (keep (pick (relevant .YB6) p)) 0) .LAMBDA_YB6 m := fun _ _ _ => rfl
    rw [e l' p', e l p, hk]
  have tVEV_YB2 : thrOf (thrFns4 dl phi) (tc l' p' msq2') .VEV_YB2 m = thrOf (thrFns4 dl phi) (tc l p msq2) .VEV_YB2 m := by
    have e : ∀ l p msq2, thrOf (thrFns4 dl phi) (tc l p msq2) .VEV_YB2 m = thrOf (thrFns4 dl phi) (tc .general (keep (pick (relevant .YB6) p)) 0) .VEV_YB2 m := fun _ _ _ => rfl
    rw [e l' p', e l p, hk]
  have tYB_YB : thrOf (thrFns4 dl phi) (tc l' p' msq2') .YB_YB m = thrOf (thrFns4 dl phi) (tc l p msq2) .YB_YB m := by
    have e : ∀ l p msq2, thrOf (thrFns4 dl phi) (tc l p msq2) .YB_YB m = thrOf (thrFns4 dl phi) (tc .general (keep (pick (relevant .YB6) p)) 0) .YB_YB m := fun _ _ _ => rfl
    rw [e l' p', e l p, hk]
  one_order
  simp only [tLAMBDA_YB4, tLAMBDA_YB6, tVEV_YB2, tYB_YB, hs, hmu, hvu, hvd, hMt, hc, hsb, hMb, hMA, hAb, hmQ, hmD, hv2, hv]

/-- **C71.** The order `YTAU6`. -/
theorem C71_ytau6 (h : Agree (relevant .YTAU6) p p') (n : Int) (l' : Limit) (msq2' : ℝ) :
    twoLoop dl phi l' msq2' .YTAU6 p' n m = twoLoop dl phi l msq2 .YTAU6 p n m := by
  agree h
  obtain ⟨hMtau, hMA, hAtau, hmL, hmE⟩ := h'
  have tYTAU_YTAU : thrOf (thrFns4 dl phi) (tc l' p' msq2') .YTAU_YTAU m = thrOf (thrFns4 dl phi) (tc l p msq2) .YTAU_YTAU m := by
    have e : ∀ l p msq2, thrOf (thrFns4 dl phi) (tc l p msq2) .YTAU_YTAU m = thrOf (thrFns4 dl phi) (tc .general (keep (pick (relevant .YTAU6) p)) 0) .YTAU_YTAU m := fun _ _ _ => rfl
    rw [e l' p', e l p, hk]
  have tLAMBDA_YTAU4 : thrOf (thrFns4 dl phi) (tc l' p' msq2') .LAMBDA_YTAU4 m = thrOf (thrFns4 dl phi) (tc l p msq2) .LAMBDA_YTAU4 m := by
    have e : ∀ l p msq2, thrOf (thrFns4 dl phi) (tc l p msq2) .LAMBDA_YTAU4 m = thrOf (thrFns4 dl phi) (tc .general (keep (pick (relevant .YTAU6) p)) 0) .LAMBDA_YTAU4 m := fun _ _ _ => rfl
    rw [e l' p', e l p, hk]
  have tLAMBDA_YTAU6 : thrOf (thrFns4 dl phi) (tc l' p' msq2') .LAMBDA_YTAU6 m = thrOf (thrFns4 dl phi) (tc l p msq2) .LAMBDA_YTAU6 m := by
    have e : ∀ l p msq2, thrOf (thrFns4 dl phi) (tc l p msq2) .LAMBDA_YTAU6 m = thrOf (thrFns4 dl phi) (tc .general (keep (pick (relevant .YTAU6) p)) 0) .LAMBDA_YTAU6 m := fun _ _ _ => rfl
    rw [e l' p', e l p, hk]
  have tVEV_YTAU2 : thrOf (thrFns4 dl phi) (tc l' p' msq2') .VEV_YTAU2 m = thrOf (thrFns4 dl phi) (tc l p msq2) .VEV_YTAU2 m := by
    have e : ∀ l p msq2, thrOf (thrFns4 dl phi) (tc l p msq2) .VEV_YTAU2 m = thrOf (thrFns4 dl phi) (tc .general (keep (pick (relevant .YTAU6) p)) 0) .VEV_YTAU2 m := fun _ _ _ => rfl
    rw [e l' p', e l p, hk]
  one_order
  simp only [tYTAU_YTAU, tLAMBDA_YTAU4, tLAMBDA_YTAU6, tVEV_YTAU2, hs, hmu, hvu, hvd, hMt, hc, hsb, hMtau, hMA, hAtau, hmL, hmE, hv2, hv]

/-- **C71.** The order `YT2YB4`. -/
theorem C71_yt2yb4 (h : Agree (relevant .YT2YB4) p p') (n : Int) :
    twoLoop dl phi l msq2 .YT2YB4 p' n m = twoLoop dl phi l msq2 .YT2YB4 p n m := by
  agree h
  obtain ⟨hMb, hMA, hAt, hAb, hmQ, hmU, hmD⟩ := h'
  have tLAMBDA_YB4 : thrOf (thrFns4 dl phi) (tc l p' msq2) .LAMBDA_YB4 m = thrOf (thrFns4 dl phi) (tc l p msq2) .LAMBDA_YB4 m := by
    have e : ∀ p, thrOf (thrFns4 dl phi) (tc l p msq2) .LAMBDA_YB4 m = thrOf (thrFns4 dl phi) (tc l (keep (pick (relevant .YT2YB4) p)) msq2) .LAMBDA_YB4 m := fun _ => rfl
    rw [e p', e p, hk]
  have tVEV_YT2 : thrOf (thrFns4 dl phi) (tc l p' msq2) .VEV_YT2 m = thrOf (thrFns4 dl phi) (tc l p msq2) .VEV_YT2 m := by
    have e : ∀ p, thrOf (thrFns4 dl phi) (tc l p msq2) .VEV_YT2 m = thrOf (thrFns4 dl phi) (tc l (keep (pick (relevant .YT2YB4) p)) msq2) .VEV_YT2 m := fun _ => rfl
    rw [e p', e p, hk]
  have tLAMBDA_YT2_YB4 : thrOf (thrFns4 dl phi) (tc l p' msq2) .LAMBDA_YT2_YB4 m = thrOf (thrFns4 dl phi) (tc l p msq2) .LAMBDA_YT2_YB4 m := by
    have e : ∀ p, thrOf (thrFns4 dl phi) (tc l p msq2) .LAMBDA_YT2_YB4 m = thrOf (thrFns4 dl phi) (tc l (keep (pick (relevant .YT2YB4) p)) msq2) .LAMBDA_YT2_YB4 m := fun _ => rfl
    rw [e p', e p, hk]
  have tYB_YT : thrOf (thrFns4 dl phi) (tc l p' msq2) .YB_YT m = thrOf (thrFns4 dl phi) (tc l p msq2) .YB_YT m := by
    have e : ∀ p, thrOf (thrFns4 dl phi) (tc l p msq2) .YB_YT m = thrOf (thrFns4 dl phi) (tc l (keep (pick (relevant .YT2YB4) p)) msq2) .YB_YT m := fun _ => rfl
    rw [e p', e p, hk]
  one_order
  simp only [tLAMBDA_YB4, tVEV_YT2, tLAMBDA_YT2_YB4, tYB_YT, hs, hmu, hvu, hvd, hMt, hc, hsb, hMb, hMA, hAt, hAb, hmQ, hmU, hmD, hv2, hv]

/-- **C71.** The order `YB2YT4`. -/
theorem C71_yb2yt4 (h : Agree (relevant .YB2YT4) p p') (n : Int) :
    twoLoop dl phi l msq2 .YB2YT4 p' n m = twoLoop dl phi l msq2 .YB2YT4 p n m := by
  agree h
  obtain ⟨hMb, hMA, hAt, hAb, hmQ, hmU, hmD, hMSt1⟩ := h'
  have tLAMBDA_AT : thrOf (thrFns4 dl phi) (tc l p' msq2) .LAMBDA_AT m = thrOf (thrFns4 dl phi) (tc l p msq2) .LAMBDA_AT m := by
    have e : ∀ p, thrOf (thrFns4 dl phi) (tc l p msq2) .LAMBDA_AT m = thrOf (thrFns4 dl phi) (tc l (keep (pick (relevant .YB2YT4) p)) msq2) .LAMBDA_AT m := fun _ => rfl
    rw [e p', e p, hk]
  have tLAMBDA_YT4_YB2 : thrOf (thrFns4 dl phi) (tc l p' msq2) .LAMBDA_YT4_YB2 m = thrOf (thrFns4 dl phi) (tc l p msq2) .LAMBDA_YT4_YB2 m := by
    have e : ∀ p, thrOf (thrFns4 dl phi) (tc l p msq2) .LAMBDA_YT4_YB2 m = thrOf (thrFns4 dl phi) (tc l (keep (pick (relevant .YB2YT4) p)) msq2) .LAMBDA_YT4_YB2 m := fun _ => rfl
    rw [e p', e p, hk]
  have tYT_YB : thrOf (thrFns4 dl phi) (tc l p' msq2) .YT_YB m = thrOf (thrFns4 dl phi) (tc l p msq2) .YT_YB m := by
    have e : ∀ p, thrOf (thrFns4 dl phi) (tc l p msq2) .YT_YB m = thrOf (thrFns4 dl phi) (tc l (keep (pick (relevant .YB2YT4) p)) msq2) .YT_YB m := fun _ => rfl
    rw [e p', e p, hk]
  have tVEV_YB2 : thrOf (thrFns4 dl phi) (tc l p' msq2) .VEV_YB2 m = thrOf (thrFns4 dl phi) (tc l p msq2) .VEV_YB2 m := by
    have e : ∀ p, thrOf (thrFns4 dl phi) (tc l p msq2) .VEV_YB2 m = thrOf (thrFns4 dl phi) (tc l (keep (pick (relevant .YB2YT4) p)) msq2) .VEV_YB2 m := fun _ => rfl
    rw [e p', e p, hk]
  one_order
  simp only [tLAMBDA_AT, tLAMBDA_YT4_YB2, tYT_YB, tVEV_YB2, hs, hmu, hvu, hvd, hMt, hc, hsb, hMb, hMA, hAt, hAb, hmQ, hmU, hmD, hMSt1, hv2, hv]

/-- **C71.** The order `YTAU2YB4`. -/
theorem C71_ytau2yb4 (h : Agree (relevant .YTAU2YB4) p p') (n : Int) (l' : Limit) (msq2' : ℝ) :
    twoLoop dl phi l' msq2' .YTAU2YB4 p' n m = twoLoop dl phi l msq2 .YTAU2YB4 p n m := by
  agree h
  obtain ⟨hMb, hMtau, hAb, hAtau, hmQ, hmD, hmL, hmE⟩ := h'
  have tLAMBDA_YB4 : thrOf (thrFns4 dl phi) (tc l' p' msq2') .LAMBDA_YB4 m = thrOf (thrFns4 dl phi) (tc l p msq2) .LAMBDA_YB4 m := by
    have e : ∀ l p msq2, thrOf (thrFns4 dl phi) (tc l p msq2) .LAMBDA_YB4 m = thrOf (thrFns4 dl phi) (tc .general (keep (pick (relevant .YTAU2YB4) p)) 0) .LAMBDA_YB4 m := fun _ _ _ => rfl
    rw [e l' p', e l p, hk]
  have tVEV_YTAU2 : thrOf (thrFns4 dl phi) (tc l' p' msq2') .VEV_YTAU2 m = thrOf (thrFns4 dl phi) (tc l p msq2) .VEV_YTAU2 m := by
    have e : ∀ l p msq2, thrOf (thrFns4 dl phi) (tc l p msq2) .VEV_YTAU2 m = thrOf (thrFns4 dl phi) (tc .general (keep (pick (relevant .YTAU2YB4) p)) 0) .VEV_YTAU2 m := fun _ _ _ => rfl
    rw [e l' p', e l p, hk]
  have tLAMBDA_YTAU2_YB4 : thrOf (thrFns4 dl phi) (tc l' p' msq2') .LAMBDA_YTAU2_YB4 m = thrOf (thrFns4 dl phi) (tc l p msq2) .LAMBDA_YTAU2_YB4 m := by
    have e : ∀ l p msq2, thrOf (thrFns4 dl phi) (tc l p msq2) .LAMBDA_YTAU2_YB4 m = thrOf (thrFns4 dl phi) (tc .general (keep (pick (relevant .YTAU2YB4) p)) 0) .LAMBDA_YTAU2_YB4 m := fun _ _ _ => rfl
    rw [e l' p', e l p, hk]
  one_order
  simp only [tLAMBDA_YB4, tVEV_YTAU2, tLAMBDA_YTAU2_YB4, hs, hmu, hvu, hvd, hMt, hc, hsb, hMb, hMtau, hAb, hAtau, hmQ, hmD, hmL, hmE, hv2, hv]

/-- **C71.** The order `YT6`. -/
theorem C71_yt6 (h : Agree (relevant .YT6) p p') (n : Int) :
    twoLoop dl phi l msq2 .YT6 p' n m = twoLoop dl phi l msq2 .YT6 p n m := by
  agree h
  obtain ⟨hMA, hAt, hmQ, hmU, hMSt1⟩ := h'
  have tLAMBDA_AT : thrOf (thrFns4 dl phi) (tc l p' msq2) .LAMBDA_AT m = thrOf (thrFns4 dl phi) (tc l p msq2) .LAMBDA_AT m := by
    have e : ∀ p, thrOf (thrFns4 dl phi) (tc l p msq2) .LAMBDA_AT m = thrOf (thrFns4 dl phi) (tc l (keep (pick (relevant .YT6) p)) msq2) .LAMBDA_AT m := fun _ => rfl
    rw [e p', e p, hk]
  have tYT_YT : thrOf (thrFns4 dl phi) (tc l p' msq2) .YT_YT m = thrOf (thrFns4 dl phi) (tc l p msq2) .YT_YT m := by
    have e : ∀ p, thrOf (thrFns4 dl phi) (tc l p msq2) .YT_YT m = thrOf (thrFns4 dl phi) (tc l (keep (pick (relevant .YT6) p)) msq2) .YT_YT m := fun _ => rfl
    rw [e p', e p, hk]
  have tLAMBDA_YT6 : thrOf (thrFns4 dl phi) (tc l p' msq2) .LAMBDA_YT6 m = thrOf (thrFns4 dl phi) (tc l p msq2) .LAMBDA_YT6 m := by
    have e : ∀ p, thrOf (thrFns4 dl phi) (tc l p msq2) .LAMBDA_YT6 m = thrOf (thrFns4 dl phi) (tc l (keep (pick (relevant .YT6) p)) msq2) .LAMBDA_YT6 m := fun _ => rfl
    rw [e p', e p, hk]
  have tVEV_YT2 : thrOf (thrFns4 dl phi) (tc l p' msq2) .VEV_YT2 m = thrOf (thrFns4 dl phi) (tc l p msq2) .VEV_YT2 m := by
    have e : ∀ p, thrOf (thrFns4 dl phi) (tc l p msq2) .VEV_YT2 m = thrOf (thrFns4 dl phi) (tc l (keep (pick (relevant .YT6) p)) msq2) .VEV_YT2 m := fun _ => rfl
    rw [e p', e p, hk]
  one_order
  simp only [tLAMBDA_AT, tYT_YT, tLAMBDA_YT6, tVEV_YT2, hs, hmu, hvu, hvd, hMt, hc, hsb, hMA, hAt, hmQ, hmU, hMSt1, hv2, hv]

/-- **C71.** The order `G32YT4`. -/
theorem C71_g32yt4 (h : Agree (relevant .G32YT4) p p') (n : Int) :
    twoLoop dl phi l msq2 .G32YT4 p' n m = twoLoop dl phi l msq2 .G32YT4 p n m := by
  agree h
  obtain ⟨hg3, hMG, hAt, hmQ, hmU, hMSt1⟩ := h'
  have tYT_AS : thrOf (thrFns4 dl phi) (tc l p' msq2) .YT_AS m = thrOf (thrFns4 dl phi) (tc l p msq2) .YT_AS m := by
    have e : ∀ p, thrOf (thrFns4 dl phi) (tc l p msq2) .YT_AS m = thrOf (thrFns4 dl phi) (tc l (keep (pick (relevant .G32YT4) p)) msq2) .YT_AS m := fun _ => rfl
    rw [e p', e p, hk]
  have tLAMBDA_AT_AS : thrOf (thrFns4 dl phi) (tc l p' msq2) .LAMBDA_AT_AS m = thrOf (thrFns4 dl phi) (tc l p msq2) .LAMBDA_AT_AS m := by
    have e : ∀ p, thrOf (thrFns4 dl phi) (tc l p msq2) .LAMBDA_AT_AS m = thrOf (thrFns4 dl phi) (tc l (keep (pick (relevant .G32YT4) p)) msq2) .LAMBDA_AT_AS m := fun _ => rfl
    rw [e p', e p, hk]
  one_order
  simp only [tYT_AS, tLAMBDA_AT_AS, hs, hmu, hvu, hvd, hMt, hc, hsb, hg3, hMG, hAt, hmQ, hmU, hMSt1, hv2, hv]


/-- **C71 (partial: with two more parameters than allowed).** The order `YTAU4YB2` depends in addition on the trilinear coupling and
on the soft mass of the right-handed top squark. -/
theorem C71_ytau4yb2_partial (h : Agree (relevant .YTAU4YB2 ++ [.At, .mU]) p p') (n : Int) (l' : Limit) (msq2' : ℝ) :
    twoLoop dl phi l' msq2' .YTAU4YB2 p' n m = twoLoop dl phi l msq2 .YTAU4YB2 p n m := by
  agree h
  obtain ⟨hMb, hMtau, -⟩ := h'
  have tLAMBDA_YTAU4 : thrOf (thrFns4 dl phi) (tc l' p' msq2') .LAMBDA_YTAU4 m = thrOf (thrFns4 dl phi) (tc l p msq2) .LAMBDA_YTAU4 m := by
    have e : ∀ l p msq2, thrOf (thrFns4 dl phi) (tc l p msq2) .LAMBDA_YTAU4 m = thrOf (thrFns4 dl phi) (tc .general (keep (pick (relevant .YTAU4YB2 ++ [.At, .mU]) p)) 0) .LAMBDA_YTAU4 m :=
      fun _ _ _ => rfl
    rw [e l' p', e l p, hk]
  have tVEV_YB2 : thrOf (thrFns4 dl phi) (tc l' p' msq2') .VEV_YB2 m = thrOf (thrFns4 dl phi) (tc l p msq2) .VEV_YB2 m := by
    have e : ∀ l p msq2, thrOf (thrFns4 dl phi) (tc l p msq2) .VEV_YB2 m = thrOf (thrFns4 dl phi) (tc .general (keep (pick (relevant .YTAU4YB2 ++ [.At, .mU]) p)) 0) .VEV_YB2 m :=
      fun _ _ _ => rfl
    rw [e l' p', e l p, hk]
  have tYTAU_YB : thrOf (thrFns4 dl phi) (tc l' p' msq2') .YTAU_YB m = thrOf (thrFns4 dl phi) (tc l p msq2) .YTAU_YB m := by
    have e : ∀ l p msq2, thrOf (thrFns4 dl phi) (tc l p msq2) .YTAU_YB m = thrOf (thrFns4 dl phi) (tc .general (keep (pick (relevant .YTAU4YB2 ++ [.At, .mU]) p)) 0) .YTAU_YB m :=
      fun _ _ _ => rfl
    rw [e l' p', e l p, hk]
  have tLAMBDA_YTAU4_YB2 : thrOf (thrFns4 dl phi) (tc l' p' msq2') .LAMBDA_YTAU4_YB2 m = thrOf (thrFns4 dl phi) (tc l p msq2) .LAMBDA_YTAU4_YB2 m := by
    have e : ∀ l p msq2, thrOf (thrFns4 dl phi) (tc l p msq2) .LAMBDA_YTAU4_YB2 m = thrOf (thrFns4 dl phi) (tc .general (keep (pick (relevant .YTAU4YB2 ++ [.At, .mU]) p)) 0) .LAMBDA_YTAU4_YB2 m :=
      fun _ _ _ => rfl
    rw [e l' p', e l p, hk]
  one_order
  simp only [tLAMBDA_YTAU4, tVEV_YB2, tYTAU_YB, tLAMBDA_YTAU4_YB2, hs, hMt, hvu, hvd, hc, hv2, hMb, hMtau]

end

section
variable (l : Limit) (p : Params ℝ) (msq2 : ℝ)
theorem tc_ct : calcXt (tc l p msq2).p = calcXt p := rfl
theorem tc_yt : calcYt (tc l p msq2).p = calcYt p := rfl
theorem tc_xb : calcXb (tc l p msq2).p = calcXb p := rfl
theorem tc_yb : calcYb (tc l p msq2).p = calcYb p := rfl
theorem tc_xl : calcXtau (tc l p msq2).p = calcXtau p := rfl
theorem tc_yl : calcYtau (tc l p msq2).p = calcYtau p := rfl
theorem tc_c : eftCosBeta (tc l p msq2).p = eftCosBeta p := rfl
theorem tc_s : eftSinBeta (tc l p msq2).p = eftSinBeta p := rfl
end

/-- all masses are 1, except the top mass; no squark mixing for `At = 1` -/
noncomputable def ytauPoint (At : ℝ) : Params ℝ :=
  { keep (fun _ => 1) with Mt := 2
                           Au := fun _ _ => At }

/-- **C71 violated.** The correction of order `ytau^4 yb^2` depends on the trilinear coupling `At` of the top squarks, although
neither the top quark nor its superpartners couple with these couplings only: `getDeltaYtauYb`, the correction of order `yb²` to
the tau Yukawa coupling, contains `Xt`, `mU3` and `sin β` instead of `Xb`, `mD3` and `cos β`. -/
theorem C71_ytau4yb2_violated (dl : ℝ → ℝ) (phi : ℝ → ℝ → ℝ → ℝ) (l : Limit) (msq2 : ℝ) :
    ¬ ∀ p p' : Params ℝ, Agree (relevant .YTAU4YB2) p p' →
      twoLoop dl phi l msq2 .YTAU4YB2 p' 1 1 = twoLoop dl phi l msq2 .YTAU4YB2 p 1 1 := by
  intro h
  have hA : Agree (relevant .YTAU4YB2) (ytauPoint 1) (ytauPoint 2) := by
    intro x hx; fin_cases hx <;> rfl
  have e := h _ _ hA
  have F51 : (TLF.F5 (1 : ℝ)) = 1 := by rw [TLF.F5_real]; norm_num
  have v2 : ∀ a, eftV2 (ytauPoint a) = 2 := fun a => by simp [eftV2, ytauPoint, keep, Himalaya.pow2]; norm_num
  have v : ∀ a, eftV (ytauPoint a) = Real.sqrt 2 := fun a => by rw [eftV, v2]; rfl
  have s : ∀ a, eftSinBeta (ytauPoint a) = 1 / Real.sqrt 2 := fun a => by rw [eftSinBeta, v]; rfl
  have co : ∀ a, eftCosBeta (ytauPoint a) = 1 / Real.sqrt 2 := fun a => by rw [eftCosBeta, v]; rfl
  have y : ∀ a, thrOf (thrFns4 dl phi) (tc l (ytauPoint a) msq2) .YTAU_YB 1 = .ok (-(1 / 8) * (a - 1) ^ 2) := fun a => by
    show Except.ok (TcObj.dYtauYb _ 1) = _
    refine congrArg Except.ok ?_
    have s1 : (FOps.sqrt (1 : ℝ)) = 1 := Real.sqrt_one
    have h2 : Real.sqrt 2 ^ 2 = 2 := Real.sq_sqrt (by norm_num)
    unfold TcObj.dYtauYb
    simp only [tc_ct, tc_s, s]
    simp only [tc, TcObj.setLimit, calcXt, eftTanBeta, ytauPoint, keep, s1, F51, div_one, real_ofNat, Himalaya.pow2]
    push_cast
    rw [← sq (1 / Real.sqrt 2), div_pow, h2]; ring
  have t4 : ∀ a, thrOf (thrFns4 dl phi) (tc l (ytauPoint a) msq2) .LAMBDA_YTAU4 1 = .ok 0 := fun a => by
    show Except.ok (TcObj.dLamYtau4 _ 1) = _
    refine congrArg Except.ok ?_
    unfold TcObj.dLamYtau4
    simp only [tc_xl]
    simp [tc, TcObj.setLimit, calcXtau, eftTanBeta, ytauPoint, keep, Himalaya.pow2, real_log, real_ofNat]
  have tv : ∀ a, thrOf (thrFns4 dl phi) (tc l (ytauPoint a) msq2) .VEV_YB2 1 = thrOf (thrFns4 dl phi) (tc l (ytauPoint 1) msq2) .VEV_YB2 1 :=
    fun a => rfl
  have tl : ∀ a, thrOf (thrFns4 dl phi) (tc l (ytauPoint a) msq2) .LAMBDA_YTAU4_YB2 1 =
    thrOf (thrFns4 dl phi) (tc l (ytauPoint 1) msq2) .LAMBDA_YTAU4_YB2 1 := fun a => rfl
  obtain ⟨dv, hdv⟩ : ∃ x, thrOf (thrFns4 dl phi) (tc l (ytauPoint 1) msq2) .VEV_YB2 1 = .ok x := ⟨_, rfl⟩
  obtain ⟨dl6, hdl⟩ : ∃ x, thrOf (thrFns4 dl phi) (tc l (ytauPoint 1) msq2) .LAMBDA_YTAU4_YB2 1 = .ok x := ⟨_, rfl⟩
  revert e
  one_order
  simp only [y, t4, tv 2, tl 2, hdv, hdl, bindOk, v2, co]
  intro e
  have e := Except.ok.inj e
  simp only [discardNaN, real_isNaN, Bool.false_eq_true, if_false, real_ofInt, real_const, Const.value, real_log, Himalaya.pow2,
    Misc.pow4, Misc.pow2, ytauPoint, keep, real_ofNat] at e
  have hl : Real.log (1 / 2 * (1 / 2)) ≠ 0 := by
    have : Real.log (1 / 2 * (1 / 2)) < 0 := Real.log_neg (by norm_num) (by norm_num)
    exact this.ne
  push_cast at e
  have hpi := Real.pi_ne_zero
  have h2 : Real.sqrt 2 ≠ 0 := by positivity
  apply hl
  have hk : (1 / Real.sqrt 2 * (1 / Real.sqrt 2)) = 1 / 2 := by
    rw [div_mul_div_comm, Real.mul_self_sqrt (by norm_num)]; norm_num
  rw [hk] at e
  generalize Real.log (1 / 2 * (1 / 2)) = L at e ⊢
  field_simp at e
  linarith

example : Agree (relevant .YB6) (ytauPoint 1) (ytauPoint 2) := by
  intro x hx; fin_cases hx <;> rfl

end Himalaya.Scale
