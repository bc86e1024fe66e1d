"""Writes lean/Verif/EFT/SignsMu.lean: the corrections of the orders yt^2 yb^4 and yt^4 yb^2 contain |mu| (C74 is violated)."""
import re
from fractions import Fraction as Fr
t=open('/verif/lean/Verif/EFT/Yuk.lean').read()
def fields(ns):
    i=t.index('namespace '+ns+'\n'); j=t.index('structure Arg',i); k=t.index('\n\n',j)
    return re.findall(r'^  (\w+) : F$',t[j:k],re.M)
mu=8; tb=Fr(3,4)
V=['dilog_Mu2_mD32','dilog_Mu2_mQ32','dilog_Mu2_mU32','dilog_mD32_mQ32','dilog_mQ32_mU32','dilog_mD32_mU32','phixyz_mA2_mU32_mD32','phixyz_mA2_mQ32_mD32','phixyz_mA2_mQ32_mQ32','phixyz_mA2_mU32_mQ32']
R=['dl ((-3 : ℚ) : ℝ)','dl ((-63 : ℚ) : ℝ)','dl ((-15 : ℚ) : ℝ)','dl ((-15 : ℚ) : ℝ)','dl ((3/4 : ℚ) : ℝ)','dl ((-3 : ℚ) : ℝ)','phi ((49 : ℚ) : ℝ) ((4 : ℚ) : ℝ) ((16 : ℚ) : ℝ)','phi ((49 : ℚ) : ℝ) ((1 : ℚ) : ℝ) ((16 : ℚ) : ℝ)','phi ((49 : ℚ) : ℝ) ((1 : ℚ) : ℝ) ((1 : ℚ) : ℝ)','phi ((49 : ℚ) : ℝ) ((4 : ℚ) : ℝ) ((1 : ℚ) : ℝ)']
NV=14
def num(f,s):
    d={'Mu':mu*s,'Mu2':mu*mu,'abs_Mu':mu,'pow_Mu2_15':mu**3,'Xt':-mu*s/tb,'Xt2':(mu/tb)**2,'Xt4':(mu/tb)**4,'Xb':-mu*s*tb,'Xb2':(mu*tb)**2,'Xb4':(mu*tb)**4,'Yt':mu*s*tb,'Yb':mu*s/tb,
      'cbeta':Fr(4,5),'sbeta':Fr(3,5),'mA':7,'mA2':49,'mQ3':1,'mQ32':1,'mU3':2,'mU32':4,'mD3':4,'mD32':16}
    return Fr(d[f]) if f in d else None
def val(f,s,d):
    v=num(f,s)
    if v is not None: return f'(.lit ({v}))'
    L='(.var 0)' if d==0 else '(.add (.var 0) (.lit 1))'
    if f=='lmQ3MR': return L
    if f=='lmUMR': return f'(.add (.mul (.lit 6) (.var 1)) {L})'
    if f=='log_mA2_MR2': return f'(.add (.var 2) {L})'
    if f=='log_mU32_mQ32': return '(.mul (.lit 2) (.var 1))'
    if f=='log_mD32_mQ32': return '(.mul (.lit 4) (.var 1))'
    return f'(.var {3+V.index(f)})'
def rval(f,s):
    v=num(f,s)
    if v is not None: return f'(({v} : ℚ) : ℝ)'
    if f=='lmQ3MR': return 'L'
    if f=='lmUMR': return '((6 : ℚ) : ℝ) * ell + L'
    if f=='log_mA2_MR2': return 'lA + L'
    if f=='log_mU32_mQ32': return '((2 : ℚ) : ℝ) * ell'
    if f=='log_mD32_mQ32': return '((4 : ℚ) : ℝ) * ell'
    return R[V.index(f)]
def earg(ns,s,d): return f'({ns}.formula ⟨'+', '.join(val(f,s,d) for f in fields(ns))+'⟩)'
def dif(ns): return f'.sub (.sub {earg(ns,1,1)} {earg(ns,1,0)}) (.sub {earg(ns,-1,1)} {earg(ns,-1,0)})'
AB={'Yt2Yb4':('-3072','564736/105'),'Yt4Yb2':('-104857600/243','515993600/729')}
out='''import Verif.EFT.Signs
import Verif.Kron.LaurentSubst

/-!
# C74: `|μ|` in the corrections of the orders `yt^2 yb^4` and `yt^4 yb^2`

The C++ code of these two corrections contains `|μ|` and `(μ^2)^(3/2)` multiplied by odd powers of `X_t` and `X_b`.  They are therefore not symmetric
with respect to a common change of the signs of `μ` and the trilinear couplings.  Generated by `tools/gen_signsmu.py`.
-/

set_option linter.unusedSimpArgs false
set_option linter.unusedVariables false
set_option maxRecDepth 40000

namespace Himalaya.Signs

open scoped Himalaya
open Kron Scale

/-- a point with `μ` = 8 and vanishing trilinear couplings at the renormalisation scale `s` -/
noncomputable def muPoint (s : ℝ) : Params ℝ :=
  { examplePoint with scale := s, vu := 3, vd := 4, mq2 := fun _ _ => 1, mu2 := fun _ _ => 4, md2 := fun _ _ => 16, mu := 8, MA := 7, Au := fun _ _ => 0, Ad := fun _ _ => 0 }
noncomputable def muTc (s : ℝ) : TcObj ℝ := ⟨muPoint s, 1, 6⟩

/-- the two points, `x` is `μ` -/
structure AtPoint (p : Params ℝ) (x s : ℝ) : Prop where
  mu : p.mu = x
  scale : p.scale = s
  vu : p.vu = 3
  vd : p.vd = 4
  mq2 : p.mq2 2 2 = 1
  mu2 : p.mu2 2 2 = 4
  md2 : p.md2 2 2 = 16
  MA : p.MA = 7
  Au : p.Au 2 2 = 0
  Ad : p.Ad 2 2 = 0

theorem atPlus (s : ℝ) : AtPoint (muTc s).p 8 s := ⟨rfl, rfl, rfl, rfl, rfl, rfl, rfl, rfl, rfl, rfl⟩
theorem atMinus (s : ℝ) : AtPoint (flipT (muTc s)).p (-8) s :=
  ⟨rfl, rfl, rfl, rfl, rfl, rfl, rfl, rfl, neg_zero, neg_zero⟩

theorem at_v {p : Params ℝ} {x s : ℝ} (h : AtPoint p x s) : eftV p = 5 := by
  unfold eftV eftV2
  rw [h.vu, h.vd]
  show Real.sqrt (pow2 (3 : ℝ) + pow2 (4 : ℝ)) = 5
  rw [show pow2 (3 : ℝ) + pow2 (4 : ℝ) = 5 ^ 2 by norm_num [pow2]]
  exact Real.sqrt_sq (by norm_num)
theorem at_sin {p : Params ℝ} {x s : ℝ} (h : AtPoint p x s) : eftSinBeta p = ((3/5 : ℚ) : ℝ) := by
  unfold eftSinBeta; rw [at_v h, h.vu]; norm_num
theorem at_cos {p : Params ℝ} {x s : ℝ} (h : AtPoint p x s) : eftCosBeta p = ((4/5 : ℚ) : ℝ) := by
  unfold eftCosBeta; rw [at_v h, h.vd]; norm_num
theorem at_Xt {p : Params ℝ} {x s : ℝ} (h : AtPoint p x s) : calcXt p = -(4/3 * x) := by
  unfold calcXt eftTanBeta; rw [h.Au, h.mu, h.vu, h.vd]; ring
theorem at_Xb {p : Params ℝ} {x s : ℝ} (h : AtPoint p x s) : calcXb p = -(3/4 * x) := by
  unfold calcXb eftTanBeta; rw [h.Ad, h.mu, h.vu, h.vd]; ring
theorem at_Yt {p : Params ℝ} {x s : ℝ} (h : AtPoint p x s) : calcYt p = 3/4 * x := by
  unfold calcYt eftTanBeta; rw [h.Au, h.mu, h.vu, h.vd]; ring
theorem at_Yb {p : Params ℝ} {x s : ℝ} (h : AtPoint p x s) : calcYb p = 4/3 * x := by
  unfold calcYb eftTanBeta; rw [h.Ad, h.mu, h.vu, h.vd]; ring

theorem sqrt_of {x y : ℝ} (hy : 0 ≤ y) (h : x = y ^ 2) : FOps.sqrt x = y := by rw [h]; exact Real.sqrt_sq hy

theorem log_of {a s : ℝ} (ha : 0 < a) (hs : 0 < s) : FOps.log (a / pow2 s) = Real.log a + -(2 * Real.log s) := by
  show Real.log (a / (s * s)) = _
  rw [Real.log_div ha.ne' (mul_pos hs hs).ne', Real.log_mul hs.ne' hs.ne']
  ring
theorem log4 : Real.log 4 = 2 * Real.log 2 := by
  rw [show (4 : ℝ) = 2 ^ 2 by norm_num, Real.log_pow]; norm_num
theorem log16 : Real.log 16 = 4 * Real.log 2 := by
  rw [show (16 : ℝ) = 2 ^ 4 by norm_num, Real.log_pow]; norm_num
theorem log64 : Real.log 64 = 6 * Real.log 2 := by
  rw [show (64 : ℝ) = 2 ^ 6 by norm_num, Real.log_pow]; norm_num

theorem noLimit (a b : Bool) : (FOps.lt (FOps.abs ((2 : ℝ) - 1)) (1 * FOps.lit (1 / 100)) && a && b) = false := by
  have e : FOps.lt (FOps.abs ((2 : ℝ) - 1)) (1 * FOps.lit (1 / 100)) = false := by
    show decide (|(2 : ℝ) - 1| < _) = false
    apply decide_eq_false
    simp only [real_lit]; norm_num
  rw [e]; rfl

'''
for ns,low in [('Yt2Yb4','yt2yb4'),('Yt4Yb2','yt4yb2')]:
    A,B=AB[ns]
    F=fields(ns)
    for s,nm in [(1,'plus'),(-1,'minus')]:
        out+=f'/-- the arguments of the formula for `μ` = {8*s} -/\nnoncomputable def {low}_{nm} (dl : ℝ → ℝ) (phi : ℝ → ℝ → ℝ → ℝ) (ell lA L : ℝ) : {ns}.Arg ℝ :=\n  ⟨'+', '.join(rval(f,s) for f in F)+'⟩\n\n'
        x='8' if s==1 else '(-8)'
        out+=f'''theorem {low}_{nm}_eq (dl : ℝ → ℝ) (phi : ℝ → ℝ → ℝ → ℝ) (c : TcObj ℝ) (s : ℝ) (hs : 0 < s) (h : AtPoint c.p {x} s) :
    c.dLam{ns} dl phi 1 = {ns}.formula ({low}_{nm} dl phi (Real.log 2) (Real.log 49) (-(2 * Real.log s))) := by
  rw [Units.dLam{ns}_eq]
  have q1 : FOps.sqrt (1 : ℝ) = 1 := sqrt_of (by norm_num) (by norm_num)
  have q2 : FOps.sqrt (4 : ℝ) = 2 := sqrt_of (by norm_num) (by norm_num)
  have q3 : FOps.sqrt (16 : ℝ) = 4 := sqrt_of (by norm_num) (by norm_num)
  have m2 : pow2 ({x} : ℝ) = 64 := by norm_num [pow2]
  have q4 : FOps.sqrt (64 : ℝ) = 8 := sqrt_of (by norm_num) (by norm_num)
  have a2 : pow2 (7 : ℝ) = 49 := by norm_num [pow2]
  have ab : FOps.abs ({x} : ℝ) = 8 := by show |_| = (8 : ℝ); norm_num
  have l1 : FOps.log ((1 : ℝ) / pow2 s) = -(2 * Real.log s) := by rw [log_of one_pos hs, Real.log_one, zero_add]
  have l2 : FOps.log ((64 : ℝ) / pow2 s) = 6 * Real.log 2 + -(2 * Real.log s) := by rw [log_of (by norm_num) hs, log64]
  have l3 : FOps.log ((49 : ℝ) / pow2 s) = Real.log 49 + -(2 * Real.log s) := log_of (by norm_num) hs
  have l4 : FOps.log ((4 : ℝ) / 1) = 2 * Real.log 2 := by rw [div_one]; exact log4
  have l5 : FOps.log ((16 : ℝ) / 1) = 4 * Real.log 2 := by rw [div_one]; exact log16
  simp only [at_sin h, at_cos h, at_Xt h, at_Xb h, at_Yt h, at_Yb h, h.mu, h.scale, h.mq2, h.mu2, h.md2, h.MA, q1, q2, q3, m2, q4, a2, ab, l1, l2, l3, l4, l5,
    noLimit, Bool.false_eq_true, if_false]
  refine congrArg _ ?_
  unfold {low}_{nm}
  simp only [real_ofNat, real_ofInt, pow2]
  norm_num

'''
    out+=f'''/-- the second difference with respect to the sign of `μ` and the scale, as an expression -/
def {low}_dif : E := {dif(ns)}

theorem {low}_dif_eq (dl : ℝ → ℝ) (phi : ℝ → ℝ → ℝ → ℝ) (ell lA L : ℝ) :
    ({ns}.formula ({low}_plus dl phi ell lA (L + ((1 : ℚ) : ℝ))) - {ns}.formula ({low}_plus dl phi ell lA L)) -
    ({ns}.formula ({low}_minus dl phi ell lA (L + ((1 : ℚ) : ℝ))) - {ns}.formula ({low}_minus dl phi ell lA L)) =
      (({A} : ℚ) : ℝ) + (({B} : ℚ) : ℝ) * ell := by
  have z := Laur.zeroB_subst id (n := {NV}) (m := 0) (t := [(.cst .pi, .var 13)]) (e := .sub {low}_dif (.add (.lit ({A})) (.mul (.lit ({B})) (.var 1))))
    (by decide +kernel) [L, ell, lA, {', '.join(R)}, Real.pi] rfl trivial
    (by intro p hp; rw [List.mem_singleton.1 hp]; rfl)
  refine sub_eq_zero.1 (Eq.trans ?_ z)
  krfl

/-- **C74 is violated by the correction of order `{'yt^2 yb^4' if ns=='Yt2Yb4' else 'yt^4 yb^2'}`.** -/
theorem C74_{low}_violated (dl : ℝ → ℝ) (phi : ℝ → ℝ → ℝ → ℝ) (s : Scheme) :
    ∃ c : TcObj ℝ, (flipT c).thr (thrFns4 dl phi) .LAMBDA_{'YT2_YB4' if ns=='Yt2Yb4' else 'YT4_YB2'} s 1 ≠ c.thr (thrFns4 dl phi) .LAMBDA_{'YT2_YB4' if ns=='Yt2Yb4' else 'YT4_YB2'} s 1 := by
  by_contra hc
  push Not at hc
  have h : ∀ c : TcObj ℝ, (flipT c).dLam{ns} dl phi 1 = c.dLam{ns} dl phi 1 := fun c => Except.ok.inj (hc c)
  have e1 := h (muTc 1)
  have e2 := h (muTc (Real.exp (-(1/2))))
  rw [{low}_plus_eq dl phi _ 1 one_pos (atPlus 1), {low}_minus_eq dl phi _ 1 one_pos (atMinus 1)] at e1
  rw [{low}_plus_eq dl phi _ _ (Real.exp_pos _) (atPlus _), {low}_minus_eq dl phi _ _ (Real.exp_pos _) (atMinus _), Real.log_exp] at e2
  rw [Real.log_one, mul_zero, neg_zero] at e1
  rw [show -(2 * -(1/2 : ℝ)) = 0 + ((1 : ℚ) : ℝ) by norm_num] at e2
  have v := {low}_dif_eq dl phi (Real.log 2) (Real.log 49) 0
  rw [e1, e2, sub_self] at v
  have b1 := Real.log_two_gt_d9
  push_cast at v
  norm_num at v b1
  linarith

'''
out+='end Himalaya.Signs\n'
open('/verif/lean/Verif/EFT/SignsMu.lean','w').write(out)
