#!/usr/bin/env python3
# Generates lean/Verif/EFT/SignsF.lean: parity of the formulas of the threshold corrections under a common change of sign of mu and
# the trilinear couplings.
import re
L='/verif/lean/Verif/EFT/'
def odd(v): return 1 if re.fullmatch(r'(X|Y)(t|b|tau)|Mu',v) else 0
out=[]
yuk=open(L+'Yuk.lean').read()
def args(src,ns):
    i=src.index('namespace '+ns+'\n') if ns else 0
    j=src.index('structure Arg',i); k=src.index('\n\n',j)
    return re.findall(r'^  (\w+) : F$',src[j:k],re.M)
for ns in ['Yb6','Ytau6']:
    vs=args(yuk,ns); ws=[odd(v) for v in vs]
    out.append(f'''theorem {ns}_signs (a b : {ns}.Arg ℝ)
    (h : Scaled (-1) {ws} [{', '.join('a.'+v for v in vs)}]
      [{', '.join('b.'+v for v in vs)}]) : {ns}.formula b = {ns}.formula a := by
  have e : ∀ a : {ns}.Arg ℝ, {ns}.formula a = eval id (env [{', '.join('a.'+v for v in vs)}])
      ({ns}.formula ⟨{', '.join(f'.var {i}' for i in range(len(vs)))}⟩) := fun a => by krfl
  rw [e, e]
  exact even id h (by decide +kernel)
''')
y6=open(L+'Yt6.lean').read()
vs=args(y6,None)
n=len(vs)
ws=[odd(v) for v in vs]+[0]*8
idx={v:i for i,v in enumerate(vs)}
la=', '.join('a.'+v for v in vs)+', lA, lQ, lm, L, phi a.mA2 a.mU32 a.mQ32, phi a.mA2 a.mQ32 a.mQ32, phi a.mA2 a.mU32 a.mU32, phi a.mA2 a.mQ32 a.mU32'
out.append(f'''theorem Yt6_signs (dl : ℝ → ℝ) (phi : ℝ → ℝ → ℝ → ℝ) (a b : Yt6.Arg ℝ) (lA lQ lm L : ℝ)
    (h : Scaled (-1) {ws} [{la}]
      [{la.replace('a.','b.')}]) :
    Yt6.formula dl phi b lA lQ lm L = Yt6.formula dl phi a lA lQ lm L := by
  have e : ∀ (a : Yt6.Arg ℝ), Yt6.formula dl phi a lA lQ lm L = eval dl (env [{la}])
      (Yt6.formula E.dilog Units.phiE ⟨{', '.join(f'.var {i}' for i in range(n))}⟩ (.var {n}) (.var {n+1}) (.var {n+2}) (.var {n+3})) := fun a => by krfl
  rw [e, e]
  exact even dl h (by decide +kernel)
''')
uf=open(L+'UnitsF.lean').read()
for m in re.finditer(r'^def (Yb6_l0|Ytau\dYb\d_l\d) \(([\w ]+) : F\) : F :=',uf,re.M):
    nm,ids=m.group(1),m.group(2).split()
    ws=[odd(v) for v in ids]
    xs=' '.join(ids); xs1=' '.join(v+"'" for v in ids)
    la=', '.join(ids); la1=', '.join(v+"'" for v in ids)
    out.append(f'''theorem {nm}_signs {{{xs} {xs1} : ℝ}}
    (h : Scaled (-1) {ws} [{la}] [{la1}]) :
    Units.{nm} {xs1} = Units.{nm} {xs} := by
  have e : ∀ {xs} : ℝ, Units.{nm} {xs} = eval id (env [{la}])
    (Units.{nm} {' '.join(f'(.var {i})' for i in range(len(ids)))}) := fun {xs} => by krfl
  rw [e, e]
  exact even id h (by decide +kernel)
''')
hdr='''import Verif.EFT.UnitsF

/-!
# Parity of the formulas of the threshold corrections

Generated by `tools/gen_signs.py` from the model: each formula is even under a common change of sign of `Mu`, `Xt`, `Xb`, `Xtau`, `Yt`, `Yb`
and `Ytau`.
-/

set_option linter.unusedVariables false
set_option maxRecDepth 20000

namespace Himalaya.Signs

open Kron

theorem m1 : (-1 : ℝ) ≠ 0 := by norm_num
theorem m2 : (-1 : ℝ) ^ (2 : ℤ) = 1 := by norm_num

/-- a formula of even weight -/
theorem even (dl : ℝ → ℝ) {w : List ℤ} {xs ys : List ℝ} (h : Scaled (-1) w xs ys) {e : E} (hw : wtFun 2 (wt 2 w e) = some 0) :
    eval dl (env ys) e = eval dl (env xs) e := by
  obtain ⟨-, d, hd, hs⟩ := wtFun_some hw
  have := wt_sound dl m1 m2 w (env xs) (env ys) h.env e d hd
  rwa [sameW_pow m1 m2 hs, zpow_zero, one_mul] at this

'''
open(L+'SignsF.lean','w').write(hdr+'\n'.join(out)+'\nend Himalaya.Signs\n')
