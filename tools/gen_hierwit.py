"""Witnesses for the negative theorems about the hierarchy classes: gen_hierwit.py OUT (values of the self energies at rational points)"""
import re,sys
base={'Sbeta':'3/5','Cbeta':'4/5','Tbeta':'3/4','Mt':'1','Mst1':'1','Mst2':'1','Msq':'1','Mgl':'1','Msusy':'1','Al4p':'1','s2t':'1'}
X='x xAt xDmglst1 xDmglst2 xDmsqst1 xDmsqst2 xDmst12 xMst xMsq xMgl xMsusy xlmMsusy'.split()
for x in X: base[x]='1'
D=sys.argv[2] if len(sys.argv)>2 else '/verif/lean/Verif/Hier'
def pt(c):
    t=open(f'{D}/{c}P.lean').read()
    m=re.search(r'noncomputable def pt .*?\[(.*?)\]',t,re.S).group(1)
    return [v.strip() for v in m.split(',')]
MEM='Al4p At Cbeta Sbeta Tbeta Dmglst1 Dmglst2 Dmsqst1 Dmsqst2 Dmst12 lmMt lmMst1 lmMst2 lmMsq lmMgl lmMsusy Mt Mst1 Mst2 Msq Mgl Msusy MuSUSY s2t shiftst1 shiftst2 shiftst3 xDR2DRMOD x xAt xDmglst1 xDmglst2 xDmsqst1 xDmsqst2 xDmst12 xMst xMsq xMgl xMsusy xlmMsusy oneLoopFlag twoLoopFlag threeLoopFlag'.split()
KON='z2 z3 z4 B4 D3 DN OepS2 S2 T1ep'.split()
out='''import Verif.Hier.Props3

/-!
# Values of the self energies of some hierarchy classes at rational points
-/

set_option linter.unusedVariables false
set_option linter.unusedSimpArgs false
set_option linter.unusedTactic false
set_option linter.unreachableTactic false

namespace Himalaya

open Kron (E eval sumR nonzero nonzero_sound)

/-- All masses equal to one unit, `tan β = 3/4`, `sin 2θ = 1`, all truncation flags set, the other members zero. -/
def witQ : HMem ℚ :=
  { '''+', '.join(f'{m} := {base.get(m,"0")}' for m in MEM)+''' }

'''
def witness(name,c,cs,pts,claim,doc):
    """cs: coefficients, functions and points; pts: dicts; claim(lambda f,i: value string)"""
    global out
    vs=pt(c)
    for i,d in enumerate(pts):
        v=dict(base); v.update(d)
        out+=f'def {name}_q{i} : List ℚ := ['+', '.join(f'codeConstQ.getD {KON.index(x[2:])} 0' if x.startswith('k.') else v.get(x[2:],'0') for x in vs)+']\n'
        out+=f'/-- {doc} -/\ndef {name}_h{i} : HMem ℚ := {{ witQ with '+', '.join(f'{a} := {b}' for a,b in d.items())+' }\n'
    out+='\n'
    cr=claim(lambda f,i:f'{c}.get{f} codeConst {name}_h{i}.cast')
    out+=f'theorem {name}_differs : nonzero ['+', '.join(f'({a}, {name}_q{i}, {c}.get{f} {c}.kE {c}.hE)' for a,f,i in cs)+'] = true := by decide +kernel\n\n'
    out+=f'theorem {name} : {cr} := by\n'
    for i in range(len(pts)):
        out+=f'  have p{i} : {c}.pt codeConst {name}_h{i}.cast = {name}_q{i}.map (↑) := by\n    simp only [{c}.pt, {name}_q{i}, {name}_h{i}, witQ, codeConst, codeConstQ, HMem.cast, List.map_cons, List.map_nil, List.getD_cons_zero, List.getD_cons_succ] <;> norm_num\n'
    rw=', '.join(f'← value_at (P := {c}.pt) ({c}.link{f} _) codeConst _ _ p{i}' for a,f,i in cs)
    out+=f'  have h := nonzero_sound (fun _ => 0) {name}_differs\n  simp only [sumR] at h\n  rw [{rw}] at h\n  intro e\n  apply h\n  push_cast\n  linarith\n\n'
sm=lambda i:(lambda v:f'16 * {v("S1",i)} + 24 * {v("S12",i)} + 9 * {v("S2",i)}')
mu=lambda v: f'{sm(1)(v)} ≠ {sm(0)(v)}'
def muw(c,d,nm='mu'):
    witness(f'{c}_{nm}',c,[(a*b,f,i) for b,i in ((1,1),(-1,0)) for a,f in ((16,'S1'),(24,'S12'),(9,'S2'))],[{**d,'MuSUSY':'0'},{**d,'MuSUSY':'1'}],mu,f'`{c}` at two values of `μ`')
for c in ['H3','H32q2g','H3q22g']: muw(c,{'oneLoopFlag':'1','xDmst12':'0','Dmst12':'1'})
for c in ['H5','H5g1']: muw(c,{'oneLoopFlag':'1'})
muw('H6',{'twoLoopFlag':'1','Dmglst2':'1'})
muw('H6bq22g',{'threeLoopFlag':'1','Dmsqst2':'1','Dmglst2':'1'})
witness('H6_mu0','H6',[(1,'S1',0)],[{'twoLoopFlag':'1','Dmglst2':'1','MuSUSY':'0'}],lambda v:f'{v("S1",0)} ≠ 0','`H6` at `μ = 0`')
witness('H6b_mu0','H6b',[(1,'S1',0)],[{'threeLoopFlag':'1','Dmglst2':'1','Dmsqst2':'1','MuSUSY':'0'}],lambda v:f'{v("S1",0)} ≠ 0','`H6b` at `μ = 0`')
# C70
for c in ['H3','H32q2g','H3q22g']:
    d={'oneLoopFlag':'1','MuSUSY':'1','xDmst12':'0'}
    witness(f'{c}_s12',c,[(1,'S12',3),(-3,'S12',2),(3,'S12',1),(-1,'S12',0)],[{**d,'Dmst12':str(t)} for t in range(4)],
      lambda v:f'{v("S12",3)} - 3 * {v("S12",2)} + 3 * {v("S12",1)} - {v("S12",0)} ≠ 0',f'`{c}` with the flag `xDmst12` off, as a function of `Dmst12`')
d={'threeLoopFlag':'1','MuSUSY':'1','xDmsqst2':'0','xDR2DRMOD':'1'}
witness('H6b_s12','H6b',[(1,'S12',2),(-2,'S12',1),(1,'S12',0)],[{**d,'Dmsqst2':str(t)} for t in range(3)],lambda v:f'{v("S12",2)} - 2 * {v("S12",1)} + {v("S12",0)} ≠ 0','`H6b` with the flag `xDmsqst2` off, as a function of `Dmsqst2`')
d={'threeLoopFlag':'1','twoLoopFlag':'1','MuSUSY':'1','Dmsqst2':'1','Dmglst2':'1'}
witness('H6b2qg2_s2','H6b2qg2',[(1,'S2',3),(-1,'S2',2),(-64,'S2',1),(64,'S2',0)],[{**d,'Mst1':m,'xMst':x} for m in('1','2') for x in('0','1')],lambda v:f'{v("S2",3)} - {v("S2",2)} ≠ 2 ^ 6 * ({v("S2",1)} - {v("S2",0)})','`H6b2qg2` with the flag `xMst` off and on, for two values of `Mst1`')
d={'threeLoopFlag':'1','twoLoopFlag':'1','MuSUSY':'1','xMgl':'0'}
witness('H9_s2','H9',[(1,'S2',4),(-4,'S2',3),(6,'S2',2),(-4,'S2',1),(1,'S2',0)],[{**d,'Mgl':str(t)} for t in range(1,6)],lambda v:f'{v("S2",4)} - 4 * {v("S2",3)} + 6 * {v("S2",2)} - 4 * {v("S2",1)} + {v("S2",0)} ≠ 0','`H9` with the flag `xMgl` off, as a function of `Mgl`')
out+='end Himalaya\n'
open(sys.argv[1],'w').write(out)
