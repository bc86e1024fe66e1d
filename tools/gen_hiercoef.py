"""Generates lean/Verif/Hier/Coef.lean: the Delta-lambda coefficients against the three-loop self energies.
usage: gen_hiercoef.py OUT TABLE CLASS ..."""
import re,sys,pickle
sys.path.insert(0,'/verif/tools')
out,tabf=sys.argv[1:3]; CL=sys.argv[3:]
tab=pickle.load(open(tabf,'rb'))
from hier_src import load,ids
from hier_tab import denvars
mem=open('/verif/lean/Verif/Hier/Mem.lean').read()
F=re.findall(r'^  (\w+) : F',mem,re.M)
KON=F[-9:];MEM=F[:-9]
FIX={x:'1' for x in('x','xAt','xDmglst1','xDmglst2','xDmsqst1','xDmsqst2','xDmst12','xMst','xMsq','xMgl','xMsusy','xlmMsusy','threeLoopFlag','Al4p')}
FIX.update({x:'0' for x in('oneLoopFlag','twoLoopFlag','shiftst1','shiftst2','shiftst3','xDR2DRMOD','lmMt','MuSUSY')})
t='import Verif.Hier.CoefBase\n'+''.join(f'import Verif.Hier.{c}P\n' for c in CL)+'''
/-!
# The coefficients of the logarithms in `Δλ`: H3, H9 and their variants

Generated by tools/gen_hiercoef.py.
-/

set_option linter.unusedVariables false
set_option linter.unusedSimpArgs false
set_option maxRecDepth 100000

namespace Himalaya

'''
for c in CL:
    fs=load(c)
    used=set();den=set()
    for f in ['getS2']+['calc_coef_at_as2_no_sm_logs_log%d'%i for i in range(4)]:
        ids(fs[f],used);denvars(fs[f],den)
    used={v for v in used if '(' not in v};den={v for v in den if '(' not in v}|{'Mt'}
    used-=set(FIX)
    logs=[x for x in('lmMst2','lmMsq','lmMgl') if x in used]
    L='lmMsusy' if c=='H4' else 'lmMst1'
    used-=set(logs); used.add(L)
    other={'lmMst2':'Mst2','lmMsq':'Msq','lmMgl':'Mgl'}
    for l in logs: den.add(other[l])
    ORD=[x for x in MEM if x in den]+[x for x in MEM if x in used and x not in den]+[x for x in KON if x in used]
    assert used<=set(ORD)
    IX={x:i for i,x in enumerate(ORD)}
    lv={l:len(ORD)+i for i,l in enumerate(logs)}
    n=len(ORD)+len(logs);m=len(den)
    def E(x):
        if x in FIX: return f'.lit {FIX[x]}'
        if x in IX: return f'.var {IX[x]}'
        if x in logs: return f'.add (.var {IX[L]}) (.log (.div (.mul (.var {IX["Mst1"]}) (.var {IX["Mst1"]})) (.mul (.var {IX[other[x]]}) (.var {IX[other[x]]}))))'
        return '.bad'
    s=open(f'/verif/lean/Verif/Hier/{c}P.lean').read()
    regs=[x.split('.')[1].split(' ')[0] for x in re.search(r'def reg .*? := (.*)',s).group(1).split(' ∧ ')]
    t+=f'''namespace {c}

open Laur
open Kron (E eval)

def kC : HConst E := {{
'''+',\n'.join(f'  {x} := '+(f'.var {IX[x]}' if x in IX else '.bad') for x in KON)+' }\n\n'
    t+='/-- the members: three-loop part, no truncation, no logarithm of the top mass, `μ = 0` -/\ndef hC : HMem E := {\n'+',\n'.join(f'  {x} := {E(x)}' for x in MEM)+' }\n\n'
    t+='/-- the members that enter the coefficients -/\ndef hC0 : HMem E := {\n'+',\n'.join(f'  {x} := '+(f'.var {IX[x]}' if x in IX else '.bad') for x in MEM)+' }\n\n'
    sq=lambda x:f'({x} * {x})'
    pts=[('k.' if x in KON else 'L' if x==L else 'h.')+(x if x!=L else '') for x in ORD]+[f'Real.log (h.Mst1 * h.Mst1 / (h.{other[l]} * h.{other[l]}))' for l in logs]
    t+='/-- the values of the variables -/\nnoncomputable def ptC (k : HConst ℝ) (h : HMem ℝ) (L : ℝ) : List ℝ := ['+', '.join(pts)+']\n\n'
    tabl='['+', '.join(f'(.log (.div (.mul (.var {IX["Mst1"]}) (.var {IX["Mst1"]})) (.mul (.var {IX[other[l]]}) (.var {IX[other[l]]}))), .var {lv[l]})' for l in logs)+']'
    cs=' '.join(f'(calc_coef_at_as2_no_sm_logs_log{i} kC hC0)' for i in range(3))
    csr=' '.join(f'(calc_coef_at_as2_no_sm_logs_log{i} k h)' for i in range(3))
    t+=f'''def resE : E := coefRes {cs}
  (.var {IX[L]}) (getS2 kC hC) hC.Mt

def logTab : List (E × E) := {tabl}

set_option maxHeartbeats 1000000 in
theorem checkCoef : zeroB {n} {m} (Kron.subst logTab resE) = true := by decide +kernel

theorem linkCoef (k : HConst ℝ) (h : HMem ℝ) (L : ℝ) : eval (fun _ => 0) (fun i => (ptC k h L).getD i 0) resE =
    coefRes {csr}
      L (getS2 k (h.noSMq L 0)) h.Mt := by krfl

/-- the masses in the denominators do not vanish -/
def regC (h : HMem ℝ) : Prop := {' ∧ '.join(f'h.{x} ≠ 0' for x in ORD[:m])}

theorem coefS2 (k : HConst ℝ) (h : HMem ℝ) (L : ℝ) (r : regC h) :
    12 * getS2 k {{ h.noSM L with MuSUSY := 0 }} / h.Mt ^ 4 = calc_coef_at_as2_no_sm_logs_log0 k h
      + calc_coef_at_as2_no_sm_logs_log1 k h * L + calc_coef_at_as2_no_sm_logs_log2 k h * L ^ 2 - 896 / 3 * L ^ 3 := by
  have z : NZ {m} (ptC k h L) := ⟨{', '.join('r'+'.2'*i+('.1' if i<m-1 else '') for i in range(m))}, trivial⟩
  have e := zeroB_subst (fun _ => 0) checkCoef (ptC k h L) rfl z (by
    intro p hp
    {'simp only [logTab, List.mem_cons, List.not_mem_nil, or_false] at hp' if logs else 'simp [logTab] at hp'}{chr(10)+'    rcases hp with '+' | '.join('rfl' for _ in logs)+' <;> rfl' if len(logs)>1 else chr(10)+'    subst hp; rfl' if logs else ''})
  rw [linkCoef, HMem.noSMq_eq] at e
  exact coefRes_zero e

end {c}

'''
t+='end Himalaya\n'
open(out,'w').write(t)
