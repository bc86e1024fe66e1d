#!/usr/bin/env python3
# Generates lean/Verif/EFT/UnitsF.lean: weights of the formulas of the threshold corrections under a change of the units of mass.
import re
L='/verif/lean/Verif/EFT/'
def dim(v):
    if v.startswith(('log','dilog','phixyz','lm','lMR','lA','lUQ')) or v in('z3','dlatas2Const','sbeta','cbeta','sbe','cbe'): return 0
    if re.fullmatch(r'(X|Y)(t|b|tau)[2-6]?',v): return int(v[-1]) if v[-1].isdigit() else 1
    if v in ('Mu','mA','M','abs_Mu','m3','mQ3','mU3','mD3','mE3','mL3','msq'): return 1
    if v in ('Mu2','mA2','m32','mQ32','mU32','mD32','mE32','mL32','msq2'): return 2
    if v=='pow_Mu2_15': return 3
    raise Exception(v)
out=[]
# 1. formulas of the orders at, at as, at as^2
def thr(fn):
    for l in open(L+fn):
        m=re.match(r'def (\w+) (\(dilog : F → F\) )?\(([\w ]+) : F\) : F :=',l)
        if not m: continue
        n,dl,vs=m.group(1),bool(m.group(2)),m.group(3).split()
        d=' dl' if dl else ''; dE=' E.dilog' if dl else ''
        ev=' '.join(f'(.var {i})' for i in range(len(vs)))
        xs=' '.join(vs); xs1=' '.join(v+"'" for v in vs)
        la=', '.join(vs); la1=', '.join(v+"'" for v in vs)
        ws=[dim(v) for v in vs]
        out.append(f'''theorem {n}_units (dl : ℝ → ℝ) {{l : ℝ}} (hl : l ≠ 0) {{{xs} {xs1} : ℝ}}
    (h : Scaled l {ws} [{la}] [{la1}]) : Thr.{n}{d} {xs1} = Thr.{n}{d} {xs} := by
  have e : ∀ {xs} : ℝ, Thr.{n}{d} {xs} = eval dl (env [{la}]) (Thr.{n}{dE} {ev}) := fun {xs} => by krfl
  rw [e, e]
  exact homog dl hl (zpow_zero l) h (by decide +kernel)
''')
thr('Formulas.lean'); thr('Formulas2.lean')
# 2. formulas with bottom, tau and top Yukawa couplings
yuk=open(L+'Yuk.lean').read()
def args(src,ns):
    i=src.index('namespace '+ns+'\n') if ns else 0
    j=src.index('structure Arg',i); k=src.index('\n\n',j)
    return re.findall(r'^  (\w+) : F$',src[j:k],re.M)
for ns in ['Yb6','Yt2Yb4','Yt4Yb2']:
    vs=args(yuk,ns); ws=[dim(v) for v in vs]
    out.append(f'''theorem {ns}_units (a b : {ns}.Arg ℝ) {{l : ℝ}} (hl : l ≠ 0)
    (h : Scaled l {ws} [{', '.join('a.'+v for v in vs)}]
      [{', '.join('b.'+v for v in vs)}]) : {ns}.formula b = {ns}.formula a := by
  have e : ∀ a : {ns}.Arg ℝ, {ns}.formula a = eval id (env [{', '.join('a.'+v for v in vs)}])
      ({ns}.formula ⟨{', '.join(f'.var {i}' for i in range(len(vs)))}⟩) := fun a => by krfl
  rw [e, e]
  exact homog id hl (zpow_zero l) h (by decide +kernel)
''')
y6=open(L+'Yt6.lean').read()
vs=args(y6,None)
n=len(vs)
ws=[dim(v) for v in vs]+[0]*8
idx={v:i for i,v in enumerate(vs)}
la=', '.join('a.'+v for v in vs)+', lA, lQ, lm, L, phi a.mA2 a.mU32 a.mQ32, phi a.mA2 a.mQ32 a.mQ32, phi a.mA2 a.mU32 a.mU32, phi a.mA2 a.mQ32 a.mU32'
A,Q,U=idx['mA2'],idx['mQ32'],idx['mU32']
out.append(f'''/-- `phixyz` in `Yt6.formula` -/
def phiE : E → E → E → E
  | .var {A}, .var {U}, .var {Q} => .var {n+4}
  | .var {A}, .var {Q}, .var {Q} => .var {n+5}
  | .var {A}, .var {U}, .var {U} => .var {n+6}
  | .var {A}, .var {Q}, .var {U} => .var {n+7}
  | _, _, _ => .bad

theorem Yt6_units (dl : ℝ → ℝ) (phi : ℝ → ℝ → ℝ → ℝ) (a b : Yt6.Arg ℝ) (lA lQ lm L : ℝ) {{l : ℝ}} (hl : l ≠ 0)
    (h : Scaled l {ws} [{la}]
      [{la.replace('a.','b.')}]) :
    Yt6.formula dl phi b lA lQ lm L = Yt6.formula dl phi a lA lQ lm L := by
  have e : ∀ (a : Yt6.Arg ℝ), Yt6.formula dl phi a lA lQ lm L = eval dl (env [{la}])
      (Yt6.formula E.dilog phiE ⟨{', '.join(f'.var {i}' for i in range(n))}⟩ (.var {n}) (.var {n+1}) (.var {n+2}) (.var {n+3})) := fun a => by krfl
  rw [e, e]
  exact homog dl hl (zpow_zero l) h (by decide +kernel)
''')
# 3. limit formulas inside of the functions
def branches(fn):
    i=yuk.index('def TcObj.'+fn); j=yuk.index('\n\n',i)
    body=yuk[i:j].split('\n')[1:]
    lets=[]; res=[]; k=0; cond=None; cur=None
    for l in body:
        if re.match(r'  if ',l): cond=l.strip()[3:-5]; cur=[]; continue
        if l=='  else': res.append((cond,cur)); cond=None; cur=[]; continue
        if cur is None: lets.append(l)
        else: cur.append(l)
    res.append((None,cur))
    return lets,res
KW={'lit','pow2','Misc','pow3','pow4','pow5','pow6','log','const','pi','let','sqrt','exact','dilog','ofInt','omitLogs'}
defs=[]
for fn,pre in [('dLamYb6','Yb6'),('dLamYt2Yb4','Yt2Yb4'),('dLamYt4Yb2','Yt4Yb2'),('dLamYtau4Yb2','Ytau4Yb2'),('dLamYtau2Yb4','Ytau2Yb4')]:
    lets,res=branches(fn)
    eqn=lets[:]
    for b,(cond,t) in enumerate(res):
        txt='\n'.join(t)
        if '.formula' in txt: eqn+=t; continue
        inner=[l for l in t if re.match(r'\s*let M ',l)]
        t2=[l for l in t if l not in inner]
        txt='\n'.join(t2)
        bound=re.findall(r'let (\w+) :=',txt)
        ids=[x for x in dict.fromkeys(re.findall(r"[A-Za-z_]\w*",re.sub(r'Misc\.pow\d','',txt))) if x not in KW and x not in bound]
        nm=f'{pre}_l{b}'
        ws=[dim(v) for v in ids]
        xs=' '.join(ids); xs1=' '.join(v+"'" for v in ids)
        la=', '.join(ids); la1=', '.join(v+"'" for v in ids)
        body='\n'.join('  '+l.strip() if i==0 or re.match(r'\s*(let \w+ :=|exact$)',l) else l for i,l in enumerate(t2))
        # dedent: keep the structure of lets
        lines=[]
        for l in t2:
            s=l.strip()
            lines.append(s)
        # join continuation lines
        stm=[]
        base=min(len(l)-len(l.lstrip()) for l in t2)
        for l in t2:
            if len(l)-len(l.lstrip())==base: stm.append(l.strip())
            else: stm[-1]+=' '+l.strip()
        if stm[-1]=='exact':
            stm=[s for s in stm[:-1]]
            stm[-1]=re.sub(r'^let exact := ','',stm[-1])
        body='\n'.join('  '+s for s in stm)
        eqn+=([f'  if {cond} then']+inner+['    '+nm+' '+xs,'  else'] if cond is not None else ['  '+nm+' '+xs])
        defs.append((nm,ids))
        out.append(f'''section
open FOps
open scoped Himalaya
variable {{F : Type}} [Add F] [Sub F] [Mul F] [Div F] [Neg F] [FOps F]
/-- the formula of a branch of `{fn}` ({'last case' if cond is None else cond}); see `TcObj.{fn}` -/
def {nm} ({xs} : F) : F :=
{body}
end
theorem {nm}_units {{l : ℝ}} (hl : l ≠ 0) {{{xs} {xs1} : ℝ}}
    (h : Scaled l {ws} [{la}] [{la1}]) : {nm} {xs1} = {nm} {xs} := by
  have e : ∀ {xs} : ℝ, {nm} {xs} = eval id (env [{la}]) ({nm} {' '.join(f'(.var {i})' for i in range(len(ids)))}) := fun {xs} => by krfl
  rw [e, e]
  exact homog id hl (zpow_zero l) h (by decide +kernel)
''')
    sig='(dilog : F → F) (phi : F → F → F → F) ' if fn in ('dLamYb6','dLamYt2Yb4','dLamYt4Yb2') else ''
    ap='dilog phi ' if sig else ''
    out.append(f'''section
open FOps
open scoped Himalaya
variable {{F : Type}} [Add F] [Sub F] [Mul F] [Div F] [Neg F] [FOps F]
theorem {fn}_eq {sig}(c : TcObj F) (omitLogs : Int) : c.{fn} {ap}omitLogs = (
'''+'\n'.join(eqn)+'''
  ) := rfl
end
''')
hdr='''import Verif.Kron.Weight
import Verif.Kron.LaurentKeys
import Verif.EFT.Yuk

/-!
# Mass dimension of the formulas of the threshold corrections

Generated by `tools/gen_units.py` from the model: each formula has mass dimension zero, i.e. it does not change if its arguments are
multiplied by the powers of `l` given by their mass dimensions.
-/

set_option linter.unusedVariables false
set_option maxRecDepth 20000

namespace Himalaya.Units

open Kron

'''
s=hdr+'\n'.join(out)+'\nend Himalaya.Units\n'
# break long lines of definitions
import textwrap
res=[]
for l in s.split('\n'):
    if len(l)>140 and not l.startswith('theorem') and not l.startswith('    (h :') and '⟨' not in l:
        ind=len(l)-len(l.lstrip())
        w=textwrap.wrap(l.strip(),125,break_long_words=False,break_on_hyphens=False)
        res.append(' '*ind+w[0]); res+= [' '*(ind+4)+x for x in w[1:]]
    else: res.append(l)
open(L+'UnitsF.lean','w').write('\n'.join(res))
