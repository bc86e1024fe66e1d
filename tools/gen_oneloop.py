"""Generates lean/Verif/FO/OneLoop.lean from mh2_fo/MSSM_mass_eigenstates.cpp (the one-loop self-energies)."""
import re,sys
sys.path.insert(0,'/verif/tools')
from cxx2lean import parse,lean
src=open('/repo/source/himalaya/mh2_fo/MSSM_mass_eigenstates.cpp').read().split('\n')
def find(pat,start=0):
    for i in range(start,len(src)):
        if re.search(pat,src[i]): return i
funcs=[('full','delta_mh2_1loop\\(double p2\\)'),('gl','::delta_mh2_1loop_gaugeless\\(\\)'),('dv','::delta_mh2_1loop_gaugeless_deriv\\(\\)')]
MASS={'M2VWm','M2VZ','MFt','MFb','MFtau','M2SveL','M2SvmL','M2SvtL'}
V2={'M2Su','M2Sd','M2Sc','M2Ss','M2St','M2Sb','M2Se','M2Sm','M2Stau','M2hh','M2Ah','M2Hpm','MCha'}
M2={'ZU','ZD','ZC','ZS','ZT','ZB','ZE','ZM','ZTau','ZH','ZA','ZP','UM','UP'}
PAR={'g1':'p.g1','g2':'p.g2','yt':'p.Yu 2 2','yb':'p.Yd 2 2','ytau':'p.Ye 2 2','vu':'p.vu','vd':'p.vd','mu':'p.mu','At':'p.Au 2 2','Ab':'p.Ad 2 2','Atau':'p.Ae 2 2'}
out=[]; names={}
def gen(pref,a,b):
    # local variable declarations are checked against the expected meaning
    obj='masses' if pref=='full' else 'gaugeless'
    for i in range(a,b):
        m=re.match(r'\s*const auto (\w+)\s*= (.*);',src[i])
        if m:
            n,v=m.groups()
            if n in PAR:
                want=re.sub(r' 2 2','(2,2)',PAR[n].replace('p.','pars.'))
                if n in('yb','ytau') and pref!='full': want='orders.at(CouplingOrders::ONLY_AT_AS) == 1 ? 0. : '+want
                assert v==want,(n,v,want)
            else: assert v==obj+'.'+n,(n,v)
    def atom(n):
        if n=='sqrt2': return 'const .sqrt2'.join('()')
        if n=='sqrt15': return '(const .sqrt15)'
        if n in('yb','ytau') and pref!='full': return n
        if n in PAR:
            return PAR[n] if ' ' not in PAR[n] else '('+PAR[n]+')'
        if n in MASS: return 's.'+n
        if n in('p2','gI1','gI2'): return n
        raise Exception(n)
    def call(f,args,pr):
        if f in V2: return f's.{f}.at {pr(args[0],76)}'
        if f in M2: return f's.{f}.at {pr(args[0],76)} {pr(args[1],76)}'
        if f=='MChi': return f's.MChi {pr(args[0],76)}'
        if f=='ZN': return f's.ZN {pr(args[0],76)} {pr(args[1],76)}'
        if f=='sqr': return 'pow2 '+pr(args[0],76)
        if f=='pow4': return 'fpow4 '+pr(args[0],76)
        if f in('A0','B0','D1B0'): return 'L.'+f+' '+' '.join(pr(x,76) for x in args)
        if f=='SUM':
            assert args[1]==('num','0')
            n={'1':'sum2','3':'sum4'}[args[2][1]]
            return f'{n} fun {args[0][1]} => '+pr(args[3])
        raise Exception(f)
    # the printer wraps calls in parens whenever prec>75; SUM bodies extend far right, so always parenthesise SUM
    def call2(f,args,pr):
        s=call(f,args,pr)
        return s
    counts={}
    for i in range(a,b):
        m=re.match(r'\s*(se\d\d) \+= (.*);\s*$',src[i])
        if not m: continue
        se,ex=m.groups()
        k=counts.get(se,0); counts[se]=k+1
        nm=f'{pref}{se[2:]}_{k}'
        names.setdefault(pref+se[2:],[]).append((nm,ex))
        body=lean_sum(parse(ex),atom,call2)
        args='(L : LoopFns F) (s : Spec F) (p : Params F)'
        if pref=='full': args+=' (p2 : F)'
        else: args+=' (yb ytau : F)'
        out.append(f'/-- mh2_fo/MSSM_mass_eigenstates.cpp:{i+1} -/\ndef {nm} {args} : F :=\n  {body}\n')
def lean_sum(e,atom,call):
    def call3(f,a,pr):
        s=call(f,a,pr)
        return '('+s+')' if f=='SUM' else s
    s=lean(e,atom,call3)
    return s
for j,(pref,pat) in enumerate(funcs):
    a=find(pat)
    b=find(r'^}',a)
    gen(pref,a,b)
hdr='''import Verif.FO.Spectrum

/-!
# The one-loop Higgs self-energies

Models `delta_mh2_1loop`, `delta_mh2_1loop_gaugeless` and `delta_mh2_1loop_gaugeless_deriv` of
source/himalaya/mh2_fo/MSSM_mass_eigenstates.cpp.  One definition per `se.. += ..` statement; generated by
tools/gen_oneloop.py.  `pars.Yd(2,2)` etc. of the local declarations are substituted; the loop integrals `A0`, `B0`, `D1B0` are
a parameter (`LoopFns`).
-/

set_option linter.unusedVariables false

namespace Himalaya

open FOps
open scoped Himalaya

/-- `MSSM_mass_eigenstates::A0`, `B0`, `D1B0` (the renormalization scale is fixed); mh2_fo/MSSM_mass_eigenstates.cpp:674-688 -/
structure LoopFns (F : Type) where
  A0 : F → F
  B0 : F → F → F → F
  D1B0 : F → F → F

section
variable {F : Type} [Add F] [Sub F] [Mul F] [Div F] [Neg F] [FOps F]

/-- `pow4`; misc/Powers.hpp -/
def fpow4 (x : F) : F := pow2 (pow2 x)
/-- `SUM(i,0,1,f(i))`; mh2_fo/Sum.hpp:93-101 -/
def sum2 (f : Fin 2 → F) : F := 0 + f 0 + f 1
/-- `SUM(i,0,3,f(i))`; mh2_fo/Sum.hpp:93-101 -/
def sum4 (f : Fin 4 → F) : F := 0 + f 0 + f 1 + f 2 + f 3
/-- `double se{0.}; se += ..; se += ..;` -/
def accumulate (l : List F) : F := l.foldl (fun a b => a + b) 0

'''
res=hdr+'\n'.join(out)
for pref in('full','gl','dv'):
    for se in('11','12','22'):
        ns=names[pref+se]
        args='(L : LoopFns F) (s : Spec F) (p : Params F)'
        call='L s p p2' if pref=='full' else 'L s p yb ytau'
        args+=' (p2 : F)' if pref=='full' else ' (yb ytau : F)'
        items=[f'{n} {call}' for n,_ in ns]
        lines=[];cur='   '
        for it in items:
            if len(cur)+len(it)+2>120: lines.append(cur); cur='   '
            cur+=' '+it+','
        lines.append(cur)
        body='\n'.join(lines).rstrip(',')
        res+=f'\n/-- the terms added to `se{se}` -/\ndef {pref}{se} {args} : List F := [\n{body}]\n'
res+='''
/-- `delta_mh2_1loop`; mh2_fo/MSSM_mass_eigenstates.cpp:199-328.  `s` is `masses`, `p` is `pars`. -/
def deltaMh1L (L : LoopFns F) (s : Spec F) (p : Params F) (p2 : F) : Mat2 F :=
  let se12 := accumulate (full12 L s p p2)
  ⟨accumulate (full11 L s p p2) * const .oneLoop, se12 * const .oneLoop, se12 * const .oneLoop,
   accumulate (full22 L s p p2) * const .oneLoop⟩

/-- `delta_mh2_1loop_gaugeless`; mh2_fo/MSSM_mass_eigenstates.cpp:340-411.  `s` is `gaugeless`; `onlyAtAs` is
`orders.at(CouplingOrders::ONLY_AT_AS) == 1`. -/
def deltaMh1LGaugeless (L : LoopFns F) (s : Spec F) (p : Params F) (onlyAtAs : Bool) : Mat2 F :=
  let yb := if onlyAtAs then 0 else p.Yd 2 2
  let ytau := if onlyAtAs then 0 else p.Ye 2 2
  let se12 := accumulate (gl12 L s p yb ytau)
  ⟨accumulate (gl11 L s p yb ytau) * const .oneLoop, se12 * const .oneLoop, se12 * const .oneLoop,
   accumulate (gl22 L s p yb ytau) * const .oneLoop⟩

/-- `delta_mh2_1loop_gaugeless_deriv`; mh2_fo/MSSM_mass_eigenstates.cpp:424-486 -/
def deltaMh1LDeriv (L : LoopFns F) (s : Spec F) (p : Params F) (onlyAtAs : Bool) : Mat2 F :=
  let yb := if onlyAtAs then 0 else p.Yd 2 2
  let ytau := if onlyAtAs then 0 else p.Ye 2 2
  let se12 := accumulate (dv12 L s p yb ytau)
  ⟨accumulate (dv11 L s p yb ytau) * const .oneLoop, se12 * const .oneLoop, se12 * const .oneLoop,
   accumulate (dv22 L s p yb ytau) * const .oneLoop⟩

end
end Himalaya
'''
open('/verif/lean/Verif/FO/OneLoop.lean','w').write(res)
import json
json.dump(names,open('/tmp/oneloop_names.json','w'))
