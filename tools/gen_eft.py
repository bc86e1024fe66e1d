"""Generates the formula parts of Verif/EFT/Thr.lean and Verif/EFT/Model.lean from the C++ sources."""
import re,sys,textwrap
sys.path.insert(0,'/verif/tools')
from cxx2lean import parse,lean
D='/repo/source/himalaya/mh2_eft/'
thr=open(D+'ThresholdCalculator.cpp').read()
eft=open(D+'Mh2EFTCalculator.cpp').read()
CONST={'oneLoop':'const .oneLoop','twoLoop':'const .twoLoop','threeLoop':'const .threeLoop','sqrt2':'const .sqrt2','Pi':'const .pi','z3':'z3'}
def atom(extra={}):
    def f(n):
        if n in extra: return extra[n]
        if n in CONST: return '('+CONST[n]+')' if ' ' in CONST[n] else CONST[n]
        return n
    return f
def call(n,args,pr):
    n=n.replace('std::','').replace('himalaya::','')
    a=' '.join(pr(x,80) for x in args)
    if re.fullmatch(r'pow(er)?\d+',n):
        return ('pow2' if n=='pow2' else 'Misc.'+n)+' '+a
    return n+' '+a
def conv(s,extra={}):
    return lean(parse(s),atom(extra),call)
def wrap(s,ind='    ',w=126):
    return '\n'.join(textwrap.wrap(s,w,initial_indent=ind,subsequent_indent=ind,break_long_words=False,break_on_hyphens=False))
def lineof(src,i): return src.count('\n',0,i)+1
def case(fn,lim,extra={}):
    i=thr.index('double ThresholdCalculator::'+fn+'(')
    e=thr.index('\n}\n',i)
    j=re.compile(r'case Limits::'+lim+r'\s*:').search(thr,i,e).end()
    r=re.compile(r'\breturn\b').search(thr,j); k=thr.index(';',r.end())
    return conv(thr[r.end():k],extra),lineof(thr,r.start()),lineof(thr,k)
LIM=['GENERAL','MQ3_EQ_MU3','MQ3_EQ_M3','MU3_EQ_M3','MQ3_EQ_MU3_EQ_M3']
NM={'GENERAL':'Gen','MQ3_EQ_MU3':'QU','MQ3_EQ_M3':'QG','MU3_EQ_M3':'UG','MQ3_EQ_MU3_EQ_M3':'QUG'}
def thr_formulas():
    out=[]
    for fn,nm,lims in [('getDeltaYtAlphas','dYtAs',LIM),('getDeltaLambdaAlphat','dLamAt',LIM[:2]),('getDeltaLambdaAlphatAlphas','dLamAtAs',LIM)]:
        for l in lims:
            b,a,z=case(fn,l)
            used=[v for v in ['dilog','m32','mQ32','mU32','m3','mQ3','mU3','Xt','lmQ3MR'] if re.search(r'(?<![\w.])'+v+r'(?![\w])',b)]
            dl='(dilog : F → F) ' if nm=='dLamAtAs' else ''
            out.append(f"/-- `{fn}`, case `{l}`; mh2_eft/ThresholdCalculator.cpp:{a}-{z} -/\ndef {nm}{NM[l]} {dl}(m32 mQ32 mU32 m3 mQ3 mU3 Xt lmQ3MR : F) : F :=\n{wrap(b)}\n")
    return '\n'.join(out)
HEAD='''import Verif.Iface.Model
import Verif.Misc.Model

/-!
# Threshold corrections of O(at as^n): the formulas

Generated by tools/gen_eft.py from source/himalaya/mh2_eft/ThresholdCalculator.cpp.  Each definition is one `case` of one member
function; the local variables it reads are its arguments (`m32 = MG^2`, `m3 = sqrt(m32)`, `mQ32 = mq2(2,2)`, ...).
-/

set_option linter.unusedVariables false

namespace Himalaya.Thr

open FOps
open scoped Himalaya

section
variable {F : Type} [Add F] [Sub F] [Mul F] [Div F] [Neg F] [FOps F]

'''
def norm(e): return re.sub(r'\s+',' ',e)
def balanced(s,i):
    """index after the parenthesis matching s[i]=='('"""
    d=0
    for j in range(i,len(s)):
        if s[j]=='(': d+=1
        if s[j]==')':
            d-=1
            if d==0: return j+1
def strip_comments(s): return re.sub(r'//[^\n]*',lambda m:' '*len(m.group(0)),s)
def split_args(s):
    out=[];d=0;cur='';q=False
    for ch in s:
        if ch=='"': q=not q
        if not q:
            if ch=='(': d+=1
            if ch==')': d-=1
            if ch==',' and d==0:
                out.append(cur);cur='';continue
        cur+=ch
    out.append(cur)
    return [x.strip() for x in out]
THRCALL=re.compile(r'thresholdCalculator\.getThresholdCorrection\(\s*ThresholdCouplingOrders::(\w+),\s*RenSchemes::DRBARPRIME,\s*omitMSSMLogs\)')
PRE={'p.scale':'c.p.scale','p.Mt':'c.p.Mt','p.Mb':'c.p.Mb','p.Mtau':'c.p.Mtau','p.MW':'c.p.MW','p.MZ':'c.p.MZ','p.g1':'c.p.g1','p.g2':'c.p.g2','p.g3':'c.p.g3','p.vu':'c.p.vu','p.vd':'c.p.vd',
     'omitSMLogs':'(ofInt omitSMLogs)','omitMSSMLogs':'(ofInt omitMSSMLogs)','Xi':'1','omitDeltaLambda3L':'(ofInt omitDeltaLambda3L)'}
def ecall(n,args,pr):
    m={'calcV2':'(eftV2 c.p)','calcV':'(eftV c.p)','calcBeta':'(eftBeta c.p)','calcCosBeta':'(eftCosBeta c.p)','calcSinBeta':'(eftSinBeta c.p)','fB':'fB'}
    if n in m: return m[n]+''.join(' '+pr(x,80) for x in args) if args else m[n]
    return call(n,args,pr)
def econv(s): return lean(parse(s),atom(PRE),ecall)
def body(fn):
    i=eft.index('double Mh2EFTCalculator::'+fn+'('); b=eft.index('{',i); e=eft.index('\n}\n',i)
    return strip_comments(eft[b+1:e]),b+1
def cond(s):
    return ' || '.join('c.on .'+re.search(r'CouplingOrders::(\w+)',x).group(1) for x in s.split('||'))
def gen_loop(fn):
    s,base=body(fn)
    L=[];lines=[]
    pos=0
    for m in re.finditer(r'const (double|int) (\w+)\s*=\s*',s):
        k=s.index(';',m.end()); name=m.group(2); rhs=s[m.end():k].strip()
        ln=f'{lineof(eft,base+m.start())}-{lineof(eft,base+k)}'
        if name=='Xi': continue
        if rhs.startswith('CALC_IF('):
            e=balanced(rhs,7); assert e==len(rhs),rhs
            args=split_args(rhs[8:e-1]); assert len(args)==2,args
            c,x=args
            t=THRCALL.fullmatch(x)
            if t: L.append(f'let {name} ← calcIf ({cond(c)}) (thr .{t.group(1)} omitMSSMLogs)'); continue
            assert x.startswith('discardNaN('),x
            x=split_args(x[len('discardNaN('):balanced(x,10)-1])[0]
            t=THRCALL.search(x)
            if t:
                v='t'+name
                L.append(f'let {v} ← calcIf ({cond(c)}) (thr .{t.group(1)} omitMSSMLogs)')
                x=x[:t.start()]+v+x[t.end():]
            L.append(f'let {name} := zeroIf ({cond(c)}) (discardNaN ('+econv(x)+'))')
        elif 'getThresholdCorrection' in rhs:
            t=THRCALL.fullmatch(rhs)
            L.append(f'let {name} ← thr .{t.group(1)} omitMSSMLogs')
        else:
            L.append(f'let {name} := '+econv(rhs))
    r=re.search(r'\breturn\b',s); k=s.index(';',r.end())
    x=s[r.end():k]
    t=THRCALL.search(x)
    if t:
        L.append(f'let tlam ← thr .{t.group(1)} omitMSSMLogs'); x=x[:t.start()]+'tlam'+x[t.end():]
    L.append('return '+econv(x))
    out=[]
    for l in L:
        w=textwrap.wrap(l,124,initial_indent='  ',subsequent_indent='    ',break_long_words=False,break_on_hyphens=False)
        out+=w
    return '\n'.join(out)
if __name__=='__main__':
    open('/verif/lean/Verif/EFT/Formulas.lean','w').write(HEAD+thr_formulas()+'\nend\n\nend Himalaya.Thr\n')
    for f in ['getDeltaMh2EFT1Loop','getDeltaMh2EFT2Loop','getDeltaMh2EFT3Loop']:
        print('===',f); print(gen_loop(f))
