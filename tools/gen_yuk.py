"""Generates Verif/EFT/Yuk*.lean: the two-loop threshold corrections with bottom and tau Yukawa couplings, from ThresholdCalculator.cpp.

For each function the last `return` statement (general case) becomes `formula` on a structure `Arg` whose fields are the local
variables and the values of the calls of log, dilog, phixyz, std::abs and std::pow which occur in it."""
import sys,re
sys.path.insert(0,'/verif/tools')
from cxx2lean import parse,lean
import gen_other
from gen_other import body,wrap,conv
FN=[('getDeltaLambdaYb4G32','dLamYb4G32','Yb4G32'),('getDeltaLambdaYb6','dLamYb6','Yb6'),('getDeltaLambdaYtau6','dLamYtau6','Ytau6'),
    ('getDeltaLambdaYt2Yb4','dLamYt2Yb4','Yt2Yb4'),('getDeltaLambdaYt4Yb2','dLamYt4Yb2','Yt4Yb2')]
SMALL=[('getDeltaLambdaYtau4Yb2','dLamYtau4Yb2'),('getDeltaLambdaYtau2Yb4','dLamYtau2Yb4')]
def nm(e):
    if e[0]=='id': return e[1].replace('32','').replace('3','').replace('2','') if 0 else e[1]
    if e[0]=='num': return e[1].replace('.','')
    if e[0]=='call':
        if e[1]=='pow2' and e[2][0][0]=='id': return e[2][0][1]+'2'
        return e[1].replace('std::','')+'_'+'_'.join(nm(x) for x in e[2])
    if e[0]=='/': return nm(e[1])+'_'+nm(e[2])
    if e[0]=='-' and e[1]==('num','1'): return nm(e[2])
    raise Exception(e)
VALS=('log','dilog','phixyz','std::abs','std::pow','pow','std::log')
def call(n,args,pr):
    if n=='deltaxyz': return 'Yt6.deltaxyz '+' '.join(pr(x,80) for x in args)
    if n in('std::abs','abs'): return 'abs '+pr(args[0],80)
    if n in('std::pow','pow'):
        assert args[1]==('num','1.5'); return pr(args[0],75)+' * sqrt '+pr(args[0],80)
    return gen_other.call(n,args,pr)
def cv(e): return lean(e,gen_other.atom,call)
def lift(e,vals):
    if e[0] in('id','num'): return e
    if e[0]=='call':
        if e[1] in VALS:
            k=nm(e); vals.setdefault(k,e); return ('id',k)
        return ('call',e[1],[lift(x,vals) for x in e[2]])
    if e[0]=='neg': return ('neg',lift(e[1],vals))
    return (e[0],lift(e[1],vals),lift(e[2],vals))
def ids(e):
    if e[0]=='id': return {e[1]}
    if e[0]=='num': return set()
    if e[0]=='call': return set().union(*[ids(x) for x in e[2]])
    return set().union(*[ids(x) for x in e[1:]])
def cond(s):
    s=s.strip()
    parts=[x.strip() for x in s.split('&&')]
    out=[]
    for x in parts:
        m=re.fullmatch(r'std::abs\((.*)\)\s*<\s*(.*)',x)
        out.append('lt (abs (%s)) %s'%(conv(m.group(1)),lean(parse(m.group(2)),gen_other.atom,call,80)))
    return ' && '.join(out)
def stmts(s):
    """splits a function body into ('let',n,e) ('if',cond,body) ('ret',e)"""
    out=[];i=0
    while i<len(s):
        m=re.compile(r'\s*(using[^;]*;)').match(s,i)
        if m: i=m.end(); continue
        m=re.compile(r'\s*const double (\w+)\s*=\s*([^;]*);').match(s,i)
        if m: out.append(('let',m.group(1),m.group(2))); i=m.end(); continue
        m=re.compile(r'\s*return\b([^;]*);').match(s,i)
        if m: out.append(('ret',m.group(1))); i=m.end(); continue
        m=re.compile(r'\s*(?:else\s*)?if\s*\(').match(s,i)
        if m:
            j=m.end();d=1
            while d:
                d+={'(':1,')':-1}.get(s[j],0); j+=1
            c=s[m.end():j-1]
            b=s.index('{',j)+1; k=b; d=1
            while d:
                d+={'{':1,'}':-1}.get(s[k],0); k+=1
            out.append(('if',c,stmts(s[b:k-1]))); i=k; continue
        assert not s[i:].strip(),s[i:i+80]
        break
    return out
def used(e): return ids(parse(e))
def dropunused(ss):
    return ss
def emit(ss,ind,last,ns):
    L=[]
    pad='  '*ind
    for t in ss:
        if t[0]=='let': L.append(wrap(f'let {t[1]} := '+cv(parse(t[2])),pad,pad+'  '))
        elif t[0]=='if':
            L.append(wrap('if '+cond(t[1])+' then',pad,pad+'  '))
            L+=emit(t[2],ind+1,False,ns)
            L.append(pad+'else')
        else:
            if last:
                L.append(pad+f'{ns}.formula\n'+wrap(last,pad+'  ',pad+'    ').replace('\xa0',' '))
            else: L.append(wrap(cv(parse(t[1])),pad,pad+'  '))
    return L
def big(fn,name,ns):
    s,a,z=body(fn)
    ss=stmts(s)
    ret=ss[-1][1]
    vals={}
    e=lift(parse(ret),vals)
    i=sorted(x for x in ids(e) if x!='Pi' and x not in vals)
    flds=i+list(vals)
    out=[f'namespace {ns}\n',f'/-- local variables of `{fn}` and values of the functions called in the last `return` statement; ThresholdCalculator.cpp:{a}-{z} -/\nstructure Arg (F : Type) where']
    for x in i: out.append(f'  {x} : F')
    for x in vals: out.append(f'  /-- `{cv(vals[x])}` -/\n  {x} : F')
    def atom(n):
        if n=='Pi': return '(const .pi)'
        return 'a.'+n
    r0=s.rfind('return'); ln=a+s[:r0].count('\n')
    import gen_eft
    out.append('')
    out.append(f'/-- the general formula, the last `return` statement of `{fn}`; ThresholdCalculator.cpp:{ln}-{z-1} -/\ndef formula (a : Arg F) : F :=\n'+wrap(lean(e,atom,call))+'\n')
    out.append(f'end {ns}\n')
    args='{ '+', '.join(f'{x}\xa0:=\xa0{x}' for x in i)+', '+', '.join(f'{x} := {cv(vals[x])}'.replace(' ','\xa0') for x in vals)+' }'
    sig=''
    if any(x.startswith('dilog') for x in vals): sig+=' (dilog : F → F)'
    if any(x.startswith('phi') for x in vals): sig+=' (phi : F → F → F → F)'
    out.append(f'/-- `{fn}`; ThresholdCalculator.cpp:{a}-{z} -/\ndef TcObj.{name}{sig} (c : TcObj F) (omitLogs : Int) : F :=\n'+'\n'.join(emit(ss,1,args,ns))+'\n')
    return '\n'.join(out)
def small(fn,name):
    s,a,z=body(fn)
    return f'/-- `{fn}`; ThresholdCalculator.cpp:{a}-{z} -/\ndef TcObj.{name} (c : TcObj F) (omitLogs : Int) : F :=\n'+'\n'.join(emit(stmts(s),1,None,''))+'\n'
HEAD='''import Verif.EFT.Yt6

/-!
# Model of the two-loop threshold corrections with bottom and tau Yukawa couplings

Mechanical transcription (tools/gen_yuk.py) of `getDeltaLambdaYb4G32`, `getDeltaLambdaYb6`, `getDeltaLambdaYtau6`,
`getDeltaLambdaYt2Yb4`, `getDeltaLambdaYt4Yb2`, `getDeltaLambdaYtau4Yb2` and `getDeltaLambdaYtau2Yb4`.  The dilogarithm and `phixyz`
are arguments.  Simplification: `std::pow(x, 1.5)` is modelled as `x * sqrt x`.
-/

set_option linter.unusedVariables false

namespace Himalaya

open FOps
open scoped Himalaya

section
variable {F : Type} [Add F] [Sub F] [Mul F] [Div F] [Neg F] [FOps F]
'''
TAIL='''/-- `getThresholdCorrection` for the two-loop corrections with bottom and tau Yukawa couplings; ThresholdCalculator.cpp:294-411.
`getDeltaVevG12` and `getDeltaVevG22` return NaN (lines 886-900; here `0/0`).  All other orders are handled by the functions which
call this one, so that the last case (the `default` of the `switch`, which returns 0) is not reached. -/
def yukFns (dilog : F → F) (phi : F → F → F → F) (c : TcObj F) (o : ThrOrder) (n : Int) : Except String F :=
  match o with
  | .LAMBDA_YB4_G32 => .ok (c.dLamYb4G32 dilog n)
  | .LAMBDA_YB6 => .ok (c.dLamYb6 dilog phi n)
  | .LAMBDA_YTAU6 => .ok (c.dLamYtau6 dilog phi n)
  | .LAMBDA_YT2_YB4 => .ok (c.dLamYt2Yb4 dilog phi n)
  | .LAMBDA_YT4_YB2 => .ok (c.dLamYt4Yb2 dilog phi n)
  | .LAMBDA_YTAU4_YB2 => .ok (c.dLamYtau4Yb2 n)
  | .LAMBDA_YTAU2_YB4 => .ok (c.dLamYtau2Yb4 n)
  | .VEV_G12 => .ok (0 / 0)
  | .VEV_G22 => .ok (0 / 0)
  | _ => .ok 0

/-- all threshold corrections -/
def thrFns4 (dilog : F → F) (phi : F → F → F → F) : ThrFns F := thrFns3 dilog phi (yukFns dilog phi)

end

end Himalaya
'''
if __name__=='__main__':
    print(HEAD)
    for f in FN: print(big(*f))
    for f in SMALL: print(small(*f))
    print(TAIL)
