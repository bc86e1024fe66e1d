"""Generates Verif/EFT/Yt6.lean: the O(at^2) threshold correction getDeltaLambdaYt6, from ThresholdCalculator.cpp."""
import sys,re
sys.path.insert(0,'/verif/tools')
from cxx2lean import parse,lean
import gen_other
from gen_other import thr,body,wrap,lineof
VARS=['mQ32','mU32','mQ3','mU3','mA','mA2','Mu','Mu2','sbeta','cbeta','Xt','Yt','Xt2','Xt4','Xt6']
LOGS=('lmQ3MR','lmUMR')
def call(n,args,pr):
    if n=='deltaxyz': return 'deltaxyz '+' '.join(pr(x,80) for x in args)
    if n=='phixyz': return 'phi '+' '.join(pr(x,80) for x in args)
    return gen_other.call(n,args,pr)
def haslog(e):
    if e[0]=='id': return e[1] in LOGS
    if e[0]=='num': return False
    if e[0]=='call': return e[1]=='log' or any(haslog(x) for x in e[2])
    return any(haslog(x) for x in e[1:])
def ids(e):
    if e[0]=='id': return {e[1]}
    if e[0]=='num': return set()
    if e[0]=='call': return {e[1]}.union(*[ids(x) for x in e[2]])
    return set().union(*[ids(x) for x in e[1:]])
def size(e):
    if e[0] in('id','num'): return 1
    if e[0]=='call': return 1+sum(map(size,e[2]))
    return 1+sum(size(x) for x in e[1:])
defs=[]
def piece(e):
    n=len(defs)+1
    v=ids(e); ex=''
    if 'dilog' in v: ex+=' dilog'
    if 'phixyz' in v: ex+=' phi'
    defs.append((n,e,v,ex))
    return ('id','(k%d%s a)'%(n,ex))
def split(e):
    """replace the largest log-free sub-expressions by pieces"""
    if not haslog(e): return piece(e) if size(e)>12 else e
    if e[0] in('id','num'): return e
    if e[0]=='call':
        if e[1]=='log':
            a=e[2][0]
            return {('id','mA2'):('id','lA'),('id','mU32'):('id','lUQ')}[a[1]]
        return ('call',e[1],[split(x) for x in e[2]])
    if e[0]=='neg': return ('neg',split(e[1]))
    return (e[0],split(e[1]),split(e[2]))
def main():
    s,a,z=body('getDeltaLambdaYt6(int omitLogs) const\n{'[:17])
    r=re.findall(r'\breturn\b([^;]*);',s)[-1]
    T=split(parse(r))
    out=[]
    for n,e,v,ex in defs:
        use=[x for x in VARS if x in v]
        sig={'':'',' dilog':' (dilog : F → F)',' phi':' (phi : F → F → F → F)',' dilog phi':' (dilog : F → F) (phi : F → F → F → F)'}[ex]
        L=[f'let {x} := a.{x}' for x in use]
        L=['let ⟨'+'⟩'] if 0 else L
        body_=lean(e,gen_other.atom,call)
        out.append(f'/-- a part of the formula; ThresholdCalculator.cpp:1407-1771 -/\ndef k{n}{sig} (a : Arg F) : F :=\n'+
          '\n'.join(wrap('; '.join(L[i:i+4])+';') for i in range(0,len(L),4))+'\n'+wrap(body_)+'\n')
    def atom2(n):
        if n.startswith('(k'): return n
        if n in VARS: return 'a.'+n
        return gen_other.atom(n)
    f=lean(T,atom2,call)
    out.append('/-- the formula in the general case; ThresholdCalculator.cpp:1407-1771.  The largest subexpressions without logarithms are\nthe parts `k1` … `k33`; `lA` stands for `log(mA2/MR2)`, `lUQ` for `log(mU32/mQ32)`. -/\n'
      'def formula (dilog : F → F) (phi : F → F → F → F) (a : Arg F) (lA lmQ3MR lmUMR lUQ : F) : F :=\n'+wrap(f)+'\n')
    s2,a2,z2=body('getDeltaLambdaYt6_SUSYHD')
    L=[]
    for m in re.finditer(r'const double (\w+)\s*=\s*([^;]*);',s2):
        L.append(f'let {m.group(1)} := '+gen_other.conv(m.group(2)))
    L.append(gen_other.conv(re.findall(r'\breturn\b([^;]*);',s2)[-1]))
    hd=f"/-- `getDeltaLambdaYt6_SUSYHD`; ThresholdCalculator.cpp:{a2}-{z2} -/\ndef TcObj.dLamYt6HD (dilog : F → F) (c : TcObj F) (omitLogs : Int) : F :=\n"+'\n'.join(wrap(l) for l in L)+'\n'
    return out,hd
if __name__=='__main__':
    out,hd=main()
    print('\n'.join(out)); print(hd)
