"""Generates lean/Verif/Hier/<Class>.lean from source/himalaya/hierarchies/<Class>.{hpp,cpp}.

usage: gen_hier.py CLASS OUT.  The expressions are transcribed literally (evaluation order kept); long expressions are cut into
parts.  The script also checks that no division has two integer operands and that integer subexpressions cannot overflow `int`
when every flag is 0 or 1."""
import re,sys
sys.path.insert(0,'/verif/tools'); sys.setrecursionlimit(100000)
from cxx2lean import P,lean
import cxx2lean
KEY={'H3':0,'H32q2g':1,'H3q22g':2,'H4':3,'H5':4,'H5g1':5,'H6':6,'H6b':7,'H6b2qg2':8,'H6bq22g':9,'H6bq2g2':10,'H6g2':11,'H9':12,'H9q2':13}
CONST=['z2','z3','z4','B4','D3','DN','OepS2','S2','T1ep']
BR={'shiftst1','shiftst2','shiftst3','xDR2DRMOD','oneLoopFlag','twoLoopFlag','threeLoopFlag'}
def isflag(n): return n in BR or n=='x' or re.match(r'x[A-Z]|xlm',n)
class PL(P):
    """parser that remembers source lines of the leaves"""
    def __init__(self,s,line0):
        self.t=[];self.ln=[];self.i=0
        pos=0;line=line0
        while True:
            m=cxx2lean.TOK.match(s,pos)
            if not m: break
            line+=s[pos:m.start(m.lastindex)].count('\n')
            pos=m.end()
            k=m.lastindex
            if k==3 and not m.group(3).strip(): continue
            self.t.append((['num','id','op'][k-1],m.group(k))); self.ln.append(line)
    def prim(self):
        l=self.ln[self.i] if self.i<len(self.ln) else 0
        e=P.prim(self)
        if e[0] in('num','id'): return e+(l,)
        if e[0]=='call': return e[:3]+(l,)
        return e
def src(h):
    s=open(f'/repo/source/himalaya/hierarchies/{h}.cpp').read()
    out=[]
    for m in re.finditer(r'^double %s::(\w+)\(\) const \{(.*?)^\}'%h,s,re.S|re.M):
        b=m.group(2)
        if 'const double result' in b:
            r=re.search(r'const double result\s*=(.*?);\s*return result;\s*$',b,re.S)
        else:
            r=re.search(r'^\s*return (.*?);\s*$',b,re.S)
        assert ';' not in r.group(1) and '//' not in r.group(1)
        off=m.start(2)+r.start(1)
        line0=s[:off].count('\n')+1
        p=PL(r.group(1),line0); e=p.expr(); assert p.peek()[0]=='eof'
        l1=s[:m.start()].count('\n')+1; l2=s[:m.end()].count('\n')+1
        out.append((m.group(1),e,(l1,l2)))
    return out
def size(e):
    k=e[0]
    if k in('num','id'): return 1
    if k=='neg': return 1+size(e[1])
    if k=='call': return 1+sum(size(a) for a in e[2])
    return 1+size(e[1])+size(e[2])
def lines(e):
    k=e[0]
    if k in('num','id'): return (e[2],e[2]) if len(e)>2 else None
    if k=='neg': return lines(e[1])
    if k=='call': c=[lines(a) for a in e[2]]
    elif k=='part': return e[2]
    else: c=[lines(e[1]),lines(e[2])]
    c=[x for x in c if x]
    return (min(x[0] for x in c),max(x[1] for x in c)) if c else None
def names(e,s):
    k=e[0]
    if k=='id': s.add(e[1])
    elif k=='neg': names(e[1],s)
    elif k=='call':
        for a in e[2]: names(a,s)
    elif k=='part': s.update(e[3])
    elif k!='num': names(e[1],s);names(e[2],s)
    return s
def ty(e):
    """(is int, lo, hi)"""
    k=e[0]
    if k=='num':
        v=e[1]
        if '.' in v or 'e' in v.lower(): return(False,0,0)
        return(True,int(v),int(v))
    if k=='id': return(True,0,1) if isflag(e[1]) else (False,0,0)
    if k=='neg': i,a,b=ty(e[1]); return(i,-b,-a)
    if k=='call':
        for a in e[2]: ty(a)
        if e[1]!='log':
            assert not ty(e[2][0])[0], 'power of int'
        return(False,0,0)
    i,a,b=ty(e[1]); j,c,d=ty(e[2])
    if i and j:
        assert k!='/','integer division'
        L=[a+c,b+d] if k=='+' else [a-d,b-c] if k=='-' else [a*c,a*d,b*c,b*d]
        lo,hi=min(L),max(L)
        big=max(abs(x) for x in(a,b,c,d))
        lim=2**31 if big<2**31 else 2**63
        assert -lim<lo and hi<lim,('overflow',k,a,b,c,d)
        return(True,lo,hi)
    return(False,0,0)
def main(h,out,LIM=260):
    fs=src(h)
    hpp=open(f'/repo/source/himalaya/hierarchies/{h}.hpp').read()
    mem=[]
    ml=[]
    for i,l in enumerate(hpp.split('\n'),1):
        m=re.match(r'\s*(double|int) (.*?);',l)
        if m and '{}' in l:
            mem+= [x.strip().replace('{}','') for x in m.group(2).split(',')]; ml.append(i)
    used=set()
    for f,e,_ in fs:
        ty(e); names(e,used)
    cst=[c for c in CONST if c in used]
    bad=[u for u in used if u not in mem and u not in CONST]
    assert not bad,bad
    order={n:i for i,n in enumerate(CONST+mem)}
    o=[]
    o.append(f"""import Verif.Hier.Mem

/-!
# Model of the hierarchy class `{h}`

Mechanical transcription (tools/gen_hier.py) of hierarchies/{h}.cpp:{fs[0][2][0]}-{fs[-1][2][1]}.  Every member function is one arithmetic expression in
the members of the class; the expressions are transcribed literally, long ones are cut into numbered parts.  Integer members enter
the expressions as numbers.  The constants `z2`, `z3`, ... of misc/Constants.hpp are arguments.
-/

set_option linter.unusedVariables false

namespace Himalaya

open FOps Misc
open scoped Himalaya

namespace {h}

section
variable {{F : Type}} [Add F] [Sub F] [Mul F] [Div F] [Neg F] [FOps F]
""")
    def call(n,args,pr):
        if n=='log': return 'log '+pr(args[0],76)
        return n+' '+pr(args[0],76)
    for f,e,(l1,l2) in fs:
        parts=[]
        def cut(e):
            """returns e with big subtrees replaced by parts"""
            k=e[0]
            if k in('num','id','part'): return e
            if k=='neg': r=('neg',cut(e[1]))
            elif k=='call': r=('call',e[1],[cut(a) for a in e[2]])
            else: r=(k,cut(e[1]),cut(e[2]))
            if psize(r)>LIM:
                # cut the largest operand of the chain
                return mkpart(r)
            return r
        def psize(e):
            k=e[0]
            if k in('num','id'): return 1
            if k=='part': return 3+len(e[3])//2
            if k=='neg': return 1+psize(e[1])
            if k=='call': return 1+sum(psize(a) for a in e[2])
            return 1+psize(e[1])+psize(e[2])
        def mkpart(r):
            ns=sorted(names(r,set()),key=lambda n:order[n])
            nm=f'{f}_{len(parts)+1}'
            parts.append((nm,ns,r,lines(r)))
            return('part',nm,lines(r),ns)
        top=cut(e)
        def pr(e,prec=0):
            def atom(n): return n
            def go(e,prec=0):
                k=e[0]
                if k=='part':
                    s=e[1]+' '+' '.join(e[3]); return '('+s+')' if prec>75 else s
                if k in cxx2lean.PREC:
                    p=cxx2lean.PREC[k]
                    s=go(e[1],p)+f' {k} '+go(e[2],p+1)
                    return '('+s+')' if p<prec else s
                if k=='neg':
                    s='-'+go(e[1],76); return '('+s+')' if prec>65 else s
                if k=='num':
                    v=cxx2lean.intlit(e[1])
                    if v.denominator==1: return str(v.numerator)
                    s=f'lit ({v.numerator}/{v.denominator})'; return '('+s+')' if prec>=75 else s
                if k=='id': return e[1]
                if k=='call':
                    s=e[1]+' '+go(e[2][0],76); return '('+s+')' if prec>75 else s
            return go(e,prec)
        import textwrap
        def w(s): return '\n'.join(textwrap.wrap(s,118,initial_indent='  ',subsequent_indent='    ',break_long_words=False,break_on_hyphens=False))
        for nm,ns,r,l in parts:
            o.append(f'/-- part of `{h}::{f}`; hierarchies/{h}.cpp:{l[0]}-{l[1]} -/')
            o.append(f'def {nm} ('+' '.join(ns)+' : F) : F :=')
            o.append(w(pr(r))+'\n')
        ns=sorted(names(top,set()),key=lambda n:order[n])
        o.append(f'/-- `{h}::{f}`; hierarchies/{h}.cpp:{l1}-{l2} -/')
        loc=''.join(f'  let {n} := {"k" if n in CONST else "h"}.{n}\n' for n in ns)
        args='(k : HConst F) (h : HMem F)'
        body=pr(top)
        if ns:
            o.append(f'def {f}Of ('+' '.join(ns)+' : F) : F :=\n'+w(body)+'\n')
            o.append(f'@[inherit_doc {f}Of] def {f} {args} : F :=\n'+w(f'{f}Of '+' '.join(('k.' if n in CONST else 'h.')+n for n in ns))+'\n')
        else:
            o.append(f'def {f} {args} : F :=\n'+w(body)+'\n')
    o.append('end\n\nend '+h+'\n\nend Himalaya')
    open(out,'w').write('\n'.join(o)+'\n')
if __name__=='__main__': main(sys.argv[1],sys.argv[2],int(sys.argv[3]) if len(sys.argv)>3 else 260)
