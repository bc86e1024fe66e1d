from fractions import Fraction as Fr
import io,contextlib,re
with contextlib.redirect_stdout(io.StringIO()):
    exec(open('/verif/tools/gen_eft.py').read())
class P:
    """polynomial: dict of sorted tuple ((var,exp),...) -> Fraction"""
    __slots__=('d',)
    def __init__(s,d=None): s.d=d or {}
    @staticmethod
    def c(x):
        x=Fr(x); return P({():x}) if x else P()
    @staticmethod
    def v(n): return P({((n,1),):Fr(1)})
    def __add__(a,b):
        d=dict(a.d)
        for k,x in b.d.items():
            y=d.get(k,0)+x
            if y: d[k]=y
            else: d.pop(k,None)
        return P(d)
    def __neg__(a): return P({k:-x for k,x in a.d.items()})
    def __sub__(a,b): return a+(-b)
    def __mul__(a,b):
        d={}
        for k,x in a.d.items():
            kd=dict(k)
            for l,y in b.d.items():
                m=dict(kd)
                for v,e in l: m[v]=m.get(v,0)+e
                t=tuple(sorted(m.items()))
                z=d.get(t,0)+x*y
                if z: d[t]=z
                else: d.pop(t,None)
        return P(d)
    def __pow__(a,n):
        r=P.c(1)
        for _ in range(n): r=r*a
        return r
    def iszero(a): return not a.d
    def __eq__(a,b): return a.d==b.d
    def coeffs(a,v):
        r={}
        for k,x in a.d.items():
            e=dict(k).get(v,0); l=tuple(t for t in k if t[0]!=v)
            r.setdefault(e,P()).d[l]=x
        return r
    def div(a,f,v):
        """exact division by f, as polynomials in v with f's leading coeff (in v) a constant; None if not exact"""
        fc=f.coeffs(v); n=max(fc); lc=fc[n]
        assert list(lc.d)==[()],lc.d
        lc=lc.d[()]
        q=P(); r=a
        while not r.iszero():
            rc=r.coeffs(v); m=max(rc)
            if m<n: return None
            t=rc[m]*P.c(1/lc)*(P.v(v)**(m-n) if m>n else P.c(1))
            q=q+t; r=r-t*f
        return q
    def show(a,order=None):
        if not a.d: return '0'
        out=[]
        for k,x in sorted(a.d.items(),key=lambda t:(sum(e for _,e in t[0]),t[0])):
            m=' * '.join((v if e==1 else '%s ^ %d'%(v,e)) for v,e in k)
            s='-' if x<0 else '+'; x=abs(x)
            n='' if (x==1 and m) else ('%d'%x.numerator if x.denominator==1 else '%d / %d'%(x.numerator,x.denominator))
            if n and m and '/' in n: n='('+n+')'
            out.append((s,' * '.join(t for t in (n,m) if t)))
        s=('-' if out[0][0]=='-' else '')+out[0][1]
        for g,t in out[1:]: s+=' %s %s'%(g,t)
        return s
class RF:
    """num / prod factor^pow; F: dict name -> (poly, main var)"""
    F={}
    def __init__(s,n,d=None): s.n=n; s.d=dict(d or {})
    def __add__(a,b):
        d={k:max(a.d.get(k,0),b.d.get(k,0)) for k in set(a.d)|set(b.d)}
        def up(x):
            n=x.n
            for k,e in d.items():
                m=e-x.d.get(k,0)
                if m: n=n*RF.F[k][0]**m
            return n
        return RF(up(a)+up(b),d).red()
    def __neg__(a): return RF(-a.n,a.d)
    def __sub__(a,b): return a+(-b)
    def __mul__(a,b):
        d=dict(a.d)
        for k,e in b.d.items(): d[k]=d.get(k,0)+e
        return RF(a.n*b.n,d).red()
    def red(s):
        if s.n.iszero(): return RF(P())
        for k in list(s.d):
            while s.d[k]>0:
                q=s.n.div(*RF.F[k])
                if q is None: break
                s.n=q; s.d[k]-=1
            if s.d[k]==0: del s.d[k]
        return s
    def inv(s):
        n=s.n; d={}
        for k,(f,v) in RF.F.items():
            while True:
                q=n.div(f,v)
                if q is None: break
                n=q; d[k]=d.get(k,0)+1
        assert list(n.d)==[()],('cannot invert',n.show())
        num=P.c(1/n.d[()])
        for k,e in s.d.items(): num=num*RF.F[k][0]**e
        return RF(num,d).red()
    def __pow__(a,n):
        r=RF(P.c(1))
        for _ in range(n): r=r*a
        return r
def lift(x): return x if isinstance(x,RF) else RF(x)
def ev(e,env,funs):
    k=e[0]
    if k=='num': return RF(P.c(Fr(e[1])))
    if k=='id': return lift(env[e[1]])
    if k=='neg': return -ev(e[1],env,funs)
    if k=='call':
        n=e[1].replace('std::','')
        m=re.fullmatch(r'pow(?:er)?(\d+)',n)
        if m: return ev(e[2][0],env,funs)**int(m.group(1))
        return lift(funs(n,ev(e[2][0],env,funs)))
    x=ev(e[1],env,funs); y=ev(e[2],env,funs)
    if k=='+': return x+y
    if k=='-': return x-y
    if k=='*': return x*y
    return x*y.inv()
def rawcase(fn,lim):
    i=thr.index('double ThresholdCalculator::'+fn+'(')
    e=thr.index('\n}\n',i)
    j=re.compile(r'case Limits::'+lim+r'\s*:').search(thr,i,e).end()
    r=re.compile(r'\breturn\b').search(thr,j); k=thr.index(';',r.end())
    return parse(thr[r.end():k])
def show(r):
    s='('+r.n.show()+')'
    if r.d: s+=' / ('+' * '.join('(%s)'%RF.F[k][0].show()+('' if e==1 else ' ^ %d'%e) for k,e in r.d.items())+')'
    return s
