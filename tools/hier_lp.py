from hier_src import *
# Laurent polynomials: dict frozen exponents tuple (sorted (var,exp)) -> Fraction ; use packed via dict of var index
class LP:
    __slots__=('d',)
    VARS=[]; IDX={}
    def __init__(s,d): s.d=d
    @staticmethod
    def var(n):
        if n not in LP.IDX: LP.IDX[n]=len(LP.VARS); LP.VARS.append(n)
        return LP({1<<(16*LP.IDX[n]):Fr(1)})
    # exponents packed with 16 bit fields, signed handled through python ints addition (negative allowed; decode w/ bias)
    @staticmethod
    def const(c): return LP({0:c} if c else {})
    def __add__(a,b):
        if len(a.d)<len(b.d): a,b=b,a
        r=dict(a.d)
        for k,v in b.d.items():
            w=r.get(k,0)+v
            if w: r[k]=w
            else: r.pop(k,None)
        return LP(r)
    def __neg__(a): return LP({k:-v for k,v in a.d.items()})
    def __sub__(a,b): return a+(-b)
    def __mul__(a,b):
        r={}
        for k,v in a.d.items():
            for l,w in b.d.items():
                m=k+l; x=r.get(m,0)+v*w
                if x: r[m]=x
                else: r.pop(m,None)
        return LP(r)
    def __pow__(a,n):
        r=LP.const(Fr(1))
        for _ in range(n): r=r*a
        return r
    def inv(a):
        assert len(a.d)==1,('nonmonomial denominator',a.show())
        (k,v),=a.d.items()
        return LP({-k:1/v})
    def __truediv__(a,b): return a*b.inv()
    def exps(k):
        out=[]
        for i in range(len(LP.VARS)):
            f=k&0xffff
            if f>=0x8000: f-=0x10000
            k=(k-f)>>16
            out.append(f)
        return out
    def show(a,n=40):
        L=[]
        for k,v in sorted(a.d.items(),key=lambda t:str(LP.exps(t[0])))[:n]:
            L.append(str(v)+''.join('*%s^%d'%(LP.VARS[i],x) for i,x in enumerate(LP.exps(k)) if x))
        return '\n'.join(L)+(f'\n... {len(a.d)} terms' if len(a.d)>n else '')
def lev(e,env,call=None):
    t=e[0]
    if t=='num':
        v=e[1]; return LP.const(Fr(v if not v.endswith('.') else v+'0'))
    if t=='id':
        return env[e[1]] if e[1] in env else LP.var(e[1])
    if t=='neg': return -lev(e[1],env,call)
    if t=='call':
        if e[1] in POW: return lev(e[2][0],env,call)**POW[e[1]]
        from t3 import show
        return LP.var(show(e))
    a=lev(e[1],env,call);b=lev(e[2],env,call)
    return a+b if t=='+' else a-b if t=='-' else a*b if t=='*' else a/b
