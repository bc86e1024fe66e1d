"""Splits getDeltaLambdaAlphatAlphas by powers of Xt and prints regularised representations near the mass limits (EFT/Lam*.lean).
Nothing here is trusted: the split and the representations are proved in Lean."""
exec(open('/verif/tools/gen_cont.py').read().split("if __name__")[0])
# ---- split by powers of Xt, on the syntax tree -----------------------------------------------------------
def isz(t): return t==('num','0') or t==('num',0)
def add(x,y):
    return ('+',x,y)
def xsplit(t):
    k=t[0]
    if k=='num': return {0:t}
    if k=='id': return {1:('num','1')} if t[1]=='Xt' else {0:t}
    if k=='neg': return {i:('neg',c) for i,c in xsplit(t[1]).items()}
    if k=='call':
        n=t[1].replace('std::','')
        m=re.fullmatch(r'pow(?:er)?(\d+)',n)
        x=xsplit(t[2][0])
        if m:
            if set(x)=={0}: return {0:t}
            if len(x)==1:
                (i,c),=x.items(); return {i*int(m.group(1)):c if one_(c) else ('call',n,[c])}
            r={0:('num','1')}
            for _ in range(int(m.group(1))): r=mulx(r,x)
            return r
        assert set(x)=={0}; return {0:t}
    x=xsplit(t[1]); y=xsplit(t[2])
    if k in '+-':
        r=dict(x)
        for i,c in y.items():
            r[i]=(k,r[i],c) if i in r else (c if k=='+' else ('neg',c))
        return r
    if k=='*': return mulx(x,y)
    assert set(y)=={0}
    return {i:('/',c,y[0]) for i,c in x.items()}
def one_(t): return t==('num','1')
def mulx(x,y):
    r={}
    for i,c in x.items():
        for j,d in y.items():
            p=d if one_(c) else c if one_(d) else ('*',c,d)
            r[i+j]=('+',r[i+j],p) if i+j in r else p
    return r
NAMES={'mQ32':'q','mU32':'u','m3':'a','lmQ3MR':'L','mQ3':'Q','mU3':'U'}
def pl(t,p=0):
    """plain Lean over the reals"""
    k=t[0]
    def par(s,q): return '('+s+')' if q<p else s
    if k=='num': return str(Fr(t[1])) if Fr(t[1]).denominator==1 else '('+str(Fr(t[1]))+')'
    if k=='id': return 'a ^ 2' if t[1]=='m32' and p<75 else '(a ^ 2)' if t[1]=='m32' else NAMES.get(t[1],t[1])
    if k=='neg': return par('-'+pl(t[1],75),65)
    if k=='call':
        n=t[1].replace('std::','')
        m=re.fullmatch(r'pow(?:er)?(\d+)',n)
        if m:
            b=t[2][0]; N=int(m.group(1))
            if b==('id','mQ3') and N%2==0: b=('id','mQ32'); N//=2
            if b==('id','mU3') and N%2==0: b=('id','mU32'); N//=2
            s=pl(b,76)+(' ^ %d'%N if N>1 else '')
            return '('+s+')' if p>=75 and N>1 else s
        return FN(n,t[2][0])
    q={'+':60,'-':60,'*':70,'/':70}[k]
    return par(pl(t[1],q)+' '+k+' '+pl(t[2],q+1),q)
def FN(n,arg):
    s=pl(arg)
    if n=='log': return {'u / q':'lU','a ^ 2 / q':'la'}[s]
    if n=='dilog': return {'1 - a ^ 2 / q':'D1','1 - a ^ 2 / u':'D2'}[s]
    raise Exception(n)
ODD=parse('pow2(-(mU3*pow2(Xt)) + pow3(mU3))'); EVEN=parse('mU32*pow2(mU32 - pow2(Xt))')
def fixU(t):
    if t==ODD: return EVEN
    if isinstance(t,tuple): return tuple(fixU(x) for x in t)
    if isinstance(t,list): return [fixU(x) for x in t]
    return t
CARGS='a q u L lU la D1 D2'
def coefs(case='GENERAL'):
    t=fixU(rawcase('getDeltaLambdaAlphatAlphas',case))
    return xsplit(t)
def cname(k): return 'c%d'%k
# ---- regularised representations ----------------------------------------------------------------------------
A=a*a; s=V('s'); s2=V('s2'); D=V('D'); h=lambda x:C(Fr(x))
SPLIT=('X','L','la','lU','r','s','s2','D')
mU=q*(one+e)
FQU=dict(q=(q,'q'),e=(e,'e'),e1=(one+e,'e'),aq=(A-q,'q'),au=(q+q*e-A,'a'),a=(a,'a'))
def setF(F,sub):
    RF.F=F; SUB.clear(); SUB.update(sub)
def series_qu():
    setF(FQU,{'Q':q,'U':mU})
    i0=RF(q-A).inv()
    s0=i0; s1=-(RF(q)*i0*i0); t2=RF(q*q)*i0**3
    m=[s0, s1-s0, t2-s1+s0]
    l=[RF(la), RF(C(-1)), RF(h('1/2'))]
    pr=[m[0]*l[0], m[0]*l[1]+m[1]*l[0], m[0]*l[2]+m[1]*l[1]+m[2]*l[0]]
    return [-(RF(A)*p)*RF(C(Fr(1,i+1))) for i,p in enumerate(pr)]
def evc(t,env,funs): return ev(t,env,funs)
def reprs(cs,env,logs,F,sub):
    """dict k -> RF"""
    setF(F,sub)
    def funs(n,z):
        for (kk,arg,val) in logs:
            if n==kk and eq(z,arg()): return val
        raise Exception((n,show(z)))
    return {k:ev(t,env,funs) for k,t in cs.items()}
def qu():
    ds=series_qu()
    D2=lift(D)+ds[0]*lift(e)+ds[1]*lift(e*e)+ds[2]*lift(e**3)+lift(e**3*s)
    lU_=e-e*e*h('1/2')+e**3*h('1/3')+e**3*r
    g=reprs(coefs(),dict(mQ32=q,mQ3=V('Q'),mU32=mU,mU3=V('U'),m3=a,m32=A,lmQ3MR=L),
      [('log',lambda:RF(one+e),lU_),('log',lambda:RF(A)*RF(q).inv(),la),('dilog',lambda:RF(one)-RF(A)*RF(q).inv(),D),
       ('dilog',lambda:RF(one)-RF(A)*RF(mU).inv(),D2)],FQU,{'Q':q,'U':mU})
    return ds,g
def defpieces(nm,args,g,doc=None):
    """one definition for each monomial in the logarithms, and their sum"""
    out=[]; terms=[]; names=[]
    for i,(m,p) in enumerate(sorted(pieces(g,SPLIT).items())):
        n='%sp%d'%(nm,i)
        vs=[v for v in args.split() if v not in SPLIT]
        out.append('noncomputable def %s (%s : ℝ) : ℝ :=\n%s'%(n,' '.join(vs),wrap(show(p))))
        terms.append((mono(m)+' * ' if m else '')+n+' '+' '.join(vs)); names.append(n)
    out.append('noncomputable def %s (%s : ℝ) : ℝ :=\n%s\n'%(nm,args,wrap(' + '.join(terms))))
    return '\n'.join(out),names
def qg():
    m3=Q*(one+e)
    F=dict(Q=(Q,'Q'),u=(u,'u'),e=(e,'e'),e2=(C(2)+e,'e'),gu=(m3*m3-u,'u'),Qu=(Q*Q-u,'u'))
    lg=C(2)*e-e*e+e*e*r
    return reprs(coefs(),dict(mQ32=Q*Q,mQ3=Q,mU32=u,mU3=V('U'),m3=m3,m32=m3*m3,lmQ3MR=L),
     [('log',lambda:RF(u)*RF(Q*Q).inv(),lU),('log',lambda:RF(m3*m3)*RF(Q*Q).inv(),lg),
      ('dilog',lambda:RF(one)-RF(m3*m3)*RF(Q*Q).inv(),C(-2)*e+e*e*s),('dilog',lambda:RF(one)-RF(m3*m3)*RF(u).inv(),D)],F,{'U':u})
def ug():
    m3=U*(one+e)
    F=dict(U=(U,'U'),q=(q,'q'),e=(e,'e'),e2=(C(2)+e,'e'),gq=(q-m3*m3,'q'),Uq=(q-U*U,'q'))
    lg=C(2)*e-e*e+e*e*r
    return reprs(coefs(),dict(mQ32=q,mQ3=V('Q'),mU32=U*U,mU3=U,m3=m3,m32=m3*m3,lmQ3MR=L),
     [('log',lambda:RF(U*U)*RF(q).inv(),lU),('log',lambda:RF(m3*m3)*RF(q).inv(),lU+lg),
      ('dilog',lambda:RF(one)-RF(m3*m3)*RF(U*U).inv(),C(-2)*e+e*e*s),('dilog',lambda:RF(one)-RF(m3*m3)*RF(q).inv(),D)],F,{'Q':q})
def qug():
    m3=Q*(one+e)
    F=dict(Q=(Q,'Q'),e=(e,'e'),e2=(C(2)+e,'e'))
    lg=C(2)*e-e*e+e*e*r
    return reprs(coefs('MQ3_EQ_MU3'),dict(mQ32=Q*Q,mQ3=Q,m3=m3,m32=m3*m3,lmQ3MR=L),
     [('log',lambda:RF(m3*m3)*RF(Q*Q).inv(),lg),('dilog',lambda:RF(one)-RF(m3*m3)*RF(Q*Q).inv(),C(-2)*e+e*e*s)],F,{})
