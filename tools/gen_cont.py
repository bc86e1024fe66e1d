"""Regularised representations of the threshold corrections near the mass limits, printed as Lean (EFT/Repr.lean).
Nothing here is trusted: each representation is proved in Lean."""
exec(open('/verif/tools/cas.py').read())
import textwrap
V=P.v;C=P.c
Q,U,u,e,X,L,r,lU,q,a,la=[V(n) for n in ('Q','U','u','e','X','L','r','lU','q','a','la')]
def eq(a,b): return (a-b).n.iszero()
_old=RF.red
SUB={}
def red(s):
    for var,pol in SUB.items():
        if any(dict(k).get(var,0)>=2 for k in s.n.d):
            d=P()
            for k,x in s.n.d.items():
                kk=dict(k); ee=kk.pop(var,0)
                if ee%2: kk[var]=1
                d=d+P({tuple(sorted(kk.items())):x})*pol**(ee//2)
            s.n=d
    return _old(s)
RF.red=red
def run(fn,case,env,logs,F,sub={}):
    RF.F=F; SUB.clear(); SUB.update(sub)
    def funs(n,z):
        for (k,arg,val) in logs:
            if n==k and eq(z,arg()): return val
        raise Exception((n,show(z)))
    g=ev(rawcase(fn,case),env,funs)
    assert not any(any(v in SUB for v,_ in k) for k in g.n.d)
    return g
def wrap(s): return '\n'.join(textwrap.wrap(s,118,initial_indent='    ',subsequent_indent='    ',break_long_words=False))
SPLIT=('X','L','la','lU','r')
def pieces(g,split=SPLIT):
    m={}
    for k,x in g.n.d.items():
        a=tuple(t for t in k if t[0] in split); b=tuple(t for t in k if t[0] not in split)
        m.setdefault(a,P()).d[b]=x
    return {a:RF(p,g.d).red() for a,p in m.items()}
def mono(a): return ' * '.join(v if e==1 else '%s ^ %d'%(v,e) for v,e in a)
def gshow(g):
    out=[]
    for a,p in sorted(pieces(g).items()):
        s=show(p)
        if not p.d: s=s if len(p.n.d)>1 else s
        out.append((mono(a)+' * ' if a else '')+'('+s+')')
    return ' + '.join(out)
def defn(nm,args,g):
    return 'noncomputable def %s (%s : ℝ) : ℝ :=\n%s\n'%(nm,args,wrap(gshow(g)))
one=C(1)
if __name__=='__main__':
    mU=q*(one+e); lg=C(2)*e-e*e+e*e*r
    F=dict(q=(q,'q'),e=(e,'e'),e1=(one+e,'e'),aq=(a*a-q,'q'),au=(q+q*e-a*a,'a'))
    print(defn('gYtQU','q a X L la e r',run('getDeltaYtAlphas','GENERAL',dict(mQ32=q,mQ3=V('Q'),mU32=mU,mU3=V('U'),m3=a,m32=a*a,Xt=X,lmQ3MR=L),
     [('log',lambda:RF(one+e),e+e*r),('log',lambda:RF(a*a)*RF(q).inv(),la)],F,{'Q':q,'U':mU})))
    m3=Q*(one+e)
    F=dict(Q=(Q,'Q'),u=(u,'u'),e=(e,'e'),e2=(C(2)+e,'e'),gu=(m3*m3-u,'u'),Qu=(Q*Q-u,'u'))
    print(defn('gYtQG','Q u X L lU e r',run('getDeltaYtAlphas','GENERAL',dict(mQ32=Q*Q,mQ3=Q,mU32=u,mU3=V('U'),m3=m3,m32=m3*m3,Xt=X,lmQ3MR=L),
     [('log',lambda:RF(u)*RF(Q*Q).inv(),lU),('log',lambda:RF(m3*m3)*RF(Q*Q).inv(),lg)],F,{'U':u})))
    m3=U*(one+e)
    F=dict(U=(U,'U'),q=(q,'q'),e=(e,'e'),e2=(C(2)+e,'e'),gq=(q-m3*m3,'q'),Uq=(q-U*U,'q'))
    print(defn('gYtUG','U q X L lU e r',run('getDeltaYtAlphas','GENERAL',dict(mQ32=q,mQ3=V('Q'),mU32=U*U,mU3=U,m3=m3,m32=m3*m3,Xt=X,lmQ3MR=L),
     [('log',lambda:RF(U*U)*RF(q).inv(),lU),('log',lambda:RF(m3*m3)*RF(q).inv(),lU+lg)],F,{'Q':q})))
    m3=Q*(one+e)
    F=dict(Q=(Q,'Q'),e=(e,'e'),e2=(C(2)+e,'e'))
    print(defn('gYtQUG','Q X L e r',run('getDeltaYtAlphas','MQ3_EQ_MU3',dict(mQ32=Q*Q,mQ3=Q,m3=m3,m32=m3*m3,Xt=X,lmQ3MR=L),
     [('log',lambda:RF(m3*m3)*RF(Q*Q).inv(),lg)],F)))
    F=dict(q=(q,'q'),e=(e,'e'),e1=(one+e,'e'))
    print(defn('gLamQU','q X L e r',run('getDeltaLambdaAlphat','GENERAL',dict(mQ32=q,mQ3=V('Q'),mU32=mU,mU3=V('U'),Xt=X,lmQ3MR=L),
     [('log',lambda:RF(one+e),e-e*e*C(Fr(1,2))+e**3*C(Fr(1,3))+e**3*r)],F,{'Q':q,'U':mU})))
