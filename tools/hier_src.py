import sys,re,random
sys.path.insert(0,'/verif/tools')
sys.setrecursionlimit(100000)
from cxx2lean import parse
from fractions import Fraction as Fr
H=['H3','H32q2g','H3q22g','H4','H5','H5g1','H6','H6b','H6b2qg2','H6bq22g','H6bq2g2','H6g2','H9','H9q2']
def load(h):
    s=open(f'/repo/source/himalaya/hierarchies/{h}.cpp').read()
    fs={}
    for m in re.finditer(r'^double %s::(\w+)\(\) const \{(.*?)^\}'%h,s,re.S|re.M):
        b=m.group(2)
        b=re.sub(r'//.*','',b)
        r=re.search(r'return (.*?);',b,re.S).group(1)
        if r.strip()=='result':
            mm=re.search(r'const double result\s*=(.*?);',b,re.S)
            assert b.count(';')==2,(h,m.group(1),b.count(';'))
            r=mm.group(1)
        else: assert b.count(';')==1,(h,m.group(1))
        fs[m.group(1)]=parse(r)
    return fs
POW={f'pow{i}':i for i in range(2,20)}; POW.update({f'power{i}':i for i in range(2,20)})
def ev(e,env,call=None):
    t=e[0]
    if t=='num':
        v=e[1]; return Fr(v if not v.endswith('.') else v+'0')
    if t=='id': return env[e[1]]
    if t=='neg': return -ev(e[1],env,call)
    if t=='call':
        if e[1] in POW: return ev(e[2][0],env,call)**POW[e[1]]
        return call(e,env)
    a=ev(e[1],env,call);b=ev(e[2],env,call)
    return a+b if t=='+' else a-b if t=='-' else a*b if t=='*' else a/b
def ids(e,s):
    if e[0]=='id': s.add(e[1])
    elif e[0]=='num': pass
    elif e[0]=='neg': ids(e[1],s)
    elif e[0]=='call':
        s.add(e[1]+'('+(e[1] if e[1] in POW else repr(e[2]))+')')
        for a in e[2]: ids(a,s)
    else: ids(e[1],s);ids(e[2],s)
