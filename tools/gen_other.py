"""Generates Verif/EFT/Other.lean: threshold corrections without mass limits, from ThresholdCalculator.cpp."""
import re,sys,textwrap
sys.path.insert(0,'/verif/tools')
from cxx2lean import parse,lean
from gen_eft import strip_comments,lineof
SRC='/repo/source/himalaya/mh2_eft/ThresholdCalculator.cpp'
thr=open(SRC).read()
CALC={'calcBeta':'eftBeta','calcTanBeta':'eftTanBeta','calcV':'eftV','calcV2':'eftV2','calcSinBeta':'eftSinBeta','calcCosBeta':'eftCosBeta',
 'calcXt':'calcXt','calcXb':'calcXb','calcXtau':'calcXtau','calcYt':'calcYt','calcYb':'calcYb','calcYtau':'calcYtau'}
def atom(n):
    if n=='omitLogs': return '(ofInt omitLogs)'
    if n=='Pi': return '(const .pi)'
    if n=='z2': return 'z2'
    if n.startswith('p.'): return 'c.'+n
    return n
def call(n,args,pr):
    n=n.replace('std::','').replace('himalaya::','').replace('threshold_loop_functions::','')
    if n in CALC: return '('+CALC[n]+' c.p)'
    m=re.fullmatch(r'p\.(\w+)',n)
    if m: return '(c.p.%s %s %s)'%(m.group(1),args[0][1],args[1][1])
    a=' '.join(pr(x,80) for x in args)
    if re.fullmatch(r'pow(er)?\d+',n): return ('pow2' if n=='pow2' else 'Misc.'+n)+' '+a
    if re.fullmatch(r'[Ff]\d',n): return 'TLF.'+n+' '+a
    if n in('f1HD','f2HD'): return n+' '+a
    if n=='f3HD': return 'f3HD dilog '+a
    if n=='deltaxyz': return 'TLF.deltaxyz '+a
    if n=='phixyz': return 'phi '+a
    return n+' '+a
def conv(s): return lean(parse(s),atom,call)
def wrap(l,i0='  ',i1='    '):
    return '\n'.join(textwrap.wrap(l,124,initial_indent=i0,subsequent_indent=i1,break_long_words=False,break_on_hyphens=False))
def body(fn):
    i=thr.index('double ThresholdCalculator::'+fn+'('); b=thr.index('{',i); e=thr.index('\n}\n',i)
    s=re.sub(r'/\*.*?\*/',lambda m:re.sub(r'[^\n]',' ',m.group(0)),thr[b+1:e],flags=re.S)
    return strip_comments(s),lineof(thr,i),lineof(thr,e+1)
FN=[('getDeltaLambdaYb2G12','dLamYb2G12'),('getDeltaLambdaG14','dLamG14'),('getDeltaLambdaRegG14','dLamRegG14'),('getDeltaLambdaChiG14','dLamChiG14'),
('getDeltaLambdaChiG24','dLamChiG24'),('getDeltaLambdaG24','dLamG24'),('getDeltaLambdaRegG24','dLamRegG24'),('getDeltaLambdaG12G22','dLamG12G22'),
('getDeltaLambdaRegG12G22','dLamRegG12G22'),('getDeltaLambdaChiG12G22','dLamChiG12G22'),('getDeltaLambdaYb2G22','dLamYb2G22'),('getDeltaLambdaYb4','dLamYb4'),
('getDeltaLambdaYt2G12','dLamYt2G12'),('getDeltaLambdaYt2G22','dLamYt2G22'),('getDeltaLambdaYtau2G12','dLamYtau2G12'),('getDeltaLambdaYtau2G22','dLamYtau2G22'),
('getDeltaLambdaYtau4','dLamYtau4'),('getDeltaG1G1','dG1G1'),('getDeltaG2G2','dG2G2'),('getDeltaYtYt','dYtYt'),('getDeltaYtauYtau','dYtauYtau'),
('getDeltaYbYb','dYbYb'),('getDeltaYbYt','dYbYt'),('getDeltaYbAs','dYbAs'),('getDeltaYtYb','dYtYb'),('getDeltaYtauYb','dYtauYb')]
def gen(fn,nm):
    s,a,z=body(fn)
    L=[]
    for m in re.finditer(r'const double (\w+)\s*=\s*([^;]*);',s):
        L.append(f'let {m.group(1)} := '+conv(m.group(2)))
    r=re.search(r'\breturn\b([^;]*);',s)
    L.append(conv(r.group(1)))
    return f"/-- `{fn}`; mh2_eft/ThresholdCalculator.cpp:{a}-{z} -/\ndef TcObj.{nm} (c : TcObj F) (omitLogs : Int) : F :=\n"+'\n'.join(wrap(l) for l in L)+'\n'
if __name__=='__main__':
    print('\n'.join(gen(*x) for x in FN))
