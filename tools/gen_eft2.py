"""Generates Verif/EFT/Formulas2.lean: cases of getDeltaYtAlphas2 and getDRbarPrimeToMSbarXtTerms."""
import re,sys
sys.path.insert(0,'/verif/tools')
from gen_eft import thr,conv,wrap,lineof,NM
VARS=['m32','mQ32','mU32','msq2','m3','mQ3','mU3','msq','Xt','lmQ3MR']
def full(fn,lim,xt=False,nm=''):
    i=thr.index('double ThresholdCalculator::'+fn+'(')
    e=thr.index('\n}\n',i)
    m=re.compile(r'case Limits::'+lim+r'\s*:').search(thr,i,e); j=m.end()
    r=re.compile(r'\breturn\b').search(thr,j); k=thr.index(';',r.end())
    lets=re.findall(r'const double (\w+) = ([^;]*);',thr[j:r.start()])
    out=''.join(f'    let {n} := {conv(v)}\n' for n,v in lets)
    vs=[v for v in VARS if not(xt and v=='Xt')]
    if xt: vs=vs+['Xt4','Xt5','Xt6']
    if nm=='dLamAtAs2': vs=[v for v in vs if v!='msq']+['z3','dlatas2Const','Xt4','Xt5']
    return f"(dilog : F → F) ({' '.join(vs)} : F) : F :=\n{out}{wrap(conv(thr[r.end():k]))}",lineof(thr,m.start()),lineof(thr,k)
NM=dict(NM,DEGENERATE='Deg')
HEAD='''import Verif.EFT.Formulas

/-!
# Threshold corrections of O(at as^2): the formulas

Generated by tools/gen_eft2.py from source/himalaya/mh2_eft/ThresholdCalculator.cpp.  Each definition is one `case` of one member
function; the local variables of the function are the arguments (`m32 = MG^2`, `m3 = sqrt(m32)`, `mQ32 = mq2(2,2)`,
`msq = sqrt(msq2)`, ...), those of the case are the `let`s.
-/

set_option linter.unusedVariables false

namespace Himalaya.Thr

open FOps
open scoped Himalaya

section
variable {F : Type} [Add F] [Sub F] [Mul F] [Div F] [Neg F] [FOps F]

'''
def main(lims):
    out=[]
    for fn,nm in [('getDeltaYtAlphas2','dYtAs2'),('getDRbarPrimeToMSbarXtTerms','xtTerms'),
                  ('getDeltaLambdaAlphatAlphas2','dLamAtAs2')]:
        for l in lims:
            if nm=='dLamAtAs2' and l=='DEGENERATE': continue
            b,a,z=full(fn,l,nm=='xtTerms',nm)
            big='set_option maxRecDepth 10000 in\nset_option maxHeartbeats 2000000 in\n' if (nm,l)==('xtTerms','MU3_EQ_M3') else ''
            out.append(big+f"/-- `{fn}`, case `{l}`; mh2_eft/ThresholdCalculator.cpp:{a}-{z} -/\ndef {nm}{NM[l]} {b}\n")
    open('/verif/lean/Verif/EFT/Formulas2.lean','w').write(HEAD+'\n'.join(out)+'\nend\n\nend Himalaya.Thr\n')
if __name__=='__main__': main(sys.argv[1:] or ['GENERAL','MQ3_EQ_MU3','MQ3_EQ_M3','MU3_EQ_M3','MQ3_EQ_MU3_EQ_M3','DEGENERATE'])
