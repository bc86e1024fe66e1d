"""Exponents of the monomials of the self energies of the hierarchy classes, as a pickle: hier_tab.py OUT"""
from hier_lp import *
import pickle,sys
def denvars(e,acc):
    t=e[0]
    if t=='/': ids(e[2],acc)
    if t in('num','id'): return
    if t=='neg': denvars(e[1],acc)
    elif t=='call':
        for a in e[2]: denvars(a,acc)
    else: denvars(e[1],acc);denvars(e[2],acc)
def main(dst):
    out={}
    for h in H:
        fs=load(h)
        allv=set();den=set()
        for f in('getS1','getS2','getS12'):
            ids(fs[f],allv);denvars(fs[f],den)
        allv={v for v in allv if '(' not in v};den={v for v in den if '(' not in v}
        pass
        for f in('getS1','getS2','getS12'):
            LP.VARS.clear(); LP.IDX.clear()
            p=lev(fs[f],{})
            V=list(LP.VARS)
            E=[(LP.exps(k),v) for k,v in p.d.items()]
            def tab(vs):
                ix=[LP.IDX.get(v) for v in vs]
                return sorted({tuple(0 if i is None else e[i] for i in ix) for e,_ in E})
            par={ (e[LP.IDX['Mt']]+ (e[LP.IDX['s2t']] if 's2t' in LP.IDX else 0))%2 for e,_ in E}
            pass
            out[h,f]=(V,E); out[h,"den"]=sorted(den)
    pickle.dump(out,open(dst,'wb'))

if __name__=='__main__': main(sys.argv[1])
