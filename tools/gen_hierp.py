"""Generates lean/Verif/Hier/<Class>P.lean: the normal forms of the self energies of a hierarchy class, and the statements of
Verif.Hier.Spec for them.  usage: gen_hierp.py CLASS OUT TABLE, where TABLE is the pickle written by tools/hier_tab.py
(exponents of the monomials; the kernel re-checks everything)."""
import sys,re,pickle
sys.path.insert(0,'/verif/tools')
h,out,tabf=sys.argv[1:4]
tab=pickle.load(open(tabf,'rb'))
FS=['getS1','getS2','getS12']
mem=open('/verif/lean/Verif/Hier/Mem.lean').read()
F=re.findall(r'^  (\w+) : F',mem,re.M)
KON=F[-9:];MEM=F[:-9]
used=set()
for f in FS: used|=set(tab[h,f][0])
# variables with negative exponents in a denominator
DEN=set(tab[h,'den'])
PAIRS={'xDmglst1':'Dmglst1','xDmglst2':'Dmglst2','xDmsqst1':'Dmsqst1','xDmsqst2':'Dmsqst2','xDmst12':'Dmst12','xAt':'At','xlmMsusy':'lmMsusy','xMsusy':'Msusy','xMsq':'Msq','xMst':'Mst1','xMgl':'Mgl'}
inv=[x for x in MEM if x in DEN]
ORD=None
for x,v in reversed(list(PAIRS.items())):
    if x in used and v in DEN and x not in DEN: inv=[y for y in inv if y!=v]+[v]; first=[x]
    else: continue
    break
else: first=[]
ORD=inv+first
for x,v in PAIRS.items():
    if x in used and v in used and x not in ORD and v not in ORD: ORD+=[v,x]
ORD+=[x for x in('Mt','s2t') if x in used and x not in ORD]
ORD+=['oneLoopFlag','twoLoopFlag','threeLoopFlag','Al4p']
ORD+=[x for x in MEM if x in used and x not in ORD]+[x for x in KON if x in used]
assert set(ORD)==used,(set(ORD)^used)
IX={x:i for i,x in enumerate(ORD)}
n=len(ORD);m=len(DEN)
BR=[]
def cond(vs,al):
    """test that the exponents of vs are among al; (Bool expression, proof of tabB from it)"""
    is_=[IX[v] for v in vs]
    isl='['+', '.join(map(str,is_))+']'
    alb='['+', '.join('['+', '.join(str(512+e) for e in a)+']' for a in al)+']'
    i=min(is_);js=[j-i for j in is_];w=max(js)+1
    if sorted(js)==list(range(len(js))):
        codes=[sum((512+e)*1024**j for e,j in zip(a,js)) for a in al]
        return (f'tabN {1024**i} {1024**w} [{", ".join(map(str,codes))}] k',
          f'tabN_tabB (i := {i}) (n := {w}) (js := [{", ".join(map(str,js))}]) (is := {isl}) (al\' := {alb}) (by norm_num) (by norm_num) (by decide) rfl (by decide)',f'tabB {isl} {alb} k')
    return (f'tabB {isl} {alb} k','id',f'tabB {isl} {alb} k')
dim={'At':1,'Mt':1,'Mst1':1,'Mst2':1,'Msq':1,'Mgl':1,'Msusy':1,'MuSUSY':1,'Dmglst1':1,'Dmglst2':1,'Dmsqst1':2,'Dmsqst2':2,'Dmst12':2}
ws=[dim.get(x,0) for x in ORD]
par=[1 if x in('Mt','s2t') else 0 for x in ORD]
PAIRS={'xDmglst1':'Dmglst1','xDmglst2':'Dmglst2','xDmsqst1':'Dmsqst1','xDmsqst2':'Dmsqst2','xDmst12':'Dmst12','xAt':'At','xlmMsusy':'lmMsusy','xMsusy':'Msusy','xMsq':'Msq','xMst':'Mst1','xMgl':'Mgl'}
def exps(f,vs):
    V,E=tab[h,f]
    ix=[V.index(v) if v in V else None for v in vs]
    return sorted({tuple(0 if i is None else e[i] for i in ix) for e,_ in E})
SER={'H5g1':'H5','H6b':'H5g1','H6b2qg2':'H6b','H6bq22g':'H6b2qg2','H6bq2g2':'H6bq22g','H6':'H6bq2g2','H6g2':'H6'}
ser=f'-- the next import only serialises the build (each of these modules needs several GB)\nimport Verif.Hier.{SER[h]}P\n' if h in SER else ''
t=f'''import Verif.Hier.Spec
import Verif.Hier.{h}
{ser}
/-!
# Normal forms of the self energies of `{h}`

Generated by tools/gen_hierp.py; the kernel computes the normal forms.
-/

set_option linter.unusedVariables false
set_option linter.unusedSimpArgs false
set_option maxRecDepth 100000

namespace Himalaya

namespace {h}

open Laur
open Kron (E eval)

/-- the constants as variables of formulas -/
def kE : HConst E := {{
'''
t+=',\n'.join('  %s := %s'%(x,f'.var {IX[x]}' if x in IX else '.bad') for x in KON)+' }\n\n'
t+='/-- the members as variables of formulas -/\ndef hE : HMem E := {\n'
t+=',\n'.join('  %s := %s'%(x,f'.var {IX[x]}' if x in IX else '.bad') for x in MEM)+' }\n\n'
def wrap(xs,ind='  '):
    o='';l=ind
    for i,x in enumerate(xs):
        p=x+(', ' if i<len(xs)-1 else '')
        if len(l)+len(p)>125: o+=l.rstrip()+'\n';l=ind
        l+=p
    return o+l
t+='/-- the values of the variables -/\nnoncomputable def pt (k : HConst ℝ) (h : HMem ℝ) : List ℝ := [\n'+wrap([('k.' if x in KON else 'h.')+x for x in ORD])+']\n\n'
den=[x for x in ORD[:m]]
t+=f'''/-- the denominators do not vanish -/
def reg (h : HMem ℝ) : Prop := {' ∧ '.join(f'h.{x} ≠ 0' for x in den)}

theorem nz (k : HConst ℝ) (h : HMem ℝ) (r : reg h) : NZ {m} (pt k h) :=
  ⟨{', '.join((['r.1']+['r.'+'2.'*i+'1' for i in range(1,m-1)]+['r.'+'2.'*(m-2)+'2'] if m>2 else ['r.1','r.2'] if m==2 else ['r']))}, trivial⟩

theorem len (k : HConst ℝ) (h : HMem ℝ) : (pt k h).length = {n} := rfl

/-- dimensions of the variables in units of mass -/
def ws : List (ℕ × ℕ) := [{', '.join(f'({i}, {w})' for i,w in enumerate(ws) if w)}]

/-- variables that change sign with the top mass -/
def par : List (ℕ × ℕ) := [{', '.join(f'({i}, {w})' for i,w in enumerate(par) if w)}]

'''
L=[IX[x] if x in IX else None for x in('oneLoopFlag','twoLoopFlag','threeLoopFlag','Al4p')]
assert None not in L
ls='['+', '.join(map(str,L))+']'
def chkname(f): return 'chk'+f[3:]
def zl(A): return '['+', '.join(map(str,A))+']'
th=''
res={}
for f in FS:
    c=[('units',f'Nat.beq (wtS k ws) {4+512*sum(ws)}'),('par','Nat.beq (Nat.mod (wtS k par) 2) 0'),('loops',)+cond(['oneLoopFlag','twoLoopFlag','threeLoopFlag','Al4p'],[(1,0,0,0),(0,1,0,1),(0,0,1,2)])]
    if 'MuSUSY' in IX:
        mu=[e[0] for e in exps(f,['MuSUSY'])]
        if mu==[2]: c.append(('mu2',)+cond(['MuSUSY'],[(2,)]))
        elif min(mu)>0: c.append(('mu1',)+cond(['MuSUSY'],[(e,) for e in mu]))
    for x,v in PAIRS.items():
        if x not in IX or v not in IX: continue
        S=exps(f,[x,v])
        ns={b for a,b in S if a==1}
        if len(ns)!=1 or any(a not in(0,1) for a,_ in S): continue
        N=ns.pop();A=[b for a,b in S if a==0]
        if N in A: continue
        c.append(('t',)+cond([x,v],[(0,i) for i in A]+[(1,N)])+(x,v,A,N))
    res[f]=c
    nm=f[3:]
    S=f
    cs=[a[1] for a in c]
    t+=f'''/-- conditions on the exponents of the monomials of `{f}` -/
def chk{nm} (k : ℕ) : Bool :=
  {cs[0]}'''+''.join(f' &&\n  ({x}'for x in cs[1:])+')'*(len(cs)-1)+'\n\n'
    t+=f'''set_option maxHeartbeats 1000000 in
theorem check{nm} : checkB {n} {m} chk{nm} ({f} kE hE) = true := by decide +kernel

theorem link{nm} (dl : ℝ → ℝ) (k : HConst ℝ) (h : HMem ℝ) :
    eval dl (fun i => (pt k h).getD i 0) ({f} kE hE) = {f} k h := by krfl

theorem normal{nm} : Nonempty (Normal chk{nm} {n} {m} pt {f}) := normal_of_check check{nm} len (link{nm} _)

'''
    def proj(i):
        # position of condition i in the nested conjunction
        e='hk'
        s='(Bool.and_eq_true _ _ ▸ hk)'
        return i
    names=[]
    for i,a in enumerate(c):
        P=('.2'*i)+('.1' if i<len(c)-1 else '')
        t+=f'''theorem chk{nm}_{i} (k : ℕ) (hk : chk{nm} k = true) : ({a[3] if len(a)>2 else a[1]}) = true := by
  simp only [chk{nm}, Bool.and_eq_true] at hk
  exact {a[2] if len(a)>2 else ''} hk{P}

'''
    t+=f'''theorem units{nm} : Units reg {f} := by
  obtain ⟨Q⟩ := normal{nm}
  refine Q.units reg ws (by decide) (fun k hk => Nat.eq_of_beq_eq_true (chk{nm}_0 k hk)) (fun k h l => ?_) nz
  simp [pt, ws, scaleS, HMem.rescale, zpow_one, zpow_zero, one_mul]

theorem mtSign{nm} : MtSign reg {f} := by
  obtain ⟨Q⟩ := normal{nm}
  refine Q.mtSign reg par (by decide) (by decide) (fun k hk => Nat.dvd_of_mod_eq_zero (Nat.eq_of_beq_eq_true (chk{nm}_1 k hk))) (fun k h => ?_) nz
  simp [pt, par, scaleS, HMem.flipMt, zpow_one, zpow_zero, one_mul]

theorem loops{nm} : Loops reg {f} := by
  obtain ⟨Q⟩ := normal{nm}
  obtain ⟨C, hC⟩ := Q.tab _ _ chk{nm}_2
  refine loops_of_tab reg hC (fun k h f1 f2 f3 a r => nz k _ r) ⟨fun k h => ones (pt k h) {ls}, fun k h f1 f2 f3 a => ?_⟩
  have e : ones (pt k (h.loops f1 f2 f3 a)) {ls} = ones (pt k h) {ls} := rfl
  simp only [sumTab, pw, e]
  simp [pt, HMem.loops]
  ring

'''
    for i,a in enumerate(c):
        if a[0]=='mu2':
            j=IX['MuSUSY']
            t+=f'''theorem muSquared{nm} : MuSquared reg {f} := by
  obtain ⟨Q⟩ := normal{nm}
  obtain ⟨C, hC⟩ := Q.tab _ _ chk{nm}_{i}
  intro k h μ r
  have e : ones (pt k {{ h with MuSUSY := μ }}) [{j}] = ones (pt k {{ h with MuSUSY := 1 }}) [{j}] := rfl
  rw [hC k {{ h with MuSUSY := μ }} (nz k _ r), hC k {{ h with MuSUSY := 1 }} (nz k _ r)]
  simp only [sumTab, pw, e]
  simp [pt]

'''
        if a[0] in('mu1',):
            j=IX['MuSUSY']
            t+=f'''theorem muVanishes{nm} : MuVanishes reg {f} := by
  obtain ⟨Q⟩ := normal{nm}
  obtain ⟨C, hC⟩ := Q.tab _ _ chk{nm}_{i}
  intro k h r
  rw [hC k {{ h with MuSUSY := 0 }} (nz k _ r)]
  simp only [sumTab, pw]
  simp [pt]

'''
        if a[0]=='t':
            x,v,A,N=a[4:]
            u='upd'+x[1:]
            t+=f'''theorem trunc{x[1:]}{nm} : Truncates reg HMem.{u} {zl(A)} {N} {f} := by
  obtain ⟨Q⟩ := normal{nm}
  obtain ⟨C, hC⟩ := Q.tab _ _ chk{nm}_{i}
  exact truncates_of_tab hC rfl nz (by decide) (by decide) (fun _ _ _ _ => rfl) (fun _ _ _ _ => rfl) (fun _ _ _ _ => rfl)

'''
t+=f'end {h}\n\nend Himalaya\n'
open(out,'w').write(t)
print(h,n,m,{f:[(a[4],a[6],a[7]) if a[0]=='t' else a[0] for a in res[f]] for f in FS})
