"""Writes EFT/Lam.lean, EFT/LamQU.lean, EFT/LamG.lean."""
exec(open('/verif/tools/gen_lam.py').read())
DIR='/verif/lean/Verif/EFT/'
def head(imports,doc):
    return ''.join('import %s\n'%i for i in imports)+'''
/-!
%s
-/

set_option linter.unusedSimpArgs false
set_option linter.unusedVariables false
set_option linter.style.longLine false

namespace Himalaya.Cont
open Filter Topology

'''%doc
c=coefs(); b=coefs('MQ3_EQ_MU3')
def sums(nm,args): return ' + '.join((('X * ' if k==1 else 'X ^ %d * '%k) if k else '')+'%s%d %s'%(nm,k,args) for k in range(6))
def contproof(nm,vs,par,N,g,hyp,pre,facts,zv=('r','s'),pt='(0, (0, 0))',ty='ℝ × (ℝ × ℝ)'):
    """joint continuity at the origin of the representation in (e, (r, s))"""
    out=[]
    ZM={'r':'z.2.1','s':'z.2.2'} if len(zv)==2 else {'r':'z.2.1','s':'z.2.2.1','D':'z.2.2.2'}
    fin=lambda t:t.replace('@TY',ty).replace('@PT',pt).replace('@ZV',' '.join(ZM[v] for v in zv))
    dis='first | exact pow_ne_zero _ ‹_› | assumption | (simp only [mul_ne_zero_iff, ne_eq, pow_eq_zero_iff, OfNat.ofNat_ne_zero, not_false_eq_true]; tauto) | (norm_num; tauto)'
    for k in sorted(g):
        pcs=sorted(pieces(g[k],SPLIT).items())
        o='theorem %s%d_cont %s :\n    ContinuousAt (fun z : @TY => %s%d %s %s z.1 @ZV) @PT := by\n'%(nm,k,hyp.replace('{X ','{'),nm,k,vs,par)
        for l in pre: o+='  '+l+'\n'
        tot=None
        for (m,p),n in zip(pcs,N[k]):
            o+='  have h%s : ContinuousAt (fun z : @TY => %s %s z.1) @PT := by\n    unfold %s\n    fun_prop (disch := %s)\n'%(n,n,vs,n,'cdisch')
            if m:
                mm=' * '.join(ZM.get(v,v)+('' if e==1 else ' ^ %d'%e) for v,e in m)
                t='(show ContinuousAt (fun z : @TY => %s) @PT by fun_prop).mul h%s'%(mm,n)
            else: t='h'+n
            tot=t if tot is None else '(%s).add\n    (%s)'%(tot,t)
        o+='  exact %s\n'%tot
        out.append(o)
    o='theorem %s_cont %s :\n    ContinuousAt (fun z : @TY => %s X %s %s z.1 @ZV) @PT := by\n'%(nm,hyp,nm,vs,par)
    fs=facts.split(); 
    a_=' '.join(f for f in fs if f in hyp)
    tot='%s0_cont %s'%(nm,a_)
    for k in range(1,6): tot='(%s).add (continuousAt_const.mul (%s%d_cont %s))'%(tot,nm,k,a_)
    o+='  exact %s\n'%tot
    out.append(o)
    return fin('\n'.join(out))
# ---------------- Lam.lean
o=[head(['Verif.EFT.Repr'],'''# `getDeltaLambdaAlphatAlphas` by powers of `Xt`

Printed by tools/mk_lam.py; `lam_split` proves that the coefficients `c0 … c5` are those of the code's `GENERAL` formula and
`lamQU_split` the same for `b0 … b5` and `MQ3_EQ_MU3`.
`a = m3`, `q = mQ32`, `u = mU32`, `L = lmQ3MR`, `lU = log(u/q)`, `la = log(a²/q)`, `D1 = Li2(1-a²/q)`, `D2 = Li2(1-a²/u)`.''')]
for k in sorted(c): o.append('noncomputable def c%d (%s : ℝ) : ℝ :=\n%s\n'%(k,CARGS,wrap(pl(c[k]))))
for k in sorted(b): o.append('noncomputable def b%d (a q L la D1 : ℝ) : ℝ :=\n%s\n'%(k,wrap(pl(b[k]))))
UNF='simp only [real_ofNat, real_ofInt, Himalaya.pow2, Misc.pow2, Misc.pow3, Misc.pow4, Misc.pow5, Misc.pow6, Misc.pow8, Misc.power10]'
LA='a (Q ^ 2) (U ^ 2) L (Real.log (U ^ 2 / Q ^ 2)) (Real.log (a ^ 2 / Q ^ 2)) (dl (1 - a ^ 2 / Q ^ 2)) (dl (1 - a ^ 2 / U ^ 2))'
LB='a (Q ^ 2) L (Real.log (a ^ 2 / Q ^ 2)) (dl (1 - a ^ 2 / Q ^ 2))'
o.append('''/-- the polynomial in `Xt` with coefficients `c0 … c5` -/
noncomputable def lamX (X %s : ℝ) : ℝ :=
%s
'''%(CARGS,wrap(sums('c',CARGS))))
o.append('''/-- the polynomial in `Xt` with coefficients `b0 … b5` -/
noncomputable def lamQUX (X a q L la D1 : ℝ) : ℝ :=
%s
'''%(wrap(sums('b','a q L la D1'))))
o.append('''/-- side conditions of the continuity proofs -/
macro "cdisch" : tactic => `(tactic| first | (norm_num; done) | (simp only [mul_ne_zero_iff, ne_eq, pow_eq_zero_iff, OfNat.ofNat_ne_zero, not_false_eq_true, add_zero, zero_add] at *; first | assumption | tauto | (norm_num at *; tauto)))
''')
o.append('''theorem lam_split (dl : ℝ → ℝ) (a Q U X L : ℝ) :
    Thr.dLamAtAsGen dl (a ^ 2) (Q ^ 2) (U ^ 2) a Q U X L =
      lamX X %s := by
  unfold Thr.dLamAtAsGen lamX c0 c1 c2 c3 c4 c5
  simp only [p2_of (rfl : Q ^ 2 = _), p2_of (rfl : U ^ 2 = _), real_log]
  %s
  push_cast
  generalize Real.log (U ^ 2 / Q ^ 2) = lU
  generalize Real.log (a ^ 2 / Q ^ 2) = la
  generalize dl (1 - a ^ 2 / Q ^ 2) = D1
  generalize dl (1 - a ^ 2 / U ^ 2) = D2
  ring

theorem lamQU_split (dl : ℝ → ℝ) (a Q U X L mU32 : ℝ) :
    Thr.dLamAtAsQU dl (a ^ 2) (Q ^ 2) mU32 a Q U X L =
      lamQUX X %s := by
  unfold Thr.dLamAtAsQU lamQUX b0 b1 b2 b3 b4 b5
  simp only [p2_of (rfl : Q ^ 2 = _), real_log]
  %s
  push_cast
  generalize Real.log (a ^ 2 / Q ^ 2) = la
  generalize dl (1 - a ^ 2 / Q ^ 2) = D1
  generalize a ^ 2 - Q ^ 2 = E
  ring
end Himalaya.Cont
'''%(LA,UNF,LB,UNF))
open(DIR+'Lam.lean','w').write('\n'.join(o))
# ---------------- LamQU.lean
ds,g=qu()
o=[head(['Verif.EFT.Lam'],'''# `getDeltaLambdaAlphatAlphas` near `mQ3 = mU3`

Printed by tools/mk_lam.py.''')]
for i,d in enumerate(ds): o.append('noncomputable def dQU%d (a q la : ℝ) : ℝ :=\n%s\n'%(i+1,wrap(gshow(d))))
N={}
for k in sorted(g):
    t,N[k]=defpieces('gQU%d'%k,'a q L la D e r s',g[k]); o.append(t)
o.append('noncomputable def gQU (X a q L la D e r s : ℝ) : ℝ :=\n%s\n'%wrap(sums('gQU','a q L la D e r s')))
for k in sorted(g):
    o.append('''set_option maxRecDepth 8000 in
theorem qu_repr%(k)d {a q L la D e r s : ℝ} (hq : q ≠ 0) (he : e ≠ 0) (h1 : 1 + e ≠ 0) (ha : -q + a ^ 2 ≠ 0)
    (hau : q - a ^ 2 + e * q ≠ 0) :
    c%(k)d a q (q * (1 + e)) L (e - e ^ 2 / 2 + e ^ 3 / 3 + e ^ 3 * r) la D
      (D + e * dQU1 a q la + e ^ 2 * dQU2 a q la + e ^ 3 * dQU3 a q la + e ^ 3 * s) = gQU%(k)d a q L la D e r s := by
  simp only [c%(k)d, gQU%(k)d, dQU1, dQU2, dQU3, %(n)s]
  have d2 : q - q * (1 + e) = - (q * e) := by ring
  have d3 : a ^ 2 - q * (1 + e) = - (q - a ^ 2 + e * q) := by ring
  have d4 : -(a ^ 2) + q = - (-q + a ^ 2) := by ring
  have d5 : a ^ 2 - q = (-q + a ^ 2) := by ring
  simp only [d2, d3, d4, d5]
  generalize hE : -q + a ^ 2 = E at *
  generalize hD : q - a ^ 2 + e * q = DD at *
  generalize hF : 1 + e = F at *
  field_simp
  subst hD hE hF
  ring
'''%dict(k=k,n=', '.join(N[k])))
o.append('''theorem qu_repr {X a q L la D e r s : ℝ} (hq : q ≠ 0) (he : e ≠ 0) (h1 : 1 + e ≠ 0) (ha : -q + a ^ 2 ≠ 0)
    (hau : q - a ^ 2 + e * q ≠ 0) :
    lamX X a q (q * (1 + e)) L (e - e ^ 2 / 2 + e ^ 3 / 3 + e ^ 3 * r) la D
      (D + e * dQU1 a q la + e ^ 2 * dQU2 a q la + e ^ 3 * dQU3 a q la + e ^ 3 * s) = gQU X a q L la D e r s := by
  unfold lamX gQU
  rw [%s]
'''%', '.join('qu_repr%d hq he h1 ha hau'%k for k in range(6)))
allp=[n for k in sorted(g) for n in N[k]]
o.append('''theorem gQU_zero {X a q L la D : ℝ} (hq : q ≠ 0) (ha : -q + a ^ 2 ≠ 0) :
    gQU X a q L la D 0 0 0 = lamQUX X a q L la D := by
  have h : ∀ k l : ℝ, k = l → X * k = X * l := fun k l h => by rw [h]
  unfold gQU lamQUX
'''+''.join('''  have h%(k)d : gQU%(k)d a q L la D 0 0 0 = b%(k)d a q L la D := by
    simp only [gQU%(k)d, b%(k)d, %(n)s]
    have d3 : q - a ^ 2 = - (-q + a ^ 2) := by ring
    have d5 : a ^ 2 - q = (-q + a ^ 2) := by ring
    simp only [zero_mul, mul_zero, add_zero, sub_zero, ne_eq, OfNat.ofNat_ne_zero, not_false_eq_true, zero_pow]
    simp only [d3, d5]
    generalize hE : -q + a ^ 2 = E at *
    field_simp
    subst hE
    ring
'''%dict(k=k,n=', '.join(N[k])) for k in range(6))+'''  rw [h0, h1, h2, h3, h4, h5]

'''%())
o.append(contproof('gQU','a q','L la D',N,g,'{X a q L la D : ℝ} (hq : q ≠ 0) (ha : -q + a ^ 2 ≠ 0)',['have h3 : q - a ^ 2 + 0 * q ≠ 0 := by intro h; apply ha; linear_combination -h'],'hq ha h3'))
o.append('end Himalaya.Cont\n')
open(DIR+'LamQU.lean','w').write('\n'.join(o))

# ---------------- LamQG.lean, LamUG.lean
def gfile(fn,nm,x,y,what,hyp,hyp0,rw,gens,lhs,pre,z0,lim,facts):
    g=fn()
    o=[head(['Verif.EFT.Lam'],'# `getDeltaLambdaAlphatAlphas` near `%s`\n\nPrinted by tools/mk_lam.py.'%what)]
    vs='%s %s'%(x,y); args=vs+' L lU e r s D'
    N={}
    for k in sorted(g):
        t,N[k]=defpieces('g%s%d'%(nm,k),args,g[k]); o.append(t)
    o.append('noncomputable def g%s (X %s : ℝ) : ℝ :=\n%s\n'%(nm,args,wrap(sums('g'+nm,args))))
    for k in sorted(g):
        o.append("""set_option maxRecDepth 8000 in
theorem %s_repr%d {%s : ℝ} %s :
    c%d %s = g%s%d %s := by
  simp only [c%d, g%s%d, %s]
%s%s  field_simp
  subst %s
  ring
"""%(nm,k,args,hyp,k,lhs,nm,k,args,k,nm,k,', '.join(N[k]),rw,''.join('  generalize %s : %s = %s at *\n'%t for t in gens),' '.join(t[0] for t in gens)))
    hs=' '.join(re.findall(r'\((\w+) :',hyp))
    o.append("""theorem %s_repr {X %s : ℝ} %s :
    lamX X %s = g%s X %s := by
  unfold lamX g%s
  rw [%s]
"""%(nm,args,hyp,lhs,nm,args,nm,', '.join('%s_repr%d %s'%(nm,k,hs) for k in range(6))))
    o.append(contproof('g'+nm,vs,'L lU',N,g,'{X %s L lU D : ℝ} %s'%(vs,hyp0),pre,facts,('r','s','D'),'(0, (0, (0, D)))','ℝ × (ℝ × (ℝ × ℝ))'))
    o.append('end Himalaya.Cont\n')
    open(DIR+'Lam%s.lean'%nm,'w').write('\n'.join(o))
gfile(qg,'QG','Q','u','mQ3 = m3','(hQ : Q ≠ 0) (hu : u ≠ 0) (he : e ≠ 0) (h2 : 2 + e ≠ 0) (hQu : -u + Q ^ 2 ≠ 0)\n    (hgu : -u + Q ^ 2 + 2 * Q ^ 2 * e + Q ^ 2 * e ^ 2 ≠ 0)',
 '(hQ : Q ≠ 0) (hu : u ≠ 0) (hQu : -u + Q ^ 2 ≠ 0)',
 """  have d1 : (Q * (1 + e)) ^ 2 - Q ^ 2 = Q ^ 2 * (e * (2 + e)) := by ring
  have d2 : -((Q * (1 + e)) ^ 2) + Q ^ 2 = - (Q ^ 2 * (e * (2 + e))) := by ring
  have d3 : Q ^ 2 - u = -u + Q ^ 2 := by ring
  have d4 : (Q * (1 + e)) ^ 2 - u = -u + Q ^ 2 + 2 * Q ^ 2 * e + Q ^ 2 * e ^ 2 := by ring
  simp only [d1, d2, d3, d4]
""",[('hD','-u + Q ^ 2 + 2 * Q ^ 2 * e + Q ^ 2 * e ^ 2','DD'),('hE','-u + Q ^ 2','E'),('hF','2 + e','F')],
 '(Q * (1 + e)) (Q ^ 2) u L lU (2 * e - e ^ 2 + e ^ 2 * r) (-2 * e + e ^ 2 * s) D',
 ['have h3 : -u + Q ^ 2 + 2 * Q ^ 2 * 0 + Q ^ 2 * 0 ^ 2 ≠ 0 := by intro h; apply hQu; linear_combination h'],None,None,'hQ hu hQu')
gfile(ug,'UG','U','q','mU3 = m3','(hU : U ≠ 0) (hq : q ≠ 0) (he : e ≠ 0) (h2 : 2 + e ≠ 0) (hUq : q - U ^ 2 ≠ 0)\n    (hgq : q - U ^ 2 - 2 * U ^ 2 * e - U ^ 2 * e ^ 2 ≠ 0)',
 '(hU : U ≠ 0) (hq : q ≠ 0) (hUq : q - U ^ 2 ≠ 0)',
 """  have d1 : (U * (1 + e)) ^ 2 - U ^ 2 = U ^ 2 * (e * (2 + e)) := by ring
  have d2 : -((U * (1 + e)) ^ 2) + q = q - U ^ 2 - 2 * U ^ 2 * e - U ^ 2 * e ^ 2 := by ring
  have d4 : (U * (1 + e)) ^ 2 - q = -(q - U ^ 2 - 2 * U ^ 2 * e - U ^ 2 * e ^ 2) := by ring
  simp only [d1, d2, d4]
""",[('hD','q - U ^ 2 - 2 * U ^ 2 * e - U ^ 2 * e ^ 2','DD'),('hE','q - U ^ 2','E'),('hF','2 + e','F')],
 '(U * (1 + e)) q (U ^ 2) L lU (lU + (2 * e - e ^ 2 + e ^ 2 * r)) D (-2 * e + e ^ 2 * s)',
 ['have h3 : q - U ^ 2 - 2 * U ^ 2 * 0 - U ^ 2 * 0 ^ 2 ≠ 0 := by intro h; apply hUq; linear_combination h'],None,None,'hU hq hUq')

# ---------------- LamQUG.lean
g=qug(); N={}
o=[head(['Verif.EFT.Lam'],'# `getDeltaLambdaAlphatAlphas`, case `MQ3_EQ_MU3`, near `mQ3 = m3`\n\nPrinted by tools/mk_lam.py.')]
args='Q L e r s'
for k in sorted(g):
    t,N[k]=defpieces('gQUG%d'%k,args,g[k]); o.append(t)
o.append('noncomputable def gQUG (X %s : ℝ) : ℝ :=\n%s\n'%(args,wrap(sums('gQUG',args))))
for k in sorted(g):
    o.append("""theorem QUG_repr%d {%s : ℝ} (hQ : Q ≠ 0) (he : e ≠ 0) (h2 : 2 + e ≠ 0) :
    b%d (Q * (1 + e)) (Q ^ 2) L (2 * e - e ^ 2 + e ^ 2 * r) (-2 * e + e ^ 2 * s) = gQUG%d %s := by
  simp only [b%d, gQUG%d, %s]
  have d1 : (Q * (1 + e)) ^ 2 - Q ^ 2 = Q ^ 2 * (e * (2 + e)) := by ring
  simp only [d1]
  generalize hF : 2 + e = F at *
  field_simp
  subst hF
  ring
"""%(k,args,k,k,args,k,k,', '.join(N[k])))
o.append("""theorem QUG_repr {X %s : ℝ} (hQ : Q ≠ 0) (he : e ≠ 0) (h2 : 2 + e ≠ 0) :
    lamQUX X (Q * (1 + e)) (Q ^ 2) L (2 * e - e ^ 2 + e ^ 2 * r) (-2 * e + e ^ 2 * s) = gQUG X %s := by
  unfold lamQUX gQUG
  rw [%s]
"""%(args,args,', '.join('QUG_repr%d hQ he h2'%k for k in range(6))))
o.append(contproof('gQUG','Q','L',N,g,'{X Q L : ℝ} (hQ : Q ≠ 0)',[],'hQ'))
o.append('end Himalaya.Cont\n')
open(DIR+'LamQUG.lean','w').write('\n'.join(o))
# ---------------- LamVal.lean
gs={}
for n_,f_ in (('QG',qg),('UG',ug),('QUG',qug)):
    g_=f_(); gs[n_]={k:len(pieces(g_[k],SPLIT)) for k in g_}
def nms(nm,k): return ', '.join('g%s%dp%d'%(nm,k,i) for i in range(gs[nm][k]))
def alln(nm): return ', '.join(['g'+nm]+['g%s%d'%(nm,k) for k in range(6)]+[nms(nm,k) for k in range(6)])
Z='zero_mul, mul_zero, add_zero, sub_zero, zero_add, zero_sub, ne_eq, OfNat.ofNat_ne_zero, not_false_eq_true, zero_pow'
o=[head(['Verif.EFT.LamQG','Verif.EFT.LamUG','Verif.EFT.LamQUG','Verif.EFT.LamQU'],'# Values of the representations at the limit: the code\'s special cases\n\nPrinted by tools/mk_lam.py.')]
o.append('''set_option maxRecDepth 8000 in
theorem gQG_zero {X Q U L m32 m3 : ℝ} (dl : ℝ → ℝ) (hQ : Q ≠ 0) (hU : U ≠ 0) (hQu : -U ^ 2 + Q ^ 2 ≠ 0) :
    gQG X Q (U ^ 2) L (Real.log (U ^ 2 / Q ^ 2)) 0 0 0 (dl (1 - Q ^ 2 / U ^ 2))
      = Thr.dLamAtAsQG dl m32 (Q ^ 2) (U ^ 2) m3 Q U X L := by
  unfold Thr.dLamAtAsQG
  simp only [p2_of (rfl : Q ^ 2 = _), p2_of (rfl : U ^ 2 = _), real_log]
  %s
  push_cast
  generalize Real.log (U ^ 2 / Q ^ 2) = lU
  generalize dl (1 - Q ^ 2 / U ^ 2) = D
  simp only [%s, %s]
  have d1 : Q ^ 2 - U ^ 2 = -U ^ 2 + Q ^ 2 := by ring
  have d2 : -(Q ^ 2 * U) + U * U * U = - (U * (-U ^ 2 + Q ^ 2)) := by ring
  have d3 : Q ^ 2 * U ^ 2 - U * U * (U * U) = U ^ 2 * (-U ^ 2 + Q ^ 2) := by ring
  simp only [d1, d2, d3]
  generalize hE : -U ^ 2 + Q ^ 2 = E at *
  field_simp
  subst hE
  ring

set_option maxRecDepth 8000 in
theorem gUG_zero {X Q U L m32 m3 : ℝ} (dl : ℝ → ℝ) (hQ : Q ≠ 0) (hU : U ≠ 0) (hUq : Q ^ 2 - U ^ 2 ≠ 0) :
    gUG X U (Q ^ 2) L (Real.log (U ^ 2 / Q ^ 2)) 0 0 0 (dl (1 - U ^ 2 / Q ^ 2))
      = Thr.dLamAtAsUG dl m32 (Q ^ 2) (U ^ 2) m3 Q U X L := by
  unfold Thr.dLamAtAsUG
  simp only [p2_of (rfl : Q ^ 2 = _), p2_of (rfl : U ^ 2 = _), real_log]
  %s
  push_cast
  generalize Real.log (U ^ 2 / Q ^ 2) = lU
  generalize dl (1 - U ^ 2 / Q ^ 2) = D
  simp only [%s, %s]
  generalize hE : Q ^ 2 - U ^ 2 = E at *
  field_simp
  subst hE
  ring

theorem gQUG_zero {X Q U L m32 m3 mU32 : ℝ} (dl : ℝ → ℝ) (hQ : Q ≠ 0) :
    gQUG X Q L 0 0 0 = Thr.dLamAtAsQUG dl m32 (Q ^ 2) mU32 m3 Q U X L := by
  unfold Thr.dLamAtAsQUG
  %s
  push_cast
  simp only [%s, %s]
  field_simp
  ring
end Himalaya.Cont
'''%(UNF,alln('QG'),Z,UNF,alln('UG'),Z,UNF,alln('QUG'),Z))
open(DIR+'LamVal.lean','w').write('\n'.join(o))
