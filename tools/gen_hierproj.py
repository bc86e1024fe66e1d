"""Generates the per-class parts of lean/Verif/Hier/Proj.lean (independence of mu of the SM-like projection).
usage: gen_hierproj.py OUT MODULE-IMPORTS CLASS:flag=value,... ..."""
import re,sys
out=sys.argv[1]; t=open(sys.argv[2]).read()
for a in sys.argv[3:]:
    c,_,fx=a.partition(':')
    fx=[x.split('=') for x in fx.split(',') if x]
    s=open(f'/verif/lean/Verif/Hier/{c}P.lean').read()
    n,m=re.search(r'checkB (\d+) (\d+) chkS1',s).groups()
    mu=int(re.search(r'MuSUSY := \.var (\d+)',s).group(1))
    hh='{ hE with '+', '.join(f'{x} := .lit {v}' for x,v in fx)+' }' if fx else 'hE'
    hr='{ h with '+', '.join(f'{x} := (({v} : ℚ) : ℝ)' for x,v in fx)+' }' if fx else 'h'
    reg=re.search(r'def reg .*? := (.*)',s).group(1).split(' ∧ ')
    i=[x for x,y in enumerate(reg) if 'Sbeta' in y][0]
    pr='r'+'.2'*i+('.1' if i<len(reg)-1 else '')
    Q='fun h => '+' ∧ '.join(f'h.{x} = {v}' for x,v in fx) if fx else 'fun _ => True'
    t+=f'''namespace {c}

open Laur
open Kron (E eval)

def projE : E := projF hE.Tbeta hE.Sbeta (getS1 kE {hh})
  (getS2 kE {hh}) (getS12 kE {hh})

set_option maxHeartbeats 1000000 in
theorem checkProj : checkB {n} {m} (tabN {1024**mu} 1024 [512]) projE = true := by decide +kernel

theorem linkProj (k : HConst ℝ) (h : HMem ℝ) : eval (fun _ => 0) (fun i => (pt k h).getD i 0) projE =
    projF h.Tbeta h.Sbeta (getS1 k {hr})
      (getS2 k {hr})
      (getS12 k {hr}) := by krfl

/-- The SM-like projection of `{c}` does not depend on `μ`. -/
theorem muIndependent : MuIndependent reg ({Q}) getS1 getS2 getS12 := by
  refine muIndependent_of_tab (n := {n}) (m := {m}) (j := {mu}) (P := pt)
    (normal_of_check checkProj len linkProj)
    (fun k hk => tabN_tabB (i := {mu}) (n := 1) (js := [0]) (by norm_num) (by norm_num) (by decide) rfl (by decide) hk)
    (fun k h q => ?_) nz (fun h r => {pr}) (fun h μ r => r) (fun h μ q => q) (fun k h μ => rfl)
'''
    if fx:
        qs=['q'] if len(fx)==1 else ['q'+'.2'*i+('.1' if i<len(fx)-1 else '') for i in range(len(fx))]
        t+=f'''  have e : ({hr} : HMem ℝ) = h := by
    have q' := q
    obtain ⟨{', '.join('q%d'%i for i in range(len(fx)))}⟩ := q'
    simp only [Rat.cast_one, Rat.cast_zero]
    rw [{', '.join('← q%d'%i for i in range(len(fx)))}]
  rw [e]
''' if False else f'''  have e : ({hr} : HMem ℝ) = h := by
    cases h
    simp only [Rat.cast_one, Rat.cast_zero] at q ⊢
    simp [q]
  rw [e]
'''
    else: t+='  rfl\n'
    t+=f'\nend {c}\n\n'
t+='end Himalaya\n'
open(out,'w').write(t)
