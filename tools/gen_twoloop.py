import re
src=open('/repo/source/himalaya/mh2l/DSZHiggs.cpp').read()
def conv(e):
    e=re.sub(r'\s+',' ',e).strip()
    e=e.replace('std::pow(std::abs(del),1.5)','pow15 del').replace('std::pow(std::abs(del)/g2,1.5)','pow15 (del/g2)').replace('std::pow(std::abs(abbr),1.5)','pow15 abbr')
    e=re.sub(r'pow15 (\w+)',r'(pow15 \1)',e); e=e.replace('pow15 (del/g2)','(pow15 (del/g2))')
    e=e.replace('dphi_010(t,T,g)','(dphi010 li2 t T g)').replace('phi(t,T,g)','(phiC li2 t T g)')
    e=re.sub(r'\b(\d+)\.(?!\d)',r'\1',e)
    # function calls f(...) -> (f (...))
    out='';i=0
    def parse(s):
        r='';i=0
        while i<len(s):
            m=re.match(r'(sqr|logabs|sqrtabs|li2)\s*\(',s[i:])
            if m and (i==0 or not (s[i-1].isalnum() or s[i-1]=='_')):
                j=i+m.end();d=1;k=j
                while d:
                    if s[k]=='(':d+=1
                    if s[k]==')':d-=1
                    k+=1
                inner=parse(s[j:k-1])
                f=m.group(1)
                r+= f'(({inner}) ^ 2)' if f=='sqr' else f'({f} ({inner}))'
                i=k
            else:
                r+=s[i]; i+=1
        return r
    e=parse(e)
    e=re.sub(r'\s*([*/+])\s*',r' \1 ',e); e=re.sub(r'\s*-\s*',r' - ',e); e=re.sub(r'\( - ',r'(-',e)
    # unary minus after operators
    return e
def grab(start,lhs,occ=0):
    i=src.index(start); j=src.index(lhs,i)+len(lhs); k=src.index(';',j)
    return conv(src[j:k])
def wrap(e,w=120,ind='    '):
    out=[];line=ind
    for tok in e.split(' '):
        if len(line)+len(tok)+1>w: out.append(line.rstrip()); line=ind
        line+=tok+' '
    out.append(line.rstrip()); return '\n'.join(out)
a=grab('delta_mh2_2loop_at_as_st_0_mst1_eq_mst2(','result(0,1) =')
b=grab('delta_mh2_2loop_at_as_st_0_mst1_eq_mst2(','result(1,1) =')
c=grab('double dphi_010(','return')
d=grab('double delta_ma2_2loop_at_as_mst1_eq_mst2(','const double result =')
open('/tmp/deg.lean','w').write(f'''
/-! ### Degenerate stops (C++) -/

/-- `std::pow(std::abs(x), 1.5)` -/
noncomputable def pow15 (x : ℝ) : ℝ := |x| ^ ((3 : ℝ) / 2)

section
variable (li2 : ℝ → ℝ)

/-- `phi`; mh2l/DSZHiggs.cpp:152-161 -/
noncomputable def phiC (x y z : ℝ) : ℝ :=
  let u := x / z
  let v := y / z
  let lambda := sqrtabs ((1 - u - v) ^ 2 - 4 * u * v)
  let xp := 1/2 * (1 + (u - v) - lambda)
  let xm := 1/2 * (1 - (u - v) - lambda)
  1 / lambda * (2 * logabs xp * logabs xm - logabs u * logabs v - 2 * (li2 xp + li2 xm) + π * π / 3)

/-- `dphi_010`; mh2l/DSZHiggs.cpp:164-186 (transcribed by script) -/
noncomputable def dphi010 (t T g : ℝ) : ℝ :=
  let Pi2 := π * π
  let g2 := g ^ 2
  let abbr := (-4 * t * T) / g2 + (1 - t / g - T / g) ^ 2
  let rabbr := sqrtabs abbr
  (
{wrap(c)})

/-- `delta_mh2_2loop_at_as_st_0_mst1_eq_mst2`; mh2l/DSZHiggs.cpp:36-110 (transcribed by script) -/
noncomputable def atAsDegenerate (mt2 mg mst12 scale2 mu tanb vev2 g3 : ℝ) : Mat2 ℝ :=
  let Pi2 := π * π
  let Pi4 := π * π * π * π
  let g := mg ^ 2
  let g2 := g ^ 2
  let q := scale2
  let t := mt2
  let tsq := t ^ 2
  let T := mst12
  let Tsq := mst12 ^ 2
  let del := g2 + tsq + Tsq - 2 * (g * t + g * T + t * T)
  let rdel := sqrtabs del
  let sb := sin (arctan tanb)
  let ht2 := 2 / vev2 * mt2 / sb ^ 2
  let r01 := (
{wrap(a)})
  let r11 := (
{wrap(b)})
  ⟨0, r01, r01, r11⟩

/-- `delta_ma2_2loop_at_as_mst1_eq_mst2`; mh2l/DSZHiggs.cpp:190-216 (transcribed by script) -/
noncomputable def maAtAsDegenerate (mt2 mg mst12 mst22 sxt cxt scale2 mu tanb vev2 g3 : ℝ) : ℝ :=
  let Pi2 := π * π
  let g := mg ^ 2
  let g2 := g ^ 2
  let q := scale2
  let q2 := scale2 ^ 2
  let t := mt2
  let T := mst12
  let sb := sin (arctan tanb)
  let ht2 := 2 / vev2 * mt2 / sb ^ 2
  let At := calcAt mt2 mst12 mst22 sxt cxt mu tanb
  let result := (
{wrap(d)})
  let pref := 4 * g3 ^ 2 / (16 * Pi2) ^ 2 * ht2 * mu * (1 / tanb + tanb)
  pref * result
end

/-! ### Wrappers -/

/-- the externals of `delta_mh2_2loop_at_as`: the Fortran `phi` and the C++ `li2` -/
structure Ext where
  phi : ℝ → ℝ → ℝ → ℝ
  li2 : ℝ → ℝ

/-- `delta_ma2_2loop_at_as`; mh2l/DSZHiggs.cpp:232-247, with `delta_ma2_2loop_at_as_general` 218-229 -/
noncomputable def maAtAs (X : Ext) (a : AtAs) : ℝ :=
  if |(a.T1 - a.T2) / a.T1| < 1 / 10 ^ 8 then
    if |calcAt a.t a.T1 a.T2 a.st a.ct a.mu a.tanb| < 1 / 2 ^ 52 then 0
    else maAtAsDegenerate X.li2 a.t a.mg a.T1 a.T2 a.st a.ct a.q a.mu a.tanb a.v2 a.gs
  else dszoddF X.phi a

/-- `delta_mh2_2loop_at_as`; mh2l/DSZHiggs.cpp:267-288 -/
noncomputable def deltaAtAs (X : Ext) (a : AtAs) (includeHeavyHiggs : Bool) : Mat2 ℝ :=
  let result :=
    if |(a.T1 - a.T2) / a.T1| < 1 / 10 ^ 8 then atAsDegenerate X.li2 a.t a.mg a.T1 a.q a.mu a.tanb a.v2 a.gs
    else storeDiagFirst (dszhiggsOut X.phi a)
  let dMA := if includeHeavyHiggs then maAtAs X a else 0
  madd result (rotateBy dMA a.tanb)

/-- `delta_mh2_2loop_ab_as`; mh2l/DSZHiggs.cpp:323-336.  The field `tanb` of the argument holds `cotb`. -/
noncomputable def deltaAbAs (X : Ext) (a : AtAs) (includeHeavyHiggs : Bool) : Mat2 ℝ :=
  let r := deltaAtAs X a includeHeavyHiggs
  ⟨r.m11, r.m01, r.m10, r.m00⟩

''')
