import Verif.EFT.Family

/-!
# C76: all superpartners enter with their gauge charges

Integrating out a particle changes the gauge couplings by its contribution to the beta function times a logarithm of its mass, and the quartic Higgs
coupling accordingly, since that is given by the gauge couplings at tree level.  The specification contains a table of the superpartners with
their gauge charges, the code contains a separate coefficient for each of the 15 sfermion masses in each correction.
-/

set_option linter.unusedSimpArgs false
set_option linter.unusedVariables false

namespace Himalaya.Charges

open scoped Himalaya
open Kron Signs Family

/-! ### specification -/

/-- a sfermion multiplet: colours, dimension of the representation of SU(2), hypercharge, squared soft masses of the three generations -/
structure Multiplet where
  Nc : ℝ
  dim : ℝ
  Y : ℝ
  m2 : Params ℝ → Fin 3 → ℝ

/-- left-handed squarks, right-handed up- and down-type squarks, left-handed sleptons, right-handed charged sleptons -/
noncomputable def sfermions : List Multiplet :=
  [⟨3, 2, 1/6, fun p i => p.mq2 i i⟩, ⟨3, 1, -2/3, fun p i => p.mu2 i i⟩, ⟨3, 1, 1/3, fun p i => p.md2 i i⟩,
   ⟨1, 2, -1/2, fun p i => p.ml2 i i⟩, ⟨1, 1, 1, fun p i => p.me2 i i⟩]

/-- sum of the logarithms of the masses of all sfermions, weighted with their squared hypercharges -/
noncomputable def logsY (p : Params ℝ) (n : Int) : ℝ := (sfermions.map fun m => m.Nc * m.dim * m.Y ^ 2 * ∑ i, lg p n (m.m2 p i)).sum
/-- weighted with the Dynkin indices of SU(2), which are 1/2 for doublets and 0 for singlets -/
noncomputable def logsT (p : Params ℝ) (n : Int) : ℝ := (sfermions.map fun m => m.Nc * ((m.dim - 1) / 2) * ∑ i, lg p n (m.m2 p i)).sum

/-! ### the property -/

/-- **C76.** The corrections of the gauge couplings of U(1) and SU(2).  A complex scalar doublet (the heavy Higgs bosons) counts 1/2, the two doublets of
higgsinos (Weyl fermions, which count twice) 2; for SU(2) the winos count 4. -/
theorem C76_gauge_couplings (dl : ℝ → ℝ) (phi : ℝ → ℝ → ℝ → ℝ) (c : TcObj ℝ) (s : Scheme) (n : Int) :
    c.thr (thrFns4 dl phi) .G1_G1 s n = .ok (-(1/10 * (logsY c.p n + 1/2 * lg c.p n (c.p.MA ^ 2) + 2 * lg c.p n (c.p.mu ^ 2)))) ∧
    c.thr (thrFns4 dl phi) .G2_G2 s n =
      .ok (1/3 - 1/6 * (logsT c.p n + 1/2 * lg c.p n (c.p.MA ^ 2) + 2 * lg c.p n (c.p.mu ^ 2) + 4 * lg c.p n (c.p.M2 ^ 2))) := by
  refine ⟨congrArg Except.ok ?_, congrArg Except.ok ?_⟩
  · unfold TcObj.dG1G1 logsY sfermions
    simp only [List.map, List.sum_cons, List.sum_nil, Fin.sum_univ_three]
    fam
    ring
  · unfold TcObj.dG2G2 logsT sfermions
    simp only [List.map, List.sum_cons, List.sum_nil, Fin.sum_univ_three]
    fam
    ring

/-- **C76.** The corrections of the quartic Higgs coupling of the orders `g1^4` and `g2^4`: the sfermions enter through the same weighted logarithms, with the
coefficients that follow from the tree-level coupling `(3/5 g1^2 + g2^2) cos^2 2β / 4`; the rest is a function of `β`, the mass of the CP-odd Higgs boson and the scale only. -/
theorem C76_quartic (dl : ℝ → ℝ) (phi : ℝ → ℝ → ℝ → ℝ) (s : Scheme) (n : Int) : ∃ h1 h2 : ℝ → ℝ → ℝ, ∀ c : TcObj ℝ,
    c.thr (thrFns4 dl phi) .LAMBDA_G14 s n = .ok (3/25 * c2 c.p ^ 2 * logsY c.p n + h1 (c.p.vu / c.p.vd) (c.p.MA ^ 2 / c.p.scale ^ 2)) ∧
    c.thr (thrFns4 dl phi) .LAMBDA_G24 s n = .ok (1/3 * c2 c.p ^ 2 * logsT c.p n + h2 (c.p.vu / c.p.vd) (c.p.MA ^ 2 / c.p.scale ^ 2)) := by
  refine ⟨fun t m => (-108 * Real.sin (4 * Real.arctan t) ^ 2 - 3 * (-29 + 4 * Real.cos (4 * Real.arctan t) + 9 * Real.cos (8 * Real.arctan t)) * (n * Real.log m)) / 800,
    fun t m => (-36 * Real.sin (4 * Real.arctan t) ^ 2 + (53 - 28 * Real.cos (4 * Real.arctan t) - 9 * Real.cos (8 * Real.arctan t)) * (n * Real.log m)) / 96,
    fun c => ⟨congrArg Except.ok ?_, congrArg Except.ok ?_⟩⟩
  · unfold TcObj.dLamG14 logsY sfermions
    simp only [List.map, List.sum_cons, List.sum_nil, Fin.sum_univ_three, eftBeta, eftTanBeta, real_atan, real_cos, real_sin, c2]
    fam
    ring
  · unfold TcObj.dLamG24 logsT sfermions
    simp only [List.map, List.sum_cons, List.sum_nil, Fin.sum_univ_three, eftBeta, eftTanBeta, real_atan, real_cos, real_sin, c2]
    fam
    ring

/-- **C76.** The generations can be permuted, separately for each multiplet, in the corrections of pure gauge couplings. -/
theorem C76_generations (dl : ℝ → ℝ) (phi : ℝ → ℝ → ℝ → ℝ) (c : TcObj ℝ) (s : Scheme) (n : Int) (a b d e f : Equiv.Perm (Fin 3)) (o : ThrOrder)
    (ho : o ∈ [ThrOrder.G1_G1, .G2_G2, .LAMBDA_G14, .LAMBDA_G24, .LAMBDA_G12_G22, .LAMBDA_REG_G14, .LAMBDA_REG_G24, .LAMBDA_REG_G12_G22,
      .LAMBDA_CHI_G14, .LAMBDA_CHI_G24, .LAMBDA_CHI_G12_G22]) :
    TcObj.thr (thrFns4 dl phi) { c with p := { c.p with mq2 := fun i j => c.p.mq2 (a i) (a j), mu2 := fun i j => c.p.mu2 (b i) (b j), md2 := fun i j => c.p.md2 (d i) (d j), ml2 := fun i j => c.p.ml2 (e i) (e j), me2 := fun i j => c.p.me2 (f i) (f j) } } o s n =
    c.thr (thrFns4 dl phi) o s n := by
  have hp : ∀ (g : Fin 3 → ℝ) (σ : Equiv.Perm (Fin 3)), ∑ i, g (σ i) = ∑ i, g i := fun g σ => Equiv.sum_comp σ g
  generalize hc : ({ c with p := { c.p with mq2 := fun i j => c.p.mq2 (a i) (a j), mu2 := fun i j => c.p.mu2 (b i) (b j), md2 := fun i j => c.p.md2 (d i) (d j), ml2 := fun i j => c.p.ml2 (e i) (e j), me2 := fun i j => c.p.me2 (f i) (f j) } } : TcObj ℝ) = c'
  have e1 : logsY c'.p n = logsY c.p n := by
    subst hc
    unfold logsY sfermions
    simp only [List.map]
    rw [hp (fun i => lg c.p n (c.p.mq2 i i)) a |>.symm, hp (fun i => lg c.p n (c.p.mu2 i i)) b |>.symm, hp (fun i => lg c.p n (c.p.md2 i i)) d |>.symm,
      hp (fun i => lg c.p n (c.p.ml2 i i)) e |>.symm, hp (fun i => lg c.p n (c.p.me2 i i)) f |>.symm]
    rfl
  have e2 : logsT c'.p n = logsT c.p n := by
    subst hc
    unfold logsT sfermions
    simp only [List.map]
    rw [hp (fun i => lg c.p n (c.p.mq2 i i)) a |>.symm, hp (fun i => lg c.p n (c.p.mu2 i i)) b |>.symm, hp (fun i => lg c.p n (c.p.md2 i i)) d |>.symm,
      hp (fun i => lg c.p n (c.p.ml2 i i)) e |>.symm, hp (fun i => lg c.p n (c.p.me2 i i)) f |>.symm]
    rfl
  obtain ⟨h1, h2, hq⟩ := C76_quartic dl phi s n
  have vu : c'.p.vu = c.p.vu := by subst hc; rfl
  have vd : c'.p.vd = c.p.vd := by subst hc; rfl
  have MA : c'.p.MA = c.p.MA := by subst hc; rfl
  have sc : c'.p.scale = c.p.scale := by subst hc; rfl
  have mu : c'.p.mu = c.p.mu := by subst hc; rfl
  have M2 : c'.p.M2 = c.p.M2 := by subst hc; rfl
  have l : ∀ x, lg c'.p n x = lg c.p n x := fun x => by unfold lg; rw [sc]
  have cc : c2 c'.p = c2 c.p := by unfold c2; rw [vu, vd]
  simp only [List.mem_cons, List.not_mem_nil, or_false] at ho
  rcases ho with h | h | h | h | h | h | h | h | h | h | h <;> subst h
  · rw [(C76_gauge_couplings dl phi c' s n).1, (C76_gauge_couplings dl phi c s n).1, e1, l, l, MA, mu]
  · rw [(C76_gauge_couplings dl phi c' s n).2, (C76_gauge_couplings dl phi c s n).2, e2, l, l, l, MA, mu, M2]
  · rw [(hq c').1, (hq c).1, e1, cc, vu, vd, MA, sc]
  · rw [(hq c').2, (hq c).2, e2, cc, vu, vd, MA, sc]
  all_goals (subst hc; rfl)

/-- **C76.** The correction of the strong coupling: a squark counts 1/2, the gluino (a Weyl fermion in the adjoint representation) 6; the ten squarks other than the
stops have the common mass `msq`. -/
theorem C76_strong_coupling (dl : ℝ → ℝ) (phi : ℝ → ℝ → ℝ → ℝ) (c : TcObj ℝ) (s : Scheme) (hM : c.p.MSt.x0 ≠ 0) (hs : c.p.scale ≠ 0) (hg : c.p.MG ≠ 0)
    (hq : 0 < c.p.mq2 2 2) (hu : 0 < c.p.mu2 2 2) (hsq : 0 < c.msq2) :
    c.thr (thrFns4 dl phi) .G3_AS s 1 = .ok ((if s = .DRBARPRIME then -1 else 1) *
      (1/2 - 1/6 * (1/2 * lg c.p 1 (c.p.mq2 2 2) + 1/2 * lg c.p 1 (c.p.mu2 2 2) + 10 * (1/2) * lg c.p 1 c.msq2 + 6 * lg c.p 1 (c.p.MG ^ 2)))) := by
  have l : ∀ x : ℝ, 0 < x → logMR c.p 1 x = lg c.p 1 x := fun x hx => by
    unfold logMR lg
    simp only [real_log, real_ofInt, pow2, ← pow_two]
    push_cast
    rw [one_mul, one_mul, ← Real.log_mul (by positivity) (by positivity)]
    congr 1; field_simp
  have e : c.dG3 1 = 1/2 - 1/6 * (1/2 * lg c.p 1 (c.p.mq2 2 2) + 1/2 * lg c.p 1 (c.p.mu2 2 2) + 10 * (1/2) * lg c.p 1 c.msq2 + 6 * lg c.p 1 (c.p.MG ^ 2)) := by
    unfold TcObj.dG3
    rw [l _ hq, l _ hu, l _ hsq, l (pow2 c.p.MG) (mul_self_pos.2 hg)]
    simp only [real_ofNat, pow2, ← pow_two]
    push_cast
    ring
  show Except.ok (if s = .DRBARPRIME then -c.dG3 1 else c.dG3 1) = _
  rw [e]
  split_ifs <;> refine congrArg Except.ok ?_ <;> ring

/-- The logarithms do not vanish: for the masses of all left-handed squarks equal to `e` and all other masses equal to the scale the sums are 1 and 9. -/
example : ∃ p : Params ℝ, logsY p 1 = 1 ∧ logsT p 1 = 9 := by
  refine ⟨{ examplePoint with scale := 1, mq2 := fun _ _ => Real.exp 2, mu2 := fun _ _ => 1, md2 := fun _ _ => 1, ml2 := fun _ _ => 1, me2 := fun _ _ => 1 }, ?_, ?_⟩
  · unfold logsY sfermions lg
    simp only [List.map, List.sum_cons, List.sum_nil, Fin.sum_univ_three]
    norm_num
  · unfold logsT sfermions lg
    simp only [List.map, List.sum_cons, List.sum_nil, Fin.sum_univ_three]
    norm_num

end Himalaya.Charges
