import Verif.EFT.Signs
import Verif.TLF.Two2
import Verif.TLF.RealForm

/-!
# C75: the corrections of top, bottom and tau follow from their quantum numbers

The third-generation (s)fermions differ only by their numbers of colours, hypercharges, isospins and by the Higgs doublet they couple to.  The
one-loop threshold corrections are therefore the same functions of the masses and mixing parameters, with coefficients given by these
numbers.  The specification consists of these functions; `ThresholdCalculator` contains a separate formula for each fermion.
-/

set_option linter.unusedSimpArgs false
set_option linter.unusedVariables false
set_option linter.unusedTactic false
set_option linter.unreachableTactic false

namespace Himalaya.Family

open scoped Himalaya
open Kron Scale Signs

/-! ### specification -/

/-- quantum numbers of a fermion: colours, hypercharges of the left-handed doublet and of the conjugate right-handed singlet, twice the isospin of the
left-handed fermion -/
structure Numbers where
  Nc : ℝ
  YL : ℝ
  YR : ℝ
  twoT3 : ℝ

noncomputable def top : Numbers := ⟨3, 1/6, -2/3, 1⟩
noncomputable def bottom : Numbers := ⟨3, 1/6, 1/3, -1⟩
noncomputable def tau : Numbers := ⟨1, -1/2, 1, -1⟩

/-- soft masses of the doublet and the singlet, left-right mixing parameter -/
structure Squarks where
  mL2 : ℝ
  mR2 : ℝ
  X : ℝ

namespace Squarks
noncomputable def mL (f : Squarks) : ℝ := Real.sqrt f.mL2
noncomputable def mR (f : Squarks) : ℝ := Real.sqrt f.mR2
/-- the parameter that the loop functions are multiplied with -/
noncomputable def Xh (f : Squarks) : ℝ := f.X ^ 2 / (f.mL * f.mR)
noncomputable def r (f : Squarks) : ℝ := f.mL / f.mR
end Squarks

noncomputable def stop (p : Params ℝ) : Squarks := ⟨p.mq2 2 2, p.mu2 2 2, calcXt p⟩
noncomputable def sbottom (p : Params ℝ) : Squarks := ⟨p.mq2 2 2, p.md2 2 2, calcXb p⟩
noncomputable def stau (p : Params ℝ) : Squarks := ⟨p.ml2 2 2, p.me2 2 2, calcXtau p⟩

/-- the logarithm of a squared mass in units of the renormalisation scale, switched by `n` -/
noncomputable def lg (p : Params ℝ) (n : Int) (m2 : ℝ) : ℝ := n * Real.log (m2 / p.scale ^ 2)
/-- `cos 2β` -/
noncomputable def c2 (p : Params ℝ) : ℝ := Real.cos (2 * Real.arctan (p.vu / p.vd))

/-- correction of the quartic coupling of order `y^2 g1^2` -/
noncomputable def lamG1 (q : Numbers) (p : Params ℝ) (n : Int) (f : Squarks) : ℝ :=
  -(q.Nc * c2 p * (f.Xh * (9/20 * q.YR * TLF.F3 f.r + 3/20 * (q.YR + 4 * q.YL) * TLF.F4 f.r + 1/10 * c2 p * TLF.F5 f.r) +
    6/5 * (q.YL * lg p n f.mL2 + q.YR * lg p n f.mR2)))
/-- order `y^2 g2^2` -/
noncomputable def lamG2 (q : Numbers) (p : Params ℝ) (n : Int) (f : Squarks) : ℝ :=
  q.Nc * c2 p * (q.twoT3 * (f.Xh * TLF.F4 f.r / 2 + lg p n f.mL2) - c2 p * f.Xh * TLF.F5 f.r / 6)
/-- order `y^4` -/
noncomputable def lamY4 (q : Numbers) (p : Params ℝ) (n : Int) (f : Squarks) : ℝ :=
  q.Nc * (4 * f.Xh * TLF.F1 f.r - f.Xh ^ 2 * TLF.F2 f.r / 3 + 2 * (lg p n f.mL2 + lg p n f.mR2))
/-- correction of the vacuum expectation value of order `y^2` -/
noncomputable def vevY2 (q : Numbers) (f : Squarks) : ℝ := q.Nc * f.Xh * TLF.F5 f.r / 12
/-- correction of the Yukawa coupling by itself; `s2`: squared cosine of the angle between the doublet that the fermion couples to and the light Higgs boson -/
noncomputable def selfY (q : Numbers) (s2 : ℝ) (p : Params ℝ) (n : Int) (f : Squarks) : ℝ :=
  -(q.Nc * s2 * f.Xh * TLF.F5 f.r / 12) + TLF.F6 (f.mL / p.mu) + TLF.F6 (f.mR / p.mu) / 2 +
    (1 - s2) * (-3/8 + 3/4 * lg p n (p.MA ^ 2)) + 3/4 * lg p n (p.mu ^ 2)
/-- correction of the Yukawa coupling of a quark by the strong interaction -/
noncomputable def strongY (p : Params ℝ) (n : Int) (f : Squarks) : ℝ :=
  4/3 * (1 + TLF.F6 (f.mL / p.MG) + TLF.F6 (f.mR / p.MG) - f.X * TLF.F9 (f.mL / p.MG) (f.mR / p.MG) / p.MG + lg p n (p.MG ^ 2))
/-- squared sine of `β` -/
noncomputable def sin2 (p : Params ℝ) : ℝ := p.vu ^ 2 / (p.vu ^ 2 + p.vd ^ 2)

/-- positive squared soft masses of the third generation -/
def Positive (p : Params ℝ) : Prop := 0 < p.mq2 2 2 ∧ 0 < p.mu2 2 2 ∧ 0 < p.md2 2 2 ∧ 0 < p.ml2 2 2 ∧ 0 < p.me2 2 2

/-! ### lemmas -/

theorem Positive.sqrt {p : Params ℝ} (h : Positive p) : 0 < Real.sqrt (p.mq2 2 2) ∧ 0 < Real.sqrt (p.mu2 2 2) ∧ 0 < Real.sqrt (p.md2 2 2) ∧
    0 < Real.sqrt (p.ml2 2 2) ∧ 0 < Real.sqrt (p.me2 2 2) :=
  ⟨Real.sqrt_pos.2 h.1, Real.sqrt_pos.2 h.2.1, Real.sqrt_pos.2 h.2.2.1, Real.sqrt_pos.2 h.2.2.2.1, Real.sqrt_pos.2 h.2.2.2.2⟩

theorem c2_eq (p : Params ℝ) : FOps.cos (2 * eftBeta p) = c2 p := by
  rfl

/-- unfolds the code and the specification -/
macro "fam" : tactic => `(tactic| (
  simp only [real_sqrt, real_log, real_ofNat, real_ofInt, real_lit, lamG1, lamG2, lamY4, vevY2, selfY, strongY, Squarks.Xh, Squarks.r, Squarks.mL, Squarks.mR,
    stop, sbottom, stau, top, bottom, tau, lg, pow2, Misc.pow2, Misc.pow3, Misc.pow4, Misc.pow5, ← pow_two]
  push_cast
  try simp only [c2_eq]))

theorem g1_top (c : TcObj ℝ) (n : Int) (h : Positive c.p) : c.dLamYt2G12 n = lamG1 top c.p n (stop c.p) := by
  obtain ⟨h1, h2, h3, h4, h5⟩ := h.sqrt
  unfold TcObj.dLamYt2G12
  fam
  field_simp
  ring
theorem g1_bottom (c : TcObj ℝ) (n : Int) (h : Positive c.p) : c.dLamYb2G12 n = lamG1 bottom c.p n (sbottom c.p) := by
  obtain ⟨h1, h2, h3, h4, h5⟩ := h.sqrt
  unfold TcObj.dLamYb2G12
  fam
  field_simp
  ring
theorem g1_tau (c : TcObj ℝ) (n : Int) (h : Positive c.p) : c.dLamYtau2G12 n = lamG1 tau c.p n (stau c.p) := by
  obtain ⟨h1, h2, h3, h4, h5⟩ := h.sqrt
  unfold TcObj.dLamYtau2G12
  fam
  field_simp
  ring
theorem g2_top (c : TcObj ℝ) (n : Int) (h : Positive c.p) : c.dLamYt2G22 n = lamG2 top c.p n (stop c.p) := by
  obtain ⟨h1, h2, h3, h4, h5⟩ := h.sqrt
  unfold TcObj.dLamYt2G22
  fam
  field_simp
  ring
theorem g2_bottom (c : TcObj ℝ) (n : Int) (h : Positive c.p) : c.dLamYb2G22 n = lamG2 bottom c.p n (sbottom c.p) := by
  obtain ⟨h1, h2, h3, h4, h5⟩ := h.sqrt
  unfold TcObj.dLamYb2G22
  fam
  field_simp
  ring
theorem g2_tau (c : TcObj ℝ) (n : Int) (h : Positive c.p) : c.dLamYtau2G22 n = lamG2 tau c.p n (stau c.p) := by
  obtain ⟨h1, h2, h3, h4, h5⟩ := h.sqrt
  unfold TcObj.dLamYtau2G22
  fam
  field_simp
  ring
theorem y4_bottom (c : TcObj ℝ) (n : Int) (h : Positive c.p) : c.dLamYb4 n = lamY4 bottom c.p n (sbottom c.p) := by
  obtain ⟨h1, h2, h3, h4, h5⟩ := h.sqrt
  have e1 := Real.sq_sqrt h.1.le
  have e2 := Real.sq_sqrt h.2.2.1.le
  unfold TcObj.dLamYb4
  fam
  generalize Real.log _ = l1; generalize Real.log _ = l2; generalize TLF.F1 (F := ℝ) _ = f1; generalize TLF.F2 (F := ℝ) _ = f2
  rw [← e1, ← e2]
  simp only [Real.sqrt_sq h1.le, Real.sqrt_sq h3.le]
  field_simp
  ring
theorem y4_tau (c : TcObj ℝ) (n : Int) (h : Positive c.p) : c.dLamYtau4 n = lamY4 tau c.p n (stau c.p) := by
  obtain ⟨h1, h2, h3, h4, h5⟩ := h.sqrt
  have e1 := Real.sq_sqrt h.2.2.2.1.le
  have e2 := Real.sq_sqrt h.2.2.2.2.le
  unfold TcObj.dLamYtau4
  fam
  generalize Real.log _ = l1; generalize Real.log _ = l2; generalize TLF.F1 (F := ℝ) _ = f1; generalize TLF.F2 (F := ℝ) _ = f2
  rw [← e1, ← e2]
  simp only [Real.sqrt_sq h4.le, Real.sqrt_sq h5.le]
  field_simp
  ring


theorem self_tau (c : TcObj ℝ) (n : Int) (hv : 0 < c.p.vu) (h : Positive c.p) : c.dYtauYtau n = selfY tau (1 - sin2 c.p) c.p n (stau c.p) := by
  obtain ⟨h1, h2, h3, h4, h5⟩ := h.sqrt
  obtain ⟨t1, t2, t3, t4⟩ := trig_beta hv
  have t5 : eftCosBeta c.p ^ 2 = 1 - sin2 c.p := by unfold sin2; linarith
  unfold TcObj.dYtauYtau
  fam
  rw [t4, t5]
  unfold sin2
  field_simp
  ring
theorem self_top (c : TcObj ℝ) (n : Int) (hv : 0 < c.p.vu) (h : Positive c.p) : c.dYtYt n = selfY top (sin2 c.p) c.p n (stop c.p) := by
  obtain ⟨h1, h2, h3, h4, h5⟩ := h.sqrt
  obtain ⟨t1, t2, t3, t4⟩ := trig_beta hv
  have t5 : eftCosBeta c.p ^ 2 = 1 - sin2 c.p := by unfold sin2; linarith
  unfold TcObj.dYtYt
  fam
  rw [t5, t4]
  change _ / 8 = _
  rw [show c.p.vu ^ 2 / (c.p.vu ^ 2 + c.p.vd ^ 2) = sin2 c.p from rfl]
  generalize sin2 c.p = s
  field_simp
  ring
theorem strong_bottom (c : TcObj ℝ) (n : Int) : c.dYbAs n = strongY c.p n (sbottom c.p) := by
  unfold TcObj.dYbAs
  fam
  ring

/-! ### formulas of the top quark, which do not use the loop functions -/

/-- The soft masses `x`, `y` differ by more than 1% and not by a factor of `2^52`. -/
def Apart (x y : ℝ) : Prop := 1 / 2 ^ 52 < x / y ∧ 1 / 100 < |x / y - 1|

theorem apart_F {x y : ℝ} (hx : 0 < x) (hy : 0 < y) (h : Apart x y) : TLF.F1 (x / y) = TLF.Spec.F1 (x / y) ∧ TLF.F2 (x / y) = TLF.Spec.F2 (x / y) ∧
    TLF.F5 (x / y) = TLF.Spec.F5 (x / y) := by
  have a0 : ¬ |x / y| ≤ 1 / 2 ^ 52 := by rw [abs_of_pos (div_pos hx hy)]; exact not_le.2 h.1
  have a1 : ¬ |x / y - 1| ≤ 1 / 100 := not_le.2 h.2
  have a2 : ¬ |x / y + 1| ≤ 1 / 100 := by
    have := div_pos hx hy
    rw [abs_of_pos (by linarith)]; norm_num; linarith
  rw [TLF.F1_real, TLF.F2_real, TLF.F5_real]
  simp only [a0, a1, a2, if_false, and_self]

theorem apart_ne {x y : ℝ} (hx : 0 < x) (hy : 0 < y) (h : Apart x y) : x ^ 2 - y ^ 2 ≠ 0 := by
  intro e
  have : x = y := by nlinarith
  have h2 := h.2
  rw [this, div_self hy.ne'] at h2
  norm_num at h2

theorem vev_top (c : TcObj ℝ) (h : Positive c.p) (ha : Apart (stop c.p).mL (stop c.p).mR) : c.dVevYt2 .general = vevY2 top (stop c.p) := by
  obtain ⟨h1, h2, h3, h4, h5⟩ := h.sqrt
  have e1 := Real.sq_sqrt h.1.le
  have e2 := Real.sq_sqrt h.2.1.le
  have hF := (apart_F h1 h2 ha).2.2
  have hn : Real.sqrt (c.p.mq2 2 2) ^ 2 - Real.sqrt (c.p.mu2 2 2) ^ 2 ≠ 0 := apart_ne h1 h2 ha
  unfold TcObj.dVevYt2
  dsimp only
  fam
  simp only [show (Limit.general = Limit.qg) = False by simp, show (Limit.general = Limit.ug) = False by simp, or_self, if_false]
  rw [hF]
  unfold TLF.Spec.F5
  have l : Real.log (c.p.mq2 2 2 / c.p.mu2 2 2) = Real.log ((Real.sqrt (c.p.mq2 2 2) / Real.sqrt (c.p.mu2 2 2)) ^ 2) := by rw [div_pow, e1, e2]
  rw [l]
  generalize Real.log _ = L
  rw [← e1, ← e2]
  simp only [Real.sqrt_sq h1.le, Real.sqrt_sq h2.le]
  generalize Real.sqrt (c.p.mq2 2 2) = x at *; generalize Real.sqrt (c.p.mu2 2 2) = y at *
  have hn2 : y ^ 2 - x ^ 2 ≠ 0 := fun h => hn (by linarith)
  have hn3 : 1 - (x / y) ^ 2 = (y ^ 2 - x ^ 2) / y ^ 2 := by field_simp
  have hn4 : x ^ 2 - y ^ 2 = -(y ^ 2 - x ^ 2) := by ring
  rw [hn3, hn4]
  generalize hd : y ^ 2 - x ^ 2 = d at *
  field_simp
  ring

/-- the identity behind the corrections of the vacuum expectation value -/
theorem vev_id {a b x L : ℝ} (ha : 0 < a) (hb : 0 < b) (h : b ^ 2 - a ^ 2 ≠ 0) :
    x ^ 2 / (a * b) * (3 * (a / b) * (1 - (a / b) ^ 4 + 2 * (a / b) ^ 2 * L) / (1 - (a / b) ^ 2) ^ 3) / 12 =
      x ^ 2 * (2 * b ^ 2 * a ^ 2 * L + (b ^ 2) ^ 2 - (a ^ 2) ^ 2) / (4 * (b ^ 2 - a ^ 2) ^ 3) := by
  have hn3 : 1 - (a / b) ^ 2 = (b ^ 2 - a ^ 2) / b ^ 2 := by field_simp
  rw [hn3]
  generalize hd : b ^ 2 - a ^ 2 = d at *
  field_simp
  ring

theorem vev_bottom (c : TcObj ℝ) (h : Positive c.p) (ha : Apart (sbottom c.p).mL (sbottom c.p).mR)
    (hd : ¬ |c.p.mq2 2 2 - c.p.md2 2 2| < c.p.mq2 2 2 / 100) : c.dVevYb2 = vevY2 bottom (sbottom c.p) := by
  obtain ⟨h1, h2, h3, h4, h5⟩ := h.sqrt
  have e1 := Real.sq_sqrt h.1.le
  have e2 := Real.sq_sqrt h.2.2.1.le
  have hF := (apart_F h1 h3 ha).2.2
  have hn : Real.sqrt (c.p.mq2 2 2) ^ 2 - Real.sqrt (c.p.md2 2 2) ^ 2 ≠ 0 := apart_ne h1 h3 ha
  have hlt : FOps.lt (FOps.abs (c.p.mq2 2 2 - c.p.md2 2 2)) (c.p.mq2 2 2 * FOps.lit (1 / 100)) = false := by
    show decide (|_| < _) = false
    apply decide_eq_false
    simp only [real_lit]; push_cast; rw [mul_one_div]; exact hd
  unfold TcObj.dVevYb2
  simp only [hlt, if_false, Bool.false_eq_true]
  fam
  rw [hF]
  unfold TLF.Spec.F5
  have l : Real.log (c.p.mq2 2 2 / c.p.md2 2 2) = Real.log ((Real.sqrt (c.p.mq2 2 2) / Real.sqrt (c.p.md2 2 2)) ^ 2) := by rw [div_pow, e1, e2]
  rw [l]
  generalize Real.log _ = L
  have e := vev_id (x := calcXb c.p) (L := L) h1 h3 (fun h => hn (by linarith))
  rw [e1, e2] at e
  linear_combination (-3) * e

theorem vev_tau (c : TcObj ℝ) (h : Positive c.p) (ha : Apart (stau c.p).mL (stau c.p).mR)
    (hd : ¬ |c.p.ml2 2 2 - c.p.me2 2 2| < c.p.ml2 2 2 / 100) : c.dVevYtau2 = vevY2 tau (stau c.p) := by
  obtain ⟨h1, h2, h3, h4, h5⟩ := h.sqrt
  have e1 := Real.sq_sqrt h.2.2.2.1.le
  have e2 := Real.sq_sqrt h.2.2.2.2.le
  have hF := (apart_F h4 h5 ha).2.2
  have hn : Real.sqrt (c.p.ml2 2 2) ^ 2 - Real.sqrt (c.p.me2 2 2) ^ 2 ≠ 0 := apart_ne h4 h5 ha
  have hlt : FOps.lt (FOps.abs (c.p.ml2 2 2 - c.p.me2 2 2)) (c.p.ml2 2 2 * FOps.lit (1 / 100)) = false := by
    show decide (|_| < _) = false
    apply decide_eq_false
    simp only [real_lit]; push_cast; rw [mul_one_div]; exact hd
  unfold TcObj.dVevYtau2
  simp only [hlt, if_false, Bool.false_eq_true]
  fam
  rw [hF]
  unfold TLF.Spec.F5
  have l : Real.log (c.p.ml2 2 2 / c.p.me2 2 2) = Real.log ((Real.sqrt (c.p.ml2 2 2) / Real.sqrt (c.p.me2 2 2)) ^ 2) := by rw [div_pow, e1, e2]
  rw [l]
  generalize Real.log _ = L
  have e := vev_id (x := calcXtau c.p) (L := L) h4 h5 (fun h => hn (by linarith))
  rw [e1, e2] at e
  linear_combination (-1) * e

theorem y4_top (c : TcObj ℝ) (h : Positive c.p) (ha : Apart (stop c.p).mL (stop c.p).mR) (hM : c.p.MSt.x0 ≠ 0) (hs : c.p.scale ≠ 0) :
    c.dLamAt .general 1 = .ok (lamY4 top c.p 1 (stop c.p)) := by
  obtain ⟨h1, h2, h3, h4, h5⟩ := h.sqrt
  have e1 := Real.sq_sqrt h.1.le
  have e2 := Real.sq_sqrt h.2.1.le
  obtain ⟨hF1, hF2, -⟩ := apart_F h1 h2 ha
  have hn : Real.sqrt (c.p.mq2 2 2) ^ 2 - Real.sqrt (c.p.mu2 2 2) ^ 2 ≠ 0 := apart_ne h1 h2 ha
  show Except.ok (Thr.dLamAtGen (F := ℝ) _ _ _ _ _ _ _ _) = _
  refine congrArg Except.ok ?_
  unfold Thr.dLamAtGen logMR
  fam
  rw [hF1, hF2]
  unfold TLF.Spec.F1 TLF.Spec.F2
  have q0 := h.1; have u0 := h.2.1
  have lq : Real.log (c.p.MSt.x0 ^ 2 / c.p.scale ^ 2) + Real.log (c.p.mq2 2 2 / c.p.MSt.x0 ^ 2) = Real.log (c.p.mq2 2 2 / c.p.scale ^ 2) := by
    rw [← Real.log_mul (by positivity) (by positivity)]
    congr 1; field_simp
  have lu : Real.log (c.p.mu2 2 2 / c.p.mq2 2 2) = -Real.log ((Real.sqrt (c.p.mq2 2 2) / Real.sqrt (c.p.mu2 2 2)) ^ 2) := by
    rw [div_pow, e1, e2, ← Real.log_inv, inv_div]
  have lu2 : Real.log (c.p.mu2 2 2 / c.p.scale ^ 2) = Real.log (c.p.mq2 2 2 / c.p.scale ^ 2) - Real.log ((Real.sqrt (c.p.mq2 2 2) / Real.sqrt (c.p.mu2 2 2)) ^ 2) := by
    rw [div_pow, e1, e2, ← Real.log_div (by positivity) (by positivity)]
    congr 1; field_simp
  rw [one_mul, lq, lu, lu2]
  generalize Real.log _ = L1
  generalize Real.log _ = L2
  rw [← e1, ← e2]
  simp only [Real.sqrt_sq h1.le, Real.sqrt_sq h2.le]
  generalize Real.sqrt (c.p.mq2 2 2) = x at *; generalize Real.sqrt (c.p.mu2 2 2) = y at *
  have hn3 : (x / y) ^ 2 - 1 = (x ^ 2 - y ^ 2) / y ^ 2 := by field_simp
  rw [hn3]
  have hx : x ^ 2 = (x ^ 2 - y ^ 2) + y ^ 2 := by ring
  generalize hd : x ^ 2 - y ^ 2 = d at *
  field_simp
  ring_nf
  have x4 : x ^ 4 = (d + y ^ 2) ^ 2 := by rw [← hx]; ring
  rw [hx]
  ring

/-- `x` is a mass in units of the gluino mass. -/
def Far (x : ℝ) : Prop := 1 / 10000 < x ∧ 1 / 100 < |x - 1|

theorem far_F6 {x : ℝ} (h : Far x) : TLF.F6 x = TLF.Spec.F6 x := by
  have h0 : 0 < x := _root_.lt_trans (by norm_num) h.1
  have a0 : ¬ |x| ≤ 1 / 2 ^ 52 := by
    rw [abs_of_pos h0]
    have := h.1
    intro h2
    have : (1 : ℝ) / 2 ^ 52 < 1 / 10000 := by norm_num
    linarith
  have a1 : ¬ |x ^ 2 - 1| ≤ 1 / 100 := by
    rw [show x ^ 2 - 1 = (x - 1) * (x + 1) by ring, abs_mul, abs_of_pos (by linarith : 0 < x + 1)]
    have := h.2
    nlinarith
  rw [TLF.F6_real]; simp only [a0, a1, if_false]

theorem far_ne {x : ℝ} (h : Far x) : x ^ 2 ≠ 1 := by
  have h0 : 0 < x := _root_.lt_trans (by norm_num) h.1
  intro h2
  have : x = 1 := by nlinarith
  have h3 := h.2
  rw [this] at h3; norm_num at h3

theorem far_F9 {x y : ℝ} (h : Far x) (h' : Far y) (hn : 1 / 100000 < |x - y|) : TLF.F9 x y = TLF.Spec.F9 x y := by
  have h0 : 0 < x := _root_.lt_trans (by norm_num) h.1
  have h0' : 0 < y := _root_.lt_trans (by norm_num) h'.1
  rw [TLF.F9_real, abs_of_pos h0, abs_of_pos h0']
  simp only [not_le.2 h.2, not_le.2 h'.2, not_le.2 h.1, not_le.2 h'.1, not_le.2 hn, if_false, and_false]

/-- the identity behind the correction of the top Yukawa coupling by gluinos, with masses in units of the gluino mass -/
theorem strong_id {a b g X L La Lb : ℝ} (hg : 0 < g) (ha : a ^ 2 - 1 ≠ 0) (hb : b ^ 2 - 1 ≠ 0) (hab : a ^ 2 - b ^ 2 ≠ 0) :
    -(2 * (-2 * (L + La) + (a * g) ^ 2 * (b * g) ^ 2 / ((-g ^ 2 + (a * g) ^ 2) * (g ^ 2 - (b * g) ^ 2)) + g ^ 4 / ((g ^ 2 - (a * g) ^ 2) * (g ^ 2 - (b * g) ^ 2)) -
      (b * g) ^ 2 * (Lb - La) * (2 * g ^ 2 * ((a * g) ^ 2 - (b * g) ^ 2) - (a * g) ^ 2 * (b * g) ^ 2 - 4 * g * (b * g) ^ 2 * X + 4 * X * g ^ 3 + (b * g) ^ 4) /
        ((-(a * g) ^ 2 + (b * g) ^ 2) * (g ^ 2 - (b * g) ^ 2) ^ 2) -
      -La * g ^ 3 * (-4 * (a * g) ^ 2 * (b * g) ^ 2 * X + 4 * g ^ 2 * ((a * g) ^ 2 + (b * g) ^ 2) * X - 2 * ((a * g) ^ 2 + (b * g) ^ 2) * g ^ 3 - 4 * X * g ^ 4 +
        g * ((a * g) ^ 4 + (b * g) ^ 4) + 2 * g ^ 5) / ((g ^ 2 - (a * g) ^ 2) ^ 2 * (g ^ 2 - (b * g) ^ 2) ^ 2)) / 3) =
    4/3 * (1 + ((a ^ 2 - 3) / (4 * (1 - a ^ 2)) + a ^ 2 * (a ^ 2 - 2) / (2 * (1 - a ^ 2) ^ 2) * La) +
      ((b ^ 2 - 3) / (4 * (1 - b ^ 2)) + b ^ 2 * (b ^ 2 - 2) / (2 * (1 - b ^ 2) ^ 2) * Lb) -
      X * (2 / (a ^ 2 - b ^ 2) * (a ^ 2 / (a ^ 2 - 1) * La - b ^ 2 / (b ^ 2 - 1) * Lb)) / g + L) := by
  have n1 : -g ^ 2 + (a * g) ^ 2 = (a ^ 2 - 1) * g ^ 2 := by ring
  have n2 : g ^ 2 - (b * g) ^ 2 = -(b ^ 2 - 1) * g ^ 2 := by ring
  have n3 : g ^ 2 - (a * g) ^ 2 = -(a ^ 2 - 1) * g ^ 2 := by ring
  have n4 : -(a * g) ^ 2 + (b * g) ^ 2 = -(a ^ 2 - b ^ 2) * g ^ 2 := by ring
  have n5 : 1 - a ^ 2 = -(a ^ 2 - 1) := by ring
  have n6 : 1 - b ^ 2 = -(b ^ 2 - 1) := by ring
  rw [n1, n2, n3, n4, n5, n6]
  field_simp
  ring

theorem strong_top (c : TcObj ℝ) (h : Positive c.p) (hg : 0 < c.p.MG) (hM : c.p.MSt.x0 ≠ 0) (hs : c.p.scale ≠ 0)
    (ha : Far ((stop c.p).mL / c.p.MG)) (hb : Far ((stop c.p).mR / c.p.MG)) (hab : 1 / 100000 < |(stop c.p).mL / c.p.MG - (stop c.p).mR / c.p.MG|) :
    ∃ t, c.dYtAs .general 1 = .ok t ∧ -t = strongY c.p 1 (stop c.p) := by
  obtain ⟨h1, h2, h3, h4, h5⟩ := h.sqrt
  have e1 := Real.sq_sqrt h.1.le
  have e2 := Real.sq_sqrt h.2.1.le
  have q0 := h.1; have u0 := h.2.1
  refine ⟨_, rfl, ?_⟩
  unfold strongY
  rw [far_F6 ha, far_F6 hb, far_F9 ha hb hab]
  have na : ((stop c.p).mL / c.p.MG) ^ 2 - 1 ≠ 0 := sub_ne_zero.2 (far_ne ha)
  have nb : ((stop c.p).mR / c.p.MG) ^ 2 - 1 ≠ 0 := sub_ne_zero.2 (far_ne hb)
  have nab : ((stop c.p).mL / c.p.MG) ^ 2 - ((stop c.p).mR / c.p.MG) ^ 2 ≠ 0 := by
    intro e
    have p1 : 0 < (stop c.p).mL / c.p.MG := div_pos h1 hg
    have p2 : 0 < (stop c.p).mR / c.p.MG := div_pos h2 hg
    have : (stop c.p).mL / c.p.MG = (stop c.p).mR / c.p.MG := by nlinarith
    rw [this, sub_self, abs_zero] at hab
    norm_num at hab
  unfold Thr.dYtAsGen logMR
  fam
  unfold TLF.Spec.F6 TLF.Spec.F9
  have sg : Real.sqrt (c.p.MG ^ 2) = c.p.MG := Real.sqrt_sq hg.le
  have lq : Real.log (c.p.MSt.x0 ^ 2 / c.p.scale ^ 2) + Real.log (c.p.mq2 2 2 / c.p.MSt.x0 ^ 2) =
      Real.log (c.p.MG ^ 2 / c.p.scale ^ 2) + Real.log ((Real.sqrt (c.p.mq2 2 2) / c.p.MG) ^ 2) := by
    rw [div_pow _ c.p.MG, e1, ← Real.log_mul (by positivity) (by positivity), ← Real.log_mul (by positivity) (by positivity)]
    congr 1; field_simp
  have lu : Real.log (c.p.mu2 2 2 / Real.sqrt (c.p.mq2 2 2) ^ 2) = Real.log ((Real.sqrt (c.p.mu2 2 2) / c.p.MG) ^ 2) - Real.log ((Real.sqrt (c.p.mq2 2 2) / c.p.MG) ^ 2) := by
    rw [div_pow _ c.p.MG, div_pow _ c.p.MG, e1, e2, ← Real.log_div (by positivity) (by positivity)]
    congr 1; field_simp
  have lm : Real.log (c.p.MG ^ 2 / Real.sqrt (c.p.mq2 2 2) ^ 2) = -Real.log ((Real.sqrt (c.p.mq2 2 2) / c.p.MG) ^ 2) := by
    rw [div_pow _ c.p.MG, ← Real.log_inv, inv_div]
  rw [sg, one_mul, lq, lu, lm]
  have key := strong_id (X := calcXt c.p) (L := Real.log (c.p.MG ^ 2 / c.p.scale ^ 2)) (La := Real.log ((Real.sqrt (c.p.mq2 2 2) / c.p.MG) ^ 2))
    (Lb := Real.log ((Real.sqrt (c.p.mu2 2 2) / c.p.MG) ^ 2)) hg na nb nab
  simp only [Squarks.mL, Squarks.mR, stop, div_mul_cancel₀ _ hg.ne'] at key
  rw [e1, e2] at key
  rw [one_mul]
  refine Eq.trans ?_ key
  ring

/-! ### the property -/

/-- **C75.** The corrections of the quartic Higgs coupling by the electroweak gauge interactions of stops, sbottoms and staus are one function of the quantum numbers. -/
theorem C75_electroweak (dl : ℝ → ℝ) (phi : ℝ → ℝ → ℝ → ℝ) (c : TcObj ℝ) (s : Scheme) (n : Int) (h : Positive c.p) :
    c.thr (thrFns4 dl phi) .LAMBDA_YT2_G12 s n = .ok (lamG1 top c.p n (stop c.p)) ∧
    c.thr (thrFns4 dl phi) .LAMBDA_YB2_G12 s n = .ok (lamG1 bottom c.p n (sbottom c.p)) ∧
    c.thr (thrFns4 dl phi) .LAMBDA_YTAU2_G12 s n = .ok (lamG1 tau c.p n (stau c.p)) ∧
    c.thr (thrFns4 dl phi) .LAMBDA_YT2_G22 s n = .ok (lamG2 top c.p n (stop c.p)) ∧
    c.thr (thrFns4 dl phi) .LAMBDA_YB2_G22 s n = .ok (lamG2 bottom c.p n (sbottom c.p)) ∧
    c.thr (thrFns4 dl phi) .LAMBDA_YTAU2_G22 s n = .ok (lamG2 tau c.p n (stau c.p)) :=
  ⟨congrArg Except.ok (g1_top c n h), congrArg Except.ok (g1_bottom c n h), congrArg Except.ok (g1_tau c n h),
    congrArg Except.ok (g2_top c n h), congrArg Except.ok (g2_bottom c n h), congrArg Except.ok (g2_tau c n h)⟩

/-- **C75.** The corrections of order `y^4`.  The one of the top quark has its own formulas for equal masses, so it is compared outside of the limit. -/
theorem C75_quartic (dl : ℝ → ℝ) (phi : ℝ → ℝ → ℝ → ℝ) (c : TcObj ℝ) (s : Scheme) (n : Int) (h : Positive c.p) :
    c.thr (thrFns4 dl phi) .LAMBDA_YB4 s n = .ok (lamY4 bottom c.p n (sbottom c.p)) ∧
    c.thr (thrFns4 dl phi) .LAMBDA_YTAU4 s n = .ok (lamY4 tau c.p n (stau c.p)) ∧
    (c.limit = .general → Apart (stop c.p).mL (stop c.p).mR → c.p.MSt.x0 ≠ 0 → c.p.scale ≠ 0 →
      c.thr (thrFns4 dl phi) .LAMBDA_AT s 1 = .ok (lamY4 top c.p 1 (stop c.p))) := by
  refine ⟨congrArg Except.ok (y4_bottom c n h), congrArg Except.ok (y4_tau c n h), fun hl ha hM hs => ?_⟩
  show c.dLamAt c.limit 1 = _
  rw [hl]; exact y4_top c h ha hM hs

/-- **C75.** The corrections of the vacuum expectation value, outside the limits of equal masses. -/
theorem C75_vev (dl : ℝ → ℝ) (phi : ℝ → ℝ → ℝ → ℝ) (c : TcObj ℝ) (s : Scheme) (n : Int) (h : Positive c.p) :
    (c.limit = .general → Apart (stop c.p).mL (stop c.p).mR → c.thr (thrFns4 dl phi) .VEV_YT2 s n = .ok (vevY2 top (stop c.p))) ∧
    (Apart (sbottom c.p).mL (sbottom c.p).mR → ¬ |c.p.mq2 2 2 - c.p.md2 2 2| < c.p.mq2 2 2 / 100 →
      c.thr (thrFns4 dl phi) .VEV_YB2 s n = .ok (vevY2 bottom (sbottom c.p))) ∧
    (Apart (stau c.p).mL (stau c.p).mR → ¬ |c.p.ml2 2 2 - c.p.me2 2 2| < c.p.ml2 2 2 / 100 →
      c.thr (thrFns4 dl phi) .VEV_YTAU2 s n = .ok (vevY2 tau (stau c.p))) := by
  refine ⟨fun hl ha => ?_, fun ha hd => congrArg Except.ok (vev_bottom c h ha hd), fun ha hd => congrArg Except.ok (vev_tau c h ha hd)⟩
  show Except.ok (c.dVevYt2 c.limit) = _
  rw [hl]; exact congrArg Except.ok (vev_top c h ha)

/-- **C75.** The corrections of the Yukawa couplings of the quarks by gluinos. -/
theorem C75_strong (dl : ℝ → ℝ) (phi : ℝ → ℝ → ℝ → ℝ) (c : TcObj ℝ) (s : Scheme) (n : Int) (h : Positive c.p) :
    c.thr (thrFns4 dl phi) .YB_AS s n = .ok (strongY c.p n (sbottom c.p)) ∧
    (c.limit = .general → 0 < c.p.MG → c.p.MSt.x0 ≠ 0 → c.p.scale ≠ 0 → Far ((stop c.p).mL / c.p.MG) → Far ((stop c.p).mR / c.p.MG) →
      1 / 100000 < |(stop c.p).mL / c.p.MG - (stop c.p).mR / c.p.MG| →
      c.thr (thrFns4 dl phi) .YT_AS .DRBARPRIME 1 = .ok (strongY c.p 1 (stop c.p))) := by
  refine ⟨congrArg Except.ok (strong_bottom c n), fun hl hg hM hs ha hb hab => ?_⟩
  obtain ⟨t, e1, e2⟩ := strong_top c h hg hM hs ha hb hab
  show (c.dYtAs c.limit 1 >>= _) = _
  rw [hl, e1, ← e2]
  rfl

/-- **C75 (partial: not for the bottom quark, see `C75_bottom_violated`).** The corrections of the Yukawa couplings of top quark and tau by themselves. -/
theorem C75_self_partial (dl : ℝ → ℝ) (phi : ℝ → ℝ → ℝ → ℝ) (c : TcObj ℝ) (s : Scheme) (n : Int) (hv : 0 < c.p.vu) (h : Positive c.p) :
    c.thr (thrFns4 dl phi) .YT_YT s n = .ok (selfY top (sin2 c.p) c.p n (stop c.p)) ∧
    c.thr (thrFns4 dl phi) .YTAU_YTAU s n = .ok (selfY tau (1 - sin2 c.p) c.p n (stau c.p)) :=
  ⟨congrArg Except.ok (self_top c n hv h), congrArg Except.ok (self_tau c n hv h)⟩

theorem self_bottom (c : TcObj ℝ) (n : Int) (hv : 0 < c.p.vu) (h : Positive c.p) : c.dYbYb n = selfY bottom (1 - sin2 c.p) c.p n (sbottom c.p) +
    (1 - sin2 c.p) * (1 - 1 / sin2 c.p) / 4 * (sbottom c.p).Xh * TLF.F5 (sbottom c.p).r := by
  obtain ⟨h1, h2, h3, h4, h5⟩ := h.sqrt
  obtain ⟨t1, t2, t3, t4⟩ := trig_beta hv
  have t5 : eftCosBeta c.p ^ 2 = 1 - sin2 c.p := by unfold sin2; linarith
  have t6 : sin2 c.p ≠ 0 := by rw [show sin2 c.p = _ from t4.symm]; exact pow_ne_zero 2 t2
  unfold TcObj.dYbYb
  fam
  rw [t5, t4]
  change _ / 8 = _
  rw [show c.p.vu ^ 2 / (c.p.vu ^ 2 + c.p.vd ^ 2) = sin2 c.p from rfl]
  generalize sin2 c.p = s at *
  field_simp
  ring

/-- **C75 is violated by the correction of the bottom Yukawa coupling by itself**, exactly by a factor `1 / sin^2 β` in the contribution of `X_b`. -/
theorem C75_bottom_difference (dl : ℝ → ℝ) (phi : ℝ → ℝ → ℝ → ℝ) (c : TcObj ℝ) (s : Scheme) (n : Int) (hv : 0 < c.p.vu) (h : Positive c.p) :
    c.thr (thrFns4 dl phi) .YB_YB s n = .ok (selfY bottom (1 - sin2 c.p) c.p n (sbottom c.p) +
      (1 - sin2 c.p) * (1 - 1 / sin2 c.p) / 4 * (sbottom c.p).Xh * TLF.F5 (sbottom c.p).r) :=
  congrArg Except.ok (self_bottom c n hv h)

/-! ### exchange of top and bottom -/

/-- The parameter point with exchanged up- and down-type parameters. -/
noncomputable def exch (p : Params ℝ) : Params ℝ :=
  { p with vu := p.vd, vd := p.vu, mu2 := p.md2, md2 := p.mu2, Au := p.Ad, Ad := p.Au }
noncomputable def exchT (c : TcObj ℝ) : TcObj ℝ := { c with p := exch c.p }

theorem x_Xt (p : Params ℝ) (hd : 0 < p.vd) (hu : 0 < p.vu) : calcXt (exch p) = calcXb p := by
  unfold calcXt calcXb eftTanBeta
  show p.Ad 2 2 - p.mu / (p.vd / p.vu) = _
  field_simp
theorem x_Xb (p : Params ℝ) (hd : 0 < p.vd) (hu : 0 < p.vu) : calcXb (exch p) = calcXt p := by
  unfold calcXt calcXb eftTanBeta
  show p.Au 2 2 - p.mu * (p.vd / p.vu) = _
  field_simp
theorem x_sin (p : Params ℝ) : eftSinBeta (exch p) = eftCosBeta p := by
  unfold eftSinBeta eftCosBeta eftV eftV2
  show p.vd / _ = p.vd / _
  rw [show pow2 (exch p).vu + pow2 (exch p).vd = pow2 p.vu + pow2 p.vd from add_comm (pow2 p.vd) (pow2 p.vu)]
theorem x_cos (p : Params ℝ) : eftCosBeta (exch p) = eftSinBeta p := by
  unfold eftSinBeta eftCosBeta eftV eftV2
  show p.vu / _ = p.vu / _
  rw [show pow2 (exch p).vu + pow2 (exch p).vd = pow2 p.vu + pow2 p.vd from add_comm (pow2 p.vd) (pow2 p.vu)]

/-- how the correction of the top Yukawa coupling by the bottom Yukawa coupling differs from the correction of the bottom Yukawa coupling by the top Yukawa
coupling after the exchange -/
noncomputable def crossDifference (p : Params ℝ) : ℝ :=
  (stop p).Xh * TLF.F5 (stop p).r * sin2 p * (1 / (1 - sin2 p) - 1) / 4 +
    (sbottom p).Xh * TLF.F5 (sbottom p).r * (1 - sin2 p) * (1 / 2 - (1 + sin2 p) / (4 * sin2 p))

theorem cross (c : TcObj ℝ) (n : Int) (hu : 0 < c.p.vu) (hd : 0 < c.p.vd) (hm : c.p.mu ≠ 0) (h : Positive c.p) :
    c.dYtYb n = (exchT c).dYbYt n + crossDifference c.p := by
  obtain ⟨h1, h2, h3, h4, h5⟩ := h.sqrt
  obtain ⟨t1, t2, t3, t4⟩ := trig_beta hu
  have t5 : eftCosBeta c.p ^ 2 = 1 - sin2 c.p := by unfold sin2; linarith
  have t6 : sin2 c.p ≠ 0 := by rw [show sin2 c.p = _ from t4.symm]; exact pow_ne_zero 2 t2
  have t7 : 1 - sin2 c.p ≠ 0 := by
    rw [← t5, t3]; unfold cosSq; positivity
  have e1 : eftTanBeta (exch c.p) = c.p.vd / c.p.vu := rfl
  have e2 : (exchT c).p = exch c.p := rfl
  unfold TcObj.dYtYb TcObj.dYbYt
  rw [e2]
  simp only [x_Xt c.p hd hu, x_Xb c.p hd hu, x_sin, x_cos, e1, show (exch c.p).mu2 = c.p.md2 from rfl, show (exch c.p).md2 = c.p.mu2 from rfl,
    show (exch c.p).mq2 = c.p.mq2 from rfl, show (exch c.p).mu = c.p.mu from rfl, show (exch c.p).MA = c.p.MA from rfl,
    show (exch c.p).scale = c.p.scale from rfl, crossDifference]
  fam
  rw [t5, t4]
  rw [show c.p.vu ^ 2 / (c.p.vu ^ 2 + c.p.vd ^ 2) = sin2 c.p from rfl]
  generalize sin2 c.p = s at *
  field_simp
  ring

/-- **C75 is violated by the corrections of the Yukawa couplings of top and bottom by each other**: they do not go over into each other if the
up- and down-type parameters are exchanged; the difference is the contribution of `X_t` and `X_b` via the field renormalisation of the Higgs boson. -/
theorem C75_cross_difference (dl : ℝ → ℝ) (phi : ℝ → ℝ → ℝ → ℝ) (c : TcObj ℝ) (s : Scheme) (n : Int) (hu : 0 < c.p.vu) (hd : 0 < c.p.vd)
    (hm : c.p.mu ≠ 0) (h : Positive c.p) : ∃ t b, c.thr (thrFns4 dl phi) .YT_YB s n = .ok t ∧ (exchT c).thr (thrFns4 dl phi) .YB_YT s n = .ok b ∧
      t = b + crossDifference c.p :=
  ⟨_, _, rfl, rfl, cross c n hu hd hm h⟩

/-! ### points -/

/-- a point with `tan β = 3/4`, soft masses 1 and the trilinear couplings `x`, `y` (`X_t = x - 4/3`, `X_b = y - 3/4`) -/
noncomputable def famPoint (x y : ℝ) : Params ℝ :=
  { examplePoint with scale := 1, vu := 3, vd := 4, mq2 := fun _ _ => 1, mu2 := fun _ _ => 1, md2 := fun _ _ => 1, ml2 := fun _ _ => 1, me2 := fun _ _ => 1, mu := 1, Au := fun _ _ => x, Ad := fun _ _ => y }
noncomputable def famTc (x y : ℝ) : TcObj ℝ := ⟨famPoint x y, 1, 6⟩

theorem fam_positive (x y : ℝ) : Positive (famTc x y).p := ⟨one_pos, one_pos, one_pos, one_pos, one_pos⟩
theorem fam_sin2 (x y : ℝ) : sin2 (famTc x y).p = 9 / 25 := by
  show (3 : ℝ) ^ 2 / (3 ^ 2 + 4 ^ 2) = _; norm_num
theorem F5_one : TLF.F5 (1 : ℝ) = 1 := by
  rw [TLF.F5_real]; norm_num
theorem fam_stop (x y : ℝ) : (stop (famTc x y).p).Xh = (x - 4 / 3) ^ 2 ∧ (stop (famTc x y).p).r = 1 := by
  have : calcXt (famTc x y).p = x - 4 / 3 := by
    unfold calcXt eftTanBeta; show x - 1 / (3 / 4) = _; norm_num
  unfold Squarks.Xh Squarks.r Squarks.mL Squarks.mR stop
  rw [this]
  show (x - 4 / 3) ^ 2 / (Real.sqrt 1 * Real.sqrt 1) = _ ∧ Real.sqrt 1 / Real.sqrt 1 = 1
  norm_num
theorem fam_sbottom (x y : ℝ) : (sbottom (famTc x y).p).Xh = (y - 3 / 4) ^ 2 ∧ (sbottom (famTc x y).p).r = 1 := by
  have : calcXb (famTc x y).p = y - 3 / 4 := by
    unfold calcXb eftTanBeta; show y - 1 * (3 / 4) = _; norm_num
  unfold Squarks.Xh Squarks.r Squarks.mL Squarks.mR sbottom
  rw [this]
  show (y - 3 / 4) ^ 2 / (Real.sqrt 1 * Real.sqrt 1) = _ ∧ Real.sqrt 1 / Real.sqrt 1 = 1
  norm_num

theorem C75_bottom_violated (dl : ℝ → ℝ) (phi : ℝ → ℝ → ℝ → ℝ) (s : Scheme) (n : Int) : ∃ c : TcObj ℝ, 0 < c.p.vu ∧ Positive c.p ∧
    c.thr (thrFns4 dl phi) .YB_YB s n ≠ .ok (selfY bottom (1 - sin2 c.p) c.p n (sbottom c.p)) := by
  refine ⟨famTc 0 0, by show (0 : ℝ) < 3; norm_num, fam_positive 0 0, fun e => ?_⟩
  rw [C75_bottom_difference dl phi _ s n (by show (0 : ℝ) < 3; norm_num) (fam_positive 0 0)] at e
  have e := Except.ok.inj e
  rw [(fam_sbottom 0 0).1, (fam_sbottom 0 0).2, F5_one, fam_sin2] at e
  norm_num at e

/-- The difference vanishes for neither top nor bottom squarks: with `X_b = 0` the correction depends on `X_t`. -/
theorem C75_cross_violated (dl : ℝ → ℝ) (phi : ℝ → ℝ → ℝ → ℝ) (s : Scheme) (n : Int) : ∃ c : TcObj ℝ, 0 < c.p.vu ∧ 0 < c.p.vd ∧ c.p.mu ≠ 0 ∧
    Positive c.p ∧ calcXb c.p = 0 ∧ c.thr (thrFns4 dl phi) .YT_YB s n ≠ (exchT c).thr (thrFns4 dl phi) .YB_YT s n := by
  have v1 : (0 : ℝ) < 3 := by norm_num
  have v2 : (0 : ℝ) < 4 := by norm_num
  refine ⟨famTc 0 (3/4), v1, v2, one_ne_zero, fam_positive _ _, ?_, fun e => ?_⟩
  · unfold calcXb eftTanBeta; show (3 / 4 : ℝ) - 1 * (3 / 4) = 0; norm_num
  · obtain ⟨t, b, h1, h2, h3⟩ := C75_cross_difference dl phi (famTc 0 (3/4)) s n v1 v2 one_ne_zero (fam_positive _ _)
    rw [h1, h2] at e
    have e := Except.ok.inj e
    rw [e] at h3
    unfold crossDifference at h3
    rw [(fam_stop _ _).1, (fam_stop _ _).2, (fam_sbottom _ _).1, (fam_sbottom _ _).2, F5_one, fam_sin2] at h3
    norm_num at h3

/-- The hypotheses of `C75_quartic`, `C75_vev` and `C75_strong`: soft masses 2, 1 and a gluino mass of 4; a limit given by the member `massLimit3LThreshold`. -/
example : Apart (2 : ℝ) 1 ∧ Far ((2 : ℝ) / 4) ∧ Far ((1 : ℝ) / 4) ∧ (1 : ℝ) / 100000 < |(2 : ℝ) / 4 - 1 / 4| ∧ ¬ |(4 : ℝ) - 1| < 4 / 100 := by
  unfold Apart Far; norm_num [abs_of_pos, abs_of_neg]
example : Positive (famTc 0 0).p ∧ (sbottom (famTc 0 0).p).Xh = 9 / 16 := ⟨fam_positive 0 0, by rw [(fam_sbottom 0 0).1]; norm_num⟩

end Himalaya.Family
