import Verif.EFT.Model
import Mathlib.Analysis.Asymptotics.Lemmas
import Mathlib.Analysis.Normed.Field.Lemmas

/-!
# C38: conversion of the threshold corrections between the MSbar and the DRbar' scheme

Specification.  Write `a = g3^2/(4 pi)^2` for the coupling of the low-energy theory (MSbar).  The corrections in the scheme
`TEST` (that is, MSbar) are the coefficients of

* `g3(MSSM) = g3 (1 + a dg)`, hence `a(MSSM) = a (1 + a dg)^2`,
* `yt(MSSM) = yt (1 + a dy + a^2 dy2)`,
* `lambda = yt^4 (l1 + a l2 + a^2 l3)`.

The corrections in the scheme `DRBARPRIME` are the coefficients of the same relations solved for the low-energy couplings and
expanded in the coupling `a(MSSM)` of the full theory.
-/

set_option linter.unusedSimpArgs false
set_option linter.unusedVariables false

namespace Himalaya

open scoped Himalaya.FOps
open Asymptotics Filter Topology

/-- the coupling of the full theory -/
def fullCoupling (dg a : ℝ) : ℝ := a * (1 + a * dg) ^ 2

/-- `f = g` up to terms of order `a^n` -/
def AgreeTo (n : ℕ) (f g : ℝ → ℝ) : Prop := (fun a => f a - g a) =O[𝓝 0] fun a => a ^ n

theorem agree_of_factor {n : ℕ} {f g : ℝ → ℝ} (r : ℝ → ℝ) (hr : ContinuousAt r 0) (h : ∀ a, f a - g a = a ^ n * r a) :
    AgreeTo n f g := by
  have e : (fun a => f a - g a) = fun a => a ^ n * r a := funext h
  unfold AgreeTo
  rw [e]
  have := (isBigO_refl (fun a : ℝ => a ^ n) (𝓝 0)).mul (hr.isBigO_one ℝ)
  simpa using this

section
variable {T : ThrFns ℝ} {c : TcObj ℝ} {n : Int}

theorem bindOk {α β : Type} (x : α) (f : α → Except String β) : (Except.ok x >>= f) = f x := rfl

/-- what the six entries are, in terms of the five functions they are built from -/
structure Parts (T : ThrFns ℝ) (c : TcObj ℝ) (n : Int) (g y y2 l1 l2 l3 : ℝ) : Prop where
  hg : c.dG3 n = g
  hy : c.dYtAs c.limit n = .ok y
  hy2 : T.ytAs2 c c.limit n = .ok y2
  hl1 : c.dLamAt c.limit n = .ok l1
  hl2 : c.dLamAtAs T c.limit n = .ok l2
  hl3 : T.lamAtAs2 c c.limit n = .ok l3

theorem parts_of (g y y2 l1 l2 l3 : ℝ) (hg : c.thr T .G3_AS .TEST n = .ok g) (hy : c.thr T .YT_AS .TEST n = .ok y)
    (hy2 : c.thr T .YT_AS2 .TEST n = .ok y2) (h1 : c.thr T .LAMBDA_AT .TEST n = .ok l1)
    (h2 : c.thr T .LAMBDA_AT_AS .TEST n = .ok l2) (h3 : c.thr T .LAMBDA_AT_AS2 .TEST n = .ok l3) :
    Parts T c n g y y2 l1 l2 l3 := by
  have e : (Scheme.TEST = Scheme.DRBARPRIME) = False := by simp
  simp only [TcObj.thr, e, if_false] at hg hy hy2 h1 h2 h3
  refine ⟨by injection hg, ?_, ?_, h1, ?_, ?_⟩
  · cases h : c.dYtAs c.limit n with
    | error s => rw [h] at hy; cases hy
    | ok t => rw [h] at hy; injection hy with hy; rw [hy]
  · cases h : T.ytAs2 c c.limit n with
    | error s => rw [h] at hy2; cases hy2
    | ok t => rw [h] at hy2; injection hy2 with hy; rw [hy]
  · cases h : c.dLamAtAs T c.limit n with
    | error s => rw [h] at h2; cases h2
    | ok t => rw [h] at h2; injection h2 with hy; rw [hy]
  · cases h : T.lamAtAs2 c c.limit n with
    | error s => rw [h] at h3; cases h3
    | ok t => rw [h] at h3; injection h3 with hy; rw [hy]

theorem drbar_of (g y y2 l1 l2 l3 : ℝ) (P : Parts T c n g y y2 l1 l2 l3) :
    c.thr T .G3_AS .DRBARPRIME n = .ok (-g) ∧ c.thr T .YT_AS .DRBARPRIME n = .ok (-y) ∧
    c.thr T .YT_AS2 .DRBARPRIME n = .ok (2 * g * y + y * y - y2) ∧ c.thr T .LAMBDA_AT .DRBARPRIME n = .ok l1 ∧
    c.thr T .LAMBDA_AT_AS .DRBARPRIME n = .ok (l2 - 4 * l1 * y) ∧
    c.thr T .LAMBDA_AT_AS2 .DRBARPRIME n =
      .ok (l3 + (l2 * (-2 * g - 4 * y) + l1 * (8 * g * y + 10 * (y * y) - 4 * y2))) := by
  obtain ⟨hg, hy, hy2, h1, h2, h3⟩ := P
  simp only [TcObj.thr, if_true, hg, hy, hy2, h1, h2, h3, bindOk, pow2, pure, Except.pure, real_ofNat]
  push_cast
  simp

/-- **C38.** Whenever the six corrections are available in the MSbar scheme, they are available in the DRbar' scheme, and the
two sets of numbers describe the same relations: the DRbar' strong coupling and top Yukawa coupling corrections invert the MSbar
ones through second order, and the quartic coupling of the low-energy theory, computed with either set from the same theory,
agrees through the highest order included.  For every parameter point, mass limit and setting of the logarithms. -/
theorem C38_series (g y y2 l1 l2 l3 : ℝ) (hg : c.thr T .G3_AS .TEST n = .ok g) (hy : c.thr T .YT_AS .TEST n = .ok y)
    (hy2 : c.thr T .YT_AS2 .TEST n = .ok y2) (h1 : c.thr T .LAMBDA_AT .TEST n = .ok l1)
    (h2 : c.thr T .LAMBDA_AT_AS .TEST n = .ok l2) (h3 : c.thr T .LAMBDA_AT_AS2 .TEST n = .ok l3) :
    ∃ G Y Y2 L1 L2 L3, c.thr T .G3_AS .DRBARPRIME n = .ok G ∧ c.thr T .YT_AS .DRBARPRIME n = .ok Y ∧
      c.thr T .YT_AS2 .DRBARPRIME n = .ok Y2 ∧ c.thr T .LAMBDA_AT .DRBARPRIME n = .ok L1 ∧
      c.thr T .LAMBDA_AT_AS .DRBARPRIME n = .ok L2 ∧ c.thr T .LAMBDA_AT_AS2 .DRBARPRIME n = .ok L3 ∧
      AgreeTo 2 (fun a => (1 + a * g) * (1 + fullCoupling g a * G)) (fun _ => 1) ∧
      AgreeTo 3 (fun a => (1 + a * y + a ^ 2 * y2) * (1 + fullCoupling g a * Y + fullCoupling g a ^ 2 * Y2)) (fun _ => 1) ∧
      AgreeTo 3 (fun a => (1 + a * y + a ^ 2 * y2) ^ 4 * (L1 + fullCoupling g a * L2 + fullCoupling g a ^ 2 * L3))
        (fun a => l1 + a * l2 + a ^ 2 * l3) := by
  obtain ⟨e1, e2, e3, e4, e5, e6⟩ := drbar_of _ _ _ _ _ _ (parts_of g y y2 l1 l2 l3 hg hy hy2 h1 h2 h3)
  refine ⟨_, _, _, _, _, _, e1, e2, e3, e4, e5, e6, ?_, ?_, ?_⟩
  · refine agree_of_factor (fun a => -3 * g ^ 2 - 3 * a * g ^ 3 - a ^ 2 * g ^ 4) (by fun_prop) fun a => ?_
    simp only [fullCoupling]; ring
  · obtain ⟨r, hr⟩ : ∃ r : ℝ → ℝ, ContinuousAt r 0 ∧ ∀ a,
        (1 + a * y + a ^ 2 * y2) * (1 + fullCoupling g a * -y + fullCoupling g a ^ 2 * (2 * g * y + y * y - y2)) - 1
          = a ^ 3 * r a := by
      refine ⟨fun a => -(y * g ^ 2) + 4 * g * (2 * g * y + y * y - y2) - 2 * g * y ^ 2 + y * (2 * g * y + y * y - y2) - y * y2
        + a * (6 * g ^ 2 * (2 * g * y + y * y - y2) - g ^ 2 * y ^ 2 + 4 * g * y * (2 * g * y + y * y - y2)
            + y2 * (2 * g * y + y * y - y2) - 2 * g * y * y2)
        + a ^ 2 * (4 * g ^ 3 * (2 * g * y + y * y - y2) + 6 * g ^ 2 * y * (2 * g * y + y * y - y2)
            + 4 * g * y2 * (2 * g * y + y * y - y2) - g ^ 2 * y * y2)
        + a ^ 3 * (g ^ 4 * (2 * g * y + y * y - y2) + 4 * g ^ 3 * y * (2 * g * y + y * y - y2)
            + 6 * g ^ 2 * y2 * (2 * g * y + y * y - y2))
        + a ^ 4 * (g ^ 4 * y * (2 * g * y + y * y - y2) + 4 * g ^ 3 * y2 * (2 * g * y + y * y - y2))
        + a ^ 5 * (g ^ 4 * y2 * (2 * g * y + y * y - y2)), by fun_prop, fun a => ?_⟩
      simp only [fullCoupling]; ring
    exact agree_of_factor r hr.1 hr.2
  · -- divide by a^3 symbolically: both sides are polynomials in `a`
    set M2 := l2 - 4 * l1 * y with hM2
    set M3 := l3 + (l2 * (-2 * g - 4 * y) + l1 * (8 * g * y + 10 * (y * y) - 4 * y2)) with hM3
    set Q : ℝ → ℝ := fun a => 4 * y ^ 3 + a * y ^ 4 + 12 * y * y2 + 12 * a * y ^ 2 * y2 + 4 * a ^ 2 * y ^ 3 * y2 + 6 * a * y2 ^ 2
      + 12 * a ^ 2 * y * y2 ^ 2 + 6 * a ^ 3 * y ^ 2 * y2 ^ 2 + 4 * a ^ 3 * y2 ^ 3 + 4 * a ^ 4 * y * y2 ^ 3 + a ^ 5 * y2 ^ 4
      with hQ
    have hq : ∀ a, (1 + a * y + a ^ 2 * y2) ^ 4 = 1 + 4 * a * y + a ^ 2 * (6 * y ^ 2 + 4 * y2) + a ^ 3 * Q a := by
      intro a; simp only [hQ]; ring
    have hm : ∀ a, l1 + fullCoupling g a * M2 + fullCoupling g a ^ 2 * M3 =
        l1 + a * M2 + a ^ 2 * (2 * g * M2 + M3)
          + a ^ 3 * (g ^ 2 * M2 + M3 * (4 * g + 6 * a * g ^ 2 + 4 * a ^ 2 * g ^ 3 + a ^ 3 * g ^ 4)) := by
      intro a; simp only [fullCoupling]; ring
    refine agree_of_factor (fun a => Q a * (l1 + fullCoupling g a * M2 + fullCoupling g a ^ 2 * M3)
      + (1 + 4 * a * y + a ^ 2 * (6 * y ^ 2 + 4 * y2)) *
        (g ^ 2 * M2 + M3 * (4 * g + 6 * a * g ^ 2 + 4 * a ^ 2 * g ^ 3 + a ^ 3 * g ^ 4))
      + (4 * y * (2 * g * M2 + M3) + (6 * y ^ 2 + 4 * y2) * M2) + a * ((6 * y ^ 2 + 4 * y2) * (2 * g * M2 + M3))) ?_ fun a => ?_
    · have : Continuous Q := by fun_prop
      have h : Continuous (fullCoupling g) := by unfold fullCoupling; fun_prop
      exact (by fun_prop : Continuous _).continuousAt
    · rw [hq a]
      linear_combination (1 + 4 * a * y + a ^ 2 * (6 * y ^ 2 + 4 * y2)) * hm a
        + (a + 4 * a ^ 2 * y) * hM2 + a ^ 2 * hM3 + 2 * a ^ 2 * g * hM2

/-- **C38.** The reported three-loop shift converts the quartic coupling back: DRbar' value plus shift is the MSbar value plus the
terms of the order `Xt^4` (only if truncated at `Xt^3`), `Xt^5` and `Xt^6` that the truncation leaves out. -/
theorem C38_shift (L3 l3 s x4 x5 x6 : ℝ) (xt m : Int) (hD : c.thr T .LAMBDA_AT_AS2 .DRBARPRIME n = .ok L3)
    (hM : c.thr T .LAMBDA_AT_AS2 .TEST n = .ok l3) (hs : c.shift T xt n m = .ok s)
    (h4 : T.xtTerms c c.limit 4 m = .ok x4) (h5 : T.xtTerms c c.limit 5 m = .ok x5) (h6 : T.xtTerms c c.limit 6 m = .ok x6) :
    L3 + s = l3 + ((if xt ≤ 3 then x4 else 0) + x5 + x6) := by
  have e : (Scheme.TEST = Scheme.DRBARPRIME) = False := by simp
  simp only [TcObj.thr, e, if_false, if_true] at hD hM
  unfold TcObj.shift at hs
  simp only [h4, h5, h6, bindOk, pure, Except.pure] at hs
  cases a1 : T.lamAtAs2 c c.limit n with
  | error s => rw [a1] at hM; cases hM
  | ok t =>
  rw [a1] at hM hD; simp only [bindOk, pure, Except.pure] at hM hD
  cases a2 : c.dYtAs c.limit n with
  | error s => rw [a2] at hD; cases hD
  | ok y =>
  rw [a2] at hD hs; simp only [bindOk, pure, Except.pure] at hD
  cases a3 : c.dLamAtAs T c.limit n with
  | error s => rw [a3] at hD; cases hD
  | ok l2 =>
  rw [a3] at hD hs; simp only [bindOk, pure, Except.pure] at hD
  cases a4 : c.dLamAt c.limit n with
  | error s => rw [a4] at hD; cases hD
  | ok l1 =>
  rw [a4] at hD hs; simp only [bindOk, pure, Except.pure] at hD
  cases a5 : T.ytAs2 c c.limit n with
  | error s => rw [a5] at hD; cases hD
  | ok y2 =>
  rw [a5] at hD hs; simp only [bindOk, pure, Except.pure] at hD
  injection hD with hD; injection hM with hM
  by_cases hx : xt ≤ 3
  · simp only [hx, if_true, bindOk] at hs ⊢
    injection hs with hs
    rw [← hD, ← hs, ← hM]
    simp only [pow2, real_ofNat]; push_cast; ring
  · simp only [hx, if_false, bindOk] at hs ⊢
    injection hs with hs
    rw [← hD, ← hs, ← hM]
    simp only [pow2, real_ofNat]; push_cast; ring

end

/-- **C38.** A mass limit outside the enumeration is rejected by every correction of order `at as^n` that has a mass dependence,
and all of the enumerated ones are accepted by the corrections of lower order. -/
theorem C38_limits {F : Type} [Add F] [Sub F] [Mul F] [Div F] [Neg F] [FOps F] (T : ThrFns F) (c : TcObj F) (s : Scheme) (n : Int) :
    (0 ≤ c.p.massLimit3LThreshold ∧ c.p.massLimit3LThreshold ≤ 5 →
      ∀ o ∈ [ThrOrder.G3_AS, .YT_AS, .LAMBDA_AT, .LAMBDA_AT_AS], ∃ x, c.thr T o s n = .ok x) ∧
    (¬ (0 ≤ c.p.massLimit3LThreshold ∧ c.p.massLimit3LThreshold ≤ 5) →
      ∀ o ∈ [ThrOrder.YT_AS, .LAMBDA_AT, .LAMBDA_AT_AS], c.thr T o s n = .error "Mass limit not included!") := by
  constructor
  · intro h o ho
    have : c.p.massLimit3LThreshold = 0 ∨ c.p.massLimit3LThreshold = 1 ∨ c.p.massLimit3LThreshold = 2 ∨
      c.p.massLimit3LThreshold = 3 ∨ c.p.massLimit3LThreshold = 4 ∨ c.p.massLimit3LThreshold = 5 := by omega
    simp only [List.mem_cons, List.not_mem_nil, or_false] at ho
    rcases ho with rfl | rfl | rfl | rfl
    · exact ⟨_, rfl⟩
    all_goals
      rcases this with e | e | e | e | e | e <;>
      · by_cases hs : s = Scheme.DRBARPRIME <;>
        · simp only [TcObj.thr, TcObj.limit, e, hs, if_true, if_false]
          exact ⟨_, rfl⟩
  · intro h o ho
    have : c.limit = .other c.p.massLimit3LThreshold := by
      unfold TcObj.limit Limit.ofInt
      rw [if_neg (by omega), if_neg (by omega), if_neg (by omega), if_neg (by omega), if_neg (by omega), if_neg (by omega)]
    simp only [List.mem_cons, List.not_mem_nil, or_false] at ho
    rcases ho with rfl | rfl | rfl <;> simp only [TcObj.thr, this] <;> rfl

/-- external corrections for the examples -/
noncomputable def demoThr : ThrFns ℝ where
  dilog := id
  ytAs2 _ _ _ := .ok 3
  lamAtAs2 _ _ _ := .ok 5
  xtTerms _ _ k _ := .ok (k : ℝ)
  other _ _ _ := .ok 0

/-- the hypotheses of `C38_series` and `C38_shift` are met at every point with an enumerated mass limit -/
example (c : TcObj ℝ) (h : c.p.massLimit3LThreshold = 4) : ∃ g y y2 l1 l2 l3 L3 s : ℝ,
    c.thr demoThr .G3_AS .TEST 1 = .ok g ∧ c.thr demoThr .YT_AS .TEST 1 = .ok y ∧ c.thr demoThr .YT_AS2 .TEST 1 = .ok y2 ∧
    c.thr demoThr .LAMBDA_AT .TEST 1 = .ok l1 ∧ c.thr demoThr .LAMBDA_AT_AS .TEST 1 = .ok l2 ∧
    c.thr demoThr .LAMBDA_AT_AS2 .TEST 1 = .ok l3 ∧ c.thr demoThr .LAMBDA_AT_AS2 .DRBARPRIME 1 = .ok L3 ∧
    c.shift demoThr 4 1 0 = .ok s := by
  simp only [TcObj.thr, TcObj.shift, TcObj.limit, h]
  exact ⟨_, _, _, _, _, _, _, _, rfl, rfl, rfl, rfl, rfl, rfl, rfl, rfl⟩

end Himalaya
