import Verif.Hier.Spec

/-!
# The correction to the mass of the SM-like Higgs boson

The `h`-`h` element of the self-energy matrix in the direction `(cos β, sin β)`.  At fixed stop masses and stop mixing angle it
cannot depend on `μ`: the SM-like Higgs boson couples to the stops through `X_t` only.
-/

set_option linter.unusedVariables false
set_option linter.unusedSimpArgs false
set_option maxRecDepth 100000

namespace Himalaya

open scoped Himalaya

/-- The element of the matrix `((S1, S12), (S12, S2))` in the direction `(cos β, sin β)`. -/
noncomputable def smLike (S1 S2 S12 : SelfEnergy) (k : HConst ℝ) (h : HMem ℝ) : ℝ :=
  h.Cbeta ^ 2 * S1 k h + 2 * h.Sbeta * h.Cbeta * S12 k h + h.Sbeta ^ 2 * S2 k h

/-- `Sbeta`, `Cbeta`, `Tbeta` are the sine, cosine and tangent of one angle. -/
def HMem.angle (h : HMem ℝ) : Prop := h.Sbeta ^ 2 + h.Cbeta ^ 2 = 1 ∧ h.Cbeta ≠ 0 ∧ h.Tbeta = h.Sbeta / h.Cbeta

/-- The correction to the mass of the SM-like Higgs boson does not depend on `μ` at fixed stop masses and mixing angle, on the
points that satisfy `P`. -/
def MuIndependent (reg P : HMem ℝ → Prop) (S1 S2 S12 : SelfEnergy) : Prop :=
  ∀ (k : HConst ℝ) (h : HMem ℝ) (μ : ℝ), reg h → h.angle → P h →
    smLike S1 S2 S12 k { h with MuSUSY := μ } = smLike S1 S2 S12 k h

namespace Laur

open Kron (E eval)

section
variable {F : Type} [Add F] [Sub F] [Mul F] [Div F] [Neg F] [FOps F]

open scoped Himalaya Himalaya.FOps in
/-- `smLike / Sbeta²` as a Laurent polynomial: `1/Sbeta² - 1 - 1/Tbeta²` vanishes -/
def projF (T s S1 S2 S12 : F) : F := S1 / (T * T) + 2 * S12 / T + S2 - S1 * (1 / (s * s) - 1 - 1 / (T * T))

end

theorem projF_eq {h : HMem ℝ} (ha : h.angle) (hs : h.Sbeta ≠ 0) (a b c : ℝ) :
    h.Sbeta ^ 2 * projF h.Tbeta h.Sbeta a b c = h.Cbeta ^ 2 * a + 2 * h.Sbeta * h.Cbeta * c + h.Sbeta ^ 2 * b := by
  obtain ⟨h1, h2, h3⟩ := ha
  have e : 1 / (h.Sbeta * h.Sbeta) - 1 - 1 / (h.Tbeta * h.Tbeta) = 0 := by
    rw [h3]; field_simp; linear_combination -h1
  unfold projF
  simp only [real_ofNat]
  push_cast
  rw [e, h3]; field_simp; ring

/-- from the test of the exponents of `μ` -/
theorem muIndependent_of_tab {n m j : ℕ} {c : ℕ → Bool} {P : HConst ℝ → HMem ℝ → List ℝ} {S1 S2 S12 : SelfEnergy}
    {reg Q : HMem ℝ → Prop} {S : SelfEnergy} (N : Nonempty (Normal c n m P S)) (hc : ∀ k, c k = true → tabB [j] [[512]] k = true)
    (hS : ∀ k h, Q h → S k h = projF h.Tbeta h.Sbeta (S1 k h) (S2 k h) (S12 k h))
    (hr : ∀ k h, reg h → NZ m (P k h)) (hs : ∀ h, reg h → h.Sbeta ≠ 0)
    (hreg : ∀ (h : HMem ℝ) μ, reg h → reg { h with MuSUSY := μ }) (hQ : ∀ (h : HMem ℝ) μ, Q h → Q { h with MuSUSY := μ })
    (ho : ∀ k (h : HMem ℝ) μ, ones (P k { h with MuSUSY := μ }) [j] = ones (P k h) [j]) : MuIndependent reg Q S1 S2 S12 := by
  intro k h μ r ha q
  obtain ⟨N⟩ := N
  obtain ⟨C, hC⟩ := N.tab _ _ hc
  have e1 := hC k { h with MuSUSY := μ } (hr k _ (hreg h μ r))
  have e2 := hC k h (hr k _ r)
  simp only [sumTab, pw] at e1 e2
  norm_num at e1 e2
  rw [ho] at e1
  have p1 := projF_eq (h := { h with MuSUSY := μ }) ha (hs _ (hreg h μ r)) (S1 k { h with MuSUSY := μ }) (S2 k { h with MuSUSY := μ })
    (S12 k { h with MuSUSY := μ })
  have p2 := projF_eq (h := h) ha (hs _ r) (S1 k h) (S2 k h) (S12 k h)
  rw [← hS k _ (hQ h μ q), e1] at p1
  rw [← hS k _ q, e2] at p2
  exact p1.symm.trans p2

end Laur

end Himalaya
