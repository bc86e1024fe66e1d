import Verif.Hier.Wit
import Verif.Hier.Proj
import Verif.Hier.Coef

/-!
# C67 (independence of `μ`), C68 (couplings of the first Higgs doublet), C69 (`Δλ`), C70 (truncation) of the hierarchy classes
-/

set_option linter.unusedVariables false
set_option linter.unusedSimpArgs false
set_option linter.unusedTactic false
set_option linter.unreachableTactic false

namespace Himalaya

open scoped Himalaya

/-! ### C67 -/

theorem MuIndependent.mono {reg reg' P : HMem ℝ → Prop} {S1 S2 S12 : SelfEnergy} (h : MuIndependent reg P S1 S2 S12)
    (hr : ∀ h, reg' h → reg h) : MuIndependent reg' P S1 S2 S12 := fun k m μ r => h k m μ (hr m r)

/-- the classes whose three-loop formulas are independent of `μ` -/
theorem class_mu (k : Int) (C : ClassFns ℝ) (hC : classFns k = some C) (hk : k ≤ 2 ∨ 12 ≤ k) :
    MuIndependent (classReg k) (fun h => k ≤ 2 → h.xDmst12 = 1) C.S1 C.S2 C.S12 := by
  revert hk
  refine classFns_cases (Q := fun k C => (k ≤ 2 ∨ 12 ≤ k) → MuIndependent (classReg k) (fun h => k ≤ 2 → h.xDmst12 = 1) C.S1 C.S2 C.S12)
    ?_ ?_ ?_ ?_ ?_ ?_ ?_ ?_ ?_ ?_ ?_ ?_ ?_ ?_ k C hC <;> intro C hC hk <;> first | omega | cases hC
  · intro kc h μ r ha q; exact H3.muIndependent kc h μ r ha (q (by norm_num))
  · intro kc h μ r ha q; exact H32q2g.muIndependent kc h μ r ha (q (by norm_num))
  · intro kc h μ r ha q; exact H3q22g.muIndependent kc h μ r ha (q (by norm_num))
  · intro kc h μ r ha q; exact H9.muIndependent kc h μ r ha trivial
  · intro kc h μ r ha q; exact H9q2.muIndependent kc h μ r ha trivial

/-- The correction to the squared mass of the SM-like Higgs boson: the element of the matrix in the direction `(cos β, sin β)`. -/
noncomputable def HierOut.smLike (β : ℝ) (r : HierOut ℝ) : ℝ :=
  Real.cos β ^ 2 * r.s1 + 2 * Real.sin β * Real.cos β * r.s12 + Real.sin β ^ 2 * r.s2

/-- **C67** The SM-like Higgs boson couples to the stops through `X_t` only.  At fixed (s)fermion masses and mixing angle the
correction of the hierarchies h3, h32q2g, h3q22g, h9, h9q2 to its squared mass does not depend on `μ`, at one, two and three loops (in
the first three hierarchies without truncation in `Mst1² - Mst2²`). -/
theorem C67_mu_independent (kc : HConst ℝ) (p : Params ℝ) (ho : HObj ℝ) (M1 M2 : ℝ) (xs : List Int) (mdr : Int) (fl : LoopFlags)
    (μ : ℝ) (hr : RegularPoint p M1 M2) (hk : ho.getSuitableHierarchy ≤ 2 ∨ 12 ≤ ho.getSuitableHierarchy)
    (hx : ho.getSuitableHierarchy ≤ 2 → flagOf ho.getSuitableHierarchy xs XD.Dmst12 = (1 : ℝ)) (r : HierOut ℝ)
    (h : selfEnergies kc p ho M1 M2 xs mdr fl = .ok r) :
    ∃ r', selfEnergies kc { p with mu := μ } ho M1 M2 xs mdr fl = .ok r' ∧
      r'.smLike (Real.arctan (p.vu / p.vd)) = r.smLike (Real.arctan (p.vu / p.vd)) := by
  obtain ⟨C, ps, hC, hp⟩ := selfEnergies_eq kc p ho M1 M2 xs mdr fl r h
  rw [selfEnergies_of kc p ho M1 M2 xs mdr fl hC hp] at h
  have reg := classReg_of_regular hr xs mdr fl hC hp
  refine ⟨_, selfEnergies_of kc _ ho _ _ xs mdr fl hC hp, ?_⟩
  have mu := class_mu _ C hC hk
  have hmem : HParam.MuSUSY ∈ ps ∧ HParam.beta ∈ ps := by
    clear h reg mu hx
    revert hk hp
    generalize ho.getSuitableHierarchy = k at hC
    refine classFns_cases (Q := fun k C => (k ≤ 2 ∨ 12 ≤ k) → ctorParams k = some ps → HParam.MuSUSY ∈ ps ∧ HParam.beta ∈ ps)
      ?_ ?_ ?_ ?_ ?_ ?_ ?_ ?_ ?_ ?_ ?_ ?_ ?_ ?_ k C hC <;> intro C hC hk hp <;> first | omega | cases hp
    all_goals exact ⟨by decide, by decide⟩
  have key : classMem Real.tan ho.getSuitableHierarchy ps xs (ps.map (meaningAt { p with mu := μ } ho M1 M2)) mdr fl =
      { classMem Real.tan ho.getSuitableHierarchy ps xs (ps.map (meaningAt p ho M1 M2)) mdr fl with MuSUSY := μ } := by
    simp only [classMem, argOf_map, if_pos hmem.1]
    rfl
  have hb : argOf ps (ps.map (meaningAt p ho M1 M2)) .beta = Real.arctan (p.vu / p.vd) := by
    rw [argOf_map, if_pos hmem.2]; rfl
  have ang : HMem.angle (classMem Real.tan ho.getSuitableHierarchy ps xs (ps.map (meaningAt p ho M1 M2)) mdr fl) := by
    refine ⟨?_, ?_, ?_⟩
    · simp only [classMem, real_sin, real_cos]; exact Real.sin_sq_add_cos_sq _
    · simp only [classMem, real_cos, hb]; exact (Real.cos_arctan_pos _).ne'
    · simp only [classMem, real_sin, real_cos]; exact Real.tan_eq_sin_div_cos _
  have e := mu kc _ μ reg ang (fun hk2 => hx hk2)
  cases h
  simp only [key, HierOut.smLike, ← hb]
  exact e

/-- a point where the classes are regular and `tan β = 3/4` -/
structure WitPoint (h : HMem ℝ) : Prop where
  ok : h.Ok
  angle : h.angle

theorem cast_wit (h : HMem ℚ) (h1 : h.Sbeta = 3 / 5) (h2 : h.Cbeta = 4 / 5) (h3 : h.Tbeta = 3 / 4) (h4 : h.Mst1 ≠ 0) (h5 : h.Mst2 ≠ 0)
    (h6 : h.Msq ≠ 0) (h7 : h.Mgl ≠ 0) (h8 : h.Msusy ≠ 0) : WitPoint h.cast := by
  refine ⟨⟨?_, ?_, ?_, ?_, ?_, ?_, ?_, ?_⟩, ?_, ?_, ?_⟩ <;> simp only [HMem.cast, h1, h2, h3] <;> first | exact_mod_cast ‹_› | norm_num

/-- a value of `smLike` with `tan β = 3/4` -/
theorem smLike_wit (S1 S2 S12 : SelfEnergy) (k : HConst ℝ) (h : HMem ℚ) (h1 : h.Sbeta = 3 / 5) (h2 : h.Cbeta = 4 / 5) :
    smLike S1 S2 S12 k h.cast = (16 * S1 k h.cast + 24 * S12 k h.cast + 9 * S2 k h.cast) / 25 := by
  unfold smLike
  have e1 : h.cast.Sbeta = 3 / 5 := by simp [HMem.cast, h1]
  have e2 : h.cast.Cbeta = 4 / 5 := by simp [HMem.cast, h2]
  rw [e1, e2]; ring

/-- the correction depends on `μ` at a regular point with the loop flags `(f1, f2, f3)` that satisfies `P` -/
def MuDepends (C : SelfEnergy × SelfEnergy × SelfEnergy) (f1 f2 f3 : ℝ) (P : HMem ℝ → Prop) : Prop :=
  ∃ (h : HMem ℝ) (μ : ℝ), WitPoint h ∧ h.oneLoopFlag = f1 ∧ h.twoLoopFlag = f2 ∧ h.threeLoopFlag = f3 ∧ P h ∧
    smLike C.1 C.2.1 C.2.2 codeConst { h with MuSUSY := μ } ≠ smLike C.1 C.2.1 C.2.2 codeConst h

theorem muDepends_of {S1 S2 S12 : SelfEnergy} {f1 f2 f3 : ℝ} {P : HMem ℝ → Prop} (a b : HMem ℚ)
    (h1 : a.Sbeta = 3 / 5) (h2 : a.Cbeta = 4 / 5) (h3 : a.Tbeta = 3 / 4) (h4 : a.Mst1 ≠ 0) (h5 : a.Mst2 ≠ 0)
    (h6 : a.Msq ≠ 0) (h7 : a.Mgl ≠ 0) (h8 : a.Msusy ≠ 0) (hb : b = { a with MuSUSY := b.MuSUSY })
    (hf : a.cast.oneLoopFlag = f1 ∧ a.cast.twoLoopFlag = f2 ∧ a.cast.threeLoopFlag = f3 ∧ P a.cast)
    (hd : 16 * S1 codeConst b.cast + 24 * S12 codeConst b.cast + 9 * S2 codeConst b.cast
      ≠ 16 * S1 codeConst a.cast + 24 * S12 codeConst a.cast + 9 * S2 codeConst a.cast) :
    MuDepends (S1, S2, S12) f1 f2 f3 P := by
  refine ⟨a.cast, b.MuSUSY, cast_wit a h1 h2 h3 h4 h5 h6 h7 h8, hf.1, hf.2.1, hf.2.2.1, hf.2.2.2, ?_⟩
  have e : ({ a.cast with MuSUSY := (b.MuSUSY : ℝ) } : HMem ℝ) = b.cast := by
    rw [hb]; rfl
  rw [e, smLike_wit _ _ _ _ a h1 h2, smLike_wit _ _ _ _ b (by rw [hb]; exact h1) (by rw [hb]; exact h2)]
  intro h
  apply hd
  linarith

/-- **C67** With the highest order in `Mst1² - Mst2²` switched off in h3, h32q2g, h3q22g, the correction depends on `μ` already at one
loop: the flag is ignored by `getS12`. -/
theorem C67_mu_dependence_h3_truncated :
    MuDepends (H3.getS1, H3.getS2, H3.getS12) 1 0 0 (fun h => h.xDmst12 = 0) ∧
    MuDepends (H32q2g.getS1, H32q2g.getS2, H32q2g.getS12) 1 0 0 (fun h => h.xDmst12 = 0) ∧
    MuDepends (H3q22g.getS1, H3q22g.getS2, H3q22g.getS12) 1 0 0 (fun h => h.xDmst12 = 0) := by
  refine ⟨muDepends_of H3_mu_h0 H3_mu_h1 ?_ ?_ ?_ ?_ ?_ ?_ ?_ ?_ rfl ?_ H3_mu,
    muDepends_of H32q2g_mu_h0 H32q2g_mu_h1 ?_ ?_ ?_ ?_ ?_ ?_ ?_ ?_ rfl ?_ H32q2g_mu,
    muDepends_of H3q22g_mu_h0 H3q22g_mu_h1 ?_ ?_ ?_ ?_ ?_ ?_ ?_ ?_ rfl ?_ H3q22g_mu⟩ <;>
    norm_num [H3_mu_h0, H32q2g_mu_h0, H3q22g_mu_h0, witQ, HMem.cast]

/-- **C67** In h5 and h5g1 the correction depends on `μ` already at one loop (all flags set): the elements of the matrix are expanded
to different orders in `Mst1/Mst2`. -/
theorem C67_mu_dependence_h5 :
    MuDepends (H5.getS1, H5.getS2, H5.getS12) 1 0 0 (fun h => h.xDmglst1 = 1 ∧ h.xMsq = 1) ∧
    MuDepends (H5g1.getS1, H5g1.getS2, H5g1.getS12) 1 0 0 (fun h => h.xDmglst1 = 1 ∧ h.xMsq = 1) := by
  refine ⟨muDepends_of H5_mu_h0 H5_mu_h1 ?_ ?_ ?_ ?_ ?_ ?_ ?_ ?_ rfl ?_ H5_mu,
    muDepends_of H5g1_mu_h0 H5g1_mu_h1 ?_ ?_ ?_ ?_ ?_ ?_ ?_ ?_ rfl ?_ H5g1_mu⟩ <;>
    norm_num [H5_mu_h0, H5g1_mu_h0, witQ, HMem.cast]

/-- **C67** In h6 the two-loop and in h6bq22g the three-loop correction depends on `μ` (all flags set, DR-bar scheme). -/
theorem C67_mu_dependence_h6 :
    MuDepends (H6.getS1, H6.getS2, H6.getS12) 0 1 0 (fun h => h.xMst = 1 ∧ h.xDmglst2 = 1 ∧ h.xDR2DRMOD = 0) ∧
    MuDepends (H6bq22g.getS1, H6bq22g.getS2, H6bq22g.getS12) 0 0 1
      (fun h => h.xMst = 1 ∧ h.xDmglst2 = 1 ∧ h.xDmsqst2 = 1 ∧ h.xDR2DRMOD = 0) := by
  refine ⟨muDepends_of H6_mu_h0 H6_mu_h1 ?_ ?_ ?_ ?_ ?_ ?_ ?_ ?_ rfl ?_ H6_mu,
    muDepends_of H6bq22g_mu_h0 H6bq22g_mu_h1 ?_ ?_ ?_ ?_ ?_ ?_ ?_ ?_ rfl ?_ H6bq22g_mu⟩ <;>
    norm_num [H6_mu_h0, H6bq22g_mu_h0, witQ, HMem.cast]

/-! ### C68 -/

/-- **C68** The first Higgs doublet couples to the stops through `μ` only: in h3, h32q2g, h3q22g, h5, h5g1, h9, h9q2 the `(1,1)`
element is proportional to `μ²` and the `(1,2)` element vanishes with `μ`, at fixed masses and mixing angle. -/
theorem C68_mu_couplings (k : Int) (C : ClassFns ℝ) (hC : classFns k = some C) (hk : k ≤ 2 ∨ k = 4 ∨ k = 5 ∨ 12 ≤ k)
    (kc : HConst ℝ) (h : HMem ℝ) (ok : h.Ok) (μ : ℝ) :
    C.S1 kc { h with MuSUSY := μ } = μ ^ 2 * C.S1 kc { h with MuSUSY := 1 } ∧ C.S12 kc { h with MuSUSY := 0 } = 0 := by
  have reg := ok.reg k C hC
  revert hk reg
  refine classFns_cases (Q := fun k C => (k ≤ 2 ∨ k = 4 ∨ k = 5 ∨ 12 ≤ k) → classReg k h →
      C.S1 kc { h with MuSUSY := μ } = μ ^ 2 * C.S1 kc { h with MuSUSY := 1 } ∧ C.S12 kc { h with MuSUSY := 0 } = 0)
    ?_ ?_ ?_ ?_ ?_ ?_ ?_ ?_ ?_ ?_ ?_ ?_ ?_ ?_ k C hC <;> intro C hC hk reg <;> first | omega | cases hC
  · exact ⟨H3.muSquaredS1 kc h μ reg, H3.muVanishesS12 kc h reg⟩
  · exact ⟨H32q2g.muSquaredS1 kc h μ reg, H32q2g.muVanishesS12 kc h reg⟩
  · exact ⟨H3q22g.muSquaredS1 kc h μ reg, H3q22g.muVanishesS12 kc h reg⟩
  · exact ⟨H5.muSquaredS1 kc h μ reg, H5.muVanishesS12 kc h reg⟩
  · exact ⟨H5g1.muSquaredS1 kc h μ reg, H5g1.muVanishesS12 kc h reg⟩
  · exact ⟨H9.muSquaredS1 kc h μ reg, H9.muVanishesS12 kc h reg⟩
  · exact ⟨H9q2.muSquaredS1 kc h μ reg, H9q2.muVanishesS12 kc h reg⟩

/-- **C68** In h6 (two loops) and h6b (three loops) the `(1,1)` element does not vanish at `μ = 0`. -/
theorem C68_mu_couplings_h6_violated :
    (∃ h : HMem ℝ, WitPoint h ∧ h.MuSUSY = 0 ∧ h.oneLoopFlag = 0 ∧ h.twoLoopFlag = 1 ∧ h.threeLoopFlag = 0 ∧ H6.getS1 codeConst h ≠ 0) ∧
    (∃ h : HMem ℝ, WitPoint h ∧ h.MuSUSY = 0 ∧ h.oneLoopFlag = 0 ∧ h.twoLoopFlag = 0 ∧ h.threeLoopFlag = 1 ∧ H6b.getS1 codeConst h ≠ 0) := by
  refine ⟨⟨H6_mu0_h0.cast, cast_wit _ ?_ ?_ ?_ ?_ ?_ ?_ ?_ ?_, ?_, ?_, ?_, ?_, H6_mu0⟩,
    ⟨H6b_mu0_h0.cast, cast_wit _ ?_ ?_ ?_ ?_ ?_ ?_ ?_ ?_, ?_, ?_, ?_, ?_, H6b_mu0⟩⟩ <;>
    norm_num [H6_mu0_h0, H6b_mu0_h0, witQ, HMem.cast]

end Himalaya
