import Verif.Hier.Props4

/-!
# C69 (the three-loop correction to the quartic coupling) and C70 (truncation of the expansions) of the hierarchy classes
-/

set_option linter.unusedVariables false
set_option linter.unusedSimpArgs false
set_option linter.unusedTactic false
set_option linter.unreachableTactic false

namespace Himalaya

open scoped Himalaya

/-! ### C69 -/

theorem class_coef (k : Int) (C : ClassFns ℝ) (hC : classFns k = some C) (hk : k ≤ 2 ∨ 12 ≤ k) (kc : HConst ℝ) (h : HMem ℝ)
    (ok : h.Ok) (mt : h.Mt ≠ 0) (L : ℝ) :
    12 * C.S2 kc { h.noSM L with MuSUSY := 0 } / h.Mt ^ 4 = C.c0 kc h + C.c1 kc h * L + C.c2 kc h * L ^ 2 - 896 / 3 * L ^ 3 ∧
    C.c3 kc h = -(2986666666666667 / 10000000000000) := by
  obtain ⟨h1, h2, h3, h4, h5, h6, h7, h8⟩ := ok
  revert hk
  refine classFns_cases (Q := fun k C => (k ≤ 2 ∨ 12 ≤ k) →
      12 * C.S2 kc { h.noSM L with MuSUSY := 0 } / h.Mt ^ 4 = C.c0 kc h + C.c1 kc h * L + C.c2 kc h * L ^ 2 - 896 / 3 * L ^ 3 ∧
      C.c3 kc h = -(2986666666666667 / 10000000000000))
    ?_ ?_ ?_ ?_ ?_ ?_ ?_ ?_ ?_ ?_ ?_ ?_ ?_ ?_ k C hC <;> intro C hC hk <;> first | omega | cases hC
  · exact ⟨H3.coefS2 kc h L ⟨h1, h3, mt, h4, h5, h6, h7⟩, by simp [H3.calc_coef_at_as2_no_sm_logs_log3, real_lit]⟩
  · exact ⟨H32q2g.coefS2 kc h L ⟨h1, h3, mt, h4, h5⟩, by simp [H32q2g.calc_coef_at_as2_no_sm_logs_log3, real_lit]⟩
  · exact ⟨H3q22g.coefS2 kc h L ⟨h1, h3, mt, h4, h5, h6⟩, by simp [H3q22g.calc_coef_at_as2_no_sm_logs_log3, real_lit]⟩
  · exact ⟨H9.coefS2 kc h L ⟨h1, h3, mt, h4, h5, h7⟩, by simp [H9.calc_coef_at_as2_no_sm_logs_log3, real_lit]⟩
  · exact ⟨H9q2.coefS2 kc h L ⟨h1, h3, mt, h4, h5, h6, h7⟩, by simp [H9q2.calc_coef_at_as2_no_sm_logs_log3, real_lit]⟩

/-- `smLike` of the three-loop part without logarithms of the top mass -/
theorem smLike_noSM (k : Int) (C : ClassFns ℝ) (hC : classFns k = some C) (hk : k ≤ 2 ∨ 12 ≤ k) (kc : HConst ℝ) (h : HMem ℝ)
    (ok : h.Ok) (ang : h.angle) (L : ℝ) :
    smLike C.S1 C.S2 C.S12 kc (h.noSM L) = h.Sbeta ^ 2 * C.S2 kc { h.noSM L with MuSUSY := 0 } := by
  have ok' : (h.noSM L).Ok := ⟨ok.1, ok.2, ok.3, ok.4, ok.5, ok.6, ok.7, ok.8⟩
  have ang' : (h.noSM L).angle := ang
  rw [← class_mu k C hC hk kc (h.noSM L) 0 (ok'.reg k C hC) ang' (fun _ => rfl)]
  obtain ⟨e1, e2⟩ := C68_mu_couplings k C hC (by omega) kc (h.noSM L) ok' 0
  unfold smLike
  rw [e1, e2]
  show h.Cbeta ^ 2 * _ + _ + h.Sbeta ^ 2 * _ = _
  ring

/-- **C69** In the hierarchies h3, h32q2g, h3q22g, h9, h9q2 the three-loop correction to the quartic coupling stored by
`calculateHierarchy` (the sum of the coefficients times powers of the logarithm `L` of `scale²/Mst1²`) is the three-loop correction to the
squared mass of the SM-like Higgs boson in units of `sin²β Mt⁴/12`, without truncation, in the DR-bar scheme and without logarithms of
the top mass, at any scale and any `μ`; the only difference is the rounding of the coefficient `896/3` of `L³`, at most `4e-14 |L|³`.
The stored non-logarithmic part is the same quantity at `L = 0`. -/
theorem C69_dlambda (k : Int) (C : ClassFns ℝ) (hC : classFns k = some C) (hk : k ≤ 2 ∨ 12 ≤ k) (kc : HConst ℝ) (h : HMem ℝ)
    (ok : h.Ok) (mt : h.Mt ≠ 0) (ang : h.angle) (ho : HObj ℝ) (r : HierOut ℝ)
    (hr : r.c0 = C.c0 kc h ∧ r.c1 = C.c1 kc h ∧ r.c2 = C.c2 kc h ∧ r.c3 = C.c3 kc h) (L : ℝ) :
    |(calcDlambda ho r L).dLambdaH3m - 12 * smLike C.S1 C.S2 C.S12 kc (h.noSM L) / (h.Sbeta ^ 2 * h.Mt ^ 4)| ≤ 4 / 10 ^ 14 * |L| ^ 3 ∧
    (calcDlambda ho r L).dLambdaNonLog = 12 * smLike C.S1 C.S2 C.S12 kc (h.noSM 0) / (h.Sbeta ^ 2 * h.Mt ^ 4) := by
  have e : ∀ L : ℝ, 12 * smLike C.S1 C.S2 C.S12 kc (h.noSM L) / (h.Sbeta ^ 2 * h.Mt ^ 4)
      = C.c0 kc h + C.c1 kc h * L + C.c2 kc h * L ^ 2 - 896 / 3 * L ^ 3 := by
    intro L
    rw [smLike_noSM k C hC hk kc h ok ang L, ← (class_coef k C hC hk kc h ok mt L).1]
    have := ok.sb
    field_simp
  have e3 := (class_coef k C hC hk kc h ok mt L).2
  rw [e, e]
  obtain ⟨r0, r1, r2, r3⟩ := hr
  constructor
  · have : (calcDlambda ho r L).dLambdaH3m - (C.c0 kc h + C.c1 kc h * L + C.c2 kc h * L ^ 2 - 896 / 3 * L ^ 3)
        = -(1 / 30000000000000) * L ^ 3 := by
      simp only [calcDlambda, HObj.setDLambdaH3m, HObj.setDLambdaNonLog, pow2, pow3, r0, r1, r2, r3, e3]
      ring
    rw [this, abs_mul, abs_pow]
    gcongr
    rw [abs_neg, abs_of_pos (by norm_num)]; norm_num
  · simp only [calcDlambda, HObj.setDLambdaH3m, HObj.setDLambdaNonLog, r0]
    ring

/-! ### C70 -/

theorem Truncates.mono {reg reg' : HMem ℝ → Prop} {upd : HMem ℝ → ℝ → ℝ → HMem ℝ} {A : List ℤ} {N : ℤ} {S : SelfEnergy}
    (h : Truncates reg upd A N S) (hr : ∀ h, reg' h → reg h) : Truncates reg' upd A N S :=
  ⟨h.1, fun k m => let ⟨c, d, e⟩ := h.2 k m; ⟨c, d, fun t x r => e t x (hr _ r)⟩⟩

local macro "tr" t:term:max k:num : term => `(Truncates.mono $t fun h o => o.reg $k _ rfl)

/-- **C70** The truncation flags of h3, h32q2g, h3q22g: `xDmglst1` switches the third power of `Mgl - Mst1`, `xDmsqst1` the second
power of `Msq² - Mst1²`, `xDmst12` the third power of `Mst1² - Mst2²` (the latter in the diagonal elements), and no terms of higher
order are left when the flag is off. -/
theorem C70_truncation_h3_partial (k : Int) (C : ClassFns ℝ) (hC : classFns k = some C) (hk : k ≤ 2) :
    C.All (Truncates HMem.Ok HMem.updDmglst1 [0, 1, 2] 3) ∧ C.All (Truncates HMem.Ok HMem.updDmsqst1 [0, 1] 2) ∧
    Truncates HMem.Ok HMem.updDmst12 [0, 1, 2] 3 C.S1 ∧ Truncates HMem.Ok HMem.updDmst12 [0, 1, 2] 3 C.S2 := by
  revert hk
  refine classFns_cases (Q := fun k C => k ≤ 2 →
      C.All (Truncates HMem.Ok HMem.updDmglst1 [0, 1, 2] 3) ∧ C.All (Truncates HMem.Ok HMem.updDmsqst1 [0, 1] 2) ∧
      Truncates HMem.Ok HMem.updDmst12 [0, 1, 2] 3 C.S1 ∧ Truncates HMem.Ok HMem.updDmst12 [0, 1, 2] 3 C.S2)
    ?_ ?_ ?_ ?_ ?_ ?_ ?_ ?_ ?_ ?_ ?_ ?_ ?_ ?_ k C hC <;> intro C hC hk <;> first | omega | cases hC
  · exact ⟨⟨tr H3.truncDmglst1S1 0, tr H3.truncDmglst1S2 0, tr H3.truncDmglst1S12 0⟩,
      ⟨tr H3.truncDmsqst1S1 0, tr H3.truncDmsqst1S2 0, tr H3.truncDmsqst1S12 0⟩, tr H3.truncDmst12S1 0, tr H3.truncDmst12S2 0⟩
  · exact ⟨⟨tr H32q2g.truncDmglst1S1 1, tr H32q2g.truncDmglst1S2 1, tr H32q2g.truncDmglst1S12 1⟩,
      ⟨tr H32q2g.truncDmsqst1S1 1, tr H32q2g.truncDmsqst1S2 1, tr H32q2g.truncDmsqst1S12 1⟩,
      tr H32q2g.truncDmst12S1 1, tr H32q2g.truncDmst12S2 1⟩
  · exact ⟨⟨tr H3q22g.truncDmglst1S1 2, tr H3q22g.truncDmglst1S2 2, tr H3q22g.truncDmglst1S12 2⟩,
      ⟨tr H3q22g.truncDmsqst1S1 2, tr H3q22g.truncDmsqst1S2 2, tr H3q22g.truncDmsqst1S12 2⟩,
      tr H3q22g.truncDmst12S1 2, tr H3q22g.truncDmst12S2 2⟩

/-- **C70** h4: `xAt` switches `At²`, `xlmMsusy` the third power of the logarithm, `xMsusy` the eighth power of `Msusy` (an expansion in
`Msusy/Msq`), `xMsq` the terms proportional to `Msq²`. -/
theorem C70_truncation_h4 (C : ClassFns ℝ) (hC : classFns 3 = some C) :
    Truncates HMem.Ok HMem.updAt [] 2 C.S1 ∧ Truncates HMem.Ok HMem.updAt [0, 1] 2 C.S2 ∧ Truncates HMem.Ok HMem.updAt [1] 2 C.S12 ∧
    Truncates HMem.Ok HMem.updlmMsusy [0, 1, 2] 3 C.S2 ∧
    Truncates HMem.Ok HMem.updMsusy [-2, -1, 0, 1, 2, 3, 4, 5, 6, 7] 8 C.S2 ∧
    Truncates HMem.Ok HMem.updMsq [-8, -6, -4, -2, 0] 2 C.S2 := by
  cases hC
  exact ⟨tr H4.truncAtS1 3, tr H4.truncAtS2 3, tr H4.truncAtS12 3, tr H4.trunclmMsusyS2 3, tr H4.truncMsusyS2 3, tr H4.truncMsqS2 3⟩

/-- **C70** h5, h5g1: `xDmglst1` switches the second power of `Mgl - Mst1`, `xMsq` the terms proportional to `Msq²`. -/
theorem C70_truncation_h5 (k : Int) (C : ClassFns ℝ) (hC : classFns k = some C) (hk : k = 4 ∨ k = 5) :
    C.All (Truncates HMem.Ok HMem.updDmglst1 [0, 1] 2) ∧ C.All (Truncates HMem.Ok HMem.updMsq [-4, -2, 0] 2) := by
  rcases hk with e | e <;> subst e <;> cases hC
  · exact ⟨⟨tr H5.truncDmglst1S1 4, tr H5.truncDmglst1S2 4, tr H5.truncDmglst1S12 4⟩,
      ⟨tr H5.truncMsqS1 4, tr H5.truncMsqS2 4, tr H5.truncMsqS12 4⟩⟩
  · exact ⟨⟨tr H5g1.truncDmglst1S1 5, tr H5g1.truncDmglst1S2 5, tr H5g1.truncDmglst1S12 5⟩,
      ⟨tr H5g1.truncMsqS1 5, tr H5g1.truncMsqS2 5, tr H5g1.truncMsqS12 5⟩⟩

/-- **C70** h6, h6g2: `xDmglst2` switches the second power of `Mgl - Mst2`, `xMsq` the terms proportional to `Msq²`, `xMst` the sixth
power of `Mst1`. -/
theorem C70_truncation_h6 (k : Int) (C : ClassFns ℝ) (hC : classFns k = some C) (hk : k = 6 ∨ k = 11) :
    C.All (Truncates HMem.Ok HMem.updDmglst2 [0, 1] 2) ∧ C.All (Truncates HMem.Ok HMem.updMsq [-4, -2, 0] 2) ∧
    C.All (Truncates HMem.Ok HMem.updMst [-4, -2, 0, 2, 4] 6) := by
  rcases hk with e | e <;> subst e <;> cases hC
  · exact ⟨⟨tr H6.truncDmglst2S1 6, tr H6.truncDmglst2S2 6, tr H6.truncDmglst2S12 6⟩,
      ⟨tr H6.truncMsqS1 6, tr H6.truncMsqS2 6, tr H6.truncMsqS12 6⟩, ⟨tr H6.truncMstS1 6, tr H6.truncMstS2 6, tr H6.truncMstS12 6⟩⟩
  · exact ⟨⟨tr H6g2.truncDmglst2S1 11, tr H6g2.truncDmglst2S2 11, tr H6g2.truncDmglst2S12 11⟩,
      ⟨tr H6g2.truncMsqS1 11, tr H6g2.truncMsqS2 11, tr H6g2.truncMsqS12 11⟩,
      ⟨tr H6g2.truncMstS1 11, tr H6g2.truncMstS2 11, tr H6g2.truncMstS12 11⟩⟩

/-- **C70** h6b, h6b2qg2, h6bq22g, h6bq2g2: `xDmglst2` switches the second power of `Mgl - Mst2`, `xDmsqst2` the second power of
`Msq² - Mst2²` in the diagonal elements, `xMst` the sixth power of `Mst1` (in the (2,2) element only in h6b and h6bq22g).
The exceptions are in `C70_truncation_violated`. -/
theorem C70_truncation_h6b_partial (k : Int) (C : ClassFns ℝ) (hC : classFns k = some C) (hk : 7 ≤ k ∧ k ≤ 10) :
    C.All (Truncates HMem.Ok HMem.updDmglst2 [0, 1] 2) ∧
    (Truncates HMem.Ok HMem.updDmsqst2 [0, 1] 2 C.S1 ∧ Truncates HMem.Ok HMem.updDmsqst2 [0, 1] 2 C.S2 ∧
      Truncates HMem.Ok HMem.updDmsqst2 [0, 1, 4] 2 C.S12) ∧
    (Truncates HMem.Ok HMem.updMst [-4, -2, 0, 2, 4] 6 C.S1 ∧ Truncates HMem.Ok HMem.updMst [-4, -2, 0, 2, 4] 6 C.S12 ∧
      (k = 7 ∨ k = 9 → Truncates HMem.Ok HMem.updMst [-4, -2, 0, 2, 4] 6 C.S2)) := by
  have : k = 7 ∨ k = 8 ∨ k = 9 ∨ k = 10 := by omega
  rcases this with e | e | e | e <;> subst e <;> cases hC
  · exact ⟨⟨tr H6b.truncDmglst2S1 7, tr H6b.truncDmglst2S2 7, tr H6b.truncDmglst2S12 7⟩,
      ⟨tr H6b.truncDmsqst2S1 7, tr H6b.truncDmsqst2S2 7, tr H6b.truncDmsqst2S12 7⟩,
      ⟨tr H6b.truncMstS1 7, tr H6b.truncMstS12 7, fun _ => tr H6b.truncMstS2 7⟩⟩
  · exact ⟨⟨tr H6b2qg2.truncDmglst2S1 8, tr H6b2qg2.truncDmglst2S2 8, tr H6b2qg2.truncDmglst2S12 8⟩,
      ⟨tr H6b2qg2.truncDmsqst2S1 8, tr H6b2qg2.truncDmsqst2S2 8, tr H6b2qg2.truncDmsqst2S12 8⟩,
      ⟨tr H6b2qg2.truncMstS1 8, tr H6b2qg2.truncMstS12 8, fun e => by omega⟩⟩
  · exact ⟨⟨tr H6bq22g.truncDmglst2S1 9, tr H6bq22g.truncDmglst2S2 9, tr H6bq22g.truncDmglst2S12 9⟩,
      ⟨tr H6bq22g.truncDmsqst2S1 9, tr H6bq22g.truncDmsqst2S2 9, tr H6bq22g.truncDmsqst2S12 9⟩,
      ⟨tr H6bq22g.truncMstS1 9, tr H6bq22g.truncMstS12 9, fun _ => tr H6bq22g.truncMstS2 9⟩⟩
  · exact ⟨⟨tr H6bq2g2.truncDmglst2S1 10, tr H6bq2g2.truncDmglst2S2 10, tr H6bq2g2.truncDmglst2S12 10⟩,
      ⟨tr H6bq2g2.truncDmsqst2S1 10, tr H6bq2g2.truncDmsqst2S2 10, tr H6bq2g2.truncDmsqst2S12 10⟩,
      ⟨tr H6bq2g2.truncMstS1 10, tr H6bq2g2.truncMstS12 10, fun e => by omega⟩⟩

/-- **C70** h9, h9q2: `xDmsqst1` switches the second power of `Msq² - Mst1²`, `xDmst12` the third power of `Mst1² - Mst2²`. -/
theorem C70_truncation_h9_partial (k : Int) (C : ClassFns ℝ) (hC : classFns k = some C) (hk : 12 ≤ k) :
    C.All (Truncates HMem.Ok HMem.updDmsqst1 [0, 1] 2) ∧ C.All (Truncates HMem.Ok HMem.updDmst12 [0, 1, 2] 3) := by
  revert hk
  refine classFns_cases (Q := fun k C => 12 ≤ k → C.All (Truncates HMem.Ok HMem.updDmsqst1 [0, 1] 2) ∧
      C.All (Truncates HMem.Ok HMem.updDmst12 [0, 1, 2] 3))
    ?_ ?_ ?_ ?_ ?_ ?_ ?_ ?_ ?_ ?_ ?_ ?_ ?_ ?_ k C hC <;> intro C hC hk <;> first | omega | cases hC
  · exact ⟨⟨tr H9.truncDmsqst1S1 12, tr H9.truncDmsqst1S2 12, tr H9.truncDmsqst1S12 12⟩,
      ⟨tr H9.truncDmst12S1 12, tr H9.truncDmst12S2 12, tr H9.truncDmst12S12 12⟩⟩
  · exact ⟨⟨tr H9q2.truncDmsqst1S1 13, tr H9q2.truncDmsqst1S2 13, tr H9q2.truncDmsqst1S12 13⟩,
      ⟨tr H9q2.truncDmst12S1 13, tr H9q2.truncDmst12S2 13, tr H9q2.truncDmst12S12 13⟩⟩

/-- the values at the witness points as updates of one point -/
theorem ok_of {h : HMem ℚ} (h1 : h.Sbeta = 3 / 5) (h2 : h.Cbeta = 4 / 5) (h3 : h.Tbeta = 3 / 4) (h4 : h.Mst1 ≠ 0) (h5 : h.Mst2 ≠ 0)
    (h6 : h.Msq ≠ 0) (h7 : h.Mgl ≠ 0) (h8 : h.Msusy ≠ 0) : h.cast.Ok := (cast_wit h h1 h2 h3 h4 h5 h6 h7 h8).ok

theorem not_cubic {S : SelfEnergy} (h0 h1 h2 h3 : HMem ℚ) (hm : HMem ℝ)
    (e : ∀ i : Fin 4, (![h0, h1, h2, h3] i).cast = hm.updDmst12 (i : ℝ) 0) (ok : hm.Ok)
    (w : S codeConst h3.cast - 3 * S codeConst h2.cast + 3 * S codeConst h1.cast - S codeConst h0.cast ≠ 0) :
    ¬ Truncates HMem.Ok HMem.updDmst12 [0, 1, 2] 3 S := by
  rintro ⟨-, H⟩
  obtain ⟨c, d, H⟩ := H codeConst hm
  have ok' : ∀ t, (hm.updDmst12 t 0).Ok := fun t => ⟨ok.1, ok.2, ok.3, ok.4, ok.5, ok.6, ok.7, ok.8⟩
  have f : ∀ t, S codeConst (hm.updDmst12 t 0) = c 0 + c 1 * t + c 2 * t ^ 2 := by
    intro t; rw [H t 0 (ok' t)]; simp only [laurentSum]; norm_cast; ring
  apply w
  have e0 := e 0
  have e1 := e 1
  have e2 := e 2
  have e3 := e 3
  simp at e0 e1 e2 e3
  rw [e0, e1, e2, e3, f, f, f, f]; ring

/-- **C70** The exceptions.  The (1,2) elements of h3, h32q2g, h3q22g contain the third power of `Mst1² - Mst2²` also with the flag
`xDmst12` switched off; the (1,2) element of h6b contains terms of higher order in `Msq² - Mst2²` with `xDmsqst2` switched off; in
the (2,2) element of h6b2qg2 the flag `xMst` does not switch a term proportional to `Mst1⁶`; the (2,2) element of h9 contains powers
of the gluino mass beyond the third with `xMgl` switched off. -/
theorem C70_truncation_violated :
    ¬ Truncates HMem.Ok HMem.updDmst12 [0, 1, 2] 3 H3.getS12 ∧ ¬ Truncates HMem.Ok HMem.updDmst12 [0, 1, 2] 3 H32q2g.getS12 ∧
    ¬ Truncates HMem.Ok HMem.updDmst12 [0, 1, 2] 3 H3q22g.getS12 ∧ ¬ Truncates HMem.Ok HMem.updDmsqst2 [0, 1] 2 H6b.getS12 ∧
    (∀ A, ¬ Truncates HMem.Ok HMem.updMst A 6 H6b2qg2.getS2) ∧ ¬ Truncates HMem.Ok HMem.updMgl [0, 1, 2, 3] 4 H9.getS2 := by
  refine ⟨?_, ?_, ?_, ?_, ?_, ?_⟩
  · refine not_cubic H3_s12_h0 H3_s12_h1 H3_s12_h2 H3_s12_h3 H3_s12_h0.cast ?_ ?_ H3_s12
    · intro i; fin_cases i <;> simp [HMem.cast, HMem.updDmst12, H3_s12_h0, H3_s12_h1, H3_s12_h2, H3_s12_h3, witQ]
    · apply ok_of <;> norm_num [H3_s12_h0, witQ]
  · refine not_cubic H32q2g_s12_h0 H32q2g_s12_h1 H32q2g_s12_h2 H32q2g_s12_h3 H32q2g_s12_h0.cast ?_ ?_ H32q2g_s12
    · intro i; fin_cases i <;> simp [HMem.cast, HMem.updDmst12, H32q2g_s12_h0, H32q2g_s12_h1, H32q2g_s12_h2, H32q2g_s12_h3, witQ]
    · apply ok_of <;> norm_num [H32q2g_s12_h0, witQ]
  · refine not_cubic H3q22g_s12_h0 H3q22g_s12_h1 H3q22g_s12_h2 H3q22g_s12_h3 H3q22g_s12_h0.cast ?_ ?_ H3q22g_s12
    · intro i; fin_cases i <;> simp [HMem.cast, HMem.updDmst12, H3q22g_s12_h0, H3q22g_s12_h1, H3q22g_s12_h2, H3q22g_s12_h3, witQ]
    · apply ok_of <;> norm_num [H3q22g_s12_h0, witQ]
  · rintro ⟨-, H⟩
    obtain ⟨c, d, H⟩ := H codeConst H6b_s12_h0.cast
    have ok : H6b_s12_h0.cast.Ok := by apply ok_of <;> norm_num [H6b_s12_h0, witQ]
    have f : ∀ t, H6b.getS12 codeConst (H6b_s12_h0.cast.updDmsqst2 t 0) = c 0 + c 1 * t := by
      intro t; rw [H t 0 ⟨ok.1, ok.2, ok.3, ok.4, ok.5, ok.6, ok.7, ok.8⟩]; simp only [laurentSum]; norm_cast; ring
    have e0 : H6b_s12_h0.cast = H6b_s12_h0.cast.updDmsqst2 0 0 := by simp [HMem.cast, HMem.updDmsqst2, H6b_s12_h0, witQ]
    have e1 : H6b_s12_h1.cast = H6b_s12_h0.cast.updDmsqst2 1 0 := by simp [HMem.cast, HMem.updDmsqst2, H6b_s12_h0, H6b_s12_h1, witQ]
    have e2 : H6b_s12_h2.cast = H6b_s12_h0.cast.updDmsqst2 2 0 := by simp [HMem.cast, HMem.updDmsqst2, H6b_s12_h0, H6b_s12_h2, witQ]
    apply H6b_s12
    rw [e1, e2, f, f]
    conv_lhs => rw [e0, f]
    ring
  · rintro A ⟨-, H⟩
    obtain ⟨c, d, H⟩ := H codeConst H6b2qg2_s2_h0.cast
    have ok : ∀ t x, t ≠ 0 → (H6b2qg2_s2_h0.cast.updMst t x).Ok := by
      intro t x ht
      have ok : H6b2qg2_s2_h0.cast.Ok := by apply ok_of <;> norm_num [H6b2qg2_s2_h0, witQ]
      exact ⟨ok.1, ok.2, ok.3, ht, ok.5, ok.6, ok.7, ok.8⟩
    have e0 : H6b2qg2_s2_h0.cast = H6b2qg2_s2_h0.cast.updMst 1 0 := by simp [HMem.cast, HMem.updMst, H6b2qg2_s2_h0, witQ]
    have e1 : H6b2qg2_s2_h1.cast = H6b2qg2_s2_h0.cast.updMst 1 1 := by
      simp [HMem.cast, HMem.updMst, H6b2qg2_s2_h0, H6b2qg2_s2_h1, witQ]
    have e2 : H6b2qg2_s2_h2.cast = H6b2qg2_s2_h0.cast.updMst 2 0 := by
      simp [HMem.cast, HMem.updMst, H6b2qg2_s2_h0, H6b2qg2_s2_h2, witQ]
    have e3 : H6b2qg2_s2_h3.cast = H6b2qg2_s2_h0.cast.updMst 2 1 := by
      simp [HMem.cast, HMem.updMst, H6b2qg2_s2_h0, H6b2qg2_s2_h3, witQ]
    have f0 := H 1 0 (ok _ _ (by norm_num))
    have f1 := H 1 1 (ok _ _ (by norm_num))
    have f2 := H 2 0 (ok _ _ (by norm_num))
    have f3 := H 2 1 (ok _ _ (by norm_num))
    apply H6b2qg2_s2
    rw [← e0] at f0
    rw [e1, e2, e3, f0, f1, f2, f3]
    norm_num
    norm_cast
    ring
  · rintro ⟨-, H⟩
    obtain ⟨c, d, H⟩ := H codeConst H9_s2_h0.cast
    have ok : H9_s2_h0.cast.Ok := by apply ok_of <;> norm_num [H9_s2_h0, witQ]
    have f : ∀ t, t ≠ 0 → H9.getS2 codeConst (H9_s2_h0.cast.updMgl t 0) = c 0 + c 1 * t + c 2 * t ^ 2 + c 3 * t ^ 3 := by
      intro t ht; rw [H t 0 ⟨ok.1, ok.2, ok.3, ok.4, ok.5, ok.6, ht, ok.8⟩]; simp only [laurentSum]; norm_cast; ring
    have e0 : H9_s2_h0.cast = H9_s2_h0.cast.updMgl 1 0 := by simp [HMem.cast, HMem.updMgl, H9_s2_h0, witQ]
    have e1 : H9_s2_h1.cast = H9_s2_h0.cast.updMgl 2 0 := by simp [HMem.cast, HMem.updMgl, H9_s2_h0, H9_s2_h1, witQ]
    have e2 : H9_s2_h2.cast = H9_s2_h0.cast.updMgl 3 0 := by simp [HMem.cast, HMem.updMgl, H9_s2_h0, H9_s2_h2, witQ]
    have e3 : H9_s2_h3.cast = H9_s2_h0.cast.updMgl 4 0 := by simp [HMem.cast, HMem.updMgl, H9_s2_h0, H9_s2_h3, witQ]
    have e4 : H9_s2_h4.cast = H9_s2_h0.cast.updMgl 5 0 := by simp [HMem.cast, HMem.updMgl, H9_s2_h0, H9_s2_h4, witQ]
    have f0 := f 1 (by norm_num)
    rw [← e0] at f0
    apply H9_s2
    rw [e1, e2, e3, e4, f 2 (by norm_num), f 3 (by norm_num), f 4 (by norm_num), f 5 (by norm_num), f0]
    ring

/-! ### the hypotheses are met -/

/-- a regular point for every class -/
theorem example_ok : witQ.cast.Ok ∧ witQ.cast.angle ∧ witQ.cast.Mt ≠ 0 := by
  have w : WitPoint witQ.cast := by apply cast_wit <;> norm_num [witQ]
  exact ⟨w.ok, w.angle, by norm_num [witQ, HMem.cast]⟩

example : ∃ C : ClassFns ℝ, classFns 0 = some C := ⟨_, rfl⟩
example : ∃ C : ClassFns ℝ, classFns 13 = some C := ⟨_, rfl⟩

/-- `C65_units`, `C66_powers_of_g3`, `C67_mu_independent`: the hypotheses hold at `unitPoint` in the hierarchies h3 and h9q2 -/
example (kc : HConst ℝ) (h : HObj ℝ) : RegularPoint unitPoint 1 1 ∧
    (∃ r, selfEnergies kc unitPoint (hoFor 0 h) 1 1 [1, 1, 1] 0 ⟨0, 0, 1⟩ = .ok r) ∧
    (∃ r, selfEnergies kc unitPoint (hoFor 13 h) 1 1 [1, 1, 1] 0 ⟨0, 0, 1⟩ = .ok r) ∧
    flagOf (hoFor 0 h).getSuitableHierarchy [1, 1, 1] XD.Dmst12 = (1 : ℝ) :=
  ⟨unitPoint_regular, ⟨_, selfEnergies_of kc unitPoint (hoFor 0 h) 1 1 _ _ _ rfl rfl⟩,
    ⟨_, selfEnergies_of kc unitPoint (hoFor 13 h) 1 1 _ _ _ rfl rfl⟩, by
      show flagOf 0 [1, 1, 1] XD.Dmst12 = (1 : ℝ)
      have : (((flagReads 0).map (·.1)).zip [(1 : Int), 1, 1]).find? (fun q => q.1 == XD.Dmst12) = some (XD.Dmst12, 1) := by decide
      simp only [flagOf, this, real_ofInt]
      norm_num⟩

end Himalaya
