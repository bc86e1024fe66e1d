import Verif.Iface.Props1

/-!
# C12, C13: what `validate` rejects and what it keeps
-/

set_option linter.unusedSectionVars false
set_option linter.unusedSimpArgs false

namespace Himalaya
open FOps
open scoped Himalaya

section
variable {F : Type} [Add F] [Sub F] [Mul F] [Div F] [Neg F] [FOps F]

theorem softNeg_iff [LawfulCmp F] {p : Params F} (h1 : NoNaN p.mq2) (h2 : NoNaN p.md2) (h3 : NoNaN p.mu2)
    (h4 : NoNaN p.ml2) (h5 : NoNaN p.me2) :
    softMassesNegative p = true ↔ HasNegEntry p.mq2 ∨ HasNegEntry p.md2 ∨ HasNegEntry p.mu2 ∨ HasNegEntry p.ml2 ∨
      HasNegEntry p.me2 := by
  unfold softMassesNegative HasNegEntry
  simp only [Bool.or_eq_true, minCoeff_lt _ _ h1, minCoeff_lt _ _ h2, minCoeff_lt _ _ h3, minCoeff_lt _ _ h4,
    minCoeff_lt _ _ h5, or_assoc]

theorem angle_iff (theta s2 : F) :
    (isNaN (calc_theta theta s2).1 = false ∧ isNaN (calc_theta theta s2).2 = false) ↔ AngleKnown theta s2 := by
  unfold calc_theta AngleKnown
  cases h1 : isNaN theta <;> cases h2 : isNaN s2 <;> simp [h1, h2]

theorem incomplete_iff (m : Vec2 F) (theta s2 : F) :
    Sf.incomplete ⟨m, (calc_theta theta s2).1, (calc_theta theta s2).2⟩ = true ↔ ¬ SfGiven m theta s2 := by
  unfold Sf.incomplete SfGiven
  rw [← angle_iff]
  simp only [Bool.or_eq_true]
  generalize isNaN m.x0 = a
  generalize isNaN m.x1 = b
  generalize isNaN (calc_theta theta s2).1 = c
  generalize isNaN (calc_theta theta s2).2 = d
  cases a <;> cases b <;> cases c <;> cases d <;> simp

theorem calc_error_iff [LawfulCmp F] (X : Ext F) (M : Mat2 F) (h0 : isNaN (X.eigVal M).x0 = false)
    (h1 : isNaN (X.eigVal M).x1 = false) :
    (∃ e, calculate_MSf_s2f X M = .error e) ↔ (lt (X.eigVal M).x0 0 = true ∨ lt (X.eigVal M).x1 0 = true) := by
  have key := lt_mn (c := (0 : F)) h0 h1
  unfold mn at key
  unfold calculate_MSf_s2f
  by_cases h : lt (if lt (X.eigVal M).x1 (X.eigVal M).x0 = true then (X.eigVal M).x1 else (X.eigVal M).x0) 0 = true
  · have := key.1 h
    simp only [h, if_true]
    exact ⟨fun _ => this, fun _ => ⟨_, rfl⟩⟩
  · have hn := fun h' => h (key.2 h')
    simp only [h]
    constructor
    · rintro ⟨e, he⟩; simp at he
    · intro h'; exact absurd h' hn

theorem fillSf_error_iff [LawfulCmp F] (X : Ext F) (M : Mat2 F) (m : Vec2 F) (theta s2 : F)
    (h0 : isNaN (X.eigVal M).x0 = false) (h1 : isNaN (X.eigVal M).x1 = false) :
    (∃ e, fillSf X ⟨m, (calc_theta theta s2).1, (calc_theta theta s2).2⟩ M = .error e) ↔ Tachyonic X m theta s2 M := by
  unfold fillSf Tachyonic
  by_cases h : Sf.incomplete ⟨m, (calc_theta theta s2).1, (calc_theta theta s2).2⟩ = true
  · rw [if_pos h, calc_error_iff X M h0 h1]
    have := (incomplete_iff m theta s2).1 h
    tauto
  · rw [if_neg h]
    have := fun h' => h ((incomplete_iff m theta s2).2 h')
    constructor
    · rintro ⟨e, he⟩; cases he
    · rintro ⟨h', _⟩; exact absurd h' this

/-- the completed point, field by field -/
theorem final_eq (X : Ext F) (p : Params F) (st sb stau : Sf F) :
    sortAndShift ((((prep X p).withStops st).withSbottoms sb).withStaus stau) =
    { scale := p.scale, mu := p.mu, g1 := p.g1, g2 := p.g2, g3 := p.g3, vd := p.vd, vu := p.vu,
      mq2 := shiftMq2 p.mq2 p.mu2, md2 := p.md2, mu2 := p.mu2, ml2 := p.ml2, me2 := p.me2,
      Au := p.Au, Ad := p.Ad, Ae := p.Ae, Yu := h_svd X p.Yu, Yd := h_svd X p.Yd, Ye := h_svd X p.Ye,
      M1 := p.M1, M2 := p.M2, MG := abs p.MG, MW := (prep X p).MW, MZ := (prep X p).MZ, Mt := (prep X p).Mt,
      Mb := (prep X p).Mb, Mtau := (prep X p).Mtau, MA := p.MA,
      MSt := shiftStops (sort_ev st).ev, MSb := shiftSbottoms (sort_ev sb).ev, MStau := (sort_ev stau).ev,
      s2t := (sort_ev st).s2, s2b := (sort_ev sb).s2, s2tau := (sort_ev stau).s2,
      theta_t := (sort_ev st).theta, theta_b := (sort_ev sb).theta, theta_tau := (sort_ev stau).theta,
      massLimit3LThreshold := p.massLimit3LThreshold } := by
  dsimp only [sortAndShift, prep, fillThetas, fillSMMasses, Params.withStops, Params.withSbottoms, Params.withStaus,
    Params.stops, Params.sbottoms, Params.staus]

/-- the eigenvalues returned for a matrix are numbers -/
def EigNum (X : Ext F) (M : Mat2 F) : Prop := isNaN (X.eigVal M).x0 = false ∧ isNaN (X.eigVal M).x1 = false

/-- C12: `validate` succeeds if and only if the point is not unphysical: no negative entry in the soft mass
matrices, no negative gluino mass, `vu` and `vd` are positive numbers and no sfermion family that has to be computed is
tachyonic.  (The soft masses are assumed not to be NaN and the eigenvalues to be numbers.) -/
theorem C12_accepts_iff_physical [LawfulCmp F] (X : Ext F) (p : Params F)
    (h1 : NoNaN p.mq2) (h2 : NoNaN p.md2) (h3 : NoNaN p.mu2) (h4 : NoNaN p.ml2) (h5 : NoNaN p.me2)
    (et : EigNum X (stopMatrix (prep X p))) (eb : EigNum X (sbottomMatrix (prep X p)))
    (etau : EigNum X (stauMatrix (prep X p))) :
    (∃ p', validate X p = (.ok (), p')) ↔ ¬ Unphysical X p := by
  have hs := softNeg_iff h1 h2 h3 h4 h5
  have ft : (∃ e, fillSf X (prep X p).stops (stopMatrix (prep X p)) = .error e) ↔ _ :=
    fillSf_error_iff X _ p.MSt p.theta_t p.s2t et.1 et.2
  have fb : (∃ e, fillSf X (prep X p).sbottoms (sbottomMatrix (prep X p)) = .error e) ↔ _ :=
    fillSf_error_iff X _ p.MSb p.theta_b p.s2b eb.1 eb.2
  have ftau : (∃ e, fillSf X (prep X p).staus (stauMatrix (prep X p)) = .error e) ↔ _ :=
    fillSf_error_iff X _ p.MStau p.theta_tau p.s2tau etau.1 etau.2
  constructor
  · rintro ⟨p', h⟩
    obtain ⟨g1, g2, g3, g4, g5, g6, st, sb, stau, e1, e2, e3, -⟩ := validate_ok h
    have nt : ¬ Tachyonic X p.MSt p.theta_t p.s2t (stopMatrix (prep X p)) := by
      rw [← ft, e1]; rintro ⟨e, he⟩; cases he
    have nb : ¬ Tachyonic X p.MSb p.theta_b p.s2b (sbottomMatrix (prep X p)) := by
      rw [← fb, e2]; rintro ⟨e, he⟩; cases he
    have ntau : ¬ Tachyonic X p.MStau p.theta_tau p.s2tau (stauMatrix (prep X p)) := by
      rw [← ftau, e3]; rintro ⟨e, he⟩; cases he
    have ns : ¬ (softMassesNegative p = true) := by rw [g1]; simp
    rw [hs] at ns
    unfold Unphysical
    rw [g2, g3, g4, g5, g6]
    tauto
  · intro hu
    rcases validate_cases X p with ⟨p', h, -⟩ | ⟨e, p', h, hc⟩
    · exact ⟨p', h⟩
    · exfalso
      apply hu
      unfold Unphysical
      rcases hc with ⟨h, -⟩ | ⟨h, -⟩ | h | h | h | h | h
      · rcases hs.1 h with h | h | h | h | h
        · exact .inl h
        · exact .inr (.inl h)
        · exact .inr (.inr (.inl h))
        · exact .inr (.inr (.inr (.inl h)))
        · exact .inr (.inr (.inr (.inr (.inl h))))
      · exact .inr (.inr (.inr (.inr (.inr (.inl h)))))
      · rw [Bool.or_eq_true] at h
        rcases h with h | h
        · exact .inr (.inr (.inr (.inr (.inr (.inr (.inl h))))))
        · exact .inr (.inr (.inr (.inr (.inr (.inr (.inr (.inl h)))))))
      · rw [Bool.or_eq_true] at h
        rcases h with h | h
        · exact .inr (.inr (.inr (.inr (.inr (.inr (.inr (.inr (.inl h))))))))
        · exact .inr (.inr (.inr (.inr (.inr (.inr (.inr (.inr (.inr (.inl h)))))))))
      · exact .inr (.inr (.inr (.inr (.inr (.inr (.inr (.inr (.inr (.inr (.inl (ft.1 ⟨e, h⟩)))))))))))
      · exact .inr (.inr (.inr (.inr (.inr (.inr (.inr (.inr (.inr (.inr (.inr (.inl (fb.1 ⟨e, h⟩))))))))))))
      · exact .inr (.inr (.inr (.inr (.inr (.inr (.inr (.inr (.inr (.inr (.inr (.inr (ftau.1 ⟨e, h⟩))))))))))))

/-- C12: a point rejected because of a negative soft mass or a negative gluino mass is left untouched. -/
theorem C12_early_rejection_pure [LawfulCmp F] (X : Ext F) (p : Params F)
    (h1 : NoNaN p.mq2) (h2 : NoNaN p.md2) (h3 : NoNaN p.mu2) (h4 : NoNaN p.ml2) (h5 : NoNaN p.me2)
    (h : HasNegEntry p.mq2 ∨ HasNegEntry p.md2 ∨ HasNegEntry p.mu2 ∨ HasNegEntry p.ml2 ∨ HasNegEntry p.me2 ∨
      lt p.MG 0 = true) : ∃ e, validate X p = (.error e, p) := by
  have hs := softNeg_iff h1 h2 h3 h4 h5
  unfold validate
  by_cases hs' : softMassesNegative p = true
  · rw [if_pos hs']; exact ⟨_, rfl⟩
  · rw [if_neg hs']
    rw [hs] at hs'
    rw [if_pos (by tauto)]
    exact ⟨_, rfl⟩

/-! ### C13 -/

/-- the documented degeneracy threshold `1e-8` -/
abbrev eps8 : F := lit (1 / 10 ^ 8)

/-- C13: a successful validation does not change scale, couplings, VEVs, soft parameters, `MA`, the user's mass limit,
nor any SM mass that was given.  `mq2(2,2)` changes only if it is degenerate with `mu2(2,2)`. -/
theorem C13_inputs_unchanged (X : Ext F) (p p' : Params F) (h : validate X p = (.ok (), p')) :
    p'.scale = p.scale ∧ p'.mu = p.mu ∧ p'.g1 = p.g1 ∧ p'.g2 = p.g2 ∧ p'.g3 = p.g3 ∧ p'.vd = p.vd ∧ p'.vu = p.vu ∧
    (∀ i j, ¬ (i = 2 ∧ j = 2) → p'.mq2 i j = p.mq2 i j) ∧
    (lt (abs (p.mq2 2 2 - p.mu2 2 2)) eps8 = false → p'.mq2 = p.mq2) ∧
    (lt (abs (p.mq2 2 2 - p.mu2 2 2)) eps8 = true → p'.mq2 2 2 = p.mu2 2 2 / (1 + eps8)) ∧
    p'.md2 = p.md2 ∧ p'.mu2 = p.mu2 ∧ p'.ml2 = p.ml2 ∧ p'.me2 = p.me2 ∧ p'.Au = p.Au ∧ p'.Ad = p.Ad ∧ p'.Ae = p.Ae ∧
    p'.M1 = p.M1 ∧ p'.M2 = p.M2 ∧ p'.MG = abs p.MG ∧ p'.MA = p.MA ∧
    p'.massLimit3LThreshold = p.massLimit3LThreshold ∧
    (isNaN p.MW = false → p'.MW = p.MW) ∧ (isNaN p.MZ = false → p'.MZ = p.MZ) ∧
    (isNaN p.Mt = false → p'.Mt = p.Mt) ∧ (isNaN p.Mb = false → p'.Mb = p.Mb) ∧
    (isNaN p.Mtau = false → p'.Mtau = p.Mtau) := by
  obtain ⟨-, -, -, -, -, -, st, sb, stau, -, -, -, rfl⟩ := validate_ok h
  rw [final_eq]
  refine ⟨rfl, rfl, rfl, rfl, rfl, rfl, rfl, ?_, ?_, ?_, rfl, rfl, rfl, rfl, rfl, rfl, rfl, rfl, rfl, rfl, rfl, rfl,
    ?_, ?_, ?_, ?_, ?_⟩
  · intro i j hij
    show shiftMq2 p.mq2 p.mu2 _ _ = _
    unfold shiftMq2; split_ifs
    · unfold Mat3.set22; rw [if_neg hij]
    · rfl
  · intro hd
    show shiftMq2 p.mq2 p.mu2 = _
    unfold shiftMq2 degEps; rw [hd]; rfl
  · intro hd
    show shiftMq2 p.mq2 p.mu2 2 2 = _
    unfold shiftMq2 degEps; rw [hd]; rfl
  all_goals
    intro hn
    show (if isNaN _ = true then _ else _) = _
    rw [hn]; rfl

/-- How a supplied sfermion family may be reported: as supplied, or with both masses exchanged, the angle shifted by
`π/2` and the sign of `sin 2θ` flipped if the masses were in descending order. -/
def Reordered (m : Vec2 F) (θ s2 : F) (m' : Vec2 F) (θ' s2' : F) : Prop :=
  (lt m.x1 m.x0 = false ∧ m' = m ∧ θ' = θ ∧ s2' = s2) ∨
  (lt m.x1 m.x0 = true ∧ m' = ⟨m.x1, m.x0⟩ ∧ θ' = θ + lit (1/2) * const .pi ∧ s2' = s2 * (-1))

omit [Sub F] [Div F] in
theorem sort_reordered (s : Sf F) :
    Reordered s.ev s.theta s.s2 (sort_ev s).ev (sort_ev s).theta (sort_ev s).s2 := by
  unfold sort_ev Reordered
  by_cases h : lt s.ev.x1 s.ev.x0 = true
  · rw [if_pos h]; right; exact ⟨h, rfl, rfl, rfl⟩
  · rw [if_neg h]; left; exact ⟨by simpa using h, rfl, rfl, rfl⟩

/-- C13: Stop masses supplied together with a mixing angle (`theta`, `sin 2 theta` or both) are only reordered, and the
lighter one is moved by a relative `1e-8` if the two masses agree within `1e-8`. The other angle variable is derived. -/
theorem C13_stops_kept (X : Ext F) (p p' : Params F) (h : validate X p = (.ok (), p'))
    (hg : SfGiven p.MSt p.theta_t p.s2t) :
    ∃ m θ s2, Reordered p.MSt θ s2 m p'.theta_t p'.s2t ∧
      (isNaN p.theta_t = false → θ = p.theta_t) ∧ (isNaN p.s2t = false → s2 = p.s2t) ∧
      (isNaN p.s2t = true → s2 = sin (2 * θ)) ∧ (isNaN p.theta_t = true → θ = lit (1/2) * asin s2) ∧
      (lt (abs (m.x0 - m.x1)) eps8 = false → p'.MSt = m) ∧
      (lt (abs (m.x0 - m.x1)) eps8 = true → p'.MSt = ⟨m.x1 / (1 + eps8), m.x1⟩) := by
  obtain ⟨-, -, -, -, -, -, st, sb, stau, e1, -, -, rfl⟩ := validate_ok h
  rw [final_eq]
  have hst : st = ⟨p.MSt, (calc_theta p.theta_t p.s2t).1, (calc_theta p.theta_t p.s2t).2⟩ := by
    have hi : ¬ (Sf.incomplete (prep X p).stops = true) := fun hh => (incomplete_iff _ _ _).1 hh hg
    unfold fillSf at e1
    rw [if_neg hi] at e1
    cases e1; rfl
  have hr := sort_reordered st
  refine ⟨(sort_ev st).ev, st.theta, st.s2, ?_, ?_, ?_, ?_, ?_, ?_, ?_⟩
  · have : p.MSt = st.ev := by rw [hst]
    rw [this]; exact hr
  · intro hn; rw [hst]; unfold calc_theta; cases h2 : isNaN p.s2t <;> simp [hn]
  · intro hn; rw [hst]; unfold calc_theta; cases h2 : isNaN p.theta_t <;> simp [hn]
  · intro hn
    obtain ⟨-, -, ha⟩ := hg
    have : isNaN p.theta_t = false := by
      rcases ha with h | h | h
      · rw [h.2] at hn; cases hn
      · exact h.1
      · rw [h.2.1] at hn; cases hn
    rw [hst]; unfold calc_theta; simp [hn, this]
  · intro hn
    obtain ⟨-, -, ha⟩ := hg
    have : isNaN p.s2t = false := by
      rcases ha with h | h | h
      · rw [h.1] at hn; cases hn
      · rw [h.1] at hn; cases hn
      · exact h.2.1
    rw [hst]; unfold calc_theta; simp [hn, this]
  · intro hd
    show shiftStops (sort_ev st).ev = _
    unfold shiftStops degEps; rw [hd]; rfl
  · intro hd
    show shiftStops (sort_ev st).ev = _
    unfold shiftStops degEps; rw [hd]; rfl

/-- C13: Sbottom masses supplied together with a mixing angle (`theta`, `sin 2 theta` or both) are only reordered, and the
lighter one is moved by a relative `1e-8` if the two masses agree within `1e-8`. The other angle variable is derived. -/
theorem C13_sbottoms_kept (X : Ext F) (p p' : Params F) (h : validate X p = (.ok (), p'))
    (hg : SfGiven p.MSb p.theta_b p.s2b) :
    ∃ m θ s2, Reordered p.MSb θ s2 m p'.theta_b p'.s2b ∧
      (isNaN p.theta_b = false → θ = p.theta_b) ∧ (isNaN p.s2b = false → s2 = p.s2b) ∧
      (isNaN p.s2b = true → s2 = sin (2 * θ)) ∧ (isNaN p.theta_b = true → θ = lit (1/2) * asin s2) ∧
      (lt (abs (m.x0 - m.x1)) eps8 = false → p'.MSb = m) ∧
      (lt (abs (m.x0 - m.x1)) eps8 = true → p'.MSb = ⟨m.x0 / (1 + eps8), m.x1⟩) := by
  obtain ⟨-, -, -, -, -, -, st, sb, stau, -, e1, -, rfl⟩ := validate_ok h
  rw [final_eq]
  have hst : sb = ⟨p.MSb, (calc_theta p.theta_b p.s2b).1, (calc_theta p.theta_b p.s2b).2⟩ := by
    have hi : ¬ (Sf.incomplete (prep X p).sbottoms = true) := fun hh => (incomplete_iff _ _ _).1 hh hg
    unfold fillSf at e1
    rw [if_neg hi] at e1
    cases e1; rfl
  have hr := sort_reordered sb
  refine ⟨(sort_ev sb).ev, sb.theta, sb.s2, ?_, ?_, ?_, ?_, ?_, ?_, ?_⟩
  · have : p.MSb = sb.ev := by rw [hst]
    rw [this]; exact hr
  · intro hn; rw [hst]; unfold calc_theta; cases h2 : isNaN p.s2b <;> simp [hn]
  · intro hn; rw [hst]; unfold calc_theta; cases h2 : isNaN p.theta_b <;> simp [hn]
  · intro hn
    obtain ⟨-, -, ha⟩ := hg
    have : isNaN p.theta_b = false := by
      rcases ha with h | h | h
      · rw [h.2] at hn; cases hn
      · exact h.1
      · rw [h.2.1] at hn; cases hn
    rw [hst]; unfold calc_theta; simp [hn, this]
  · intro hn
    obtain ⟨-, -, ha⟩ := hg
    have : isNaN p.s2b = false := by
      rcases ha with h | h | h
      · rw [h.1] at hn; cases hn
      · rw [h.1] at hn; cases hn
      · exact h.2.1
    rw [hst]; unfold calc_theta; simp [hn, this]
  · intro hd
    show shiftSbottoms (sort_ev sb).ev = _
    unfold shiftSbottoms degEps; rw [hd]; rfl
  · intro hd
    show shiftSbottoms (sort_ev sb).ev = _
    unfold shiftSbottoms degEps; rw [hd]; rfl

/-- C13: Stau masses supplied together with a mixing angle (`theta`, `sin 2 theta` or both) are only reordered. The other angle variable is derived. -/
theorem C13_staus_kept (X : Ext F) (p p' : Params F) (h : validate X p = (.ok (), p'))
    (hg : SfGiven p.MStau p.theta_tau p.s2tau) :
    ∃ θ s2, Reordered p.MStau θ s2 p'.MStau p'.theta_tau p'.s2tau ∧
      (isNaN p.theta_tau = false → θ = p.theta_tau) ∧ (isNaN p.s2tau = false → s2 = p.s2tau) ∧
      (isNaN p.s2tau = true → s2 = sin (2 * θ)) ∧ (isNaN p.theta_tau = true → θ = lit (1/2) * asin s2) := by
  obtain ⟨-, -, -, -, -, -, st, sb, stau, -, -, e1, rfl⟩ := validate_ok h
  rw [final_eq]
  have hst : stau = ⟨p.MStau, (calc_theta p.theta_tau p.s2tau).1, (calc_theta p.theta_tau p.s2tau).2⟩ := by
    have hi : ¬ (Sf.incomplete (prep X p).staus = true) := fun hh => (incomplete_iff _ _ _).1 hh hg
    unfold fillSf at e1
    rw [if_neg hi] at e1
    cases e1; rfl
  have hr := sort_reordered stau
  refine ⟨stau.theta, stau.s2, ?_, ?_, ?_, ?_, ?_⟩
  · have : p.MStau = stau.ev := by rw [hst]
    rw [this]; exact hr
  · intro hn; rw [hst]; unfold calc_theta; cases h2 : isNaN p.s2tau <;> simp [hn]
  · intro hn; rw [hst]; unfold calc_theta; cases h2 : isNaN p.theta_tau <;> simp [hn]
  · intro hn
    obtain ⟨-, -, ha⟩ := hg
    have : isNaN p.theta_tau = false := by
      rcases ha with h | h | h
      · rw [h.2] at hn; cases hn
      · exact h.1
      · rw [h.2.1] at hn; cases hn
    rw [hst]; unfold calc_theta; simp [hn, this]
  · intro hn
    obtain ⟨-, -, ha⟩ := hg
    have : isNaN p.s2tau = false := by
      rcases ha with h | h | h
      · rw [h.1] at hn; cases hn
      · rw [h.1] at hn; cases hn
      · exact h.2.1
    rw [hst]; unfold calc_theta; simp [hn, this]

/-- C13 (finding): stop masses supplied without a mixing angle are silently ignored - two points that differ only in the
supplied stop masses are validated to the same result, hence at most one of the two inputs can have been kept. -/
theorem C13_stop_masses_without_angle_ignored (X : Ext F) (p : Params F) (m m' : Vec2 F)
    (h1 : isNaN p.theta_t = true) (h2 : isNaN p.s2t = true) {q : Params F}
    (h : validate X { p with MSt := m } = (.ok (), q)) : validate X { p with MSt := m' } = (.ok (), q) := by
  have hv := validate_ok h
  apply validate_of_ok
  obtain ⟨g1, g2, g3, g4, g5, g6, st, sb, stau, e1, e2, e3, e4⟩ := hv
  refine ⟨g1, g2, g3, g4, g5, g6, st, sb, stau, ?_, e2, e3, e4⟩
  have ct : calc_theta p.theta_t p.s2t = (p.theta_t, p.s2t) := by unfold calc_theta; simp [h1, h2]
  have key : ∀ n : Vec2 F, fillSf X (prep X { p with MSt := n }).stops (stopMatrix (prep X { p with MSt := n }))
      = calculate_MSf_s2f X (stopMatrix (prep X { p with MSt := m })) := by
    intro n
    unfold fillSf
    rw [if_pos]
    · rfl
    · show Sf.incomplete ⟨n, (calc_theta p.theta_t p.s2t).1, (calc_theta p.theta_t p.s2t).2⟩ = true
      rw [ct]; unfold Sf.incomplete; simp [h1, h2]
  rw [key] at e1 ⊢
  exact e1

end
end Himalaya
