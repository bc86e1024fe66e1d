import Verif.Iface.Model
import Verif.Base.Dbl

/-! # Helper lemmas about `validate` -/

namespace Himalaya
open FOps
open scoped Himalaya

section
variable {F : Type} [Add F] [Sub F] [Mul F] [Div F] [Neg F] [FOps F]

/-- what a successful validation has computed -/
structure ValidOk (X : Ext F) (p p' : Params F) : Prop where
  soft : softMassesNegative p = false
  mg : lt p.MG 0 = false
  vu1 : isNaN p.vu = false
  vu2 : le p.vu 0 = false
  vd1 : isNaN p.vd = false
  vd2 : le p.vd 0 = false
  ex : ∃ st sb stau,
    fillSf X (prep X p).stops (stopMatrix (prep X p)) = .ok st ∧
    fillSf X (prep X p).sbottoms (sbottomMatrix (prep X p)) = .ok sb ∧
    fillSf X (prep X p).staus (stauMatrix (prep X p)) = .ok stau ∧
    p' = sortAndShift ((((prep X p).withStops st).withSbottoms sb).withStaus stau)

theorem computeSf_cases (X : Ext F) (p : Params F) :
    (∃ st sb stau, fillSf X p.stops (stopMatrix p) = .ok st ∧ fillSf X p.sbottoms (sbottomMatrix p) = .ok sb ∧
      fillSf X p.staus (stauMatrix p) = .ok stau ∧
      computeSfermions X p = (.ok (), sortAndShift (((p.withStops st).withSbottoms sb).withStaus stau))) ∨
    (∃ e p', computeSfermions X p = (.error e, p') ∧
      (fillSf X p.stops (stopMatrix p) = .error e ∨ fillSf X p.sbottoms (sbottomMatrix p) = .error e ∨
       fillSf X p.staus (stauMatrix p) = .error e)) := by
  unfold computeSfermions
  cases e1 : fillSf X p.stops (stopMatrix p) with
  | error e => right; exact ⟨e, p, rfl, Or.inl rfl⟩
  | ok st =>
    simp only
    have h2 : fillSf X (p.withStops st).sbottoms (sbottomMatrix (p.withStops st))
      = fillSf X p.sbottoms (sbottomMatrix p) := rfl
    rw [h2]
    cases e2 : fillSf X p.sbottoms (sbottomMatrix p) with
    | error e => right; exact ⟨e, _, rfl, Or.inr (Or.inl rfl)⟩
    | ok sb =>
      simp only
      have h3 : fillSf X ((p.withStops st).withSbottoms sb).staus (stauMatrix ((p.withStops st).withSbottoms sb))
        = fillSf X p.staus (stauMatrix p) := rfl
      rw [h3]
      cases e3 : fillSf X p.staus (stauMatrix p) with
      | error e => right; exact ⟨e, _, rfl, Or.inr (Or.inr rfl)⟩
      | ok stau => left; exact ⟨st, sb, stau, rfl, rfl, rfl, rfl⟩

/-- all ways in which `validate` can end -/
theorem validate_cases (X : Ext F) (p : Params F) :
    (∃ p', validate X p = (.ok (), p') ∧ ValidOk X p p') ∨
    (∃ e p', validate X p = (.error e, p') ∧
      ((softMassesNegative p = true ∧ p' = p) ∨ (lt p.MG 0 = true ∧ p' = p) ∨
       (isNaN p.vu || le p.vu 0) = true ∨ (isNaN p.vd || le p.vd 0) = true ∨
       fillSf X (prep X p).stops (stopMatrix (prep X p)) = .error e ∨
       fillSf X (prep X p).sbottoms (sbottomMatrix (prep X p)) = .error e ∨
       fillSf X (prep X p).staus (stauMatrix (prep X p)) = .error e)) := by
  unfold validate
  by_cases h1 : softMassesNegative p = true
  · rw [if_pos h1]; right; exact ⟨_, _, rfl, Or.inl ⟨h1, rfl⟩⟩
  by_cases h2 : lt p.MG 0 = true
  · rw [if_neg h1, if_pos h2]; right; exact ⟨_, _, rfl, Or.inr (Or.inl ⟨h2, rfl⟩)⟩
  by_cases h3 : (isNaN p.vu || le p.vu 0) = true
  · rw [if_neg h1, if_neg h2, if_pos h3]; right; exact ⟨_, _, rfl, Or.inr (Or.inr (Or.inl h3))⟩
  by_cases h4 : (isNaN p.vd || le p.vd 0) = true
  · rw [if_neg h1, if_neg h2, if_neg h3, if_pos h4]; right
    exact ⟨_, _, rfl, Or.inr (Or.inr (Or.inr (Or.inl h4)))⟩
  rw [if_neg h1, if_neg h2, if_neg h3, if_neg h4]
  simp only [Bool.not_eq_true, Bool.or_eq_false_iff] at h1 h2 h3 h4
  rcases computeSf_cases X (prep X p) with ⟨st, sb, stau, e1, e2, e3, e⟩ | ⟨e, p', h, hc⟩
  · left; exact ⟨_, e, ⟨h1, h2, h3.1, h3.2, h4.1, h4.2, st, sb, stau, e1, e2, e3, rfl⟩⟩
  · right; exact ⟨e, p', h, Or.inr (Or.inr (Or.inr (Or.inr hc)))⟩

theorem validate_ok {X : Ext F} {p p' : Params F} (h : validate X p = (.ok (), p')) : ValidOk X p p' := by
  rcases validate_cases X p with ⟨q, hq, hv⟩ | ⟨e, q, hq, _⟩
  · rw [h] at hq; cases hq; exact hv
  · rw [h] at hq; cases hq

theorem validate_of_ok {X : Ext F} {p p' : Params F} (h : ValidOk X p p') : validate X p = (.ok (), p') := by
  obtain ⟨h1, h2, h3, h4, h5, h6, st, sb, stau, e1, e2, e3, rfl⟩ := h
  rcases computeSf_cases X (prep X p) with ⟨st', sb', stau', e1', e2', e3', e⟩ | ⟨e, p', h, hc⟩
  · rw [e1] at e1'; rw [e2] at e2'; rw [e3] at e3'
    cases e1'; cases e2'; cases e3'
    unfold validate
    simp only [h1, h2, h3, h4, h5, h6, if_false, Bool.false_eq_true, Bool.or_self]
    exact e
  · rw [e1, e2, e3] at hc; simp at hc

/-- the smaller of two numbers, as computed in `minCoeff` -/
def mn (a b : F) : F := if lt b a then b else a

omit [Add F] [Sub F] [Mul F] [Div F] [Neg F] in
theorem mn_notnan {a b : F} (ha : isNaN a = false) (hb : isNaN b = false) : isNaN (mn a b) = false := by
  unfold mn; split_ifs <;> assumption

omit [Add F] [Sub F] [Mul F] [Div F] [Neg F] in
theorem lt_mn [LawfulCmp F] {a b c : F} (ha : isNaN a = false) (hb : isNaN b = false) :
    lt (mn a b) c = true ↔ lt a c = true ∨ lt b c = true := by
  unfold mn
  by_cases h : lt b a = true
  · rw [if_pos h]
    exact ⟨Or.inr, fun h' => h'.elim (fun h1 => lt_trans' h h1) id⟩
  · rw [if_neg h]
    refine ⟨Or.inl, fun h' => h'.elim id (fun h1 => ?_)⟩
    exact lt_of_le_of_lt (le_of_not_lt hb ha (by simpa using h)) h1

omit [Add F] [Sub F] [Mul F] [Div F] [Neg F] in
theorem minCoeff_lt [LawfulCmp F] (m : Mat3 F) (c : F) (hm : ∀ i j, isNaN (m i j) = false) :
    lt (minCoeff m) c = true ↔ ∃ i j, lt (m i j) c = true := by
  have e : minCoeff m = mn (mn (mn (mn (mn (mn (mn (mn (m 0 0) (m 1 0)) (m 2 0)) (m 0 1)) (m 1 1)) (m 2 1)) (m 0 2))
      (m 1 2)) (m 2 2) := rfl
  rw [e]
  have n1 := mn_notnan (hm 0 0) (hm 1 0)
  have n2 := mn_notnan n1 (hm 2 0)
  have n3 := mn_notnan n2 (hm 0 1)
  have n4 := mn_notnan n3 (hm 1 1)
  have n5 := mn_notnan n4 (hm 2 1)
  have n6 := mn_notnan n5 (hm 0 2)
  have n7 := mn_notnan n6 (hm 1 2)
  rw [lt_mn n7 (hm 2 2), lt_mn n6 (hm 1 2), lt_mn n5 (hm 0 2), lt_mn n4 (hm 2 1), lt_mn n3 (hm 1 1),
    lt_mn n2 (hm 0 1), lt_mn n1 (hm 2 0), lt_mn (hm 0 0) (hm 1 0)]
  simp only [Fin.exists_fin_succ, Fin.exists_fin_zero_pi, IsEmpty.exists_iff, or_false]
  show _ ↔ ((lt (m 0 0) c = true ∨ lt (m 0 1) c = true ∨ lt (m 0 2) c = true) ∨
    (lt (m 1 0) c = true ∨ lt (m 1 1) c = true ∨ lt (m 1 2) c = true) ∨
    (lt (m 2 0) c = true ∨ lt (m 2 1) c = true ∨ lt (m 2 2) c = true))
  tauto

end
end Himalaya
