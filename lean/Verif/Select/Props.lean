import Verif.Select.Model
import Verif.Base.Dbl
import Mathlib.Tactic.Linarith
import Mathlib.Tactic.IntervalCases
import Mathlib.Tactic.NormNum

/-!
# C07 (mother hierarchies), C10 and C11 (suitability)
-/

set_option linter.unusedSimpArgs false
set_option linter.unusedVariables false
set_option linter.unusedSectionVars false

namespace Himalaya

open scoped Himalaya Himalaya.FOps

/-! ### C07 -/

/-- The base hierarchies of arXiv:1005.5709. -/
def baseHierarchies : List Int := [Hier.h3, Hier.h4, Hier.h5, Hier.h6, Hier.h6b, Hier.h9]

/-- `m` is the mother of `k`: a base hierarchy whose documented name is the longest name of a base hierarchy that is a
prefix of the name of `k`. -/
def IsMotherByName (k m : Int) : Prop :=
  m ∈ baseHierarchies ∧ (h3mHierarchyNotation m).toList <+: (h3mHierarchyNotation k).toList ∧
  ∀ m' ∈ baseHierarchies, (h3mHierarchyNotation m').toList <+: (h3mHierarchyNotation k).toList →
    (h3mHierarchyNotation m').length ≤ (h3mHierarchyNotation m).length

/-- The mother map is defined exactly on the keys 0..13. -/
theorem C07_mother_domain (k : Int) : (∃ m, getMotherHierarchy k = .ok m) ↔ 0 ≤ k ∧ k ≤ 13 := by
  unfold getMotherHierarchy
  constructor
  · rintro ⟨m, h⟩
    split at h
    · split at h <;> cases h
    · rename_i hc
      simp only [Hier.FIRST, Hier.NUMBER_OF_HIERARCHIES] at hc
      omega
  · intro h
    rw [if_neg (by simp only [Hier.FIRST, Hier.NUMBER_OF_HIERARCHIES]; omega)]
    exact ⟨_, rfl⟩

/-- For every key the result is the mother hierarchy according to the documented names. -/
theorem C07_mother_is_base_by_name (k m : Int) (h : getMotherHierarchy k = .ok m) : IsMotherByName k m := by
  have hk := (C07_mother_domain k).1 ⟨m, h⟩
  obtain ⟨h0, h13⟩ := hk
  interval_cases k <;>
  · simp only [getMotherHierarchy] at h
    injection h with h
    subst h
    unfold IsMotherByName
    decide

/-- The image is the whole set of base hierarchies, each base hierarchy is its own mother. -/
theorem C07_mother_image_and_fixed (m : Int) :
    ((∃ k, getMotherHierarchy k = .ok m) ↔ m ∈ baseHierarchies) ∧
    (m ∈ baseHierarchies → getMotherHierarchy m = .ok m) := by
  constructor
  · constructor
    · rintro ⟨k, h⟩; exact (C07_mother_is_base_by_name k m h).1
    · intro h
      refine ⟨m, ?_⟩
      simp only [baseHierarchies, List.mem_cons, List.not_mem_nil, or_false] at h
      rcases h with h | h | h | h | h | h <;> subst h <;> rfl
  · intro h
    simp only [baseHierarchies, List.mem_cons, List.not_mem_nil, or_false] at h
    rcases h with h | h | h | h | h | h <;> subst h <;> rfl

/-- The error for keys outside the range: "no suitable hierarchy" exactly for -1. -/
theorem C07_mother_errors (k : Int) :
    (getMotherHierarchy k = .error "No suitable hierarchy found!" ↔ k = -1) ∧
    (k < -1 ∨ 13 < k → getMotherHierarchy k = .error ("Hierarchy " ++ toString k ++ " not included!")) := by
  constructor
  · constructor
    · intro h
      unfold getMotherHierarchy at h
      split at h
      · split at h
        · assumption
        · exfalso
          injection h with h
          have := congrArg (fun s => s.toList.head?) h
          simp [String.toList_append] at this
      · cases h
    · rintro rfl; rfl
  · intro h
    unfold getMotherHierarchy
    simp only [Hier.FIRST, Hier.NUMBER_OF_HIERARCHIES]
    rw [if_pos (by omega), if_neg (by omega)]

example : getMotherHierarchy Hier.h6bq22g = .ok Hier.h6b ∧ getMotherHierarchy Hier.h6g2 = .ok Hier.h6 ∧
    getMotherHierarchy 14 = .error "Hierarchy 14 not included!" := ⟨rfl, rfl, rfl⟩

/-! ### C10 -/

section generic
variable {F : Type} [Add F] [Sub F] [Mul F] [Div F] [Neg F] [FOps F]

/-- Unknown keys are never suitable. -/
theorem C10_unknown_key_unsuitable (k : Int) (h : k < 0 ∨ 13 < k) (a b g q : F) :
    suitableMasses k a b g q = false := by
  unfold suitableMasses
  dsimp only
  by_cases h1 : FOps.lt (FOps.lit (13/10) * q) b = true
  · rw [if_pos h1]
  rw [if_neg h1]
  by_cases h2 : FOps.lt (FOps.lit (13/10) * q) g = true
  · rw [if_pos h2]
  rw [if_neg h2]
  split <;> first | omega | rfl

/-- If the heavier stop or the gluino is more than 30% heavier than the mean squark mass, nothing is suitable. -/
theorem C10_heavy_stop_or_gluino_excluded (k : Int) (a b g q : F)
    (h : FOps.lt (FOps.lit (13/10) * q) b = true ∨ FOps.lt (FOps.lit (13/10) * q) g = true) :
    suitableMasses k a b g q = false := by
  unfold suitableMasses
  dsimp only
  rcases h with h | h
  · rw [if_pos h]
  · rw [if_pos h, ite_self]

/-- Pairs of hierarchies that describe disjoint mass orderings. -/
def exclusivePairs : List (Int × Int) :=
  [(Hier.h3, Hier.h32q2g), (Hier.h3, Hier.h3q22g), (Hier.h32q2g, Hier.h3q22g), (Hier.h5, Hier.h5g1),
   (Hier.h6, Hier.h6g2), (Hier.h6b, Hier.h6b2qg2), (Hier.h6b, Hier.h6bq22g), (Hier.h6b, Hier.h6bq2g2),
   (Hier.h6b2qg2, Hier.h6bq22g), (Hier.h6b2qg2, Hier.h6bq2g2), (Hier.h6bq22g, Hier.h6bq2g2), (Hier.h9, Hier.h9q2)]

private theorem lt_le_excl [LawfulCmp F] {a b : F} (h1 : FOps.lt a b = true) (h2 : FOps.le b a = true) : False := by
  rw [not_lt_of_le h2] at h1; cases h1

private theorem lt_lt_excl [LawfulCmp F] {a b : F} (h1 : FOps.lt a b = true) (h2 : FOps.lt b a = true) : False := by
  rw [not_lt_of_lt h1] at h2; cases h2

/-- Two hierarchies with disjoint mass orderings are never both suitable (any scalar type with IEEE comparison
laws, NaN included). -/
theorem C10_exclusive [LawfulCmp F] (k l : Int) (hkl : (k, l) ∈ exclusivePairs) (a b g q : F) :
    ¬ (suitableMasses k a b g q = true ∧ suitableMasses l a b g q = true) := by
  rintro ⟨h1, h2⟩
  unfold suitableMasses at h1 h2
  dsimp only at h1 h2
  split at h1
  · cases h1
  split at h1
  · cases h1
  rename_i hb hg
  rw [if_neg hb, if_neg hg] at h2
  simp only [exclusivePairs, List.mem_cons, List.not_mem_nil, or_false, Prod.mk.injEq] at hkl
  rcases hkl with h | h | h | h | h | h | h | h | h | h | h | h <;> obtain ⟨rfl, rfl⟩ := h <;>
    simp only [Bool.and_eq_true] at h1 h2
  · exact lt_lt_excl h1 h2.2
  · exact lt_lt_excl h1 h2.2
  · exact lt_le_excl h2.1 h1.1
  · exact lt_le_excl h2.2 h1.2
  · exact lt_le_excl h2.2 h1.2
  · exact lt_le_excl h2.2 h1.2
  · exact lt_le_excl h2.1.2 h1.1.2
  · exact lt_le_excl h2.2 h1.2
  · exact lt_le_excl h2.1.2 h1.1.2
  · exact lt_le_excl h2.1.2 h1.1.2
  · exact lt_le_excl h2.2 h1.2
  · exact lt_le_excl h2.1 h1.1

end generic

/-- Every hierarchy is suitable for some spectrum, so the exclusion statements are about reachable cases. -/
example : ∀ k ∈ [Hier.h3, Hier.h32q2g, Hier.h3q22g, Hier.h4, Hier.h5, Hier.h5g1, Hier.h6, Hier.h6b, Hier.h6b2qg2,
    Hier.h6bq22g, Hier.h6bq2g2, Hier.h6g2, Hier.h9, Hier.h9q2],
    ∃ a b g q : ℝ, 0 < a ∧ a ≤ b ∧ 0 < g ∧ suitableMasses k a b g q = true := by
  intro k hk
  simp only [List.mem_cons, List.not_mem_nil, or_false] at hk
  rcases hk with h | h | h | h | h | h | h | h | h | h | h | h | h | h <;> subst h
  · exact ⟨1, 2, 3, 4, by norm_num [suitableMasses]⟩
  · exact ⟨1, 2, 1, 2, by norm_num [suitableMasses]⟩
  · exact ⟨1, 2, 1, 4, by norm_num [suitableMasses]⟩
  · exact ⟨1, 2, 1, 4, by norm_num [suitableMasses]⟩
  · exact ⟨1, 2, 1, 4, by norm_num [suitableMasses]⟩
  · exact ⟨1, 2, 5/4, 4, by norm_num [suitableMasses, abs_of_neg]⟩
  · exact ⟨1, 2, 7/4, 4, by norm_num [suitableMasses, abs_of_neg]⟩
  · exact ⟨1, 2, 7/4, 2, by norm_num [suitableMasses, abs_of_neg]⟩
  · exact ⟨1, 2, 9/4, 2, by norm_num [suitableMasses, abs_of_neg]⟩
  · exact ⟨1, 2, 7/4, 5/2, by norm_num [suitableMasses, abs_of_neg]⟩
  · exact ⟨1, 2, 9/4, 5/2, by norm_num [suitableMasses, abs_of_neg]⟩
  · exact ⟨1, 2, 9/4, 4, by norm_num [suitableMasses, abs_of_neg]⟩
  · exact ⟨2, 2, 1, 2, by norm_num [suitableMasses, abs_of_neg]⟩
  · exact ⟨2, 2, 1, 3, by norm_num [suitableMasses, abs_of_neg]⟩

/-! ### C11 -/

/-- Complete description of the spectra for which the code finds no hierarchy although the 30% guards are
passed: the gluino has exactly the mass of the heavier stop, the stops are split by at most 10%, and they are not an exactly
degenerate pair below the squark mass. -/
theorem C11_coverage (a b g q : ℝ) (ha : 0 < a) (hab : a ≤ b) (hg : 0 < g)
    (hb : b ≤ 13/10 * q) (hgq : g ≤ 13/10 * q) :
    (∀ k, suitableMasses k a b g q = false) ↔
      (g = b ∧ b - a ≤ 1/10 * a ∧ ¬ (a = b ∧ a < q)) := by
  have hunf : ∀ k, suitableMasses k a b g q = (match k with
    | 0 => FOps.lt b g
    | 1 => FOps.le q b && FOps.lt g b
    | 2 => FOps.lt b q && FOps.lt g b
    | 3 => FOps.lt a q && FOps.le g a
    | 4 => FOps.lt (FOps.lit (1/10) * a) (b - a) && FOps.lt (g - a) (FOps.abs (g - b)) && FOps.lt b q && FOps.le g a
    | 5 => FOps.lt (FOps.lit (1/10) * a) (b - a) && FOps.lt (g - a) (FOps.abs (g - b)) && FOps.lt b q && FOps.lt a g
    | 6 => FOps.lt (FOps.lit (1/10) * a) (b - a) && FOps.lt (b - g) (FOps.abs (g - a)) && FOps.lt (b * FOps.lit (13/10)) q && FOps.le g b
    | 11 => FOps.lt (FOps.lit (1/10) * a) (b - a) && FOps.lt (b - g) (FOps.abs (g - a)) && FOps.lt (b * FOps.lit (13/10)) q && FOps.lt b g
    | 7 => FOps.lt (FOps.lit (1/10) * a) (b - a) && FOps.lt (b - g) (FOps.abs (g - a)) && FOps.le q b && FOps.le g b
    | 8 => FOps.lt (FOps.lit (1/10) * a) (b - a) && FOps.lt (b - g) (FOps.abs (g - a)) && FOps.le q b && FOps.lt b g
    | 9 => FOps.lt (FOps.lit (1/10) * a) (b - a) && FOps.lt (b - g) (FOps.abs (g - a)) && FOps.lt b q && FOps.le g b
    | 10 => FOps.lt (FOps.lit (1/10) * a) (b - a) && FOps.lt (b - g) (FOps.abs (g - a)) && FOps.lt b q && FOps.lt b g
    | 12 => FOps.le q b && FOps.lt (b - a) (a - g)
    | 13 => FOps.lt b q && FOps.lt (a - a) (a - g)
    | _ => false) := by
    intro k
    unfold suitableMasses
    dsimp only
    rw [if_neg (by simpa using hb), if_neg (by simpa using hgq)]
    rfl
  constructor
  · intro h
    have h0 := h 0
    have h1 := h 1
    have h2 := h 2
    have h3 := h 3
    have h7 := h 7
    have h9 := h 9
    rw [hunf] at h0 h1 h2 h3 h7 h9
    simp only [Bool.and_eq_false_iff, real_lt_false, real_le_false, real_lit, real_abs, real_lt_iff, real_le_iff] at h0 h1 h2 h3 h7 h9
    have hgb : g = b := by
      rcases h1 with h1 | h1 <;> rcases h2 with h2 | h2 <;> linarith
    subst hgb
    refine ⟨rfl, ?_, ?_⟩
    · by_contra hc
      push Not at hc
      push_cast at h7 h9
      rw [abs_of_nonneg (by linarith)] at h7 h9
      rcases h7 with ((h7 | h7) | h7) | h7 <;> rcases h9 with ((h9 | h9) | h9) | h9 <;> linarith
    · rintro ⟨rfl, haq⟩
      rcases h3 with h3 | h3 <;> linarith
  · rintro ⟨rfl, hs, hd⟩ k
    by_cases hk : 0 ≤ k ∧ k ≤ 13
    · rw [hunf]
      obtain ⟨hk0, hk1⟩ := hk
      interval_cases k <;>
        simp only [Bool.and_eq_false_iff, real_lt_false, real_le_false, real_lit, real_abs, le_refl, or_true, sub_self]
      · by_cases haq : a < q
        · right
          by_contra hc
          push Not at hc
          exact hd ⟨le_antisymm hab hc, haq⟩
        · left; linarith
      all_goals first
        | (left; left; left; push_cast; linarith)
        | (right; linarith)
    · exact C10_unknown_key_unsuitable k (by omega) a g g q

/-- The uncovered case exists. -/
theorem C11_gap_exists : ∃ a b g q : ℝ, 0 < a ∧ a < b ∧ 0 < g ∧ b ≤ 13/10 * q ∧ g ≤ 13/10 * q ∧
    ∀ k, suitableMasses k a b g q = false := by
  refine ⟨100, 105, 105, 200, by norm_num, by norm_num, by norm_num, by norm_num, by norm_num, ?_⟩
  rw [C11_coverage] <;> norm_num

/-- h9q2 does not restrict the stop splitting (its sister h9 does): it is suitable for every gluino lighter than the lighter stop when
the heavier stop is below the mean squark mass. -/
theorem C11_h9q2_ignores_stop_splitting (a b g q : ℝ) (hb : b ≤ 13/10 * q) (hgq : g ≤ 13/10 * q) :
    suitableMasses Hier.h9q2 a b g q = true ↔ b < q ∧ g < a := by
  unfold suitableMasses
  dsimp only
  rw [if_neg (by simpa using hb), if_neg (by simpa using hgq)]
  simp

end Himalaya
