import Verif.Calc.Frame
import Verif.Select.Props

/-!
# C08 (the selected hierarchy minimises the error estimate), C09 (the reported differences belong to it)

Valid for every scalar type with the laws of IEEE comparisons, `sqrt(x) < 0` never true and `-1 < 0`.
-/

set_option linter.unusedSimpArgs false
set_option linter.unusedSectionVars false
set_option linter.unusedVariables false

namespace Himalaya

open CalcM
open scoped Himalaya Himalaya.FOps

/-- Two facts about IEEE numbers used by the selection loop. -/
class LawfulSqrt (F : Type) [Neg F] [FOps F] : Prop where
  sqrt_not_neg : ∀ x : F, FOps.lt (FOps.sqrt x) 0 = false
  neg_one_lt : FOps.lt (-1 : F) 0 = true

instance : LawfulSqrt ℝ where
  sqrt_not_neg x := by simp [Real.sqrt_nonneg]
  neg_one_lt := by simp

instance : LawfulSqrt Dbl where
  sqrt_not_neg x := by
    show Dbl.ltb (Dbl.sqrtd x) _ = false
    rw [Dbl.fin_ofNat]
    cases x <;> simp only [Dbl.sqrtd] <;> try rfl
    split
    · rfl
    · simp [Dbl.ltb, Real.sqrt_nonneg]
  neg_one_lt := by simp

/-! ### Specification -/

section spec
variable {F : Type} [Add F] [Sub F] [Mul F] [Div F] [Neg F] [FOps F] (E : Env F) (p : Params F)

/-- Expansion flags during the selection: three-loop and top-mass flags off, the others as set. -/
def selDepth (d : Depth) : Depth := fun i => if i = XD.threeLoop ∨ i = XD.Mst then 0 else d i

/-- The error estimate of hierarchy `k`, written with the public member functions: deviation of the expanded from the exact two-loop
Higgs mass, relative deviation, two- and three-loop expansion uncertainties, and the total relative error that is minimised. -/
def estimate (d : Depth) (ho : HObj F) (k : Int) : Except String (Cand F) := do
  let obj := ho.setSuitableHierarchy k
  let tree := treeLevel p
  let oneLoop ← getMt41L p obj obj.getMDRFlag 0
  let twoLoop ← getMt42L E p obj obj.getMDRFlag 0
  let expanded ← (calculateHierarchy E p 0 1 0 ⟨selDepth d, obj⟩).1
  let unc2 ← (getExpansionUncertainty E p (tree + oneLoop) 0 1 0 ⟨selDepth d, obj⟩).1
  let unc3 ← (getExpansionUncertainty E p (tree + oneLoop + twoLoop) 0 0 1 ⟨selDepth d, obj⟩).1
  let mhExact := E.smallestEig (tree + oneLoop + twoLoop)
  let mhExpanded := E.smallestEig (tree + oneLoop + expanded)
  let diff := FOps.abs (mhExact - mhExpanded)
  return { twoLoopError := diff, relError := diff / mhExact, unc2 := unc2, unc3 := unc3,
           currError := FOps.sqrt (pow2 (diff / mhExact) + pow2 (unc2 / mhExpanded)) }

/-- Hierarchy `k` is applicable to the spectrum. -/
def Suitable (ho : HObj F) (k : Int) : Prop := isHierarchySuitable p (ho.setSuitableHierarchy k) = true

end spec

/-! ### Proof -/

section proof
variable {F : Type} [Add F] [Sub F] [Mul F] [Div F] [Neg F] [FOps F] {E : Env F} {p : Params F}

private theorem except_bind_ok {α β : Type} {e : Except String α} {f : α → Except String β} {a : α} (h : e = .ok a) :
    (e >>= f) = f a := by rw [h]; rfl

theorem evalCandidate_ok {d : Depth} {ho : HObj F} {k : Int} {s s' : St F} {c : Cand F}
    (hkey : SameKey s.ho (ho.setSuitableHierarchy k)) (hd : s.depth = selDepth d)
    (h : evalCandidate E p s = (.ok c, s')) :
    estimate E p d ho k = .ok c ∧ frameLambda s'.ho = frameLambda s.ho ∧ s'.depth = s.depth := by
  refine ⟨?_, ?_, ?_⟩
  · unfold evalCandidate at h
    obtain ⟨ho', s1, e1, h⟩ := bind_ok.1 h
    obtain ⟨rfl, rfl⟩ := getHo_ok.1 e1
    obtain ⟨m1, s2, e2, h⟩ := bind_ok.1 h
    obtain ⟨e2b, rfl⟩ := lift_ok.1 e2
    obtain ⟨m2, s3, e3, h⟩ := bind_ok.1 h
    obtain ⟨e3b, rfl⟩ := lift_ok.1 e3
    obtain ⟨x, s4, e4, h⟩ := bind_ok.1 h
    rw [calculateHierarchy_no3 E p 0 1 0 (by decide)] at e4
    obtain ⟨e4b, rfl⟩ := Prod.mk.inj e4
    obtain ⟨u2, s5, e5, h⟩ := bind_ok.1 h
    rw [getExpansionUncertainty_run] at e5
    obtain ⟨e5b, rfl⟩ := Prod.mk.inj e5
    obtain ⟨u3, s6, e6, h⟩ := bind_ok.1 h
    rw [getExpansionUncertainty_run] at e6
    obtain ⟨e6b, rfl⟩ := Prod.mk.inj e6
    obtain ⟨u, s7, e7, h⟩ := bind_ok.1 h
    obtain ⟨h, -⟩ := pure_ok.1 h
    have hm : (ho.setSuitableHierarchy k).getMDRFlag = s.ho.getMDRFlag := hkey.mdr.symm
    unfold estimate
    dsimp only
    rw [calculateHierarchy_no3 E p 0 1 0 (by decide), ← hd]
    simp only [getExpansionUncertainty_run]
    rw [hm, ← mt41_congr hkey, ← mt42_congr E hkey, ← pureHier_congr E hkey]
    have hu : ∀ M f1 f2 f3, pureUnc E p s.depth (ho.setSuitableHierarchy k) M f1 f2 f3 = pureUnc E p s.depth s.ho M f1 f2 f3 := by
      intro M f1 f2 f3
      unfold pureUnc
      rw [← pureMh_congr E hkey, hkey.hierarchy]
      have : ∀ l Mh acc, pureSum E p (uncDepth s.depth) (ho.setSuitableHierarchy k) M f1 f2 f3 Mh l acc =
          pureSum E p (uncDepth s.depth) s.ho M f1 f2 f3 Mh l acc := by
        intro l
        induction l with
        | nil => intro Mh acc; rfl
        | cons i l ih => intro Mh acc; unfold pureSum; rw [← pureMh_congr E hkey]; simp only [ih]
      simp only [this]
    rw [except_bind_ok e2b, except_bind_ok e3b, except_bind_ok e4b, hu, except_bind_ok e5b, hu, except_bind_ok e6b, ← h]
    rfl
  · unfold evalCandidate at h
    obtain ⟨ho', s1, e1, h⟩ := bind_ok.1 h
    obtain ⟨rfl, rfl⟩ := getHo_ok.1 e1
    obtain ⟨m1, s2, e2, h⟩ := bind_ok.1 h
    obtain ⟨e2b, rfl⟩ := lift_ok.1 e2
    obtain ⟨m2, s3, e3, h⟩ := bind_ok.1 h
    obtain ⟨e3b, rfl⟩ := lift_ok.1 e3
    obtain ⟨x, s4, e4, h⟩ := bind_ok.1 h
    rw [calculateHierarchy_no3 E p 0 1 0 (by decide)] at e4
    obtain ⟨e4b, rfl⟩ := Prod.mk.inj e4
    obtain ⟨u2, s5, e5, h⟩ := bind_ok.1 h
    rw [getExpansionUncertainty_run] at e5
    obtain ⟨e5b, rfl⟩ := Prod.mk.inj e5
    obtain ⟨u3, s6, e6, h⟩ := bind_ok.1 h
    rw [getExpansionUncertainty_run] at e6
    obtain ⟨e6b, rfl⟩ := Prod.mk.inj e6
    obtain ⟨u, s7, e7, h⟩ := bind_ok.1 h
    obtain ⟨-, rfl⟩ := pure_ok.1 h
    exact (keeps_calcDeltaLambda3L E p true).out _ _ _ e7
  · have := (pres_evalCandidate E p).out s
    rw [h] at this
    exact this

/-- state of the selection loop: nothing selected yet, or hierarchy `k` with estimate `c` -/
structure Rel (ho : HObj F) (d : Depth) (o : Option (Int × Cand F)) (acc : Sel F) (s : St F) : Prop where
  depth : s.depth = selDepth d
  alphab : s.ho.isAlphab = ho.isAlphab
  mdr : s.ho.mdrFlag = ho.mdrFlag
  acc_none : o = none → acc = (-1, -1)
  acc_some : ∀ k c, o = some (k, c) → acc = (c.currError, k) ∧ s.ho.absDiff2L = c.twoLoopError ∧ s.ho.relDiff2L = c.relError ∧
    s.ho.expUncertainties 2 = c.unc2 ∧ s.ho.expUncertainties 3 = c.unc3

/-- what is known about the selection after the hierarchies `done` -/
structure Inv (E : Env F) (p : Params F) (d : Depth) (ho : HObj F) (done : List Int) (o : Option (Int × Cand F)) : Prop where
  none_iff : o = none ↔ ∀ j ∈ done, ¬ Suitable p ho j
  total : ∀ j ∈ done, Suitable p ho j → ∃ c, estimate E p d ho j = .ok c
  sel : ∀ k c, o = some (k, c) → k ∈ done ∧ Suitable p ho k ∧ estimate E p d ho k = .ok c
  nan : ∀ k c, o = some (k, c) → FOps.isNaN c.currError = true → ∀ j ∈ done, j < k → ¬ Suitable p ho j
  minimal : ∀ k c, o = some (k, c) → FOps.isNaN c.currError = false → ∀ j cj, j ∈ done → Suitable p ho j →
    estimate E p d ho j = .ok cj → FOps.isNaN cj.currError = false →
    FOps.le c.currError cj.currError = true ∧ (j < k → FOps.lt c.currError cj.currError = true)
  sticky : ∀ k c, o = some (k, c) → ∀ j cj, j ∈ done → Suitable p ho j → estimate E p d ho j = .ok cj →
    FOps.isNaN cj.currError = true → (∀ i ∈ done, i < j → ¬ Suitable p ho i) → k = j

theorem estimate_nonneg [LawfulSqrt F] {d : Depth} {ho : HObj F} {k : Int} {c : Cand F} (hest : estimate E p d ho k = .ok c) :
    FOps.lt c.currError 0 = false := by
  obtain ⟨m1, m2, hc⟩ : ∃ x y : F, c.currError = FOps.sqrt (x + y) := by
    unfold estimate at hest
    dsimp only at hest
    revert hest
    cases getMt41L p (ho.setSuitableHierarchy k) (ho.setSuitableHierarchy k).getMDRFlag 0 <;> [(intro h; cases h); skip]
    cases getMt42L E p (ho.setSuitableHierarchy k) (ho.setSuitableHierarchy k).getMDRFlag 0 <;> [(intro h; cases h); skip]
    cases (calculateHierarchy E p 0 1 0 ⟨selDepth d, ho.setSuitableHierarchy k⟩).1 <;> [(intro h; cases h); skip]
    rename_i a b x
    show ((getExpansionUncertainty E p (treeLevel p + a) 0 1 0 ⟨selDepth d, ho.setSuitableHierarchy k⟩).1 >>= _) = _ → _
    cases (getExpansionUncertainty E p (treeLevel p + a) 0 1 0 ⟨selDepth d, ho.setSuitableHierarchy k⟩).1 <;> [(intro h; cases h); skip]
    show ((getExpansionUncertainty E p (treeLevel p + a + b) 0 0 1 ⟨selDepth d, ho.setSuitableHierarchy k⟩).1 >>= _) = _ → _
    cases (getExpansionUncertainty E p (treeLevel p + a + b) 0 0 1 ⟨selDepth d, ho.setSuitableHierarchy k⟩).1 <;> [(intro h; cases h); skip]
    intro h
    rw [← Except.ok.inj h]
    exact ⟨_, _, rfl⟩
  rw [hc]; exact LawfulSqrt.sqrt_not_neg _

theorem selectBody_step [LawfulCmp F] [LawfulSqrt F] {ho : HObj F} {d : Depth} {o : Option (Int × Cand F)} {acc acc' : Sel F} {s s' : St F}
    {k : Int} {done : List Int} (hr : Rel ho d o acc s) (hi : Inv E p d ho done o) (hlt : ∀ j ∈ done, j < k)
    (h : selectBody E p k acc s = (.ok acc', s')) :
    ∃ o', Rel ho d o' acc' s' ∧ Inv E p d ho (done ++ [k]) o' := by
  unfold selectBody at h
  obtain ⟨_, s1, e1, h⟩ := bind_ok.1 h
  have e1 := modHo_ok.1 e1
  obtain ⟨ho1, s2, e2, h⟩ := bind_ok.1 h
  obtain ⟨rfl, rfl⟩ := getHo_ok.1 e2
  have hs1 : s1.depth = s.depth ∧ s1.ho = s.ho.setSuitableHierarchy k := by rw [← e1]; exact ⟨rfl, rfl⟩
  have hkey : SameKey s1.ho (ho.setSuitableHierarchy k) := by
    rw [hs1.2]; exact ⟨hr.alphab, rfl, hr.mdr⟩
  have hsu : isHierarchySuitable p s1.ho = isHierarchySuitable p (ho.setSuitableHierarchy k) := suitable_congr hkey
  rw [hsu] at h
  have hrk : Rel ho d o acc s1 := by
    refine ⟨hs1.1.trans hr.depth, hkey.alphab, hkey.mdr, hr.acc_none, ?_⟩
    rw [hs1.2]; exact hr.acc_some
  by_cases hsuit : Suitable p ho k
  · rw [if_pos (show isHierarchySuitable p (ho.setSuitableHierarchy k) = true from hsuit)] at h
    obtain ⟨c, s3, e3, h⟩ := bind_ok.1 h
    obtain ⟨hest, hfr, hdep⟩ := evalCandidate_ok hkey (hs1.1.trans hr.depth) e3
    have hr3 : Rel ho d o acc s3 := by
      unfold frameLambda at hfr
      simp only [Prod.mk.injEq] at hfr
      obtain ⟨f1, f2, f3, f4, f5, f6, f7, -⟩ := hfr
      refine ⟨hdep.trans (hs1.1.trans hr.depth), f1.trans hrk.alphab, f3.trans hrk.mdr, hrk.acc_none, ?_⟩
      rw [f5, f6, f7]; exact hrk.acc_some
    have hnn : FOps.lt c.currError 0 = false := estimate_nonneg hest
    by_cases hacc : (FOps.lt acc.1 0 || FOps.lt c.currError acc.1) = true
    · rw [if_pos hacc] at h
      obtain ⟨_, s4, e4, h⟩ := bind_ok.1 h
      have e4 := modHo_ok.1 e4
      obtain ⟨_, s5, e5, h⟩ := bind_ok.1 h
      have e5 := modHo_ok.1 e5
      obtain ⟨_, s6, e6, h⟩ := bind_ok.1 h
      obtain ⟨h6, e6, e6'⟩ := modHoE_ok.1 e6
      obtain ⟨_, s7, e7, h⟩ := bind_ok.1 h
      obtain ⟨h7, e7, e7'⟩ := modHoE_ok.1 e7
      obtain ⟨hacc', hs'⟩ := pure_ok.1 h
      refine ⟨some (k, c), ?_, ?_⟩
      · rw [← hs', ← e7', ← hacc']
        have e6b : h6 = { s5.ho with expUncertainties := fun j => if j = 2 then c.unc2 else s5.ho.expUncertainties j } :=
          (Except.ok.inj e6).symm
        have e7b : h7 = { s6.ho with expUncertainties := fun j => if j = 3 then c.unc3 else s6.ho.expUncertainties j } :=
          (Except.ok.inj e7).symm
        rw [e7b, ← e6', e6b, ← e5, ← e4]
        refine ⟨hr3.depth, hr3.alphab, hr3.mdr, (fun h => by cases h), fun k' c' h => ?_⟩
        cases h
        exact ⟨rfl, rfl, rfl, rfl, rfl⟩
      · have hold : ∀ k' c', o = some (k', c') → FOps.lt c.currError c'.currError = true := by
          intro k' c' ho'
          obtain ⟨ha, -⟩ := hr.acc_some k' c' ho'
          rw [ha] at hacc
          dsimp only at hacc
          rw [Bool.or_eq_true] at hacc
          rcases hacc with h | h
          · exfalso
            have hc' := (hi.sel k' c' ho').2.2
            have : FOps.lt c'.currError 0 = false := estimate_nonneg hc'
            rw [this] at h; cases h
          · exact h
        constructor
        · simp only [reduceCtorEq, false_iff]
          intro hc
          exact hc k (by simp) hsuit
        · intro j hj hsj
          rcases List.mem_append.1 hj with hj | hj
          · exact hi.total j hj hsj
          · rw [List.mem_singleton.1 hj]; exact ⟨c, hest⟩
        · intro k' c' h'
          cases h'
          exact ⟨by simp, hsuit, hest⟩
        · intro k' c' h' hnan j hj hjk
          cases h'
          rcases List.mem_append.1 hj with hj | hj
          · -- something selected before would contradict the NaN
            cases ho' : o with
            | none => exact (hi.none_iff.1 ho') j hj
            | some kc =>
              exfalso
              have := (lt_notnan (hold kc.1 kc.2 ho')).1
              rw [hnan] at this; cases this
          · rw [List.mem_singleton.1 hj] at hjk; omega
        · intro k' c' h' hnn' j cj hj hsj hej hnj
          cases h'
          rcases List.mem_append.1 hj with hj | hj
          · cases ho' : o with
            | none => exact absurd hsj (hi.none_iff.1 ho' j hj)
            | some kc =>
              have h1 := hold kc.1 kc.2 ho'
              have h2 := (hi.minimal kc.1 kc.2 ho' (lt_notnan h1).2 j cj hj hsj hej hnj).1
              have h3 := lt_of_lt_of_le h1 h2
              exact ⟨le_of_lt h3, fun _ => h3⟩
          · have hjk := List.mem_singleton.1 hj
            subst hjk
            rw [hest] at hej
            cases hej
            exact ⟨LawfulCmp.le_refl _ hnj, fun h => by omega⟩
        · intro k' c' h' j cj hj hsj hej hnj hfirst
          cases h'
          rcases List.mem_append.1 hj with hj | hj
          · exfalso
            cases ho' : o with
            | none => exact hi.none_iff.1 ho' j hj hsj
            | some kc =>
              have h1 := hold kc.1 kc.2 ho'
              have h2 := hi.sticky kc.1 kc.2 ho' j cj hj hsj hej hnj (fun i hi' hij => hfirst i (List.mem_append_left _ hi') hij)
              have h3 := (hi.sel kc.1 kc.2 ho').2.2
              rw [h2, hej] at h3
              have h4 : cj = kc.2 := Except.ok.inj h3
              rw [h4] at hnj
              have := (lt_notnan h1).2
              rw [hnj] at this; cases this
          · exact (List.mem_singleton.1 hj).symm
    · rw [if_neg hacc] at h
      obtain ⟨hacc', hs'⟩ := pure_ok.1 h
      rw [Bool.not_eq_true, Bool.or_eq_false_iff] at hacc
      refine ⟨o, ?_, ?_⟩
      · rw [← hs', ← hacc']; exact hr3
      · have hsome : ∃ kc, o = some kc := by
          cases ho' : o with
          | none =>
            exfalso
            rw [hr.acc_none ho'] at hacc
            have := hacc.1
            dsimp only at this
            rw [LawfulSqrt.neg_one_lt] at this
            cases this
          | some kc => exact ⟨kc, rfl⟩
        obtain ⟨⟨k0, c0⟩, ho0⟩ := hsome
        have hacc0 : FOps.lt c.currError c0.currError = false := by
          have := (hr.acc_some k0 c0 ho0).1
          rw [this] at hacc; exact hacc.2
        have hk0 : k0 < k := hlt k0 (hi.sel k0 c0 ho0).1
        constructor
        · rw [ho0]
          simp only [reduceCtorEq, false_iff]
          intro hc
          exact hc k0 (List.mem_append_left _ (hi.sel k0 c0 ho0).1) (hi.sel k0 c0 ho0).2.1
        · intro j hj hsj
          rcases List.mem_append.1 hj with hj | hj
          · exact hi.total j hj hsj
          · rw [List.mem_singleton.1 hj]; exact ⟨c, hest⟩
        · intro k' c' h'
          obtain ⟨a, b⟩ := hi.sel k' c' h'
          exact ⟨List.mem_append_left _ a, b⟩
        · intro k' c' h' hnan j hj hjk
          rcases List.mem_append.1 hj with hj | hj
          · exact hi.nan k' c' h' hnan j hj hjk
          · exfalso
            rw [List.mem_singleton.1 hj] at hjk
            have := hlt k' (hi.sel k' c' h').1
            omega
        · intro k' c' h' hnn' j cj hj hsj hej hnj
          rcases List.mem_append.1 hj with hj | hj
          · exact hi.minimal k' c' h' hnn' j cj hj hsj hej hnj
          · have hjk := List.mem_singleton.1 hj
            subst hjk
            rw [hest] at hej
            cases hej
            rw [ho0] at h'
            cases h'
            exact ⟨le_of_not_lt hnj hnn' hacc0, fun h => by omega⟩
        · intro k' c' h' j cj hj hsj hej hnj hfirst
          rcases List.mem_append.1 hj with hj | hj
          · exact hi.sticky k' c' h' j cj hj hsj hej hnj (fun i hi' hij => hfirst i (List.mem_append_left _ hi') hij)
          · exfalso
            have hjk := List.mem_singleton.1 hj
            subst hjk
            exact hfirst k0 (List.mem_append_left _ (hi.sel k0 c0 ho0).1) hk0 (hi.sel k0 c0 ho0).2.1
  · rw [if_neg (show ¬ isHierarchySuitable p (ho.setSuitableHierarchy k) = true from hsuit)] at h
    obtain ⟨hacc', hs'⟩ := pure_ok.1 h
    refine ⟨o, ?_, ?_⟩
    · rw [← hs', ← hacc']; exact hrk
    · constructor
      · rw [hi.none_iff]
        constructor
        · intro hn j hj
          rcases List.mem_append.1 hj with hj | hj
          · exact hn j hj
          · rw [List.mem_singleton.1 hj]; exact hsuit
        · exact fun hn j hj => hn j (List.mem_append_left _ hj)
      · intro j hj hsj
        rcases List.mem_append.1 hj with hj | hj
        · exact hi.total j hj hsj
        · rw [List.mem_singleton.1 hj] at hsj; exact absurd hsj hsuit
      · intro k' c' h'
        obtain ⟨a, b⟩ := hi.sel k' c' h'
        exact ⟨List.mem_append_left _ a, b⟩
      · intro k' c' h' hnan j hj hjk
        rcases List.mem_append.1 hj with hj | hj
        · exact hi.nan k' c' h' hnan j hj hjk
        · rw [List.mem_singleton.1 hj]; exact hsuit
      · intro k' c' h' hnn' j cj hj hsj hej hnj
        rcases List.mem_append.1 hj with hj | hj
        · exact hi.minimal k' c' h' hnn' j cj hj hsj hej hnj
        · rw [List.mem_singleton.1 hj] at hsj; exact absurd hsj hsuit
      · intro k' c' h' j cj hj hsj hej hnj hfirst
        rcases List.mem_append.1 hj with hj | hj
        · exact hi.sticky k' c' h' j cj hj hsj hej hnj (fun i hi' hij => hfirst i (List.mem_append_left _ hi') hij)
        · rw [List.mem_singleton.1 hj] at hsj; exact absurd hsj hsuit

theorem selectLoop_inv [LawfulCmp F] [LawfulSqrt F] {ho : HObj F} {d : Depth} (l : List Int) :
    ∀ {o : Option (Int × Cand F)} {acc acc' : Sel F} {s s' : St F} {done : List Int}, Rel ho d o acc s → Inv E p d ho done o →
      (∀ j ∈ done, ∀ i ∈ l, j < i) → l.Pairwise (· < ·) → selectLoop E p l acc s = (.ok acc', s') →
      ∃ o', Rel ho d o' acc' s' ∧ Inv E p d ho (done ++ l) o' := by
  induction l with
  | nil =>
    intro o acc acc' s s' done hr hi _ _ h
    obtain ⟨rfl, rfl⟩ := pure_ok.1 h
    exact ⟨o, hr, by rwa [List.append_nil]⟩
  | cons k l ih =>
    intro o acc acc' s s' done hr hi hlt hp h
    unfold selectLoop at h
    obtain ⟨acc1, s1, e1, h⟩ := bind_ok.1 h
    obtain ⟨o1, hr1, hi1⟩ := selectBody_step hr hi (fun j hj => hlt j hj k (by simp)) e1
    have hp' := List.pairwise_cons.1 hp
    have := ih hr1 hi1 (fun j hj i hil => by
      rcases List.mem_append.1 hj with hj | hj
      · exact hlt j hj i (by simp [hil])
      · rw [List.mem_singleton.1 hj]; exact hp'.1 i hil) hp'.2 h
    simpa using this

theorem compareHierarchies_inv [LawfulCmp F] [LawfulSqrt F] {ho : HObj F} {d : Depth} {k : Int} {s' : St F}
    (h : compareHierarchies E p ⟨d, ho⟩ = (.ok k, s')) :
    ∃ o, Inv E p d ho allHierarchies o ∧ (o = none → k = -1) ∧ s'.ho.hierarchy = k ∧
      ∀ k' c, o = some (k', c) → k = k' ∧ s'.ho.absDiff2L = c.twoLoopError ∧ s'.ho.relDiff2L = c.relError ∧
        s'.ho.expUncertainties 2 = c.unc2 ∧ s'.ho.expUncertainties 3 = c.unc3 := by
  unfold compareHierarchies at h
  obtain ⟨s1, h, hS1⟩ := tempSet_ok.1 h
  obtain ⟨s2, h, hS2⟩ := tempSet_ok.1 h
  have hS : s'.ho = s2.ho := by rw [← hS1, ← hS2]
  rw [hS]
  obtain ⟨_, s3, e3, h⟩ := bind_ok.1 h
  obtain ⟨h3, e3b, e3c⟩ := modHoE_ok.1 e3
  subst e3c
  obtain ⟨a, ha⟩ := frame_setDMh_ok e3b
  obtain ⟨acc, s4, e4, h⟩ := bind_ok.1 h
  obtain ⟨_, s5, e5, h⟩ := bind_ok.1 h
  have e5 := modHo_ok.1 e5
  obtain ⟨rfl, rfl⟩ := pure_ok.1 h
  have hdep : setIdx (setIdx d XD.threeLoop 0) XD.Mst 0 = selDepth d := by
    funext i
    unfold selDepth setIdx
    by_cases h1 : i = XD.threeLoop
    · subst h1; rfl
    · by_cases h2 : i = XD.Mst
      · subst h2; rfl
      · simp [h1, h2]
  have hr0 : Rel ho d none (-1, -1) (⟨setIdx (setIdx d XD.threeLoop 0) XD.Mst 0, h3⟩ : St F) := by
    refine ⟨hdep, ?_, ?_, fun _ => rfl, fun k c h => by cases h⟩ <;> rw [ha]
  have hi0 : Inv E p d ho [] none :=
    ⟨by simp, by simp, by simp, by simp, by simp, by simp⟩
  obtain ⟨o, hr, hi⟩ := selectLoop_inv allHierarchies hr0 hi0 (by simp) (by decide) e4
  refine ⟨o, hi, fun ho' => ?_, by rw [← e5]; rfl, fun k' c ho' => ?_⟩
  · rw [hr.acc_none ho']
  · obtain ⟨h1, h2⟩ := hr.acc_some k' c ho'
    rw [h1, ← e5]
    exact ⟨rfl, h2⟩

theorem mem_all (j : Int) : j ∈ allHierarchies ↔ 0 ≤ j ∧ j ≤ 13 := by
  unfold allHierarchies
  simp only [List.mem_cons, List.not_mem_nil, or_false]
  omega

theorem suitable_range {ho : HObj F} {j : Int} (h : Suitable p ho j) : 0 ≤ j ∧ j ≤ 13 := by
  by_contra hc
  have : isHierarchySuitable p (ho.setSuitableHierarchy j) = false := by
    unfold isHierarchySuitable
    exact C10_unknown_key_unsuitable j (by omega) _ _ _ _
  unfold Suitable at h
  rw [this] at h; cases h

end proof

/-! ### C08 -/

section props
variable {F : Type} [Add F] [Sub F] [Mul F] [Div F] [Neg F] [FOps F] [LawfulCmp F] [LawfulSqrt F] (E : Env F) (p : Params F)
  (d : Depth) (ho : HObj F) (k : Int) (s' : St F)

/-- The key returned is the one stored in the result object; it is -1 exactly if no hierarchy is suitable, and otherwise a suitable
hierarchy.  No assumption on NaNs. -/
theorem C08_selected_is_suitable (h : compareHierarchies E p ⟨d, ho⟩ = (.ok k, s')) :
    s'.ho.getSuitableHierarchy = k ∧ (k = -1 ↔ ∀ j, ¬ Suitable p ho j) ∧ (k ≠ -1 → Suitable p ho k) := by
  obtain ⟨o, hi, h0, hs, h1⟩ := compareHierarchies_inv h
  refine ⟨hs, ?_, ?_⟩
  · cases ho' : o with
    | none =>
      refine ⟨fun _ j hj => ?_, fun _ => h0 ho'⟩
      exact hi.none_iff.1 ho' j ((mem_all j).2 (suitable_range hj)) hj
    | some kc =>
      have hk := (h1 kc.1 kc.2 ho').1
      have hsu := (hi.sel kc.1 kc.2 ho').2.1
      refine ⟨fun hm => ?_, fun hn => absurd hsu (hn _)⟩
      have := suitable_range hsu
      omega
  · intro hk
    cases ho' : o with
    | none => exact absurd (h0 ho') hk
    | some kc => rw [(h1 kc.1 kc.2 ho').1]; exact (hi.sel kc.1 kc.2 ho').2.1

/-- If the estimate of the first suitable hierarchy is a number, then the selected one has a minimal estimate (among those that are
numbers), and of several minimal ones it is the first. -/
theorem C08_minimal (h : compareHierarchies E p ⟨d, ho⟩ = (.ok k, s')) (hk : k ≠ -1)
    (hfirst : ∀ j c, Suitable p ho j → (∀ i, i < j → ¬ Suitable p ho i) → estimate E p d ho j = .ok c →
      FOps.isNaN c.currError = false) :
    ∃ c, estimate E p d ho k = .ok c ∧ FOps.isNaN c.currError = false ∧
      ∀ j, Suitable p ho j → ∃ cj, estimate E p d ho j = .ok cj ∧ (FOps.isNaN cj.currError = false →
        FOps.le c.currError cj.currError = true ∧ (j < k → FOps.lt c.currError cj.currError = true)) := by
  obtain ⟨o, hi, h0, hs, h1⟩ := compareHierarchies_inv h
  cases ho' : o with
  | none => exact absurd (h0 ho') hk
  | some kc =>
    obtain ⟨k', c⟩ := kc
    obtain ⟨rfl, -⟩ := h1 k' c ho'
    obtain ⟨m1, m2, m3⟩ := hi.sel k c ho'
    have hn : FOps.isNaN c.currError = false := by
      by_contra hc
      rw [Bool.not_eq_false] at hc
      have := hfirst k c m2 (fun i hi' hs' => hi.nan k c ho' hc i ((mem_all i).2 (suitable_range hs')) hi' hs') m3
      rw [this] at hc; cases hc
    refine ⟨c, m3, hn, fun j hj => ?_⟩
    have hmem := (mem_all j).2 (suitable_range hj)
    obtain ⟨cj, hcj⟩ := hi.total j hmem hj
    exact ⟨cj, hcj, fun hnj => hi.minimal k c ho' hn j cj hmem hj hcj hnj⟩

/-- Finding: a NaN estimate of the first suitable hierarchy is never replaced, whatever the other estimates are. -/
theorem C08_nan_of_first_suitable_sticks (h : compareHierarchies E p ⟨d, ho⟩ = (.ok k, s')) (j : Int) (c : Cand F)
    (hj : Suitable p ho j) (hfirst : ∀ i, i < j → ¬ Suitable p ho i) (hc : estimate E p d ho j = .ok c)
    (hn : FOps.isNaN c.currError = true) : k = j := by
  obtain ⟨o, hi, h0, hs, h1⟩ := compareHierarchies_inv h
  have hmem := (mem_all j).2 (suitable_range hj)
  cases ho' : o with
  | none => exact absurd hj (hi.none_iff.1 ho' j hmem)
  | some kc =>
    obtain ⟨k', c'⟩ := kc
    obtain ⟨rfl, -⟩ := h1 k' c' ho'
    exact hi.sticky k c' ho' j c hmem hj hc hn (fun i _ hij => hfirst i hij)

/-! ### C09 -/

/-- The reported two-loop differences and expansion uncertainties are those of the selected hierarchy. -/
theorem C09_reported_numbers_belong_to_selection (h : compareHierarchies E p ⟨d, ho⟩ = (.ok k, s')) (hk : k ≠ -1) :
    ∃ c, estimate E p d ho k = .ok c ∧ s'.ho.getAbsDiff2L = c.twoLoopError ∧ s'.ho.getRelDiff2L = c.relError ∧
      s'.ho.getDMhExpUncertainty 2 = .ok c.unc2 ∧ s'.ho.getDMhExpUncertainty 3 = .ok c.unc3 := by
  obtain ⟨o, hi, h0, hs, h1⟩ := compareHierarchies_inv h
  cases ho' : o with
  | none => exact absurd (h0 ho') hk
  | some kc =>
    obtain ⟨k', c⟩ := kc
    obtain ⟨rfl, h2, h3, h4, h5⟩ := h1 k' c ho'
    exact ⟨c, (hi.sel k c ho').2.2, h2, h3, congrArg Except.ok h4, congrArg Except.ok h5⟩

end props
end Himalaya
