import Verif.HObj.Spec
import Verif.Base.Dbl
import Mathlib.Tactic.IntervalCases

/-!
# Properties of the result object (C01-C06)
-/

namespace Himalaya

variable {F : Type}

/-! ### helper lemmas -/

theorem arrSet_ok {α : Type} (a : Fin 4 → α) (l : Int) (v : α) (h : 0 ≤ l ∧ l ≤ 3) :
    HObj.arrSet a l v = .ok (fun j => if (j : Int) = l then v else a j) := by
  unfold HObj.arrSet
  rw [dif_pos (by omega)]
  refine congrArg Except.ok ?_
  funext j
  have : (j = (⟨l.toNat, by omega⟩ : Fin 4)) ↔ ((j : Int) = l) := by
    rw [Fin.ext_iff]; simp; omega
  simp only [this]

theorem arrGet_ok {α : Type} (a : Fin 4 → α) (l : Int) (h : 0 ≤ l ∧ l ≤ 3) :
    HObj.arrGet a l = .ok (a ⟨l.toNat, by omega⟩) := by
  unfold HObj.arrGet
  rw [dif_pos (by omega)]

theorem loopOK_iff (l : Int) : LoopOK l ↔ (l ≥ 0 ∧ l ≤ 3) := by unfold LoopOK; omega
theorem expLoopOK_iff (l : Int) : ExpLoopOK l ↔ (l > 0 ∧ l ≤ 3) := by unfold ExpLoopOK; omega

theorem setMDRFlag_ok (o : HObj F) (f : Int) (h : f = 0 ∨ f = 1) :
    o.setMDRFlag f = .ok { o with mdrFlag := f } := by
  unfold HObj.setMDRFlag; rw [if_neg (by omega)]

theorem setRen_ok (o : HObj F) (r : Int) (h : r = 0 ∨ r = 1 ∨ r = 2 ∨ r = 3) :
    o.setRenormalizationScheme r = .ok { o with renormalizationScheme := r } := by
  unfold HObj.setRenormalizationScheme HObj.renFIRST HObj.renNUMBER; rw [if_neg (by omega)]

theorem setRen_err (o : HObj F) (r : Int) (h : ¬ (r = 0 ∨ r = 1 ∨ r = 2 ∨ r = 3)) :
    ∃ e, o.setRenormalizationScheme r = .error e := by
  unfold HObj.setRenormalizationScheme HObj.renFIRST HObj.renNUMBER; rw [if_pos (by omega)]; exact ⟨_, rfl⟩

/-- a setter call succeeds exactly on its documented domain -/
theorem call_ok_iff [FOps F] (o : HObj F) (op : SetOp F) : (∃ o', op.call o = .ok o') ↔ op.Legal := by
  cases op <;> simp only [SetOp.call, SetOp.Legal, loopOK_iff, expLoopOK_iff, HObj.setDMhExpUncertainty, HObj.setDMh,
    HObj.setDMh2, HObj.setMDRFlag, HObj.setDLambda, HObj.setDLambdaShift,
    HObj.setDMh2EFT, HObj.setDMh2FO, HObj.setDMh2FOAt]
  all_goals first
    | (constructor
       · rintro ⟨o', h⟩
         by_contra hc
         rw [if_neg hc] at h
         cases h
       · intro h
         rw [if_pos h, arrSet_ok _ _ _ (by omega)]
         exact ⟨_, rfl⟩)
    | (constructor
       · rintro ⟨o', h⟩
         by_contra hc
         rw [if_pos (by omega)] at h
         cases h
       · intro h
         rw [if_neg (by omega)]
         exact ⟨_, rfl⟩)
    | (constructor
       · rintro ⟨o', h⟩
         by_contra hc
         obtain ⟨e, he⟩ := setRen_err o _ hc
         rw [he] at h
         cases h
       · intro h
         exact ⟨_, setRen_ok o _ h⟩)
    | simp

theorem after_illegal [FOps F] (o : HObj F) (op : SetOp F) (h : ¬ op.Legal) : op.after o = o := by
  rw [← call_ok_iff o] at h
  unfold SetOp.after
  cases hc : op.call o with
  | ok o' => exact absurd ⟨o', hc⟩ h
  | error e => rfl

set_option maxHeartbeats 1000000 in
theorem query_after [FOps F] (o : HObj F) (op : SetOp F) (q : Query) (hop : op.Legal) (hq : q.Legal) :
    q.call (op.after o) = (match writes op q with | some v => .ok v | none => q.call o) := by
  cases op <;> cases q <;>
    simp only [SetOp.Legal, Query.Legal, loopOK_iff, expLoopOK_iff] at hop hq <;>
    simp only [SetOp.after, SetOp.call, writes, Query.call, HObj.setDMhExpUncertainty, HObj.setDMh,
      HObj.setDMh2, HObj.setDLambda, HObj.setDLambdaShift,
      HObj.setDMh2EFT, HObj.setDMh2FO, HObj.setDMh2FOAt, HObj.getDMhExpUncertainty, HObj.getDMh, HObj.getDMh2,
      HObj.getDLambda, HObj.getDLambdaShift, HObj.getDMh2EFTAt, HObj.getDMh2FO, HObj.getDMh2FOAt,
      HObj.getIsAlphab, HObj.getSuitableHierarchy, HObj.setSuitableHierarchy, HObj.setAbsDiff2L,
      HObj.getAbsDiff2L, HObj.setRelDiff2L, HObj.getRelDiff2L, HObj.setMDRShift, HObj.getMDRShift,
      HObj.setH3mShift, HObj.getH3mShift, HObj.setMDRMasses, HObj.getMDRMasses, HObj.getMDRFlag,
      HObj.getRenormalizationScheme, HObj.setDLambdaH3m, HObj.getDLambdaH3m, HObj.setDLambdaEFT,
      HObj.getDLambdaEFT, HObj.setDLambdaNonLog, HObj.getDLambdaNonLog, HObj.setDLambdaXtUncertainty,
      hq, and_self, if_true]
  all_goals try simp only [hop, and_self, if_true]
  all_goals try rw [setMDRFlag_ok _ _ hop]
  all_goals try rw [setRen_ok _ _ hop]
  all_goals try rw [arrSet_ok _ _ _ (by omega)]
  all_goals try rw [arrGet_ok _ _ (by omega)]
  all_goals try rw [arrGet_ok _ _ (by omega)]
  all_goals try rfl
  all_goals first
    | (simp only [Except.map]
       split_ifs <;> first | rfl | (exfalso; simp at *; omega))

theorem query_new [FOps F] (b : Bool) (q : Query) (hq : q.Legal) :
    q.call (HObj.new b : HObj F) = .ok (initial b q) := by
  cases q <;> simp only [Query.Legal, loopOK_iff, expLoopOK_iff] at hq <;>
    simp only [Query.call, HObj.getDMhExpUncertainty, HObj.getDMh, HObj.getDMh2,
      HObj.getDLambda, HObj.getDLambdaShift, HObj.getDMh2EFTAt, HObj.getDMh2FO, HObj.getDMh2FOAt, hq, and_self,
      if_true]
  all_goals try rw [arrGet_ok _ _ (by omega)]
  all_goals rfl

theorem runHistory_append [FOps F] (b : Bool) (h : List (SetOp F)) (op : SetOp F) :
    runHistory b (h ++ [op]) = op.after (runHistory b h) := by
  simp [runHistory, List.foldl_append]

theorem expected_eq_go [FOps F] (b : Bool) (q : Query) (h : List (SetOp F)) :
    expected b q h = expected.go b q h.reverse := by
  cases h with
  | nil => rfl
  | cons a l => rfl

/-! ### C01: a getter returns the last legal write -/

/-- **C01.** For every history of setter calls (legal or throwing), every getter on its documented domain
returns the value of the most recent legal matching setter, or the constructor default.  Valid for any scalar
type, hence for IEEE doubles. -/
theorem C01_get_returns_last_set [FOps F] (isAlphab : Bool) (history : List (SetOp F)) (q : Query)
    (hq : q.Legal) : q.call (runHistory isAlphab history) = .ok (expected isAlphab q history) := by
  rw [expected_eq_go]
  induction history using List.reverseRecOn with
  | nil => exact query_new isAlphab q hq
  | append_singleton h op ih =>
    rw [runHistory_append, List.reverse_append]
    simp only [List.reverse_cons, List.reverse_nil, List.nil_append, List.cons_append, expected.go]
    by_cases hop : op.Legal
    · rw [query_after _ _ _ hop hq, if_pos hop]
      cases hw : writes op q with
      | some v => rfl
      | none => simpa using ih
    · rw [after_illegal _ _ hop, if_neg hop]; exact ih

/-- **C01.** A throwing call changes no answer of any getter (on any argument). -/
theorem C01_throwing_set_changes_nothing [FOps F] (o : HObj F) (op : SetOp F) (e : String)
    (h : op.call o = .error e) : op.after o = o := by
  simp [SetOp.after, h]

/-- Non-trivial instance: a later illegal write and a write to another loop order do not disturb `DMh2FO(3)`. -/
example : Query.call (F := ℝ) (runHistory false
    [.dMh2FO 3 7, .dMh2FO 2 8, .dMh2FOAt 3 9, .dMh2FO 4 11, .dMh2 3 5]) (.dMh2FO 3) = .ok (.num 7) := by
  rw [C01_get_returns_last_set _ _ _ (by simp [Query.Legal, LoopOK])]
  simp [expected, expected.go, writes, SetOp.Legal, LoopOK]

/-! ### C02: domain of the loop index -/

/-- **C02.** Getters succeed exactly on their documented domain. -/
theorem C02_getter_domain [FOps F] (isAlphab : Bool) (history : List (SetOp F)) (q : Query) :
    (∃ v, q.call (runHistory isAlphab history) = .ok v) ↔ q.Legal := by
  constructor
  · rintro ⟨v, h⟩
    by_contra hq
    generalize runHistory isAlphab history = o at h
    cases q <;> simp only [Query.Legal, loopOK_iff, expLoopOK_iff, not_true] at hq <;>
      simp only [Query.call, HObj.getDMhExpUncertainty, HObj.getDMh, HObj.getDMh2,
        HObj.getDLambda, HObj.getDLambdaShift, HObj.getDMh2EFTAt, HObj.getDMh2FO, HObj.getDMh2FOAt,
        if_neg hq, Except.map] at h <;> cases h
  · intro hq; exact ⟨_, C01_get_returns_last_set isAlphab history q hq⟩

/-- **C02.** Setters succeed exactly on their documented domain, whatever the state of the object. -/
theorem C02_setter_domain [FOps F] (o : HObj F) (op : SetOp F) :
    (∃ o', op.call o = .ok o') ↔ op.Legal := call_ok_iff o op

/-- **C02.** Domain of the Delta-lambda uncertainty. -/
theorem C02_uncertainty_domain [Add F] [Sub F] [FOps F] (o : HObj F) (l : Int) :
    (∃ v, o.getDLambdaUncertainty l = .ok v) ↔ LoopOK l := by
  rw [loopOK_iff]
  unfold HObj.getDLambdaUncertainty
  constructor
  · rintro ⟨v, h⟩
    split_ifs at h with h1 h2
    · omega
    · omega
  · intro h
    by_cases h1 : l ≥ 0 ∧ l ≤ 2
    · rw [if_pos h1]; exact ⟨_, rfl⟩
    · rw [if_neg h1, if_pos (by omega)]; exact ⟨_, rfl⟩

example : ¬ (Query.expUncertainty 0).Legal ∧ (Query.dMh 0).Legal ∧ ¬ (Query.dMh (-1)).Legal := by
  simp [Query.Legal, LoopOK, ExpLoopOK]

/-! ### C03: flag domains -/

/-- **C03.** Invariant of every reachable object. -/
theorem C03_flags_in_domain [FOps F] (isAlphab : Bool) (history : List (SetOp F)) :
    let o := runHistory isAlphab history
    (o.getMDRFlag = 0 ∨ o.getMDRFlag = 1) ∧
    (o.getRenormalizationScheme = 0 ∨ o.getRenormalizationScheme = 1 ∨
      o.getRenormalizationScheme = 2 ∨ o.getRenormalizationScheme = 3) := by
  induction history using List.reverseRecOn with
  | nil => simp [runHistory, HObj.new, HObj.getMDRFlag, HObj.getRenormalizationScheme, HObj.DRBARPRIME]
  | append_singleton h op ih =>
    rw [runHistory_append]
    by_cases hop : op.Legal
    · generalize runHistory isAlphab h = o at ih
      have e1 := query_after o op .mdrFlag hop trivial
      have e2 := query_after o op .renormalizationScheme hop trivial
      simp only [Query.call] at e1 e2
      obtain ⟨i1, i2⟩ := ih
      constructor
      · cases op <;> simp only [writes, Except.ok.injEq, Val.int.injEq] at e1 <;> rw [e1] <;>
          first | exact i1 | exact hop
      · cases op <;> simp only [writes, Except.ok.injEq, Val.int.injEq] at e2 <;> rw [e2] <;>
          first | exact i2 | exact hop
    · rw [after_illegal _ _ hop]; exact ih

/-- **C03.** Any other flag value is rejected. -/
theorem C03_bad_flags_throw [FOps F] (o : HObj F) (f : Int) :
    ((f ≠ 0 ∧ f ≠ 1) → ∃ e, o.setMDRFlag f = .error e) ∧
    ((f < 0 ∨ 3 < f) → ∃ e, o.setRenormalizationScheme f = .error e) := by
  constructor
  · intro h; unfold HObj.setMDRFlag; rw [if_pos h]; exact ⟨_, rfl⟩
  · intro h; unfold HObj.setRenormalizationScheme HObj.renFIRST HObj.renNUMBER
    rw [if_pos (by omega)]; exact ⟨_, rfl⟩

example : ∃ o : HObj ℝ, o.getMDRFlag = 1 ∧ o.getRenormalizationScheme = 3 ∧
    o = runHistory true [.mdrFlag 1, .renormalizationScheme 3, .mdrFlag 2, .renormalizationScheme 4] := by
  refine ⟨_, ?_, ?_, rfl⟩ <;> rfl

/-! ### C04: MDR masses ascending -/

/-- **C04.** After `setMDRMasses v` with comparable entries, whatever other legal or throwing calls (except
`setMDRMasses`) follow, the reported pair is ascending and a permutation of `v`. -/
theorem C04_mdr_masses_ordered [FOps F] [LawfulCmp F] (isAlphab : Bool) (before after : List (SetOp F))
    (v : Vec2 F) (hn : FOps.isNaN v.x0 = false ∧ FOps.isNaN v.x1 = false)
    (hafter : ∀ op ∈ after, ∀ w, op ≠ .mdrMasses w) :
    let r := (runHistory isAlphab (before ++ [.mdrMasses v] ++ after)).getMDRMasses
    FOps.le r.x0 r.x1 = true ∧ (r = v ∨ r = ⟨v.x1, v.x0⟩) := by
  have key : (runHistory isAlphab (before ++ [SetOp.mdrMasses v] ++ after)).getMDRMasses
      = HObj.sortVector v := by
    induction after using List.reverseRecOn with
    | nil => rw [List.append_nil, runHistory_append]; rfl
    | append_singleton l op ih =>
      rw [← List.append_assoc, runHistory_append]
      by_cases hop : op.Legal
      · have e := query_after (runHistory isAlphab (before ++ [SetOp.mdrMasses v] ++ l)) op .mdrMasses hop trivial
        have hne : ∀ w, op ≠ .mdrMasses w := hafter op (by simp)
        have : writes op .mdrMasses = none := by
          cases op <;> first | rfl | exact absurd rfl (hne _)
        rw [this] at e
        simp only [Query.call, Except.ok.injEq, Val.vec.injEq] at e
        rw [e]; exact ih (fun op' h => hafter op' (by simp [h]))
      · rw [after_illegal _ _ hop]; exact ih (fun op' h => hafter op' (by simp [h]))
  simp only [key, HObj.sortVector]
  split_ifs with hlt
  · exact ⟨le_of_lt hlt, Or.inr rfl⟩
  · refine ⟨le_of_not_lt hn.2 hn.1 (by simpa using hlt), Or.inl rfl⟩

/-- **C04.** With a NaN entry the pair is reported unchanged. -/
theorem C04_nan_unchanged [FOps F] [LawfulCmp F] (o : HObj F) (v : Vec2 F)
    (hn : FOps.isNaN v.x0 = true ∨ FOps.isNaN v.x1 = true) : (o.setMDRMasses v).getMDRMasses = v := by
  show HObj.sortVector v = v
  unfold HObj.sortVector
  rw [LawfulCmp.nan_lt _ _ hn.symm]; rfl

example : ((runHistory false [.mdrMasses (⟨3, 2⟩ : Vec2 ℝ), .dLambda 1 4]).getMDRMasses) = ⟨2, 3⟩ := by
  show HObj.sortVector _ = _
  unfold HObj.sortVector; norm_num [FOps.lt]

/-! ### C05: Delta-lambda uncertainty -/

/-- **C05.** The reported three-loop uncertainty (exact arithmetic): it combines the last values set for the
Xt uncertainty, the EFT and the H3m value, is never negative, and vanishes only if both parts do. -/
theorem C05_uncertainty (o : HObj ℝ) :
    o.getDLambdaUncertainty 3 = .ok (|o.dLambdaXtUncertainty| + |o.getDLambdaEFT - o.getDLambdaH3m|) ∧
    (∀ l v, o.getDLambdaUncertainty l = .ok v → 0 ≤ v) ∧
    (o.getDLambdaUncertainty 3 = .ok 0 ↔ o.dLambdaXtUncertainty = 0 ∧ o.getDLambdaEFT = o.getDLambdaH3m) ∧
    (∀ l, 0 ≤ l → l ≤ 2 → o.getDLambdaUncertainty l = .ok 0) := by
  refine ⟨by simp [HObj.getDLambdaUncertainty], ?_, ?_, ?_⟩
  · intro l v h
    unfold HObj.getDLambdaUncertainty at h
    split_ifs at h with h1 h2
    · simp at h; rw [← h]
    · simp at h; rw [← h]; positivity
  · simp only [HObj.getDLambdaUncertainty]
    norm_num
    constructor
    · intro h
      have h1 := abs_nonneg o.dLambdaXtUncertainty
      have h2 := abs_nonneg (o.getDLambdaEFT - o.getDLambdaH3m)
      have h3 : |o.dLambdaXtUncertainty| = 0 := by linarith
      have h4 : |o.getDLambdaEFT - o.getDLambdaH3m| = 0 := by linarith
      exact ⟨abs_eq_zero.1 h3, sub_eq_zero.1 (abs_eq_zero.1 h4)⟩
    · rintro ⟨h1, h2⟩; simp [h1, h2]
  · intro l h0 h2
    simp [HObj.getDLambdaUncertainty, h0, h2]

/-- **C05.** The uncertainty after a history uses the values of the last writes. -/
theorem C05_uncertainty_after_writes (o : HObj ℝ) (x eft h3m : ℝ) :
    (((o.setDLambdaXtUncertainty x).setDLambdaEFT eft).setDLambdaH3m h3m).getDLambdaUncertainty 3
      = .ok (|x| + |eft - h3m|) := (C05_uncertainty _).1

example : (((HObj.new false : HObj ℝ).setDLambdaXtUncertainty (-2)).setDLambdaEFT 3 |>.setDLambdaH3m 5
    |>.getDLambdaUncertainty 3) = .ok 4 := by
  rw [C05_uncertainty_after_writes]; norm_num

/-! ### C06: hierarchy names -/

/-- The documented names, key by key. -/
def hierarchyNames : List String :=
  ["h3", "h32q2g", "h3q22g", "h4", "h5", "h5g1", "h6", "h6b", "h6b2qg2", "h6bq22g", "h6bq2g2", "h6g2", "h9", "h9q2"]

theorem notation_default (n : Int) (h : n < 0 ∨ 13 < n) :
    h3mHierarchyNotation n = "Hierarchy " ++ toString n ++ " not included" := by
  unfold h3mHierarchyNotation
  split <;> first | omega | rfl

/-- **C06.** Names of the 14 keys. -/
theorem C06_names (n : Int) (h : 0 ≤ n ∧ n ≤ 13) :
    hierarchyNames[n.toNat]? = some (h3mHierarchyNotation n) := by
  obtain ⟨k, rfl⟩ : ∃ k : Nat, n = k := ⟨n.toNat, by omega⟩
  have : k ≤ 13 := by omega
  interval_cases k <;> rfl

/-- **C06.** The 14 names are pairwise different, and no other integer is given one of them. -/
theorem C06_names_injective (m n : Int) (hm : 0 ≤ m ∧ m ≤ 13)
    (h : h3mHierarchyNotation m = h3mHierarchyNotation n) : m = n := by
  by_cases hn : 0 ≤ n ∧ n ≤ 13
  · obtain ⟨k, rfl⟩ : ∃ k : Nat, m = k := ⟨m.toNat, by omega⟩
    obtain ⟨j, rfl⟩ : ∃ j : Nat, n = j := ⟨n.toNat, by omega⟩
    have hk : k ≤ 13 := by omega
    have hj : j ≤ 13 := by omega
    revert h
    interval_cases k <;> interval_cases j <;> first | (intro _; rfl) | (intro h; revert h; decide)
  · rw [notation_default n (by omega)] at h
    have h1 := congrArg (fun s => (String.toList s).head?) h
    simp only [String.toList_append] at h1
    obtain ⟨k, rfl⟩ : ∃ k : Nat, m = k := ⟨m.toNat, by omega⟩
    have hk : k ≤ 13 := by omega
    exfalso
    interval_cases k <;> revert h1 <;> simp [h3mHierarchyNotation]

example : h3mHierarchyNotation 9 = "h6bq22g" ∧ h3mHierarchyNotation (-1) ≠ h3mHierarchyNotation 0 := by
  decide

end Himalaya
