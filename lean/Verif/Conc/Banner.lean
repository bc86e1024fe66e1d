import Verif.Conc.Props

/-!
# C42: the banner

Models the constructor of `HierarchyCalculator`; HierarchyCalculator.cpp:42, 153-164.
-/

set_option linter.unusedSectionVars false

namespace Himalaya.Banner

open Himalaya.Conc (update update_same update_other)

/-! ### One thread -/

/-- `isInfoPrinted` and the number of banners on `std::cerr` -/
structure Process where
  isInfoPrinted : Bool
  banners : Nat

/-- process start (static storage is zero-initialised); HierarchyCalculator.cpp:42 -/
def Process.start : Process := ⟨false, 0⟩

/-- `HierarchyCalculator(p, verbose)`; HierarchyCalculator.cpp:153-164.  `valid`: whether `p.validate` returns normally.  The second
component: whether the constructor returns normally. -/
def construct (verbose valid : Bool) (s : Process) : Process × Bool :=
  let s := if !s.isInfoPrinted && verbose then ⟨true, s.banners + 1⟩ else s
  (s, valid)

/-- a history of constructions -/
def history (l : List (Bool × Bool)) (s : Process) : Process := l.foldl (fun s c => (construct c.1 c.2 s).1) s

/-- **C42**: in a process that constructs its calculators one after the other the banner is printed once if any of them was verbose
(even if the parameters of that one are then rejected), and never otherwise. -/
theorem C42_sequential (l : List (Bool × Bool)) :
    (history l Process.start).banners = if ∃ c ∈ l, c.1 = true then 1 else 0 := by
  have key : ∀ (l : List (Bool × Bool)) (s : Process), (history l s).banners =
      s.banners + if s.isInfoPrinted = false ∧ ∃ c ∈ l, c.1 = true then 1 else 0 := by
    intro l
    induction l with
    | nil => intro s; simp [history]
    | cons c l ih =>
      intro s
      simp only [history, List.foldl_cons]
      have := ih (construct c.1 c.2 s).1
      simp only [history] at this
      rw [this]
      rcases c with ⟨v, w⟩
      rcases s with ⟨p, n⟩
      cases v <;> cases p <;> simp [construct]
  simpa [Process.start] using key l Process.start

example : (history [(false, true), (true, false), (true, true)] Process.start).banners = 1 := by decide

/-! ### Many threads -/

/-- where a thread is in its constructor -/
inductive Phase where
  | before | toPrint | toSet | done
deriving DecidableEq

structure State (ι : Type) where
  flag : Bool
  phase : ι → Phase
  log : List ι

section
variable {ι : Type} [DecidableEq ι]

/-- steps of thread `j`; `verbose j` is its constructor argument.  The test, the printing and the assignment of the (plain `bool`)
flag are separate steps. -/
inductive Step (verbose : ι → Bool) : State ι → ι → State ι → Prop where
  | test {s : State ι} {j} : s.phase j = .before →
      Step verbose s j ⟨s.flag, update s.phase j (if !s.flag && verbose j then .toPrint else .done), s.log⟩
  | print {s : State ι} {j} : s.phase j = .toPrint → Step verbose s j ⟨s.flag, update s.phase j .toSet, s.log ++ [j]⟩
  | set {s : State ι} {j} : s.phase j = .toSet → Step verbose s j ⟨true, update s.phase j .done, s.log⟩

inductive Steps (verbose : ι → Bool) : State ι → State ι → Prop where
  | refl (s) : Steps verbose s s
  | step {s t j u} : Steps verbose s t → Step verbose t j u → Steps verbose s u

def State.start : State ι := ⟨false, fun _ => .before, []⟩

/-- **C42**: whatever the schedule, only verbose constructions print, each at most once. -/
theorem C42_at_most_one_each (verbose : ι → Bool) (s : State ι) (h : Steps verbose State.start s) (j : ι) :
    s.log.count j ≤ (if verbose j then 1 else 0) := by
  have inv : ∀ j, s.log.count j ≤ (if verbose j then 1 else 0) ∧
      (s.phase j = .toPrint → verbose j = true ∧ s.log.count j = 0) ∧ (s.phase j = .before → s.log.count j = 0) := by
    clear j
    induction h with
    | refl => intro j; simp [State.start]
    | @step t i u _ hs ih =>
      intro j
      cases hs with
      | test hp =>
        by_cases hj : j = i
        · subst hj
          have := (ih j).2.2 hp
          refine ⟨(ih j).1, ?_, fun _ => this⟩
          simp only [update_same]
          split
          · next h => intro _; simp at h; exact ⟨h.2, this⟩
          · intro h; cases h
        · simpa only [update_other _ _ hj] using ih j
      | print hp =>
        by_cases hj : j = i
        · subst hj
          obtain ⟨hv, h0⟩ := (ih j).2.1 hp
          refine ⟨by simp [List.count_append, h0, hv], ?_, ?_⟩ <;> simp [update_same]
        · have h0 : (t.log ++ [i]).count j = t.log.count j := by
            simp [List.count_append, List.count_singleton, Ne.symm hj]
          simpa only [update_other _ _ hj, h0] using ih j
      | set hp =>
        by_cases hj : j = i
        · subst hj
          refine ⟨(ih j).1, ?_, ?_⟩ <;> simp [update_same]
        · simpa only [update_other _ _ hj] using ih j
  exact (inv j).1

/-- **C42**: once a verbose construction is complete, a construction that has not begun prints nothing. -/
theorem C42_quiet_afterwards (verbose : ι → Bool) (s t : State ι) (h : Steps verbose State.start s) (i j : ι)
    (hi : verbose i = true) (hd : s.phase i = .done) (hj : s.phase j = .before) (h' : Steps verbose s t) : t.log.count j = 0 := by
  -- a verbose construction is done only after the flag has been set
  have inv : ∀ i, verbose i = true → s.phase i = .done → s.flag = true := by
    clear hj hd hi h' i
    induction h with
    | refl => intro i _ hd; simp [State.start] at hd
    | @step t k u _ hs ih =>
      intro i hi hd
      cases hs with
      | test hp =>
        by_cases hik : i = k
        · subst hik
          simp only [update_same] at hd
          split at hd
          · cases hd
          · next hne => simpa [hi] using hne
        · simp only [update_other _ _ hik] at hd; exact ih i hi hd
      | print hp =>
        by_cases hik : i = k
        · subst hik; simp only [update_same] at hd; cases hd
        · simp only [update_other _ _ hik] at hd; exact ih i hi hd
      | set hp => rfl
  have hflag := inv i hi hd
  have h0 : s.log.count j = 0 := by
    have : ∀ j, s.phase j = .before → s.log.count j = 0 := by
      clear hj hd hflag inv h' j
      induction h with
      | refl => intro j _; simp [State.start]
      | @step t k u _ hs ih =>
        intro j hj
        cases hs with
        | test hp =>
          by_cases hjk : j = k
          · subst hjk; exact ih j hp
          · simp only [update_other _ _ hjk] at hj; exact ih j hj
        | print hp =>
          by_cases hjk : j = k
          · subst hjk; simp only [update_same] at hj; cases hj
          · simp only [update_other _ _ hjk] at hj
            simp [List.count_append, List.count_singleton, Ne.symm hjk, ih j hj]
        | set hp =>
          by_cases hjk : j = k
          · subst hjk; simp only [update_same] at hj; cases hj
          · simp only [update_other _ _ hjk] at hj; exact ih j hj
    exact this j hj
  have : t.flag = true ∧ (t.phase j = .before ∨ t.phase j = .done) ∧ t.log.count j = 0 := by
    clear hd
    induction h' with
    | refl => exact ⟨hflag, Or.inl hj, h0⟩
    | @step t k u _ hs ih =>
      obtain ⟨f, p, c⟩ := ih
      cases hs with
      | test hp =>
        refine ⟨f, ?_, c⟩
        by_cases hjk : j = k
        · subst hjk; right; simp [update_same, f]
        · simpa only [update_other _ _ hjk] using p
      | print hp =>
        have hjk : j ≠ k := by
          rintro rfl
          rcases p with p | p <;> rw [p] at hp <;> cases hp
        refine ⟨f, by simpa only [update_other _ _ hjk] using p, ?_⟩
        simp [List.count_append, List.count_singleton, Ne.symm hjk, c]
      | set hp =>
        refine ⟨rfl, ?_, c⟩
        by_cases hjk : j = k
        · subst hjk; right; simp [update_same]
        · simpa only [update_other _ _ hjk] using p
  exact this.2.2

/-- **C42**: if a verbose construction is complete, the banner has been printed. -/
theorem C42_printed (verbose : ι → Bool) (s : State ι) (h : Steps verbose State.start s) (i : ι) (hi : verbose i = true)
    (hd : s.phase i = .done) : s.log ≠ [] := by
  have inv : (s.flag = true → s.log ≠ []) ∧ ∀ i, (s.phase i = .toSet → s.log ≠ []) ∧
      (verbose i = true → s.phase i = .done → s.log ≠ []) := by
    clear hd hi i
    induction h with
    | refl => simp [State.start]
    | @step t k u _ hs ih =>
      cases hs with
      | test hp =>
        refine ⟨ih.1, fun i => ?_⟩
        by_cases hik : i = k
        · subst hik
          simp only [update_same]
          split
          · simp
          · next hne =>
            refine ⟨by simp, fun hv _ => ih.1 ?_⟩
            simpa [hv] using hne
        · simpa only [update_other _ _ hik] using ih.2 i
      | print hp => exact ⟨fun _ => by simp, fun i => ⟨fun _ => by simp, fun _ _ => by simp⟩⟩
      | set hp =>
        have := (ih.2 k).1 hp
        exact ⟨fun _ => this, fun i => ⟨fun _ => this, fun _ _ => this⟩⟩
  exact (inv.2 i).2 hi hd

/-- **C42** (race): two threads constructing verbose calculators at the same time can both print the banner. -/
theorem C42_race : ∃ s : State Bool, Steps (fun _ => true) State.start s ∧ s.log.length = 2 ∧ ∀ j, s.phase j = .done := by
  refine ⟨_, .step (j := false) (.step (j := true) (.step (j := false) (.step (j := true) (.step (j := false)
    (.step (j := true) (.refl _) (.test rfl)) (.test rfl)) (.print rfl)) (.print rfl)) (.set rfl)) (.set rfl), rfl, ?_⟩
  intro j; cases j <;> rfl

end
end Himalaya.Banner
