import Verif.Conc.Model
import Mathlib.Data.Fintype.Basic
import Mathlib.Algebra.BigOperators.Group.Finset.Basic
import Mathlib.Data.Fintype.BigOperators

/-!
# C41: concurrent use of the two-loop routines
-/

set_option linter.unusedSimpArgs false
set_option linter.unusedSectionVars false
set_option linter.unusedVariables false

namespace Himalaya.Conc

variable {ι V L : Type} [DecidableEq ι]

/-! ### Running alone -/

/-- execution of a piece of code without other threads (mutex operations have no effect on data) -/
def solo : List (Instr V L) → L × (Key → V) → L × (Key → V)
  | [], s => s
  | .lock :: r, s => solo r s
  | .unlock :: r, s => solo r s
  | .store k v :: r, (l, c) => solo r (l, update c k (v l))
  | .load k f :: r, (l, c) => solo r (f (c k) l, c)
  | .upd f :: r, (l, c) => solo r (f l, c)

theorem solo_append (p q : List (Instr V L)) : ∀ s, solo (p ++ q) s = solo q (solo p s) := by
  induction p with
  | nil => intro s; rfl
  | cons x r ih =>
    intro s
    cases x <;> simp only [List.cons_append, solo] <;> exact ih _

/-- Locking discipline: the COMMON block is used only with the lock held, and a variable is read only after it has been assigned under
the same lock; no lock is taken twice, every lock is released. -/
def Safe : Bool → (Key → Prop) → List (Instr V L) → Prop
  | held, _, [] => held = false
  | held, _, .lock :: r => held = false ∧ Safe true (fun _ => False) r
  | held, _, .unlock :: r => held = true ∧ Safe false (fun _ => False) r
  | held, W, .store k _ :: r => held = true ∧ Safe held (fun j => W j ∨ j = k) r
  | held, W, .load k _ :: r => held = true ∧ W k ∧ Safe held W r
  | held, W, .upd _ :: r => Safe held W r

/-- disciplined code does not depend on what it has not written itself -/
theorem solo_indep : ∀ (code : List (Instr V L)) (held : Bool) (W : Key → Prop), Safe held W code →
    ∀ (l : L) (c c' : Key → V), (∀ k, W k → c k = c' k) → (solo code (l, c)).1 = (solo code (l, c')).1
  | [], _, _, _, l, c, c', _ => rfl
  | .lock :: r, held, W, h, l, c, c', _ => solo_indep r true _ h.2 l c c' (fun _ hk => hk.elim)
  | .unlock :: r, held, W, h, l, c, c', _ => solo_indep r false _ h.2 l c c' (fun _ hk => hk.elim)
  | .store k v :: r, held, W, h, l, c, c', hc => by
    refine solo_indep r held _ h.2 l _ _ (fun j hj => ?_)
    unfold update
    split
    · rfl
    · next hne => exact hc j (hj.resolve_right hne)
  | .load k f :: r, held, W, h, l, c, c', hc => by
    simp only [solo]
    rw [hc k h.2.1]
    exact solo_indep r held W h.2.2 _ c c' hc
  | .upd f :: r, held, W, h, l, c, c', hc => solo_indep r held W h _ c c' hc

/-! ### Invariant -/

/-- what is true of thread `i` in every reachable state; `fin` is the final local state of the thread running alone -/
def Good (s : State ι V L) (i : ι) (fin : L) : Prop :=
  ∃ (held : Bool) (W : Key → Prop), Safe held W (s.threads i).code ∧ (held = true ↔ s.owner = some i) ∧
    (held = false → ∀ k, ¬ W k) ∧
    ∀ c : Key → V, (∀ k, W k → c k = s.common k) → (solo (s.threads i).code ((s.threads i).loc, c)).1 = fin

theorem update_same {α β : Type} [DecidableEq α] (f : α → β) (a : α) (b : β) : update f a b a = b := by simp [update]
theorem update_other {α β : Type} [DecidableEq α] (f : α → β) {a x : α} (b : β) (h : x ≠ a) : update f a b x = f x := by
  simp [update, h]

theorem good_step {s s' : State ι V L} {i : ι} (hs : Step s i s') (fin : ι → L) (h : ∀ j, Good s j (fin j)) :
    ∀ j, Good s' j (fin j) := by
  intro j
  obtain ⟨heldi, Wi, hsafe, hown, hno, hval⟩ := h i
  cases hs with
  | @lock rest loc ht ho =>
    rw [ht] at hsafe hval
    by_cases hj : j = i
    · subst hj
      refine ⟨true, fun _ => False, ?_, ?_, ?_, ?_⟩
      · simp only [update_same]; exact hsafe.2
      · simp
      · simp
      · intro c _
        simp only [update_same]
        have hW : ∀ k, Wi k → c k = s.common k := fun k hk => absurd hk (hno hsafe.1 k)
        exact hval c hW
    · obtain ⟨held, W, h1, h2, h3, h4⟩ := h j
      refine ⟨held, W, by simpa only [update_other _ _ hj] using h1, ?_, h3, by simpa only [update_other _ _ hj] using h4⟩
      have hf : held = false := by
        cases held
        · rfl
        · have := h2.1 rfl; rw [ho] at this; cases this
      subst hf
      simp [Ne.symm hj]
  | @unlock rest loc ht ho =>
    rw [ht] at hsafe hval
    by_cases hj : j = i
    · subst hj
      refine ⟨false, fun _ => False, ?_, by simp, by simp, ?_⟩
      · simp only [update_same]; exact hsafe.2
      · intro c _
        simp only [update_same]
        rw [solo_indep rest false _ hsafe.2 loc c s.common (fun k hk => hk.elim)]
        exact hval s.common (fun _ _ => rfl)
    · obtain ⟨held, W, h1, h2, h3, h4⟩ := h j
      refine ⟨held, W, by simpa only [update_other _ _ hj] using h1, ?_, h3, by simpa only [update_other _ _ hj] using h4⟩
      have hf : held = false := by
        cases held
        · rfl
        · have := h2.1 rfl; rw [ho] at this; exact absurd (Option.some.inj this) (Ne.symm hj)
      subst hf
      simp
  | @store k v rest loc ht =>
    rw [ht] at hsafe hval
    have hi : s.owner = some i := hown.1 hsafe.1
    by_cases hj : j = i
    · subst hj
      refine ⟨heldi, fun m => Wi m ∨ m = k, ?_, hown, ?_, ?_⟩
      · simp only [update_same]; exact hsafe.2
      · intro hf; rw [hsafe.1] at hf; cases hf
      · intro c hc
        simp only [update_same]
        rw [solo_indep rest heldi _ hsafe.2 loc c (update s.common k (v loc)) hc]
        exact hval s.common (fun _ _ => rfl)
    · obtain ⟨held, W, h1, h2, h3, h4⟩ := h j
      have hf : held = false := by
        cases held
        · rfl
        · have := h2.1 rfl; rw [hi] at this; exact absurd (Option.some.inj this) (Ne.symm hj)
      refine ⟨held, W, by simpa only [update_other _ _ hj] using h1, h2, h3, ?_⟩
      intro c hc
      simp only [update_other _ _ hj]
      exact h4 c (fun m hm => absurd hm (h3 hf m))
  | @load k f rest loc ht =>
    rw [ht] at hsafe hval
    by_cases hj : j = i
    · subst hj
      refine ⟨heldi, Wi, ?_, hown, hno, ?_⟩
      · simp only [update_same]; exact hsafe.2.2
      · intro c hc
        simp only [update_same]
        have := hval c hc
        simp only [solo] at this
        rwa [hc k hsafe.2.1] at this
    · obtain ⟨held, W, h1, h2, h3, h4⟩ := h j
      exact ⟨held, W, by simpa only [update_other _ _ hj] using h1, h2, h3, by simpa only [update_other _ _ hj] using h4⟩
  | @upd f rest loc ht =>
    rw [ht] at hsafe hval
    by_cases hj : j = i
    · subst hj
      refine ⟨heldi, Wi, ?_, hown, hno, ?_⟩
      · simp only [update_same]; exact hsafe
      · intro c hc
        simp only [update_same]
        exact hval c hc
    · obtain ⟨held, W, h1, h2, h3, h4⟩ := h j
      exact ⟨held, W, by simpa only [update_other _ _ hj] using h1, h2, h3, by simpa only [update_other _ _ hj] using h4⟩

theorem good_reachable {s₀ s : State ι V L} (fin : ι → L) (h : ∀ j, Good s₀ j (fin j)) (hr : Reachable s₀ s) :
    ∀ j, Good s j (fin j) := by
  induction hr with
  | init => exact h
  | step _ hs ih => exact good_step hs fin ih

/-! ### The calls follow the discipline -/

section
variable {A R : Type} (X : Routines V A R)

theorem safe_mono : ∀ (code : List (Instr V L)) (held : Bool) (W W' : Key → Prop), (∀ k, W k → W' k) → Safe held W code →
    Safe held W' code
  | [], _, _, _, _, h => h
  | .lock :: _, _, _, _, _, h => h
  | .unlock :: _, _, _, _, _, h => h
  | .store _ _ :: r, held, W, W', hW, h => ⟨h.1, safe_mono r held _ _ (fun j hj => hj.imp (hW j) id) h.2⟩
  | .load _ _ :: r, held, W, W', hW, h => ⟨h.1, hW _ h.2.1, safe_mono r held _ _ hW h.2.2⟩
  | .upd _ :: r, held, W, W', hW, h => safe_mono r held _ _ hW h

theorem safe_stores (f : Key → L → V) (rest : List (Instr V L)) : ∀ (ks : List Key) (W : Key → Prop),
    Safe true (fun j => W j ∨ j ∈ ks) rest → Safe true W (ks.map (fun k => Instr.store k (f k)) ++ rest)
  | [], W, h => by simpa using h
  | k :: ks, W, h => by
    refine ⟨rfl, safe_stores f rest ks _ (safe_mono _ _ _ _ (fun j hj => ?_) h)⟩
    simp only [List.mem_cons] at hj
    tauto

theorem safe_loads (f : Key → V → L → L) (rest : List (Instr V L)) : ∀ (ks : List Key) (W : Key → Prop), (∀ k ∈ ks, W k) →
    Safe true W rest → Safe true W (ks.map (fun k => Instr.load k (f k)) ++ rest)
  | [], W, _, h => by simpa using h
  | k :: ks, W, hk, h => ⟨rfl, hk k (by simp), safe_loads f rest ks W (fun j hj => hk j (by simp [hj])) h⟩

theorem mem_allKeys (k : Key) : k ∈ allKeys := List.mem_finRange k

theorem safe_makefuncs (rest : List (Instr V (Loc V A R))) (W : Key → Prop) (h : Safe true (fun _ => True) rest) :
    Safe true W (makefuncs X ++ rest) := by
  unfold makefuncs makederiv
  simp only [List.append_assoc]
  refine safe_stores (fun k (l : Loc V A R) => X.deriv (if true then X.swap l.args else l.args) k) _ _ _ ?_
  refine safe_loads (fun k v (l : Loc V A R) => { l with first := fun j => if j = k then v else l.first j }) _ _ _
    (fun k _ => Or.inr (mem_allKeys k)) ?_
  refine safe_stores (fun k (l : Loc V A R) => X.deriv (if false then X.swap l.args else l.args) k) _ _ _ ?_
  refine safe_loads (fun k v (l : Loc V A R) => { l with second := fun j => if j = k then v else l.second j }) _ _ _
    (fun k _ => Or.inr (mem_allKeys k)) ?_
  exact safe_mono _ _ _ _ (fun k _ => Or.inr (mem_allKeys k)) h

theorem safe_call (c : Call A) (rest : List (Instr V (Loc V A R))) (h : Safe false (fun _ => False) rest) :
    Safe false (fun _ => False) (callCode X c ++ rest) := by
  cases c with
  | atAt a heavy =>
    cases heavy
    · simp only [callCode, ddshiggs, finish, List.append_assoc, List.cons_append, List.nil_append, Bool.false_eq_true, if_false]
      refine ⟨rfl, ?_⟩
      exact safe_makefuncs X _ _ ⟨rfl, h⟩
    · simp only [callCode, ddshiggs, ddsodd, finish, List.append_assoc, List.cons_append, List.nil_append, if_true]
      refine ⟨rfl, ?_⟩
      refine safe_makefuncs X _ _ ⟨rfl, rfl, ?_⟩
      exact safe_makefuncs X _ _ ⟨rfl, h⟩
  | maAtAt a =>
    simp only [callCode, ddsodd, finish, List.append_assoc, List.cons_append, List.nil_append]
    refine ⟨rfl, ?_⟩
    exact safe_makefuncs X _ _ ⟨rfl, h⟩
  | unprotected n a =>
    simp only [callCode, finish, List.append_assoc, List.cons_append, List.nil_append]
    exact h

theorem safe_thread (a : A) (cs : List (Call A)) : Safe false (fun _ => False) (threadOf X a cs).code := by
  unfold threadOf
  induction cs with
  | nil => rfl
  | cons c cs ih => exact safe_call X c _ ih

/-! ### What a call computes -/

/-- Specification: the copies of the derivatives with respect to bottom quantities. -/
def bottomDerivs (a : A) : Key → V := fun k => if k ∈ saved then X.deriv (X.swap a) k else X.zero

/-- Specification: the value a call returns, as a function of its arguments alone. -/
def value : Call A → R
  | .atAt a heavy =>
    let a1 := X.guards a
    let S := X.higgs a1 (bottomDerivs X a1) (X.deriv a1)
    if heavy then
      let a2 := X.guards a1
      X.combine a2 S (X.odd a2 (bottomDerivs X a2) (X.deriv a2))
    else X.alone a1 S
  | .maAtAt a => let a1 := X.guards a; X.odd a1 (bottomDerivs X a1) (X.deriv a1)
  | .unprotected n a => X.other n a

theorem solo_stores (f : Key → L → V) : ∀ (ks : List Key) (l : L) (c : Key → V),
    solo (ks.map (fun k => Instr.store k (f k))) (l, c) = (l, fun k => if k ∈ ks then f k l else c k)
  | [], l, c => by simp [solo]
  | k :: ks, l, c => by
    simp only [List.map_cons, solo]
    rw [solo_stores f ks]
    congr 1
    funext j
    by_cases h1 : j ∈ ks
    · simp [h1]
    · by_cases h2 : j = k
      · subst h2; simp [update]
      · simp [h1, h2, update]

theorem solo_first : ∀ (ks : List Key) (l : Loc V A R) (c : Key → V),
    solo (ks.map (fun k => Instr.load k fun v (l : Loc V A R) => { l with first := fun j => if j = k then v else l.first j })) (l, c)
      = ({ l with first := fun j => if j ∈ ks then c j else l.first j }, c)
  | [], l, c => by simp [solo]
  | k :: ks, l, c => by
    simp only [List.map_cons, solo]
    rw [solo_first ks]
    congr 2
    funext j
    by_cases h1 : j ∈ ks
    · simp [h1]
    · by_cases h2 : j = k
      · subst h2; simp
      · simp [h1, h2]

theorem solo_second : ∀ (ks : List Key) (l : Loc V A R) (c : Key → V),
    solo (ks.map (fun k => Instr.load k fun v (l : Loc V A R) => { l with second := fun j => if j = k then v else l.second j })) (l, c)
      = ({ l with second := fun j => if j ∈ ks then c j else l.second j }, c)
  | [], l, c => by simp [solo]
  | k :: ks, l, c => by
    simp only [List.map_cons, solo]
    rw [solo_second ks]
    congr 2
    funext j
    by_cases h1 : j ∈ ks
    · simp [h1]
    · by_cases h2 : j = k
      · subst h2; simp
      · simp [h1, h2]

theorem solo_makefuncs (l : Loc V A R) (c : Key → V) (h1 : l.first = fun _ => X.zero) :
    ∃ c', solo (makefuncs X) (l, c) = ({ l with first := bottomDerivs X l.args, second := X.deriv l.args }, c') := by
  refine ⟨X.deriv l.args, ?_⟩
  unfold makefuncs makederiv
  rw [solo_append, solo_append, solo_append]
  rw [solo_stores (fun k (l : Loc V A R) => X.deriv (if true then X.swap l.args else l.args) k), solo_first,
    solo_stores (fun k (l : Loc V A R) => X.deriv (if false then X.swap l.args else l.args) k), solo_second]
  simp only [mem_allKeys, if_true, Bool.false_eq_true, if_false, h1]
  rfl

theorem solo_call (cl : Call A) (l : Loc V A R) (c : Key → V) :
    (solo (callCode X cl) (l, c)).1.results = l.results ++ [value X cl] := by
  cases cl with
  | atAt a heavy =>
    cases heavy
    · simp only [callCode, ddshiggs, finish, List.append_assoc, List.cons_append, List.nil_append, Bool.false_eq_true, if_false,
        solo, solo_append]
      obtain ⟨c', h⟩ := solo_makefuncs X
        ({ l with args := X.guards a, tmp := none, first := fun _ => X.zero, second := fun _ => X.zero }) c rfl
      rw [h]
      rfl
    · simp only [callCode, ddshiggs, ddsodd, finish, List.append_assoc, List.cons_append, List.nil_append, if_true, solo, solo_append]
      obtain ⟨c', h⟩ := solo_makefuncs X
        ({ l with args := X.guards a, tmp := none, first := fun _ => X.zero, second := fun _ => X.zero }) c rfl
      rw [h]
      simp only [solo, solo_append]
      obtain ⟨c'', h'⟩ := solo_makefuncs X
        ({ l with args := X.guards (X.guards a), first := fun _ => X.zero, second := fun _ => X.zero, tmp := some (X.higgs (X.guards a) (bottomDerivs X (X.guards a)) (X.deriv (X.guards a))) }) c' rfl
      rw [h']
      rfl
  | maAtAt a =>
    simp only [callCode, ddsodd, finish, List.append_assoc, List.cons_append, List.nil_append, solo, solo_append]
    obtain ⟨c', h⟩ := solo_makefuncs X
      ({ l with args := X.guards a, tmp := none, first := fun _ => X.zero, second := fun _ => X.zero }) c rfl
    rw [h]
    rfl
  | unprotected n a => rfl

theorem solo_thread (cs : List (Call A)) : ∀ (l : Loc V A R) (c : Key → V),
    (solo (cs.map (callCode X)).flatten (l, c)).1.results = l.results ++ cs.map (value X) := by
  induction cs with
  | nil => intro l c; simp [solo]
  | cons cl cs ih =>
    intro l c
    simp only [List.map_cons, List.flatten_cons, solo_append]
    rcases hs : solo (callCode X cl) (l, c) with ⟨l', c'⟩
    have := solo_call X cl l c
    rw [hs] at this
    rw [ih, this]
    simp

/-! ### The property -/

/-- the invariant holds at program start -/
theorem good_start (junk : Key → V) (a : A) (calls : ι → List (Call A)) (j : ι) :
    Good (start X junk a calls) j (solo (threadOf X a (calls j)).code ((threadOf X a (calls j)).loc, junk)).1 := by
  refine ⟨false, fun _ => False, safe_thread X a (calls j), by simp [start], by simp, ?_⟩
  intro c _
  exact solo_indep _ _ _ (safe_thread X a (calls j)) _ c junk (fun _ h => h.elim)

/-- A thread has finished all its calls. -/
def Finished (t : Thread V L) : Prop := t.code = []

/-- A thread is inside a protected routine: its next mutex operation is the release. -/
def Inside (t : Thread V L) : Prop :=
  ∃ pre post, t.code = pre ++ Instr.unlock :: post ∧ ∀ x ∈ pre, (match x with | .lock => False | .unlock => False | _ => True)

/-- **C41**: for any number of threads, any lists of calls and any schedule, every thread that has finished got from each call the
value that depends on the arguments of that call alone. -/
theorem C41_results (junk : Key → V) (a : A) (calls : ι → List (Call A)) (s : State ι V (Loc V A R))
    (h : Reachable (start X junk a calls) s) (i : ι) (hf : Finished (s.threads i)) :
    (s.threads i).loc.results = (calls i).map (value X) := by
  obtain ⟨held, W, _, _, _, hv⟩ := good_reachable _ (good_start X junk a calls) h i
  have := hv s.common (fun _ _ => rfl)
  rw [hf] at this
  simp only [solo] at this
  rw [this]
  exact solo_thread X (calls i) _ junk

theorem safe_inside : ∀ (code : List (Instr V L)) (held : Bool) (W : Key → Prop) (l : L), Safe held W code →
    Inside ⟨code, l⟩ → held = true
  | [], _, _, l, _, ⟨pre, post, h, _⟩ => by cases pre <;> cases h
  | x :: r, held, W, l, hs, ⟨pre, post, h, hp⟩ => by
    cases pre with
    | nil =>
      simp only [List.nil_append] at h
      cases h
      exact hs.1
    | cons y pre =>
      simp only [List.cons_append, List.cons.injEq] at h
      obtain ⟨rfl, rfl⟩ := h
      have hy := hp x (by simp)
      have hin : Inside (⟨pre ++ Instr.unlock :: post, l⟩ : Thread V L) := ⟨pre, post, rfl, fun z hz => hp z (by simp [hz])⟩
      cases x with
      | lock => exact hy.elim
      | unlock => exact hy.elim
      | store k v => exact hs.1
      | load k f => exact hs.1
      | upd f => exact safe_inside (pre ++ Instr.unlock :: post) held W l hs hin

/-- **C41**: never are two threads inside the routines that use the COMMON block. -/
theorem C41_mutual_exclusion (junk : Key → V) (a : A) (calls : ι → List (Call A)) (s : State ι V (Loc V A R))
    (h : Reachable (start X junk a calls) s) (i j : ι) (hi : Inside (s.threads i)) (hj : Inside (s.threads j)) : i = j := by
  obtain ⟨hd, W, h1, h2, _, _⟩ := good_reachable _ (good_start X junk a calls) h i
  obtain ⟨hd', W', h1', h2', _, _⟩ := good_reachable _ (good_start X junk a calls) h j
  have e := h2.1 (safe_inside _ _ _ _ h1 hi)
  have e' := h2'.1 (safe_inside _ _ _ _ h1' hj)
  rw [e] at e'
  exact Option.some.inj e'

/-- **C41**: no deadlock: as long as a thread has something to do, some thread can take a step. -/
theorem C41_no_deadlock (junk : Key → V) (a : A) (calls : ι → List (Call A)) (s : State ι V (Loc V A R))
    (h : Reachable (start X junk a calls) s) (i : ι) (hf : ¬ Finished (s.threads i)) : ∃ j s', Step s j s' := by
  have G := good_reachable _ (good_start X junk a calls) h
  have main : ∀ j, (s.owner = none ∨ s.owner = some j) → ¬ Finished (s.threads j) → ∃ s', Step s j s' := by
    intro j ho hj
    obtain ⟨held, W, h1, h2, _, _⟩ := G j
    rcases hc : s.threads j with ⟨code, loc⟩
    rw [hc] at h1
    cases code with
    | nil => exact absurd (by rw [hc]; rfl) hj
    | cons x r =>
      cases x with
      | lock =>
        rcases ho with ho | ho
        · exact ⟨_, Step.lock hc ho⟩
        · have := h2.2 ho; rw [h1.1] at this; cases this
      | unlock => exact ⟨_, Step.unlock hc (h2.1 h1.1)⟩
      | store k v => exact ⟨_, Step.store hc⟩
      | load k f => exact ⟨_, Step.load hc⟩
      | upd f => exact ⟨_, Step.upd hc⟩
  cases ho : s.owner with
  | none =>
    obtain ⟨s', h'⟩ := main i (Or.inl ho) hf
    exact ⟨i, s', h'⟩
  | some j =>
    have hj : ¬ Finished (s.threads j) := by
      intro hfin
      obtain ⟨held, W, h1, h2, _, _⟩ := G j
      rw [hfin] at h1
      have := h2.2 ho
      rw [h1] at this; cases this
    obtain ⟨s', h'⟩ := main j (Or.inr ho) hj
    exact ⟨j, s', h'⟩

/-- **C41**: when all threads have finished the mutex is free. -/
theorem C41_released (junk : Key → V) (a : A) (calls : ι → List (Call A)) (s : State ι V (Loc V A R))
    (h : Reachable (start X junk a calls) s) (hf : ∀ i, Finished (s.threads i)) : s.owner = none := by
  cases ho : s.owner with
  | none => rfl
  | some j =>
    obtain ⟨held, W, h1, h2, _, _⟩ := good_reachable _ (good_start X junk a calls) h j
    rw [hf j] at h1
    have := h2.2 ho
    rw [h1] at this; cases this

/-- runs of a given length -/
inductive Run {ι V L : Type} [DecidableEq ι] : State ι V L → Nat → State ι V L → Prop where
  | nil (s) : Run s 0 s
  | snoc {s n s' i s''} : Run s n s' → Step s' i s'' → Run s (n + 1) s''

theorem step_length [Fintype ι] {s s' : State ι V L} {i : ι} (h : Step s i s') :
    (∑ j, (s'.threads j).code.length) + 1 = ∑ j, (s.threads j).code.length := by
  have key : ∀ (t : Thread V L) (x : Instr V L) (rest : List (Instr V L)) (l : L), s.threads i = ⟨x :: rest, l⟩ → t.code = rest →
      (∑ j, (update s.threads i t j).code.length) + 1 = ∑ j, (s.threads j).code.length := by
    intro t x rest l h1 h2
    rw [← Finset.add_sum_erase _ _ (Finset.mem_univ i), ← Finset.add_sum_erase (a := i) _ (fun j => (s.threads j).code.length)
      (Finset.mem_univ i)]
    have : ∑ j ∈ Finset.univ.erase i, (update s.threads i t j).code.length = ∑ j ∈ Finset.univ.erase i, (s.threads j).code.length :=
      Finset.sum_congr rfl fun j hj => by rw [update_other _ _ (Finset.ne_of_mem_erase hj)]
    rw [this, update_same, h1, h2]
    simp only [List.length_cons]
    omega
  cases h with
  | lock ht _ => exact key _ _ _ _ ht rfl
  | unlock ht _ => exact key _ _ _ _ ht rfl
  | store ht => exact key _ _ _ _ ht rfl
  | load ht => exact key _ _ _ _ ht rfl
  | upd ht => exact key _ _ _ _ ht rfl

/-- **C41**: with finitely many threads every schedule ends: the number of steps is bounded by the total length of the code. -/
theorem C41_terminates [Fintype ι] (s₀ s : State ι V L) (n : Nat) (h : Run s₀ n s) :
    n + ∑ j, (s.threads j).code.length = ∑ j, (s₀.threads j).code.length := by
  induction h with
  | nil => simp
  | snoc _ hs ih => have := step_length hs; omega

/-- **C41**: so every complete schedule of finitely many threads gives every caller the right values. -/
theorem C41_complete [Fintype ι] (junk : Key → V) (a : A) (calls : ι → List (Call A)) (s : State ι V (Loc V A R))
    (h : Reachable (start X junk a calls) s) (hmax : ¬ ∃ j s', Step s j s') (i : ι) :
    (s.threads i).loc.results = (calls i).map (value X) := by
  refine C41_results X junk a calls s h i ?_
  by_contra hf
  exact hmax (C41_no_deadlock X junk a calls s h i hf)

end

/-! ### Non-vacuity, and why the lock is needed -/

/-- toy routines whose result shows the COMMON block -/
def toy : Routines Nat Nat Nat where
  deriv a k := a + k
  swap a := a + 100
  guards a := a
  higgs _ f g := f 0 + 1000 * g 0
  odd _ f g := f 0 + g 0
  other n a := n + a
  combine _ r d := r + d
  alone _ r := r
  zero := 0

example : value toy (.atAt 7 false) = 107 + 1000 * 7 := by decide

/-- two threads really meet the hypotheses: the start state is reachable and both have work to do -/
example : ¬ Finished ((start toy (fun _ => 0) 0 (fun _ : Bool => [.atAt 7 false])).threads true) := by
  simp [Finished, start, threadOf, callCode]

/-- one protected call without the lock -/
def unprotectedCode : List (Instr Nat (Loc Nat Nat Nat)) :=
  [.store 0 (fun l => l.args), .load 0 (fun v l => { l with results := [v] })]

/-- **C41** (why the mutex is needed): the same accesses without the mutex can return another thread's value. -/
theorem C41_lock_needed : ∃ s : State Bool Nat (Loc Nat Nat Nat),
    Reachable ⟨none, fun _ => 0, fun b => ⟨unprotectedCode, ⟨if b then 1 else 2, fun _ => 0, fun _ => 0, none, []⟩⟩⟩ s ∧
    Finished (s.threads true) ∧ (s.threads true).loc.results = [2] := by
  refine ⟨_, .step (i := true) (.step (i := false) (.step (i := true) .init (.store rfl)) (.store rfl)) (.load rfl), rfl, rfl⟩

end Himalaya.Conc
