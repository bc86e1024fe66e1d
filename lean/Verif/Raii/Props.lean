import Verif.Raii.Model

set_option linter.unusedSimpArgs false
set_option linter.unusedSectionVars false

/-!
# C43: scoped changes are undone on every exit

`Temporarily_set` objects and the redirection of `std::cout`/`std::cerr` by the LibraryLink.
-/

namespace Himalaya.Raii

variable {Var Val : Type} [DecidableEq Var]

theorem Store.set_same (s : Store Var Val) (x : Var) (v : Val) : s.set x v x = v := by
  simp [Store.set]

theorem Store.set_other (s : Store Var Val) {x y : Var} (v : Val) (h : y ≠ x) : s.set x v y = s y := by
  simp [Store.set, h]

/-! ### `Temporarily_set` -/

/-- **C43**: after a block with a temporarily set variable, the variable has the value it had before, whatever the block does
(including assigning to the variable, throwing, returning, nesting further scoped objects on the same variable). -/
theorem C43_restored (x : Var) (v : Store Var Val → Val) (p : Prog Var Val) (s : Store Var Val) :
    (exec (.block x v p) s).1 x = s x := by
  simp only [exec, TempSet.create, TempSet.destroy]
  exact Store.set_same _ _ _

/-- **C43**: the block itself starts with the new value (and all other variables unchanged), and ends the same way with or
without the scoped object. -/
theorem C43_body (x : Var) (v : Store Var Val → Val) (p : Prog Var Val) (s : Store Var Val) :
    (exec (.block x v p) s).2 = (exec p (fun y => if y = x then v s else s y)).2 ∧
    ∀ y, y ≠ x → (exec (.block x v p) s).1 y = (exec p (fun y => if y = x then v s else s y)).1 y := by
  refine ⟨rfl, fun y hy => ?_⟩
  simp only [exec, TempSet.create, TempSet.destroy]
  rw [Store.set_other _ _ hy]; rfl

/-- Specification: all assignments of the program, outside scoped objects, are to variables in `G`. -/
def AssignsOnly : Prog Var Val → (Var → Prop) → Prop
  | .skip, _ => True
  | .assign x _, G => G x
  | .throw, _ => True
  | .ret, _ => True
  | .seq p q, G => AssignsOnly p G ∧ AssignsOnly q G
  | .ite _ p q, G => AssignsOnly p G ∧ AssignsOnly q G
  | .loop _ p, G => AssignsOnly p G
  | .tryCatch p q, G => AssignsOnly p G ∧ AssignsOnly q G
  | .call p, G => AssignsOnly p G
  | .block x _ p, G => AssignsOnly p (fun y => G y ∨ y = x)

theorem iter_keeps (f : Store Var Val → Store Var Val × Exit) (x : Var) (h : ∀ s, (f s).1 x = s x) :
    ∀ (n : Nat) (s : Store Var Val), (iter f n s).1 x = s x
  | 0, s => rfl
  | n + 1, s => by
    unfold iter
    have := h s
    split
    · next s' heq =>
      rw [heq] at this
      rw [iter_keeps f x h n s']; exact this
    · exact this

/-- **C43**: a program all of whose assignments to a variable happen while it is temporarily set leaves that variable as it
found it, on every exit (normal, return, exception), for any nesting, branching and looping. -/
theorem C43_unchanged (p : Prog Var Val) : ∀ (G : Var → Prop), AssignsOnly p G →
    ∀ (s : Store Var Val) (x : Var), ¬ G x → (exec p s).1 x = s x := by
  induction p with
  | skip => intro G _ s x _; rfl
  | assign y v => intro G hG s x hx; exact Store.set_other _ _ (fun h => hx (h ▸ hG))
  | throw => intro G _ s x _; rfl
  | ret => intro G _ s x _; rfl
  | seq p q ihp ihq =>
    intro G hG s x hx
    have h1 := ihp G hG.1 s x hx
    simp only [exec]
    split
    · next s' heq => rw [heq] at h1; rw [ihq G hG.2 s' x hx]; exact h1
    · exact h1
  | ite c p q ihp ihq =>
    intro G hG s x hx
    simp only [exec]
    split
    · exact ihp G hG.1 s x hx
    · exact ihq G hG.2 s x hx
  | loop n p ih =>
    intro G hG s x hx
    exact iter_keeps _ x (fun s => ih G hG s x hx) n s
  | tryCatch p q ihp ihq =>
    intro G hG s x hx
    have h1 := ihp G hG.1 s x hx
    simp only [exec]
    split
    · next s' heq => rw [heq] at h1; rw [ihq G hG.2 s' x hx]; exact h1
    · exact h1
  | call p ih =>
    intro G hG s x hx
    have h1 := ih G hG s x hx
    simp only [exec]
    split
    · next s' heq => rw [heq] at h1; exact h1
    · exact h1
  | block y v p ih =>
    intro G hG s x hx
    by_cases hxy : x = y
    · subst hxy; exact C43_restored _ _ _ _
    · rw [(C43_body y v p s).2 x hxy]
      rw [ih _ hG _ x (fun h => h.elim hx hxy)]
      simp [hxy]

/-- **C43**: if every assignment of a function is to a variable temporarily set at that point, the call changes nothing at all —
also when it throws. -/
theorem C43_call_changes_nothing (p : Prog Var Val) (h : AssignsOnly p (fun _ => False)) (s : Store Var Val) :
    (exec p s).1 = s :=
  funext fun x => C43_unchanged p _ h s x (fun h => h)

/-- a throw inside two nested scoped blocks on the same variable, inside a loop: hypotheses hold and the body is really run -/
def nestedThrow : Prog Bool Nat :=
  .loop 3 (.block true (fun s => s true + 1) (.seq (.assign true (fun s => s true * 7))
    (.block true (fun _ => 5) (.ite (fun s => s false == 0) (.seq (.block false (fun _ => 9) .throw) .skip) .ret))))

example : AssignsOnly nestedThrow (fun _ => False) := by simp [AssignsOnly, nestedThrow]
example : (exec nestedThrow (fun b => if b then 4 else 0)).2 = .threw := by rfl
example : (exec nestedThrow (fun b => if b then 4 else 1)).2 = .returned := by rfl
/-- without the scoped object the change is visible -/
example : (exec (.seq (.assign true (fun _ => 7)) .throw) (fun _ : Bool => (0 : Nat))).1 true = 7 := by rfl

/-! ### Messages of the LibraryLink -/

/-- Specification: the lines of a text.  A final newline does not start another line. -/
def linesOf : List Char → List (List Char)
  | [] => []
  | c :: cs =>
    if c = '\n' then [] :: linesOf cs
    else match cs with
      | [] => [[c]]
      | d :: _ =>
        if d = '\n' then
          match linesOf cs with
          | _ :: ls => [c] :: ls
          | [] => [[c]]
        else
          match linesOf cs with
          | l :: ls => (c :: l) :: ls
          | [] => [[c]]

theorem linesOf_nil_iff (t : List Char) : linesOf t = [] ↔ t = [] := by
  cases t with
  | nil => simp [linesOf]
  | cons c cs =>
    simp only [linesOf]
    split
    · simp
    · split
      · simp
      · split
        · split <;> simp
        · split <;> simp

/-- a line followed by a newline -/
theorem linesOf_line (l rest : List Char) (h : ∀ c ∈ l, c ≠ '\n') : linesOf (l ++ '\n' :: rest) = l :: linesOf rest := by
  induction l with
  | nil => simp [linesOf]
  | cons c cs ih =>
    have hc : c ≠ '\n' := h c (by simp)
    have ih := ih (fun d hd => h d (by simp [hd]))
    cases cs with
    | nil => simp [linesOf, hc]
    | cons d ds =>
      have hd : d ≠ '\n' := h d (by simp)
      rw [List.cons_append] at ih ⊢
      rw [linesOf.eq_def]
      simp only [hc, if_false, List.cons_append, hd]
      rw [ih]

/-- a last line without newline -/
theorem linesOf_last (l : List Char) (hne : l ≠ []) (h : ∀ c ∈ l, c ≠ '\n') : linesOf l = [l] := by
  induction l with
  | nil => exact absurd rfl hne
  | cons c cs ih =>
    have hc : c ≠ '\n' := h c (by simp)
    cases cs with
    | nil => simp [linesOf, hc]
    | cons d ds =>
      have hd : d ≠ '\n' := h d (by simp)
      have ih := ih (by simp) (fun e he => h e (by simp [he]))
      rw [linesOf]
      simp only [hc, if_false, hd]
      rw [ih]

theorem takeWhile_ok (t : List Char) : ∀ c ∈ t.takeWhile (· ≠ '\n'), c ≠ '\n' := by
  induction t with
  | nil => intro c hc; simp at hc
  | cons d ds ih =>
    intro c hc
    by_cases hd : d = '\n'
    · simp [hd] at hc
    · rw [List.takeWhile_cons_of_pos (by simpa using hd)] at hc
      rcases List.mem_cons.1 hc with h | h
      · exact h ▸ hd
      · exact ih c h

theorem dropWhile_head (t : List Char) : ∀ c rest, t.dropWhile (· ≠ '\n') = c :: rest → c = '\n' := by
  induction t with
  | nil => intro c rest h; simp at h
  | cons d ds ih =>
    intro c rest h
    by_cases hd : d = '\n'
    · simp [hd] at h; exact h.1.symm
    · simp [hd] at h; exact ih c rest (by simpa using h)

/-- a fresh buffer is emptied line by line, and is at end-of-file afterwards -/
theorem flushLoop_spec : ∀ (n : Nat) (t : List Char), t.length < n → flushLoop n ⟨t, false⟩ = (linesOf t, ⟨[], true⟩)
  | 0, t, h => absurd h (by omega)
  | n + 1, t, h => by
    unfold flushLoop getline
    simp only [Bool.false_eq_true, if_false]
    cases t with
    | nil => simp [linesOf]
    | cons c cs =>
      have hsplit := List.takeWhile_append_dropWhile (p := fun c : Char => decide (c ≠ '\n')) (l := c :: cs)
      have hok := takeWhile_ok (c :: cs)
      have hhead := dropWhile_head (c :: cs)
      generalize hl : (c :: cs).takeWhile (fun c : Char => decide (c ≠ '\n')) = l at hsplit hok
      generalize hr : (c :: cs).dropWhile (fun c : Char => decide (c ≠ '\n')) = r at hsplit hhead
      cases r with
      | nil =>
        simp only [List.append_nil] at hsplit
        have : linesOf (c :: cs) = [c :: cs] := linesOf_last _ (by simp) (by rw [← hsplit]; exact hok)
        simp only [hl, hr]
        rw [this, hsplit]
        cases n with
        | zero => simp at h
        | succ m => simp [flushLoop, getline]
      | cons d rest =>
        have hd := hhead d rest rfl
        subst hd
        simp only [hl, hr]
        have hlen : rest.length < n := by
          have := congrArg List.length hsplit
          simp only [List.length_append, List.length_cons] at this h
          omega
        rw [flushLoop_spec n rest hlen, ← hsplit, linesOf_line l rest hok]

theorem flush_fresh (t : List Char) : flush ⟨t, false⟩ = (linesOf t, ⟨[], true⟩) := flushLoop_spec _ _ (by simp)

theorem flush_eof (t : List Char) : flush ⟨t, true⟩ = ([], ⟨t, true⟩) := by
  unfold flush flushLoop getline; rfl

/-! ### `Redirect_output` -/

/-- **C43**: after a LibraryLink call `std::cout` and `std::cerr` write where they did before, on every path. -/
theorem C43_streams_restored {α : Type} (n : Nat) (w : Work α) (s : World α) :
    (libraryCall n w s).cout = s.cout ∧ (libraryCall n w s).cerr = s.cerr := by
  unfold libraryCall
  split
  · exact ⟨rfl, rfl⟩
  · dsimp only
    split <;> exact ⟨rfl, rfl⟩

/-- **C43**: every line printed during the computation is put on the link exactly once, in order, before the result. -/
theorem C43_messages {α : Type} (n : Nat) (w : Work α) (s : World α) (x : α) (h : w.result = .ok x) (hp : w.put = .ok ()) :
    (libraryCall n w s).link = s.link ++ (linesOf w.early).map .info ++ [.result x] := by
  simp [libraryCall, h, hp, flush_fresh, flush_eof]

/-- **C43**: if the computation throws, the lines printed before are put on the link in order, then the error message and
`$Failed`. -/
theorem C43_messages_error {α : Type} (n : Nat) (w : Work α) (s : World α) (e : String) (h : w.result = .error e) :
    (libraryCall n w s).link = s.link ++ (linesOf w.early).map .info ++ [.error e, .failed] := by
  simp [libraryCall, h, flush_fresh]

/-- Specification: one complete Mathematica expression.  A message is put as `CompoundExpression[message, …]`, so it must be
followed by a complete expression. -/
def OneExpression {α : Type} : List (Put α) → Prop
  | [] => False
  | [.result _] => True
  | [.failed] => True
  | .info _ :: rest => OneExpression rest
  | .error _ :: rest => OneExpression rest
  | _ => False

theorem oneExpression_infos {α : Type} (ls : List (List Char)) (r : List (Put α)) (h : OneExpression r) :
    OneExpression (ls.map .info ++ r) := by
  induction ls with
  | nil => exact h
  | cons l ls ih => simpa [OneExpression] using ih

/-- **C43**: whatever is printed, at whatever time, and whether or not the computation throws, the call puts exactly one complete
expression on the link (text printed while the result is being put does not corrupt it). -/
theorem C43_one_expression {α : Type} (n : Nat) (w : Work α) (s : World α)
    (hp : (∃ e, w.result = .error e) ∨ w.put = .ok ()) :
    ∃ new, (libraryCall n w s).link = s.link ++ new ∧ OneExpression new := by
  rcases hr : w.result with e | x
  · refine ⟨(linesOf w.early).map .info ++ [.error e, .failed], ?_, oneExpression_infos _ _ (by simp [OneExpression])⟩
    rw [C43_messages_error n w s e hr, List.append_assoc]
  · have hp : w.put = .ok () := by
      rcases hp with ⟨e, he⟩ | hp
      · rw [hr] at he; cases he
      · exact hp
    refine ⟨(linesOf w.early).map .info ++ [.result x], ?_, oneExpression_infos _ _ (by simp [OneExpression])⟩
    rw [C43_messages n w s x hr hp, List.append_assoc]

/-- **C43** (limitation): text printed after the first flush never reaches the user, because the stream is at end-of-file. -/
theorem C43_late_text_lost {α : Type} (n : Nat) (early late late' : List Char) (x : α) (s : World α) :
    libraryCall n ⟨early, .ok x, late, .ok ()⟩ s = libraryCall n ⟨early, .ok x, late', .ok ()⟩ s := by
  simp [libraryCall, flush_fresh, flush_eof]

example : (libraryCall 0 ⟨"a\nbc".toList, .ok 1, "lost".toList, .ok ()⟩ (⟨.outside 0, .outside 1, []⟩ : World Nat)).link
    = [.info ['a'], .info ['b', 'c'], .result 1] := by
  rw [C43_messages 0 _ _ 1 rfl rfl]
  simp [linesOf]

end Himalaya.Raii
