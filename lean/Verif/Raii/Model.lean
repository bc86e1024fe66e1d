/-!
# Scoped state changes

Models source/himalaya/misc/RAII.hpp (`Temporarily_set`) and the class `Redirect_output` of
source/himalaya/LibraryLink/Himalaya_LibraryLink.cpp.
-/

namespace Himalaya.Raii

/-! ### `Temporarily_set` -/

variable {Var Val : Type} [DecidableEq Var]

/-- the values of all variables (a `Temporarily_set` holds a reference to one of them) -/
abbrev Store (Var Val : Type) := Var → Val

/-- `variable = value` -/
def Store.set (s : Store Var Val) (x : Var) (v : Val) : Store Var Val := fun y => if y = x then v else s y

/-- the object: reference and saved value; misc/RAII.hpp:29-30 -/
structure TempSet (Var Val : Type) where
  ref : Var
  oldValue : Val

/-- constructor; misc/RAII.hpp:17-22 -/
def TempSet.create (s : Store Var Val) (x : Var) (v : Val) : TempSet Var Val × Store Var Val := (⟨x, s x⟩, s.set x v)

/-- destructor; misc/RAII.hpp:25 -/
def TempSet.destroy (t : TempSet Var Val) (s : Store Var Val) : Store Var Val := s.set t.ref t.oldValue

/-- Programs: arbitrary assignments, exceptions, early returns (from the enclosing `call`), branches, loops, and blocks
`{ Temporarily_set<T> t(x, v); body }`.  Copying and moving of `Temporarily_set` are deleted (lines 23, 24, 26, 27), so objects
live exactly as long as their block. -/
inductive Prog (Var Val : Type) where
  | skip
  | assign (x : Var) (v : Store Var Val → Val)
  | throw
  | ret
  | seq (p q : Prog Var Val)
  | ite (c : Store Var Val → Bool) (p q : Prog Var Val)
  | loop (n : Nat) (p : Prog Var Val)
  | tryCatch (p q : Prog Var Val)
  | call (p : Prog Var Val)
  | block (x : Var) (v : Store Var Val → Val) (p : Prog Var Val)

/-- How a statement ends. -/
inductive Exit where
  | normal | returned | threw
deriving DecidableEq

/-- `n` iterations; left early by `return` or an exception -/
def iter (f : Store Var Val → Store Var Val × Exit) : Nat → Store Var Val → Store Var Val × Exit
  | 0, s => (s, .normal)
  | n + 1, s => match f s with
    | (s', .normal) => iter f n s'
    | r => r

/-- Execution.  The destructor of a scoped object runs on every exit of its block. -/
def exec : Prog Var Val → Store Var Val → Store Var Val × Exit
  | .skip, s => (s, .normal)
  | .assign x v, s => (s.set x (v s), .normal)
  | .throw, s => (s, .threw)
  | .ret, s => (s, .returned)
  | .seq p q, s => match exec p s with
    | (s', .normal) => exec q s'
    | r => r
  | .ite c p q, s => if c s then exec p s else exec q s
  | .loop n p, s => iter (exec p) n s
  | .tryCatch p q, s => match exec p s with
    | (s', .threw) => exec q s'
    | r => r
  | .call p, s => match exec p s with
    | (s', .returned) => (s', .normal)
    | r => r
  | .block x v p, s =>
    let (t, s1) := TempSet.create s x (v s)
    let (s2, e) := exec p s1
    (t.destroy s2, e)

/-! ### `Redirect_output` -/

/-- stream buffers: the ones the process started with (or any other), and the buffer of the `n`-th `Redirect_output` object -/
inductive Buf where
  | outside (k : Nat)
  | own (n : Nat)
deriving DecidableEq

/-- `std::stringstream buffer`: unread characters, and whether `eofbit` is set (then `std::getline` fails at once).  Writing through
the stream buffer does not touch the flags. -/
structure Stream where
  data : List Char
  eof : Bool

/-- `std::getline(buffer, line)`: the line (without the newline) if the call succeeds -/
def getline (b : Stream) : Option (List Char) × Stream :=
  if b.eof then (none, b)
  else match b.data with
    | [] => (none, ⟨[], true⟩)
    | _ =>
      let line := b.data.takeWhile (· ≠ '\n')
      match b.data.dropWhile (· ≠ '\n') with
      | [] => (some line, ⟨[], true⟩)
      | _ :: rest => (some line, ⟨rest, false⟩)

/-- `flush`: puts one message per line; Himalaya_LibraryLink.cpp:164-169.  (`fuel` bounds the number of lines.) -/
def flushLoop : Nat → Stream → List (List Char) × Stream
  | 0, b => ([], b)
  | n + 1, b => match getline b with
    | (none, b') => ([], b')
    | (some l, b') =>
      let (ls, b'') := flushLoop n b'
      (l :: ls, b'')

/-- `flush` with enough fuel: every line takes at least one character -/
def flush (b : Stream) : List (List Char) × Stream := flushLoop (b.data.length + 1) b

/-- what the call puts on the link -/
inductive Put (α : Type) where
  | info (line : List Char)
  | error (text : String)
  | failed
  | result (x : α)

/-- process state: the stream buffers of `std::cout`, `std::cerr`, and what has been put on the link -/
structure World (α : Type) where
  cout : Buf
  cerr : Buf
  link : List (Put α)

/-- A library call: text written to the redirected streams while computing, then result or exception; text written while
the result is being put on the link (`late`), then success or exception. -/
structure Work (α : Type) where
  early : List Char
  result : Except String α
  late : List Char
  put : Except String Unit

/-- The body of `HimalayaCalculateDMh3L` after the argument check; Himalaya_LibraryLink.cpp:521-537, with the constructor and
destructor of `Redirect_output` (lines 149-160).  `n` names the object's buffer. -/
def libraryCall {α : Type} (n : Nat) (w : Work α) (s : World α) : World α :=
  -- Redirect_output rd(link)
  let oldCout := s.cout
  let oldCerr := s.cerr
  let s : World α := { s with cout := .own n, cerr := .own n }
  let buffer : Stream := ⟨w.early, false⟩
  match w.result with
  | .error e =>
    -- stack unwinding destroys rd, then the handler runs
    let s : World α := { s with cout := oldCout, cerr := oldCerr }
    let (ls, _) := flush buffer
    { s with link := s.link ++ ls.map .info ++ [.error e, .failed] }
  | .ok x =>
    let (ls, buffer) := flush buffer
    let s : World α := { s with link := s.link ++ ls.map .info }
    let buffer : Stream := { buffer with data := buffer.data ++ w.late }
    match w.put with
    | .ok () =>
      let s : World α := { s with link := s.link ++ [.result x] }
      let s : World α := { s with cout := oldCout, cerr := oldCerr }
      let (ls, _) := flush buffer
      { s with link := s.link ++ ls.map .info }
    | .error e =>
      let s : World α := { s with cout := oldCout, cerr := oldCerr }
      let (ls, _) := flush buffer
      { s with link := s.link ++ ls.map .info ++ [.error e, .failed] }

end Himalaya.Raii
