/-!
# Threads calling the two-loop routines

Models source/himalaya/mh2l/DSZHiggs.cpp: the mutex around the Fortran routines of DSZHiggs.f which use the COMMON block `listderiv`.
Every thread runs an arbitrary list of calls; the scheduler interleaves single memory accesses in any order.

Trusted reading of DSZHiggs.f: `common/listderiv/` is the only variable that outlives a call (no other COMMON, no SAVE, no
initialised locals); only `makefuncs`, `makederiv` and the unused `F1q` ... `FAq` access it, and `makefuncs` is called only from
`DDSHiggs`, `DDSodd` and the unused `DDStad`.
-/

namespace Himalaya.Conc

/-- the 38 variables of `common/listderiv/`; mh2l/DSZHiggs.f:492-497 -/
abbrev Key := Fin 38

/-- Single steps of a thread on shared memory (`V` values, `L` local variables). -/
inductive Instr (V L : Type) where
  /-- constructor of `std::lock_guard` -/
  | lock
  /-- destructor of `std::lock_guard` -/
  | unlock
  /-- assignment to a COMMON variable -/
  | store (k : Key) (v : L → V)
  /-- reading a COMMON variable -/
  | load (k : Key) (f : V → L → L)
  /-- computation with local variables only -/
  | upd (f : L → L)

/-- remaining code and local variables -/
structure Thread (V L : Type) where
  code : List (Instr V L)
  loc : L

/-- the mutex `mtx` (mh2l/DSZHiggs.cpp:29), the COMMON block, the threads -/
structure State (ι V L : Type) where
  owner : Option ι
  common : Key → V
  threads : ι → Thread V L

section
variable {ι V L : Type} [DecidableEq ι]

/-- replace one entry -/
def update {α : Type} {β : Type} [DecidableEq α] (f : α → β) (a : α) (b : β) : α → β := fun x => if x = a then b else f x

/-- One step of thread `i`.  `lock` blocks while the mutex is owned (also by the same thread: `std::mutex` is not recursive). -/
inductive Step : State ι V L → ι → State ι V L → Prop where
  | lock {s : State ι V L} {i rest loc} : s.threads i = ⟨.lock :: rest, loc⟩ → s.owner = none →
      Step s i ⟨some i, s.common, update s.threads i ⟨rest, loc⟩⟩
  | unlock {s : State ι V L} {i rest loc} : s.threads i = ⟨.unlock :: rest, loc⟩ → s.owner = some i →
      Step s i ⟨none, s.common, update s.threads i ⟨rest, loc⟩⟩
  | store {s : State ι V L} {i k v rest loc} : s.threads i = ⟨.store k v :: rest, loc⟩ →
      Step s i ⟨s.owner, update s.common k (v loc), update s.threads i ⟨rest, loc⟩⟩
  | load {s : State ι V L} {i k f rest loc} : s.threads i = ⟨.load k f :: rest, loc⟩ →
      Step s i ⟨s.owner, s.common, update s.threads i ⟨rest, f (s.common k) loc⟩⟩
  | upd {s : State ι V L} {i f rest loc} : s.threads i = ⟨.upd f :: rest, loc⟩ →
      Step s i ⟨s.owner, s.common, update s.threads i ⟨rest, f loc⟩⟩

/-- states reachable under any schedule -/
inductive Reachable (s₀ : State ι V L) : State ι V L → Prop where
  | init : Reachable s₀ s₀
  | step {s i s'} : Reachable s₀ s → Step s i s' → Reachable s₀ s'

end

/-! ### The calls -/

/-- The Fortran routines as computations.  `A` arguments, `R` results (`double` or the three matrix elements), `V` double. -/
structure Routines (V A R : Type) where
  /-- value computed by `makederiv` for a COMMON variable; mh2l/DSZHiggs.f:607-3914 -/
  deriv : A → Key → V
  /-- the argument list of the first call of `makederiv` (top and bottom exchanged); mh2l/DSZHiggs.f:504-505 -/
  swap : A → A
  /-- the assignments to the arguments at the beginning of `DDSHiggs` and `DDSodd`; mh2l/DSZHiggs.f:57-137, 216-296 -/
  guards : A → A
  /-- the rest of `makefuncs` and `DDSHiggs`, from the fifteen saved and the 38 current values; mh2l/DSZHiggs.f:526-598, 139-185 -/
  higgs : A → (Key → V) → (Key → V) → R
  /-- the rest of `makefuncs` and `DDSodd`; mh2l/DSZHiggs.f:526-598, 298-326 -/
  odd : A → (Key → V) → (Key → V) → R
  /-- the other routines (`dszhiggs_`, `dszodd_`, `tausqhiggs_`, `tausqodd_`, `taubot_`, `taubotodd_`), called without lock -/
  other : Nat → A → R
  /-- `result + rotate_by(dMA, tanb)`; mh2l/DSZHiggs.cpp:320 -/
  combine : A → R → R → R
  /-- result of `delta_mh2_2loop_at_at` without heavy Higgs (`dMA = 0`) -/
  alone : A → R → R
  zero : V

/-- the COMMON variables copied to local variables after the first call of `makederiv`: `D1t, DT1, DT2, Dc2t, DT1T1, DT2T2, Dtt,
Dc2tc2t, DT1t, DT2t, DT1T2, Dtc2t, DT1c2t, DT2c2t` and `Dbc2t` (number 23); mh2l/DSZHiggs.f:507-521 -/
def saved : List Key := [0, 1, 2, 3, 4, 5, 6, 7, 8, 9, 10, 11, 12, 13, 23]

/-- local variables of a thread: arguments (the C++ parameters are passed by address, so the routines change them), the copies of
COMMON variables, intermediate result, results of the finished calls -/
structure Loc (V A R : Type) where
  args : A
  first : Key → V
  second : Key → V
  tmp : Option R
  results : List R

/-- public functions of mh2l/DSZHiggs.cpp -/
inductive Call (A : Type) where
  /-- `delta_mh2_2loop_at_at` -/
  | atAt (args : A) (heavy : Bool)
  /-- `delta_ma2_2loop_at_at` -/
  | maAtAt (args : A)
  /-- any of the functions using routine number `n` of the unprotected ones -/
  | unprotected (n : Nat) (args : A)

section
variable {V A R : Type} (X : Routines V A R)

/-- all keys in order -/
def allKeys : List Key := List.finRange 38

/-- `call makederiv`: assigns all 38 variables (from line 1416 on) -/
def makederiv (sw : Bool) : List (Instr V (Loc V A R)) :=
  allKeys.map fun k => .store k fun l => X.deriv (if sw then X.swap l.args else l.args) k

/-- `makefuncs`: first derivatives, copies, second derivatives, and their use; mh2l/DSZHiggs.f:504-598 -/
def makefuncs : List (Instr V (Loc V A R)) :=
  makederiv X true
  ++ saved.map (fun k => .load k fun v l => { l with first := fun j => if j = k then v else l.first j })
  ++ makederiv X false
  ++ allKeys.map (fun k => .load k fun v l => { l with second := fun j => if j = k then v else l.second j })

/-- `ddshiggs_` -/
def ddshiggs : List (Instr V (Loc V A R)) :=
  [.upd fun l => { l with args := X.guards l.args, first := fun _ => X.zero, second := fun _ => X.zero }]
  ++ makefuncs X ++ [.upd fun l => { l with tmp := some (X.higgs l.args l.first l.second) }]

/-- `ddsodd_`, followed by what the caller does with `DMA` -/
def ddsodd (use : A → Option R → R → R) : List (Instr V (Loc V A R)) :=
  [.upd fun l => { l with args := X.guards l.args, first := fun _ => X.zero, second := fun _ => X.zero }]
  ++ makefuncs X ++ [.upd fun l => { l with tmp := some (use l.args l.tmp (X.odd l.args l.first l.second)) }]

/-- `return`: the value is appended to the list of results -/
def finish : List (Instr V (Loc V A R)) := [.upd fun l => match l.tmp with
  | some r => { l with results := l.results ++ [r], tmp := none }
  | none => l]

/-- the code of a call: `delta_mh2_2loop_at_at` mh2l/DSZHiggs.cpp:290-321, `delta_ma2_2loop_at_at` lines 249-265, the others without
lock -/
def callCode : Call A → List (Instr V (Loc V A R))
  | .atAt a heavy =>
    [.upd fun l => { l with args := a, tmp := none }]
    ++ [.lock] ++ ddshiggs X ++ [.unlock]
    ++ (if heavy then
          [.lock] ++ ddsodd X (fun a r d => match r with
            | some r => X.combine a r d
            | none => d) ++ [.unlock]
        else [.upd fun l => { l with tmp := l.tmp.map (X.alone l.args) }])
    ++ finish
  | .maAtAt a =>
    [.upd fun l => { l with args := a, tmp := none }] ++ [.lock] ++ ddsodd X (fun _ _ d => d) ++ [.unlock] ++ finish
  | .unprotected n a => [.upd fun l => { l with args := a, tmp := some (X.other n a) }] ++ finish

/-- a thread running a list of calls -/
def threadOf (a : A) (cs : List (Call A)) : Thread V (Loc V A R) :=
  ⟨(cs.map (callCode X)).flatten, ⟨a, fun _ => X.zero, fun _ => X.zero, none, []⟩⟩

/-- program start: the COMMON block contains anything -/
def start {ι : Type} (junk : Key → V) (a : A) (calls : ι → List (Call A)) : State ι V (Loc V A R) :=
  ⟨none, junk, fun i => threadOf X a (calls i)⟩

end

end Himalaya.Conc
