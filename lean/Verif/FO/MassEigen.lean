import Verif.FO.OneLoop
import Verif.Linalg.Model
import Verif.Misc.Model
import Verif.Base.Orders

/-!
# The fixed-order calculator

Models the class `MSSM_mass_eigenstates` of source/himalaya/mh2_fo/MSSM_mass_eigenstates.cpp: construction, switches, momentum
iteration, two-loop sum and the light Higgs mass.  The loop integrals (`LoopFns`) and the two-loop routines (`TwoLoopFns`) are
parameters; their models are in `Verif.PV` and `Verif.TwoLoop`.  Output (`operator<<`, log messages) is not modelled.
-/

namespace Himalaya

open FOps
open scoped Himalaya

/-- The routines of mh2l/DSZHiggs.hpp as called by `delta_mh2_2loop` (MSSM_mass_eigenstates.cpp:546-581). -/
structure TwoLoopFns (F : Type) where
  /-- `mt2 mg mst12 mst22 sxt cxt scale2 mu tanb vev2 g3 include_heavy_higgs` -/
  atAs : F → F → F → F → F → F → F → F → F → F → F → Int → Mat2 F
  /-- `mb2 mg msb12 msb22 sxb cxb scale2 mu cotb vev2 g3 include_heavy_higgs` -/
  abAs : F → F → F → F → F → F → F → F → F → F → F → Int → Mat2 F
  /-- `mt2 mb2 mA2 mst12 mst22 msb12 msb22 sxt cxt sxb cxb scale2 mu tanb vev2 include_heavy_higgs atat` -/
  atAt : F → F → F → F → F → F → F → F → F → F → F → F → F → F → F → Int → Int → Mat2 F
  /-- `mtau2 mA2 msv2 mstau12 mstau22 sxtau cxtau scale2 mu tanb vev2 include_heavy_higgs` -/
  atauAtau : F → F → F → F → F → F → F → F → F → F → F → Int → Mat2 F
  /-- `mtau2 mb2 mstau12 mstau22 msb12 msb22 sxtau cxtau sxb cxb scale2 mu tanb vev2 include_heavy_higgs` -/
  abAtau : F → F → F → F → F → F → F → F → F → F → F → F → F → F → Int → Mat2 F

/-- `enum class Momentum_iteration`; MSSM_mass_eigenstates.hpp:36 -/
inductive MomIt where | off | pert | num
deriving DecidableEq, Repr

/-- `enum class Diagonalization`; MSSM_mass_eigenstates.hpp:37 -/
inductive DiagMode where | pert | num
deriving DecidableEq, Repr

/-- data members of `MSSM_mass_eigenstates`; MSSM_mass_eigenstates.hpp:80-88 -/
structure MassEigen (F : Type) where
  pars : Params F
  masses : Spec F
  gaugeless : Spec F
  orders : Flags
  momIt : MomIt
  goal : F
  maxIt : Int
  diag : DiagMode

section
variable {F : Type} [Add F] [Sub F] [Mul F] [Div F] [Neg F] [FOps F]

/-- `make_gaugeless`; MSSM_mass_eigenstates.cpp:39-45 -/
def makeGaugeless (p : Params F) : Params F := { p with g1 := 0, g2 := 0 }

/-- `make_3rd_gen` before `validate`; MSSM_mass_eigenstates.cpp:48-74 -/
def thirdGen (nan : F) (p : Params F) : Params F :=
  { p with
    Mb := nan, Mtau := nan, MSb := ⟨nan, nan⟩, MStau := ⟨nan, nan⟩, s2b := nan, s2tau := nan, theta_b := nan, theta_tau := nan,
    Yd := fun i k => if i = 2 ∧ k = 2 then lit (1 / 10 ^ 6) else 0,
    Ye := fun i k => if i = 2 ∧ k = 2 then lit (1 / 10 ^ 6) else 0,
    Yu := fun i k => if i = 2 ∧ k = 2 then p.Yu i k else 0 }

/-- `make_3rd_gen`; MSSM_mass_eigenstates.cpp:48-79 -/
def make3rdGen (X : Ext F) (nan : F) (p : Params F) : Except String (Params F) :=
  match validate X (thirdGen nan p) with
  | (.ok _, q) => .ok q
  | (.error e, _) => .error e

/-- `eps` of the constructor; MSSM_mass_eigenstates.cpp:95 -/
def foEps : F := lit (1 / 10 ^ 10)

/-- assignments to `orders` in the constructor; MSSM_mass_eigenstates.cpp:93-131 -/
def foOrders (p : Params F) (onlyAt : Bool) : Flags :=
  let o : Flags := fun _ => 1
  let o := if lt (abs p.Mt) foEps then o.off [.G32YT4, .YT6, .YB6] else o
  let o := if lt (abs p.Mb) foEps then o.off [.G32YB4, .YT6, .YB6, .YTAU2YB4, .YTAU4YB2] else o
  let o := if lt (abs p.Mtau) foEps then o.off [.YTAU6, .YTAU2YB4, .YTAU4YB2] else o
  if onlyAt then o.off [.YB6, .YTAU6, .YTAU2YB4, .YTAU4YB2, .G32YB4] else o.off [.ONLY_AT_AS]

/-- `MSSM_mass_eigenstates(pars_, only_at)`; MSSM_mass_eigenstates.cpp:88-134, defaults of the header :84-88 -/
def massEigen (X : FExt F) (nan : F) (p : Params F) (onlyAt : Bool) : Except String (MassEigen F) :=
  let base : MassEigen F :=
    { pars := p, masses := spectrum X p, gaugeless := spectrum X (makeGaugeless p), orders := foOrders p onlyAt,
      momIt := .pert, goal := lit (1 / 10 ^ 5), maxIt := 100, diag := .pert }
  if onlyAt then
    match make3rdGen X.toExt nan (makeGaugeless p) with
    | .error e => .error e
    | .ok q =>
      let s := spectrum X q
      .ok { base with pars := makeGaugeless p, masses := { s with M2hh := ⟨0, s.M2hh.x1⟩ } }
  else .ok base

/-- `set_correction`; MSSM_mass_eigenstates.cpp:651-657 (the message for other values is not modelled) -/
def MassEigen.setCorrection (c : MassEigen F) (o : Order) (flag : Int) : MassEigen F := { c with orders := c.orders.put o flag }

/-- `set_mom_it`; MSSM_mass_eigenstates.cpp:659-667 -/
def MassEigen.setMomIt (c : MassEigen F) (mi : MomIt) (goal : F) (maxIt : Int) : MassEigen F :=
  { c with momIt := mi, goal := goal, maxIt := maxIt }

/-- `set_diagonalization`; MSSM_mass_eigenstates.cpp:669-672 -/
def MassEigen.setDiag (c : MassEigen F) (d : DiagMode) : MassEigen F := { c with diag := d }

/-- `get_mass_matrix_hh`; MSSM_mass_eigenstates.cpp:641-644, MSSM_spectrum.cpp (reads the parameters of `masses`) -/
def MassEigen.tree (c : MassEigen F) : Mat2 F := matHh c.masses.pars
/-- `get_mass_matrix_hh_gaugeless`; MSSM_mass_eigenstates.cpp:646-649 -/
def MassEigen.treeGl (c : MassEigen F) : Mat2 F := matHh c.gaugeless.pars
/-- `orders.at(ONLY_AT_AS) == 1`; MSSM_mass_eigenstates.cpp:343-344, 427-428 -/
def MassEigen.onlyAtAs (c : MassEigen F) : Bool := c.orders .ONLY_AT_AS == 1
/-- `delta_mh2_1loop(p2)` -/
def MassEigen.one (L : LoopFns F) (c : MassEigen F) (p2 : F) : Mat2 F := deltaMh1L L c.masses c.pars p2
/-- `delta_mh2_1loop_gaugeless()` -/
def MassEigen.oneGl (L : LoopFns F) (c : MassEigen F) : Mat2 F := deltaMh1LGaugeless L c.gaugeless c.pars c.onlyAtAs
/-- `delta_mh2_1loop_gaugeless_deriv()` -/
def MassEigen.deriv (L : LoopFns F) (c : MassEigen F) : Mat2 F := deltaMh1LDeriv L c.gaugeless c.pars c.onlyAtAs

/-- `delta_mh2_2loop_mom_it_pert`; MSSM_mass_eigenstates.cpp:590-604 -/
def MassEigen.momItPert (L : LoopFns F) (c : MassEigen F) : Mat2 F :=
  let d := (diagPert c.treeGl (c.oneGl L) (Mat2.const 0) (Mat2.const 0)).l1.x0
  let m := c.deriv L
  ⟨m.m00 * d, m.m01 * d, m.m10 * d, m.m11 * d⟩

/-- variables of the loop of `delta_mh2_2loop_mom_it_num` -/
structure MomState (F : Type) where
  dmh : Mat2 F
  p2 : F
  n : Nat
  conv : Bool

/-- body of the loop; MSSM_mass_eigenstates.cpp:623-632.  `M` is `p2 ↦ DMH_0L + delta_mh2_1loop(p2)`, `lam` the first eigenvalue
returned by `fs_diagonalize_hermitian`. -/
def momBody (M : F → Mat2 F) (lam : Mat2 F → F) (goal : F) (st : MomState F) : MomState F :=
  let d := M st.p2
  let m := lam d
  { dmh := d, p2 := m, n := st.n + 1, conv := Misc.isEqualRel m st.p2 goal }

/-- `while (!has_converged && n < max_iterations)`; MSSM_mass_eigenstates.cpp:622-633 -/
def momLoop (M : F → Mat2 F) (lam : Mat2 F → F) (goal : F) (max : Int) (st : MomState F) : MomState F :=
  if st.conv = false ∧ (st.n : Int) < max then momLoop M lam goal max (momBody M lam goal st) else st
termination_by (max - st.n).toNat
decreasing_by simp only [momBody]; omega

/-- `delta_mh2_2loop_mom_it_num`; MSSM_mass_eigenstates.cpp:611-639 -/
def MassEigen.momItNum (X : Ext F) (L : LoopFns F) (c : MassEigen F) (goal : F) (max : Int) : Mat2 F :=
  let m0 := c.tree
  let p0 := c.masses.M2hh.x0
  let st := momLoop (fun p2 => m0 + c.one L p2) (fun m => (fsDiag X m).1.x0) goal max ⟨Mat2.const 0, p0, 0, false⟩
  st.dmh - m0 - c.one L p0

/-- `switch (mom_it)`; MSSM_mass_eigenstates.cpp:534-543 -/
def MassEigen.momPart (X : Ext F) (L : LoopFns F) (c : MassEigen F) : Mat2 F :=
  match c.momIt with
  | .pert => c.momItPert L
  | .num => c.momItNum X L c.goal c.maxIt
  | .off => Mat2.const 0

/-- arguments of the two-loop routines; MSSM_mass_eigenstates.cpp:506-530 -/
def MassEigen.atAs (T : TwoLoopFns F) (c : MassEigen F) : Mat2 F :=
  T.atAs (pow2 c.gaugeless.MFt) c.pars.MG (pow2 c.pars.MSt.x0) (pow2 c.pars.MSt.x1) (sin c.pars.theta_t) (cos c.pars.theta_t)
    (pow2 c.pars.scale) (-c.pars.mu) (c.pars.vu / c.pars.vd) (pow2 c.pars.vu + pow2 c.pars.vd) c.pars.g3 1
/-- MSSM_mass_eigenstates.cpp:553-556 -/
def MassEigen.abAs (T : TwoLoopFns F) (c : MassEigen F) : Mat2 F :=
  T.abAs (pow2 c.gaugeless.MFb) c.pars.MG (pow2 c.pars.MSb.x0) (pow2 c.pars.MSb.x1) (sin c.pars.theta_b) (cos c.pars.theta_b)
    (pow2 c.pars.scale) (-c.pars.mu) (1 / (c.pars.vu / c.pars.vd)) (pow2 c.pars.vu + pow2 c.pars.vd) c.pars.g3 1
/-- MSSM_mass_eigenstates.cpp:560-563 -/
def MassEigen.atAt (T : TwoLoopFns F) (c : MassEigen F) : Mat2 F :=
  T.atAt (pow2 c.gaugeless.MFt) (pow2 c.gaugeless.MFb) (pow2 c.pars.MA) (pow2 c.pars.MSt.x0) (pow2 c.pars.MSt.x1)
    (pow2 c.pars.MSb.x0) (pow2 c.pars.MSb.x1) (sin c.pars.theta_t) (cos c.pars.theta_t) (sin c.pars.theta_b)
    (cos c.pars.theta_b) (pow2 c.pars.scale) (-c.pars.mu) (c.pars.vu / c.pars.vd) (pow2 c.pars.vu + pow2 c.pars.vd) 1
    (c.orders .ONLY_AT_AS)
/-- MSSM_mass_eigenstates.cpp:567-570 -/
def MassEigen.atauAtau (T : TwoLoopFns F) (c : MassEigen F) : Mat2 F :=
  T.atauAtau (pow2 c.gaugeless.MFtau) (pow2 c.pars.MA) c.gaugeless.M2SvtL (pow2 c.pars.MStau.x0) (pow2 c.pars.MStau.x1)
    (sin c.pars.theta_tau) (cos c.pars.theta_tau) (pow2 c.pars.scale) (-c.pars.mu) (c.pars.vu / c.pars.vd)
    (pow2 c.pars.vu + pow2 c.pars.vd) 1
/-- MSSM_mass_eigenstates.cpp:574-578 -/
def MassEigen.abAtau (T : TwoLoopFns F) (c : MassEigen F) : Mat2 F :=
  T.abAtau (pow2 c.gaugeless.MFtau) (pow2 c.gaugeless.MFb) (pow2 c.pars.MStau.x0) (pow2 c.pars.MStau.x1) (pow2 c.pars.MSb.x0)
    (pow2 c.pars.MSb.x1) (sin c.pars.theta_tau) (cos c.pars.theta_tau) (sin c.pars.theta_b) (cos c.pars.theta_b)
    (pow2 c.pars.scale) (-c.pars.mu) (c.pars.vu / c.pars.vd) (pow2 c.pars.vu + pow2 c.pars.vd) 1

/-- `delta_mh2_2loop`; MSSM_mass_eigenstates.cpp:502-583 -/
def MassEigen.two (X : Ext F) (L : LoopFns F) (T : TwoLoopFns F) (c : MassEigen F) : Mat2 F :=
  let dmh := Mat2.const 0 + c.momPart X L
  let dmh := if c.orders .G32YT4 ≠ 0 then dmh + c.atAs T else dmh
  let dmh := if c.orders .G32YB4 ≠ 0 then dmh + c.abAs T else dmh
  let dmh := if c.orders .YT6 ≠ 0 then dmh + c.atAt T else dmh
  let dmh := if c.orders .YTAU6 ≠ 0 then dmh + c.atauAtau T else dmh
  if c.orders .YTAU2YB4 ≠ 0 ∨ c.orders .YTAU4YB2 ≠ 0 then dmh + c.abAtau T else dmh

/-- `calculate_Mh2_tree`; MSSM_mass_eigenstates.cpp:140-146 -/
def MassEigen.mh2Tree (c : MassEigen F) : F := (diagPert c.tree (Mat2.const 0) (Mat2.const 0) (Mat2.const 0)).l0.x0

/-- `calculate_Mh2`; MSSM_mass_eigenstates.cpp:155-188 -/
def MassEigen.calculateMh2 (X : Ext F) (L : LoopFns F) (T : TwoLoopFns F) (c : MassEigen F) : F × F × F :=
  let p2 := c.mh2Tree
  let m0 := c.tree
  let m1 := c.one L p2
  let m2 := c.two X L T
  match c.diag with
  | .pert =>
    let a := diagPert m0 m1 (Mat2.const 0) (Mat2.const 0)
    let b := diagPert c.treeGl (c.oneGl L) m2 (Mat2.const 0)
    (a.l0.x0, a.l1.x0, b.l2.x0)
  | .num =>
    let a := (fsDiag X m0).1.x0
    let b := (fsDiag X (m0 + m1)).1.x0
    let d := (fsDiag X (m0 + m1 + m2)).1.x0
    (a, b - a, d - b)

end
end Himalaya
