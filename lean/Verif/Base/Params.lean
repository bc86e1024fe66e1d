import Verif.Base.FOps
import Verif.Base.Mat

/-!
# Model of `himalaya::Parameters`
-/

namespace Himalaya

/-- `struct Parameters`; include/himalaya/Himalaya_interface.hpp:34-77 (all data members). -/
structure Params (F : Type) where
  scale : F
  mu : F
  g1 : F
  g2 : F
  g3 : F
  vd : F
  vu : F
  mq2 : Mat3 F
  md2 : Mat3 F
  mu2 : Mat3 F
  ml2 : Mat3 F
  me2 : Mat3 F
  Au : Mat3 F
  Ad : Mat3 F
  Ae : Mat3 F
  Yu : Mat3 F
  Yd : Mat3 F
  Ye : Mat3 F
  M1 : F
  M2 : F
  MG : F
  MW : F
  MZ : F
  Mt : F
  Mb : F
  Mtau : F
  MA : F
  MSt : Vec2 F
  MSb : Vec2 F
  MStau : Vec2 F
  s2t : F
  s2b : F
  s2tau : F
  theta_t : F
  theta_b : F
  theta_tau : F
  massLimit3LThreshold : Int

/-- `m(2,2) = x` -/
def Mat3.set22 {F : Type} (m : Mat3 F) (x : F) : Mat3 F := fun i j => if i = 2 ∧ j = 2 then x else m i j

end Himalaya
