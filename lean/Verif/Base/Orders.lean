/-!
# Coupling orders

Models `enum CouplingOrders` of source/himalaya/misc/CouplingOrders.hpp:18-44 and the arrays of flags indexed by it.
-/

namespace Himalaya

/-- `CouplingOrders::CouplingOrders`; misc/CouplingOrders.hpp:20-44 (without the terminating counter) -/
inductive Order where
  | G12G22 | G14 | G24 | G12YB2 | G22YB2 | YB4 | G12YTAU2 | G22YTAU2 | YTAU4 | G12YT2 | G22YT2 | YT4
  | G32YB4 | YB6 | YT6 | YTAU2YB4 | YTAU2YT4 | YTAU6 | YT2YB4 | G32YT4 | YB2YT4 | YTAU4YB2 | ONLY_AT_AS
deriving DecidableEq, Repr

/-- `std::array<int, NUMBER_OF_COUPLING_ORDERS>`, indexed with `at` -/
abbrev Flags := Order → Int

/-- `orders.at(o) = v` -/
def Flags.put (f : Flags) (o : Order) (v : Int) : Flags := fun x => if x = o then v else f x

/-- a sequence of assignments `orders.at(o) = 0` -/
def Flags.off (f : Flags) (l : List Order) : Flags := l.foldl (fun g o => g.put o 0) f

@[simp] theorem Flags.put_same (f : Flags) (o : Order) (v : Int) : f.put o v o = v := by simp [Flags.put]
theorem Flags.put_other (f : Flags) {o x : Order} (v : Int) (h : x ≠ o) : f.put o v x = f x := by simp [Flags.put, h]

theorem Flags.off_apply (f : Flags) (l : List Order) (x : Order) : f.off l x = if x ∈ l then 0 else f x := by
  unfold Flags.off
  induction l generalizing f with
  | nil => simp
  | cons o l ih =>
    rw [List.foldl_cons, ih]
    by_cases hx : x ∈ l
    · simp [hx]
    · by_cases ho : x = o
      · simp [ho, Flags.put]
      · simp [hx, ho, Flags.put]

end Himalaya
