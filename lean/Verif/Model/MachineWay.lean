import Verif.Model.WayCheck
import Verif.Model.MachineLine

/-!
# The program that checks a straight way, on the machine

The same program as in `Model/WayCheck`, with the line iterator in `double` and `int` arithmetic (line_iterator.cpp 16-24, 61-175).
-/

namespace CostMapModel
open CostMap
variable {K : Type} [Field K] [LinearOrder K] [FloorRing K]

/-- The program (line_iterator.cpp 16-24, 61-71, cost_map.cpp 205-213). Reading an iterator whose members were never initialised is
undefined. The fuel is for the search of the constructor. -/
def wayClearI (rd sqrt : K → K) (fuel : Nat) (m : CostMap K) (l : String) (threshold : Cost) (a b : Vec K) : Res Bool :=
  (LineIter.ofPositionsI rd sqrt fuel m a b).bind fun it =>
    match it with
    | none => .ub
    | some it =>
      match Act.forIter LineIter.opsI (wayCell m l threshold) (m.size.x.toNat + m.size.y.toNat + 2) it true with
      | (.ok _, clear) => .ok clear
      | (.thrown e, _) => .thrown e
      | (.assertFail, _) => .assertFail
      | (.ub, _) => .ub
      | (.outOfFuel, _) => .outOfFuel

end CostMapModel
