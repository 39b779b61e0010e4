import Verif.Model.Footprint
import Verif.Model.MachineShapes

/-!
# The programs that check a footprint cell by cell, on the machine

The programs of `Model/Footprint`, with the iterators in `double` and `int` arithmetic.
-/

namespace CostMapModel
open CostMap
variable {K : Type} [Field K] [LinearOrder K] [FloorRing K]

/-- The loop, once the iterator is made (circle_iterator.cpp 45-70, cost_map.cpp 205-213). -/
def shapeClearI (rd : K → K) (m : CostMap K) (l : String) (threshold : Cost) (it : Res (ShapeIter K)) : Res Bool :=
  it.bind fun it =>
    match Act.forIter (ShapeIter.opsI rd) (wayCell m l threshold) (m.size.x.toNat * m.size.y.toNat + 1) it true with
    | (.ok _, clear) => .ok clear
    | (.thrown e, _) => .thrown e
    | (.assertFail, _) => .assertFail
    | (.ub, _) => .ub
    | (.outOfFuel, _) => .outOfFuel

/-- With a circle iterator (circle_iterator.cpp 16-93). -/
def circleClearI (rd : K → K) (m : CostMap K) (l : String) (threshold : Cost) (center : Vec K) (radius : K) : Res Bool :=
  shapeClearI rd m l threshold (circleIterI rd m center radius)

/-- With a polygon iterator (polygon_iterator.cpp 16-91). -/
def polygonClearI (rd : K → K) (m : CostMap K) (l : String) (threshold : Cost) (vs : List (Vec K)) : Res Bool :=
  shapeClearI rd m l threshold (polygonIterI rd m vs)

end CostMapModel
