import Verif.Model.WayCheck
import Verif.Model.Iterators

/-!
# Programs that check a footprint cell by cell

    for (cost_map::CircleIterator it(map, centre, radius); !it.isPastEnd(); ++it)
      if (map.at(layer, *it) >= threshold) return false;
    return true;

and the same with a polygon iterator (circle_iterator.cpp 16-93, polygon_iterator.cpp 16-91, `at`: cost_map.cpp 196-213).
-/

namespace CostMapModel
open CostMap
variable {K : Type} [Field K] [LinearOrder K] [FloorRing K]

/-- The loop, once the iterator is made (circle_iterator.cpp 45-70). The body is that of `wayCell`. The fuel is more than the number of cells. -/
def shapeClear (m : CostMap K) (l : String) (threshold : Cost) (it : Res (ShapeIter K)) : Res Bool :=
  it.bind fun it =>
    match Act.forIter ShapeIter.ops (wayCell m l threshold) (m.size.x.toNat * m.size.y.toNat + 1) it true with
    | (.ok _, clear) => .ok clear
    | (.thrown e, _) => .thrown e
    | (.assertFail, _) => .assertFail
    | (.ub, _) => .ub
    | (.outOfFuel, _) => .outOfFuel

/-- With a circle iterator (circle_iterator.cpp 16-93). -/
def circleClear (m : CostMap K) (l : String) (threshold : Cost) (center : Vec K) (radius : K) : Res Bool :=
  shapeClear m l threshold (circleIter m center radius)

/-- With a polygon iterator (polygon_iterator.cpp 16-91). -/
def polygonClear (m : CostMap K) (l : String) (threshold : Cost) (vs : List (Vec K)) : Res Bool :=
  shapeClear m l threshold (polygonIter m vs)

end CostMapModel
