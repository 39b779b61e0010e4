import Verif.Model.Occupancy
import Verif.Spec.Geometry

/-!
# Specification vocabulary: occupancy grids

How a reader of a `nav_msgs/OccupancyGrid` finds the value at a position: row-major data starting at the lower left
corner, `width` cells along x and `height` along y.
-/

namespace CostMapModel
variable {K : Type} [Field K] [LinearOrder K] [FloorRing K]

/-- The value of the occupancy grid at a position; `none` outside. -/
def OccupancyGrid.valueAt (g : OccupancyGrid K) (p : Vec K) : Option Int :=
  let col := ⌊(p.x - g.origin.x) / g.resolution⌋
  let row := ⌊(p.y - g.origin.y) / g.resolution⌋
  if 0 ≤ col ∧ col < g.width ∧ 0 ≤ row ∧ row < g.height then g.data[(row * g.width + col).toNat]? else none

/-- The occupancy value of a cost: unknown is -1, lethal 100, inscribed 99, and the costs from 0 to 252 are scaled to the
range from 0 to 98, rounding down. -/
def occupancyOf (c : Cost) : Int :=
  if c = NO_INFORMATION then -1 else if c = LETHAL_OBSTACLE then 100 else if c = INSCRIBED_OBSTACLE then 99
  else (98 * c.toNat / 252 : Nat)

/-- `p` lies inside the square of side `r` around `c`, not on its border. -/
def InsideSquare (p c : Vec K) (r : K) : Prop :=
  (c.x - r / 2 < p.x ∧ p.x < c.x + r / 2) ∧ (c.y - r / 2 < p.y ∧ p.y < c.y + r / 2)

end CostMapModel
