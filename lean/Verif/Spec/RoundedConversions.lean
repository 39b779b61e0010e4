import Verif.Spec.Rounded
import Verif.Spec.Occupancy

/-!
# Specification vocabulary for conversions in floating point
-/

namespace CostMapModel
variable {K : Type} [Field K] [LinearOrder K] [FloorRing K]

/-- The value a reader of an occupancy grid finds at a position when it rounds its own computations with `rq` (`id`: a reader
that computes exactly); `none` outside. -/
def OccupancyGrid.valueAtRd (rq : K → K) (g : OccupancyGrid K) (p : Vec K) : Option Int :=
  let col := ⌊rq (rq (p.x - g.origin.x) / g.resolution)⌋
  let row := ⌊rq (rq (p.y - g.origin.y) / g.resolution)⌋
  if 0 ≤ col ∧ col < g.width ∧ 0 ≤ row ∧ row < g.height then g.data[(row * g.width + col).toNat]? else none

namespace CostMap

/-- The centre of the square of cell `i`, computed exactly. -/
def idealCentre (m : CostMap K) (i : Idx) : Vec K :=
  ⟨m.position.x + ((m.size.x : K) / 2 - i.x - 1 / 2) * m.resolution, m.position.y + ((m.size.y : K) / 2 - i.y - 1 / 2) * m.resolution⟩

/-- How far the borders of the cells of an occupancy grid can be from those of the map on an axis: rounding in `double`, and a
resolution that was rounded to `float`. -/
def gridTolX (m : CostMap K) : K := m.tolX + m.size.x * m.resolution / 2 ^ 24
/-- The same on the other axis. -/
def gridTolY (m : CostMap K) : K := m.tolY + m.size.y * m.resolution / 2 ^ 24

end CostMap
end CostMapModel
