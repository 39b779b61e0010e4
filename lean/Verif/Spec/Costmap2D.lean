import Verif.Model.Costmap2D

/-!
# Specification vocabulary: ROS costmaps
-/

namespace CostMapModel
namespace Costmap2D
variable {K : Type} [Field K] [LinearOrder K] [FloorRing K]

/-- A usable costmap: positive resolution, at least one cell, as many costs as cells. -/
structure Ok (c : Costmap2D K) : Prop where
  res : 0 < c.resolution
  size_x : 0 < c.sizeX
  size_y : 0 < c.sizeY
  costs : c.costs.length = c.sizeX * c.sizeY

/-- The cost of a ROS costmap at a position; `none` outside. The cell in column `col` and row `row`, counted from the lower left
corner, holds the cost number `row * sizeX + col`. -/
def costAt (c : Costmap2D K) (p : Vec K) : Option Cost :=
  let col := ⌊(p.x - c.origin.x) / c.resolution⌋
  let row := ⌊(p.y - c.origin.y) / c.resolution⌋
  if 0 ≤ col ∧ col < c.sizeX ∧ 0 ≤ row ∧ row < c.sizeY then c.costs[(row * c.sizeX + col).toNat]? else none

end Costmap2D
end CostMapModel
