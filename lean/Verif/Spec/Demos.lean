import Verif.Spec.Costmap2D
import Verif.Model.Demos

/-!
# Specification vocabulary: the demo costmaps
-/

namespace CostMapModel
namespace Costmap2D
variable {K : Type} [Field K] [LinearOrder K] [FloorRing K]

/-- The cost of the cell in column `x` and row `y`, counted from the lower left corner; `none` outside. -/
def cellCost (c : Costmap2D K) (x y : Nat) : Option Cost :=
  if x < c.sizeX ∧ y < c.sizeY then c.costs[y * c.sizeX + x]? else none

/-- The costs are in stripes along `y`: a row is like any other. -/
def Striped (c : Costmap2D K) : Prop :=
  ∀ x y y', y < c.sizeY → y' < c.sizeY → c.cellCost x y = c.cellCost x y'

/-- Each stripe but the last two is higher than the one before. -/
def Increasing (c : Costmap2D K) : Prop :=
  ∀ x x' y v v', x < x' → x' + 2 < c.sizeX → c.cellCost x y = some v → c.cellCost x' y = some v' → v < v'

end Costmap2D
end CostMapModel
