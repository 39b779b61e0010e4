import Verif.Model.Rebase
import Verif.Spec.Inflation

/-!
# Specification vocabulary: obstacles and distances in the world
-/

namespace CostMapModel
variable {K : Type} [Field K] [LinearOrder K] [FloorRing K]

/-- The map has an obstacle in the cell whose centre is `q`. -/
def CostMap.ObstacleAt (m : CostMap K) (l : String) (q : Vec K) : Prop := ∃ i, m.getPosition i = some q ∧ m.at l i = .ok LETHAL_OBSTACLE

/-- The two positions are `a` cells apart along x and `b` cells along y, in either direction. -/
def CellsApart (resolution : K) (p q : Vec K) (a b : Nat) : Prop := |p.x - q.x| = a * resolution ∧ |p.y - q.y| = b * resolution

end CostMapModel
