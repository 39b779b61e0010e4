import Verif.Spec.PlaceCheck
import Verif.Spec.RoundedCostmap2D

/-!
# Specification vocabulary: a robot in a ROS costmap
-/

namespace CostMapModel
namespace Costmap2D
variable {K : Type} [Field K] [LinearOrder K] [FloorRing K]

/-- The position lies in the cell in column `col` and row `row`, or on its border. -/
def InCell (c : Costmap2D K) (col row : Nat) (x : Vec K) : Prop :=
  |x.x - (c.cellCentre col row).x| ≤ c.resolution / 2 ∧ |x.y - (c.cellCentre col row).y| ≤ c.resolution / 2

/-- No point of the round robot of radius `ρ` at `p` lies in a lethal cell of the ROS costmap or on its border. -/
def RobotFits (c : Costmap2D K) (ρ : K) (p : Vec K) : Prop :=
  ∀ col row, c.cell col row = some LETHAL_OBSTACLE → ∀ x, UnderRobot ρ p x → ¬ c.InCell col row x

/-- The position lies inside the ROS costmap, at least `δ` from its edges. -/
def WellInside (c : Costmap2D K) (δ : K) (p : Vec K) : Prop :=
  (c.origin.x + δ ≤ p.x ∧ p.x ≤ c.origin.x + c.sizeX * c.resolution - δ) ∧
  (c.origin.y + δ ≤ p.y ∧ p.y ≤ c.origin.y + c.sizeY * c.resolution - δ)

/-- The position lies inside the ROS costmap, not on its edges. -/
def StrictlyInside (c : Costmap2D K) (p : Vec K) : Prop :=
  (c.origin.x < p.x ∧ p.x < c.origin.x + c.sizeX * c.resolution) ∧
  (c.origin.y < p.y ∧ p.y < c.origin.y + c.sizeY * c.resolution)

end Costmap2D
end CostMapModel
