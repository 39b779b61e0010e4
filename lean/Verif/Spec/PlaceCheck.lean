import Verif.Model.PlaceCheck
import Verif.Spec.WayCheck
import Verif.Spec.MachineWay

/-!
# Specification vocabulary: a round robot among obstacles
-/

namespace CostMapModel
variable {K : Type} [Field K] [LinearOrder K] [FloorRing K]

/-- `o` is a point of the round robot of radius `ρ` whose centre is at `p`. -/
def UnderRobot (ρ : K) (p o : Vec K) : Prop := (o.x - p.x) ^ 2 + (o.y - p.y) ^ 2 ≤ ρ ^ 2

/-- No point of the round robot at `p` is in a lethal cell of the map (points outside of the map do not count). -/
def CostMap.RobotFits (m : CostMap K) (l : String) (ρ : K) (p : Vec K) : Prop :=
  ∀ o, UnderRobot ρ p o → m.atPosition l o ≠ .ok LETHAL_OBSTACLE

/-- On the machine: no point of the round robot at `p` that is clearly inside the map reads a lethal cost. -/
def CostMap.RobotFitsI (rd : K → K) (m : CostMap K) (l : String) (ρ : K) (p : Vec K) : Prop :=
  ∀ o, UnderRobot ρ p o → m.Clearly rd o → m.atPositionI rd l o ≠ .ok LETHAL_OBSTACLE

end CostMapModel
