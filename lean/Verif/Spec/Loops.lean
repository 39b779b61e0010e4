import Verif.Model.Loops
import Verif.Spec.MachineHistory

/-!
# Specification vocabulary: loops of a user's program
-/

namespace CostMapModel
variable {K : Type}

/-- The calls that do not change the number of cells. -/
def MachineCall.KeepsCells : MachineCall K → Prop
  | .plain _ | .setAtPosition _ _ _ | .move _ | .inflate _ _ _ _ _ _ _ | .addLayerFromImage _ _ _ => True
  | .addDataFrom _ extend _ _ _ => extend = false
  | .setGeometry _ _ _ | .extendToInclude _ | .fromMessage _ | .fromImageBundle _ _ | .fromCostmap _ _
  | .fromCostmapAtRobot _ _ _ => False

end CostMapModel
