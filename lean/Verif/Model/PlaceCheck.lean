import Verif.Model.Rebase
import Verif.Model.MachineMerge

/-!
# A program that checks whether a robot fits at a place

The usual use of an inflated layer: the cost of the cell the robot's centre is in is compared with a threshold (the inscribed cost),
`map.atPosition(layer, position) < threshold`.
-/

namespace CostMapModel
open CostMap
variable {K : Type} [Field K] [LinearOrder K] [FloorRing K]

/-- The program (`atPosition`: cost_map.cpp 161-168). -/
def placeClear (m : CostMap K) (l : String) (threshold : Cost) (p : Vec K) : Res Bool :=
  (m.atPosition l p).bind fun c => .ok (decide (c < threshold))

/-- The program on the machine (cost_map.cpp 161-168). -/
def placeClearI (rd : K → K) (m : CostMap K) (l : String) (threshold : Cost) (p : Vec K) : Res Bool :=
  (m.atPositionI rd l p).bind fun c => .ok (decide (c < threshold))

end CostMapModel
