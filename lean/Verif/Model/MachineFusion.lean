import Verif.Model.Fusion
import Verif.Model.MachineMerge

/-!
# The program that takes the obstacles of another map over, on the machine
-/

namespace CostMapModel
open CostMap
variable {K : Type} [Field K] [LinearOrder K] [FloorRing K]

/-- One layer of another map is merged into the map, which is then looked at (cost_map.cpp 401-431). -/
def fusedI (rd : K → K) (other : CostMap K) (overwrite : Bool) (l : String) (rest : CostMap K → Res Bool) (m : CostMap K) : Res Bool :=
  match addDataFromI rd other false overwrite false [l] m with
  | (.ok _, m') => rest m'
  | (.thrown e, _) => .thrown e
  | (.assertFail, _) => .assertFail
  | (.ub, _) => .ub
  | (.outOfFuel, _) => .outOfFuel

end CostMapModel
