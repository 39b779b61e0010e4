import Verif.Model.Merge

/-!
# Programs that take the obstacles of another map over before they plan

    map.addDataFrom(other, false, overwrite, false, {layer});
    return rest(map);
-/

namespace CostMapModel
open CostMap
variable {K : Type} [Field K] [LinearOrder K] [FloorRing K]

/-- One layer of another map is merged into the map, which is then looked at (cost_map.cpp 401-431). -/
def fused (other : CostMap K) (overwrite : Bool) (l : String) (rest : CostMap K → Res Bool) (m : CostMap K) : Res Bool :=
  match addDataFrom other false overwrite false [l] m with
  | (.ok _, m') => rest m'
  | (.thrown e, _) => .thrown e
  | (.assertFail, _) => .assertFail
  | (.ub, _) => .ub
  | (.outOfFuel, _) => .outOfFuel

end CostMapModel
