import Verif.Model.History
import Verif.Model.MachineMerge

/-!
# Many maps merged into one

A program that keeps a map and merges others into it, one after the other:
`for (const auto& other : others) map.addDataFrom(other, false, overwrite, false, layers);` (cost_map.cpp 401-431).
-/

namespace CostMapModel
namespace CostMap
variable {K : Type} [Field K] [LinearOrder K] [FloorRing K]

/-- The loop, on `addDataFrom` (cost_map.cpp 401-431). -/
def mergeAll (overwrite : Bool) (ls : List String) (others : List (CostMap K)) : Act (CostMap K) Unit :=
  Act.forEach (fun o => Call.discard (addDataFrom o false overwrite false ls)) others

/-- The loop, on the machine's `addDataFrom` (cost_map.cpp 401-431). -/
def mergeAllI (rd : K → K) (overwrite : Bool) (ls : List String) (others : List (CostMap K)) : Act (CostMap K) Unit :=
  Act.forEach (fun o => Call.discard (addDataFromI rd o false overwrite false ls)) others

end CostMap
end CostMapModel
