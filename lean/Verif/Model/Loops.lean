import Verif.Model.MachineHistory

/-!
# Loops of a user's program

`for (CostMapIterator it(map); !it.isPastEnd(); ++it) { ... }` with a body that reads and changes the map it loops over. The iterators
hold copies of the geometry and no reference to the map (the private members in cost_map_core/include/cost_map_core/iterators), so
their state does not change when the map does.
-/

namespace CostMapModel
namespace CostMap
variable {K : Type} [Field K] [LinearOrder K] [FloorRing K]

/-- `map.at(b, *it) = f(*it, map.at(a, *it))` (cost_map.cpp 178-196). -/
def updateCell (a b : String) (f : Idx → Cost → Cost) (i : Idx) : Act (CostMap K) Unit :=
  Act.bind (Act.read fun m => m.at a i) fun v => setAt b i (f i v)

end CostMap

namespace MachineCall
variable {K : Type} [Field K] [LinearOrder K] [FloorRing K] (F : Fmt K) (rf : K → K)

/-- Several calls one after the other. -/
def runAll (cs : List (MachineCall K)) : Act (CostMap K) Unit := Act.forEach (fun c => c.run F rf) cs

end MachineCall
end CostMapModel
