import Verif.Model.Inflation
import Verif.Model.History
import Verif.Model.MachineMerge

/-!
# A copy of a map whose buffer starts at zero

The library has no call that undoes the wrapping of the buffer that `move` leaves behind. A program that needs a map with start index zero
(for the inflation and the line iterator, which work on buffer indices) makes a copy with the calls there are:
`CostMap copy; copy.setGeometry(map.getLength(), map.getResolution(), map.getPosition()); copy.addDataFrom(map, false, true, true);`
-/

namespace CostMapModel
namespace CostMap
variable {K : Type} [Field K] [LinearOrder K] [FloorRing K]

/-- The program (constructors: cost_map.cpp 19-37; `setGeometry`: 43-62; `addDataFrom`: 401-431).
The second component is the copy. -/
def rebase (m : CostMap K) : Res Unit × CostMap K :=
  Act.bind (setGeometry m.length m.resolution m.position) (fun _ => Call.discard (addDataFrom m false true true [])) (CostMap.new [])

/-- The program on the machine (the same lines). -/
def rebaseI (rd : K → K) (m : CostMap K) : Res Unit × CostMap K :=
  Act.bind (setGeometryI rd m.length m.resolution m.position) (fun _ => Call.discard (addDataFromI rd m false true true [])) (CostMap.new [])

end CostMap
end CostMapModel
