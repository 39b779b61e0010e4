import Verif.Model.MachineWay
import Verif.Spec.MachineLine
import Verif.Spec.Inflation

/-!
# Specification vocabulary: straight ways on the machine
-/

namespace CostMapModel
variable {K : Type} [Field K] [LinearOrder K] [FloorRing K]

/-- The position passes the inside test and is clear of the lower edges of the map by the tolerance (the edges where reading a cost is
undefined behaviour, D30). -/
structure CostMap.Clearly (rd : K → K) (m : CostMap K) (p : Vec K) : Prop where
  inside : m.isInsideRd rd p = true
  x : m.position.x - m.length.x / 2 + m.tolX ≤ p.x
  y : m.position.y - m.length.y / 2 + m.tolY ≤ p.y

end CostMapModel
