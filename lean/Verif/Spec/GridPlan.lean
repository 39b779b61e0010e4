import Verif.Spec.Occupancy
import Verif.Spec.RoundedConversions

/-!
# Specification vocabulary: planning with an occupancy grid
-/

namespace CostMapModel
variable {K : Type} [Field K] [LinearOrder K] [FloorRing K]

/-- The grid says that the centre of the robot may be at `p`: its value there is known and below that of inscribed cells. -/
def OccupancyGrid.SaysFree (g : OccupancyGrid K) (p : Vec K) : Prop := ∃ v, g.valueAt p = some v ∧ 0 ≤ v ∧ v < 99

/-- The same for a reader that computes in floating point. -/
def OccupancyGrid.SaysFreeRd (rq : K → K) (g : OccupancyGrid K) (p : Vec K) : Prop := ∃ v, g.valueAtRd rq p = some v ∧ 0 ≤ v ∧ v < 99

end CostMapModel
