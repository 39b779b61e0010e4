import Verif.Model.Occupancy
import Verif.Model.MachineConversions
import Verif.Model.MachineInflation
import Verif.Model.Inflation
import Verif.Model.Rebase

/-!
# A program that publishes an inflated layer as an occupancy grid

    inflate(source, destination, radius, computer, map);
    cost_map::toOccupancyGrid(map, destination, message);
    publisher.publish(message);
-/

namespace CostMapModel
open CostMap Inflation
variable {K : Type} [Field K] [LinearOrder K] [FloorRing K]

/-- The message that is published; `old` is the data it held before (inflation.cpp 18-64, converter.cpp 245-297). -/
def inflatedGrid (rf : K → K) (pop : Pop K) (hyp : Nat → Nat → K) (ls ld : String) (radius : K) (computer : K → Cost) (o : Inflater K) (old : List Int)
    (m : CostMap K) : Res (OccupancyGrid K) :=
  match inflate pop hyp ls ld radius computer ⟨o, m, []⟩ with
  | (.ok _, st) => st.map.toOccupancyGrid rf ld old
  | (.thrown e, _) => .thrown e
  | (.assertFail, _) => .assertFail
  | (.ub, _) => .ub
  | (.outOfFuel, _) => .outOfFuel

/-- The program that first makes a copy whose buffer starts at zero, with the frame and the time of the map
(cost_map.cpp 43-62 and 401-431; `setTimestamp`: 505-508; `setFrameId`: 520-523). -/
def copiedGrid (rf : K → K) (pop : Pop K) (hyp : Nat → Nat → K) (ls ld : String) (radius : K) (computer : K → Cost) (o : Inflater K) (old : List Int)
    (m : CostMap K) : Res (OccupancyGrid K) :=
  match rebase m with
  | (.ok _, n) => inflatedGrid rf pop hyp ls ld radius computer o old ((n.setFrameId m.frameId).setTimestamp m.timestamp)
  | (.thrown e, _) => .thrown e
  | (.assertFail, _) => .assertFail
  | (.ub, _) => .ub
  | (.outOfFuel, _) => .outOfFuel

/-- The same on the machine. -/
def inflatedGridI (F : Fmt K) (rf : K → K) (pop : Pop K) (hyp : Nat → Nat → K) (ls ld : String) (radius : K) (computer : K → Cost) (o : Inflater K)
    (old : List Int) (m : CostMap K) : Res (OccupancyGrid K) :=
  match inflateU F rf pop hyp ls ld (.fin radius) computer ⟨o, m, []⟩ with
  | (.ok _, st) => st.map.toOccupancyGridI F.rd rf ld old
  | (.thrown e, _) => .thrown e
  | (.assertFail, _) => .assertFail
  | (.ub, _) => .ub
  | (.outOfFuel, _) => .outOfFuel

/-- The program with the copy, on the machine. -/
def copiedGridI (F : Fmt K) (rf : K → K) (pop : Pop K) (hyp : Nat → Nat → K) (ls ld : String) (radius : K) (computer : K → Cost) (o : Inflater K)
    (old : List Int) (m : CostMap K) : Res (OccupancyGrid K) :=
  match rebaseI F.rd m with
  | (.ok _, n) => inflatedGridI F rf pop hyp ls ld radius computer o old ((n.setFrameId m.frameId).setTimestamp m.timestamp)
  | (.thrown e, _) => .thrown e
  | (.assertFail, _) => .assertFail
  | (.ub, _) => .ub
  | (.outOfFuel, _) => .outOfFuel

end CostMapModel
