import Verif.Model.MachineHistory

/-!
# A robot that maps its surroundings

A program that keeps a large map and, again and again, takes a window of a ROS costmap around the robot into it:

    cost_map::CostMap window;
    if (cost_map::fromCostmap2DROSAtRobotPose(costmap, {nx * r, ny * r}, layer, window))
      map.addDataFrom(window, false, true, false, {layer});

The calls are those of converter.cpp 229-243 and cost_map.cpp 401-431, on the machine.
-/

namespace CostMapModel
open CostMap
variable {K : Type} [Field K] [LinearOrder K] [FloorRing K]

/-- The arguments of one pass of the loop: the costmap as it is then, and the size of the window in cells (converter.cpp 229-231). -/
structure Reading (K : Type) where
  costmap : Costmap2DROS K
  nx : Nat
  ny : Nat

/-- One pass of the loop (converter.cpp 229-243, then cost_map.cpp 401-431). -/
def Reading.takeIn (rd : K → K) (l : String) (s : Reading K) : Act (CostMap K) Unit := fun m =>
  match fromCostmap2DROSAtRobotPoseI rd s.costmap
      ⟨s.nx * s.costmap.costmap.resolution, s.ny * s.costmap.costmap.resolution⟩ l (CostMap.new []) with
  | (.ok true, o) => Call.discard (addDataFromI rd o false true false [l]) m
  | (.ok false, _) => (.ok (), m)
  | (.thrown e, _) => (.thrown e, m)
  | (.assertFail, _) => (.assertFail, m)
  | (.ub, _) => (.ub, m)
  | (.outOfFuel, _) => (.outOfFuel, m)

/-- The loop (converter.cpp 229-243, then cost_map.cpp 401-431, for each reading). -/
def mapReadings (rd : K → K) (l : String) (readings : List (Reading K)) : Act (CostMap K) Unit :=
  Act.forEach (Reading.takeIn rd l) readings

end CostMapModel
