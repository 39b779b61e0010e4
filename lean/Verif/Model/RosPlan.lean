import Verif.Model.Costmap2D
import Verif.Model.MachineCostmap2D
import Verif.Model.Window
import Verif.Model.MachineWindow

/-!
# A program that plans with a ROS costmap

    cost_map::CostMap map;
    if (!cost_map::fromCostmap2DROS(ros_costmap, "obstacle_costs", map)) return false;
    inflate("obstacle_costs", "inflation_costs", radius, computer, map);
    return map.atPosition("inflation_costs", p) < threshold;

and the same with a straight way in place of the last line (the demo cost_map_demos/src/lib/from_ros_costmaps.cpp copies ROS costmaps the same way).
-/

namespace CostMapModel
open CostMap
variable {K : Type} [Field K] [LinearOrder K] [FloorRing K]

/-- The ROS costmap is copied to a new map, which is then used (converter.cpp 216-227). -/
def withRos (c : Costmap2DROS K) (l : String) (rest : CostMap K → Res Bool) : Res Bool :=
  match fromCostmap2DROS c l (CostMap.new []) with
  | (.ok true, m) => rest m
  | (.ok false, _) => .ok false
  | (.thrown e, _) => .thrown e
  | (.assertFail, _) => .assertFail
  | (.ub, _) => .ub
  | (.outOfFuel, _) => .outOfFuel

/-- The same on the machine. -/
def withRosI (rd : K → K) (c : Costmap2DROS K) (l : String) (rest : CostMap K → Res Bool) : Res Bool :=
  match fromCostmap2DROSI rd c l (CostMap.new []) with
  | (.ok true, m) => rest m
  | (.ok false, _) => .ok false
  | (.thrown e, _) => .thrown e
  | (.assertFail, _) => .assertFail
  | (.ub, _) => .ub
  | (.outOfFuel, _) => .outOfFuel

end CostMapModel
