import Verif.Model.Locking

/-!
# Specification vocabulary: conversions one after the other
-/

namespace CostMapModel
namespace Locking
variable {K : Type} [Field K] [LinearOrder K] [FloorRing K]

/-- The char map has as many cells as the size says. -/
def Sound (c : Costmap2D K) : Prop := c.costs.length = c.sizeX * c.sizeY

/-- What a call does to a ROS costmap that nobody else uses. -/
def Call.effect : Call K → Costmap2D K → Costmap2D K
  | .full _ _, c => c
  | .atRobot _ _ _, c => c
  | .update ws, c => ws.foldl (fun c w => w c) c

/-- The result of a conversion of a ROS costmap that does not change. -/
def Call.result : Call K → Costmap2DROS K → Option (Out K)
  | .full l m, c => some (CostMap.fromCostmap2DROS c l m)
  | .atRobot g l m, c => some (CostMap.fromCostmap2DROSAtRobotPose c g l m)
  | .update _, _ => none

/-- The costmap after these calls, one after the other. -/
def after (calls : List (Call K)) (c : Costmap2D K) (order : List Nat) : Costmap2D K :=
  order.foldl (fun c i => match calls[i]? with | some x => x.effect c | none => c) c

/-- The poses of the robot and the times up to the end of the schedule. -/
def poses (ros : Costmap2DROS K) (sched : List (Turn K)) : List (Option (Vec K) × Nat) :=
  (ros.robot, ros.now) :: sched.filterMap fun t => match t with | .moved p n => some (p, n) | .thread _ => none

/-- The thread has returned, with this result. -/
def Returned (s : St K) (i : Nat) (r : Option (Out K)) : Prop := s.threads[i]? = some (.finished r)

/-- The thread has not got the lock yet. -/
def Waiting (s : St K) (i : Nat) : Prop := ∃ j, s.threads[i]? = some (.waiting j)

/-- Every thread has returned. -/
def AllDone (s : St K) : Prop := ∀ x ∈ s.threads, ∃ r, x = .finished r

end Locking
end CostMapModel
