import Verif.Spec.History
import Verif.Spec.Inflation

/-!
# Specification vocabulary: calls that have a defined outcome
-/

namespace CostMapModel
variable {K : Type} [Field K] [LinearOrder K] [FloorRing K]

/-- The call returns, throws or fails an assertion: it reads and writes nothing outside of its objects, converts no number
to a type that cannot hold it, and ends. -/
def Res.Defined {α : Type} (r : Res α) : Prop := r ≠ .ub ∧ r ≠ .outOfFuel

/-- A layer in a message: it says whether its data are row- or column-major, and there are as many data as it says. -/
def MultiArray.Complete (a : MultiArray) : Prop :=
  a.dim ≠ [] ∧ ∀ cols rows, a.dim[0]? = some cols → a.dim[1]? = some rows →
    rows.size.toNat * cols.size.toNat ≤ a.data.length

/-- What a caller has to see to before a call. Most calls need nothing, some need a map that has been given a geometry. -/
def Call.Safe (m : CostMap K) : Call K → Prop
  /- the index is that of a cell -/
  | .setAt _ i _ => i.In m.size
  | .setAtPosition _ _ _ => m.resolution ≠ 0
  | .move _ => m.resolution ≠ 0
  | .extendToInclude _ => m.resolution ≠ 0
  /- the other map is one that a program can hold, with a geometry -/
  | .addDataFrom o _ _ _ _ => m.resolution ≠ 0 ∧ Held List.Nodup Call.Usable o ∧ o.resolution ≠ 0
  /- the radius in cells fits 32 bits and is not the initial value of an inflation object, which may have been used before -/
  | .inflate obj pop hyp _ _ radius _ => m.resolution ≠ 0 ∧ UsedAny hyp obj ∧ PopOk pop ∧
      radiusInCells radius m.resolution < 2 ^ 32 - 1 ∧ HypOk hyp (radiusInCells radius m.resolution)
  | .fromMessage msg => ∀ a ∈ msg.data, a.Complete
  | .addLayerFromImage _ _ _ => m.resolution ≠ 0
  /- the ROS costmap has as many costs as cells -/
  | .fromCostmap2DROS c _ => c.costmap.costs.length = c.costmap.sizeX * c.costmap.sizeY
  | .fromCostmap2DROSAtRobotPose c _ _ => c.costmap.costs.length = c.costmap.sizeX * c.costmap.sizeY
  | _ => True

end CostMapModel
