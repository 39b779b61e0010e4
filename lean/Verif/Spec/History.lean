import Verif.Model.History
import Verif.Spec.Geometry

/-!
# Specification vocabulary: calls with a usable geometry
-/

namespace CostMapModel
variable {K : Type} [Field K] [LinearOrder K] [FloorRing K]

/-- A length of at least half a cell along each axis: less than that is rounded to no cell at all. -/
def HalfCell (length : Vec K) (resolution : K) : Prop := resolution / 2 ≤ length.x ∧ resolution / 2 ≤ length.y

/-- The call asks for no unusable geometry: a length below half a cell, or a start index outside of the buffer. All
other calls are fine. -/
def Call.Usable (m : CostMap K) : Call K → Prop
  | .setGeometry len r _ => HalfCell len r
  | .setStartIndex i => i.In m.size
  | .fromMessage msg =>
    (msg.outerStartIndex.toNat + 1 / 2 : K) * msg.resolution ≤ msg.lengthX ∧
    (msg.innerStartIndex.toNat + 1 / 2 : K) * msg.resolution ≤ msg.lengthY
  | .fromImageBundle _ rf files => ∀ b, readInfo rf files.yaml = .ok b →
    HalfCell ⟨rf (b.resolution * b.cellsX), rf (b.resolution * b.cellsY)⟩ b.resolution
  | .fromCostmap2DROS c _ => 0 < c.costmap.sizeX ∧ 0 < c.costmap.sizeY
  | .fromCostmap2DROSAtRobotPose c g _ => HalfCell g c.costmap.resolution
  | _ => True

end CostMapModel
