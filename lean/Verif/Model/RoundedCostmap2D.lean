import Verif.Model.Rounded
import Verif.Model.Costmap2D

/-!
# ROS costmaps in floating point

`fromCostmap2DROS` and `fromCostmap2DROSAtRobotPose` (cost_map_ros/src/lib/converter.cpp 216-243) with a rounding `rd` after every
operation on coordinates. As in `Model/Costmap2D.lean` the work is done by `grid_map::Costmap2DConverter` and
`costmap_2d::Costmap2D`, which are modelled from knowledge of those libraries. NaN, infinities, overflow and underflow are not
modelled here, and the numbers of cells are unbounded.
-/

namespace CostMapModel
variable {K : Type} [Field K] [LinearOrder K] [FloorRing K] (rd : K → K)

namespace Costmap2D

/-- `Costmap2D::worldToMap` (external). -/
def worldToMapRd (c : Costmap2D K) (p : Vec K) : Option (Nat × Nat) :=
  if p.x < c.origin.x ∨ p.y < c.origin.y then none
  else
    let mx := (truncToInt (rd (rd (p.x - c.origin.x) / c.resolution))).toNat
    let my := (truncToInt (rd (rd (p.y - c.origin.y) / c.resolution))).toNat
    if mx < c.sizeX ∧ my < c.sizeY then some (mx, my) else none

/-- `Costmap2D::copyCostmapWindow` (external) on a new costmap: `.ok none` when it returns false. -/
def windowRd (c : Costmap2D K) (origin size : Vec K) : Res (Option (Costmap2D K)) :=
  match c.worldToMapRd rd origin, c.worldToMapRd rd ⟨rd (origin.x + size.x), rd (origin.y + size.y)⟩ with
  | some (x0, y0), some (x1, y1) =>
    (Res.ofOption (c.region x0 y0 (x1 - x0) (y1 - y0))).bind fun d =>
      .ok (some ⟨x1 - x0, y1 - y0, c.resolution, origin, d⟩)
  | _, _ => .ok none

end Costmap2D

namespace CostMap

/-- `Costmap2DConverter::initializeFromCostmap2D` (external; called at converter.cpp 222). -/
def initFromCostmap2DRd (c : Costmap2DROS K) : Act (CostMap K) Unit :=
  let len : Vec K := ⟨rd (c.costmap.sizeX * c.costmap.resolution), rd (c.costmap.sizeY * c.costmap.resolution)⟩
  Act.bind (setGeometryRd rd len c.costmap.resolution
    ⟨rd (c.costmap.origin.x + rd (1 / 2 * len.x)), rd (c.costmap.origin.y + rd (1 / 2 * len.y))⟩) fun _ =>
  Act.modify fun m => m.setFrameId c.globalFrame

/-- `fromCostmap2DROS` (converter.cpp 216-227). -/
def fromCostmap2DROSRd (c : Costmap2DROS K) (layer : String) : Act (CostMap K) Bool :=
  Act.bind (initFromCostmap2DRd rd c) fun _ => addFromCostmap2D c.costmap layer

/-- The centre of the window along one axis (external, in `initializeFromCostmap2DAtRobotPose`). -/
def windowCentreRd (len p o r : K) : K :=
  let cell := rd (rd (p - o) / r)
  if truncToInt (rd (len / r)) % 2 ≠ 0 then rd (rd (rd ((⌊cell⌋ : K) * r) + rd (r / 2)) + o)
  else rd (rd ((roundHalfAway cell : K) * r) + o)

/-- `Costmap2DConverter::initializeFromCostmap2DAtRobotPose` (external; called at converter.cpp 236). -/
def initAtRobotPoseRd (c : Costmap2DROS K) (geometry : Vec K) : Act (CostMap K) Bool :=
  match c.robot with
  | none => Act.pure false
  | some p =>
    Act.bind (Act.modify fun m => (m.setFrameId c.globalFrame).setTimestamp c.now) fun _ =>
    Act.bind (setGeometryRd rd geometry c.costmap.resolution
      ⟨windowCentreRd rd geometry.x p.x c.costmap.origin.x c.costmap.resolution,
       windowCentreRd rd geometry.y p.y c.costmap.origin.y c.costmap.resolution⟩) fun _ =>
    Act.pure true

/-- `Costmap2DConverter::addLayerFromCostmap2DAtRobotPose` (external; called at converter.cpp 239). -/
def addAtRobotPoseRd (c : Costmap2DROS K) (layer : String) : Act (CostMap K) Bool := fun m =>
  if m.resolution ≠ c.costmap.resolution then (.ok false, m)
  else
    Act.bind (Act.lift (c.costmap.windowRd rd ⟨rd (m.position.x - rd (m.length.x / 2)), rd (m.position.y - rd (m.length.y / 2))⟩
      m.length)) (fun w =>
      match w with
      | none => Act.pure false
      | some w => Act.bind (addFromCostmap2D w layer) fun _ => Act.pure true) m

/-- `fromCostmap2DROSAtRobotPose` (converter.cpp 229-243). -/
def fromCostmap2DROSAtRobotPoseRd (c : Costmap2DROS K) (geometry : Vec K) (layer : String) : Act (CostMap K) Bool :=
  Act.bind (initAtRobotPoseRd rd c geometry) fun b =>
  if b then Act.bind (addAtRobotPoseRd rd c layer) fun b' => Act.pure b' else Act.pure false

end CostMap
end CostMapModel
