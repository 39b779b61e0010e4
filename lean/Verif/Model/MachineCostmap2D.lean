import Verif.Model.Machine
import Verif.Model.RoundedCostmap2D

/-!
# ROS costmaps on the machine

`fromCostmap2DROS` and `fromCostmap2DROSAtRobotPose` (cost_map_ros/src/lib/converter.cpp 216-243) as in
`Model/RoundedCostmap2D.lean`, with the conversions from `double` to `int`, which are undefined for numbers that do not fit
(`Res.ub`). The work is done by `grid_map::Costmap2DConverter` and `costmap_2d::Costmap2D`, which are modelled from knowledge of
those libraries. The sizes of a costmap are `unsigned int`s there; products of them are not modelled as wrapping.
-/

namespace CostMapModel
variable {K : Type} [Field K] [LinearOrder K] [FloorRing K] (rd : K → K)

namespace Costmap2D

/-- `Costmap2D::worldToMap` (external): the quotients are converted to `int`, and these to `unsigned int`, so that a negative one is
larger than any size. The outer `none` is a conversion that is undefined. -/
def worldToMapI (c : Costmap2D K) (p : Vec K) : Option (Option (Nat × Nat)) :=
  if p.x < c.origin.x ∨ p.y < c.origin.y then some none
  else
    (I32.ofReal (rd (rd (p.x - c.origin.x) / c.resolution))).bind fun mx =>
    (I32.ofReal (rd (rd (p.y - c.origin.y) / c.resolution))).bind fun my =>
    if (0 ≤ mx ∧ mx < c.sizeX) ∧ (0 ≤ my ∧ my < c.sizeY) then some (some (mx.toNat, my.toNat)) else some none

/-- `Costmap2D::copyCostmapWindow` (external) on a new costmap: `.ok none` when it returns false. -/
def windowI (c : Costmap2D K) (origin size : Vec K) : Res (Option (Costmap2D K)) :=
  (Res.ofOption (c.worldToMapI rd origin)).bind fun lower =>
  match lower with
  | none => .ok none
  | some (x0, y0) =>
    (Res.ofOption (c.worldToMapI rd ⟨rd (origin.x + size.x), rd (origin.y + size.y)⟩)).bind fun upper =>
    match upper with
    | none => .ok none
    | some (x1, y1) =>
      (Res.ofOption (c.region x0 y0 (x1 - x0) (y1 - y0))).bind fun d =>
        .ok (some ⟨x1 - x0, y1 - y0, c.resolution, origin, d⟩)

end Costmap2D

namespace CostMap

/-- `Costmap2DConverter::initializeFromCostmap2D` (external; called at converter.cpp 222). -/
def initFromCostmap2DI (c : Costmap2DROS K) : Act (CostMap K) Unit :=
  let len : Vec K := ⟨rd (c.costmap.sizeX * c.costmap.resolution), rd (c.costmap.sizeY * c.costmap.resolution)⟩
  Act.bind (setGeometryI rd len c.costmap.resolution
    ⟨rd (c.costmap.origin.x + rd (1 / 2 * len.x)), rd (c.costmap.origin.y + rd (1 / 2 * len.y))⟩) fun _ =>
  Act.modify fun m => m.setFrameId c.globalFrame

/-- `fromCostmap2DROS` (converter.cpp 216-227). -/
def fromCostmap2DROSI (c : Costmap2DROS K) (layer : String) : Act (CostMap K) Bool :=
  Act.bind (initFromCostmap2DI rd c) fun _ => addFromCostmap2D c.costmap layer

/-- The centre of the window along one axis (external, in `initializeFromCostmap2DAtRobotPose`): the number of cells is converted to
`int`, the robot's cell stays a `double`. -/
def windowCentreI (len p o r : K) : Option K :=
  (I32.ofReal (rd (len / r))).map fun n =>
    let cell := rd (rd (p - o) / r)
    if n % 2 ≠ 0 then rd (rd (rd ((⌊cell⌋ : K) * r) + rd (r / 2)) + o)
    else rd (rd ((roundHalfAway cell : K) * r) + o)

/-- `Costmap2DConverter::initializeFromCostmap2DAtRobotPose` (external; called at converter.cpp 236). -/
def initAtRobotPoseI (c : Costmap2DROS K) (geometry : Vec K) : Act (CostMap K) Bool :=
  match c.robot with
  | none => Act.pure false
  | some p =>
    Act.bind (Act.modify fun m => (m.setFrameId c.globalFrame).setTimestamp c.now) fun _ =>
    Act.bind (Act.lift (Res.ofOption (windowCentreI rd geometry.x p.x c.costmap.origin.x c.costmap.resolution))) fun x =>
    Act.bind (Act.lift (Res.ofOption (windowCentreI rd geometry.y p.y c.costmap.origin.y c.costmap.resolution))) fun y =>
    Act.bind (setGeometryI rd geometry c.costmap.resolution ⟨x, y⟩) fun _ =>
    Act.pure true

/-- `Costmap2DConverter::addLayerFromCostmap2DAtRobotPose` (external; called at converter.cpp 239). -/
def addAtRobotPoseI (c : Costmap2DROS K) (layer : String) : Act (CostMap K) Bool := fun m =>
  if m.resolution ≠ c.costmap.resolution then (.ok false, m)
  else
    Act.bind (Act.lift (c.costmap.windowI rd ⟨rd (m.position.x - rd (m.length.x / 2)), rd (m.position.y - rd (m.length.y / 2))⟩
      m.length)) (fun w =>
      match w with
      | none => Act.pure false
      | some w => Act.bind (addFromCostmap2D w layer) fun _ => Act.pure true) m

/-- `fromCostmap2DROSAtRobotPose` (converter.cpp 229-243). -/
def fromCostmap2DROSAtRobotPoseI (c : Costmap2DROS K) (geometry : Vec K) (layer : String) : Act (CostMap K) Bool :=
  Act.bind (initAtRobotPoseI rd c geometry) fun b =>
  if b then Act.bind (addAtRobotPoseI rd c layer) fun b' => Act.pure b' else Act.pure false

end CostMap
end CostMapModel
