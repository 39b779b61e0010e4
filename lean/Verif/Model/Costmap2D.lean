import Verif.Model.Message

/-!
# ROS costmaps

Model of `fromCostmap2DROS` and `fromCostmap2DROSAtRobotPose` (cost_map_ros/src/lib/converter.cpp 216-243). The work is done
by `grid_map::Costmap2DConverter` (grid_map_costmap_2d) and `costmap_2d::Costmap2D` (navigation), which are not in this
repository and are modelled from knowledge of those libraries. The lock taken at 221 and 235 makes the calls see one state of the
ROS costmap. Coordinates are exact.
-/

namespace CostMapModel
variable {K : Type} [Field K] [LinearOrder K] [FloorRing K]

/-- `costmap_2d::Costmap2D` (external): `costs` is the char map, row-major from the lower left corner `origin`. -/
structure Costmap2D (K : Type) where
  sizeX : Nat
  sizeY : Nat
  resolution : K
  origin : Vec K
  costs : List Cost

/-- `costmap_2d::Costmap2DROS` (external), as far as it is used: the costmap, the global frame, the robot's pose if it is known,
and the time. -/
structure Costmap2DROS (K : Type) where
  costmap : Costmap2D K
  globalFrame : String
  robot : Option (Vec K)
  now : Nat

namespace Costmap2D

/-- `Costmap2D::worldToMap` (external). -/
def worldToMap (c : Costmap2D K) (p : Vec K) : Option (Nat × Nat) :=
  if p.x < c.origin.x ∨ p.y < c.origin.y then none
  else
    let mx := (truncToInt ((p.x - c.origin.x) / c.resolution)).toNat
    let my := (truncToInt ((p.y - c.origin.y) / c.resolution)).toNat
    if mx < c.sizeX ∧ my < c.sizeY then some (mx, my) else none

/-- The cells of the rectangle with lower left cell `(x, y)`, `nx` cells wide and `ny` high, row by row: `Costmap2D::copyMapRegion`
(external). A cell that is not there would be read out of bounds. -/
def region (c : Costmap2D K) (x y nx ny : Nat) : Option (List Cost) :=
  (List.range (nx * ny)).mapM fun k => c.costs[(y + k / nx) * c.sizeX + (x + k % nx)]?

/-- `Costmap2D::copyCostmapWindow` (external) on a new costmap: `.ok none` when it returns false. -/
def window (c : Costmap2D K) (origin size : Vec K) : Res (Option (Costmap2D K)) :=
  match c.worldToMap origin, c.worldToMap ⟨origin.x + size.x, origin.y + size.y⟩ with
  | some (x0, y0), some (x1, y1) =>
    (Res.ofOption (c.region x0 y0 (x1 - x0) (y1 - y0))).bind fun d =>
      .ok (some ⟨x1 - x0, y1 - y0, c.resolution, origin, d⟩)
  | _, _ => .ok none

end Costmap2D

namespace CostMap

/-- `Costmap2DConverter::initializeFromCostmap2D` (external; called at converter.cpp 222). -/
def initFromCostmap2D (c : Costmap2DROS K) : Act (CostMap K) Unit :=
  let len : Vec K := ⟨c.costmap.sizeX * c.costmap.resolution, c.costmap.sizeY * c.costmap.resolution⟩
  Act.bind (setGeometry len c.costmap.resolution
    ⟨c.costmap.origin.x + 1 / 2 * len.x, c.costmap.origin.y + 1 / 2 * len.y⟩) fun _ =>
  Act.modify fun m => m.setFrameId c.globalFrame

/-- The matrix made of a char map (external): the linear order of the storage is reversed; for `unsigned char` maps
costs are not translated. A char map of another length than the size would be read out of bounds. -/
def reversedMat (c : Costmap2D K) : Res (Mat Cost) :=
  if h : c.costs.length = c.sizeX * c.sizeY then .ok ⟨c.sizeX, c.sizeY, c.costs.reverse, by simp [h]⟩ else .ub

/-- `Costmap2DConverter::addLayerFromCostmap2D` (external; called at converter.cpp 223). -/
def addFromCostmap2D (c : Costmap2D K) (layer : String) : Act (CostMap K) Bool := fun m =>
  if m.size ≠ ⟨c.sizeX, c.sizeY⟩ then (.ok false, m)
  else if m.startIndex ≠ 0 then (.ok false, m)
  else Act.bind (Act.lift (reversedMat c)) (fun a => Act.bind (add layer a) fun _ => Act.pure true) m

/-- `fromCostmap2DROS` (converter.cpp 216-227). -/
def fromCostmap2DROS (c : Costmap2DROS K) (layer : String) : Act (CostMap K) Bool :=
  Act.bind (initFromCostmap2D c) fun _ => addFromCostmap2D c.costmap layer

/-- The centre of the window along one axis (external, in `initializeFromCostmap2DAtRobotPose`): the centre of the robot's
cell for an odd number of cells, the nearest corner for an even one. `len` is the requested length, `p` the robot and `o`
the costmap's origin. -/
def windowCentre (len p o r : K) : K :=
  if truncToInt (len / r) % 2 ≠ 0 then (⌊(p - o) / r⌋ : K) * r + r / 2 + o
  else (roundHalfAway ((p - o) / r) : K) * r + o

/-- `Costmap2DConverter::initializeFromCostmap2DAtRobotPose` (external; called at converter.cpp 236). -/
def initAtRobotPose (c : Costmap2DROS K) (geometry : Vec K) : Act (CostMap K) Bool :=
  match c.robot with
  | none => Act.pure false
  | some p =>
    Act.bind (Act.modify fun m => (m.setFrameId c.globalFrame).setTimestamp c.now) fun _ =>
    Act.bind (setGeometry geometry c.costmap.resolution
      ⟨windowCentre geometry.x p.x c.costmap.origin.x c.costmap.resolution,
       windowCentre geometry.y p.y c.costmap.origin.y c.costmap.resolution⟩) fun _ =>
    Act.pure true

/-- `Costmap2DConverter::addLayerFromCostmap2DAtRobotPose` (external; called at converter.cpp 239). The result of copying the
window is ignored. -/
def addAtRobotPose (c : Costmap2DROS K) (layer : String) : Act (CostMap K) Bool := fun m =>
  if m.resolution ≠ c.costmap.resolution then (.ok false, m)
  else
    Act.bind (Act.lift (c.costmap.window ⟨m.position.x - m.length.x / 2, m.position.y - m.length.y / 2⟩ m.length)) (fun w =>
      match w with
      | none => Act.pure false
      | some w => Act.bind (addFromCostmap2D w layer) fun _ => Act.pure true) m

/-- `fromCostmap2DROSAtRobotPose` (converter.cpp 229-243). -/
def fromCostmap2DROSAtRobotPose (c : Costmap2DROS K) (geometry : Vec K) (layer : String) : Act (CostMap K) Bool :=
  Act.bind (initAtRobotPose c geometry) fun b =>
  if b then Act.bind (addAtRobotPose c layer) fun b' => Act.pure b' else Act.pure false

end CostMap
end CostMapModel
