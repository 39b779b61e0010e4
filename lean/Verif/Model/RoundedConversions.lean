import Verif.Model.Rounded
import Verif.Model.Bundle
import Verif.Model.Occupancy

/-!
# Conversions in floating point

`fromMessage`, `toGridMap`, `toOccupancyGrid` (cost_map_ros/src/lib/converter.cpp) and `fromImageBundle`
(cost_map_ros/src/lib/image_bundles.cpp) with a rounding `rd` (to `double`) or `rf` (to `float`) after every operation on
coordinates. `toMessage` and `toImageBundle` compute no coordinates. NaN, infinities, overflow and underflow are not modelled here.
-/

namespace CostMapModel
variable {K : Type} [Field K] [LinearOrder K] [FloorRing K] (rd rf : K → K)

namespace CostMap

/-- `fromMessage` (converter.cpp 186-210), with `setGeometry` in floating point. -/
def fromMessageRd (msg : CostMapMsg K) : Act (CostMap K) Bool :=
  Act.bind (Act.modify fun m => (m.setTimestamp (stampToNSec msg.stampSec msg.stampNsec)).setFrameId msg.frameId)
    fun _ =>
  Act.bind (setGeometryRd rd ⟨msg.lengthX, msg.lengthY⟩ msg.resolution msg.position) fun _ =>
  if msg.layers.length ≠ msg.data.length then Act.pure false else
  Act.bind (Act.forEach addFromArray (msg.layers.zip msg.data)) fun _ =>
  Act.bind (Act.modify fun m => (m.setBasicLayers msg.basicLayers).setStartIndex
    ⟨msg.outerStartIndex.toNat, msg.innerStartIndex.toNat⟩) fun _ =>
  Act.pure true

/-- `fromImageBundle` (image_bundles.cpp 34-133). Line 79 converts the numbers of cells to `float` and multiplies in `float`. -/
def fromImageBundleRd (cv : Cv) (files : Files K) : Act (CostMap K) Unit :=
  Act.bind (Act.lift (readInfo rf files.yaml)) fun b =>
  Act.bind (setGeometryRd rd ⟨rf (b.resolution * rf b.cellsX), rf (b.resolution * rf b.cellsY)⟩ b.resolution b.centre) fun _ =>
  Act.bind (Act.modify fun m => (m.setFrameId b.frameId).resetTimestamp) fun _ =>
  Act.forEach (loadLayer cv files) b.layers

/-- `toOccupancyGrid` (converter.cpp 245-297); the origin is computed in `double` (254), the resolution becomes a `float` (249). -/
def toOccupancyGridRd (m : CostMap K) (layer : String) (old : List Int) : Res (OccupancyGrid K) :=
  (stampOf m.timestamp).bind fun t =>
  let n := (m.size.x * m.size.y).toNat
  match Act.forIter CostMapIter.ops (m.occupancyCell layer n) (m.size.x.toNat * m.size.y.toNat + 2) (CostMapIter.new m)
      (resized old n) with
  | (.ok _, d) => .ok
      { frameId := m.frameId, stampSec := t.1, stampNsec := t.2, resolution := rf m.resolution,
        width := m.size.x, height := m.size.y,
        origin := ⟨rd (m.position.x - rd (1 / 2 * m.length.x)), rd (m.position.y - rd (1 / 2 * m.length.y))⟩, data := d }
  | (.thrown e, _) => .thrown e
  | (.assertFail, _) => .assertFail
  | (.ub, _) => .ub
  | (.outOfFuel, _) => .outOfFuel

end CostMap

/-- `grid_map::GridMap::setGeometry` (external; called at converter.cpp 132) in floating point. -/
def GridMap.setGeometryRd (length : Vec K) (resolution : K) (position : Vec K) : Act (GridMap K) Unit := fun g =>
  if ¬ (0 < length.x) then (.assertFail, g)
  else if ¬ (0 < length.y) then (.assertFail, g)
  else if ¬ (0 < resolution) then (.assertFail, g)
  else
    let size : Idx := ⟨roundHalfAway (rd (length.x / resolution)), roundHalfAway (rd (length.y / resolution))⟩
    (.ok (), { g with size := size,
                      data := fun l => (g.data l).map fun _ => Mat.const size.x.toNat size.y.toNat none,
                      resolution := resolution,
                      length := ⟨rd ((size.x : K) * resolution), rd ((size.y : K) * resolution)⟩,
                      position := position,
                      startIndex := 0 })

/-- `grid_map::GridMap::atPosition` (external; not called by the code, used to state what a reader of the grid map sees) in
floating point. -/
def GridMap.atPositionRd (g : GridMap K) (l : String) (p : Vec K) : Res (Option ℚ) :=
  let (i, inside) := indexFromPositionRd rd p g.length g.position g.resolution g.size g.startIndex
  match g.data l with
  | none => .thrown .outOfRange
  | some a => if inside then .ofOption (a.get? i.x i.y) else .thrown .outOfRange

/-- `toGridMap` (converter.cpp 130-146). -/
def toGridMapRd (m : CostMap K) : Act (GridMap K) Unit :=
  Act.bind (GridMap.setGeometryRd rd m.length m.resolution m.position) fun _ =>
  Act.bind (Act.modify fun g => { g with frameId := m.frameId, timestamp := m.timestamp }) fun _ =>
  Act.forEach (gridLayer m) m.layers

end CostMapModel
