import Verif.Model.MachineHistory
import Verif.Model.Nodes

/-!
# Occupancy grids, the service and its relay on the machine

`toOccupancyGrid` (cost_map_ros/src/lib/converter.cpp 245-297), the service (converter.cpp 314-326) and the relay
(cost_map_visualisations/src/applications/service_relay.cpp 59-76), with rounded `double`s and `float`s and with `int`s that overflow
(`Res.ub`).
-/

namespace CostMapModel
variable {K : Type} [Field K] [LinearOrder K] [FloorRing K] (rd rf : K → K)

/-- `grid_map::getLinearIndexFromIndex(index, size, rowMajor = false)` (called from converter.cpp 294) on `int`s. -/
def linearIdxI (i size : Idx) : Option Int := (I32.mul i.y size.x).bind fun a => I32.add a i.x

namespace CostMap

/-- Loop body (converter.cpp 276-295). The element is counted in 64 bits, which do not overflow here. -/
def occupancyCellI (m : CostMap K) (layer : String) (nCells : Int) (i : Idx) : Act (List Int) Unit :=
  Act.bind (Act.lift (m.at layer i)) fun c =>
  Act.bind (Act.lift (toInt8 (occupancyFloat c))) fun v =>
  Act.bind (Act.lift (Res.ofOption (linearIdxI i m.size))) fun k => setElem (nCells - k - 1) v

/-- `toOccupancyGrid` (converter.cpp 245-297). The data are resized twice: to the product of two `unsigned int`s, which wraps
(262), and to the product of two `int`s, which overflows (264-265). -/
def toOccupancyGridI (m : CostMap K) (layer : String) (old : List Int) : Res (OccupancyGrid K) :=
  (stampOf m.timestamp).bind fun t =>
  (Res.ofOption (I32.mul m.size.x m.size.y)).bind fun n =>
  match CostMapIter.newI m with
  | none => .ub
  | some it =>
    match Act.forIter CostMapIter.opsI (m.occupancyCellI layer n) (m.size.x.toNat * m.size.y.toNat + 2) it
        (resized (resized old ((m.size.x * m.size.y) % 4294967296).toNat) n.toNat) with
    | (.ok _, d) => .ok
        { frameId := m.frameId, stampSec := t.1, stampNsec := t.2, resolution := rf m.resolution,
          width := m.size.x, height := m.size.y,
          origin := ⟨rd (m.position.x - rd (1 / 2 * m.length.x)), rd (m.position.y - rd (1 / 2 * m.length.y))⟩, data := d }
    | (.thrown e, _) => .thrown e
    | (.assertFail, _) => .assertFail
    | (.ub, _) => .ub
    | (.outOfFuel, _) => .outOfFuel

end CostMap

open CostMap

/-- `Costmap2DROSServiceProvider::callback` (converter.cpp 314-326): the return value and the response. The result of the
conversion is not used. -/
def serviceCallbackI (c : Costmap2DROS K) (lengthX lengthY : K) : Res (Bool × CostMapMsg K) :=
  match fromCostmap2DROSAtRobotPoseI rd c ⟨lengthX, lengthY⟩ "obstacle_costs" (CostMap.new []) with
  | (.ok _, m) => m.toMessage.bind fun msg => .ok (true, msg)
  | (.thrown e, _) => .thrown e
  | (.assertFail, _) => .assertFail
  | (.ub, _) => .ub
  | (.outOfFuel, _) => .outOfFuel

/-- One round of the relay's loop (service_relay.cpp 59-76). `none`: the call failed, `continue`. The result of `fromMessage` is not
used. -/
def Relay.stepI (reply : Option (CostMapMsg K)) : Act (Relay K) Unit := fun s =>
  match reply with
  | none => (.ok (), s)
  | some msg =>
    match fromMessageI rd msg (CostMap.new []) with
    | (.ok _, m) =>
      let layer := match m.layers with
        | [l] => l
        | _ => s.layerName
      match m.toOccupancyGridI rd rf layer [] with
      | .ok g => (.ok (), ⟨layer, s.published ++ [g]⟩)
      | .thrown e => (.thrown e, { s with layerName := layer })
      | .assertFail => (.assertFail, { s with layerName := layer })
      | .ub => (.ub, { s with layerName := layer })
      | .outOfFuel => (.outOfFuel, { s with layerName := layer })
    | (.thrown e, _) => (.thrown e, s)
    | (.assertFail, _) => (.assertFail, s)
    | (.ub, _) => (.ub, s)
    | (.outOfFuel, _) => (.outOfFuel, s)

/-- The relay's loop over the replies it gets (service_relay.cpp 59-76). -/
def Relay.runI (replies : List (Option (CostMapMsg K))) : Act (Relay K) Unit :=
  Act.forEach (Relay.stepI rd rf) replies

end CostMapModel
