import Verif.Model.Message
import Verif.Model.Float
import Mathlib.Data.Rat.Floor

/-!
# Occupancy grids and grid maps

Model of `toOccupancyGrid` and `toGridMap` (cost_map_ros/src/lib/converter.cpp 130-146, 245-297).
-/

namespace CostMapModel
variable {K : Type} [Field K] [LinearOrder K] [FloorRing K]

/-- `nav_msgs/OccupancyGrid`. `resolution` is a `float32` there. The orientation and `z`, which are constants (257-261), and
`map_load_time`, a copy of the stamp (248), are left out. `data` holds `int8` values. -/
structure OccupancyGrid (K : Type) where
  frameId : String
  stampSec : UInt32
  stampNsec : UInt32
  resolution : K
  width : Int
  height : Int
  origin : Vec K
  data : List Int
  deriving DecidableEq

/-- The value of a cell as a `float` (converter.cpp 268-293). -/
def occupancyFloat (c : Cost) : ℚ :=
  if c = NO_INFORMATION then -1
  else if c = LETHAL_OBSTACLE then 100
  else if c = INSCRIBED_OBSTACLE then 99
  else
    let value := toFloat (toFloat ((c.toNat : ℚ) - 0) / toFloat (252 - 0))
    toFloat (0 + toFloat (min (max 0 value) 1 * toFloat (98 - 0)))

/-- Conversion of a `float` to `int8` (converter.cpp 295): truncation, undefined behaviour out of range. -/
def toInt8 (v : ℚ) : Res Int :=
  let t := truncToInt v
  if -128 ≤ t ∧ t ≤ 127 then .ok t else .ub

/-- `data[k] = v` on a vector: undefined behaviour out of range. -/
def setElem (k : Int) (v : Int) : Act (List Int) Unit := fun d =>
  if 0 ≤ k ∧ k < d.length then (.ok (), d.set k.toNat v) else (.ub, d)

/-- `vector::resize`; new elements are zero. -/
def resized (d : List Int) (n : Nat) : List Int := d.take n ++ List.replicate (n - d.length) 0

namespace CostMap

/-- Loop body (converter.cpp 276-295). -/
def occupancyCell (m : CostMap K) (layer : String) (nCells : Int) (i : Idx) : Act (List Int) Unit :=
  Act.bind (Act.lift (m.at layer i)) fun c =>
  Act.bind (Act.lift (toInt8 (occupancyFloat c))) fun v => setElem (nCells - linearIdx i m.size - 1) v

/-- `toOccupancyGrid` (converter.cpp 245-297). `old` is the data the message held before; `rf` is the rounding of the
resolution to `float32`. -/
def toOccupancyGrid (rf : K → K) (m : CostMap K) (layer : String) (old : List Int) : Res (OccupancyGrid K) :=
  (stampOf m.timestamp).bind fun t =>
  let n := (m.size.x * m.size.y).toNat
  match Act.forIter CostMapIter.ops (m.occupancyCell layer n) (m.size.x.toNat * m.size.y.toNat + 2) (CostMapIter.new m)
      (resized old n) with
  | (.ok _, d) => .ok
      { frameId := m.frameId, stampSec := t.1, stampNsec := t.2, resolution := rf m.resolution,
        width := m.size.x, height := m.size.y,
        origin := ⟨m.position.x - 1 / 2 * m.length.x, m.position.y - 1 / 2 * m.length.y⟩, data := d }
  | (.thrown e, _) => .thrown e
  | (.assertFail, _) => .assertFail
  | (.ub, _) => .ub
  | (.outOfFuel, _) => .outOfFuel

end CostMap

/-! ## Grid maps -/

/-- `grid_map::GridMap` (external), as far as `toGridMap` uses it; elements are `float`, `none` is NaN. -/
structure GridMap (K : Type) where
  frameId : String
  timestamp : Nat
  data : String → Option (Mat (Option ℚ))
  layers : List String
  length : Vec K
  resolution : K
  position : Vec K
  size : Idx
  startIndex : Idx

namespace GridMap

/-- A grid map without layers (external). -/
def new : GridMap K := ⟨"", 0, fun _ => none, [], ⟨0, 0⟩, 0, ⟨0, 0⟩, 0, 0⟩

/-- `grid_map::GridMap::setGeometry` (external; called at converter.cpp 132). -/
def setGeometry (length : Vec K) (resolution : K) (position : Vec K) : Act (GridMap K) Unit := fun g =>
  if ¬ (0 < length.x) then (.assertFail, g)
  else if ¬ (0 < length.y) then (.assertFail, g)
  else if ¬ (0 < resolution) then (.assertFail, g)
  else
    let size : Idx := ⟨roundHalfAway (length.x / resolution), roundHalfAway (length.y / resolution)⟩
    (.ok (), { g with size := size,
                      data := fun l => (g.data l).map fun _ => Mat.const size.x.toNat size.y.toNat none,
                      resolution := resolution,
                      length := ⟨(size.x : K) * resolution, (size.y : K) * resolution⟩,
                      position := position,
                      startIndex := 0 })

/-- `grid_map::GridMap::add(layer, data)` (external; called at converter.cpp 144). -/
def add (l : String) (a : Mat (Option ℚ)) : Act (GridMap K) Unit := fun g =>
  if g.size.x ≠ a.rows then (.assertFail, g)
  else if g.size.y ≠ a.cols then (.assertFail, g)
  else
    let d := fun l' => if l' = l then some a else g.data l'
    if (g.data l).isSome then (.ok (), { g with data := d })
    else (.ok (), { g with data := d, layers := g.layers ++ [l] })

/-- `grid_map::GridMap::atPosition` (external; not called by the code, used to state what a reader of the grid map
sees). -/
def atPosition (g : GridMap K) (l : String) (p : Vec K) : Res (Option ℚ) :=
  let (i, inside) := indexFromPosition p g.length g.position g.resolution g.size g.startIndex
  match g.data l with
  | none => .thrown .outOfRange
  | some a => if inside then .ofOption (a.get? i.x i.y) else .thrown .outOfRange

end GridMap

/-- The value of a cell (converter.cpp 141). -/
def gridValue (c : Cost) : ℚ := toFloat (toDouble (toDouble (100 * (c.toNat : ℚ)) / (NO_INFORMATION.toNat : ℚ)))

/-- Loop body of `toGridMap` (converter.cpp 136-144): the elements are copied in storage order. -/
def gridLayer (m : CostMap K) (l : String) : Act (GridMap K) Unit :=
  Act.bind (Act.lift (m.get l)) fun a => GridMap.add l (a.mapIdx fun _ _ c => some (gridValue c))

/-- `toGridMap` (converter.cpp 130-146). The start index is not passed on. -/
def toGridMap (m : CostMap K) : Act (GridMap K) Unit :=
  Act.bind (GridMap.setGeometry m.length m.resolution m.position) fun _ =>
  Act.bind (Act.modify fun g => { g with frameId := m.frameId, timestamp := m.timestamp }) fun _ =>
  Act.forEach (gridLayer m) m.layers

end CostMapModel
