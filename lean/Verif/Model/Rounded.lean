import Verif.Model.CostMap
import Verif.Model.Float

/-!
# The geometry of the map in floating point

`Model/GridMath.lean` and `Model/CostMap.lean` compute positions with exact arithmetic. This file models the same
functions with a rounding `rd` after every arithmetic operation, in the order in which the C++ performs them. `rd := id`
gives the exact model back (`C73_exact_arithmetic`); `rd := toDouble` is the binary64 arithmetic of the machine, without
overflow and underflow and without contraction of a product and a sum into one operation.

Simplified: the sign changes of `transformMapFrameToBufferOrder` and `transformBufferOrderToMapFrame` and the conversions
of an `int` to `double` are exact in binary64, so they are not rounded. NaN and infinities are not modelled.
-/

namespace CostMapModel

section
variable {K : Type} [Field K] [LinearOrder K] [FloorRing K] (rd : K → K)

/-- One axis of `grid_map::getVectorToOrigin`: `0.5 * mapLength`. -/
def toOriginRd (len : K) : K := rd (1 / 2 * len)

/-- One axis of `grid_map::getVectorToFirstCell`: `getVectorToOrigin - 0.5 * resolution`. -/
def toFirstCellRd (len res : K) : K := rd (toOriginRd rd len - rd (1 / 2 * res))

/-- One axis of the test in `grid_map::checkIfPositionWithinMap` (called from cost_map.cpp 226):
`position - mapPosition - offset`, with the sign changed. -/
def fromBorderRd (p len mapPos : K) : K := -(rd (rd (p - mapPos) - toOriginRd rd len))

/-- `grid_map::checkIfPositionWithinMap` (called from cost_map.cpp 226). -/
def withinMapRd (p len mapPos : Vec K) : Bool :=
  let tx := fromBorderRd rd p.x len.x mapPos.x
  let ty := fromBorderRd rd p.y len.y mapPos.y
  0 ≤ tx && 0 ≤ ty && tx < len.x && ty < len.y

/-- One axis of `grid_map::getIndexFromPosition` (called from cost_map.cpp 216):
`(position - offset - mapPosition) / resolution`, with the sign changed and truncated to an `int`. -/
def cellRd (p len mapPos res : K) : Int :=
  -truncToInt (rd (rd (rd (p - toOriginRd rd len) - mapPos) / res))

/-- `grid_map::getIndexFromPosition` (called from cost_map.cpp 216). -/
def indexFromPositionRd (p len mapPos : Vec K) (res : K) (size start : Idx) : Idx × Bool :=
  let i : Idx := ⟨cellRd rd p.x len.x mapPos.x res, cellRd rd p.y len.y mapPos.y res⟩
  (bufferIdx i size start, withinMapRd rd p len mapPos)

/-- One axis of `grid_map::getPositionFromIndex` (called from cost_map.cpp 221):
`mapPosition + offset + resolution * indexVector`. -/
def centreRd (u : Int) (len mapPos res : K) : K :=
  rd (rd (mapPos + toFirstCellRd rd len res) + rd (res * ((-u : Int) : K)))

/-- `grid_map::getPositionFromIndex` (called from cost_map.cpp 221). -/
def positionFromIndexRd (i : Idx) (len mapPos : Vec K) (res : K) (size start : Idx) : Option (Vec K) :=
  if inRange i size then
    let u := unwrapIdx i size start
    some ⟨centreRd rd u.x len.x mapPos.x res, centreRd rd u.y len.y mapPos.y res⟩
  else none

/-- The rounding to cells in `grid_map::getIndexShiftFromPositionShift`:
`static_cast<int>(t + 0.5 * (t > 0 ? 1 : -1))`, with the sign changed. -/
def cellsRd (t : K) : Int := -truncToInt (rd (t + 1 / 2 * (if 0 < t then 1 else -1)))

/-- One axis of `grid_map::getIndexShiftFromPositionShift` (called from cost_map.cpp 331). -/
def indexShift1Rd (s res : K) : Int := cellsRd rd (rd (s / res))

/-- `grid_map::getIndexShiftFromPositionShift` (called from cost_map.cpp 331). -/
def indexShiftRd (s : Vec K) (res : K) : Idx := ⟨indexShift1Rd rd s.x res, indexShift1Rd rd s.y res⟩

/-- `grid_map::getPositionShiftFromIndexShift` (called from cost_map.cpp 333). -/
def positionShiftRd (i : Idx) (res : K) : Vec K := ⟨rd (((-i.x : Int) : K) * res), rd (((-i.y : Int) : K) * res)⟩

end

namespace CostMap
variable {K : Type} [Field K] [LinearOrder K] [FloorRing K] (rd : K → K)

/-- `CostMap::setGeometry` (cost_map.cpp 42-62). -/
def setGeometryRd (length : Vec K) (resolution : K) (position : Vec K) : Act (CostMap K) Unit := fun m =>
  if ¬ (0 < length.x) then (.assertFail, m)
  else if ¬ (0 < length.y) then (.assertFail, m)
  else if ¬ (0 < resolution) then (.assertFail, m)
  else
    let size : Idx := ⟨roundHalfAway (rd (length.x / resolution)), roundHalfAway (rd (length.y / resolution))⟩
    let m := (m.resize size).clearAll
    (.ok (), { m with resolution := resolution,
                      length := ⟨rd ((size.x : K) * resolution), rd ((size.y : K) * resolution)⟩,
                      position := position,
                      startIndex := 0 })

/-- `CostMap::getIndex` (cost_map.cpp 214-217). -/
def getIndexRd (m : CostMap K) (p : Vec K) : Idx × Bool :=
  indexFromPositionRd rd p m.length m.position m.resolution m.size m.startIndex

/-- `CostMap::getPosition(index, position)` (cost_map.cpp 219-222). -/
def getPositionRd (m : CostMap K) (i : Idx) : Option (Vec K) :=
  positionFromIndexRd rd i m.length m.position m.resolution m.size m.startIndex

/-- `CostMap::isInside` (cost_map.cpp 224-227). -/
def isInsideRd (m : CostMap K) (p : Vec K) : Bool := withinMapRd rd p m.length m.position

/-- `CostMap::atPosition(layer, position)` (cost_map.cpp 161-168, 183-191). -/
def atPositionRd (m : CostMap K) (l : String) (p : Vec K) : Res Cost :=
  let (i, inside) := m.getIndexRd rd p
  if inside then m.at l i else .thrown .outOfRange

/-- `map.atPosition(layer, position) = v` (cost_map.cpp 161-168). -/
def setAtPositionRd (l : String) (p : Vec K) (v : Cost) : Act (CostMap K) Unit := fun m =>
  let (i, inside) := m.getIndexRd rd p
  if inside then setAt l i v m else (.thrown .outOfRange, m)

/-- `CostMap::move` (cost_map.cpp 327-399), with `bnd` for `grid_map::boundIndexToRange`. The difference to the old
position (330) and the sum with the aligned shift (389) are rounded. -/
def moveWithRd (bnd : Int → Int → Int) (position : Vec K) : Act (CostMap K) (Bool × List BufferRegion) := fun m =>
  let shift := indexShiftRd rd ⟨rd (position.x - m.position.x), rd (position.y - m.position.y)⟩ m.resolution
  let aligned := positionShiftRd rd shift m.resolution
  Act.bind (dropAxis bnd shift 0) (fun r0 =>
    Act.bind (dropAxis bnd shift 1) (fun r1 => fun m =>
      (.ok (decide (shift ≠ 0), r0 ++ r1),
        { m with startIndex := bound2 bnd (m.startIndex + shift) m.size,
                 position := ⟨rd (m.position.x + aligned.x), rd (m.position.y + aligned.y)⟩ }))) m

/-- `CostMap::move` as compiled against grid_map_core ≥ 1.5, whose `boundIndexToRange` clamps. -/
def moveRd (position : Vec K) : Act (CostMap K) (Bool × List BufferRegion) := moveWithRd rd clamp1 position

end CostMap
end CostMapModel
