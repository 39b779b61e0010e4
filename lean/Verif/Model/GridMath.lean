import Verif.Model.Base

/-!
# The grid_map_core functions that cost_map calls

grid_map_core is a dependency: its source is not part of /repo. The definitions below model
`grid_map_core/src/GridMapMath.cpp` (1.6 series) as known from that library; each comment names the
C++ function and the place in /repo that calls it. This file is part of the trusted base.

Arithmetic on coordinates is exact (an ordered field `K` stands for `double`).
-/

namespace CostMapModel

section Scalar
variable {K : Type} [Field K] [LinearOrder K] [FloorRing K]

/-- `static_cast<int>(x)`: truncation towards zero. -/
def truncToInt (x : K) : Int := if 0 ≤ x then ⌊x⌋ else -⌊-x⌋

/-- C `round(x)`: to nearest, halves away from zero
(used by `CostMap::setGeometry`, cost_map.cpp 51-52). -/
def roundHalfAway (x : K) : Int := if 0 ≤ x then ⌊x + 1 / 2⌋ else -⌊-x + 1 / 2⌋

/-- `std::fmod(x, y)` for `y ≠ 0`: the remainder of division truncated towards zero
(used by `CostMap::extendToInclude`, cost_map.cpp 471-472). -/
def fmod (x y : K) : K := x - (truncToInt (x / y) : K) * y

end Scalar

/-! ## Circular-buffer index arithmetic -/

/-- `grid_map::wrapIndexToRange(int&, int)`: the index modulo the buffer size, in `[0, n)`.
The C++ computes `if (i < 0) i += ((-i / n) + 1) * n; i = i % n;`, which for `n > 0` is the Euclidean
remainder. -/
def wrap1 (i n : Int) : Int := Int.emod i n

/-- `grid_map::boundIndexToRange(int&, int)` in grid_map_core ≥ 1.5: clamps to `[0, n-1]`. -/
def clamp1 (i n : Int) : Int := if i < 0 then 0 else if i ≥ n then n - 1 else i

/-- 2-d version of an index bounding function (`wrapIndexToRange(Index&, Size)` and
`boundIndexToRange(Index&, Size)`). -/
def bound2 (f : Int → Int → Int) (i n : Idx) : Idx := ⟨f i.x n.x, f i.y n.y⟩

/-- `grid_map::checkIfIndexInRange` (called from spiral_iterator.cpp 30, 89). -/
def inRange (i size : Idx) : Bool := 0 ≤ i.x && 0 ≤ i.y && i.x < size.x && i.y < size.y

/-- `grid_map::getIndexFromBufferIndex`: buffer index to unwrapped index
(called from cost_map_iterator.cpp 55). `checkIfStartIndexAtDefaultPosition` short-circuits. -/
def unwrapIdx (i size start : Idx) : Idx :=
  if start = 0 then i else bound2 wrap1 (i - start) size

/-- `grid_map::getBufferIndexFromIndex`: unwrapped index to buffer index. -/
def bufferIdx (i size start : Idx) : Idx :=
  if start = 0 then i else bound2 wrap1 (i + start) size

/-- `grid_map::getLinearIndexFromIndex(index, size, rowMajor = false)`
(called from converter.cpp 294). -/
def linearIdx (i size : Idx) : Int := i.y * size.x + i.x

section Geometry
variable {K : Type} [Field K] [LinearOrder K] [FloorRing K]

/-- `grid_map::checkIfPositionWithinMap` (called from cost_map.cpp 226):
`t = -(p - mapPosition - length/2)`, inside when `0 ≤ t < length` on both axes. -/
def withinMap (p len mapPos : Vec K) : Bool :=
  let tx := -(p.x - mapPos.x - 1 / 2 * len.x)
  let ty := -(p.y - mapPos.y - 1 / 2 * len.y)
  0 ≤ tx && 0 ≤ ty && tx < len.x && ty < len.y

/-- `grid_map::getIndexFromPosition` (called from cost_map.cpp 216 and the iterators): the index
is written whether or not the position is inside; the flag says if it is. -/
def indexFromPosition (p len mapPos : Vec K) (res : K) (size start : Idx) : Idx × Bool :=
  let vx := (p.x - 1 / 2 * len.x - mapPos.x) / res
  let vy := (p.y - 1 / 2 * len.y - mapPos.y) / res
  let i : Idx := ⟨-truncToInt vx, -truncToInt vy⟩
  (bufferIdx i size start, withinMap p len mapPos)

/-- `grid_map::getPositionFromIndex` (called from cost_map.cpp 221 and the iterators): fails, without
writing the position, exactly for indices out of range. -/
def positionFromIndex (i : Idx) (len mapPos : Vec K) (res : K) (size start : Idx) : Option (Vec K) :=
  if inRange i size then
    let u := unwrapIdx i size start
    some ⟨mapPos.x + (1 / 2 * len.x - 1 / 2 * res) + res * ((-u.x : Int) : K),
          mapPos.y + (1 / 2 * len.y - 1 / 2 * res) + res * ((-u.y : Int) : K)⟩
  else none

/-- `grid_map::getIndexShiftFromPositionShift` (called from cost_map.cpp 331):
`-static_cast<int>(s/res + 0.5 * (s/res > 0 ? 1 : -1))`. -/
def indexShift (s : Vec K) (res : K) : Idx :=
  let f := fun (t : K) => -truncToInt (t + 1 / 2 * (if 0 < t then 1 else -1))
  ⟨f (s.x / res), f (s.y / res)⟩

/-- `grid_map::getPositionShiftFromIndexShift` (called from cost_map.cpp 333). -/
def positionShift (i : Idx) (res : K) : Vec K := ⟨((-i.x : Int) : K) * res, ((-i.y : Int) : K) * res⟩

/-- `std::numeric_limits<double>::epsilon()` = 2^-52. -/
def dblEpsilon : K := 1 / 4503599627370496

/-- One axis of `grid_map::boundPositionToRange`: the offset from the lower map border is kept
inside `(0, length)` by an epsilon of `10 * DBL_EPSILON * max(1, |p|)`. -/
def boundPosition1 (p len mapPos : K) : K :=
  let shifted := p - mapPos + 1 / 2 * len
  let eps := 10 * dblEpsilon * (if 1 < |p| then |p| else 1)
  let shifted' := if shifted ≤ 0 then eps else if len ≤ shifted then len - eps else shifted
  shifted' + mapPos - 1 / 2 * len

/-- `grid_map::boundPositionToRange` (called from circle_iterator.cpp 87-88, ellipse_iterator.cpp
94-95, polygon_iterator.cpp 85-86). -/
def boundPosition (p len mapPos : Vec K) : Vec K :=
  ⟨boundPosition1 p.x len.x mapPos.x, boundPosition1 p.y len.y mapPos.y⟩

/-- What `grid_map::getSubmapInformation` computes (fields of `SubmapGeometry`,
submap_geometry.cpp 12-20). -/
structure SubmapInfo (K : Type) where
  startIndex : Idx
  size : Idx
  position : Vec K
  length : Vec K
  requestedIndex : Idx
  deriving DecidableEq, Repr

/-- `grid_map::getSubmapInformation` (called from submap_geometry.cpp 16-19). -/
def submapInformation (reqPos reqLen len mapPos : Vec K) (res : K) (size start : Idx) :
    Option (SubmapInfo K) :=
  let tl := boundPosition ⟨reqPos.x + 1 / 2 * reqLen.x, reqPos.y + 1 / 2 * reqLen.y⟩ len mapPos
  let (tlIdx, okTl) := indexFromPosition tl len mapPos res size start
  if !okTl then none else
  let tlU := unwrapIdx tlIdx size start
  let br := boundPosition ⟨reqPos.x - 1 / 2 * reqLen.x, reqPos.y - 1 / 2 * reqLen.y⟩ len mapPos
  let (brIdx, okBr) := indexFromPosition br len mapPos res size start
  if !okBr then none else
  let brU := unwrapIdx brIdx size start
  match positionFromIndex tlIdx len mapPos res size start with
  | none => none
  | some c =>
    let corner : Vec K := ⟨c.x + 1 / 2 * res, c.y + 1 / 2 * res⟩
    let subSize := brU - tlU + Idx.ones
    let subLen : Vec K := ⟨(subSize.x : K) * res, (subSize.y : K) * res⟩
    let subPos : Vec K := ⟨corner.x - 1 / 2 * subLen.x, corner.y - 1 / 2 * subLen.y⟩
    let (reqIdx, okReq) := indexFromPosition reqPos subLen subPos res subSize 0
    if !okReq then none else
    some ⟨tlIdx, subSize, subPos, subLen, reqIdx⟩

end Geometry

/-- `grid_map::getSubmapSizeFromCornerIndeces` (called from polygon_iterator.cpp 90). -/
def submapSizeFromCorners (topLeft bottomRight size start : Idx) : Idx :=
  unwrapIdx bottomRight size start - unwrapIdx topLeft size start + Idx.ones

/-- `grid_map::BufferRegion::Quadrant`. -/
inductive Quadrant where
  | undefined | topLeft | topRight | bottomLeft | bottomRight
  deriving DecidableEq, Repr

/-- `grid_map::BufferRegion`. -/
structure BufferRegion where
  startIndex : Idx
  size : Idx
  quadrant : Quadrant
  deriving DecidableEq, Repr

/-- `grid_map::getQuadrant`. -/
def getQuadrant (i start : Idx) : Quadrant :=
  if i.x ≥ start.x ∧ i.y ≥ start.y then .topLeft
  else if i.x ≥ start.x ∧ i.y < start.y then .topRight
  else if i.x < start.x ∧ i.y ≥ start.y then .bottomLeft
  else .bottomRight

/-- `grid_map::getBufferRegionsForSubmap` (called from cost_map.cpp 298-299): `none` when it returns
false. -/
def bufferRegions (idx subSize size start : Idx) : Option (List BufferRegion) :=
  let u := unwrapIdx idx size start
  if u.x + subSize.x > size.x ∨ u.y + subSize.y > size.y then none else
  let br := bound2 wrap1 (idx + subSize - Idx.ones) size
  match getQuadrant idx start, getQuadrant br start with
  | .topLeft, .topLeft => some [⟨idx, subSize, .topLeft⟩]
  | .topLeft, .topRight =>
    let tl : Idx := ⟨subSize.x, size.y - idx.y⟩
    some [⟨idx, tl, .topLeft⟩, ⟨⟨idx.x, 0⟩, ⟨subSize.x, subSize.y - tl.y⟩, .topRight⟩]
  | .topLeft, .bottomLeft =>
    let tl : Idx := ⟨size.x - idx.x, subSize.y⟩
    some [⟨idx, tl, .topLeft⟩, ⟨⟨0, idx.y⟩, ⟨subSize.x - tl.x, subSize.y⟩, .bottomLeft⟩]
  | .topLeft, .bottomRight =>
    let tl : Idx := ⟨size.x - idx.x, size.y - idx.y⟩
    let tr : Idx := ⟨size.x - idx.x, subSize.y - tl.y⟩
    let bl : Idx := ⟨subSize.x - tl.x, size.y - idx.y⟩
    some [⟨idx, tl, .topLeft⟩, ⟨⟨idx.x, 0⟩, tr, .topRight⟩, ⟨⟨0, idx.y⟩, bl, .bottomLeft⟩,
          ⟨0, ⟨bl.x, tr.y⟩, .bottomRight⟩]
  | .topRight, .topRight => some [⟨idx, subSize, .topRight⟩]
  | .topRight, .bottomRight =>
    let tr : Idx := ⟨size.x - idx.x, subSize.y⟩
    some [⟨idx, tr, .topRight⟩, ⟨⟨0, idx.y⟩, ⟨subSize.x - tr.x, subSize.y⟩, .bottomRight⟩]
  | .bottomLeft, .bottomLeft => some [⟨idx, subSize, .bottomLeft⟩]
  | .bottomLeft, .bottomRight =>
    let bl : Idx := ⟨subSize.x, size.y - idx.y⟩
    some [⟨idx, bl, .bottomLeft⟩, ⟨⟨idx.x, 0⟩, ⟨subSize.x, subSize.y - bl.y⟩, .bottomRight⟩]
  | .bottomRight, .bottomRight => some [⟨idx, subSize, .bottomRight⟩]
  | _, _ => none

/-- `grid_map::incrementIndex` (called from cost_map_iterator.cpp 60): row-major step over unwrapped
indices; `none` (index untouched) at the end. -/
def incrementIndex (i size start : Idx) : Option Idx :=
  let u := unwrapIdx i size start
  let u' : Idx := if u.y + 1 < size.y then ⟨u.x, u.y + 1⟩ else ⟨u.x + 1, 0⟩
  if inRange u' size then some (bufferIdx u' size start) else none

/-- `grid_map::incrementIndexForSubmap` (called from submap_iterator.cpp 80-81): returns the new
submap index and map index; `none` (both untouched) at the end. -/
def incrementIndexForSubmap (sub : Idx) (subTopLeft subSize size start : Idx) : Option (Idx × Idx) :=
  let s' : Idx := if sub.y + 1 < subSize.y then ⟨sub.x, sub.y + 1⟩ else ⟨sub.x + 1, 0⟩
  if inRange s' subSize then
    some (s', bufferIdx (unwrapIdx subTopLeft size start + s') size start)
  else none

end CostMapModel
