import Verif.Model.Machine
import Verif.Model.RoundedShapes

/-!
# Circles, ellipses, polygons and submaps in 32-bit integers

The functions of `Model/RoundedShapes.lean` and `getSubmap`, with the index arithmetic on `int`s as in `Model/Machine.lean`: `none`
or `Res.ub` where an `int` operation overflows. The shape tests are on coordinates only and are those of `Model/RoundedShapes.lean`.
-/

namespace CostMapModel

namespace ShapeIter
variable {K : Type} [Field K] [LinearOrder K] [FloorRing K] (rd : K → K)

/-- `isInside` (circle_iterator.cpp 74-80, ellipse_iterator.cpp 77-83, polygon_iterator.cpp 70-75): the result of
`getPositionFromIndex` is not checked; for an index out of range the position is uninitialised. -/
def isInsideI (it : ShapeIter K) (s : SubmapIter) : Res Bool :=
  match positionFromIndexI rd s.index it.length it.position it.resolution it.size it.startIndex with
  | some (some p) => .ok (it.shape p)
  | some none => .ub
  | none => .ub

/-- The loop of `operator ++` (circle_iterator.cpp 62-64, ellipse_iterator.cpp 65-67, polygon_iterator.cpp 58-60). -/
def skipI (it : ShapeIter K) : Nat → SubmapIter → Res SubmapIter
  | 0, _ => .outOfFuel
  | n + 1, s =>
    if s.pastEnd then .ok s
    else (it.isInsideI rd s).bind fun b => if b then .ok s else (Res.ofOption s.nextI).bind (skipI it n)

/-- `operator ++` (circle_iterator.cpp 57-67, ellipse_iterator.cpp 60-70, polygon_iterator.cpp 53-63). -/
def nextI (it : ShapeIter K) : Res (ShapeIter K) :=
  (Res.ofOption it.internal.nextI).bind fun s =>
    if s.pastEnd then .ok { it with internal := s }
    else (it.skipI rd it.fuel s).bind fun s' => .ok { it with internal := s' }

/-- The common part of the constructors (circle_iterator.cpp 21-30, ellipse_iterator.cpp 24-33,
polygon_iterator.cpp 19-28). -/
def newWithI (m : CostMap K) (shape : Vec K → Bool) (start subSize : Idx) : Res (ShapeIter K) :=
  let it : ShapeIter K :=
    ⟨m.length, m.position, m.resolution, m.size, m.startIndex, shape, SubmapIter.new m start subSize⟩
  (it.isInsideI rd it.internal).bind fun b => if b then .ok it else it.nextI rd

/-- `isPastEnd`, `operator *`, `operator ++`. -/
def opsI : IterOps (ShapeIter K) Idx := ⟨fun it => it.internal.pastEnd, fun it => .ok it.internal.index, nextI rd⟩

end ShapeIter

section Shapes
variable {K : Type} [Field K] [LinearOrder K] [FloorRing K] (rd : K → K)

/-- The part of `findSubmapParameters` shared by circle and ellipse (circle_iterator.cpp 87-92,
ellipse_iterator.cpp 94-99). The result of `getIndexFromPosition` is not checked. -/
def boxFromBufferIndicesI (m : CostMap K) (topLeft bottomRight : Vec K) : Option (Idx × Idx) :=
  (m.getIndexI rd (boundPositionRd rd topLeft m.length m.position)).bind fun s =>
  (m.getIndexI rd (boundPositionRd rd bottomRight m.length m.position)).bind fun e =>
  (I32.both I32.sub e.1 s.1).bind fun d => (I32.both I32.add d Idx.ones).bind fun n => some (s.1, n)

/-- `CircleIterator` constructor (circle_iterator.cpp 16-31, 82-93). -/
def circleIterI (m : CostMap K) (center : Vec K) (radius : K) : Res (ShapeIter K) :=
  (Res.ofOption (boxFromBufferIndicesI rd m ⟨rd (center.x + radius), rd (center.y + radius)⟩
    ⟨rd (center.x - radius), rd (center.y - radius)⟩)).bind fun box =>
  ShapeIter.newWithI rd m (circleShapeRd rd center radius) box.1 box.2

/-- `EllipseIterator` constructor (ellipse_iterator.cpp 17-34, 85-100), with the parameters of `ellipseIterRd`. -/
def ellipseIterI (sqrt : K → K) (m : CostMap K) (center len : Vec K) (c s : K) : Res (ShapeIter K) :=
  let h : Vec K := ⟨sqrt (rd (rd (rd (c * len.x) ^ 2) + rd (rd (-s * len.y) ^ 2))),
    sqrt (rd (rd (rd (s * len.x) ^ 2) + rd (rd (c * len.y) ^ 2)))⟩
  (Res.ofOption (boxFromBufferIndicesI rd m ⟨rd (center.x + h.x), rd (center.y + h.y)⟩
    ⟨rd (center.x - h.x), rd (center.y - h.y)⟩)).bind fun box =>
  ShapeIter.newWithI rd m (ellipseShapeRd rd center len c s) box.1 box.2

/-- `getSubmapSizeFromCornerIndeces` of grid_map_core (called from polygon_iterator.cpp 90). -/
def submapSizeFromCornersI (topLeft bottomRight size start : Idx) : Option Idx :=
  (unwrapI topLeft size start).bind fun t => (unwrapI bottomRight size start).bind fun b =>
    (I32.both I32.sub b t).bind fun d => I32.both I32.add d Idx.ones

/-- `PolygonIterator` constructor (polygon_iterator.cpp 16-29, 77-91). -/
def polygonIterI (m : CostMap K) (vs : List (Vec K)) : Res (ShapeIter K) :=
  match vs with
  | [] => .ub
  | v :: _ =>
    let tl := vs.foldl (fun a b => (⟨max a.x b.x, max a.y b.y⟩ : Vec K)) v
    let br := vs.foldl (fun a b => (⟨min a.x b.x, min a.y b.y⟩ : Vec K)) v
    (Res.ofOption (m.getIndexI rd (boundPositionRd rd tl m.length m.position))).bind fun s =>
    (Res.ofOption (m.getIndexI rd (boundPositionRd rd br m.length m.position))).bind fun e =>
    (Res.ofOption (submapSizeFromCornersI s.1 e.1 m.size m.startIndex)).bind fun n =>
    ShapeIter.newWithI rd m (polygonInsideRd rd vs) s.1 n

end Shapes

/-- `getBufferRegionsForSubmap` of grid_map_core (called from cost_map.cpp 298-299); the inner `none` when it returns false. -/
def bufferRegionsI (idx subSize size start : Idx) : Option (Option (List BufferRegion)) :=
  (unwrapI idx size start).bind fun u => (I32.both I32.add u subSize).bind fun v =>
  if v.x > size.x ∨ v.y > size.y then some none else
  (I32.both I32.add idx subSize).bind fun w => (I32.both I32.sub w Idx.ones).bind fun w' =>
  (I32.both wrapI w' size).bind fun br =>
  match getQuadrant idx start, getQuadrant br start with
  | .topLeft, .topLeft => some (some [⟨idx, subSize, .topLeft⟩])
  | .topLeft, .topRight =>
    (I32.sub size.y idx.y).bind fun y => (I32.sub subSize.y y).bind fun y' =>
    some (some [⟨idx, ⟨subSize.x, y⟩, .topLeft⟩, ⟨⟨idx.x, 0⟩, ⟨subSize.x, y'⟩, .topRight⟩])
  | .topLeft, .bottomLeft =>
    (I32.sub size.x idx.x).bind fun x => (I32.sub subSize.x x).bind fun x' =>
    some (some [⟨idx, ⟨x, subSize.y⟩, .topLeft⟩, ⟨⟨0, idx.y⟩, ⟨x', subSize.y⟩, .bottomLeft⟩])
  | .topLeft, .bottomRight =>
    (I32.sub size.x idx.x).bind fun x => (I32.sub size.y idx.y).bind fun y =>
    (I32.sub subSize.y y).bind fun y' => (I32.sub subSize.x x).bind fun x' =>
    some (some [⟨idx, ⟨x, y⟩, .topLeft⟩, ⟨⟨idx.x, 0⟩, ⟨x, y'⟩, .topRight⟩, ⟨⟨0, idx.y⟩, ⟨x', y⟩, .bottomLeft⟩,
      ⟨0, ⟨x', y'⟩, .bottomRight⟩])
  | .topRight, .topRight => some (some [⟨idx, subSize, .topRight⟩])
  | .topRight, .bottomRight =>
    (I32.sub size.x idx.x).bind fun x => (I32.sub subSize.x x).bind fun x' =>
    some (some [⟨idx, ⟨x, subSize.y⟩, .topRight⟩, ⟨⟨0, idx.y⟩, ⟨x', subSize.y⟩, .bottomRight⟩])
  | .bottomLeft, .bottomLeft => some (some [⟨idx, subSize, .bottomLeft⟩])
  | .bottomLeft, .bottomRight =>
    (I32.sub size.y idx.y).bind fun y => (I32.sub subSize.y y).bind fun y' =>
    some (some [⟨idx, ⟨subSize.x, y⟩, .bottomLeft⟩, ⟨⟨idx.x, 0⟩, ⟨subSize.x, y'⟩, .bottomRight⟩])
  | .bottomRight, .bottomRight => some (some [⟨idx, subSize, .bottomRight⟩])
  | _, _ => some none

namespace CostMap
variable {K : Type} [Field K] [LinearOrder K] [FloorRing K] (rd : K → K)

/-- `CostMap::getSubmap(position, length, indexInSubmap, isSuccess)` (cost_map.cpp 280-325). The copying itself (300-320) is
done by Eigen, whose indices have 64 bits. -/
def getSubmapI (m : CostMap K) (position length : Vec K) (index : Idx) : Res (CostMap K × Idx × Bool) :=
  let submap : CostMap K := ((((CostMap.new m.layers).setBasicLayers m.basicLayers).setTimestamp
    m.timestamp).setFrameId m.frameId)
  match m.submapGeometryI rd position length with
  | none => .ub
  | some none => .ok (CostMap.new m.layers, index, false)
  | some (some info) =>
    match setGeometryI rd info.length m.resolution info.position submap with
    | (.ok _, submap) =>
      let submap := submap.setStartIndex 0
      match bufferRegionsI info.startIndex submap.size m.size m.startIndex with
      | none => .ub
      | some none => .ok (CostMap.new m.layers, index, false)
      | some (some regions) =>
        match Act.forEach (m.copyLayer regions) m.layers submap with
        | (.ok _, submap) => .ok (submap, index, true)
        | (.thrown e, _) => .thrown e
        | (.assertFail, _) => .assertFail
        | (.ub, _) => .ub
        | (.outOfFuel, _) => .outOfFuel
    | (.thrown e, _) => .thrown e
    | (.assertFail, _) => .assertFail
    | (.ub, _) => .ub
    | (.outOfFuel, _) => .outOfFuel

end CostMap
end CostMapModel
