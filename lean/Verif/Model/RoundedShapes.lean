import Verif.Model.RoundedSubmap
import Verif.Model.Iterators

/-!
# Circle, ellipse and polygon iterators in floating point

The functions of `Model/Iterators.lean` that test positions, with a rounding `rd` after every arithmetic operation on
coordinates; `rd := id` gives the exact model back (`C80_exact_arithmetic`). `pow(radius, 2)` is taken to be the rounded
square: the power function of the C library rounds a square correctly. `sin`, `cos` and `sqrt` are parameters, as before.
-/

namespace CostMapModel

namespace ShapeIter
variable {K : Type} [Field K] [LinearOrder K] [FloorRing K] (rd : K → K)

/-- `isInside` (circle_iterator.cpp 74-80, ellipse_iterator.cpp 77-83, polygon_iterator.cpp 70-75): the result of
`getPositionFromIndex` is not checked; for an index out of range the position is uninitialised. -/
def isInsideRd (it : ShapeIter K) (s : SubmapIter) : Res Bool :=
  match positionFromIndexRd rd s.index it.length it.position it.resolution it.size it.startIndex with
  | some p => .ok (it.shape p)
  | none => .ub

/-- The loop of `operator ++` (circle_iterator.cpp 62-64, ellipse_iterator.cpp 65-67, polygon_iterator.cpp 58-60). -/
def skipRd (it : ShapeIter K) : Nat → SubmapIter → Res SubmapIter
  | 0, _ => .outOfFuel
  | n + 1, s =>
    if s.pastEnd then .ok s
    else (it.isInsideRd rd s).bind fun b => if b then .ok s else skipRd it n s.next

/-- `operator ++` (circle_iterator.cpp 57-67, ellipse_iterator.cpp 60-70, polygon_iterator.cpp 53-63). -/
def nextRd (it : ShapeIter K) : Res (ShapeIter K) :=
  let s := it.internal.next
  if s.pastEnd then .ok { it with internal := s }
  else (it.skipRd rd it.fuel s).bind fun s' => .ok { it with internal := s' }

/-- The common part of the constructors (circle_iterator.cpp 21-30, ellipse_iterator.cpp 24-33,
polygon_iterator.cpp 19-28). -/
def newWithRd (m : CostMap K) (shape : Vec K → Bool) (start subSize : Idx) : Res (ShapeIter K) :=
  let it : ShapeIter K :=
    ⟨m.length, m.position, m.resolution, m.size, m.startIndex, shape, SubmapIter.new m start subSize⟩
  (it.isInsideRd rd it.internal).bind fun b => if b then .ok it else it.nextRd rd

/-- `isPastEnd`, `operator *`, `operator ++`. -/
def opsRd : IterOps (ShapeIter K) Idx := ⟨fun it => it.internal.pastEnd, fun it => .ok it.internal.index, nextRd rd⟩

end ShapeIter

section Shapes
variable {K : Type} [Field K] [LinearOrder K] [FloorRing K] (rd : K → K)

/-- The part of `findSubmapParameters` shared by circle and ellipse (circle_iterator.cpp 87-92,
ellipse_iterator.cpp 94-99). The result of `getIndexFromPosition` is not checked. -/
def boxFromBufferIndicesRd (m : CostMap K) (topLeft bottomRight : Vec K) : Idx × Idx :=
  let s := (m.getIndexRd rd (boundPositionRd rd topLeft m.length m.position)).1
  let e := (m.getIndexRd rd (boundPositionRd rd bottomRight m.length m.position)).1
  (s, e - s + Idx.ones)

/-- `squareNorm <= radiusSquare_` (circle_iterator.cpp 20, 78-79). -/
def circleShapeRd (center : Vec K) (radius : K) (p : Vec K) : Bool :=
  decide (rd (rd (rd (p.x - center.x) ^ 2) + rd (rd (p.y - center.y) ^ 2)) ≤ rd (radius ^ 2))

/-- `CircleIterator` constructor (circle_iterator.cpp 16-31, 82-93). -/
def circleIterRd (m : CostMap K) (center : Vec K) (radius : K) : Res (ShapeIter K) :=
  let box := boxFromBufferIndicesRd rd m ⟨rd (center.x + radius), rd (center.y + radius)⟩
    ⟨rd (center.x - radius), rd (center.y - radius)⟩
  ShapeIter.newWithRd rd m (circleShapeRd rd center radius) box.1 box.2

/-- `isInside` of the ellipse (ellipse_iterator.cpp 20-23, 81-82), with `c = cos(rotation)` and `s = sin(rotation)`. A zero
semi axis makes the C++ value infinite or NaN, so the comparison is false. -/
def ellipseShapeRd (center len : Vec K) (c s : K) (p : Vec K) : Bool :=
  let dx := rd (p.x - center.x)
  let dy := rd (p.y - center.y)
  let wx := rd (rd (c * dx) + rd (s * dy))
  let wy := rd (rd (s * dx) + rd (-c * dy))
  let ax := rd (rd (1 / 2 * len.x) ^ 2)
  let ay := rd (rd (1 / 2 * len.y) ^ 2)
  if ax = 0 ∨ ay = 0 then false else decide (rd (rd (rd (wx ^ 2) / ax) + rd (rd (wy ^ 2) / ay)) ≤ 1)

/-- `EllipseIterator` constructor (ellipse_iterator.cpp 17-34, 85-100), with `c = cos(rotation)`, `s = sin(rotation)` and
`sqrt`, which includes its rounding, as parameters. The products with the zero components of `length` (89-90) are exact
zeros. -/
def ellipseIterRd (sqrt : K → K) (m : CostMap K) (center len : Vec K) (c s : K) : Res (ShapeIter K) :=
  let h : Vec K := ⟨sqrt (rd (rd (rd (c * len.x) ^ 2) + rd (rd (-s * len.y) ^ 2))),
    sqrt (rd (rd (rd (s * len.x) ^ 2) + rd (rd (c * len.y) ^ 2)))⟩
  let box := boxFromBufferIndicesRd rd m ⟨rd (center.x + h.x), rd (center.y + h.y)⟩
    ⟨rd (center.x - h.x), rd (center.y - h.y)⟩
  ShapeIter.newWithRd rd m (ellipseShapeRd rd center len c s) box.1 box.2

/-- One edge of the crossing test of `grid_map::Polygon::isInside` (external; called from polygon_iterator.cpp 74): edge
from `vj` to `vi`. -/
def crossesRd (p vi vj : Vec K) : Bool :=
  (decide (p.y < vi.y) != decide (p.y < vj.y)) &&
    decide (p.x < rd (rd (rd (rd (vj.x - vi.x) * rd (p.y - vi.y)) / rd (vj.y - vi.y)) + vi.x))

/-- `grid_map::Polygon::isInside` (external). -/
def polygonInsideRd (vs : List (Vec K)) (p : Vec K) : Bool :=
  match vs.getLast? with
  | none => false
  | some l => ((List.zip (l :: vs) vs).filter fun e => crossesRd rd p e.2 e.1).length % 2 = 1

/-- `PolygonIterator` constructor (polygon_iterator.cpp 16-29, 77-91). -/
def polygonIterRd (m : CostMap K) (vs : List (Vec K)) : Res (ShapeIter K) :=
  match vs with
  | [] => .ub
  | v :: _ =>
    let tl := vs.foldl (fun a b => (⟨max a.x b.x, max a.y b.y⟩ : Vec K)) v
    let br := vs.foldl (fun a b => (⟨min a.x b.x, min a.y b.y⟩ : Vec K)) v
    let s := (m.getIndexRd rd (boundPositionRd rd tl m.length m.position)).1
    let e := (m.getIndexRd rd (boundPositionRd rd br m.length m.position)).1
    ShapeIter.newWithRd rd m (polygonInsideRd rd vs) s (submapSizeFromCorners s e m.size m.startIndex)

end Shapes
end CostMapModel
