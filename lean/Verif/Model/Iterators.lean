import Verif.Model.CostMap

/-!
# The grid iterators

Model of cost_map_core/src/lib/iterators. An iterator is a state with `isPastEnd`, `operator*` and
`operator++`; a C++ iterator object is its state. (For the iterators that keep their position behind a
shared pointer, the effect of copying is modelled separately in `Model/SharedIterators.lean`.)
-/

namespace CostMapModel

/-- The three operations of an iterator over states `σ` yielding `β`. -/
structure IterOps (σ β : Type) where
  isPastEnd : σ → Bool
  deref : σ → Res β
  next : σ → Res σ

/-! ## CostMapIterator -/

/-- `CostMapIterator` (iterators/costmap_iterator.hpp, private members). -/
structure CostMapIter where
  size : Idx
  startIndex : Idx
  endIndex : Idx
  index : Idx
  pastEnd : Bool
  deriving DecidableEq, Repr

namespace CostMapIter

/-- Constructor (cost_map_iterator.cpp 14-22). `bnd` is `grid_map::boundIndexToRange` (line 19), which only
matters for `end()`. -/
def newWith {K : Type} (bnd : Int → Int → Int) (m : CostMap K) : CostMapIter where
  size := m.size
  startIndex := m.startIndex
  endIndex := bound2 bnd (m.startIndex + m.size - Idx.ones) m.size
  index := m.startIndex
  pastEnd := false

/-- Constructor, with the clamping `boundIndexToRange` of grid_map_core ≥ 1.5. -/
def new {K : Type} (m : CostMap K) : CostMapIter := newWith clamp1 m

/-- `operator ++` (cost_map_iterator.cpp 58-62). -/
def next (it : CostMapIter) : CostMapIter :=
  match incrementIndex it.index it.size it.startIndex with
  | some i => { it with index := i, pastEnd := false }
  | none => { it with pastEnd := true }

/-- `getUnwrappedIndex` (cost_map_iterator.cpp 53-56). -/
def unwrapped (it : CostMapIter) : Idx := unwrapIdx it.index it.size it.startIndex

/-- `end()` (cost_map_iterator.cpp 64-69). -/
def «end» (it : CostMapIter) : CostMapIter := { it with index := it.endIndex }

/-- `operator !=` (cost_map_iterator.cpp 43-46). -/
def ne (a b : CostMapIter) : Bool := a.index ≠ b.index

/-- `isPastEnd` (71-74), `operator *` (48-51), `operator ++`. -/
def ops : IterOps CostMapIter Idx := ⟨fun it => it.pastEnd, fun it => .ok it.index, fun it => .ok it.next⟩

end CostMapIter

/-! ## SubmapIterator -/

/-- `SubmapIterator` (iterators/submap_iterator.hpp, private members). -/
structure SubmapIter where
  size : Idx
  startIndex : Idx
  index : Idx
  submapSize : Idx
  submapStartIndex : Idx
  submapIndex : Idx
  pastEnd : Bool
  deriving DecidableEq, Repr

namespace SubmapIter

/-- Constructor (submap_iterator.cpp 28-38); the other two (16-25) delegate to it. -/
def new {K : Type} (m : CostMap K) (start subSize : Idx) : SubmapIter where
  size := m.size
  startIndex := m.startIndex
  index := start
  submapSize := subSize
  submapStartIndex := start
  submapIndex := 0
  pastEnd := false

/-- `operator ++` (submap_iterator.cpp 78-83). -/
def next (it : SubmapIter) : SubmapIter :=
  match incrementIndexForSubmap it.submapIndex it.submapStartIndex it.submapSize it.size it.startIndex with
  | some (s, i) => { it with submapIndex := s, index := i, pastEnd := false }
  | none => { it with pastEnd := true }

/-- `operator !=` (submap_iterator.cpp 63-66). -/
def ne (a b : SubmapIter) : Bool := a.index ≠ b.index

/-- `isPastEnd` (85-88), `operator *` (68-71), `operator ++`. -/
def ops : IterOps SubmapIter Idx := ⟨fun it => it.pastEnd, fun it => .ok it.index, fun it => .ok it.next⟩

/-- As `ops`, yielding `(*it, it.getSubmapIndex())` (68-76). -/
def opsBoth : IterOps SubmapIter (Idx × Idx) :=
  ⟨fun it => it.pastEnd, fun it => .ok (it.index, it.submapIndex), fun it => .ok it.next⟩

end SubmapIter

/-! ## Circle, ellipse and polygon

The three classes share the text of `operator ++` and of the constructor; they differ in the bounding box
and in `isInside`. -/

/-- State of a `CircleIterator`, `EllipseIterator` or `PolygonIterator`: the map data they copy, the shape
as the predicate their `isInside` evaluates on a position, and the internal iterator. -/
structure ShapeIter (K : Type) where
  length : Vec K
  position : Vec K
  resolution : K
  size : Idx
  startIndex : Idx
  shape : Vec K → Bool
  internal : SubmapIter

namespace ShapeIter
variable {K : Type} [Field K] [LinearOrder K] [FloorRing K]

/-- `isInside` (circle_iterator.cpp 74-80, ellipse_iterator.cpp 77-83, polygon_iterator.cpp 70-75): the
result of `getPositionFromIndex` is not checked; for an index out of range the position is
uninitialised. -/
def isInside (it : ShapeIter K) (s : SubmapIter) : Res Bool :=
  match positionFromIndex s.index it.length it.position it.resolution it.size it.startIndex with
  | some p => .ok (it.shape p)
  | none => .ub

/-- The loop of `operator ++` (circle_iterator.cpp 62-64, ellipse_iterator.cpp 65-67,
polygon_iterator.cpp 58-60). -/
def skip (it : ShapeIter K) : Nat → SubmapIter → Res SubmapIter
  | 0, _ => .outOfFuel
  | n + 1, s =>
    if s.pastEnd then .ok s
    else (it.isInside s).bind fun b => if b then .ok s else skip it n s.next

/-- Loop bound for `skip`: more than the number of cells of the bounding box. -/
def fuel (it : ShapeIter K) : Nat :=
  it.internal.submapSize.x.toNat * it.internal.submapSize.y.toNat + 2

/-- `operator ++` (circle_iterator.cpp 57-67, ellipse_iterator.cpp 60-70, polygon_iterator.cpp 53-63). -/
def next (it : ShapeIter K) : Res (ShapeIter K) :=
  let s := it.internal.next
  if s.pastEnd then .ok { it with internal := s }
  else (it.skip it.fuel s).bind fun s' => .ok { it with internal := s' }

/-- The common part of the constructors (circle_iterator.cpp 21-30, ellipse_iterator.cpp 24-33,
polygon_iterator.cpp 19-28). -/
def newWith (m : CostMap K) (shape : Vec K → Bool) (start subSize : Idx) : Res (ShapeIter K) :=
  let it : ShapeIter K :=
    ⟨m.length, m.position, m.resolution, m.size, m.startIndex, shape, SubmapIter.new m start subSize⟩
  (it.isInside it.internal).bind fun b => if b then .ok it else it.next

/-- `isPastEnd`, `operator *`, `operator ++`. -/
def ops : IterOps (ShapeIter K) Idx := ⟨fun it => it.internal.pastEnd, fun it => .ok it.internal.index, next⟩

end ShapeIter

section Shapes
variable {K : Type} [Field K] [LinearOrder K] [FloorRing K]

/-- The part of `findSubmapParameters` shared by circle and ellipse (circle_iterator.cpp 87-92,
ellipse_iterator.cpp 94-99): the size is computed from the *buffer* indices of the corners. -/
def boxFromBufferIndices (m : CostMap K) (topLeft bottomRight : Vec K) : Idx × Idx :=
  let s := (m.getIndex (boundPosition topLeft m.length m.position)).1
  let e := (m.getIndex (boundPosition bottomRight m.length m.position)).1
  (s, e - s + Idx.ones)

/-- `squareNorm <= radiusSquare_` (circle_iterator.cpp 20, 78-79). -/
def circleShape (center : Vec K) (radius : K) (p : Vec K) : Bool :=
  decide ((p.x - center.x) ^ 2 + (p.y - center.y) ^ 2 ≤ radius ^ 2)

/-- `CircleIterator` constructor (circle_iterator.cpp 16-31, 82-93). -/
def circleIter (m : CostMap K) (center : Vec K) (radius : K) : Res (ShapeIter K) :=
  let box := boxFromBufferIndices m ⟨center.x + radius, center.y + radius⟩
    ⟨center.x - radius, center.y - radius⟩
  ShapeIter.newWith m (circleShape center radius) box.1 box.2

/-- `isInside` of the ellipse (ellipse_iterator.cpp 20-23, 81-82), with `c = cos(rotation)` and
`s = sin(rotation)`. A zero semi axis makes the C++ value infinite or NaN, so the comparison is false. -/
def ellipseShape (center len : Vec K) (c s : K) (p : Vec K) : Bool :=
  let wx := c * (p.x - center.x) + s * (p.y - center.y)
  let wy := s * (p.x - center.x) + -c * (p.y - center.y)
  let ax := (1 / 2 * len.x) ^ 2
  let ay := (1 / 2 * len.y) ^ 2
  if ax = 0 ∨ ay = 0 then false else decide (wx ^ 2 / ax + wy ^ 2 / ay ≤ 1)

/-- `EllipseIterator` constructor (ellipse_iterator.cpp 17-34, 85-100), with `c = cos(rotation)`,
`s = sin(rotation)` and `sqrt` as parameters. -/
def ellipseIter (sqrt : K → K) (m : CostMap K) (center len : Vec K) (c s : K) : Res (ShapeIter K) :=
  let h : Vec K := ⟨sqrt ((c * len.x) ^ 2 + (-s * len.y) ^ 2), sqrt ((s * len.x) ^ 2 + (c * len.y) ^ 2)⟩
  let box := boxFromBufferIndices m ⟨center.x + h.x, center.y + h.y⟩ ⟨center.x - h.x, center.y - h.y⟩
  ShapeIter.newWith m (ellipseShape center len c s) box.1 box.2

/-- One edge of the crossing test of `grid_map::Polygon::isInside` (external; called from
polygon_iterator.cpp 74): edge from `vj` to `vi`. -/
def crosses (p vi vj : Vec K) : Bool :=
  (decide (p.y < vi.y) != decide (p.y < vj.y)) &&
    decide (p.x < (vj.x - vi.x) * (p.y - vi.y) / (vj.y - vi.y) + vi.x)

/-- `grid_map::Polygon::isInside` (external): parity of the number of edges crossed; the edges are
`(last, first), (first, second), ...`. -/
def polygonInside (vs : List (Vec K)) (p : Vec K) : Bool :=
  match vs.getLast? with
  | none => false
  | some l => ((List.zip (l :: vs) vs).filter fun e => crosses p e.2 e.1).length % 2 = 1

/-- `PolygonIterator` constructor (polygon_iterator.cpp 16-29, 77-91): a polygon without vertices reads
`getVertices()[0]` of an empty vector. -/
def polygonIter (m : CostMap K) (vs : List (Vec K)) : Res (ShapeIter K) :=
  match vs with
  | [] => .ub
  | v :: _ =>
    let tl := vs.foldl (fun a b => (⟨max a.x b.x, max a.y b.y⟩ : Vec K)) v
    let br := vs.foldl (fun a b => (⟨min a.x b.x, min a.y b.y⟩ : Vec K)) v
    let s := (m.getIndex (boundPosition tl m.length m.position)).1
    let e := (m.getIndex (boundPosition br m.length m.position)).1
    ShapeIter.newWith m (polygonInside vs) s (submapSizeFromCorners s e m.size m.startIndex)

end Shapes
end CostMapModel
