import Verif.Model.Iterators

/-!
# LineIterator

Model of cost_map_core/src/lib/iterators/line_iterator.cpp.
-/

namespace CostMapModel

/-- `LineIterator` (iterators/line_iterator.hpp, private members). The copies of the map geometry
(`mapLength_`, `mapPosition_`, `resolution_`, `bufferSize_`, `bufferStartIndex_`) are dropped: they are written
by `initialize` (81-87) and never read. `start_` and `end_` are read only by
`initializeIterationParameters`. The counters are unbounded. -/
structure LineIter where
  index : Idx
  iCell : Nat
  nCells : Nat
  increment1 : Idx
  increment2 : Idx
  denominator : Int
  numerator : Int
  numeratorAdd : Int
  deriving DecidableEq, Repr

namespace LineIter

/-- `initializeIterationParameters` (line_iterator.cpp 107-151), i.e. `initialize` (78-91) and the constructor
from two indices (26-29). -/
def ofIndices (a b : Idx) : LineIter :=
  let dx := |b.x - a.x|
  let dy := |b.y - a.y|
  let sx : Int := if b.x ≥ a.x then 1 else -1
  let sy : Int := if b.y ≥ a.y then 1 else -1
  if dx ≥ dy then
    { index := a, iCell := 0, nCells := (dx + 1).toNat, increment1 := ⟨0, sy⟩, increment2 := ⟨sx, 0⟩,
      denominator := dx, numerator := dx / 2, numeratorAdd := dy }
  else
    { index := a, iCell := 0, nCells := (dy + 1).toNat, increment1 := ⟨sx, 0⟩, increment2 := ⟨0, sy⟩,
      denominator := dy, numerator := dy / 2, numeratorAdd := dx }

/-- `operator ++` (line_iterator.cpp 61-71). -/
def next (it : LineIter) : LineIter :=
  let n := it.numerator + it.numeratorAdd
  if n ≥ it.denominator then
    { it with numerator := n - it.denominator, index := it.index + it.increment1 + it.increment2,
              iCell := it.iCell + 1 }
  else
    { it with numerator := n, index := it.index + it.increment2, iCell := it.iCell + 1 }

/-- `isPastEnd` (line_iterator.cpp 73-76). -/
def isPastEnd (it : LineIter) : Bool := decide (it.iCell ≥ it.nCells)

/-- `operator !=` (line_iterator.cpp 51-54). -/
def ne (a b : LineIter) : Bool := a.index ≠ b.index

/-- The iterator operations; `operator *` is line_iterator.cpp 56-59. -/
def ops : IterOps LineIter Idx := ⟨isPastEnd, fun it => .ok it.index, fun it => .ok it.next⟩

section
variable {K : Type} [Field K] [LinearOrder K] [FloorRing K]

/-- The loop of `getIndexLimitedToMapRange` (line_iterator.cpp 99-103), with fuel. `norm` is Eigen's `norm()`,
`dir` the normalised direction. -/
def searchFrom (norm : Vec K → K) (m : CostMap K) (stop dir : Vec K) : Nat → Vec K → Res (Option Idx)
  | 0, _ => .outOfFuel
  | fuel + 1, p =>
    if (m.getIndex p).2 then .ok (some (m.getIndex p).1)
    else
      let h := m.resolution - dblEpsilon
      let p' : Vec K := ⟨p.x + h * dir.x, p.y + h * dir.y⟩
      if norm ⟨stop.x - p'.x, stop.y - p'.y⟩ < h then .ok none
      else searchFrom norm m stop dir fuel p'

/-- `Eigen::MatrixBase::normalized()`: a zero vector is returned unchanged. -/
def normalized (norm : Vec K → K) (v : Vec K) : Vec K :=
  if norm v = 0 then v else ⟨v.x / norm v, v.y / norm v⟩

/-- Enough iterations for the loop to end. -/
def searchFuel (norm : Vec K → K) (m : CostMap K) (start stop : Vec K) : Nat :=
  ⌈norm ⟨stop.x - start.x, stop.y - start.y⟩ / (m.resolution - dblEpsilon)⌉.toNat + 2

/-- `getIndexLimitedToMapRange(cost_map, start, end, index)` (line_iterator.cpp 93-105): `none` when it
returns false. -/
def indexLimited (norm : Vec K → K) (m : CostMap K) (start stop : Vec K) : Res (Option Idx) :=
  searchFrom norm m stop (normalized norm ⟨stop.x - start.x, stop.y - start.y⟩)
    (searchFuel norm m start stop) start

/-- Constructor from two positions (line_iterator.cpp 16-24). `none` is an object whose members were
never initialised. -/
def ofPositions (norm : Vec K → K) (m : CostMap K) (start stop : Vec K) : Res (Option LineIter) :=
  (indexLimited norm m start stop).bind fun i =>
    match i with
    | none => .ok none
    | some i =>
      (indexLimited norm m stop start).bind fun j =>
        match j with
        | none => .ok none
        | some j => .ok (some (ofIndices i j))

/-- The first `isPastEnd()` after construction: reading members that were never initialised is undefined
behaviour. -/
def firstPastEnd : Option LineIter → Res Bool
  | none => .ub
  | some it => .ok it.isPastEnd

end

end LineIter
end CostMapModel
