import Verif.Model.Iterators
import Mathlib.Data.Nat.Sqrt

/-!
# SpiralIterator

Model of cost_map_core/src/lib/iterators/spiral_iterator.cpp.
-/

namespace CostMapModel

/-- `signum` (iterators/spiral_iterator.hpp): `(0 < val) - (val < 0)`. -/
def signum (v : Int) : Int := (if 0 < v then 1 else 0) - (if v < 0 then 1 else 0)

/-- `(int) Vector(x, y).norm() == d` (spiral_iterator.cpp 100, 103). The truncated norm is the integer square
root; `C81_norm` says that the errors of the `double` operations do not change it for offsets of up to 2^24. -/
def normIs (d : Nat) (x y : Int) : Bool := decide (Nat.sqrt (x * x + y * y).toNat = d)

/-- One step of the walk around ring `d` (spiral_iterator.cpp 97-108). -/
def ringStep (d : Nat) (p : Idx) : Idx :=
  let nx := -signum p.y
  let ny := signum p.x
  if nx ≠ 0 ∧ normIs d (p.x + nx) p.y = true then ⟨p.x + nx, p.y⟩
  else if ny ≠ 0 ∧ normIs d p.x (p.y + ny) = true then ⟨p.x, p.y + ny⟩
  else ⟨p.x + nx, p.y + ny⟩

/-- The offsets the do-while loop of `generateRing` goes through from `p` on (spiral_iterator.cpp 86-109), with
fuel; `none` when the fuel ends first. -/
def ringFrom (d : Nat) : Nat → Idx → Option (List Idx)
  | 0, _ => none
  | fuel + 1, p =>
    let p' := ringStep d p
    if p'.x = d ∧ p'.y = 0 then some [p] else (ringFrom d fuel p').map (p :: ·)

/-- All offsets of ring `d` in the order of the walk, which starts at `(d, 0)` (line 83). -/
def ringOffsets (d : Nat) : Option (List Idx) := ringFrom d ((2 * d + 3) ^ 2) ⟨d, 0⟩

/-- `SpiralIterator` (iterators/spiral_iterator.hpp, private members). `points` is `pointsRing_` in reverse, so
that `back()` is the head. -/
structure SpiralIter (K : Type) where
  center : Vec K
  indexCenter : Idx
  radiusSquare : K
  nRings : Nat
  distance : Nat
  points : List Idx
  length : Vec K
  position : Vec K
  resolution : K
  size : Idx
  deriving DecidableEq, Repr

namespace SpiralIter
variable {K : Type} [Field K] [LinearOrder K] [FloorRing K]

/-- `isInside` (spiral_iterator.cpp 72-78). `getPositionFromIndex` is called without a start index, so the
default (zero) is used. It is only called with indices in range. -/
def isInside (it : SpiralIter K) (i : Idx) : Bool :=
  match positionFromIndex i it.length it.position it.resolution it.size 0 with
  | none => false
  | some p => decide ((p.x - it.center.x) ^ 2 + (p.y - it.center.y) ^ 2 ≤ it.radiusSquare)

/-- Whether the offset `o` is stored by `generateRing` at distance `d` (spiral_iterator.cpp 87-96). -/
def keeps (it : SpiralIter K) (d : Nat) (o : Idx) : Bool :=
  let i := o + it.indexCenter
  inRange i it.size && (if d = it.nRings ∨ d + 1 = it.nRings then it.isInside i else true)

/-- `generateRing` (spiral_iterator.cpp 80-110). `distance_` is unsigned; its wrap-around is not modelled. -/
def generateRing (it : SpiralIter K) : Res (SpiralIter K) :=
  let d := it.distance + 1
  match ringOffsets d with
  | none => .outOfFuel
  | some os =>
    .ok { it with distance := d
                  points := ((os.filter (it.keeps d)).map (· + it.indexCenter)).reverse ++ it.points }

/-- Constructor (spiral_iterator.cpp 17-32). Line 28 writes the index also when the centre is outside the map.
Line 29 converts to `unsigned int`: a negative value is undefined behaviour. -/
def new (m : CostMap K) (center : Vec K) (radius : K) : Res (SpiralIter K) :=
  let n := ⌈radius / m.resolution⌉
  if n < 0 then .ub else
  let it : SpiralIter K :=
    { center := center, indexCenter := (m.getIndex center).1, radiusSquare := radius * radius, nRings := n.toNat,
      distance := 0, points := [], length := m.length, position := m.position, resolution := m.resolution,
      size := m.size }
  if inRange it.indexCenter it.size then .ok { it with points := [it.indexCenter] }
  else it.generateRing

/-- `isPastEnd` (spiral_iterator.cpp 67-70). -/
def isPastEnd (it : SpiralIter K) : Bool := decide (it.distance = it.nRings) && it.points.isEmpty

/-- `operator *` (spiral_iterator.cpp 55-58): `back()` of an empty vector is undefined behaviour. -/
def deref (it : SpiralIter K) : Res Idx := Res.ofOption it.points.head?

/-- `operator ++` (spiral_iterator.cpp 60-65): `pop_back()` of an empty vector is undefined behaviour. -/
def next (it : SpiralIter K) : Res (SpiralIter K) :=
  match it.points with
  | [] => .ub
  | _ :: ps =>
    let it' := { it with points := ps }
    if ps.isEmpty && !it'.isPastEnd then it'.generateRing else .ok it'

/-- `operator !=` (spiral_iterator.cpp 50-53): it compares the last point with itself. The vector of `*this` must
not be empty. -/
def ne (it _other : SpiralIter K) : Res Bool :=
  match it.points with
  | [] => .ub
  | p :: _ => .ok (decide (p.x ≠ p.x) || decide (p.y ≠ p.y))

/-- The iterator operations. -/
def ops : IterOps (SpiralIter K) Idx := ⟨isPastEnd, deref, next⟩

end SpiralIter
end CostMapModel
