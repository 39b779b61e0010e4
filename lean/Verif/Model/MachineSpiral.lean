import Verif.Model.Machine
import Verif.Model.Spiral

/-!
# SpiralIterator in floating point and 32-bit integers

`Model/Spiral.lean` again (cost_map_core/src/lib/iterators/spiral_iterator.cpp), with a rounding `rd` after every operation on
coordinates, `sqrt` for `std::sqrt`, and `int` operations as in `Model/Machine.lean`. Members of type `unsigned int` are natural
numbers below 2^32.
-/

namespace CostMapModel

/-- `std::sqrt` of a whole number in binary64: the square root is computed with 60 binary places, a half is added in the last
of them when digits were cut off, and the result is rounded to 53 significant bits. Because the number of places is larger, no
number that is half-way between two doubles is hit unless it is the root. -/
def sqrtDouble (x : ℚ) : ℚ :=
  let n := x.num.toNat * 4 ^ 60
  let s := Nat.sqrt n
  toDouble (((s : ℚ) + if s * s = n then 0 else 1 / 2) / 2 ^ 60)

section
variable {K : Type} [Field K] [LinearOrder K] [FloorRing K] (rd sqrt : K → K)

/-- `(int) Vector(x, y).norm()` (spiral_iterator.cpp 100, 103); the components are converted to `double`, which is exact. -/
def normM (x y : Int) : Option Int := I32.ofReal (sqrt (rd (rd ((x : K) * x) + rd ((y : K) * y))))

/-- One step of the walk around ring `d` (spiral_iterator.cpp 97-108). The norm is never negative, so comparing it with the
unsigned `distance_` is comparing numbers. -/
def ringStepM (d : Nat) (p : Idx) : Option Idx :=
  let nx := -signum p.y
  let ny := signum p.x
  (I32.add p.x nx).bind fun x' => (I32.add p.y ny).bind fun y' =>
  (normM rd sqrt x' p.y).bind fun a =>
  if nx ≠ 0 ∧ a = d then some ⟨x', p.y⟩
  else (normM rd sqrt p.x y').bind fun b =>
    if ny ≠ 0 ∧ b = d then some ⟨p.x, y'⟩ else some ⟨x', y'⟩

namespace SpiralIter

/-- `isInside` (spiral_iterator.cpp 72-78), called with indices in range only. -/
def isInsideM (it : SpiralIter K) (i : Idx) : Res Bool :=
  match positionFromIndexI rd i it.length it.position it.resolution it.size 0 with
  | some (some p) =>
    .ok (decide (rd (rd (rd (p.x - it.center.x) ^ 2) + rd (rd (p.y - it.center.y) ^ 2)) ≤ it.radiusSquare))
  | _ => .ub

/-- Whether `generateRing` stores the index `i` at distance `d` (spiral_iterator.cpp 89-96); `nRings_ - 1` wraps around. -/
def keepsM (it : SpiralIter K) (d : Nat) (i : Idx) : Res Bool :=
  if inRange i it.size then
    if d = it.nRings ∨ d = (it.nRings + 4294967295) % 4294967296 then it.isInsideM rd i else .ok true
  else .ok false

/-- The loop of `generateRing` (spiral_iterator.cpp 86-109) from the offset `p` on; `acc` is `pointsRing_` in reverse. -/
def ringM (it : SpiralIter K) (d : Nat) : Nat → Idx → List Idx → Res (List Idx)
  | 0, _, _ => .outOfFuel
  | fuel + 1, p, acc =>
    (Res.ofOption (I32.both I32.add p it.indexCenter)).bind fun i =>
    (it.keepsM rd d i).bind fun k =>
    (Res.ofOption (ringStepM rd sqrt d p)).bind fun p' =>
    if p'.x = d ∧ p'.y = 0 then .ok (if k then i :: acc else acc)
    else ringM it d fuel p' (if k then i :: acc else acc)

/-- `generateRing` (spiral_iterator.cpp 80-110). A distance that does not fit an `int` is not modelled further. -/
def generateRingM (it : SpiralIter K) : Res (SpiralIter K) :=
  let d := (it.distance + 1) % 4294967296
  (Res.ofOption (i32 d)).bind fun x =>
  (it.ringM rd sqrt d ((2 * d + 3) ^ 2) ⟨x, 0⟩ it.points).bind fun ps => .ok { it with distance := d, points := ps }

/-- Constructor (spiral_iterator.cpp 17-32). -/
def newM (m : CostMap K) (center : Vec K) (radius : K) : Res (SpiralIter K) :=
  (Res.ofOption (m.getIndexI rd center)).bind fun c =>
  let n := ⌈rd (radius / m.resolution)⌉
  if n < 0 ∨ 4294967296 ≤ n then .ub else
  let it : SpiralIter K :=
    { center := center, indexCenter := c.1, radiusSquare := rd (radius * radius), nRings := n.toNat,
      distance := 0, points := [], length := m.length, position := m.position, resolution := m.resolution,
      size := m.size }
  if inRange it.indexCenter it.size then .ok { it with points := [it.indexCenter] }
  else it.generateRingM rd sqrt

/-- `operator ++` (spiral_iterator.cpp 60-65). -/
def nextM (it : SpiralIter K) : Res (SpiralIter K) :=
  match it.points with
  | [] => .ub
  | _ :: ps =>
    let it' := { it with points := ps }
    if ps.isEmpty && !it'.isPastEnd then it'.generateRingM rd sqrt else .ok it'

/-- `getCurrentRadius` (spiral_iterator.cpp 112-116). The norm of a vector of `int`s is an `int` in Eigen: the square root is
truncated. -/
def getCurrentRadiusM (it : SpiralIter K) : Res K :=
  it.deref.bind fun i =>
  (Res.ofOption (I32.both I32.sub i it.indexCenter)).bind fun o =>
  (Res.ofOption ((I32.mul o.x o.x).bind fun a => (I32.mul o.y o.y).bind fun b => (I32.add a b).bind fun n =>
    I32.ofReal (sqrt (n : K)))).bind fun r => .ok (rd ((r : K) * it.resolution))

/-- The iterator operations. -/
def opsM : IterOps (SpiralIter K) Idx := ⟨isPastEnd, deref, nextM rd sqrt⟩

/-- The same loop with a body that also asks for the current radius. -/
def opsRadiusM : IterOps (SpiralIter K) (Idx × K) :=
  ⟨isPastEnd, fun it => it.deref.bind fun i => (it.getCurrentRadiusM rd sqrt).bind fun r => .ok (i, r), nextM rd sqrt⟩

end SpiralIter
end
end CostMapModel
