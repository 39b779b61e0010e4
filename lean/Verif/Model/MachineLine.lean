import Verif.Model.Machine
import Verif.Model.Line

/-!
# LineIterator between positions, in floating point and 32-bit integers

The constructor of `Model/Line.lean` from two positions (cost_map_core/src/lib/iterators/line_iterator.cpp 16-24, 93-105) with a
rounding `rd` after every operation on coordinates, `sqrt` for `std::sqrt`, and `int` operations as in `Model/Machine.lean`.
-/

namespace CostMapModel

/-- `std::sqrt` in binary64: the square root of `n / d` is that of `n * d` over `d`, which is computed as in the model of the
spiral iterator (`sqrtDouble`, Model/MachineSpiral.lean). -/
def rootDouble (x : ℚ) : ℚ :=
  let n := x.num.toNat * x.den * 4 ^ 60
  let s := Nat.sqrt n
  toDouble (((s : ℚ) + if s * s = n then 0 else 1 / 2) / 2 ^ 60 / x.den)

namespace LineIter
variable {K : Type} [Field K] [LinearOrder K] [FloorRing K] (rd sqrt : K → K)

/-- Eigen's `squaredNorm()`. -/
def squaredNormRd (v : Vec K) : K := rd (rd (v.x * v.x) + rd (v.y * v.y))

/-- Eigen's `normalized()` (called from line_iterator.cpp 98): a vector whose squared norm is zero is returned unchanged. -/
def normalizedRd (v : Vec K) : Vec K :=
  if 0 < squaredNormRd rd v then
    ⟨rd (v.x / sqrt (squaredNormRd rd v)), rd (v.y / sqrt (squaredNormRd rd v))⟩
  else v

/-- The step `cost_map.getResolution() - std::numeric_limits<double>::epsilon()` (100, 101). -/
def stepRd (m : CostMap K) : K := rd (m.resolution - dblEpsilon)

/-- `newStart += step * direction` (100). -/
def advanceRd (m : CostMap K) (dir p : Vec K) : Vec K :=
  ⟨rd (p.x + rd (stepRd rd m * dir.x)), rd (p.y + rd (stepRd rd m * dir.y))⟩

/-- The loop of `getIndexLimitedToMapRange` (99-103), for at most the given number of tests of its condition. -/
def searchI (m : CostMap K) (stop dir : Vec K) : Nat → Vec K → Res (Option Idx)
  | 0, _ => .outOfFuel
  | fuel + 1, p =>
    match m.getIndexI rd p with
    | none => .ub
    | some (i, inside) =>
      if inside then .ok (some i)
      else
        let p' := advanceRd rd m dir p
        if sqrt (squaredNormRd rd ⟨rd (stop.x - p'.x), rd (stop.y - p'.y)⟩) < stepRd rd m then .ok none
        else searchI m stop dir fuel p'

/-- `getIndexLimitedToMapRange(cost_map, start, end, index)` (93-105): `none` when it returns false. -/
def indexLimitedI (fuel : Nat) (m : CostMap K) (start stop : Vec K) : Res (Option Idx) :=
  searchI rd sqrt m stop (normalizedRd rd sqrt ⟨rd (stop.x - start.x), rd (stop.y - start.y)⟩) fuel start

/-- Constructor from two positions (16-24). `none` is an object whose members were never initialised. -/
def ofPositionsI (fuel : Nat) (m : CostMap K) (start stop : Vec K) : Res (Option LineIter) :=
  (indexLimitedI rd sqrt fuel m start stop).bind fun i =>
    match i with
    | none => .ok none
    | some i =>
      (indexLimitedI rd sqrt fuel m stop start).bind fun j =>
        match j with
        | none => .ok none
        | some j => (Res.ofOption (ofIndicesI i j)).bind fun it => .ok (some it)

end LineIter
end CostMapModel
