import Verif.Model.Merge
import Verif.Model.Rounded

/-!
# Interpolated access in floating point

`CostMap::atPositionLinearInterpolated` with a rounding `rd` after every operation in `double` and a rounding `rf` where the result
is stored in a `float`. The linear solver stays a parameter.
-/

namespace CostMapModel
namespace CostMap
variable {K : Type} [Field K] [LinearOrder K] [FloorRing K] (rd rf : K → K)

/-- A row of the system (cost_map.cpp 637): `1, x, y, x * y`. -/
def rowRd (q : Vec K) : Fin 4 → K := ![1, q.x, q.y, rd (q.x * q.y)]

/-- The value at the position (643): `x(0) + x(1) * p.x() + x(2) * p.y() + x(3) * p.x() * p.y()`, evaluated from the left. -/
def evalRd (x : Fin 4 → K) (p : Vec K) : K :=
  rd (rd (rd (x 0 + rd (x 1 * p.x)) + rd (x 2 * p.y)) + rd (rd (x 3 * p.x) * p.y))

/-- `CostMap::atPositionLinearInterpolated` (602-645): `ok none` when it returns false; see `linearInterpolated`. -/
def linearInterpolatedRd (solve : Solver K) (m : CostMap K) (l : String) (p : Vec K) : Res (Option K) :=
  let i0 := (m.getIndexRd rd p).1
  match m.getPositionRd rd i0 with
  | none => .ub
  | some p0 =>
    let i1 := if p0.x ≤ p.x then i0 + ⟨-1, 0⟩ else i0 + ⟨1, 0⟩
    match m.getPositionRd rd i1 with
    | none => .ok none
    | some p1 =>
      let i2 := if p0.y ≤ p.y then i0 + ⟨0, -1⟩ else i0 + ⟨0, 1⟩
      match m.getPositionRd rd i2 with
      | none => .ok none
      | some p2 =>
        let i3 : Idx := ⟨i1.x, i2.y⟩
        match m.getPositionRd rd i3 with
        | none => .ok none
        | some p3 =>
          (m.at l i0).bind fun b0 => (m.at l i1).bind fun b1 => (m.at l i2).bind fun b2 => (m.at l i3).bind fun b3 =>
            let x := solve ![rowRd rd p0, rowRd rd p1, rowRd rd p2, rowRd rd p3]
              ![(b0.toNat : K), (b1.toNat : K), (b2.toNat : K), (b3.toNat : K)]
            .ok (some (rf (evalRd rd x p)))

/-- `CostMap::atPosition(layer, position, interpolation_method)` (170-194). -/
def atPositionInterpRd (solve : Solver K) (m : CostMap K) (l : String) (p : Vec K) : Interp → Res Cost
  | .linear => (m.linearInterpolatedRd rd rf solve l p).bind fun r => match r with
    | some v => costOfFloat v
    | none => m.atPositionRd rd l p
  | .nearest => m.atPositionRd rd l p
  | .other => .thrown .runtimeError

end CostMap
end CostMapModel
