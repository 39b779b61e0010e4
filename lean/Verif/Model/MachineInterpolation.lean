import Verif.Model.Machine
import Verif.Model.RoundedInterpolation

/-!
# Interpolated access with 32-bit integers

The functions of `Model/RoundedInterpolation.lean` with the index arithmetic of `Model/Machine.lean`: `Res.ub` where an `int`
operation overflows.
-/

namespace CostMapModel
namespace CostMap
variable {K : Type} [Field K] [LinearOrder K] [FloorRing K] (rd rf : K → K)

/-- `CostMap::atPositionLinearInterpolated` (cost_map.cpp 602-645); see `linearInterpolatedRd`. -/
def linearInterpolatedI (solve : Solver K) (m : CostMap K) (l : String) (p : Vec K) : Res (Option K) :=
  (Res.ofOption (m.getIndexI rd p)).bind fun r =>
  let i0 := r.1
  (Res.ofOption (m.getPositionI rd i0)).bind fun o0 => match o0 with
  | none => .ub
  | some p0 =>
    (Res.ofOption (I32.both I32.add i0 (if p0.x ≤ p.x then ⟨-1, 0⟩ else ⟨1, 0⟩))).bind fun i1 =>
    (Res.ofOption (m.getPositionI rd i1)).bind fun o1 => match o1 with
    | none => .ok none
    | some p1 =>
      (Res.ofOption (I32.both I32.add i0 (if p0.y ≤ p.y then ⟨0, -1⟩ else ⟨0, 1⟩))).bind fun i2 =>
      (Res.ofOption (m.getPositionI rd i2)).bind fun o2 => match o2 with
      | none => .ok none
      | some p2 =>
        let i3 : Idx := ⟨i1.x, i2.y⟩
        (Res.ofOption (m.getPositionI rd i3)).bind fun o3 => match o3 with
        | none => .ok none
        | some p3 =>
          (m.at l i0).bind fun b0 => (m.at l i1).bind fun b1 => (m.at l i2).bind fun b2 => (m.at l i3).bind fun b3 =>
            let x := solve ![rowRd rd p0, rowRd rd p1, rowRd rd p2, rowRd rd p3]
              ![(b0.toNat : K), (b1.toNat : K), (b2.toNat : K), (b3.toNat : K)]
            .ok (some (rf (evalRd rd x p)))

/-- `CostMap::atPosition(layer, position, interpolation_method)` (cost_map.cpp 170-194). -/
def atPositionInterpI (solve : Solver K) (m : CostMap K) (l : String) (p : Vec K) : Interp → Res Cost
  | .linear => (m.linearInterpolatedI rd rf solve l p).bind fun r => match r with
    | some v => costOfFloat v
    | none => m.atPositionI rd l p
  | .nearest => m.atPositionI rd l p
  | .other => .thrown .runtimeError

end CostMap
end CostMapModel
