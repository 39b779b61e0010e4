import Verif.Spec.RoundedSubmap

/-!
# Specification vocabulary: well inside a window
-/

namespace CostMapModel
variable {K : Type} [Field K] [LinearOrder K]

/-- `p` is in the requested rectangle, whose corners are computed, by a quarter of a cell. -/
def CostMap.WellInWindow (rd : K → K) (m : CostMap K) (pos len p : Vec K) : Prop :=
  ((lowRd rd pos len).x + m.resolution / 4 ≤ p.x ∧ p.x ≤ (highRd rd pos len).x - m.resolution / 4) ∧
  ((lowRd rd pos len).y + m.resolution / 4 ≤ p.y ∧ p.y ≤ (highRd rd pos len).y - m.resolution / 4)

end CostMapModel
