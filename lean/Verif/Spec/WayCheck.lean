import Verif.Model.WayCheck
import Verif.Spec.Inflation

/-!
# Specification vocabulary: straight ways
-/

namespace CostMapModel
variable {K : Type} [Field K] [LinearOrder K]

/-- `p` lies on the straight way from `a` to `b`. -/
def OnWay (a b p : Vec K) : Prop :=
  ∃ t : K, 0 ≤ t ∧ t ≤ 1 ∧ p = ⟨a.x + t * (b.x - a.x), a.y + t * (b.y - a.y)⟩

end CostMapModel
