import Verif.Model.CostMap

/-!
# Specification vocabulary: a map somewhere else
-/

namespace CostMapModel.CostMap
variable {K : Type} [Add K]

/-- The same map, by `d` further along. -/
def shifted (d : Vec K) (m : CostMap K) : CostMap K := m.setPosition (m.position + d)

end CostMapModel.CostMap
