import Verif.Spec.Geometry

/-! # Specification vocabulary for merging -/

namespace CostMapModel
namespace CostMap
variable {K : Type} [Field K] [LinearOrder K]

/-- A cell is valid: there are basic layers and all of them hold a cost other than `NO_INFORMATION`. -/
def ValidCell (m : CostMap K) (i : Idx) : Prop :=
  m.basicLayers ≠ [] ∧ ∀ l ∈ m.basicLayers, ∃ c, m.at l i = .ok c ∧ c ≠ NO_INFORMATION

/-- By how much the interval of centre `c'` and length `l'` sticks out above that of centre `c` and length `l`. -/
def over (c l c' l' : K) : K := max 0 ((c' + l' / 2) - (c + l / 2))
/-- The same below. -/
def under (c l c' l' : K) : K := max 0 ((c - l / 2) - (c' - l' / 2))

end CostMap
end CostMapModel
