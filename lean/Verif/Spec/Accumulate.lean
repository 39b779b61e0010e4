import Verif.Spec.Geometry
import Verif.Spec.RoundedMerge

/-!
# Specification vocabulary: a cell that many maps show something for
-/

namespace CostMapModel

/-- `c` is the last cost that is shown, or the old one if nothing is. `shows o c`: the source `o` shows the cost `c`. -/
def IsLatest {α : Type} (shows : α → Cost → Prop) (os : List α) (old c : Cost) : Prop :=
  (∃ before o after, os = before ++ o :: after ∧ shows o c ∧ ∀ o' ∈ after, ∀ d, ¬ shows o' d) ∨
  ((∀ o ∈ os, ∀ d, ¬ shows o d) ∧ c = old)

/-- `c` is the old cost if that is known; otherwise the first one that is shown, if any is. -/
def IsFirst {α : Type} (shows : α → Cost → Prop) (os : List α) (old c : Cost) : Prop :=
  (old ≠ NO_INFORMATION ∧ c = old) ∨
  (old = NO_INFORMATION ∧ ∃ before o after, os = before ++ o :: after ∧ shows o c ∧ ∀ o' ∈ before, ∀ d, ¬ shows o' d) ∨
  (old = NO_INFORMATION ∧ c = old ∧ ∀ o ∈ os, ∀ d, ¬ shows o d)

namespace CostMap
variable {K : Type} [Field K] [LinearOrder K]

/-- The map `o` shows a known cost `c` in a layer at the centre of cell `i` of `m`. -/
def Shows [FloorRing K] (m : CostMap K) (l : String) (i : Idx) (o : CostMap K) (c : Cost) : Prop :=
  ∃ p, m.getPosition i = some p ∧ o.atPosition l p = .ok c ∧ c ≠ NO_INFORMATION

/-- The map `o`, whose grid is that of `m` up to an eighth of a cell, has a known cost `c` in a layer in the cell at the place of cell
`i` of `m`. -/
def ShowsThere (m : CostMap K) (l : String) (i : Idx) (o : CostMap K) (c : Cost) : Prop :=
  ∃ k j, OnGrid (m.resolution / 8) m o k ∧ Opposite m o k i j ∧ o.at l j = .ok c ∧ c ≠ NO_INFORMATION

end CostMap
end CostMapModel
