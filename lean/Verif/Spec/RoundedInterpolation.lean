import Verif.Spec.Interpolation
import Verif.Spec.Rounded
import Verif.Spec.InflationFloat
import Verif.Model.RoundedInterpolation

/-!
# Specification vocabulary for interpolation in floating point
-/

namespace CostMapModel
variable {K : Type} [Field K] [LinearOrder K]

/-- The largest entry of a column. -/
def colMax (A : Fin 4 → Fin 4 → K) (j : Fin 4) : K := max (max |A 0 j| |A 1 j|) (max |A 2 j| |A 3 j|)

/-- The system for four cells at the corners of a rectangle: at least half of `r` apart, and at most `2^14 * r` away from the origin of
the frame on both axes. -/
def CellSystem (rd : K → K) (r : K) (A : Fin 4 → Fin 4 → K) : Prop :=
  ∃ X0 X1 Y0 Y1 : K, A = ![CostMap.rowRd rd ⟨X0, Y0⟩, CostMap.rowRd rd ⟨X1, Y0⟩, CostMap.rowRd rd ⟨X0, Y1⟩, CostMap.rowRd rd ⟨X1, Y1⟩] ∧
    (|X0| ≤ 2 ^ 14 * r ∧ |X1| ≤ 2 ^ 14 * r ∧ |Y0| ≤ 2 ^ 14 * r ∧ |Y1| ≤ 2 ^ 14 * r) ∧
    r / 2 ≤ |X1 - X0| ∧ r / 2 ≤ |Y1 - Y0|

/-- What is assumed of the solver in floating point: on such systems its error is that of a change of each column of the matrix by a
relative `2^-48` of the largest entry of the column, which is how the error of a Householder decomposition is bounded. -/
def SolveStable (rd : K → K) (r : K) (solve : CostMap.Solver K) : Prop :=
  ∀ A b, CellSystem rd r A → ∀ i,
    |A i 0 * solve A b 0 + A i 1 * solve A b 1 + A i 2 * solve A b 2 + A i 3 * solve A b 3 - b i| ≤
      (colMax A 0 * |solve A b 0| + colMax A 1 * |solve A b 1| + colMax A 2 * |solve A b 2| + colMax A 3 * |solve A b 3|) / 2 ^ 48

/-- The map lies within `2^14` cells of the origin of its frame. -/
structure CostMap.NearOrigin (m : CostMap K) : Prop where
  x : extent m.size.x m.position.x m.resolution ≤ 2 ^ 14 * m.resolution
  y : extent m.size.y m.position.y m.resolution ≤ 2 ^ 14 * m.resolution

end CostMapModel
