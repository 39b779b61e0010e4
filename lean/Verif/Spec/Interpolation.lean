import Verif.Spec.Geometry
import Verif.Model.Merge

/-! # Specification vocabulary for interpolation -/

namespace CostMapModel
variable {K : Type} [Field K] [LinearOrder K]

/-- What is assumed of the linear solver: it returns a solution whenever there is one. -/
def SolveOk (solve : CostMap.Solver K) : Prop :=
  ∀ (A : Fin 4 → Fin 4 → K) (b : Fin 4 → K),
    (∃ x : Fin 4 → K, ∀ i, A i 0 * x 0 + A i 1 * x 1 + A i 2 * x 2 + A i 3 * x 3 = b i) →
    ∀ i, A i 0 * solve A b 0 + A i 1 * solve A b 1 + A i 2 * solve A b 2 + A i 3 * solve A b 3 = b i

/-- The direction from `c` to `p` along an axis; up when they are equal. -/
def towards (c p : K) : Int := if c ≤ p then 1 else -1

/-- The centre of the next cell from `c` towards `p` along x. -/
def besideX (r : K) (c p : Vec K) : Vec K := ⟨c.x + (towards c.x p.x : K) * r, c.y⟩
/-- The centre of the next cell from `c` towards `p` along y. -/
def besideY (r : K) (c p : Vec K) : Vec K := ⟨c.x, c.y + (towards c.y p.y : K) * r⟩
/-- The centre of the cell diagonally next to `c` towards `p`. -/
def diagonal (r : K) (c p : Vec K) : Vec K :=
  ⟨c.x + (towards c.x p.x : K) * r, c.y + (towards c.y p.y : K) * r⟩

/-- Bilinear blend of four values with weights `s` and `t`. -/
def blend (s t b0 b1 b2 b3 : K) : K :=
  (1 - s) * (1 - t) * b0 + s * (1 - t) * b1 + (1 - s) * t * b2 + s * t * b3

end CostMapModel
