import Verif.Spec.RoundedSubmap
import Verif.Spec.Iteration

/-!
# Specification vocabulary for shape iterators in rounded arithmetic
-/

namespace CostMapModel
variable {K : Type} [Field K] [LinearOrder K]

/-- The box from `lo` to `hi` is cut to the map in the right place. -/
structure BoxOkRd (m : CostMap K) (lo hi : Vec K) : Prop where
  high_x : CornerOk m.size.x m.resolution m.position.x hi.x
  high_y : CornerOk m.size.y m.resolution m.position.y hi.y
  low_x : CornerOk m.size.x m.resolution m.position.x lo.x
  low_y : CornerOk m.size.y m.resolution m.position.y lo.y

/-- The smallest box around the points `vs`. -/
structure IsBox (vs : List (Vec K)) (lo hi : Vec K) : Prop where
  above : ∀ v ∈ vs, lo.x ≤ v.x ∧ v.x ≤ hi.x ∧ lo.y ≤ v.y ∧ v.y ≤ hi.y
  hi_x : ∃ v ∈ vs, v.x = hi.x
  hi_y : ∃ v ∈ vs, v.y = hi.y
  lo_x : ∃ v ∈ vs, v.x = lo.x
  lo_y : ∃ v ∈ vs, v.y = lo.y

/-- On the horizontal line through `p`, no edge of the polygon is closer to `p` than `tol`. -/
def ClearOf (tol : K) (vs : List (Vec K)) (p : Vec K) : Prop :=
  ∀ e ∈ polygonEdges vs, ∀ t, 0 ≤ t → t ≤ 1 → p.y = e.1.y + t * (e.2.y - e.1.y) →
    tol < |e.1.x + t * (e.2.x - e.1.x) - p.x|

/-- Where `p` is in the ellipse with centre `center` and axis lengths `len`, the first axis turned by the angle with cosine `c`
and sine `s`: the sum of the squares of the offsets along the turned axes, each in units of half the axis. At most 1 inside the
ellipse. -/
def ellipseForm (center len : Vec K) (c s : K) (p : Vec K) : K :=
  ((c * (p.x - center.x) + s * (p.y - center.y)) / (len.x / 2)) ^ 2 +
    ((s * (p.x - center.x) - c * (p.y - center.y)) / (len.y / 2)) ^ 2

/-- `sqrt x` is nonnegative and below the square root of `x` by no more than rounding errors. -/
def SqrtNear (sqrt : K → K) (x : K) : Prop := 0 ≤ sqrt x ∧ (1 - 1 / 2 ^ 50) * x ≤ sqrt x ^ 2

/-- `c` and `s` are cosine and sine of an angle, up to rounding. -/
def IsRotation (c s : K) : Prop := |c ^ 2 + s ^ 2 - 1| ≤ 1 / 2 ^ 40

end CostMapModel
