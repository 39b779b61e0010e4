import Verif.Spec.RoundedMerge
import Verif.Spec.Submap
import Verif.Model.RoundedSubmap

/-!
# Specification vocabulary for submaps in rounded arithmetic
-/

namespace CostMapModel
variable {K : Type} [Field K] [LinearOrder K]

/-- A corner coordinate `p` of a request and one axis of a map (`n` cells of size `r` around `pos`) for which the request is
cut to the map in the right place: the corner is inside the map by two tolerances; or it is outside by one, and
grid_map's guard margin `10 * epsilon * max 1 |p|` is more than the rounding errors and less than a cell. -/
def CornerOk (n : Int) (r pos p : K) : Prop :=
  |p - pos| ≤ n * r / 2 - 2 * (CostMap.extent n pos r / 2 ^ 48) ∨
  (n * r / 2 + CostMap.extent n pos r / 2 ^ 48 ≤ |p - pos| ∧ |pos| + 2 * ((n + 1) * r) ≤ 5 * max 1 |p| ∧
    max 1 |p| ≤ 2 ^ 46 * r)

namespace CostMap

/-- The upper corner of a request, as computed. -/
def highRd (rd : K → K) (pos len : Vec K) : Vec K := ⟨rd (pos.x + rd (1 / 2 * len.x)), rd (pos.y + rd (1 / 2 * len.y))⟩
/-- The lower corner of a request, as computed. -/
def lowRd (rd : K → K) (pos len : Vec K) : Vec K := ⟨rd (pos.x - rd (1 / 2 * len.x)), rd (pos.y - rd (1 / 2 * len.y))⟩

/-- Both corners of the request are cut to the map in the right place. -/
structure RequestOkRd (rd : K → K) (m : CostMap K) (pos len : Vec K) : Prop where
  high_x : CornerOk m.size.x m.resolution m.position.x (highRd rd pos len).x
  high_y : CornerOk m.size.y m.resolution m.position.y (highRd rd pos len).y
  low_x : CornerOk m.size.x m.resolution m.position.x (lowRd rd pos len).x
  low_y : CornerOk m.size.y m.resolution m.position.y (lowRd rd pos len).y

/-- The requested position lies in the map and between the corners of the request, by four tolerances. -/
structure CentreOkRd (rd : K → K) (m : CostMap K) (pos len : Vec K) : Prop where
  map_x : |pos.x - m.position.x| ≤ m.size.x * m.resolution / 2 - 4 * m.tolX
  map_y : |pos.y - m.position.y| ≤ m.size.y * m.resolution / 2 - 4 * m.tolY
  high_x : pos.x + 4 * m.tolX ≤ (highRd rd pos len).x
  high_y : pos.y + 4 * m.tolY ≤ (highRd rd pos len).y
  low_x : (lowRd rd pos len).x ≤ pos.x - 4 * m.tolX
  low_y : (lowRd rd pos len).y ≤ pos.y - 4 * m.tolY

/-- One axis of `IsCut`: `[lo', hi']` contains `[lo, hi]` up to `tol` and is less than a cell larger at each end. -/
def CutAxis (tol r lo hi lo' hi' : K) : Prop :=
  hi - tol ≤ hi' ∧ hi' ≤ hi + r + tol ∧ lo' ≤ lo + tol ∧ lo - r - tol ≤ lo'

/-- The extent of `s` is, up to the tolerances, the smallest block of cells that contains the part of the rectangle from
`low` to `high` inside the map. -/
structure IsCut (m s : CostMap K) (low high : Vec K) : Prop where
  x : CutAxis (2 * m.tolX) m.resolution (max low.x (m.position.x - m.size.x * m.resolution / 2))
    (min high.x (m.position.x + m.size.x * m.resolution / 2)) (s.position.x - s.size.x * m.resolution / 2)
    (s.position.x + s.size.x * m.resolution / 2)
  y : CutAxis (2 * m.tolY) m.resolution (max low.y (m.position.y - m.size.y * m.resolution / 2))
    (min high.y (m.position.y + m.size.y * m.resolution / 2)) (s.position.y - s.size.y * m.resolution / 2)
    (s.position.y + s.size.y * m.resolution / 2)

end CostMap
end CostMapModel
