import Verif.Spec.Geometry

/-! # Specification vocabulary for submaps -/

namespace CostMapModel
namespace CostMap
variable {K : Type} [Field K] [LinearOrder K]

/-- `q` lies in the closed rectangle of the given centre and side lengths. -/
def InRect (centre length q : Vec K) : Prop :=
  (centre.x - length.x / 2 ≤ q.x ∧ q.x ≤ centre.x + length.x / 2) ∧
  (centre.y - length.y / 2 ≤ q.y ∧ q.y ≤ centre.y + length.y / 2)

/-- Buffer cell `i` belongs to the block of `sub` cells whose upper left cell, without the circular-buffer
offset, is `u`. -/
def InBlock (m : CostMap K) (u sub i : Idx) : Prop :=
  i.In m.size ∧ (u.x ≤ (m.logical i).x ∧ (m.logical i).x < u.x + sub.x) ∧
    (u.y ≤ (m.logical i).y ∧ (m.logical i).y < u.y + sub.y)

end CostMap
end CostMapModel
