import Verif.Model.Base

/-! # Specification of the rings of a spiral -/

namespace CostMapModel

/-- The offset `p` lies in the integer annulus `d`: its Euclidean length is at least `d` and below `d + 1`. -/
def InAnnulus (d : Nat) (p : Idx) : Prop :=
  (d : Int) ^ 2 ≤ p.x ^ 2 + p.y ^ 2 ∧ p.x ^ 2 + p.y ^ 2 < ((d : Int) + 1) ^ 2

instance (d : Nat) (p : Idx) : Decidable (InAnnulus d p) := by unfold InAnnulus; infer_instance

end CostMapModel
