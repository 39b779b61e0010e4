import Verif.Spec.Machine
import Verif.Spec.MachineHistory

/-!
# Specification vocabulary: the map of a subscriber
-/

namespace CostMapModel
variable {K : Type} [Field K] [LinearOrder K] [FloorRing K]

/-- The map a message is read into: new, or with any history of calls behind it (earlier messages are such calls). -/
def Receives (w : World K) (F : Fmt K) (rf : K → K) (e : CostMap K) : Prop := (∃ ls : List String, ls.Nodup ∧ e = CostMap.new ls) ∨ HeldI w F rf e

end CostMapModel
