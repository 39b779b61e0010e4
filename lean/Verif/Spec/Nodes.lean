import Verif.Model.Nodes

/-!
# Specification vocabulary: nodes
-/

namespace CostMapModel
variable {K : Type} [Field K] [LinearOrder K] [FloorRing K]

/-- What the callbacks make of a message: a map, if it converts. -/
def Converts (msg : CostMapMsg K) (m : CostMap K) : Prop := CostMap.fromMessage msg (CostMap.new []) = (.ok true, m)

/-- The conversion of a message returns false. -/
def Refused (msg : CostMapMsg K) : Prop := (CostMap.fromMessage msg (CostMap.new [])).1 = .ok false

/-- `part` occurs in `s`. -/
def OccursIn (part s : String) : Prop := ∃ a b : String, s = a ++ part ++ b

/-- The layer the relay is meant to show: the only layer of a map that has just one, otherwise the one that was asked for. -/
def requestedLayer (asked : String) (m : CostMap K) : String :=
  match m.layers with
  | [l] => l
  | _ => asked

end CostMapModel
