import Verif.Model.Message
import Verif.Spec.Geometry

/-!
# Specification vocabulary: cost map messages
-/

namespace CostMapModel
variable {K : Type} [Field K] [LinearOrder K] [FloorRing K]

/-- The array a message gives for a layer: the last one if the name is repeated. -/
def given : List (String × MultiArray) → String → Option MultiArray
  | [], _ => none
  | p :: ps, l => match given ps l with
    | some a => some a
    | none => if p.1 = l then some p.2 else none

/-- A column-major array of `rows` rows and `cols` columns, with at least as many values as that. -/
structure MultiArray.Shaped (a : MultiArray) (rows cols : Int) : Prop where
  dims : ∃ d0 d1 ds, a.dim = d0 :: d1 :: ds ∧ d0.label ≠ "row_index" ∧ (d0.size.toNat : Int) = cols ∧
    (d1.size.toNat : Int) = rows
  enough : rows * cols ≤ a.data.length

/-- The value at row `i` and column `j` of a column-major array of `rows` rows. -/
def MultiArray.valueAt (a : MultiArray) (rows : Int) (i : Idx) : Option Cost := a.data[(i.y * rows + i.x).toNat]?

namespace CostMapMsg

/-- The size of the map a message describes: its length in cells, rounded. -/
def size (msg : CostMapMsg K) : Idx :=
  ⟨roundHalfAway (msg.lengthX / msg.resolution), roundHalfAway (msg.lengthY / msg.resolution)⟩

/-- The geometry of a message is usable: positive resolution and lengths. -/
structure GeometryOk (msg : CostMapMsg K) : Prop where
  res : 0 < msg.resolution
  len_x : 0 < msg.lengthX
  len_y : 0 < msg.lengthY

/-- Everything `fromMessage` relies on. -/
structure Ok (msg : CostMapMsg K) : Prop where
  geo : msg.GeometryOk
  counts : msg.layers.length = msg.data.length
  arrays : ∀ a ∈ msg.data, a.Shaped msg.size.x msg.size.y

end CostMapMsg
end CostMapModel
