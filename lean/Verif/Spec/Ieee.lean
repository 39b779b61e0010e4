import Verif.Model.Ieee
import Verif.Spec.Rounded

/-!
# Specification vocabulary for infinities, NaN and overflow
-/

namespace CostMapModel

/-- The value is a number: neither an infinity nor NaN. -/
def Dbl.IsNum {K : Type} : Dbl K → Prop
  | .fin _ => True
  | _ => False

/-- Both coordinates are numbers. -/
def Vec.IsNum {K : Type} (p : Vec (Dbl K)) : Prop := p.x.IsNum ∧ p.y.IsNum

/-- The same coordinates as `double`s. -/
def Vec.toDbl {K : Type} (p : Vec K) : Vec (Dbl K) := ⟨.fin p.x, .fin p.y⟩

/-- The same map, with its coordinates as `double`s. -/
def CostMap.toDbl {K : Type} (m : CostMap K) : CostMap (Dbl K) where
  frameId := m.frameId
  timestamp := m.timestamp
  data := m.data
  layers := m.layers
  basicLayers := m.basicLayers
  length := m.length.toDbl
  resolution := .fin m.resolution
  position := m.position.toDbl
  size := m.size
  startIndex := m.startIndex

variable {K : Type} [Field K] [LinearOrder K]

/-- Rounds as binary64 does; numbers up to `2^64` are not too large. -/
structure Fmt.Double (F : Fmt K) : Prop where
  rd : DoublePrecision F.rd
  top : 2 ^ 64 ≤ F.top

/-- The number is not too large for the format. -/
def Fmt.Holds (F : Fmt K) (x : K) : Prop := |x| < F.top

/-- The number is at most an eighth of what is too large (`2^1021` for binary64). -/
def Fmt.Moderate (F : Fmt K) (x : K) : Prop := |x| ≤ F.top / 8

/-- The coordinates of the map and the position are moderate. -/
structure Fmt.ModerateAt (F : Fmt K) (m : CostMap K) (p : Vec K) : Prop where
  len_x : F.Moderate m.length.x
  len_y : F.Moderate m.length.y
  pos_x : F.Moderate m.position.x
  pos_y : F.Moderate m.position.y
  res : F.Moderate m.resolution
  p_x : F.Moderate p.x
  p_y : F.Moderate p.y

end CostMapModel
