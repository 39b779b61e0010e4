import Verif.Model.CostMap

/-!
# Specification vocabulary: well-formed geometry and coherent registry
-/

namespace CostMapModel

/-- `i` addresses a cell of a map of the given size. -/
def Idx.In (i size : Idx) : Prop := 0 ≤ i.x ∧ i.x < size.x ∧ 0 ≤ i.y ∧ i.y < size.y

instance (i size : Idx) : Decidable (i.In size) := by unfold Idx.In; infer_instance

namespace CostMap
variable {K : Type} [Field K] [LinearOrder K]

/-- A map with a usable geometry: positive resolution, at least one cell, length = size * resolution and
a start index inside the buffer. `setGeometry` establishes this whenever the requested length is at
least half a cell. -/
structure Geo (m : CostMap K) : Prop where
  res_pos : 0 < m.resolution
  size_x : 0 < m.size.x
  size_y : 0 < m.size.y
  len_x : m.length.x = (m.size.x : K) * m.resolution
  len_y : m.length.y = (m.size.y : K) * m.resolution
  start : m.startIndex.In m.size

/-- The layer registry is coherent: names are distinct, the named layers are exactly the stored ones,
and every matrix has the size of the map. -/
structure Coherent (m : CostMap K) : Prop where
  nodup : m.layers.Nodup
  mem_iff : ∀ l, l ∈ m.layers ↔ (m.data l).isSome
  dims : ∀ l a, m.data l = some a → (a.rows : Int) = m.size.x ∧ (a.cols : Int) = m.size.y

end CostMap
end CostMapModel

namespace CostMapModel
namespace CostMap
variable {K : Type}

/-- Two maps have the same placement: length, resolution, centre, size and start index. -/
structure SameGeometry (m m' : CostMap K) : Prop where
  length : m'.length = m.length
  resolution : m'.resolution = m.resolution
  position : m'.position = m.position
  size : m'.size = m.size
  startIndex : m'.startIndex = m.startIndex

/-- Two maps have the same frame, timestamp and basic layers. -/
structure SameMeta (m m' : CostMap K) : Prop where
  frameId : m'.frameId = m.frameId
  timestamp : m'.timestamp = m.timestamp
  basicLayers : m'.basicLayers = m.basicLayers

end CostMap
end CostMapModel

namespace CostMapModel
namespace CostMap
variable {K : Type} [Field K] [LinearOrder K]

/-- The row and column of a buffer cell counted from the upper corner of the map, i.e. without the
circular-buffer offset. -/
def logical (m : CostMap K) (i : Idx) : Idx :=
  ⟨(i.x - m.startIndex.x) % m.size.x, (i.y - m.startIndex.y) % m.size.y⟩

/-- `p` lies in the half-open square of side `r` around `c`. -/
def InSquare (p c : Vec K) (r : K) : Prop :=
  (c.x - r / 2 < p.x ∧ p.x ≤ c.x + r / 2) ∧ (c.y - r / 2 < p.y ∧ p.y ≤ c.y + r / 2)

/-- `p` lies in the half-open rectangle the map covers. -/
def Covers (m : CostMap K) (p : Vec K) : Prop :=
  (m.position.x - m.length.x / 2 < p.x ∧ p.x ≤ m.position.x + m.length.x / 2) ∧
  (m.position.y - m.length.y / 2 < p.y ∧ p.y ≤ m.position.y + m.length.y / 2)

/-- Squared Euclidean distance. -/
def dist2 (p q : Vec K) : K := (p.x - q.x) ^ 2 + (p.y - q.y) ^ 2

end CostMap
end CostMapModel
