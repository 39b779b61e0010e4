import Verif.Model.RemoteCopy
import Verif.Spec.MachineHistory
import Verif.Spec.Geometry

/-!
# Specification vocabulary: a map on a topic
-/

namespace CostMapModel
open CostMap
variable {K : Type} [Field K] [LinearOrder K] [FloorRing K]

/-- `c` shows the map `s`: its frame, time, placement and basic layers, and the costs of its layers. It may have layers of `older`
besides, which know nothing. -/
structure CopyOf (s : CostMap K) (older : List String) (c : CostMap K) : Prop where
  frameId : c.frameId = s.frameId
  timestamp : c.timestamp = s.timestamp
  basicLayers : c.basicLayers = s.basicLayers
  geometry : SameGeometry s c
  layers : ∀ l, l ∈ c.layers ↔ l ∈ s.layers ∨ l ∈ older
  costs : ∀ l ∈ s.layers, ∀ i, c.at l i = s.at l i
  unknown : ∀ l ∈ c.layers, l ∉ s.layers → ∀ i : Idx, i.In s.size → c.at l i = .ok NO_INFORMATION

/-- What an observer sees who looks at the publisher's map each time it is published: the maps that were published, those that are on
their way, and those that have arrived, in order. -/
structure Snapshots (K : Type) where
  map : CostMap K
  published : List (CostMap K)
  underway : List (CostMap K)
  arrived : List (CostMap K)

/-- The same events, for the observer. -/
def Snapshots.step (F : Fmt K) (rf : K → K) (s : Snapshots K) : RemoteEvent K → Snapshots K
  | .call c => { s with map := (c.run F rf s.map).2 }
  | .publish => { s with published := s.published ++ [s.map], underway := s.underway ++ [s.map] }
  | .deliver =>
    match s.underway with
    | [] => s
    | m :: rest => { s with underway := rest, arrived := s.arrived ++ [m] }
  | .lose k => { s with underway := s.underway.eraseIdx k }

/-- What the publisher has to see to: its calls fit the world and fail no assertion, and when it publishes, the time is less than `2^32` seconds and the map
has at most 65536 rows and columns. -/
def Snapshots.Fits (w : World K) (F : Fmt K) (rf : K → K) : Snapshots K → List (RemoteEvent K) → Prop
  | _, [] => True
  | s, e :: es => (match e with
      | .call c => w.Fits F rf s.map c ∧ (c.run F rf s.map).1 ≠ .assertFail
      | .publish => s.map.timestamp < 2 ^ 32 * 10 ^ 9 ∧ s.map.size.x ≤ 65536 ∧ s.map.size.y ≤ 65536
      | _ => True) ∧ Snapshots.Fits w F rf (s.step F rf e) es

end CostMapModel
