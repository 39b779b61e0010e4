import Verif.Model.CostMap

/-!
# Submaps

Model of `CostMap::getSubmap` (cost_map_core/src/lib/cost_map.cpp 273-325) and of
cost_map_core/src/lib/submap_geometry.cpp. The grid_map_core functions they call are in GridMath.lean.
-/

namespace CostMapModel
namespace CostMap
variable {K : Type} [Field K] [LinearOrder K] [FloorRing K]

/-- `SubmapGeometry::SubmapGeometry` (submap_geometry.cpp 12-20): `none` when `isSuccess` is false. -/
def submapGeometry (m : CostMap K) (position length : Vec K) : Option (SubmapInfo K) :=
  submapInformation position length m.length m.position m.resolution m.size m.startIndex

/-- Upper left element of the corner block of `rows × cols` that a region is copied to: `topLeftCorner`,
`topRightCorner`, `bottomLeftCorner`, `bottomRightCorner` (cost_map.cpp 309-317). `none` for an undefined
quadrant, which is skipped. -/
def cornerOrigin (q : Quadrant) (rows cols : Int) (size : Idx) : Option Idx :=
  match q with
  | .topLeft => some ⟨0, 0⟩
  | .topRight => some ⟨0, cols - size.y⟩
  | .bottomLeft => some ⟨rows - size.x, 0⟩
  | .bottomRight => some ⟨rows - size.x, cols - size.y⟩
  | .undefined => none

/-- `dst.block(o.x, o.y, n.x, n.y) = src.block(s.x, s.y, n.x, n.y)`; `none` where Eigen's block assertions would
fire. -/
def copyBlock (dst src : Mat Cost) (o s n : Idx) : Option (Mat Cost) :=
  if 0 ≤ n.x ∧ 0 ≤ n.y ∧ 0 ≤ o.x ∧ 0 ≤ o.y ∧ o.x + n.x ≤ dst.rows ∧ o.y + n.y ≤ dst.cols ∧
      0 ≤ s.x ∧ 0 ≤ s.y ∧ s.x + n.x ≤ src.rows ∧ s.y + n.y ≤ src.cols then
    some (dst.mapIdx fun i j c =>
      if o.x ≤ i ∧ i < o.x + n.x ∧ o.y ≤ j ∧ j < o.y + n.y then
        (src.get? (s.x + (i - o.x)) (s.y + (j - o.y))).getD c
      else c)
  else none

/-- Body of the inner copy loop (cost_map.cpp 305-318): one region of one layer. `submap.data_[name]` makes an empty
matrix for a name it does not know. -/
def copyRegion (l : String) (src : Mat Cost) (r : BufferRegion) : Act (CostMap K) Unit := fun sub =>
  let dst := (sub.data l).getD Mat.empty
  match cornerOrigin r.quadrant dst.rows dst.cols r.size with
  | none => (.ok (), sub)
  | some o => match copyBlock dst src o r.startIndex r.size with
    | none => (.ub, sub)
    | some d => (.ok (), sub.setData l d)

/-- The copy loops (cost_map.cpp 304-320). The outer one runs over `data_`; its names are among `layers_`, so
the model runs over `layers_` and skips names without data. -/
def copyLayer (m : CostMap K) (regions : List BufferRegion) (l : String) : Act (CostMap K) Unit :=
  match m.data l with
  | none => Act.pure ()
  | some a => Act.forEach (copyRegion l a) regions

/-- `CostMap::getSubmap(position, length, indexInSubmap, isSuccess)` (cost_map.cpp 280-325). `index` is what the
caller's `indexInSubmap` holds before the call. Returns the map, `indexInSubmap` after the call, and
`isSuccess`. -/
def getSubmap (m : CostMap K) (position length : Vec K) (index : Idx) : Res (CostMap K × Idx × Bool) :=
  let submap : CostMap K := ((((CostMap.new m.layers).setBasicLayers m.basicLayers).setTimestamp
    m.timestamp).setFrameId m.frameId)
  match m.submapGeometry position length with
  | none => .ok (CostMap.new m.layers, index, false)
  | some info =>
    match setGeometry info.length m.resolution info.position submap with
    | (.ok _, submap) =>
      let submap := submap.setStartIndex 0
      match bufferRegions info.startIndex submap.size m.size m.startIndex with
      | none => .ok (CostMap.new m.layers, index, false)
      | some regions =>
        match Act.forEach (m.copyLayer regions) m.layers submap with
        | (.ok _, submap) => .ok (submap, index, true)
        | (.thrown e, _) => .thrown e
        | (.assertFail, _) => .assertFail
        | (.ub, _) => .ub
        | (.outOfFuel, _) => .outOfFuel
    | (.thrown e, _) => .thrown e
    | (.assertFail, _) => .assertFail
    | (.ub, _) => .ub
    | (.outOfFuel, _) => .outOfFuel

end CostMap
end CostMapModel
