import Verif.Model.Rounded
import Verif.Model.Submap

/-!
# Submaps in floating point

The functions of `Model/GridMath.lean` and `Model/Submap.lean` that compute submaps, with a rounding `rd` after every
arithmetic operation on coordinates; `rd := id` gives the exact model back (`C78_exact_arithmetic`). The halving of a vector
(`halfTransform * v`) is one rounded product per axis: the other summand of the matrix product is an exact zero.
-/

namespace CostMapModel

section
variable {K : Type} [Field K] [LinearOrder K] [FloorRing K] (rd : K → K)

/-- The margin in `grid_map::boundPositionToRange`: `10.0 * epsilon`, times `|p|` when that is more than one. -/
def guardRd (p : K) : K := if 1 < |p| then rd (rd (10 * dblEpsilon) * |p|) else rd (10 * dblEpsilon)

/-- One axis of `grid_map::boundPositionToRange` (called from circle_iterator.cpp 87-88, ellipse_iterator.cpp 94-95,
polygon_iterator.cpp 85-86 and by `getSubmapInformation`). -/
def boundPosition1Rd (p len mapPos : K) : K :=
  let shifted := rd (rd (p - mapPos) + toOriginRd rd len)
  let shifted' := if shifted ≤ 0 then guardRd rd p else if len ≤ shifted then rd (len - guardRd rd p) else shifted
  rd (rd (shifted' + mapPos) - toOriginRd rd len)

/-- `grid_map::boundPositionToRange`. -/
def boundPositionRd (p len mapPos : Vec K) : Vec K :=
  ⟨boundPosition1Rd rd p.x len.x mapPos.x, boundPosition1Rd rd p.y len.y mapPos.y⟩

/-- `grid_map::getSubmapInformation` (called from submap_geometry.cpp 16-19). -/
def submapInformationRd (reqPos reqLen len mapPos : Vec K) (res : K) (size start : Idx) : Option (SubmapInfo K) :=
  let tl := boundPositionRd rd ⟨rd (reqPos.x + rd (1 / 2 * reqLen.x)), rd (reqPos.y + rd (1 / 2 * reqLen.y))⟩ len mapPos
  let (tlIdx, okTl) := indexFromPositionRd rd tl len mapPos res size start
  if !okTl then none else
  let tlU := unwrapIdx tlIdx size start
  let br := boundPositionRd rd ⟨rd (reqPos.x - rd (1 / 2 * reqLen.x)), rd (reqPos.y - rd (1 / 2 * reqLen.y))⟩ len mapPos
  let (brIdx, okBr) := indexFromPositionRd rd br len mapPos res size start
  if !okBr then none else
  let brU := unwrapIdx brIdx size start
  match positionFromIndexRd rd tlIdx len mapPos res size start with
  | none => none
  | some c =>
    let corner : Vec K := ⟨rd (c.x + rd (1 / 2 * res)), rd (c.y + rd (1 / 2 * res))⟩
    let subSize := brU - tlU + Idx.ones
    let subLen : Vec K := ⟨rd ((subSize.x : K) * res), rd ((subSize.y : K) * res)⟩
    let subPos : Vec K := ⟨rd (corner.x - toOriginRd rd subLen.x), rd (corner.y - toOriginRd rd subLen.y)⟩
    let (reqIdx, okReq) := indexFromPositionRd rd reqPos subLen subPos res subSize 0
    if !okReq then none else
    some ⟨tlIdx, subSize, subPos, subLen, reqIdx⟩

end

namespace CostMap
variable {K : Type} [Field K] [LinearOrder K] [FloorRing K] (rd : K → K)

/-- `SubmapGeometry::SubmapGeometry` (submap_geometry.cpp 12-20): `none` when `isSuccess` is false. -/
def submapGeometryRd (m : CostMap K) (position length : Vec K) : Option (SubmapInfo K) :=
  submapInformationRd rd position length m.length m.position m.resolution m.size m.startIndex

/-- `CostMap::getSubmap(position, length, indexInSubmap, isSuccess)` (cost_map.cpp 280-325). -/
def getSubmapRd (m : CostMap K) (position length : Vec K) (index : Idx) : Res (CostMap K × Idx × Bool) :=
  let submap : CostMap K := ((((CostMap.new m.layers).setBasicLayers m.basicLayers).setTimestamp
    m.timestamp).setFrameId m.frameId)
  match m.submapGeometryRd rd position length with
  | none => .ok (CostMap.new m.layers, index, false)
  | some info =>
    match setGeometryRd rd info.length m.resolution info.position submap with
    | (.ok _, submap) =>
      let submap := submap.setStartIndex 0
      match bufferRegions info.startIndex submap.size m.size m.startIndex with
      | none => .ok (CostMap.new m.layers, index, false)
      | some regions =>
        match Act.forEach (m.copyLayer regions) m.layers submap with
        | (.ok _, submap) => .ok (submap, index, true)
        | (.thrown e, _) => .thrown e
        | (.assertFail, _) => .assertFail
        | (.ub, _) => .ub
        | (.outOfFuel, _) => .outOfFuel
    | (.thrown e, _) => .thrown e
    | (.assertFail, _) => .assertFail
    | (.ub, _) => .ub
    | (.outOfFuel, _) => .outOfFuel

end CostMap
end CostMapModel
