import Verif.Model.Costmap2D
import Verif.Model.Bundle
import Verif.Model.Message
import Verif.Model.Inflation
import Verif.Model.Submap

/-!
# Histories of a cost map

Every modelled call that may change a `CostMap`: the member functions of cost_map_core/src/lib/cost_map.cpp and the
functions of the library that write into a map they are given. Calls that only read are left out. Not included: writing
through the references returned by the non-const `get`, `operator[]` (cost_map.cpp 121-128, 135-138) other than to single
cells, with which a caller can replace a matrix by one of another size; and the file-system side of bundles, which is
an argument here.
-/

namespace CostMapModel

/-- One call with its arguments. -/
inductive Call (K : Type) where
  /-- cost_map.cpp 43-62, 64-67. -/
  | setGeometry (length : Vec K) (resolution : K) (position : Vec K)
  /-- cost_map.cpp 69-71. -/
  | setBasicLayers (ls : List String)
  /-- cost_map.cpp 505-508. -/
  | setTimestamp (t : Nat)
  /-- cost_map.cpp 515-518. -/
  | resetTimestamp
  /-- cost_map.cpp 520-523. -/
  | setFrameId (f : String)
  /-- cost_map.hpp 76. -/
  | setPosition (position : Vec K)
  /-- cost_map.cpp 550-552. -/
  | setStartIndex (i : Idx)
  /-- cost_map.cpp 92-105, with a matrix. -/
  | add (l : String) (a : Mat Cost)
  /-- cost_map.cpp 87-90, with a constant. -/
  | addConst (l : String) (v : Cost)
  /-- cost_map.cpp 140-154. -/
  | erase (l : String)
  /-- `map.at(l, i) = v`, cost_map.cpp 196-203. -/
  | setAt (l : String) (i : Idx) (v : Cost)
  /-- `map.atPosition(l, p) = v`, cost_map.cpp 161-168. -/
  | setAtPosition (l : String) (p : Vec K) (v : Cost)
  /-- cost_map.cpp 559-566. -/
  | clear (l : String)
  /-- cost_map.cpp 568-573. -/
  | clearBasic
  /-- cost_map.cpp 575-580. -/
  | clearAll
  /-- cost_map.cpp 327-399. -/
  | move (position : Vec K)
  /-- cost_map.cpp 433-503. -/
  | extendToInclude (other : CostMap K)
  /-- cost_map.cpp 401-431. -/
  | addDataFrom (other : CostMap K) (extend overwrite copyAll : Bool) (ls : List String)
  /-- inflation.cpp 21-82, on an inflater in any state. -/
  | inflate (obj : Inflater K) (pop : Inflation.Pop K) (hyp : Nat → Nat → K) (ls ld : String) (radius : K)
      (computer : K → Cost)
  /-- inflation.cpp 185-206. -/
  | deflate (keep : Bool) (ls ld : String)
  /-- converter.cpp 186-214 (`fromMessage`). -/
  | fromMessage (msg : CostMapMsg K)
  /-- converter.cpp 37-128 (`addLayerFromROSImage`), on any image message. -/
  | addLayerFromImage (cv : Cv) (img : Image) (l : String)
  /-- image_bundles.cpp 34-133, with any files on disk. -/
  | fromImageBundle (cv : Cv) (rf : K → K) (files : Files K)
  /-- converter.cpp 216-227. -/
  | fromCostmap2DROS (c : Costmap2DROS K) (l : String)
  /-- converter.cpp 229-243. -/
  | fromCostmap2DROSAtRobotPose (c : Costmap2DROS K) (geometry : Vec K) (l : String)

namespace Call
variable {K : Type} [Field K] [LinearOrder K] [FloorRing K]

/-- Drop the value a call returns. -/
def discard {σ α : Type} (f : Act σ α) : Act σ Unit := Act.bind f fun _ => Act.pure ()

/-- What a call does to the map. -/
def run : Call K → Act (CostMap K) Unit
  | setGeometry len r p => CostMap.setGeometry len r p
  | setBasicLayers ls => Act.modify fun m => m.setBasicLayers ls
  | setTimestamp t => Act.modify fun m => m.setTimestamp t
  | resetTimestamp => Act.modify fun m => m.resetTimestamp
  | setFrameId f => Act.modify fun m => m.setFrameId f
  | setPosition p => Act.modify fun m => m.setPosition p
  | setStartIndex i => Act.modify fun m => m.setStartIndex i
  | add l a => CostMap.add l a
  | addConst l v => CostMap.addConst l v
  | erase l => discard (CostMap.erase l)
  | setAt l i v => CostMap.setAt l i v
  | setAtPosition l p v => CostMap.setAtPosition l p v
  | clear l => CostMap.clear l
  | clearBasic => CostMap.clearBasic
  | clearAll => Act.modify fun m => m.clearAll
  | move p => discard (CostMap.move p)
  | extendToInclude o => discard (CostMap.extendToInclude o)
  | addDataFrom o e w a ls => discard (CostMap.addDataFrom o e w a ls)
  | inflate obj pop hyp ls ld r f => fun m =>
      let out := Inflation.inflate pop hyp ls ld r f ⟨obj, m, []⟩
      (out.1, out.2.map)
  | deflate k ls ld => CostMap.deflate k ls ld
  | fromMessage msg => discard (CostMap.fromMessage msg)
  | addLayerFromImage cv img l => discard (CostMap.addLayerFromImage cv img l)
  | fromImageBundle cv rf files => CostMap.fromImageBundle cv rf files
  | fromCostmap2DROS c l => discard (CostMap.fromCostmap2DROS c l)
  | fromCostmap2DROSAtRobotPose c g l => discard (CostMap.fromCostmap2DROSAtRobotPose c g l)

end Call

/-- The maps a program can hold: those it constructs, those it gets by calling something on one it holds (whether the
call returns or throws; after a failed assertion or undefined behaviour there is no program left), and submaps. The
arguments of the calls, other maps among them, are arbitrary but for `proper`, and the constructor's names but for
`names`. -/
inductive Held {K : Type} [Field K] [LinearOrder K] [FloorRing K] (names : List String → Prop)
    (proper : CostMap K → Call K → Prop) : CostMap K → Prop where
  /-- The constructor (cost_map.cpp 19-32). -/
  | new {ls : List String} : names ls → Held names proper (CostMap.new ls)
  /-- A call that returned. -/
  | returned {m m' : CostMap K} (c : Call K) : Held names proper m → proper m c → c.run m = (.ok (), m') →
      Held names proper m'
  /-- A call that threw, the exception having been caught. -/
  | threw {m m' : CostMap K} (c : Call K) (e : Exn) : Held names proper m → proper m c → c.run m = (.thrown e, m') →
      Held names proper m'
  /-- `getSubmap` (cost_map.cpp 273-325). -/
  | submap {m s : CostMap K} (p len : Vec K) (i j : Idx) (b : Bool) : Held names proper m →
      m.getSubmap p len i = .ok (s, j, b) → Held names proper s

end CostMapModel
