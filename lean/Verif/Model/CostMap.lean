import Verif.Model.GridMath

/-!
# The `CostMap` class

Model of cost_map_core/src/lib/cost_map.cpp (all line numbers below refer to that file unless another
file is named). Iterating constructs and everything that uses iterators are in later files.
-/

namespace CostMapModel

/-- State of a `CostMap` (cost_map_core/include/cost_map_core/cost_map.hpp, private members).
`data_` (an unordered map) is a partial function; every loop over it in the code treats its entries
independently, so the iteration order does not matter. -/
structure CostMap (K : Type) where
  frameId : String
  timestamp : Nat
  data : String → Option (Mat Cost)
  layers : List String
  basicLayers : List String
  length : Vec K
  resolution : K
  position : Vec K
  size : Idx
  startIndex : Idx

namespace CostMap
variable {K : Type} [Field K] [LinearOrder K] [FloorRing K]

/-- `CostMap::CostMap(layers)` (19-32): the names are kept as given, duplicates included; `data_`
gets an empty matrix per distinct name. -/
def new (layers : List String) : CostMap K where
  frameId := ""
  timestamp := 0
  data := fun l => if l ∈ layers then some Mat.empty else none
  layers := layers
  basicLayers := []
  length := ⟨0, 0⟩
  resolution := 0
  position := ⟨0, 0⟩
  size := 0
  startIndex := 0

/-- `CostMap::resize` (647-653). Eigen leaves the new elements uninitialised; every caller fills them
right away (`clearAll`, line 54), the model fills them with 0 until then. -/
def resize (m : CostMap K) (size : Idx) : CostMap K :=
  { m with size := size,
           data := fun l => (m.data l).map fun _ => Mat.const size.x.toNat size.y.toNat 0 }

/-- `CostMap::clearAll` (575-580). -/
def clearAll (m : CostMap K) : CostMap K :=
  { m with data := fun l => (m.data l).map fun a => a.setConstant NO_INFORMATION }

/-- `CostMap::setGeometry(length, resolution, position)` (43-62). -/
def setGeometry (length : Vec K) (resolution : K) (position : Vec K) : Act (CostMap K) Unit := fun m =>
  if ¬ (0 < length.x) then (.assertFail, m)
  else if ¬ (0 < length.y) then (.assertFail, m)
  else if ¬ (0 < resolution) then (.assertFail, m)
  else
    let size : Idx := ⟨roundHalfAway (length.x / resolution), roundHalfAway (length.y / resolution)⟩
    let m := (m.resize size).clearAll
    (.ok (), { m with resolution := resolution,
                      length := ⟨(size.x : K) * resolution, (size.y : K) * resolution⟩,
                      position := position,
                      startIndex := 0 })

/-- `CostMap::setBasicLayers` (69-72): no check that the layers exist. -/
def setBasicLayers (m : CostMap K) (ls : List String) : CostMap K := { m with basicLayers := ls }

/-- `CostMap::setTimestamp` (505-508). -/
def setTimestamp (m : CostMap K) (t : Nat) : CostMap K := { m with timestamp := t }

/-- `CostMap::resetTimestamp` (515-518). -/
def resetTimestamp (m : CostMap K) : CostMap K := { m with timestamp := 0 }

/-- `CostMap::setFrameId` (520-523). -/
def setFrameId (m : CostMap K) (f : String) : CostMap K := { m with frameId := f }

/-- `CostMap::setPosition` (cost_map.hpp 76): nothing but the position changes, no check. -/
def setPosition (m : CostMap K) (p : Vec K) : CostMap K := { m with position := p }

/-- `CostMap::setStartIndex` (550-552): no check. -/
def setStartIndex (m : CostMap K) (i : Idx) : CostMap K := { m with startIndex := i }

/-- `CostMap::exists` (107-110). -/
def «exists» (m : CostMap K) (l : String) : Bool := (m.data l).isSome

/-- `CostMap::hasSameLayers` (79-85). -/
def hasSameLayers (m other : CostMap K) : Bool := m.layers.all fun l => other.exists l

/-- Replace the matrix of one layer in `data_`. -/
def setData (m : CostMap K) (l : String) (a : Mat Cost) : CostMap K :=
  { m with data := fun l' => if l' = l then some a else m.data l' }

/-- `CostMap::add(layer, data)` (92-105). -/
def add (l : String) (a : Mat Cost) : Act (CostMap K) Unit := fun m =>
  if m.size.x ≠ a.rows then (.assertFail, m)
  else if m.size.y ≠ a.cols then (.assertFail, m)
  else if m.exists l then (.ok (), m.setData l a)
  else (.ok (), { m.setData l a with layers := m.layers ++ [l] })

/-- `CostMap::add(layer, value)` (87-90); the header's default value is `NO_INFORMATION`. -/
def addConst (l : String) (v : Cost) : Act (CostMap K) Unit := fun m =>
  add l (Mat.const m.size.x.toNat m.size.y.toNat v) m

/-- `CostMap::get` (112-128), also `operator[]` (130-138). -/
def get (m : CostMap K) (l : String) : Res (Mat Cost) :=
  match m.data l with
  | some a => .ok a
  | none => .thrown .outOfRange

/-- Remove the first occurrence of a name (`std::find` + `vector::erase`). -/
def eraseFirst (l : String) : List String → List String
  | [] => []
  | a :: as => if a = l then as else a :: eraseFirst l as

/-- `CostMap::erase` (140-154). -/
def erase (l : String) : Act (CostMap K) Bool := fun m =>
  if (m.data l).isNone then (.ok false, m)
  else
    let m := { m with data := fun l' => if l' = l then none else m.data l' }
    if l ∉ m.layers then (.ok false, m)
    else
      let m := { m with layers := eraseFirst l m.layers }
      (.ok true, if l ∈ m.basicLayers then { m with basicLayers := eraseFirst l m.basicLayers } else m)

/-- `CostMap::at(layer, index) const` (205-212): a missing layer throws, an index outside the matrix is
undefined behaviour (Eigen's range check is an assertion). -/
def «at» (m : CostMap K) (l : String) (i : Idx) : Res Cost :=
  match m.data l with
  | none => .thrown .outOfRange
  | some a => .ofOption (a.get? i.x i.y)

/-- `map.at(layer, index) = v` through the non-const overload (196-203). -/
def setAt (l : String) (i : Idx) (v : Cost) : Act (CostMap K) Unit := fun m =>
  match m.data l with
  | none => (.thrown .outOfRange, m)
  | some a => if a.InRange i.x i.y then (.ok (), m.setData l (a.set i.x i.y v)) else (.ub, m)

/-- `CostMap::getIndex` (214-217). -/
def getIndex (m : CostMap K) (p : Vec K) : Idx × Bool :=
  indexFromPosition p m.length m.position m.resolution m.size m.startIndex

/-- `CostMap::getPosition(index, position)` (219-222). -/
def getPosition (m : CostMap K) (i : Idx) : Option (Vec K) :=
  positionFromIndex i m.length m.position m.resolution m.size m.startIndex

/-- `CostMap::isInside` (224-227). -/
def isInside (m : CostMap K) (p : Vec K) : Bool := withinMap p m.length m.position

/-- `CostMap::atPosition(layer, position)`, read through the non-const overload (161-168); the const overload
with nearest interpolation (183-191) is the same. -/
def atPosition (m : CostMap K) (l : String) (p : Vec K) : Res Cost :=
  let (i, inside) := m.getIndex p
  if inside then m.at l i else .thrown .outOfRange

/-- `map.atPosition(layer, position) = v` (161-168). -/
def setAtPosition (l : String) (p : Vec K) (v : Cost) : Act (CostMap K) Unit := fun m =>
  let (i, inside) := m.getIndex p
  if inside then setAt l i v m else (.thrown .outOfRange, m)

/-- `CostMap::isValid(index, layer)` (234-237). -/
def isValidLayer (m : CostMap K) (i : Idx) (l : String) : Res Bool :=
  (m.at l i).map fun c => decide (c ≠ NO_INFORMATION)

/-- The loop of `CostMap::isValid(index, layers)` (242-245): stops at the first invalid layer. -/
def allValid (m : CostMap K) (i : Idx) : List String → Res Bool
  | [] => .ok true
  | l :: ls => (m.at l i).bind fun c => if c = NO_INFORMATION then .ok false else allValid m i ls

/-- `CostMap::isValid(index, layers)` (239-246). -/
def isValidLayers (m : CostMap K) (i : Idx) (ls : List String) : Res Bool :=
  if ls.isEmpty then .ok false else m.allValid i ls

/-- `CostMap::isValid(index)` (229-232). -/
def isValid (m : CostMap K) (i : Idx) : Res Bool := m.isValidLayers i m.basicLayers

/-- `CostMap::getPosition3` (248-257): `ok none` when it returns false. The result of `getPosition` is
not checked by the code; where it fails the position would be uninitialised. -/
def getPosition3 (m : CostMap K) (l : String) (i : Idx) : Res (Option (Vec K × Cost)) :=
  (m.isValidLayer i l).bind fun v =>
    if !v then .ok none
    else match m.getPosition i with
      | none => .ub
      | some p => (m.at l i).bind fun z => .ok (some (p, z))

/-- `CostMap::getVector` (259-271): `ok none` when it returns false. -/
def getVector (m : CostMap K) (pre : String) (i : Idx) : Res (Option (Cost × Cost × Cost)) :=
  (m.isValidLayers i [pre ++ "x", pre ++ "y", pre ++ "z"]).bind fun v =>
    if !v then .ok none
    else (m.at (pre ++ "x") i).bind fun a => (m.at (pre ++ "y") i).bind fun b =>
      (m.at (pre ++ "z") i).bind fun c => .ok (some (a, b, c))

/-- `CostMap::clear` (559-566). -/
def clear (l : String) : Act (CostMap K) Unit := fun m =>
  match m.data l with
  | none => (.thrown .outOfRange, m)
  | some a => (.ok (), m.setData l (a.setConstant NO_INFORMATION))

/-- `CostMap::clearBasic` (568-573). -/
def clearBasic : Act (CostMap K) Unit := fun m => Act.forEach clear m.basicLayers m

/-- `a.block(i, j, nRows, nCols).setConstant(v)`; `none` where Eigen's block assertion would fire. -/
def setBlockConstant (a : Mat Cost) (i j nRows nCols : Int) (v : Cost) : Option (Mat Cost) :=
  if 0 ≤ i ∧ 0 ≤ j ∧ 0 ≤ nRows ∧ 0 ≤ nCols ∧ i + nRows ≤ a.rows ∧ j + nCols ≤ a.cols then
    some (a.mapIdx fun i' j' c =>
      if i ≤ i' ∧ i' < i + nRows ∧ j ≤ j' ∧ j' < j + nCols then v else c)
  else none

/-- Loop body of `clearRows`/`clearCols` (587-589, 597-599): `data_.at(layer)` throws
`std::out_of_range` for a missing layer. -/
def clearBlock (i j nRows nCols : Int) (l : String) : Act (CostMap K) Unit := fun m =>
  match m.data l with
  | none => (.thrown .outOfRange, m)
  | some a => match setBlockConstant a i j nRows nCols NO_INFORMATION with
    | none => (.ub, m)
    | some a' => (.ok (), m.setData l a')

/-- The layers `clearRows` and `clearCols` act on (584-586, 594-596). -/
def layersToClear (m : CostMap K) : List String :=
  if m.basicLayers.length > 0 then m.basicLayers else m.layers

/-- `CostMap::clearRows` (582-590). -/
def clearRows (index nRows : Int) : Act (CostMap K) Unit := fun m =>
  Act.forEach (clearBlock index 0 nRows m.size.y) m.layersToClear m

/-- `CostMap::clearCols` (592-600). -/
def clearCols (index nCols : Int) : Act (CostMap K) Unit := fun m =>
  Act.forEach (clearBlock 0 index m.size.x nCols) m.layersToClear m

/-- Component `i` of an index (`index(i)`). -/
def comp (v : Idx) (i : Fin 2) : Int := if i = 0 then v.x else v.y

/-- The region of rows (`i = 0`) or columns (`i = 1`) pushed to `newRegions` (355, 358, 366, 369, 376, 379). -/
def stripRegion (i : Fin 2) (index n : Int) (size : Idx) : BufferRegion :=
  if i = 0 then ⟨⟨index, 0⟩, ⟨n, size.y⟩, .undefined⟩ else ⟨⟨0, index⟩, ⟨size.x, n⟩, .undefined⟩

/-- `clearRows` or `clearCols`, by axis. -/
def clearStrip (i : Fin 2) (index n : Int) : Act (CostMap K) Unit :=
  if i = 0 then clearRows index n else clearCols index n

/-- One pass of the loop over the axes in `CostMap::move` (336-384): drop the cells that fall out of
the map along axis `i`. `bnd` is `grid_map::boundIndexToRange`, called at line 349. Returns the
regions it appends to `newRegions`. -/
def dropAxis (bnd : Int → Int → Int) (shift : Idx) (i : Fin 2) : Act (CostMap K) (List BufferRegion) :=
  fun m =>
  let sh := comp shift i
  let sz := comp m.size i
  if sh ≠ 0 then
    if |sh| ≥ sz then
      (.ok [⟨0, m.size, .undefined⟩], m.clearAll)
    else
      let sign : Int := if sh > 0 then 1 else -1
      let startIndex := comp m.startIndex i - (if sign < 0 then 1 else 0)
      let endIndex := startIndex - sign + sh
      let nCells := |sh|
      let index := bnd (if sign > 0 then startIndex else endIndex) sz
      if index + nCells ≤ sz then
        Act.bind (clearStrip i index nCells) (fun _ => Act.pure [stripRegion i index nCells m.size]) m
      else
        let firstNCells := sz - index
        let secondNCells := nCells - firstNCells
        Act.bind (clearStrip i index firstNCells) (fun _ =>
          Act.bind (clearStrip i 0 secondNCells) (fun _ =>
            Act.pure [stripRegion i index firstNCells m.size, stripRegion i 0 secondNCells m.size])) m
  else (.ok [], m)

/-- `CostMap::move` (327-399), with `bnd` for `grid_map::boundIndexToRange` (lines 349, 388). Returns the
C++ return value and the regions appended to `newRegions`. -/
def moveWith (bnd : Int → Int → Int) (position : Vec K) : Act (CostMap K) (Bool × List BufferRegion) :=
  fun m =>
  let shift := indexShift (position - m.position) m.resolution
  let aligned := positionShift shift m.resolution
  Act.bind (dropAxis bnd shift 0) (fun r0 =>
    Act.bind (dropAxis bnd shift 1) (fun r1 => fun m =>
      (.ok (decide (shift ≠ 0), r0 ++ r1),
        { m with startIndex := bound2 bnd (m.startIndex + shift) m.size,
                 position := m.position + aligned }))) m

/-- `CostMap::move` as compiled against grid_map_core ≥ 1.5, whose `boundIndexToRange` clamps. -/
def move (position : Vec K) : Act (CostMap K) (Bool × List BufferRegion) := moveWith clamp1 position

end CostMap
end CostMapModel
