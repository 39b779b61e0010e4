import Verif.Model.Merge

/-!
# Arguments that are part of the map

Most functions of `CostMap` take their arguments by `const` reference, and its getters return references to its members
(cost_map.hpp 144-158, 398-435; `get`, 105-131). A caller can hand one to the other: `map.erase(map.getLayers()[0])`,
`map.setGeometry(map.getLength(), 0.1, map.getPosition())`, `map.addDataFrom(map, ...)`. The function then reads its argument
anew at each use, while it changes what the argument is part of. Here the functions are modelled with that: an argument is a
place, and each use reads what the place holds at that time; to read a place that is no more is undefined behaviour. All line
numbers are of cost_map_core/src/lib/cost_map.cpp.

`std::vector::erase` moves the elements behind the erased one down and does not move the array (the standard: references to
the elements before it stay valid, and those behind it refer to what is assigned there, the last being destroyed).
`push_back`, `insert` of a `pair` and Eigen's assignment take copies of their arguments before they change anything.
-/

namespace CostMapModel

/-- Where a name given as a `const std::string&` is. -/
inductive NameRef where
  /-- A string of the caller's. -/
  | copy (s : String)
  /-- `map.getLayers()[i]`. -/
  | layer (i : Nat)
  /-- `map.getBasicLayers()[i]`. -/
  | basic (i : Nat)
  /-- `map.getFrameId()`. -/
  | frame

/-- Where a list of names given as a `const std::vector<std::string>&` is. -/
inductive NamesRef where
  /-- The caller's. -/
  | copy (ls : List String)
  /-- `map.getLayers()`. -/
  | layers
  /-- `map.getBasicLayers()`. -/
  | basic

/-- Where a `const Position&` is. -/
inductive PositionRef (K : Type) where
  /-- The caller's. -/
  | copy (p : Vec K)
  /-- `map.getPosition()`. -/
  | own

/-- Where a `const Length&` is, which is of another type. -/
inductive LengthRef (K : Type) where
  /-- The caller's. -/
  | copy (v : Vec K)
  /-- `map.getLength()`. -/
  | own

/-- Where a `const Index&` is. -/
inductive IdxRef where
  /-- The caller's. -/
  | copy (i : Idx)
  /-- `map.getStartIndex()`. -/
  | start
  /-- `map.getSize()`. -/
  | size

/-- Where a `const Matrix&` is. -/
inductive MatRef where
  /-- The caller's. -/
  | copy (a : Mat Cost)
  /-- `map.get(l)`. -/
  | layer (l : String)

variable {K : Type}

/-- What is there now; `none` if the place is no more. -/
def NameRef.read (m : CostMap K) : NameRef → Option String
  | .copy s => some s
  | .layer i => m.layers[i]?
  | .basic i => m.basicLayers[i]?
  | .frame => some m.frameId

/-- What is there now. -/
def NamesRef.read (m : CostMap K) : NamesRef → List String
  | .copy ls => ls
  | .layers => m.layers
  | .basic => m.basicLayers

/-- What is there now. -/
def PositionRef.read (m : CostMap K) : PositionRef K → Vec K
  | .copy p => p
  | .own => m.position

/-- What is there now. -/
def LengthRef.read (m : CostMap K) : LengthRef K → Vec K
  | .copy v => v
  | .own => m.length

/-- What is there now. -/
def IdxRef.read (m : CostMap K) : IdxRef → Idx
  | .copy i => i
  | .start => m.startIndex
  | .size => m.size

/-- What is there now; `none` if the layer is no more. -/
def MatRef.read (m : CostMap K) : MatRef → Option (Mat Cost)
  | .copy a => some a
  | .layer l => m.data l

namespace CostMap

/-- A use of an argument. -/
def use {α : Type} (f : CostMap K → Option α) : Act (CostMap K) α := fun m => (Res.ofOption (f m), m)

/-- `assert(b)`. -/
def «assert» (f : CostMap K → Bool) : Act (CostMap K) Unit := fun m => if f m then (.ok (), m) else (.assertFail, m)

/-- `setFrameId` (520-523). -/
def setFrameIdRef (f : NameRef) : Act (CostMap K) Unit :=
  Act.bind (use fun m => f.read m) fun s => Act.modify fun m => { m with frameId := s }

/-- `setBasicLayers` (69-71). -/
def setBasicLayersRef (ls : NamesRef) : Act (CostMap K) Unit := Act.modify fun m => { m with basicLayers := ls.read m }

/-- `setPosition` (cost_map.hpp 76). -/
def setPositionRef (p : PositionRef K) : Act (CostMap K) Unit := Act.modify fun m => { m with position := p.read m }

/-- `setStartIndex` (550-552). -/
def setStartIndexRef (i : IdxRef) : Act (CostMap K) Unit := Act.modify fun m => { m with startIndex := i.read m }

/-- `map.at(layer, index) = v` (196-203): the layer is looked up, then the element. -/
def setAtRef (l : NameRef) (i : IdxRef) (v : Cost) : Act (CostMap K) Unit :=
  Act.bind (use fun m => l.read m) fun s => fun m => setAt s (i.read m) v m

/-- `clear` (559-566). -/
def clearRef (l : NameRef) : Act (CostMap K) Unit := Act.bind (use fun m => l.read m) fun s => clear s

/-- `add(layer, data)` (92-105). The statements in turn: the assertions (94-95), `exists` (97), and either the assignment (99),
or the insertion (102) and `push_back` (103). -/
def addRef (l : NameRef) (a : MatRef) : Act (CostMap K) Unit :=
  Act.bind (use fun m => a.read m) fun d => Act.bind (assert fun m => decide (m.size.x = d.rows)) fun _ =>
  Act.bind (use fun m => a.read m) fun d => Act.bind (assert fun m => decide (m.size.y = d.cols)) fun _ =>
  Act.bind (use fun m => l.read m) fun s => fun m =>
  if m.exists s then
    (Act.bind (use fun m => l.read m) fun s => Act.bind (use fun m => a.read m) fun d => Act.modify fun m => m.setData s d) m
  else
    (Act.bind (use fun m => l.read m) fun s => Act.bind (use fun m => a.read m) fun d =>
      Act.bind (Act.modify fun m => m.setData s d) fun _ =>
      Act.bind (use fun m => l.read m) fun s => Act.modify fun m => { m with layers := m.layers ++ [s] }) m

/-- `add(layer, value)` (87-90). -/
def addConstRef (l : NameRef) (v : Cost) : Act (CostMap K) Unit := fun m =>
  addRef l (.copy (Mat.const m.size.x.toNat m.size.y.toNat v)) m

/-- `std::find(v.begin(), v.end(), name)`, which reads the name only if there is something to compare with. -/
def findRef (l : NameRef) (v : CostMap K → List String) : Act (CostMap K) (Option String) := fun m =>
  match v m with
  | [] => (.ok none, m)
  | ls => (Act.bind (use fun m => l.read m) fun s => Act.pure (if s ∈ ls then some s else none)) m

/-- `erase` (140-154). The statements in turn: `data_.find` (142-143), `data_.erase` (144), `std::find` in `layers_` (146-147),
`layers_.erase` (148), `std::find` in `basicLayers_` (150) and `basicLayers_.erase` (151). -/
def eraseRef (l : NameRef) : Act (CostMap K) Bool :=
  Act.bind (use fun m => l.read m) fun s => fun m =>
  if (m.data s).isNone then (.ok false, m)
  else
    (Act.bind (Act.modify fun m => { m with data := fun l' => if l' = s then none else m.data l' }) fun _ =>
      Act.bind (findRef l fun m => m.layers) fun f => match f with
      | none => Act.pure false
      | some s => Act.bind (Act.modify fun m => { m with layers := eraseFirst s m.layers }) fun _ =>
        Act.bind (findRef l fun m => m.basicLayers) fun f => match f with
        | none => Act.pure true
        | some s => Act.bind (Act.modify fun m => { m with basicLayers := eraseFirst s m.basicLayers }) fun _ => Act.pure true) m

section Field
variable [Field K] [LinearOrder K] [FloorRing K]

/-- `setGeometry(length, resolution, position)` (43-62). The statements in turn: the assertions (46-48), the size (50-52),
`resize` and `clearAll` (53-54), and the assignments (56-59). -/
def setGeometryRef (len : LengthRef K) (resolution : K) (pos : PositionRef K) : Act (CostMap K) Unit :=
  Act.bind (assert fun m => decide (0 < (len.read m).x)) fun _ =>
  Act.bind (assert fun m => decide (0 < (len.read m).y)) fun _ =>
  Act.bind (assert fun _ => decide (0 < resolution)) fun _ => fun m =>
  (Act.bind (Act.modify fun m => m.resize
      ⟨roundHalfAway ((len.read m).x / resolution), roundHalfAway ((len.read m).y / resolution)⟩) fun _ =>
    Act.bind (Act.modify clearAll) fun _ =>
    Act.bind (Act.modify fun m => { m with resolution := resolution }) fun _ =>
    Act.bind (Act.modify fun m => { m with length := ⟨(m.size.x : K) * m.resolution, (m.size.y : K) * m.resolution⟩ }) fun _ =>
    Act.bind (Act.modify fun m => { m with position := pos.read m }) fun _ =>
    Act.modify fun m => { m with startIndex := 0 }) m

/-- `map.atPosition(layer, position) = v` (161-168). -/
def setAtPositionRef (l : NameRef) (p : PositionRef K) (v : Cost) : Act (CostMap K) Unit := fun m =>
  let (i, inside) := m.getIndex (p.read m)
  if inside then setAtRef l (.copy i) v m else (.thrown .outOfRange, m)

/-- `move` (327-399): the argument is used at line 330 only, before anything has changed. -/
def moveRef (p : PositionRef K) : Act (CostMap K) (Bool × List BufferRegion) := fun m => move (p.read m) m

/-- `map.extendToInclude(map)` (433-503): the other map is used up to line 443 only, before anything has changed. -/
def extendToIncludeSelf : Act (CostMap K) Bool := fun m => extendToInclude m m

/-- Loop body 425-426 of `map.addDataFrom(map, ...)`: the other map is this one, as it is by now. -/
def mergeLayerSelf (i j : Idx) (l : String) : Act (CostMap K) Unit :=
  Act.bind (Act.read fun m => m.isValidLayer j l) fun v =>
    if !v then Act.pure ()
    else Act.bind (Act.read fun m => m.at l j) fun c => setAt l i c

/-- Loop body 418-427 of `map.addDataFrom(map, ...)`. -/
def mergeCellSelf (overwrite : Bool) (ls : List String) (i : Idx) : Act (CostMap K) Unit :=
  Act.bind (Act.read fun m => m.isValid i) fun v =>
    if v && !overwrite then Act.pure ()
    else fun m => match m.getPosition i with
      | none => (.ub, m)
      | some p =>
        if !m.isInside p then (.ok (), m)
        else Act.forEach (mergeLayerSelf i (m.getIndex p).1) ls m

/-- `map.addDataFrom(map, ...)` (401-431). The list of layers is passed by value. -/
def addDataFromSelf (extend overwrite copyAll : Bool) (ls : List String) : Act (CostMap K) Bool := fun m =>
  let ls := if copyAll then m.layers else ls
  Act.bind (if extend then extendToIncludeSelf else Act.pure true) (fun _ =>
    Act.bind (Act.forEach addMissing ls) fun _ =>
      Act.bind (forCells (mergeCellSelf overwrite ls)) fun _ => Act.pure true) m

end Field
end CostMap
end CostMapModel
