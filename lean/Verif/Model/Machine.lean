import Verif.Model.RoundedSubmap
import Verif.Model.Line

/-!
# The index arithmetic in 32-bit integers

The other modules compute indices in unbounded integers. Here the functions that do arithmetic on indices are modelled again with
`int` operations: `none` (or `Res.ub`) where the C++ operation has undefined behaviour, that is where the result of an operation
on `int`s or of a conversion from `double` is not representable, and for a division by zero. Coordinates are rounded by `rd` as in
`Model/Rounded.lean`, so with `rd := toDouble` these functions are the machine's, up to the limits stated there. C79 says when they
agree with the functions of `Model/Rounded.lean`.

The functions without a file name belong to grid_map_core (GridMapMath.cpp); the places in /repo that call them are given in
`Model/GridMath.lean`.
-/

namespace CostMapModel

/-- The value of an `int` operation: undefined when it does not fit. -/
def i32 (z : Int) : Option Int := if -2147483648 ≤ z ∧ z < 2147483648 then some z else none

namespace I32
/-- `a + b`. -/
def add (a b : Int) : Option Int := i32 (a + b)
/-- `a - b`. -/
def sub (a b : Int) : Option Int := i32 (a - b)
/-- `a * b`. -/
def mul (a b : Int) : Option Int := i32 (a * b)
/-- `-a`. -/
def neg (a : Int) : Option Int := i32 (-a)
/-- `std::abs(a)`. -/
def abs (a : Int) : Option Int := i32 |a|
/-- `a / b`. -/
def div (a b : Int) : Option Int := if b = 0 then none else i32 (Int.tdiv a b)
/-- `a % b`; undefined when `a / b` is. -/
def rem (a b : Int) : Option Int := (div a b).bind fun _ => i32 (Int.tmod a b)
/-- `static_cast<int>(x)` of a `double`. -/
def ofReal {K : Type} [Field K] [LinearOrder K] [FloorRing K] (x : K) : Option Int := i32 (truncToInt x)

/-- The same operation on both components of an `Eigen::Array2i`. -/
def both (f : Int → Int → Option Int) (a b : Idx) : Option Idx :=
  (f a.x b.x).bind fun x => (f a.y b.y).bind fun y => some ⟨x, y⟩
end I32

/-- `wrapIndexToRange(int&, int)`: `if (i < 0) i += ((-i / n) + 1) * n; i = i % n;`. -/
def wrapI (i n : Int) : Option Int :=
  ((if i < 0 then (I32.neg i).bind fun a => (I32.div a n).bind fun b => (I32.add b 1).bind fun c =>
      (I32.mul c n).bind fun d => I32.add i d
    else some i)).bind fun i => I32.rem i n

/-- `boundIndexToRange(int&, int)`: clamps. -/
def clampI (i n : Int) : Option Int := if i < 0 then some 0 else if i ≥ n then I32.sub n 1 else some i

/-- `getIndexFromBufferIndex`. -/
def unwrapI (i size start : Idx) : Option Idx :=
  if start = 0 then some i else (I32.both I32.sub i start).bind fun d => I32.both wrapI d size

/-- `getBufferIndexFromIndex`. -/
def bufferI (i size start : Idx) : Option Idx :=
  if start = 0 then some i else (I32.both I32.add i start).bind fun d => I32.both wrapI d size

section
variable {K : Type} [Field K] [LinearOrder K] [FloorRing K] (rd : K → K)

/-- One axis of `getIndexFromPosition`: the conversion to `int` and the sign change of `transformMapFrameToBufferOrder`. -/
def cellI (p len mapPos res : K) : Option Int :=
  (I32.ofReal (rd (rd (rd (p - toOriginRd rd len) - mapPos) / res))).bind fun i => I32.neg i

/-- `getIndexFromPosition`. The index is computed whether or not the position is inside. -/
def indexFromPositionI (p len mapPos : Vec K) (res : K) (size start : Idx) : Option (Idx × Bool) :=
  (cellI rd p.x len.x mapPos.x res).bind fun x => (cellI rd p.y len.y mapPos.y res).bind fun y =>
    (bufferI ⟨x, y⟩ size start).bind fun i => some (i, withinMapRd rd p len mapPos)

/-- One axis of `getPositionFromIndex`; the sign is changed on the `int`. -/
def centreI (u : Int) (len mapPos res : K) : Option K :=
  (I32.neg u).bind fun v => some (rd (rd (mapPos + toFirstCellRd rd len res) + rd (res * (v : K))))

/-- `getPositionFromIndex`; the inner `none` when it returns false. -/
def positionFromIndexI (i : Idx) (len mapPos : Vec K) (res : K) (size start : Idx) : Option (Option (Vec K)) :=
  if inRange i size then
    (unwrapI i size start).bind fun u => (centreI rd u.x len.x mapPos.x res).bind fun x =>
      (centreI rd u.y len.y mapPos.y res).bind fun y => some (some ⟨x, y⟩)
  else some none

/-- One axis of `getIndexShiftFromPositionShift`. -/
def indexShift1I (s res : K) : Option Int :=
  (I32.ofReal (rd (rd (s / res) + 1 / 2 * (if 0 < rd (s / res) then 1 else -1)))).bind fun i => I32.neg i

/-- `getIndexShiftFromPositionShift`. -/
def indexShiftI (s : Vec K) (res : K) : Option Idx :=
  (indexShift1I rd s.x res).bind fun x => (indexShift1I rd s.y res).bind fun y => some ⟨x, y⟩

/-- One axis of `getPositionShiftFromIndexShift`. -/
def positionShift1I (i : Int) (res : K) : Option K := (I32.neg i).bind fun v => some (rd ((v : K) * res))

/-- `getPositionShiftFromIndexShift`. -/
def positionShiftI (i : Idx) (res : K) : Option (Vec K) :=
  (positionShift1I rd i.x res).bind fun x => (positionShift1I rd i.y res).bind fun y => some ⟨x, y⟩

/-- `getSubmapInformation`; the inner `none` when it returns false. -/
def submapInformationI (reqPos reqLen len mapPos : Vec K) (res : K) (size start : Idx) : Option (Option (SubmapInfo K)) :=
  let tl := boundPositionRd rd ⟨rd (reqPos.x + rd (1 / 2 * reqLen.x)), rd (reqPos.y + rd (1 / 2 * reqLen.y))⟩ len mapPos
  (indexFromPositionI rd tl len mapPos res size start).bind fun a =>
  if !a.2 then some none else
  (unwrapI a.1 size start).bind fun tlU =>
  let br := boundPositionRd rd ⟨rd (reqPos.x - rd (1 / 2 * reqLen.x)), rd (reqPos.y - rd (1 / 2 * reqLen.y))⟩ len mapPos
  (indexFromPositionI rd br len mapPos res size start).bind fun b =>
  if !b.2 then some none else
  (unwrapI b.1 size start).bind fun brU =>
  (positionFromIndexI rd a.1 len mapPos res size start).bind fun c =>
  match c with
  | none => some none
  | some c =>
    let corner : Vec K := ⟨rd (c.x + rd (1 / 2 * res)), rd (c.y + rd (1 / 2 * res))⟩
    (I32.both I32.sub brU tlU).bind fun d => (I32.both I32.add d Idx.ones).bind fun subSize =>
    let subLen : Vec K := ⟨rd ((subSize.x : K) * res), rd ((subSize.y : K) * res)⟩
    let subPos : Vec K := ⟨rd (corner.x - toOriginRd rd subLen.x), rd (corner.y - toOriginRd rd subLen.y)⟩
    (indexFromPositionI rd reqPos subLen subPos res subSize 0).bind fun e =>
    if !e.2 then some none else
    some (some ⟨a.1, subSize, subPos, subLen, e.1⟩)

end

/-- `incrementIndex`; the inner `none` when it returns false. -/
def incrementIndexI (i size start : Idx) : Option (Option Idx) :=
  (unwrapI i size start).bind fun u => (I32.add u.y 1).bind fun y1 =>
  ((if y1 < size.y then some ⟨u.x, y1⟩ else (I32.add u.x 1).bind fun x1 => some ⟨x1, 0⟩ : Option Idx)).bind fun u' =>
  if inRange u' size then (bufferI u' size start).bind fun j => some (some j) else some none

/-- `incrementIndexForSubmap`; the inner `none` when it returns false. -/
def incrementIndexForSubmapI (sub : Idx) (subTopLeft subSize size start : Idx) : Option (Option (Idx × Idx)) :=
  (I32.add sub.y 1).bind fun y1 =>
  ((if y1 < subSize.y then some ⟨sub.x, y1⟩ else (I32.add sub.x 1).bind fun x1 => some ⟨x1, 0⟩ : Option Idx)).bind fun s' =>
  if inRange s' subSize then
    (unwrapI subTopLeft size start).bind fun t => (I32.both I32.add t s').bind fun v =>
      (bufferI v size start).bind fun j => some (some (s', j))
  else some none

/-- A step whose integer operations may be undefined. -/
def Act.ofOption {σ α : Type} (o : Option α) : Act σ α := fun s => (Res.ofOption o, s)

namespace CostMap
variable {K : Type} [Field K] [LinearOrder K] [FloorRing K] (rd : K → K)

/-- `CostMap::setGeometry` (cost_map.cpp 42-62). -/
def setGeometryI (length : Vec K) (resolution : K) (position : Vec K) : Act (CostMap K) Unit := fun m =>
  if ¬ (0 < length.x) then (.assertFail, m)
  else if ¬ (0 < length.y) then (.assertFail, m)
  else if ¬ (0 < resolution) then (.assertFail, m)
  else match i32 (roundHalfAway (rd (length.x / resolution))), i32 (roundHalfAway (rd (length.y / resolution))) with
    | some x, some y =>
      let m := (m.resize ⟨x, y⟩).clearAll
      (.ok (), { m with resolution := resolution,
                        length := ⟨rd ((x : K) * resolution), rd ((y : K) * resolution)⟩,
                        position := position,
                        startIndex := 0 })
    | _, _ => (.ub, m)

/-- `CostMap::getIndex` (cost_map.cpp 214-217). -/
def getIndexI (m : CostMap K) (p : Vec K) : Option (Idx × Bool) :=
  indexFromPositionI rd p m.length m.position m.resolution m.size m.startIndex

/-- `CostMap::getPosition(index, position)` (cost_map.cpp 219-222). -/
def getPositionI (m : CostMap K) (i : Idx) : Option (Option (Vec K)) :=
  positionFromIndexI rd i m.length m.position m.resolution m.size m.startIndex

/-- `CostMap::atPosition(layer, position)` (cost_map.cpp 161-168, 183-191). -/
def atPositionI (m : CostMap K) (l : String) (p : Vec K) : Res Cost :=
  match m.getIndexI rd p with
  | none => .ub
  | some (i, inside) => if inside then m.at l i else .thrown .outOfRange

/-- `map.atPosition(layer, position) = v` (cost_map.cpp 161-168). -/
def setAtPositionI (l : String) (p : Vec K) (v : Cost) : Act (CostMap K) Unit := fun m =>
  match m.getIndexI rd p with
  | none => (.ub, m)
  | some (i, inside) => if inside then setAt l i v m else (.thrown .outOfRange, m)

/-- `SubmapGeometry::SubmapGeometry` (submap_geometry.cpp 12-20): the inner `none` when `isSuccess` is false. -/
def submapGeometryI (m : CostMap K) (position length : Vec K) : Option (Option (SubmapInfo K)) :=
  submapInformationI rd position length m.length m.position m.resolution m.size m.startIndex

/-- One pass of the loop over the axes in `CostMap::move` (cost_map.cpp 336-384). -/
def dropAxisI (shift : Idx) (i : Fin 2) : Act (CostMap K) (List BufferRegion) := fun m =>
  let sh := comp shift i
  let sz := comp m.size i
  if sh ≠ 0 then
    Act.bind (Act.ofOption (I32.abs sh)) (fun n =>
      if n ≥ sz then fun m => (.ok [⟨0, m.size, .undefined⟩], m.clearAll)
      else
        let sign : Int := if sh > 0 then 1 else -1
        Act.bind (Act.ofOption (I32.sub (comp m.startIndex i) (if sign < 0 then 1 else 0))) fun startIndex =>
        Act.bind (Act.ofOption (I32.sub startIndex sign)) fun e => Act.bind (Act.ofOption (I32.add e sh)) fun endIndex =>
        Act.bind (Act.ofOption (I32.abs sh)) fun nCells =>
        Act.bind (Act.ofOption (clampI (if sign > 0 then startIndex else endIndex) sz)) fun index =>
        Act.bind (Act.ofOption (I32.add index nCells)) fun last =>
        if last ≤ sz then
          Act.bind (clearStrip i index nCells) fun _ => Act.pure [stripRegion i index nCells m.size]
        else
          Act.bind (Act.ofOption (I32.sub sz index)) fun firstNCells =>
          Act.bind (clearStrip i index firstNCells) fun _ =>
          Act.bind (Act.ofOption (I32.sub nCells firstNCells)) fun secondNCells =>
          Act.bind (clearStrip i 0 secondNCells) fun _ =>
            Act.pure [stripRegion i index firstNCells m.size, stripRegion i 0 secondNCells m.size]) m
  else (.ok [], m)

/-- `CostMap::move` (cost_map.cpp 327-399), with the clamping `boundIndexToRange`. -/
def moveI (position : Vec K) : Act (CostMap K) (Bool × List BufferRegion) := fun m =>
  Act.bind (Act.ofOption (indexShiftI rd ⟨rd (position.x - m.position.x), rd (position.y - m.position.y)⟩ m.resolution))
    (fun shift => Act.bind (Act.ofOption (positionShiftI rd shift m.resolution)) fun aligned =>
      Act.bind (dropAxisI shift 0) fun r0 => Act.bind (dropAxisI shift 1) fun r1 => fun m =>
        Act.bind (Act.ofOption (I32.both I32.add m.startIndex shift)) (fun s =>
          Act.bind (Act.ofOption (I32.both clampI s m.size)) fun s' => fun m =>
            (.ok (decide (shift ≠ 0), r0 ++ r1),
              { m with startIndex := s',
                       position := ⟨rd (m.position.x + aligned.x), rd (m.position.y + aligned.y)⟩ })) m) m

end CostMap

namespace CostMapIter

/-- Constructor (cost_map_iterator.cpp 14-22). -/
def newI {K : Type} (m : CostMap K) : Option CostMapIter :=
  (I32.both I32.add m.startIndex m.size).bind fun a => (I32.both I32.sub a Idx.ones).bind fun b =>
    (I32.both clampI b m.size).bind fun e => some ⟨m.size, m.startIndex, e, m.startIndex, false⟩

/-- `operator ++` (cost_map_iterator.cpp 58-62). -/
def nextI (it : CostMapIter) : Option CostMapIter :=
  (incrementIndexI it.index it.size it.startIndex).bind fun o => match o with
    | some i => some { it with index := i, pastEnd := false }
    | none => some { it with pastEnd := true }

/-- The iterator operations. -/
def opsI : IterOps CostMapIter Idx := ⟨fun it => it.pastEnd, fun it => .ok it.index, fun it => Res.ofOption it.nextI⟩

end CostMapIter

namespace SubmapIter

/-- `operator ++` (submap_iterator.cpp 78-83). -/
def nextI (it : SubmapIter) : Option SubmapIter :=
  (incrementIndexForSubmapI it.submapIndex it.submapStartIndex it.submapSize it.size it.startIndex).bind fun o => match o with
    | some (s, i) => some { it with submapIndex := s, index := i, pastEnd := false }
    | none => some { it with pastEnd := true }

/-- The iterator operations. -/
def opsI : IterOps SubmapIter Idx := ⟨fun it => it.pastEnd, fun it => .ok it.index, fun it => Res.ofOption it.nextI⟩

end SubmapIter

namespace LineIter

/-- `initializeIterationParameters` (line_iterator.cpp 107-151). The number of cells is computed as an `int` and stored as an
`unsigned int`. -/
def ofIndicesI (a b : Idx) : Option LineIter :=
  (I32.both I32.sub b a).bind fun d => (I32.abs d.x).bind fun dx => (I32.abs d.y).bind fun dy =>
  let sx : Int := if b.x ≥ a.x then 1 else -1
  let sy : Int := if b.y ≥ a.y then 1 else -1
  if dx ≥ dy then
    (I32.div dx 2).bind fun h => (I32.add dx 1).bind fun n =>
    some { index := a, iCell := 0, nCells := n.toNat, increment1 := ⟨0, sy⟩, increment2 := ⟨sx, 0⟩,
           denominator := dx, numerator := h, numeratorAdd := dy }
  else
    (I32.div dy 2).bind fun h => (I32.add dy 1).bind fun n =>
    some { index := a, iCell := 0, nCells := n.toNat, increment1 := ⟨sx, 0⟩, increment2 := ⟨0, sy⟩,
           denominator := dy, numerator := h, numeratorAdd := dx }

/-- `operator ++` (line_iterator.cpp 61-71). -/
def nextI (it : LineIter) : Option LineIter :=
  (I32.add it.numerator it.numeratorAdd).bind fun n =>
  if n ≥ it.denominator then
    (I32.sub n it.denominator).bind fun n' => (I32.both I32.add it.index it.increment1).bind fun i =>
    (I32.both I32.add i it.increment2).bind fun j =>
    some { it with numerator := n', index := j, iCell := (it.iCell + 1) % 4294967296 }
  else
    (I32.both I32.add it.index it.increment2).bind fun j =>
    some { it with numerator := n, index := j, iCell := (it.iCell + 1) % 4294967296 }

/-- The iterator operations. -/
def opsI : IterOps LineIter Idx := ⟨isPastEnd, fun it => .ok it.index, fun it => Res.ofOption it.nextI⟩

end LineIter
end CostMapModel
