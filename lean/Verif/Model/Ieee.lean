import Verif.Model.Machine
import Verif.Model.Message

/-!
# Infinities, NaN and overflow

The coordinates of the other modules are numbers. Here they are `double`s as IEEE 754 has them: a number, an infinity or NaN; an
operation whose rounded result is too large gives an infinity. The functions of `Model/Machine.lean` that take coordinates from the
user are modelled again on such values. Simplified: the sign of a zero is not kept (dividing by a zero gives the infinity of the
sign of the dividend), and underflow is left to the rounding `rd`.

The state is `CostMap (Dbl K)`: the map itself may have a position or length that is not a number.
-/

namespace CostMapModel

/-- A `double`. -/
inductive Dbl (K : Type) where
  | fin (x : K)
  | pinf
  | ninf
  | nan

/-- The format: its rounding, and the number from which on a rounded result is infinite (`2^1024` for binary64). -/
structure Fmt (K : Type) where
  rd : K → K
  top : K

namespace Dbl
variable {K : Type} [Field K] [LinearOrder K] [FloorRing K] (F : Fmt K)

/-- The result of an operation with the exact value `x`. -/
def round (x : K) : Dbl K := if F.top ≤ F.rd x then .pinf else if F.rd x ≤ -F.top then .ninf else .fin (F.rd x)

/-- `-a`. -/
def neg : Dbl K → Dbl K
  | .fin x => .fin (-x)
  | .pinf => .ninf
  | .ninf => .pinf
  | .nan => .nan

/-- `a + b`. -/
def add : Dbl K → Dbl K → Dbl K
  | .fin x, .fin y => round F (x + y)
  | .nan, _ | _, .nan | .pinf, .ninf | .ninf, .pinf => .nan
  | .pinf, _ | _, .pinf => .pinf
  | .ninf, _ | _, .ninf => .ninf

/-- `a - b`. -/
def sub (a b : Dbl K) : Dbl K := add F a (neg b)

/-- An infinity with the sign of `x`, NaN for zero. -/
def infOf (x : K) : Dbl K := if x = 0 then .nan else if 0 < x then .pinf else .ninf

/-- `a * b`. -/
def mul : Dbl K → Dbl K → Dbl K
  | .fin x, .fin y => round F (x * y)
  | .nan, _ | _, .nan => .nan
  | .pinf, .fin y | .fin y, .pinf => infOf y
  | .ninf, .fin y | .fin y, .ninf => neg (infOf y)
  | .pinf, .pinf | .ninf, .ninf => .pinf
  | .pinf, .ninf | .ninf, .pinf => .ninf

/-- `a / b`. -/
def div : Dbl K → Dbl K → Dbl K
  | .fin x, .fin y => if y = 0 then infOf x else round F (x / y)
  | .nan, _ | _, .nan => .nan
  | .fin _, .pinf | .fin _, .ninf => .fin 0
  | .pinf, .fin y => if 0 ≤ y then .pinf else .ninf
  | .ninf, .fin y => if 0 ≤ y then .ninf else .pinf
  | .pinf, .pinf | .pinf, .ninf | .ninf, .pinf | .ninf, .ninf => .nan

/-- `a < b`; false when one of them is NaN. -/
def lt : Dbl K → Dbl K → Bool
  | .fin x, .fin y => x < y
  | .ninf, .fin _ | .ninf, .pinf | .fin _, .pinf => true
  | _, _ => false

/-- `a <= b`; false when one of them is NaN. -/
def le : Dbl K → Dbl K → Bool
  | .fin x, .fin y => x ≤ y
  | .ninf, .fin _ | .ninf, .pinf | .fin _, .pinf | .pinf, .pinf | .ninf, .ninf => true
  | _, _ => false

/-- `static_cast<int>(a)`: undefined for what is not a number, and outside of the range of `int`. -/
def toInt : Dbl K → Option Int
  | .fin x => I32.ofReal x
  | _ => none

/-- `static_cast<int>(round(a))`. -/
def roundToInt : Dbl K → Option Int
  | .fin x => i32 (roundHalfAway x)
  | _ => none

/-- An `int` as `double`. -/
def ofInt (z : Int) : Dbl K := .fin z

end Dbl

section
variable {K : Type} [Field K] [LinearOrder K] [FloorRing K] (F : Fmt K)

/-- One axis of `grid_map::getVectorToOrigin`. -/
def toOriginD (len : Dbl K) : Dbl K := .mul F (.fin (1 / 2)) len

/-- One axis of the test in `grid_map::checkIfPositionWithinMap` (called from cost_map.cpp 226). -/
def fromBorderD (p len mapPos : Dbl K) : Dbl K := .neg (.sub F (.sub F p mapPos) (toOriginD F len))

/-- `grid_map::checkIfPositionWithinMap` (called from cost_map.cpp 226). -/
def withinMapD (p len mapPos : Vec (Dbl K)) : Bool :=
  let tx := fromBorderD F p.x len.x mapPos.x
  let ty := fromBorderD F p.y len.y mapPos.y
  Dbl.le (.fin 0) tx && Dbl.le (.fin 0) ty && Dbl.lt tx len.x && Dbl.lt ty len.y

/-- One axis of `grid_map::getIndexFromPosition` (called from cost_map.cpp 216). -/
def cellD (p len mapPos res : Dbl K) : Option Int :=
  (Dbl.toInt (.div F (.sub F (.sub F p (toOriginD F len)) mapPos) res)).bind fun i => I32.neg i

/-- `grid_map::getIndexFromPosition` (called from cost_map.cpp 216). The index is computed whether or not the position is
inside. -/
def indexFromPositionD (p len mapPos : Vec (Dbl K)) (res : Dbl K) (size start : Idx) : Option (Idx × Bool) :=
  (cellD F p.x len.x mapPos.x res).bind fun x => (cellD F p.y len.y mapPos.y res).bind fun y =>
    (bufferI ⟨x, y⟩ size start).bind fun i => some (i, withinMapD F p len mapPos)

/-- One axis of `grid_map::getIndexShiftFromPositionShift` (called from cost_map.cpp 331). -/
def indexShift1D (s res : Dbl K) : Option Int :=
  let t := Dbl.div F s res
  (Dbl.toInt (.add F t (.fin (1 / 2 * (if Dbl.lt (.fin 0) t then 1 else -1))))).bind fun i => I32.neg i

/-- `grid_map::getIndexShiftFromPositionShift` (called from cost_map.cpp 331). -/
def indexShiftD (s : Vec (Dbl K)) (res : Dbl K) : Option Idx :=
  (indexShift1D F s.x res).bind fun x => (indexShift1D F s.y res).bind fun y => some ⟨x, y⟩

/-- One axis of `grid_map::getPositionShiftFromIndexShift` (called from cost_map.cpp 333). -/
def positionShift1D (i : Int) (res : Dbl K) : Option (Dbl K) := (I32.neg i).bind fun v => some (.mul F (.ofInt v) res)

/-- `grid_map::getPositionShiftFromIndexShift` (called from cost_map.cpp 333). -/
def positionShiftD (i : Idx) (res : Dbl K) : Option (Vec (Dbl K)) :=
  (positionShift1D F i.x res).bind fun x => (positionShift1D F i.y res).bind fun y => some ⟨x, y⟩

end

namespace CostMap
variable {K : Type} [Field K] [LinearOrder K] [FloorRing K] (F : Fmt K)

/-- `CostMap::setGeometry` (cost_map.cpp 42-62). -/
def setGeometryD (length : Vec (Dbl K)) (resolution : Dbl K) (position : Vec (Dbl K)) : Act (CostMap (Dbl K)) Unit := fun m =>
  if ¬ Dbl.lt (.fin 0) length.x then (.assertFail, m)
  else if ¬ Dbl.lt (.fin 0) length.y then (.assertFail, m)
  else if ¬ Dbl.lt (.fin 0) resolution then (.assertFail, m)
  else match Dbl.roundToInt (.div F length.x resolution), Dbl.roundToInt (.div F length.y resolution) with
    | some x, some y =>
      let m := (m.resize ⟨x, y⟩).clearAll
      (.ok (), { m with resolution := resolution,
                        length := ⟨.mul F (.ofInt x) resolution, .mul F (.ofInt y) resolution⟩,
                        position := position,
                        startIndex := 0 })
    | _, _ => (.ub, m)

/-- `CostMap::getIndex` (cost_map.cpp 214-217). -/
def getIndexD (m : CostMap (Dbl K)) (p : Vec (Dbl K)) : Option (Idx × Bool) :=
  indexFromPositionD F p m.length m.position m.resolution m.size m.startIndex

/-- `CostMap::isInside` (cost_map.cpp 224-227). -/
def isInsideD (m : CostMap (Dbl K)) (p : Vec (Dbl K)) : Bool := withinMapD F p m.length m.position

/-- `CostMap::atPosition(layer, position)` (cost_map.cpp 161-168, 183-191). -/
def atPositionD (m : CostMap (Dbl K)) (l : String) (p : Vec (Dbl K)) : Res Cost :=
  match m.getIndexD F p with
  | none => .ub
  | some (i, inside) => if inside then m.at l i else .thrown .outOfRange

/-- `map.atPosition(layer, position) = v` (cost_map.cpp 161-168). -/
def setAtPositionD (l : String) (p : Vec (Dbl K)) (v : Cost) : Act (CostMap (Dbl K)) Unit := fun m =>
  match m.getIndexD F p with
  | none => (.ub, m)
  | some (i, inside) => if inside then setAt l i v m else (.thrown .outOfRange, m)

/-- `CostMap::move` (cost_map.cpp 327-399), with the clamping `boundIndexToRange`. -/
def moveD (position : Vec (Dbl K)) : Act (CostMap (Dbl K)) (Bool × List BufferRegion) := fun m =>
  Act.bind (Act.ofOption (indexShiftD F ⟨.sub F position.x m.position.x, .sub F position.y m.position.y⟩ m.resolution))
    (fun shift => Act.bind (Act.ofOption (positionShiftD F shift m.resolution)) fun aligned =>
      Act.bind (dropAxisI shift 0) fun r0 => Act.bind (dropAxisI shift 1) fun r1 => fun m =>
        Act.bind (Act.ofOption (I32.both I32.add m.startIndex shift)) (fun s =>
          Act.bind (Act.ofOption (I32.both clampI s m.size)) fun s' => fun m =>
            (.ok (decide (shift ≠ 0), r0 ++ r1),
              { m with startIndex := s',
                       position := ⟨.add F m.position.x aligned.x, .add F m.position.y aligned.y⟩ })) m) m

/-- `fromMessage` (converter.cpp 186-210). -/
def fromMessageD (msg : CostMapMsg (Dbl K)) : Act (CostMap (Dbl K)) Bool :=
  Act.bind (Act.modify fun m => (m.setTimestamp (stampToNSec msg.stampSec msg.stampNsec)).setFrameId msg.frameId)
    fun _ =>
  Act.bind (setGeometryD F ⟨msg.lengthX, msg.lengthY⟩ msg.resolution msg.position) fun _ =>
  if msg.layers.length ≠ msg.data.length then Act.pure false else
  Act.bind (Act.forEach addFromArray (msg.layers.zip msg.data)) fun _ =>
  Act.bind (Act.modify fun m => (m.setBasicLayers msg.basicLayers).setStartIndex
    ⟨msg.outerStartIndex.toNat, msg.innerStartIndex.toNat⟩) fun _ =>
  Act.pure true

end CostMap
end CostMapModel
