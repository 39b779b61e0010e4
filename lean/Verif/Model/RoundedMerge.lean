import Verif.Model.Rounded
import Verif.Model.Merge

/-!
# Merging maps in floating point

The functions of `Model/Merge.lean` with a rounding `rd` after every arithmetic operation; `rd := id` gives the exact model
back (`C76_exact_arithmetic`). `std::fmod` is exact in IEEE 754 arithmetic, so its result is not rounded. All line numbers
refer to cost_map_core/src/lib/cost_map.cpp.
-/

namespace CostMapModel
namespace CostMap
variable {K : Type} [Field K] [LinearOrder K] [FloorRing K] (rd : K → K)

/-- Loop body 418-427 of `addDataFrom`: one cell. -/
def mergeCellRd (other : CostMap K) (overwrite : Bool) (ls : List String) (i : Idx) : Act (CostMap K) Unit :=
  Act.bind (Act.read fun m => m.isValid i) fun v =>
    if v && !overwrite then Act.pure ()
    else fun m => match m.getPositionRd rd i with
      | none => (.ub, m)
      | some p =>
        if !other.isInsideRd rd p then (.ok (), m)
        else Act.forEach (mergeLayer other i (other.getIndexRd rd p).1) ls m

/-- One axis of the extension (436-463). -/
def extendAxisRd (pos len pos' len' : K) : K × K × Bool :=
  let hi := rd (pos + rd (len / 2))
  let lo := rd (pos - rd (len / 2))
  let hi' := rd (pos' + rd (len' / 2))
  let lo' := rd (pos' - rd (len' / 2))
  let (p, l, b) :=
    if hi < hi' then (rd (pos + rd (rd (hi' - hi) / 2)), rd (len + rd (hi' - hi)), true) else (pos, len, false)
  if lo' < lo then (rd (p - rd (rd (lo - lo') / 2)), rd (l + rd (lo - lo')), true) else (p, l, b)

/-- One axis of "Align new map with old one" (470-488). -/
def alignAxisRd (r pos old : K) (size oldSize : Int) : K :=
  let d := rd (pos - old)
  let shift := fmod d r
  let pos := if |shift| < rd (r / 2) then rd (pos - shift) else rd (pos + rd (r - shift))
  if Int.tmod size 2 ≠ Int.tmod oldSize 2 then rd (pos + -(if d < 0 then -rd (r / 2) else rd (r / 2))) else pos

/-- Loop body 491-499 of `extendToInclude`. -/
def restoreCellRd (copy : CostMap K) (i : Idx) : Act (CostMap K) Unit :=
  Act.bind (Act.read fun m => m.isValid i) fun v =>
    if v then Act.pure ()
    else fun m => match m.getPositionRd rd i with
      | none => (.ub, m)
      | some p =>
        if !copy.isInsideRd rd p then (.ok (), m)
        else Act.forEach (restoreLayer copy i (copy.getIndexRd rd p).1) m.layers m

/-- The assignments to `position_` (470-488). -/
def alignToRd (copy : CostMap K) : Act (CostMap K) Unit := fun m =>
  (.ok (), { m with position :=
    ⟨alignAxisRd rd m.resolution m.position.x copy.position.x m.size.x copy.size.x,
     alignAxisRd rd m.resolution m.position.y copy.position.y m.size.y copy.size.y⟩ })

/-- `CostMap::extendToInclude` (433-503). -/
def extendToIncludeRd (other : CostMap K) : Act (CostMap K) Bool := fun m =>
  let (px, lx, bx) := extendAxisRd rd m.position.x m.length.x other.position.x other.length.x
  let (py, ly, by') := extendAxisRd rd m.position.y m.length.y other.position.y other.length.y
  if bx || by' then
    Act.bind (setGeometryRd rd ⟨lx, ly⟩ m.resolution ⟨px, py⟩) (fun _ =>
      Act.bind (alignToRd rd m) fun _ =>
        Act.bind (forCells (restoreCellRd rd m)) fun _ => Act.pure true) m
  else (.ok true, m)

/-- `CostMap::addDataFrom` (401-431). -/
def addDataFromRd (other : CostMap K) (extend overwrite copyAll : Bool) (ls : List String) : Act (CostMap K) Bool :=
  let ls := if copyAll then other.layers else ls
  Act.bind (if extend then extendToIncludeRd rd other else Act.pure true) fun _ =>
    Act.bind (Act.forEach addMissing ls) fun _ =>
      Act.bind (forCells (mergeCellRd rd other overwrite ls)) fun _ => Act.pure true

end CostMap
end CostMapModel
