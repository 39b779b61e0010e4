import Verif.Model.Machine
import Verif.Model.RoundedMerge

/-!
# Merging maps with 32-bit integers

The functions of `Model/RoundedMerge.lean` with the index arithmetic of `Model/Machine.lean`: `Res.ub` where an `int` operation
overflows. All line numbers refer to cost_map_core/src/lib/cost_map.cpp.
-/

namespace CostMapModel
namespace CostMap
variable {K : Type} [Field K] [LinearOrder K] [FloorRing K] (rd : K → K)

/-- `for (CostMapIterator it(*this); !it.isPastEnd(); ++it) body(*it);` (417, 490). -/
def forCellsI (body : Idx → Act (CostMap K) Unit) : Act (CostMap K) Unit := fun m =>
  match CostMapIter.newI m with
  | none => (.ub, m)
  | some it => Act.forIter CostMapIter.opsI body (m.size.x.toNat * m.size.y.toNat + 2) it m

/-- Loop body 418-427 of `addDataFrom`: one cell. -/
def mergeCellI (other : CostMap K) (overwrite : Bool) (ls : List String) (i : Idx) : Act (CostMap K) Unit :=
  Act.bind (Act.read fun m => m.isValid i) fun v =>
    if v && !overwrite then Act.pure ()
    else fun m => match m.getPositionI rd i with
      | none => (.ub, m)
      | some none => (.ub, m)
      | some (some p) =>
        if !other.isInsideRd rd p then (.ok (), m)
        else match other.getIndexI rd p with
          | none => (.ub, m)
          | some (j, _) => Act.forEach (mergeLayer other i j) ls m

/-- Loop body 491-499 of `extendToInclude`. -/
def restoreCellI (copy : CostMap K) (i : Idx) : Act (CostMap K) Unit :=
  Act.bind (Act.read fun m => m.isValid i) fun v =>
    if v then Act.pure ()
    else fun m => match m.getPositionI rd i with
      | none => (.ub, m)
      | some none => (.ub, m)
      | some (some p) =>
        if !copy.isInsideRd rd p then (.ok (), m)
        else match copy.getIndexI rd p with
          | none => (.ub, m)
          | some (j, _) => Act.forEach (restoreLayer copy i j) m.layers m

/-- `CostMap::extendToInclude` (433-503). The remainders of the sizes modulo two (478, 484) do not overflow. -/
def extendToIncludeI (other : CostMap K) : Act (CostMap K) Bool := fun m =>
  let (px, lx, bx) := extendAxisRd rd m.position.x m.length.x other.position.x other.length.x
  let (py, ly, by') := extendAxisRd rd m.position.y m.length.y other.position.y other.length.y
  if bx || by' then
    Act.bind (setGeometryI rd ⟨lx, ly⟩ m.resolution ⟨px, py⟩) (fun _ =>
      Act.bind (alignToRd rd m) fun _ =>
        Act.bind (forCellsI (restoreCellI rd m)) fun _ => Act.pure true) m
  else (.ok true, m)

/-- `CostMap::addDataFrom` (401-431). -/
def addDataFromI (other : CostMap K) (extend overwrite copyAll : Bool) (ls : List String) : Act (CostMap K) Bool :=
  let ls := if copyAll then other.layers else ls
  Act.bind (if extend then extendToIncludeI rd other else Act.pure true) fun _ =>
    Act.bind (Act.forEach addMissing ls) fun _ =>
      Act.bind (forCellsI (mergeCellI rd other overwrite ls)) fun _ => Act.pure true

end CostMap
end CostMapModel
