import Verif.Model.Line
import Verif.Model.Merge

/-!
# A program that checks a straight way

    for (cost_map::LineIterator it(map, a, b); !it.isPastEnd(); ++it)
      if (map.at(layer, *it) >= threshold) return false;
    return true;

with the line iterator (line_iterator.cpp 16-67) and `at` (cost_map.cpp 196-213).
-/

namespace CostMapModel
open CostMap
variable {K : Type} [Field K] [LinearOrder K] [FloorRing K]

/-- The body of the loop on the cell `i` (cost_map.cpp 205-213). The state is the answer so far; the model goes on after a cell that is
not clear, which does not change the answer. -/
def wayCell (m : CostMap K) (l : String) (threshold : Cost) (i : Idx) : Act Bool Unit := fun clear =>
  match m.at l i with
  | .ok c => (.ok (), if threshold ≤ c then false else clear)
  | .thrown e => (.thrown e, clear)
  | .assertFail => (.assertFail, clear)
  | .ub => (.ub, clear)
  | .outOfFuel => (.outOfFuel, clear)

/-- The program (line_iterator.cpp 16-67). Reading an iterator whose members were never initialised is undefined. -/
def wayClear (norm : Vec K → K) (m : CostMap K) (l : String) (threshold : Cost) (a b : Vec K) : Res Bool :=
  (LineIter.ofPositions norm m a b).bind fun it =>
    match it with
    | none => .ub
    | some it =>
      match Act.forIter LineIter.ops (wayCell m l threshold) (m.size.x.toNat + m.size.y.toNat + 2) it true with
      | (.ok _, clear) => .ok clear
      | (.thrown e, _) => .thrown e
      | (.assertFail, _) => .assertFail
      | (.ub, _) => .ub
      | (.outOfFuel, _) => .outOfFuel

end CostMapModel
