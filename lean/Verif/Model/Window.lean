import Verif.Model.PlaceCheck
import Verif.Model.Footprint
import Verif.Model.Submap
import Verif.Model.Inflation

/-!
# Programs that plan in a window of the map

    bool success;
    cost_map::CostMap window = map.getSubmap(position, length, success);
    if (!success) return false;
    inflate(source, destination, radius, computer, window);
    return window.atPosition(destination, p) < threshold;

and the same with a straight way or a circle of cells in place of the last line. The map itself is not changed: `getSubmap` is a const
member that returns a new map.
-/

namespace CostMapModel
open CostMap Inflation
variable {K : Type} [Field K] [LinearOrder K] [FloorRing K]

/-- The first two lines: the window, or the answer "not clear" (cost_map.cpp 272-325). -/
def inWindow (m : CostMap K) (pos len : Vec K) (rest : CostMap K → Res Bool) : Res Bool :=
  (m.getSubmap pos len 0).bind fun r => if r.2.2 then rest r.1 else .ok false

/-- The window is inflated, and then looked at (inflation.cpp 18-64). -/
def inflated (pop : Pop K) (hyp : Nat → Nat → K) (ls ld : String) (radius : K) (computer : K → Cost) (o : Inflater K) (look : CostMap K → Res Bool)
    (window : CostMap K) : Res Bool :=
  match inflate pop hyp ls ld radius computer ⟨o, window, []⟩ with
  | (.ok _, st) => look st.map
  | (.thrown e, _) => .thrown e
  | (.assertFail, _) => .assertFail
  | (.ub, _) => .ub
  | (.outOfFuel, _) => .outOfFuel

end CostMapModel
