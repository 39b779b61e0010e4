import Verif.Model.Window
import Verif.Model.MachineInflation
import Verif.Model.MachineShapes

/-!
# The programs that plan in a window, on the machine

The programs of `Model/Window`, with `getSubmap` and `Inflate` in `double`, `float` and 32-bit arithmetic.
-/

namespace CostMapModel
open CostMap Inflation
variable {K : Type} [Field K] [LinearOrder K] [FloorRing K]

/-- The window, or the answer "not clear" (cost_map.cpp 272-325). -/
def inWindowI (rd : K → K) (m : CostMap K) (pos len : Vec K) (rest : CostMap K → Res Bool) : Res Bool :=
  (m.getSubmapI rd pos len 0).bind fun r => if r.2.2 then rest r.1 else .ok false

/-- The window is inflated, and then looked at (inflation.cpp 18-64). -/
def inflatedI (F : Fmt K) (rf : K → K) (pop : Pop K) (hyp : Nat → Nat → K) (ls ld : String) (radius : K) (computer : K → Cost) (o : Inflater K)
    (look : CostMap K → Res Bool) (window : CostMap K) : Res Bool :=
  match inflateU F rf pop hyp ls ld (.fin radius) computer ⟨o, window, []⟩ with
  | (.ok _, st) => look st.map
  | (.thrown e, _) => .thrown e
  | (.assertFail, _) => .assertFail
  | (.ub, _) => .ub
  | (.outOfFuel, _) => .outOfFuel

end CostMapModel
