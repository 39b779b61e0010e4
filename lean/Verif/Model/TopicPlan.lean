import Verif.Model.Message
import Verif.Model.MachineHistory
import Verif.Model.Rebase
import Verif.Model.Window
import Verif.Model.MachineWindow

/-!
# A program that plans with the maps of a topic

The callback of a subscriber reads each message into one map, makes a copy whose buffer starts at zero, inflates the copy and looks at it:

    if (!cost_map::fromMessage(message, map)) return false;
    cost_map::CostMap copy;
    copy.setGeometry(map.getLength(), map.getResolution(), map.getPosition());
    copy.addDataFrom(map, false, true, true);
    inflate(source, destination, radius, computer, copy);
    return copy.atPosition(destination, p) < threshold;
-/

namespace CostMapModel
open CostMap
variable {K : Type} [Field K] [LinearOrder K] [FloorRing K]

/-- The message is read into the map of the subscriber, which is then used (converter.cpp 186-210). -/
def received (msg : CostMapMsg K) (rest : CostMap K → Res Bool) (map : CostMap K) : Res Bool :=
  match fromMessage msg map with
  | (.ok true, c) => rest c
  | (.ok false, _) => .ok false
  | (.thrown e, _) => .thrown e
  | (.assertFail, _) => .assertFail
  | (.ub, _) => .ub
  | (.outOfFuel, _) => .outOfFuel

/-- The same on the machine. -/
def receivedI (rd : K → K) (msg : CostMapMsg K) (rest : CostMap K → Res Bool) (map : CostMap K) : Res Bool :=
  match fromMessageI rd msg map with
  | (.ok true, c) => rest c
  | (.ok false, _) => .ok false
  | (.thrown e, _) => .thrown e
  | (.assertFail, _) => .assertFail
  | (.ub, _) => .ub
  | (.outOfFuel, _) => .outOfFuel

/-- The copy is made and then used (cost_map.cpp 43-62 and 401-431). -/
def rebased (rest : CostMap K → Res Bool) (m : CostMap K) : Res Bool :=
  match rebase m with
  | (.ok _, n) => rest n
  | (.thrown e, _) => .thrown e
  | (.assertFail, _) => .assertFail
  | (.ub, _) => .ub
  | (.outOfFuel, _) => .outOfFuel

/-- The same on the machine. -/
def rebasedI (rd : K → K) (rest : CostMap K → Res Bool) (m : CostMap K) : Res Bool :=
  match rebaseI rd m with
  | (.ok _, n) => rest n
  | (.thrown e, _) => .thrown e
  | (.assertFail, _) => .assertFail
  | (.ub, _) => .ub
  | (.outOfFuel, _) => .outOfFuel

end CostMapModel
