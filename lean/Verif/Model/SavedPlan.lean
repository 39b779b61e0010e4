import Verif.Model.Bundle
import Verif.Model.MachineBundle
import Verif.Model.Rebase
import Verif.Model.Window
import Verif.Model.MachineWindow

/-!
# Programs that save a map in one process and plan with it in another

The first program saves its map, directly with `toImageBundle(filename, map)` or through a copy whose buffer starts at zero:

    cost_map::CostMap copy;
    copy.setGeometry(map.getLength(), map.getResolution(), map.getPosition());
    copy.addDataFrom(map, false, true, true);
    cost_map::toImageBundle(filename, copy);

The second one loads it, inflates it and looks at it:

    cost_map::CostMap map;
    cost_map::fromImageBundle(filename, map);
    inflate(source, destination, radius, computer, map);
    return map.atPosition(destination, p) < threshold;
-/

namespace CostMapModel
open CostMap Inflation
variable {K : Type} [Field K] [LinearOrder K] [FloorRing K]

/-- The first program with the copy (cost_map.cpp 43-62 and 401-431, image_bundles.cpp 135-183). -/
def saveCopy (txt : K → K) (m : CostMap K) (files : Files K) : Res (Files K) :=
  match rebase m with
  | (.ok _, n) => n.toImageBundle txt files
  | (.thrown e, _) => .thrown e
  | (.assertFail, _) => .assertFail
  | (.ub, _) => .ub
  | (.outOfFuel, _) => .outOfFuel

/-- The same on the machine. -/
def saveCopyI (rd txt : K → K) (m : CostMap K) (files : Files K) : Res (Files K) :=
  match rebaseI rd m with
  | (.ok _, n) => n.toImageBundle txt files
  | (.thrown e, _) => .thrown e
  | (.assertFail, _) => .assertFail
  | (.ub, _) => .ub
  | (.outOfFuel, _) => .outOfFuel

/-- The second program: a new map is loaded from the bundle (image_bundles.cpp 34-133), and then used. -/
def loaded (cv : Cv) (rf : K → K) (files : Files K) (rest : CostMap K → Res Bool) : Res Bool :=
  match fromImageBundle cv rf files (CostMap.new []) with
  | (.ok _, m) => rest m
  | (.thrown e, _) => .thrown e
  | (.assertFail, _) => .assertFail
  | (.ub, _) => .ub
  | (.outOfFuel, _) => .outOfFuel

/-- The same on the machine. -/
def loadedI (rd rf : K → K) (cv : Cv) (files : Files K) (rest : CostMap K → Res Bool) : Res Bool :=
  match fromImageBundleI rd rf cv files (CostMap.new []) with
  | (.ok _, m) => rest m
  | (.thrown e, _) => .thrown e
  | (.assertFail, _) => .assertFail
  | (.ub, _) => .ub
  | (.outOfFuel, _) => .outOfFuel

end CostMapModel
