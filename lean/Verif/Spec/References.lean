import Verif.Model.References

/-! # Specification vocabulary: kept references -/

namespace CostMapModel
variable {K : Type}

/-- The calls that never change the number of cells. -/
def Call.KeepsCells : Call K → Prop
  | .setGeometry _ _ _ | .extendToInclude _ | .fromMessage _ | .fromImageBundle _ _ _ | .fromCostmap2DROS _ _
  | .fromCostmap2DROSAtRobotPose _ _ _ => False
  | .addDataFrom _ extend _ _ _ => extend = false
  | _ => True

variable [Field K] [LinearOrder K] [FloorRing K]

/-- What a program can get to by calls with a property, which return or throw, and by writing through references. -/
inductive InMemory.Later (P : CostMap K → Call K → CostMap K → Prop) (s : InMemory K) : InMemory K → Prop where
  | now : Later P s s
  | returned {t u : InMemory K} (c : Call K) : Later P s t → P t.map c u.map → InMemory.call c t = (.ok (), u) → Later P s u
  | threw {t u : InMemory K} (c : Call K) (e : Exn) : Later P s t → P t.map c u.map → InMemory.call c t = (.thrown e, u) →
      Later P s u
  | stored {t u : InMemory K} (r : CellRef) (v : Cost) : Later P s t → InMemory.store r v t = (.ok (), u) → Later P s u

end CostMapModel
