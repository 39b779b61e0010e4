import Verif.Model.Broadcaster

/-!
# Specification vocabulary: the transform broadcaster
-/

namespace CostMapModel
namespace Broadcaster
variable {T : Type}

/-- The operation is an `add`. -/
def Op.IsAdd : Op T → Prop
  | .add _ _ => True
  | _ => False

/-- The operation makes a broadcasting thread end: a shutdown, or spinning until ROS is down. -/
def Op.Ends : Op T → Prop
  | .shutdown => True
  | .spin => True
  | _ => False

/-- The program neither starts the thread nor destroys the broadcaster. -/
def Plain (p : List (Op T)) : Prop := ∀ o ∈ p, o.IsAdd ∨ o.Ends

/-- In no schedule does the program terminate abnormally or have undefined behaviour. -/
def Safe (p : List (Op T)) : Prop := ∀ sched, (run p sched).status = .alive

/-- The value of the first `add` with the name. -/
def firstAdd (n : String) : List (Op T) → Option T
  | [] => none
  | .add n' t :: ops => if n' = n then some t else firstAdd n ops
  | _ :: ops => firstAdd n ops

/-- Whole rounds of a list, and the beginning of one more. -/
def Rounds (table l : List (String × T)) : Prop :=
  ∃ k, ∃ part, part <+: table ∧ l = (List.replicate k table).flatten ++ part

end Broadcaster
end CostMapModel
