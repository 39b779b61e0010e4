import Verif.Model.Tools

/-!
# Specification for the command line tools (C88)
-/

namespace CostMapModel
variable {K : Type}

/-- Where the bundle is: a file with the given name, if there is one, and otherwise a registered resource. -/
def BundleAt (env : LoadEnv K) (location file : String) : Prop :=
  (env.onDisk location = true ∧ file = location) ∨
    (env.onDisk location = false ∧ resolveResourceName env.registered location = .ok file)

end CostMapModel
