import Verif.Spec.Nodes
import Verif.Spec.Tools

/-!
# Specification vocabulary: streams of messages (C66, C89)
-/

namespace CostMapModel
variable {K : Type} [Field K] [LinearOrder K] [FloorRing K]

/-- The maps with the layer each is shown with by a relay that remembers: the name of the last map so far that had just one layer, or
the one that was asked for if there was none. -/
def shownWith (asked : String) : List (CostMap K) → List (CostMap K × String)
  | [] => []
  | m :: ms => (m, requestedLayer asked m) :: shownWith (requestedLayer asked m) ms

/-- The map has the layer. -/
def hasLayer (p : CostMap K × String) : Bool := p.1.layers.contains p.2

/-- There is no such service. -/
def Service.isAbsent : Service K → Bool
  | .absent => true
  | _ => false

/-- The answer of a service, if it answers. -/
def Service.answer? : Service K → Option (CostMapMsg K)
  | .answers msg => some msg
  | _ => none

/-- The answers a client with one connection gets: from the first round in which the service is there until the connection is lost. -/
def answersHeard (rounds : List (RelayRound K)) : List (CostMapMsg K) :=
  match rounds.dropWhile fun r => r.service.isAbsent with
  | [] => []
  | r :: rs => (r :: rs.takeWhile fun r => !r.lost && !r.service.isAbsent).filterMap fun r => r.service.answer?

end CostMapModel
