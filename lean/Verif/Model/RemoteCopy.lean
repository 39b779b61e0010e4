import Verif.Model.MachineHistory

/-!
# A map on a topic

One program keeps a map and publishes it from time to time (`toMessage`, converter.cpp 154-184); another one reads the messages into a map
of its own, always the same one (`fromMessage`, converter.cpp 186-210). Of ROS the model has that messages of a topic arrive in the order
in which they were published, any time later, and that any of them may be lost.
-/

namespace CostMapModel
open CostMap
variable {K : Type} [Field K] [LinearOrder K] [FloorRing K]

/-- The two programs' maps and the messages on their way (converter.cpp 154-210). -/
structure RemoteTopic (K : Type) where
  map : CostMap K
  queue : List (CostMapMsg K)
  copy : CostMap K

/-- What can happen next: the publisher makes a call on its map, whose exception it catches if there is one; it publishes the map
(converter.cpp 154-184); the first message arrives and is read (converter.cpp 186-210); a message is lost. -/
inductive RemoteEvent (K : Type) where
  | call (c : MachineCall K)
  | publish
  | deliver
  | lose (k : Nat)

/-- What it does (converter.cpp 154-210). -/
def RemoteEvent.run (F : Fmt K) (rf : K → K) : RemoteEvent K → Act (RemoteTopic K) Unit
  | .call c => fun s =>
    match c.run F rf s.map with
    | (.ok _, m) => (.ok (), { s with map := m })
    | (.thrown _, m) => (.ok (), { s with map := m })
    | (r, m) => (r, { s with map := m })
  | .publish => fun s =>
    match s.map.toMessage with
    | .ok msg => (.ok (), { s with queue := s.queue ++ [msg] })
    | .thrown e => (.thrown e, s)
    | .assertFail => (.assertFail, s)
    | .ub => (.ub, s)
    | .outOfFuel => (.outOfFuel, s)
  | .deliver => fun s =>
    match s.queue with
    | [] => (.ok (), s)
    | msg :: rest =>
      let out := Call.discard (fromMessageI F.rd msg) s.copy
      (out.1, { s with queue := rest, copy := out.2 })
  | .lose k => fun s => (.ok (), { s with queue := s.queue.eraseIdx k })

end CostMapModel
