import Verif.Model.Nodes

/-!
# The command line tools

Model of the `main` functions of cost_map_ros/src/applications/save_image_bundle.cpp,
cost_map_ros/src/applications/load_image_bundle.cpp and cost_map_visualisations/src/applications/service_relay.cpp, after the command
line was parsed. A value is the exit code. What ROS does is assumed: a subscriber's queue keeps the newest messages, a latched topic
sends its last message to every new subscriber, and a persistent service client stays invalid once its connection is lost.
-/

namespace CostMapModel
open CostMap
variable {K : Type} [Field K] [LinearOrder K] [FloorRing K]

/-! ## save_image_bundle -/

/-- A subscriber's queue of length `n` between two polls: the newest `n` of the messages that arrived (image_bundles.cpp 224 asks
for a queue of length 1). -/
def waiting {α : Type} (n : Nat) (arrived : List α) : List α := arrived.drop (arrived.length - n)

/-- Which files of the bundle can be written. -/
structure Writable where
  yaml : Bool
  image : String → Bool

/-- Writing with `std::ofstream` and `cv::imwrite` (image_bundles.cpp 154-156 and 181): neither result is looked at, so a file that
cannot be written stays as it was and nothing else happens. -/
def Writable.apply (w : Writable) (before after : Files K) : Files K where
  yaml := if w.yaml then after.yaml else before.yaml
  images := fun name => if w.image name then after.images name else before.images name

namespace SaveTool

/-- `SaveImageBundle::_costmapCallback` (image_bundles.cpp 227-239) on a disk on which not every file can be written. -/
def callback (txt : K → K) (w : Writable) (msg : CostMapMsg K) : Act (SaveNode K) Unit := fun s =>
  let r := SaveNode.callback txt msg s
  (r.1, { r.2 with files := w.apply s.files r.2.files })

/-- The loop of `main` (save_image_bundle.cpp 65-73). Each element of the list is one round: the messages that arrived since the
round before. At the end of the list `ros::ok()` is false. -/
def loop (txt : K → K) (w : Writable) : List (List (CostMapMsg K)) → Act (SaveNode K) Unit
  | [] => Act.pure ()
  | arrived :: rest =>
    Act.bind (Act.forEach (callback txt w) (waiting 1 arrived)) fun _ s =>
      if s.finished then (.ok (), s) else loop txt w rest s

/-- `main` (save_image_bundle.cpp 53-78). Every exception of a callback is a `std::exception`. -/
def main (txt : K → K) (w : Writable) (rounds : List (List (CostMapMsg K))) : Act (SaveNode K) Nat := fun s =>
  match loop txt w rounds s with
  | (.ok _, s') => (.ok 0, s')
  | (.thrown _, s') => (.ok 1, s')
  | (.assertFail, s') => (.assertFail, s')
  | (.ub, s') => (.ub, s')
  | (.outOfFuel, s') => (.outOfFuel, s')

end SaveTool

/-! ## load_image_bundle -/

/-- A latched topic: who is connected, the last message, and who received what. -/
structure Topic (α : Type) where
  connected : List String
  last : Option α
  received : List (String × α)

namespace Topic
variable {α : Type}

/-- A new topic (image_bundles.cpp 194, `latch = true`). -/
def new : Topic α := ⟨[], none, []⟩

/-- A subscriber connects; it gets the latched message. -/
def connect (t : Topic α) (name : String) : Topic α where
  connected := t.connected ++ [name]
  last := t.last
  received := t.received ++ (t.last.map fun a => (name, a)).toList

/-- `publisher.publish` (image_bundles.cpp 213): everyone connected gets the message, and it is kept for later. -/
def publish (t : Topic α) (a : α) : Topic α where
  connected := t.connected
  last := some a
  received := t.received ++ t.connected.map fun name => (name, a)

end Topic

/-- What `load_image_bundle` gets from outside: OpenCV, the rounding to float, the registered resources, and the files. -/
structure LoadEnv (K : Type) where
  cv : Cv
  rf : K → K
  registered : List String
  onDisk : String → Bool
  disk : String → Files K

namespace LoadTool

/-- The file that is read (image_bundles.cpp 196-202). -/
def locate (env : LoadEnv K) (location : String) : Res String :=
  if env.onDisk location then .ok location else resolveResourceName env.registered location

/-- `LoadImageBundle::LoadImageBundle` (image_bundles.cpp 189-208). `early` are the subscribers that connect between `advertise` and
`publish`. -/
def construct (env : LoadEnv K) (location : String) (early : List String) : Act (Topic (CostMapMsg K)) Unit :=
  Act.bind (Act.modify fun t => early.foldl Topic.connect t) fun _ =>
  Act.bind (Act.read fun _ => locate env location) fun file =>
  Act.bind (Act.read fun _ => loadImageBundle env.cv env.rf (env.disk file)) fun msg =>
  Act.modify fun t => t.publish msg

/-- `main` (load_image_bundle.cpp 53-69). `late` are the subscribers that connect during `ros::spin()`. -/
def main (env : LoadEnv K) (location : String) (early late : List String) : Act (Topic (CostMapMsg K)) Nat := fun t =>
  match construct env location early t with
  | (.ok _, t') => (.ok 0, late.foldl Topic.connect t')
  | (.thrown _, t') => (.ok 1, t')
  | (.assertFail, t') => (.assertFail, t')
  | (.ub, t') => (.ub, t')
  | (.outOfFuel, t') => (.outOfFuel, t')

end LoadTool

/-! ## service_relay -/

/-- What a call of the service would find: no such service, a service whose handler returns false, or an answer. -/
inductive Service (K : Type) where
  | absent
  | refuses
  | answers (msg : CostMapMsg K)

/-- A round of the loop: whether the connection was lost since the round before (the node that offers the service was stopped, or
was stopped and started again), and what the service would do. -/
structure RelayRound (K : Type) where
  lost : Bool
  service : Service K

/-- The connection of a persistent `ros::ServiceClient`. -/
inductive Link where
  | none
  | alive
  | dropped
  deriving DecidableEq

/-- The state of the tool: the connection, the relay, and how often it has slept. -/
structure RelayTool (K : Type) where
  link : Link
  relay : Relay K
  sleeps : Nat

namespace RelayTool

/-- `get_cost_map.call(srv)` of a persistent client (service_relay.cpp 60, ros::ServiceClient::call): the connection is made at the
first call that finds the service; once it is lost, every call fails. -/
def call (link : Link) (r : RelayRound K) : Link × Option (CostMapMsg K) :=
  match link with
  | .dropped => (.dropped, .none)
  | .none =>
    match r.service with
    | .absent => (.none, .none)
    | .refuses => (.alive, .none)
    | .answers msg => (.alive, some msg)
  | .alive =>
    if r.lost then (.dropped, .none)
    else
      match r.service with
      | .absent => (.dropped, .none)
      | .refuses => (.alive, .none)
      | .answers msg => (.alive, some msg)

/-- One round of the loop (service_relay.cpp 60-75). A failed call skips `rate.sleep()`. -/
def step (rf : K → K) (r : RelayRound K) : Act (RelayTool K) Unit := fun s =>
  let c := call s.link r
  let p := Relay.step rf c.2 s.relay
  match c.2, p.1 with
  | .none, _ => (.ok (), { s with link := c.1 })
  | some _, .ok _ => (.ok (), ⟨c.1, p.2, s.sleeps + 1⟩)
  | some _, e => (e, ⟨c.1, p.2, s.sleeps⟩)

/-- `main` (service_relay.cpp 26-78). `found`: the service appeared within ten seconds. The list holds the rounds until `ros::ok()`
is false. Exceptions are not caught. -/
def main (rf : K → K) (found : Bool) (rounds : List (RelayRound K)) : Act (RelayTool K) Nat :=
  if found then Act.bind (Act.forEach (step rf) rounds) fun _ => Act.pure 0 else Act.pure 1

/-- Where the tool starts. -/
def start (layerName : String) : RelayTool K := ⟨.none, ⟨layerName, []⟩, 0⟩

end RelayTool
end CostMapModel
