import Mathlib.Data.String.Basic

/-!
# The transform broadcaster

Model of `TransformBroadcaster` (cost_map_demos/src/lib/utilities.cpp 43-72, cost_map_demos/include/cost_map_demos/utilities.hpp
35-49) as a transition system of two threads: the main thread, which calls the member functions in the order of a given
program, and the broadcasting thread. A schedule says whose turn it is; `ros::ok()` turns false at some point of it, or never.
Transforms are of some type `T`. Simplified: an access to the object is one step, accesses to atomics are sequentially consistent, the
time stamps of the transforms and the length of the sleep are dropped, and names are compared by code points.
-/

namespace CostMapModel
namespace Broadcaster
variable {T : Type}

/-- What the main thread does with a broadcaster. `spin` is `ros::spin()`, which returns when `ros::ok()` is false; `destroy` is the
destructor. -/
inductive Op (T : Type) where
  | add (name : String) (t : T)
  | start
  | shutdown
  | spin
  | destroy

/-- Where the broadcasting thread is in `broadcast` (utilities.cpp 62-72): not started; about to evaluate `ros::ok()` and
`!shutdown_flag` (64); in the inner loop with these transforms left (66-69); before the sleep (70); returned. -/
inductive Pc (T : Type) where
  | idle
  | testOk
  | testFlag
  | sending (rest : List (String × T))
  | sleeping
  | done

/-- Whether the process runs, called `std::terminate`, or had undefined behaviour. -/
inductive Status where
  | alive
  | terminated
  | ub
  deriving DecidableEq

/-- The members (utilities.hpp 46-48), the thread, `ros::ok()`, and the rest of the program of the main thread. `joinable` is the
state of `broadcasting_thread`. `read` and `wrote` record that the thread has read `transforms`, and that the main
thread has changed them after it started the thread: together they are a data race. `gone` is set when the destructor has returned.
`sent` records the transforms that were sent. -/
structure St (T : Type) where
  transforms : List (String × T)
  flag : Bool
  joinable : Bool
  pc : Pc T
  ros : Bool
  read : Bool
  wrote : Bool
  gone : Bool
  sent : List (String × T)
  prog : List (Op T)
  status : Status

/-- The constructor (utilities.hpp 37). -/
def init (prog : List (Op T)) : St T := ⟨[], false, false, .idle, true, false, false, false, [], prog, .alive⟩

/-- `std::map::insert` (called at utilities.cpp 55): in the order of the names, and without effect if the name is there. -/
def insert (name : String) (t : T) : List (String × T) → List (String × T)
  | [] => [(name, t)]
  | p :: ps => if name < p.1 then (name, t) :: p :: ps else if name = p.1 then p :: ps else p :: insert name t ps

/-- A step of the main thread. Using an object that is gone is undefined behaviour, and so is changing the map of transforms
when the thread has read it. -/
def mainStep (s : St T) : St T :=
  match s.prog with
  | [] => s
  | op :: ops =>
    if s.gone then { s with status := .ub } else
    match op with
    -- utilities.cpp 51-56
    | .add n t =>
      if s.joinable ∧ s.read then { s with status := .ub }
      else { s with transforms := insert n t s.transforms, wrote := s.wrote || s.joinable, prog := ops }
    -- utilities.cpp 58-60: assigning to a joinable `std::thread` calls `std::terminate`
    | .start => if s.joinable then { s with status := .terminated } else { s with joinable := true, pc := .testOk, prog := ops }
    -- utilities.cpp 47-49
    | .shutdown => { s with flag := true, prog := ops }
    -- cost_map_demos/src/applications/from_ros_costmaps.cpp 88
    | .spin => if s.ros then s else { s with prog := ops }
    -- utilities.cpp 43-45: joining a thread that is not joinable throws, in a destructor
    | .destroy =>
      if ¬ s.joinable then { s with status := .terminated }
      else match s.pc with
        | .done => { s with joinable := false, gone := true, prog := ops }
        | _ => s

/-- A step of the broadcasting thread (utilities.cpp 62-72). Reading the map of transforms after the main thread has changed it
without synchronisation is undefined behaviour. -/
def threadStep (s : St T) : St T :=
  match s.pc with
  | .idle => s
  | .testOk => { s with pc := if s.ros then .testFlag else .done }
  | .testFlag =>
    if s.gone then { s with status := .ub }
    else if s.flag then { s with pc := .done }
    else if s.wrote then { s with status := .ub }
    else { s with pc := .sending s.transforms, read := true }
  | .sending (p :: ps) => if s.gone then { s with status := .ub } else { s with pc := .sending ps, sent := s.sent ++ [p] }
  | .sending [] => { s with pc := .sleeping }
  | .sleeping => { s with pc := .testOk }
  | .done => s

/-- Whose turn it is: a thread, or the environment, which makes `ros::ok()` false. -/
inductive Turn where
  | main
  | thread
  | rosDown
  deriving DecidableEq

/-- One step of the system. -/
def step (s : St T) (t : Turn) : St T :=
  if s.status ≠ .alive then s else
  match t with
  | .main => mainStep s
  | .thread => threadStep s
  | .rosDown => { s with ros := false }

/-- The state after a schedule. -/
def run (prog : List (Op T)) (sched : List Turn) : St T := sched.foldl step (init prog)

/-- `broadcastCostmap2DROSTestSuiteTransforms` (cost_map_demos/src/lib/from_ros_costmaps.cpp 20-27). The rotations are the same for
all. -/
def testSuite : List (Op (Int × Int)) :=
  -- coordinates in tenths of a metre
  [.add "base_link_5x5" (10, 10), .add "base_link_4x4" (10, -30), .add "base_link_5x5_3x3_offset" (-37, 24),
   .add "base_link_5x5_3x3_centre" (-35, -35), .add "base_link_5x5_2_5x2_5_offset" (-97, 24), .start]

/-- What the demo does with its broadcaster (cost_map_demos/src/applications/from_ros_costmaps.cpp 35-91). -/
def demo : List (Op (Int × Int)) := testSuite ++ [.spin, .destroy]

/-- What the test does with it (cost_map_demos/src/test/rostests/from_ros_costmaps/from_ros_costmaps.cpp 103-110). -/
def test : List (Op (Int × Int)) := testSuite ++ [.shutdown, .destroy]

end Broadcaster
end CostMapModel
