import Verif.Model.Costmap2D

/-!
# Conversions while the ROS costmap is being updated

Model of `fromCostmap2DROS` and `fromCostmap2DROSAtRobotPose` (cost_map_ros/src/lib/converter.cpp 216-243) running at the same time
as threads that change the ROS costmap. Here a conversion is not one step, as in `Verif/Model/Costmap2D.lean`, but asks for one
member or one cell of the ROS costmap at a time, in the order in which the code of the external libraries does. All threads take the
mutex of the costmap (converter.cpp 221 and 235; the threads of costmap_2d are external). The pose of the robot and the time are not
protected by it and may change at any time.
-/

namespace CostMapModel
namespace Locking
variable {K : Type} [Field K] [LinearOrder K] [FloorRing K]

/-- What a conversion asks a ROS costmap for. -/
inductive Query where
  | sizeX | sizeY | resolution | originX | originY
  | cell (k : Nat)
  | frame | robot | now

/-- The type of the answers; a cell may be out of bounds. -/
abbrev Query.Ans (K : Type) : Query → Type
  | .sizeX | .sizeY | .now => Nat
  | .resolution | .originX | .originY => K
  | .cell _ => Option Cost
  | .frame => String
  | .robot => Option (Vec K)

/-- The answer at the moment of the question. -/
def Query.eval (c : Costmap2DROS K) : (q : Query) → q.Ans K
  | .sizeX => c.costmap.sizeX
  | .sizeY => c.costmap.sizeY
  | .resolution => c.costmap.resolution
  | .originX => c.costmap.origin.x
  | .originY => c.costmap.origin.y
  | .cell k => c.costmap.costs[k]?
  | .frame => c.globalFrame
  | .robot => c.robot
  | .now => c.now

/-- A computation that asks questions and ends with a result. -/
inductive Prog (K A : Type) where
  | done (a : A)
  | ask (q : Query) (k : q.Ans K → Prog K A)

namespace Prog
variable {A B : Type}

/-- One computation after the other. -/
def bind : Prog K A → (A → Prog K B) → Prog K B
  | .done a, f => f a
  | .ask q k, f => .ask q fun x => bind (k x) f

/-- The result when the ROS costmap does not change. -/
def eval (c : Costmap2DROS K) : Prog K A → A
  | .done a => a
  | .ask q k => eval c (k (q.eval c))

end Prog

/-- What a conversion ends with: its outcome, and the map it was to fill. -/
abbrev Out (K : Type) := Res Bool × CostMap K

/-- Go on from a call on the map, unless it failed. -/
def andThen {A B : Type} (x : Res A × CostMap K) (f : A → CostMap K → Prog K (Res B × CostMap K)) : Prog K (Res B × CostMap K) :=
  match x with
  | (.ok a, m) => f a m
  | (.thrown e, m) => .done (.thrown e, m)
  | (.assertFail, m) => .done (.assertFail, m)
  | (.ub, m) => .done (.ub, m)
  | (.outOfFuel, m) => .done (.outOfFuel, m)

/-- The numbers of cells, as in `Size(getSizeInCellsX(), getSizeInCellsY())` (external). -/
def sizeProg : Prog K (Nat × Nat) := .ask .sizeX fun nx => .ask .sizeY fun ny => .done (nx, ny)

/-- The origin (external). -/
def originProg : Prog K (Vec K) := .ask .originX fun x => .ask .originY fun y => .done ⟨x, y⟩

/-- The given cells of the char map; `none` when one of them is out of bounds. -/
def cellsProg : List Nat → Prog K (Option (List Cost))
  | [] => .done (some [])
  | k :: ks => .ask (.cell k) fun v =>
    match v with
    | none => .done none
    | some v => (cellsProg ks).bind fun vs => .done (vs.map (v :: ·))

/-- `initializeFromCostmap2D` (external; called at converter.cpp 222): resolution, size and origin, then the geometry, then the
frame. -/
def initProg (m : CostMap K) : Prog K (Res Unit × CostMap K) :=
  .ask .resolution fun (r : K) => sizeProg.bind fun n => originProg.bind fun o =>
    andThen (CostMap.setGeometry ⟨n.1 * r, n.2 * r⟩ r ⟨o.x + 1 / 2 * (n.1 * r), o.y + 1 / 2 * (n.2 * r)⟩ m) fun _ m1 =>
      .ask .frame fun f => .done (.ok (), m1.setFrameId f)

/-- `addLayerFromCostmap2D` (external; called at converter.cpp 223): the size is compared, then the char map is read from its end to
its beginning. -/
def addProg (layer : String) (m : CostMap K) : Prog K (Out K) :=
  sizeProg.bind fun n =>
    if m.size ≠ ⟨n.1, n.2⟩ then .done (.ok false, m)
    else if m.startIndex ≠ 0 then .done (.ok false, m)
    else (cellsProg (List.range (n.1 * n.2)).reverse).bind fun d =>
      match d with
      | none => .done (.ub, m)
      | some d =>
        if h : d.length = n.1 * n.2 then .done (Act.bind (CostMap.add layer ⟨n.1, n.2, d, h⟩) (fun _ => Act.pure true) m)
        else .done (.ub, m)

/-- `fromCostmap2DROS` (converter.cpp 222-226), the part under the lock. -/
def fullProg (layer : String) (m : CostMap K) : Prog K (Out K) :=
  (initProg m).bind fun x => andThen x fun _ m1 => addProg layer m1

/-- `initializeFromCostmap2DAtRobotPose` (external; called at converter.cpp 236): the pose of the robot, then the frame and the
time, then resolution and origin. -/
def initRobotProg (geometry : Vec K) (m : CostMap K) : Prog K (Out K) :=
  .ask .robot fun p =>
    match p with
    | none => .done (.ok false, m)
    | some (p : Vec K) =>
      (Prog.ask .frame fun f => .ask .now fun t => .ask .resolution fun (r : K) => originProg.bind fun o =>
        .done (Act.bind (CostMap.setGeometry geometry r
            ⟨CostMap.windowCentre geometry.x p.x o.x r, CostMap.windowCentre geometry.y p.y o.y r⟩) (fun _ => Act.pure true)
          ((m.setFrameId f).setTimestamp t)))

/-- `Costmap2D::worldToMap` (external): the origin, then the resolution, then the size. -/
def worldToMapProg (p : Vec K) : Prog K (Option (Nat × Nat)) :=
  originProg.bind fun o =>
    if p.x < o.x ∨ p.y < o.y then .done none
    else .ask .resolution fun (r : K) => sizeProg.bind fun n =>
      if (truncToInt ((p.x - o.x) / r)).toNat < n.1 ∧ (truncToInt ((p.y - o.y) / r)).toNat < n.2 then
        .done (some ((truncToInt ((p.x - o.x) / r)).toNat, (truncToInt ((p.y - o.y) / r)).toNat))
      else .done none

/-- `Costmap2D::copyCostmapWindow` (external): the corners, the resolution, and the region cell by cell. -/
def windowProg (origin size : Vec K) : Prog K (Res (Option (Costmap2D K))) :=
  (worldToMapProg origin).bind fun a => (worldToMapProg ⟨origin.x + size.x, origin.y + size.y⟩).bind fun b =>
    match a, b with
    | some (x0, y0), some (x1, y1) =>
      .ask .resolution fun r => .ask .sizeX fun (nx : Nat) =>
        (cellsProg ((List.range ((x1 - x0) * (y1 - y0))).map fun k =>
            (y0 + k / (x1 - x0)) * nx + (x0 + k % (x1 - x0)))).bind fun d =>
          match d with
          | none => .done .ub
          | some d => .done (.ok (some ⟨x1 - x0, y1 - y0, r, origin, d⟩))
    | _, _ => .done (.ok none)

/-- `addLayerFromCostmap2DAtRobotPose` (external; called at converter.cpp 239) when the resolution is known. -/
def addRobotProgWith (layer : String) (m : CostMap K) (r : K) : Prog K (Out K) :=
  if m.resolution ≠ r then .done (.ok false, m)
  else (windowProg ⟨m.position.x - m.length.x / 2, m.position.y - m.length.y / 2⟩ m.length).bind fun w =>
    andThen (w, m) fun w m =>
      match w with
      | none => .done (.ok false, m)
      | some w => .done (Act.bind (CostMap.addFromCostmap2D w layer) (fun _ => Act.pure true) m)

/-- `addLayerFromCostmap2DAtRobotPose` (external; called at converter.cpp 239): the window is copied under the lock, the layer is made
of the copy. -/
def addRobotProg (layer : String) (m : CostMap K) : Prog K (Out K) := .ask .resolution fun r => addRobotProgWith layer m r

/-- `fromCostmap2DROSAtRobotPose` (converter.cpp 236-242), the part under the lock. -/
def robotProg (geometry : Vec K) (layer : String) (m : CostMap K) : Prog K (Out K) :=
  (initRobotProg geometry m).bind fun x => andThen x fun b m1 => if b then addRobotProg layer m1 else .done (.ok false, m1)

/-- What a thread does: a conversion into a map of its own, or an update of the costmap, which is a sequence of writes. -/
inductive Call (K : Type) where
  | full (layer : String) (m : CostMap K)
  | atRobot (geometry : Vec K) (layer : String) (m : CostMap K)
  | update (writes : List (Costmap2D K → Costmap2D K))

/-- What a thread has left to do under the lock. -/
inductive Job (K : Type) where
  | convert (p : Prog K (Out K))
  | update (writes : List (Costmap2D K → Costmap2D K))

/-- What a thread has to do under the lock. -/
def Call.job : Call K → Job K
  | .full l m => .convert (fullProg l m)
  | .atRobot g l m => .convert (robotProg g l m)
  | .update ws => .update ws

/-- A thread waits for the lock, holds it, or has released it, with the result of the conversion if it is one. -/
inductive Phase (K : Type) where
  | waiting (j : Job K)
  | inside (j : Job K)
  | finished (r : Option (Out K))

/-- The ROS costmap, the mutex (who holds it), and the threads. -/
structure St (K : Type) where
  ros : Costmap2DROS K
  owner : Option Nat
  threads : List (Phase K)

/-- At the beginning. -/
def init (ros : Costmap2DROS K) (calls : List (Call K)) : St K := ⟨ros, none, calls.map fun c => .waiting c.job⟩

/-- Whose turn it is: a thread, or the environment, which changes the pose of the robot and the time. -/
inductive Turn (K : Type) where
  | thread (i : Nat)
  | moved (robot : Option (Vec K)) (now : Nat)

/-- One step. The lock guards (converter.cpp 221, 235) take the mutex when it is free, and release it when the function returns,
whatever it returns or throws. -/
def step (s : St K) : Turn K → St K
  | .moved p t => { s with ros := { s.ros with robot := p, now := t } }
  | .thread i =>
    match s.threads[i]? with
    | none => s
    | some (.waiting j) => if s.owner = none then { s with owner := some i, threads := s.threads.set i (.inside j) } else s
    | some (.inside (.convert (.done r))) => { s with owner := none, threads := s.threads.set i (.finished (some r)) }
    | some (.inside (.convert (.ask q k))) => { s with threads := s.threads.set i (.inside (.convert (k (q.eval s.ros)))) }
    | some (.inside (.update [])) => { s with owner := none, threads := s.threads.set i (.finished none) }
    | some (.inside (.update (w :: ws))) =>
      { s with ros := { s.ros with costmap := w s.ros.costmap }, threads := s.threads.set i (.inside (.update ws)) }
    | some (.finished _) => s

/-- The state after a schedule. -/
def run (ros : Costmap2DROS K) (calls : List (Call K)) (sched : List (Turn K)) : St K := sched.foldl step (init ros calls)

end Locking
end CostMapModel
