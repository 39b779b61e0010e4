import Verif.Model.History

/-!
# References that are kept

`at` and `atPosition` (cost_map.cpp 161-168, 196-203) return a reference to an element of the array of a layer, `get` and
`operator[]` (121-128, 135-138) a reference to the matrix of a layer. A program may keep one, call other functions on the map, and
read or write through it later. This file models what it refers to by then.

The matrices are the values of a `std::unordered_map` (cost_map.hpp 475), which never moves its values, so a matrix is at the same
place until its layer is erased (144). A matrix allocates a new array when its number of elements changes (`resize`, 647-653, called
by `setGeometry`), and keeps the array when it is assigned a matrix of the same dimensions (99) or resized to as many elements
(Eigen's `DenseStorage::resize`). Within one call the number of elements of a layer changes at most once, and no call erases a
layer and adds it again, so the states before and after a call determine what was allocated anew.

Not modelled: assigning to a whole map, or to a matrix through the reference `get` returns.
-/

namespace CostMapModel

/-- A `cost_map::DataType&` into an array of a layer: which array, and which of its elements. -/
structure CellRef where
  layer : String
  array : Nat
  offset : Nat

/-- A `cost_map::Matrix&`. -/
structure MatrixRef where
  layer : String
  node : Nat

/-- A map and its memory: the number of calls so far, and when the array and the matrix of each layer were allocated. -/
structure InMemory (K : Type) where
  map : CostMap K
  clock : Nat
  array : String → Nat
  node : String → Nat

/-- Whether a layer still has the array it had (see above). -/
def CostMap.sameArray {K : Type} (m m' : CostMap K) (l : String) : Bool :=
  match m.data l, m'.data l with
  | some a, some a' => decide (a.rows * a.cols = a'.rows * a'.cols)
  | _, _ => false

/-- Whether a layer still has the matrix it had (see above). -/
def CostMap.sameMatrix {K : Type} (m m' : CostMap K) (l : String) : Bool := (m.data l).isSome && (m'.data l).isSome

namespace InMemory
variable {K : Type} [Field K] [LinearOrder K] [FloorRing K]

/-- A map before the first call that is looked at. -/
def start (m : CostMap K) : InMemory K := ⟨m, 0, fun _ => 0, fun _ => 0⟩

/-- A call, and what it allocates. -/
def call (c : Call K) : Act (InMemory K) Unit := fun s =>
  let out := c.run s.map
  (out.1, { map := out.2, clock := s.clock + 1,
            array := fun l => if s.map.sameArray out.2 l then s.array l else s.clock + 1,
            node := fun l => if s.map.sameMatrix out.2 l then s.node l else s.clock + 1 })

/-- `auto& r = map.at(layer, index);` (cost_map.cpp 196-203). -/
def refer (s : InMemory K) (l : String) (i : Idx) : Res CellRef :=
  match s.map.data l with
  | none => .thrown .outOfRange
  | some a => if a.InRange i.x i.y then .ok ⟨l, s.array l, (i.y * a.rows + i.x).toNat⟩ else .ub

/-- Reading through a kept reference. An array that is gone is undefined behaviour. -/
def load (s : InMemory K) (r : CellRef) : Res Cost :=
  match s.map.data r.layer with
  | none => .ub
  | some a => if s.array r.layer = r.array then .ofOption a.data[r.offset]? else .ub

/-- `r = v;` through a kept reference. -/
def store (r : CellRef) (v : Cost) : Act (InMemory K) Unit := fun s =>
  match s.map.data r.layer with
  | none => (.ub, s)
  | some a =>
    if s.array r.layer = r.array ∧ r.offset < a.data.length then
      (.ok (), { s with map := s.map.setData r.layer ⟨a.rows, a.cols, a.data.set r.offset v, by simp [a.size_eq]⟩ })
    else (.ub, s)

/-- `auto& r = map.get(layer);` (cost_map.cpp 121-128, 135-138). -/
def referMatrix (s : InMemory K) (l : String) : Res MatrixRef :=
  match s.map.data l with
  | none => .thrown .outOfRange
  | some _ => .ok ⟨l, s.node l⟩

/-- Reading a kept matrix. -/
def loadMatrix (s : InMemory K) (r : MatrixRef) : Res (Mat Cost) :=
  match s.map.data r.layer with
  | none => .ub
  | some a => if s.node r.layer = r.node then .ok a else .ub

end InMemory

/-- A statement of a program that has taken some references: a call, or an access through the `k`-th reference. -/
inductive RefStmt (K : Type) where
  | call (c : Call K)
  | load (k : Nat)
  | store (k : Nat) (v : Cost)

namespace RefStmt
variable {K : Type} [Field K] [LinearOrder K] [FloorRing K]

/-- The program with references kept from its beginning; the result is what it has read. -/
def runKept (rs : List CellRef) : List (RefStmt K) → Act (InMemory K) (List Cost)
  | [] => Act.pure []
  | .call c :: p => Act.bind (InMemory.call c) fun _ => runKept rs p
  | .load k :: p => match rs[k]? with
    | none => fun s => (.ub, s)
    | some r => Act.bind (Act.read fun s => s.load r) fun c => Act.bind (runKept rs p) fun cs => Act.pure (c :: cs)
  | .store k v :: p => match rs[k]? with
    | none => fun s => (.ub, s)
    | some r => Act.bind (InMemory.store r v) fun _ => runKept rs p

/-- The program that calls `at` each time. -/
def runAt (rs : List (String × Idx)) : List (RefStmt K) → Act (CostMap K) (List Cost)
  | [] => Act.pure []
  | .call c :: p => Act.bind c.run fun _ => runAt rs p
  | .load k :: p => match rs[k]? with
    | none => fun s => (.ub, s)
    | some r => Act.bind (Act.read fun m => m.at r.1 r.2) fun c => Act.bind (runAt rs p) fun cs => Act.pure (c :: cs)
  | .store k v :: p => match rs[k]? with
    | none => fun s => (.ub, s)
    | some r => Act.bind (CostMap.setAt r.1 r.2 v) fun _ => runAt rs p

end RefStmt
end CostMapModel
