import Mathlib.Algebra.Order.Floor.Ring
import Mathlib.Algebra.Order.Field.Basic
import Mathlib.Tactic.Linarith
import Mathlib.Tactic.Ring

/-!
# Basic vocabulary of the model

Outcomes of a C++ call, indices, positions, costs and matrices.
-/

namespace CostMapModel

/-- The C++ exception classes thrown by the modelled code
(`std::out_of_range`: cost_map.cpp 112-212, 559-566; `std::runtime_error`: cost_map.cpp 193,
utilities.cpp 58; `std::invalid_argument`: utilities.cpp 31; `std::logic_error`:
image_bundles.cpp 50, 62, 65, 74). Messages are dropped. -/
inductive Exn where
  | outOfRange
  | runtimeError
  | invalidArgument
  | logicError
  deriving DecidableEq, Repr

/-- The outcome of a C++ call: a value, an exception, a failed `assert`, undefined behaviour
(for instance an out-of-range Eigen access), or `outOfFuel`, which exists only because the model
runs loops with an explicit bound; theorems exclude it. -/
inductive Res (α : Type) where
  | ok (a : α)
  | thrown (e : Exn)
  | assertFail
  | ub
  | outOfFuel
  deriving DecidableEq, Repr

namespace Res

/-- Sequencing: an exception, failed assertion or undefined behaviour ends the computation. -/
def bind {α β : Type} : Res α → (α → Res β) → Res β
  | ok a, f => f a
  | thrown e, _ => thrown e
  | assertFail, _ => assertFail
  | ub, _ => ub
  | outOfFuel, _ => outOfFuel

/-- Apply a function to a normal result. -/
def map {α β : Type} (f : α → β) (r : Res α) : Res β := r.bind fun a => ok (f a)

/-- A missing value is undefined behaviour (used for out-of-range storage accesses). -/
def ofOption {α : Type} : Option α → Res α
  | some a => ok a
  | none => ub

@[simp] theorem bind_ok {α β : Type} (a : α) (f : α → Res β) : (ok a).bind f = f a := rfl
@[simp] theorem bind_thrown {α β : Type} (e : Exn) (f : α → Res β) :
    (thrown e : Res α).bind f = thrown e := rfl
@[simp] theorem bind_assertFail {α β : Type} (f : α → Res β) :
    (assertFail : Res α).bind f = assertFail := rfl
@[simp] theorem bind_ub {α β : Type} (f : α → Res β) : (ub : Res α).bind f = ub := rfl
@[simp] theorem bind_outOfFuel {α β : Type} (f : α → Res β) :
    (outOfFuel : Res α).bind f = outOfFuel := rfl
@[simp] theorem ofOption_some {α : Type} (a : α) : ofOption (some a) = ok a := rfl
@[simp] theorem ofOption_none {α : Type} : ofOption (none : Option α) = ub := rfl

end Res

/-- A mutating member function: it turns the object's state into an outcome and the state it leaves
behind, also when it throws. -/
abbrev Act (σ α : Type) := σ → Res α × σ

namespace Act

/-- Sequencing of mutating calls (`;` in C++). -/
def bind {σ α β : Type} (m : Act σ α) (f : α → Act σ β) : Act σ β := fun s =>
  match m s with
  | (.ok a, s') => f a s'
  | (.thrown e, s') => (.thrown e, s')
  | (.assertFail, s') => (.assertFail, s')
  | (.ub, s') => (.ub, s')
  | (.outOfFuel, s') => (.outOfFuel, s')

/-- Return a value without changing the state. -/
def pure {σ α : Type} (a : α) : Act σ α := fun s => (.ok a, s)

instance {σ : Type} : Monad (Act σ) where
  pure := pure
  bind := bind

/-- The current state. -/
def get {σ : Type} : Act σ σ := fun s => (.ok s, s)
/-- Change the state. -/
def modify {σ : Type} (f : σ → σ) : Act σ Unit := fun s => (.ok (), f s)
/-- A call that cannot change the state. -/
def read {σ α : Type} (f : σ → Res α) : Act σ α := fun s => (f s, s)

/-- `for (auto& a : as) f(a);` over a vector. -/
def forEach {σ α : Type} (f : α → Act σ Unit) : List α → Act σ Unit
  | [] => pure ()
  | a :: as => bind (f a) fun _ => forEach f as

end Act

/-- `Index`/`Size`, i.e. `Eigen::Array2i` (cost_map_core/include/cost_map_core/common.hpp).
Components are unbounded integers; `Model/Machine.lean` has the index arithmetic in 32 bits. -/
@[ext] structure Idx where
  x : Int
  y : Int
  deriving DecidableEq, Repr

namespace Idx
instance : Add Idx := ⟨fun a b => ⟨a.x + b.x, a.y + b.y⟩⟩
instance : Sub Idx := ⟨fun a b => ⟨a.x - b.x, a.y - b.y⟩⟩
instance : Zero Idx := ⟨⟨0, 0⟩⟩
/-- `Index::Ones()`. -/
def ones : Idx := ⟨1, 1⟩
@[simp] theorem add_x (a b : Idx) : (a + b).x = a.x + b.x := rfl
@[simp] theorem add_y (a b : Idx) : (a + b).y = a.y + b.y := rfl
@[simp] theorem sub_x (a b : Idx) : (a - b).x = a.x - b.x := rfl
@[simp] theorem sub_y (a b : Idx) : (a - b).y = a.y - b.y := rfl
@[simp] theorem zero_x : (0 : Idx).x = 0 := rfl
@[simp] theorem zero_y : (0 : Idx).y = 0 := rfl
@[simp] theorem ones_x : ones.x = 1 := rfl
@[simp] theorem ones_y : ones.y = 1 := rfl
end Idx

/-- `Position`/`Length`/`Vector`, i.e. `Eigen::Vector2d`/`Array2d`. The scalar type `K` stands for
`double`; arithmetic on it is exact. -/
@[ext] structure Vec (K : Type) where
  x : K
  y : K
  deriving DecidableEq, Repr

namespace Vec
variable {K : Type}
instance [Add K] : Add (Vec K) := ⟨fun a b => ⟨a.x + b.x, a.y + b.y⟩⟩
instance [Sub K] : Sub (Vec K) := ⟨fun a b => ⟨a.x - b.x, a.y - b.y⟩⟩
@[simp] theorem add_x [Add K] (a b : Vec K) : (a + b).x = a.x + b.x := rfl
@[simp] theorem add_y [Add K] (a b : Vec K) : (a + b).y = a.y + b.y := rfl
@[simp] theorem sub_x [Sub K] (a b : Vec K) : (a - b).x = a.x - b.x := rfl
@[simp] theorem sub_y [Sub K] (a b : Vec K) : (a - b).y = a.y - b.y := rfl
end Vec

/-- `DataType`, i.e. `unsigned char` (cost_map_core/include/cost_map_core/common.hpp). -/
abbrev Cost := UInt8

/-- `NO_INFORMATION` (cost_map_core/src/lib/common.cpp). -/
def NO_INFORMATION : Cost := 255
/-- `LETHAL_OBSTACLE` (cost_map_core/src/lib/common.cpp). -/
def LETHAL_OBSTACLE : Cost := 254
/-- `INSCRIBED_OBSTACLE` (cost_map_core/src/lib/common.cpp). -/
def INSCRIBED_OBSTACLE : Cost := 253
/-- `FREE_SPACE` (cost_map_core/src/lib/common.cpp). -/
def FREE_SPACE : Cost := 0

/-- A dynamically sized Eigen matrix: dimensions and column-major storage
(cost_map_core/include/cost_map_core/common.hpp: `typedef Eigen::Matrix<DataType, Dynamic, Dynamic>
Matrix`; Eigen's default storage order is column major). -/
structure Mat (α : Type) where
  rows : Nat
  cols : Nat
  data : List α
  size_eq : data.length = rows * cols

namespace Mat
variable {α β : Type}

/-- Whether `(i, j)` addresses an element. -/
def InRange (m : Mat α) (i j : Int) : Prop := 0 ≤ i ∧ i < m.rows ∧ 0 ≤ j ∧ j < m.cols

instance (m : Mat α) (i j : Int) : Decidable (m.InRange i j) := by
  unfold InRange; infer_instance

/-- `m(i, j)`; `none` where Eigen's assertion would fire (undefined behaviour in release builds). -/
def get? (m : Mat α) (i j : Int) : Option α :=
  if m.InRange i j then m.data[(j * m.rows + i).toNat]? else none

/-- The matrix with elements `f i j`. -/
def ofFn (r c : Nat) (f : Int → Int → α) : Mat α where
  rows := r
  cols := c
  data := (List.range (r * c)).map fun k => f ((k % r : Nat) : Int) ((k / r : Nat) : Int)
  size_eq := by simp

/-- `Matrix::Constant(r, c, v)`. -/
def const (r c : Nat) (v : α) : Mat α := ofFn r c fun _ _ => v

/-- A default constructed matrix (0 x 0). -/
def empty : Mat α := ⟨0, 0, [], rfl⟩

/-- Apply a function to every element, given its index. Assignments to elements and blocks are
expressed with it. -/
def mapIdx (m : Mat α) (f : Int → Int → α → β) : Mat β where
  rows := m.rows
  cols := m.cols
  data := m.data.mapIdx fun k a => f ((k % m.rows : Nat) : Int) ((k / m.rows : Nat) : Int) a
  size_eq := by simp [m.size_eq]

/-- `m(i, j) = v` for an index in range. -/
def set (m : Mat α) (i j : Int) (v : α) : Mat α :=
  m.mapIdx fun i' j' a => if i' = i ∧ j' = j then v else a

/-- `m.setConstant(v)`. -/
def setConstant (m : Mat α) (v : α) : Mat α := m.mapIdx fun _ _ _ => v

end Mat

end CostMapModel
